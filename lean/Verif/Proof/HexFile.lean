import Verif.Proof.Hex
import Verif.Spec.Hex
/-!
The HEX parser on files made of records.
-/
namespace Ucsim
open Spec.Hex

theorem hexVal_digit {c x : Nat} (h : digit c = some x) :
    hexVal (c : Int) = some (x : Int) ∧ ¬ badChar c ∧ c < 128 ∧ c ≠ 58 ∧ x < 16 := by
  unfold digit at h
  unfold hexVal badChar
  split at h
  · simp only [Option.some.injEq] at h
    rw [if_pos (by omega)]; simp only [Option.some.injEq]; omega
  · split at h
    · simp only [Option.some.injEq] at h
      rw [if_neg (by omega), if_pos (by omega)]; simp only [Option.some.injEq]; omega
    · split at h
      · simp only [Option.some.injEq] at h
        rw [if_neg (by omega), if_neg (by omega), if_pos (by omega)]; simp only [Option.some.injEq]; omega
      · cases h

theorem strtol2_digits {a b x y : Nat} (ha : digit a = some x) (hb : digit b = some y) :
    strtol2 a b = ((16 * x + y : Nat) : Int) := by
  unfold strtol2
  rw [(hexVal_digit ha).1, (hexVal_digit hb).1]
  simp only; omega

theorem lByte_digits {a b x y : Nat} (ha : digit a = some x) (hb : digit b = some y) (t : List Nat) :
    lByte (a :: b :: t) = (some ((16 * x + y : Nat) : Int), t) := by
  unfold lByte
  simp only [(hexVal_digit ha).2.1, (hexVal_digit hb).2.1, ↓reduceIte, strtol2_digits ha hb]

theorem spells_cons {t : List Nat} {v : Nat} {bs : List Nat} (h : Spells t (v :: bs)) :
    ∃ t', (∀ r, lByte (t ++ r) = (some (v : Int), t' ++ r)) ∧ Spells t' bs := by
  cases h with
  | cons ha hb ht =>
    rename_i a b x y t'
    exact ⟨t', fun r => by simpa using lByte_digits ha hb (t' ++ r), ht⟩

theorem spells_nil {t : List Nat} (h : Spells t []) : t = [] := by cases h; rfl

theorem spells_ascii {t bs : List Nat} (h : Spells t bs) : ∀ c ∈ t, c ≠ 58 ∧ c < 128 := by
  induction h with
  | nil => simp
  | cons ha hb _ ih =>
    intro c hc
    simp only [List.mem_cons] at hc
    rcases hc with rfl | rfl | hc
    · exact ⟨(hexVal_digit ha).2.2.2.1, (hexVal_digit ha).2.2.1⟩
    · exact ⟨(hexVal_digit hb).2.2.2.1, (hexVal_digit hb).2.2.1⟩
    · exact ih c hc

theorem lInt1 {f f' : List Nat} {v : Nat} (h : lByte f = (some (v : Int), f')) :
    lInt 1 0 f = ((v : Int), true, f') := by
  unfold lInt; rw [h]; simp [lInt]

theorem lInt2 {f f' f'' : List Nat} {v w : Nat} (h : lByte f = (some (v : Int), f'))
    (h' : lByte f' = (some (w : Int), f'')) :
    lInt 2 0 f = (((v * 256 + w : Nat) : Int), true, f'') := by
  unfold lInt; rw [h]; simp only
  unfold lInt; rw [h']; simp [lInt]

theorem uchar_nat {v : Nat} (h : v < 256) : uchar (v : Int) = v := by unfold uchar; omega
theorem uint_nat {v : Nat} (h : v < 4294967296) : uint (v : Int) = v := by unfold uint; omega

theorem lData_spells (data : List Nat) : ∀ {t bs : List Nat}, (∀ b ∈ data, b < 256) → Spells t (data ++ bs) →
    ∃ t', (∀ r, lData data.length (t ++ r) = (data, true, t' ++ r)) ∧ Spells t' bs := by
  induction data with
  | nil => intro t bs _ h; exact ⟨t, fun r => rfl, h⟩
  | cons d ds ih =>
    intro t bs hb h
    obtain ⟨t1, h1, h2⟩ := spells_cons h
    obtain ⟨t2, h3, h4⟩ := ih (fun b hbm => hb b (by simp [hbm])) h2
    refine ⟨t2, fun r => ?_, h4⟩
    rw [List.length_cons]
    unfold lData
    rw [lInt1 (h1 r)]
    simp only [↓reduceIte, h3 r, uchar_nat (hb d (by simp))]

theorem sumOf_eq (l : List Nat) : sumOf l = l.sum := by
  unfold sumOf
  rw [List.sum_eq_foldl]

/-- State of the loader after a line. -/
def lineSt (width : Nat) (h : Hex) (r : Line) : Hex :=
  let h := { h with addr := r.addr, rtyp := r.typ }
  if r.good then h.record width r.typ r.data else h

theorem lLine_ok (width : Nat) (h : Hex) (r : Line) (hr : r.Ok) (rest : List Nat) :
    lLine width h (r.text ++ rest) = (lineSt width h r, true, rest) := by
  obtain ⟨h1, h2, h3, h4, h5, h6, h7⟩ := hr
  obtain ⟨t1, e1, s1⟩ := spells_cons h2
  obtain ⟨t2, e2, s2⟩ := spells_cons s1
  obtain ⟨t3, e3, s3⟩ := spells_cons s2
  obtain ⟨t4, e4, s4⟩ := spells_cons s3
  obtain ⟨t5, e5, s5⟩ := lData_spells r.data h6 s4
  obtain ⟨t6, e6, s6⟩ := spells_cons s5
  have := spells_nil s6; subst this
  unfold lLine
  rw [lInt1 (e1 rest)]; simp only
  rw [lInt2 (e2 rest) (e3 rest)]; simp only
  rw [lInt1 (e4 rest)]; simp only
  rw [uchar_nat h5, uchar_nat h4, e5 rest]; simp only [↓reduceIte]
  rw [lInt1 (e6 rest)]; simp only [↓reduceIte, List.nil_append]
  rw [uchar_nat h7, uint_nat (by omega), show r.addr / 256 * 256 + r.addr % 256 = r.addr by omega]
  unfold lineSt
  have hg : ((r.sum + (r.data.length + r.addr % 256 + r.addr / 256 % 256 + r.typ + sumOf r.data) % 256) % 256 = 0) ↔ r.good := by
    unfold Line.good Line.bytes
    rw [sumOf_eq]
    simp only [List.sum_cons, List.sum_append, List.sum_nil]
    omega
  simp only
  by_cases hgd : r.good
  · rw [if_pos (hg.2 hgd), if_pos hgd]
  · rw [if_neg (fun x => hgd (hg.1 x)), if_neg hgd]

theorem lSkip_gap (gap t : List Nat) (h : ∀ c ∈ gap, c ≠ 58 ∧ c < 256) :
    lSkip (gap ++ 58 :: t) = some (true, t) := by
  induction gap with
  | nil => rfl
  | cons a g ih =>
    simp only [List.cons_append, lSkip]
    rw [if_neg (h a (by simp)).1, if_neg (by simp)]
    exact ih (fun c hc => h c (by simp [hc]))

theorem lSkip_none (rest : List Nat) (h : ∀ c ∈ rest, c ≠ 58) (hne : rest ≠ []) :
    lSkip rest = some (false, []) := by
  induction rest with
  | nil => exact absurd rfl hne
  | cons a g ih =>
    simp only [lSkip]
    rw [if_neg (h a (by simp))]
    by_cases hg : g = []
    · rw [if_pos hg]
    · rw [if_neg hg]; exact ih (fun c hc => h c (by simp [hc])) hg

/-- State of the loader after the lines of a file (up to an end record). -/
def linesSt (width : Nat) (h : Hex) : List Line → Hex
  | [] => h
  | r :: rs => if r.typ = 1 then lineSt width h r else linesSt width (lineSt width h r) rs

theorem store_fields (h : Hex) (v : Nat) : (h.store v).rtyp = h.rtyp := rfl

theorem byte_rtyp (width : Nat) (h : Hex) (b : Nat) : (h.byte width b).rtyp = h.rtyp := by
  unfold Hex.byte
  simp only
  split
  · rfl
  · split
    · split
      · rfl
      · split <;> rfl
    · split
      · split
        · rfl
        · split
          · rfl
          · split
            · rfl
            · split <;> rfl
      · rfl

theorem bytes_rtyp (width : Nat) (data : List Nat) : ∀ h : Hex, (data.foldl (Hex.byte width) h).rtyp = h.rtyp := by
  induction data with
  | nil => intro h; rfl
  | cons d ds ih => intro h; rw [List.foldl_cons, ih, byte_rtyp]

theorem record_rtyp (width : Nat) (h : Hex) (t : Nat) (data : List Nat) : (h.record width t data).rtyp = h.rtyp := by
  unfold Hex.record
  split
  · rw [bytes_rtyp]
  · split
    · split <;> rfl
    · rfl

theorem lineSt_rtyp (width : Nat) (h : Hex) (r : Line) : (lineSt width h r).rtyp = r.typ := by
  unfold lineSt
  simp only
  split
  · rw [record_rtyp]
  · rfl

theorem lLoop_lines (width : Nat) (ls : List Line) : ∀ (n : Nat) (h : Hex) (rest : List Nat),
    (∀ r ∈ ls, r.Ok) → ls.length < n →
    ((∃ r ∈ ls, r.typ = 1) ∨ (rest ≠ [] ∧ ∀ c ∈ rest, c ≠ 58)) →
    lLoop width n h (fileText ls rest) = some (linesSt width h ls) := by
  induction ls with
  | nil =>
    intro n h rest _ hn hend
    rcases hend with ⟨r, hr, _⟩ | ⟨h1, h2⟩
    · simp at hr
    · cases n with
      | zero => simp at hn
      | succ n =>
        unfold lLoop fileText
        simp only [List.map_nil, List.flatten_nil, List.nil_append, lSkip_none rest h2 h1]
        rfl
  | cons r rs ih =>
    intro n h rest hok hn hend
    cases n with
    | zero => simp at hn
    | succ n =>
      have hr := hok r (by simp)
      have htext : fileText (r :: rs) rest = r.gap ++ 58 :: (r.text ++ fileText rs rest) := by
        simp [fileText, Line.chars, List.append_assoc]
      rw [htext]
      unfold lLoop
      rw [lSkip_gap r.gap _ hr.gap]
      simp only [↓reduceIte, lLine_ok width h r hr, lineSt_rtyp, true_and]
      unfold linesSt
      by_cases h1 : r.typ = 1
      · simp [h1]
      · simp only [h1, ↓reduceIte, not_false_eq_true, ne_eq]
        refine ih n _ rest (fun x hx => hok x (by simp [hx])) (by simp at hn; omega) ?_
        rcases hend with ⟨x, hx, hx1⟩ | hend
        · simp only [List.mem_cons] at hx
          rcases hx with rfl | hx
          · exact absurd hx1 h1
          · exact Or.inl ⟨x, hx, hx1⟩
        · exact Or.inr hend

theorem fileText_len (ls : List Line) (rest : List Nat) (hok : ∀ r ∈ ls, r.Ok) :
    ls.length ≤ (fileText ls rest).length := by
  induction ls with
  | nil => simp
  | cons r rs ih =>
    have := ih (fun x hx => hok x (by simp [hx]))
    simp only [fileText, List.map_cons, List.flatten_cons, List.length_append, List.length_cons, Line.chars] at this ⊢
    omega

theorem line_long (r : Line) (h : r.Ok) : 10 ≤ r.text.length := by
  have : ∀ {t bs}, Spells t bs → t.length = 2 * bs.length := by
    intro t bs hs
    induction hs with
    | nil => rfl
    | cons _ _ _ ih => simp only [List.length_cons, ih]; omega
  rw [this h.text]
  simp [Line.bytes]; omega

theorem fileText_bytes (ls : List Line) (rest : List Nat) (hok : ∀ r ∈ ls, r.Ok) (hb : ∀ c ∈ rest, c < 256) :
    Bytes8 (fileText ls rest) := by
  intro b hbm
  simp only [fileText, List.mem_append, List.mem_flatten, List.mem_map] at hbm
  rcases hbm with ⟨_, ⟨r, hr, rfl⟩, h2⟩ | h
  · have h := hok r hr
    simp only [Line.chars, List.mem_append, List.mem_cons] at h2
    rcases h2 with h2 | rfl | h2
    · exact (h.gap b h2).2
    · omega
    · have := (spells_ascii h.text b h2).2; omega
  · exact hb b h

/-- Loading a file of syntactically right records which has an end record or
something after the last record. -/
theorem readHex_lines (width : Nat) (ls : List Line) (rest : List Nat) (hok : ∀ r ∈ ls, r.Ok)
    (hb : ∀ c ∈ rest, c < 256)
    (hend : (∃ r ∈ ls, r.typ = 1) ∨ (rest ≠ [] ∧ ∀ c ∈ rest, c ≠ 58))
    (hlen : ls ≠ [] ∨ 2 ≤ rest.length) :
    readHex width (File.open (fileText ls rest)) =
      some (((linesSt width Hex.init ls).tail width).calls, (linesSt width Hex.init ls).written) := by
  have h2 : (fileText ls rest).length ≠ 1 := by
    rcases hlen with hne | hl
    · obtain ⟨r, rs, rfl⟩ := List.exists_cons_of_ne_nil hne
      have := line_long r (hok r (by simp))
      simp only [fileText, List.map_cons, List.flatten_cons, List.length_append, Line.chars, List.length_cons]; omega
    · simp only [fileText, List.length_append]; omega
  rw [readHex_eq width _ h2 (fileText_bytes ls rest hok hb),
    lLoop_lines width ls _ _ rest hok (by have := fileText_len ls rest hok; omega) hend]
  rfl

/-! ### 8-bit memories -/

/-- Store addresses are `uint`. -/
def wrap (l : List (Nat × Nat)) : List (Nat × Nat) := l.map fun c => (u32 c.1, c.2)

theorem bytes8 (width : Nat) (hw : width ≤ 8) (data : List Nat) : ∀ (h : Hex),
    (data.foldl (Hex.byte width) h).base = h.base ∧
    (data.foldl (Hex.byte width) h).calls = h.calls ++ wrap (seqAt (h.base + h.addr) data) ∧
    (data.foldl (Hex.byte width) h).written = h.written + data.length := by
  induction data with
  | nil => intro h; simp [seqAt, wrap]
  | cons d ds ih =>
    intro h
    rw [List.foldl_cons]
    obtain ⟨h1, h2, h3⟩ := ih (h.byte width d)
    rw [h1, h2, h3]
    have hb : h.byte width d = h.store d := by unfold Hex.byte; rw [if_pos hw]
    rw [hb]
    refine ⟨rfl, ?_, ?_⟩
    · simp only [Hex.store, seqAt, wrap, List.map_cons, List.append_assoc, List.singleton_append]
      congr 2
      have hs : ∀ (l : List Nat) (a b : Nat), u32 a = u32 b →
          (seqAt a l).map (fun c => (u32 c.1, c.2)) = (seqAt b l).map (fun c => (u32 c.1, c.2)) := by
        intro l
        induction l with
        | nil => intros; rfl
        | cons x xs ih => intro a b hab; simp only [seqAt, List.map_cons, hab]; rw [ih (a+1) (b+1)]; unfold u32 at *; omega
      apply hs
      unfold u32; omega
    · simp only [Hex.store, List.length_cons]; omega

theorem tail8 (width : Nat) (hw : width ≤ 8) (h : Hex) : h.tail width = h := by
  unfold Hex.tail; rw [if_neg (by omega)]

theorem wrap_append (a b : List (Nat × Nat)) : wrap (a ++ b) = wrap a ++ wrap b := by simp [wrap]

theorem wrap_length (a : List (Nat × Nat)) : (wrap a).length = a.length := by simp [wrap]

theorem seqAt_length (a : Nat) (l : List Nat) : (seqAt a l).length = l.length := by
  induction l generalizing a with
  | nil => rfl
  | cons x xs ih => simp [seqAt, ih]

theorem u32_base {a b : Nat} (ha : a < 256) (hb : b < 256) : u32 ((a * 256 + b) * 65536) = (a * 256 + b) * 65536 := by
  unfold u32; omega

theorem linesSt8 (width : Nat) (hw : width ≤ 8) (ls : List Line) : ∀ (h : Hex), (∀ r ∈ ls, r.Ok) →
    (linesSt width h ls).calls = h.calls ++ wrap (stores h.base ls) ∧
    (linesSt width h ls).written = h.written + (stores h.base ls).length := by
  induction ls with
  | nil => intro h _; simp [linesSt, stores, wrap]
  | cons r rs ih =>
    intro h hok
    have ih' := fun h' => ih h' (fun x hx => hok x (by simp [hx]))
    have hr := hok r (by simp)
    unfold linesSt stores
    have hl : lineSt width h r = if r.good then Hex.record width { h with addr := r.addr, rtyp := r.typ } r.typ r.data
      else { h with addr := r.addr, rtyp := r.typ } := rfl
    by_cases h1 : r.typ = 1
    · rw [if_pos h1, if_pos h1, hl]
      split
      · unfold Hex.record; rw [h1]; simp [wrap]
      · simp [wrap]
    · rw [if_neg h1, if_neg h1, hl]
      by_cases hg : r.good
      · rw [if_pos hg, if_pos hg]
        unfold Hex.record
        by_cases h0 : r.typ = 0
        · rw [if_pos h0, if_pos h0]
          obtain ⟨e1, e2, e3⟩ := bytes8 width hw r.data { h with addr := scale width r.addr, rtyp := r.typ }
          obtain ⟨i1, i2⟩ := ih' (List.foldl (Hex.byte width) { h with addr := scale width r.addr, rtyp := r.typ } r.data)
          rw [i1, i2, e1, e2, e3]
          simp only [scale, show ¬ width > 8 by omega, ↓reduceIte, wrap_append, List.append_assoc,
            List.length_append, seqAt_length, true_and]
          omega
        · rw [if_neg h0, if_neg h0]
          by_cases h4 : r.typ = 4
          · rw [if_pos h4]
            by_cases hl2 : 2 ≤ r.data.length
            · rw [if_pos hl2, if_pos ⟨h4, hl2⟩]
              rw [u32_base]
              · exact ih' { h with addr := r.addr, rtyp := r.typ, base := (r.data.getD 0 0 * 256 + r.data.getD 1 0) * 65536 }
              · apply hr.data; rw [List.getD_eq_getElem?_getD, List.getElem?_eq_getElem (by omega)]; exact List.getElem_mem _
              · apply hr.data; rw [List.getD_eq_getElem?_getD, List.getElem?_eq_getElem (by omega)]; exact List.getElem_mem _
            · rw [if_neg hl2, if_neg (fun x => hl2 x.2)]
              exact ih' { h with addr := r.addr, rtyp := r.typ }
          · rw [if_neg h4, if_neg (fun x => h4 x.1)]
            exact ih' { h with addr := r.addr, rtyp := r.typ }
      · rw [if_neg hg, if_neg hg]
        exact ih' { h with addr := r.addr, rtyp := r.typ }

end Ucsim
