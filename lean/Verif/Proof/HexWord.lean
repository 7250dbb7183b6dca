import Verif.Proof.HexFile
/-!
HEX loading into memories of 16 and 32 bits, and arbitrary text files.
-/
namespace Ucsim
open Spec.Hex

/-- Nothing is waiting for its upper bytes. -/
structure Hex.Clean (h : Hex) : Prop where
  low : h.getLow = 0
  lows : h.lows.length = 4

theorem getD_set_eq (l : List Nat) (i b : Nat) (h : i < l.length) : (l.set i b).getD i 0 = b := by
  rw [List.getD_eq_getElem?_getD, List.getElem?_set_self h]; rfl

theorem getD_set_ne (l : List Nat) (i j b : Nat) (h : i ≠ j) : (l.set i b).getD j 0 = l.getD j 0 := by
  rw [List.getD_eq_getElem?_getD, List.getElem?_set_ne h, ← List.getD_eq_getElem?_getD]

theorem byte16 (width : Nat) (h1 : 8 < width) (h2 : width ≤ 16) (h : Hex) (hc : h.Clean) (a b : Nat) (ha : a < 256) (hb : b < 256) :
    ∃ h', (h.byte width a).byte width b = h' ∧ h'.Clean ∧ h'.calls = h.calls ++ [(u32 (h.base + h.addr), b * 256 + a)] ∧
      h'.base = h.base ∧ h'.addr = u32 (h.addr + 1) ∧ h'.rtyp = h.rtyp := by
  obtain ⟨e1, e2⟩ := hc
  refine ⟨_, rfl, ?_⟩
  have s1 : h.byte width a = { h with lows := h.lows.set 0 a, getLow := 1 } := by
    unfold Hex.byte
    rw [if_neg (show ¬ width ≤ 8 by omega), if_pos h2, if_pos e1, e1]
  rw [s1]
  unfold Hex.byte
  rw [if_neg (show ¬ width ≤ 8 by omega), if_pos h2]
  simp only [Nat.one_ne_zero, ↓reduceIte, Hex.store]
  refine ⟨⟨rfl, by simp [e2]⟩, ?_, trivial, trivial, trivial⟩
  rw [getD_set_eq _ _ _ (by simp; omega), getD_set_ne _ _ _ _ (by omega), getD_set_eq _ _ _ (by omega)]
  simp only [u32]
  rw [show (b * 256 + a) % 4294967296 = b * 256 + a by omega]

theorem byte32 (width : Nat) (h1 : 16 < width) (h2 : width ≤ 32) (h : Hex) (hc : h.Clean) (a b c d : Nat)
    (ha : a < 256) (hb : b < 256) (hc' : c < 256) (hd : d < 256) :
    ∃ h', (((h.byte width a).byte width b).byte width c).byte width d = h' ∧ h'.Clean ∧
      h'.calls = h.calls ++ [(u32 (h.base + h.addr), d * 16777216 + c * 65536 + b * 256 + a)] ∧
      h'.base = h.base ∧ h'.addr = u32 (h.addr + 1) ∧ h'.rtyp = h.rtyp := by
  obtain ⟨e1, e2⟩ := hc
  refine ⟨_, rfl, ?_⟩
  have n8 : ¬ width ≤ 8 := by omega
  have n16 : ¬ width ≤ 16 := by omega
  have s1 : h.byte width a = { h with lows := h.lows.set 0 a, getLow := 1 } := by
    unfold Hex.byte
    rw [if_neg n8, if_neg n16, if_pos h2, if_pos e1, e1]
  have s2 : ({ h with lows := h.lows.set 0 a, getLow := 1 } : Hex).byte width b =
      { h with lows := (h.lows.set 0 a).set 1 b, getLow := 2 } := by
    unfold Hex.byte
    rw [if_neg n8, if_neg n16, if_pos h2]; rfl
  have s3 : ({ h with lows := (h.lows.set 0 a).set 1 b, getLow := 2 } : Hex).byte width c =
      { h with lows := ((h.lows.set 0 a).set 1 b).set 2 c, getLow := 3 } := by
    unfold Hex.byte
    rw [if_neg n8, if_neg n16, if_pos h2]; rfl
  rw [s1, s2, s3]
  unfold Hex.byte
  rw [if_neg n8, if_neg n16, if_pos h2]
  simp only [show ¬ (3 = 0) by omega, show ¬ (3 = 1) by omega, show ¬ (3 = 2) by omega, ↓reduceIte, Hex.store]
  refine ⟨⟨rfl, rfl⟩, ?_, trivial, trivial, trivial⟩
  congr 2
  congr 1
  unfold lowsWord
  rw [getD_set_eq _ _ _ (by simp; omega), getD_set_ne _ _ _ _ (by omega), getD_set_eq _ _ _ (by simp; omega),
    getD_set_ne _ _ _ _ (by omega), getD_set_ne _ _ _ _ (by omega), getD_set_eq _ _ _ (by simp; omega),
    getD_set_ne _ _ _ _ (by omega), getD_set_ne _ _ _ _ (by omega), getD_set_ne _ _ _ _ (by omega), getD_set_eq _ _ _ (by omega)]
  unfold u32; omega

/-- Bytes of a word for the memories whose words the loader assembles. -/
def wordBytes (width k : Nat) : Prop := (8 < width ∧ width ≤ 16 ∧ k = 2) ∨ (24 < width ∧ width ≤ 32 ∧ k = 4)

theorem le_cons2 (w : Nat) (ws : List Nat) : le 2 (w :: ws) = w % 256 :: w / 256 % 256 :: le 2 ws := by
  simp [le, List.range_succ_eq_map]

theorem le_cons4 (w : Nat) (ws : List Nat) :
    le 4 (w :: ws) = w % 256 :: w / 256 % 256 :: w / 65536 % 256 :: w / 16777216 % 256 :: le 4 ws := by
  simp [le, List.range_succ_eq_map]

theorem seqAt_wrap_congr : ∀ (l : List Nat) (a b : Nat), u32 a = u32 b → wrap (seqAt a l) = wrap (seqAt b l) := by
  intro l
  induction l with
  | nil => intros; rfl
  | cons x xs ih =>
    intro a b hab
    simp only [seqAt, wrap, List.map_cons, hab]
    have := ih (a + 1) (b + 1) (by unfold u32 at *; omega)
    unfold wrap at this
    rw [this]

theorem words_run (width k : Nat) (hk : wordBytes width k) (ws : List Nat) : ∀ (h : Hex), h.Clean → (∀ w ∈ ws, w < 256 ^ k) →
    ((le k ws).foldl (Hex.byte width) h).Clean ∧
    ((le k ws).foldl (Hex.byte width) h).calls = h.calls ++ wrap (seqAt (h.base + h.addr) ws) ∧
    ((le k ws).foldl (Hex.byte width) h).base = h.base := by
  induction ws with
  | nil => intro h hc _; simp [le, seqAt, wrap, hc]
  | cons w ws ih =>
    intro h hc hw
    have hw0 := hw w (by simp)
    have step : ∃ h', (le k (w :: ws)).foldl (Hex.byte width) h = (le k ws).foldl (Hex.byte width) h' ∧ h'.Clean ∧
        h'.calls = h.calls ++ [(u32 (h.base + h.addr), w)] ∧ h'.base = h.base ∧ h'.addr = u32 (h.addr + 1) := by
      rcases hk with ⟨h1, h2, rfl⟩ | ⟨h1, h2, rfl⟩
      · obtain ⟨h', e, c, e1, e2, e3, _⟩ := byte16 width h1 h2 h hc (w % 256) (w / 256 % 256) (by omega) (by omega)
        refine ⟨h', by rw [le_cons2, List.foldl_cons, List.foldl_cons, e], c, ?_, e2, e3⟩
        rw [e1]; congr 3; omega
      · obtain ⟨h', e, c, e1, e2, e3, _⟩ := byte32 width (by omega) h2 h hc (w % 256) (w / 256 % 256) (w / 65536 % 256)
          (w / 16777216 % 256) (by omega) (by omega) (by omega) (by omega)
        refine ⟨h', by rw [le_cons4, List.foldl_cons, List.foldl_cons, List.foldl_cons, List.foldl_cons, e], c, ?_, e2, e3⟩
        rw [e1]; congr 3; omega
    obtain ⟨h', e, c, e1, e2, e3⟩ := step
    obtain ⟨i1, i2, i3⟩ := ih h' c (fun x hx => hw x (by simp [hx]))
    rw [e]
    refine ⟨i1, ?_, by rw [i3, e2]⟩
    rw [i2, e1, e2, e3]
    simp only [seqAt, wrap, List.map_cons, List.append_assoc, List.singleton_append]
    have := seqAt_wrap_congr ws (h.base + u32 (h.addr + 1)) (h.base + h.addr + 1) (by unfold u32; omega)
    unfold wrap at this
    rw [this]

/-- Address field of the record read last. -/
def lastAddr (a : Nat) : List Line → Nat
  | [] => a
  | r :: rs => if r.typ = 1 then r.addr else lastAddr a rs

theorem scale_k {width k : Nat} (hk : wordBytes width k) (a : Nat) : scale width a = a / k := by
  unfold scale
  rcases hk with ⟨h1, h2, rfl⟩ | ⟨h1, h2, rfl⟩
  · rw [if_pos h1, if_pos h2]
  · rw [if_pos (by omega), if_neg (by omega), if_neg (by omega), if_pos h2]

theorem linesW (width k : Nat) (hk : wordBytes width k) (ws : Line → List Nat) (ls : List Line) : ∀ (h : Hex), h.Clean → h.base = 0 →
    (∀ r ∈ ls, r.Ok ∧ r.typ ≠ 4 ∧ (r.typ = 0 → r.data = le k (ws r) ∧ ∀ w ∈ ws r, w < 256 ^ k)) →
    (linesSt width h ls).Clean ∧ (linesSt width h ls).calls = h.calls ++ wrap (storesWords k ws ls) ∧
    (∀ r ∈ ls, r.typ = 1 → ∃ r' ∈ ls, r'.typ = 1 ∧ (linesSt width h ls).addr = r'.addr) := by
  induction ls with
  | nil => intro h hc _ _; simp [linesSt, storesWords, wrap, hc]
  | cons r rs ih =>
    intro h hc hb hok
    have ih' := fun h' a b => ih h' a b (fun x hx => hok x (by simp [hx]))
    obtain ⟨hr, h4, hd⟩ := hok r (by simp)
    unfold linesSt storesWords
    have hl : lineSt width h r = if r.good then Hex.record width { h with addr := r.addr, rtyp := r.typ } r.typ r.data
      else { h with addr := r.addr, rtyp := r.typ } := rfl
    have hlift : ∀ {h' : Hex}, (∀ x ∈ rs, x.typ = 1 → ∃ r' ∈ rs, r'.typ = 1 ∧ h'.addr = r'.addr) → r.typ ≠ 1 →
        ∀ x ∈ r :: rs, x.typ = 1 → ∃ r' ∈ r :: rs, r'.typ = 1 ∧ h'.addr = r'.addr := by
      intro h' hx hne x hxm hx1
      simp only [List.mem_cons] at hxm
      rcases hxm with rfl | hxm
      · exact absurd hx1 hne
      · obtain ⟨r', a, b⟩ := hx x hxm hx1
        exact ⟨r', by simp [a], b⟩
    by_cases h1 : r.typ = 1
    · rw [if_pos h1, if_pos h1]
      have e : lineSt width h r = { h with addr := r.addr, rtyp := r.typ } := by
        rw [hl]; unfold Hex.record; rw [h1]; simp
      rw [e]
      exact ⟨⟨hc.1, hc.2⟩, by simp [wrap], fun x _ _ => ⟨r, by simp, h1, rfl⟩⟩
    · rw [if_neg h1, if_neg h1, hl]
      by_cases hg : r.good
      · rw [if_pos hg]
        unfold Hex.record
        by_cases h0 : r.typ = 0
        · rw [if_pos h0, if_pos ⟨hg, h0⟩, (hd h0).1]
          simp only
          rw [scale_k hk]
          obtain ⟨e1, e2, e3⟩ := words_run width k hk (ws r) { h with addr := r.addr / k, rtyp := r.typ } ⟨hc.1, hc.2⟩ (hd h0).2
          obtain ⟨i1, i2, i3⟩ := ih' _ e1 (by rw [e3]; exact hb)
          refine ⟨i1, ?_, hlift i3 h1⟩
          rw [i2, e2]
          simp only [hb, Nat.zero_add, wrap_append, List.append_assoc]
        · rw [if_neg h0, if_neg h4, if_neg (fun x => h0 x.2)]
          obtain ⟨i1, i2, i3⟩ := ih' { h with addr := r.addr, rtyp := r.typ } ⟨hc.1, hc.2⟩ hb
          exact ⟨i1, i2, hlift i3 h1⟩
      · rw [if_neg hg, if_neg (fun x => hg x.1)]
        obtain ⟨i1, i2, i3⟩ := ih' { h with addr := r.addr, rtyp := r.typ } ⟨hc.1, hc.2⟩ hb
        exact ⟨i1, i2, hlift i3 h1⟩

theorem tail_clean (width : Nat) (hw : 8 < width) (h : Hex) (hc : h.Clean) :
    (h.tail width).calls = h.calls ++ [(h.addr, 0)] := by
  unfold Hex.tail
  rw [if_pos hw]
  simp [hc.1, lowsWord, u32, List.replicate]

/-! ### Arbitrary text files -/

/-- Values of pairs of characters as `strtol` gives them. -/
inductive Pairs : List Nat → List Int → Prop
  | nil : Pairs [] []
  | cons (a b : Nat) {t : List Nat} {vs : List Int} : Pairs t vs → Pairs (a :: b :: t) (strtol2 a b :: vs)

/-- A text: no NUL, no byte over 127. -/
def Ascii (l : List Nat) : Prop := ∀ c ∈ l, 0 < c ∧ c < 128

theorem Pairs.append {t t' : List Nat} {vs vs' : List Int} (h : Pairs t vs) (h' : Pairs t' vs') : Pairs (t ++ t') (vs ++ vs') := by
  induction h with
  | nil => exact h'
  | cons a b _ ih => exact Pairs.cons a b ih

theorem not_bad {c : Nat} (h : 0 < c ∧ c < 128) : ¬ badChar c := by unfold badChar; omega

theorem Ascii.suffix {p l : List Nat} (h : Ascii (p ++ l)) : Ascii l := fun c hc => h c (by simp [hc])

theorem lByte_ascii {l : List Nat} (h : Ascii l) :
    (∃ a b t, l = a :: b :: t ∧ lByte l = (some (strtol2 a b), t)) ∨ lByte l = (none, []) := by
  unfold lByte
  cases l with
  | nil => exact Or.inr rfl
  | cons a t =>
    simp only
    rw [if_neg (not_bad (h a (by simp)))]
    cases t with
    | nil => exact Or.inr rfl
    | cons b t =>
      simp only
      rw [if_neg (not_bad (h b (by simp)))]
      exact Or.inl ⟨a, b, t, rfl, rfl⟩

theorem lInt1_ascii {l : List Nat} (h : Ascii l) :
    (∃ p t v, l = p ++ t ∧ Pairs p [v] ∧ lInt 1 0 l = (v, true, t)) ∨ lInt 1 0 l = (0, false, []) := by
  rcases lByte_ascii h with ⟨a, b, t, rfl, e⟩ | e
  · left
    refine ⟨[a, b], t, strtol2 a b, rfl, Pairs.cons a b .nil, ?_⟩
    unfold lInt; rw [e]; simp [lInt]
  · right; unfold lInt; rw [e]

theorem lInt2_ascii {l : List Nat} (h : Ascii l) :
    (∃ p t v w, l = p ++ t ∧ Pairs p [v, w] ∧ lInt 2 0 l = (v * 256 + w, true, t)) ∨ lInt 2 0 l = (0, false, []) := by
  rcases lByte_ascii h with ⟨a, b, t, rfl, e⟩ | e
  · rcases lByte_ascii (l := t) (fun c hc => h c (by simp [hc])) with ⟨a', b', t', rfl, e'⟩ | e'
    · left
      refine ⟨[a, b, a', b'], t', strtol2 a b, strtol2 a' b', rfl, Pairs.cons a b (Pairs.cons a' b' .nil), ?_⟩
      unfold lInt; rw [e]; simp only
      unfold lInt; rw [e']; simp [lInt]
    · right; unfold lInt; rw [e]; simp only; unfold lInt; rw [e']
  · right; unfold lInt; rw [e]

theorem lData_ascii (n : Nat) : ∀ {l : List Nat}, Ascii l → (lData n l).2.1 = true →
    ∃ p vs, l = p ++ (lData n l).2.2 ∧ Pairs p vs ∧ vs.length = n ∧ (lData n l).1 = vs.map uchar := by
  induction n with
  | zero => intro l _ _; exact ⟨[], [], rfl, .nil, rfl, rfl⟩
  | succ n ih =>
    intro l h hok
    rcases lInt1_ascii h with ⟨p, t, v, rfl, hp, e⟩ | e
    · unfold lData at hok ⊢
      simp only [e, ↓reduceIte] at hok ⊢
      obtain ⟨p', vs, e1, e2, e3, e4⟩ := ih (l := t) (fun c hc => h c (by simp [hc])) hok
      refine ⟨p ++ p', v :: vs, ?_, hp.append e2, by simp [e3], by simp [e4]⟩
      rw [List.append_assoc, ← e1]
    · unfold lData at hok
      simp [e] at hok

/-- The call comes from a data record with a right checksum in the text. -/
def FromRecord (file : List Nat) (c : Nat × Nat) : Prop :=
  ∃ pre text post : List Nat, file = pre ++ 58 :: (text ++ post) ∧
    ∃ (n a1 a2 t s : Int) (data : List Int), Pairs text (n :: a1 :: a2 :: t :: (data ++ [s])) ∧
      data.length = uchar n ∧ uchar t = 0 ∧
      (uchar n + uint (a1 * 256 + a2) % 256 + uint (a1 * 256 + a2) / 256 % 256 + uchar t
        + (data.map uchar).sum + uchar s) % 256 = 0 ∧
      ∃ base i : Nat, i < data.length ∧ c = (u32 (base + uint (a1 * 256 + a2) + i), uchar (data.getD i 0))

theorem seqAt_mem {l : List Nat} : ∀ {a : Nat} {c : Nat × Nat}, c ∈ seqAt a l → ∃ i, i < l.length ∧ c = (a + i, l.getD i 0) := by
  induction l with
  | nil => intro a c h; simp [seqAt] at h
  | cons x xs ih =>
    intro a c h
    simp only [seqAt, List.mem_cons] at h
    rcases h with rfl | h
    · exact ⟨0, by simp, by simp⟩
    · obtain ⟨i, h1, rfl⟩ := ih h
      exact ⟨i + 1, by simp; omega, by simp; omega⟩

theorem record8_calls (width : Nat) (hw : width ≤ 8) (h : Hex) (t : Nat) (data : List Nat) :
    (h.record width t data).calls = h.calls ++ (if t = 0 then wrap (seqAt (h.base + h.addr) data) else []) := by
  unfold Hex.record
  split
  · rw [(bytes8 width hw data _).2.1]
    simp [scale, show ¬ 8 < width by omega]
  · split
    · split <;> simp
    · simp

theorem lLine_from (width : Nat) (hw : width ≤ 8) (h : Hex) (l : List Nat) (hA : Ascii l) (file pre : List Nat)
    (hf : file = pre ++ 58 :: l) :
    (∃ cs, (lLine width h l).1.calls = h.calls ++ cs ∧ ∀ c ∈ cs, FromRecord file c) ∧
    ((lLine width h l).2.1 = true → ∃ p, l = p ++ (lLine width h l).2.2) := by
  unfold lLine
  simp only
  have hnil : ∀ n v, lInt (n + 1) v [] = (0, false, []) := by intro n v; rfl
  rcases lInt1_ascii hA with ⟨p1, l1, n, rfl, q1, e1⟩ | e1
  rotate_left
  · rw [e1]; simp only [hnil]
    exact ⟨⟨[], by simp⟩, by simp⟩
  rw [e1]; simp only
  have hA1 := hA.suffix
  rcases lInt2_ascii hA1 with ⟨p2, l2, a1, a2, rfl, q2, e2⟩ | e2
  rotate_left
  · rw [e2]; simp only [hnil]
    exact ⟨⟨[], by simp⟩, by simp⟩
  rw [e2]; simp only
  have hA2 := hA1.suffix
  rcases lInt1_ascii hA2 with ⟨p3, l3, t, rfl, q3, e3⟩ | e3
  rotate_left
  · rw [e3]; simp only
    exact ⟨⟨[], by simp⟩, by simp⟩
  rw [e3]; simp only [↓reduceIte]
  have hA3 := hA2.suffix
  cases hok : (lData (uchar n) l3).2.1 with
  | false => exact ⟨⟨[], by simp⟩, by simp⟩
  | true =>
    obtain ⟨p4, vs, el, q4, hlen, e4⟩ := lData_ascii (uchar n) hA3 hok
    simp only [↓reduceIte]
    rw [e4]
    generalize hl4 : (lData (uchar n) l3).2.2 = l4 at *
    have hA4 : Ascii l4 := by rw [el] at hA3; exact hA3.suffix
    rcases lInt1_ascii hA4 with ⟨p5, l5, s, rfl, q5, e5⟩ | e5
    rotate_left
    · rw [e5]; simp only
      exact ⟨⟨[], by simp⟩, by simp⟩
    rw [e5]; simp only [↓reduceIte]
    have hlist : p1 ++ (p2 ++ (p3 ++ l3)) = (p1 ++ (p2 ++ (p3 ++ (p4 ++ p5)))) ++ l5 := by
      rw [el]; simp [List.append_assoc]
    split
    · rename_i hsum
      refine ⟨⟨if uchar t = 0 then wrap (seqAt (h.base + uint (a1 * 256 + a2)) (vs.map uchar)) else [], ?_, ?_⟩, fun _ => ⟨_, hlist⟩⟩
      · rw [record8_calls width hw]
      · intro c hc
        split at hc
        · rename_i ht0
          simp only [wrap, List.mem_map] at hc
          obtain ⟨c', hc', rfl⟩ := hc
          obtain ⟨i, hi, rfl⟩ := seqAt_mem hc'
          refine ⟨pre, p1 ++ (p2 ++ (p3 ++ (p4 ++ p5))), l5, by rw [hf, hlist], n, a1, a2, t, s, vs, ?_, hlen, ht0, ?_, ?_⟩
          · exact q1.append (q2.append (q3.append (q4.append q5)))
          · rw [sumOf_eq] at hsum; omega
          · simp only [List.length_map] at hi
            refine ⟨h.base, i, hi, ?_⟩
            simp only [Prod.mk.injEq, true_and]
            simp only [List.getD_eq_getElem?_getD, List.getElem?_map, List.getElem?_eq_getElem hi]
            rfl
        · simp at hc
    · exact ⟨⟨[], by simp⟩, fun _ => ⟨_, hlist⟩⟩

theorem lSkip_from : ∀ {l t : List Nat}, lSkip l = some (true, t) → ∃ p, l = p ++ 58 :: t := by
  intro l
  induction l with
  | nil => intro t h; cases h
  | cons a l ih =>
    intro t h
    simp only [lSkip] at h
    split at h
    · rename_i ha
      simp only [Option.some.injEq, Prod.mk.injEq, true_and] at h
      exact ⟨[], by rw [ha, h]; rfl⟩
    · split at h
      · simp at h
      · obtain ⟨p, rfl⟩ := ih h
        exact ⟨a :: p, rfl⟩

theorem lLoop_from (width : Nat) (hw : width ≤ 8) (n : Nat) : ∀ (h h' : Hex) (l file pre : List Nat), file = pre ++ l → Ascii file →
    lLoop width n h l = some h' → ∃ cs, h'.calls = h.calls ++ cs ∧ ∀ c ∈ cs, FromRecord file c := by
  induction n with
  | zero => intro h h' l file pre _ _ e; cases e
  | succ n ih =>
    intro h h' l file pre hf hA e
    unfold lLoop at e
    rcases hs : lSkip l with _ | ⟨found, t⟩
    · rw [hs] at e; cases e
    · rw [hs] at e
      cases found with
      | false =>
        simp only [Bool.false_eq_true, ↓reduceIte, Option.some.injEq] at e
        exact ⟨[], by rw [e]; simp, by simp⟩
      | true =>
        simp only [↓reduceIte] at e
        obtain ⟨p, rfl⟩ := lSkip_from hs
        have hf' : file = (pre ++ p) ++ 58 :: t := by rw [hf, List.append_assoc]
        have hAt : Ascii t := by intro c hc; exact hA c (by rw [hf']; simp [hc])
        obtain ⟨⟨cs, c1, c2⟩, c3⟩ := lLine_from width hw h t hAt file (pre ++ p) hf'
        by_cases hgo : (lLine width h t).2.1 = true ∧ (lLine width h t).1.rtyp ≠ 1
        · rw [if_pos hgo] at e
          obtain ⟨q, hq⟩ := c3 hgo.1
          obtain ⟨cs', d1, d2⟩ := ih _ h' _ file (pre ++ p ++ 58 :: q) (by rw [hf']; conv => lhs; rw [hq]
                                                                           simp [List.append_assoc]) hA e
          refine ⟨cs ++ cs', by rw [d1, c1, List.append_assoc], ?_⟩
          intro c hc
          simp only [List.mem_append] at hc
          rcases hc with hc | hc
          · exact c2 c hc
          · exact d2 c hc
        · rw [if_neg hgo] at e
          simp only [Option.some.injEq] at e
          exact ⟨cs, by rw [← e, c1], c2⟩

end Ucsim
