import Verif.Proof.S19Rec
import Verif.Proof.Omf
import Verif.Props.Hex
/-!
# C28, C29: S-record and OMF-51 files

`Spec.S19.Line t l` says that the line `t` has to store `l`.
-/
namespace Ucsim.Props
open Ucsim Ucsim.Spec.Hex Ucsim.Spec.S19

/-! ## C28 -/

theorem spells_of_digits : ∀ (n : Nat) (t : List Nat), t.length = 2 * n → (∀ c ∈ t, digit c ≠ none) → ∃ bs, bs.length = n ∧ Spells t bs := by
  intro n
  induction n with
  | zero =>
    intro t h _
    have : t = [] := List.length_eq_zero_iff.1 (by omega)
    subst this
    exact ⟨[], rfl, .nil⟩
  | succ n ih =>
    intro t h hd
    match t, h with
    | a :: b :: t, h =>
      obtain ⟨bs, h1, h2⟩ := ih t (by simp at h; omega) (fun c hc => hd c (by simp [hc]))
      obtain ⟨x, hx⟩ := Option.ne_none_iff_exists'.1 (hd a (by simp))
      obtain ⟨y, hy⟩ := Option.ne_none_iff_exists'.1 (hd b (by simp))
      exact ⟨(16 * x + y) :: bs, by simp [h1], .cons hx hy h2⟩
    | [_], h => simp at h; omega

/-- Every line, whose characters after the type are hex digits if it starts with
an `S`, is covered by the specification. -/
theorem c28_covered (t : List Nat) (hd : ∀ c ∈ t.drop 2, digit c ≠ none) : ∃ l, Spec.S19.Line t l := by
  match t, hd with
  | [], _ => exact ⟨[], .noCount (by simp)⟩
  | [c], _ => exact ⟨[], .noCount (by simp)⟩
  | [c, d], _ => exact ⟨[], .noCount (by simp)⟩
  | [c, d, e], _ => exact ⟨[], .noCount (by simp)⟩
  | c :: typ :: a :: b :: rs, hd =>
    by_cases hc : c = 83
    · subst hc
      simp only [List.drop_succ_cons, List.drop_zero] at hd
      obtain ⟨x, hx⟩ := Option.ne_none_iff_exists'.1 (hd a (by simp))
      obtain ⟨y, hy⟩ := Option.ne_none_iff_exists'.1 (hd b (by simp))
      by_cases hs : (a :: b :: rs).length < 2 + 2 * (16 * x + y)
      · exact ⟨[], .short (text := [a, b]) (tail := rs) (.cons hx hy .nil) hs⟩
      · simp only [List.length_cons] at hs
        obtain ⟨rest, h1, h2⟩ := spells_of_digits (16 * x + y) (rs.take (2 * (16 * x + y))) (by rw [List.length_take]; omega)
          (fun c hc => hd c (by simp [List.mem_of_mem_take hc]))
        have hsp : Spells (a :: b :: rs.take (2 * (16 * x + y))) (rest.length :: rest) := by
          rw [h1]; exact .cons hx hy h2
        have e : a :: b :: rs = (a :: b :: rs.take (2 * (16 * x + y))) ++ rs.drop (2 * (16 * x + y)) := by
          simp
        rw [e]
        by_cases hg : (rest.length :: rest).sum % 256 ≠ 255
        · exact ⟨[], .wrong hsp hg⟩
        · cases ht : addrBytes typ with
          | none => exact ⟨[], .otherType hsp ht⟩
          | some n =>
            by_cases hn : rest.length < n + 1
            · exact ⟨[], .noAddr hsp ht hn⟩
            · have hsplit : rest = rest.take n ++ (rest.drop n).dropLast ++ [(rest.drop n).getLast (by intro h; rw [List.drop_eq_nil_iff] at h; omega)] := by
                rw [List.append_assoc, List.dropLast_concat_getLast, List.take_append_drop]
              have hl : rest.length = (rest.take n).length + (rest.drop n).dropLast.length + 1 := by
                conv => lhs; rw [hsplit]
                simp only [List.length_append, List.length_singleton]
              refine ⟨_, .data (addr := rest.take n) (data := (rest.drop n).dropLast)
                (chk := (rest.drop n).getLast (by intro h; rw [List.drop_eq_nil_iff] at h; omega)) ht (by rw [List.length_take]; omega) ?_ ?_⟩
              · rw [← hl, ← hsplit]; exact hsp
              · rw [← hl, ← hsplit]; omega
    · exact ⟨[], .other hc⟩

/-- C28, the stores: loading a text file of lines ended by newline characters
into a memory of at most 8 bits performs exactly the stores of its lines, in
order (addresses modulo 2^32). -/
theorem c28_stores_partial (width : Nat) (hw : width ≤ 8) (ls : List (List Nat × Nat)) (hL : Lines ls)
    (hlen : 2 ≤ (fileOf ls).length) (st : List Nat × Nat → List (Nat × Nat)) (hst : ∀ x ∈ ls, Spec.S19.Line x.1 (st x)) :
    readS19 width (File.open (fileOf ls)) =
      some (((ls.map st).flatten).map (fun c => (c.1 % 2 ^ 32, c.2)), ((ls.map st).flatten).length) := by
  rw [readS19_lines width ls hL hlen]
  have h1 : (ls.map fun x => (s19Line width (ints x.1)).1) = ls.map fun x => (st x).map fun c => (c.1 % 2 ^ 32, c.2) :=
    List.map_congr_left (fun x hx => by rw [s19Line_spec (hst x hx) width hw])
  have h2 : (ls.map fun x => (s19Line width (ints x.1)).2) = ls.map fun x => (st x).length :=
    List.map_congr_left (fun x hx => by rw [s19Line_spec (hst x hx) width hw])
  rw [h1, h2]
  simp [List.map_flatten, List.map_map, List.length_flatten, Function.comp_def]

/-- Loading an S-record file (`read_s19_file`, uc.cc 2126-2194, with `set_rom`). -/
def loadS19 (env : Env) (is : InSpec) (w : World) (bytes : List Nat) : Option World :=
  (readS19 (is.width env w) (File.open bytes)).map fun r => w.setRoms env is r.1

/-- C28, contents: after loading into a chip of at most 8 bits every element
holds what the lines store in it last, or its old contents; nothing else
changes. -/
theorem c28_chip_partial (env : Env) (is : InSpec) (w : World) (k : Nat) (ht : is.tgt = .chip k) (hp : is.Plain)
    (h1 : 1 ≤ (env.chips k).width) (h2 : (env.chips k).width ≤ 8) (ls : List (List Nat × Nat)) (hL : Lines ls)
    (hlen : 2 ≤ (fileOf ls).length) (st : List Nat × Nat → List (Nat × Nat)) (hst : ∀ x ∈ ls, Spec.S19.Line x.1 (st x)) :
    ∃ w', loadS19 env is w (fileOf ls) = some w' ∧
      (∀ a, a < (env.chips k).size → chipRead env w' k a =
        match lastStore (((ls.map st).flatten).map (fun c => (c.1 % 2 ^ 32, c.2))) a with
        | some v => v % 2 ^ (env.chips k).width
        | none => chipRead env w k a) ∧
      (∀ k' a, k' ≠ k → chipRead env w' k' a = chipRead env w k' a) ∧ w'.spaces = w.spaces := by
  unfold loadS19
  have hwid : is.width env w = (env.chips k).width := by unfold InSpec.width; rw [ht]
  rw [hwid, c28_stores_partial _ h2 ls hL hlen st hst]
  refine ⟨_, rfl, ?_⟩
  refine load_chip env is w k ht hp h1 (by omega) _ ?_
  have hseq : ∀ (l : List Nat) (a : Nat), (∀ b ∈ l, b < 256) → ∀ c ∈ seqAt a l, c.2 < 256 := by
    intro l
    induction l with
    | nil => intro a _ c hc; simp [seqAt] at hc
    | cons x xs ih =>
      intro a hb c hc
      simp only [seqAt, List.mem_cons] at hc
      rcases hc with rfl | hc
      · exact hb x (by simp)
      · exact ih _ (fun b hb' => hb b (by simp [hb'])) c hc
  have hline : ∀ t l, Spec.S19.Line t l → ∀ c ∈ l, c.2 < 256 := by
    intro t l h
    cases h with
    | data _ _ hs _ => exact hseq _ _ (fun b hb => spells_lt19 hs b (by simp [hb]))
    | _ => intro c hc; simp at hc
  intro c hc
  simp only [List.mem_map, List.mem_flatten] at hc
  obtain ⟨c', ⟨l, ⟨x, hx, rfl⟩, hc'⟩, rfl⟩ := hc
  have := hline _ _ (hst x hx) c' hc'
  exact ⟨by simp only; omega, by simp only; omega⟩

/-- Two records, S1 and S2, with CR LF. -/
example : ∃ st : List Nat × Nat → List (Nat × Nat), (∀ x ∈ [(chars "S106123401020DA3", 13), ([], 10), (chars "S205ABCDEF55", 10), (chars "hello", 10)], Spec.S19.Line x.1 (st x)) ∧
    Lines [(chars "S106123401020DA3", 13), ([], 10), (chars "S205ABCDEF55", 10), (chars "hello", 10)] ∧
    st (chars "S106123401020DA3", 13) = [(0x1234, 1), (0x1235, 2), (0x1236, 13)] := by
  refine ⟨fun x => if x.1 = chars "S106123401020DA3" then [(0x1234, 1), (0x1235, 2), (0x1236, 13)] else [], ?_, ?_, rfl⟩
  · intro x hx
    simp only [List.mem_cons, List.not_mem_nil, or_false] at hx
    rcases hx with rfl | rfl | rfl | rfl
    · exact Spec.S19.Line.data (text := chars "06123401020DA3") (addr := [0x12, 0x34]) (data := [1, 2, 13]) (chk := 0xA3) (tail := [])
        (n := 2) rfl rfl
        (.cons (x := 0) (y := 6) rfl rfl (.cons (x := 1) (y := 2) rfl rfl (.cons (x := 3) (y := 4) rfl rfl (.cons (x := 0) (y := 1) rfl rfl
          (.cons (x := 0) (y := 2) rfl rfl (.cons (x := 0) (y := 13) rfl rfl (.cons (x := 10) (y := 3) rfl rfl .nil))))))) (by decide)
    · exact .noCount (by decide)
    · exact .short (typ := 50) (cnt := 5) (text := chars "05") (tail := chars "ABCDEF55") (.cons (x := 0) (y := 5) rfl rfl .nil) (by decide)
    · exact .other (by decide)
  · intro x hx
    simp only [List.mem_cons, List.not_mem_nil, or_false] at hx
    rcases hx with rfl | rfl | rfl | rfl <;> exact ⟨by unfold TextLine; decide, by decide⟩

/-- C28 is false for the last line of a file without a newline after it: the
record is not loaded (the same file with a newline is). -/
theorem c28_last_false :
    readS19 8 (File.open (chars "S10512340102B1")) = some ([], 0) ∧
    readS19 8 (File.open (chars "S10512340102B1\n")) = some ([(0x1234, 1), (0x1235, 2)], 2) := by decide +kernel

/-- Characters that are not hex digits count as zeros: the line is stored. -/
theorem c28_digits_false :
    readS19 8 (File.open (chars "S1051234Zz??B4\n")) = some ([(0x1234, 0), (0x1235, 0)], 2) := by decide +kernel

/-- In memories of 16, 24 and 32 bits: the address 0x1230 is divided by 24, by 12
and by 4. -/
theorem c28_wide_false :
    (readS19 16 (File.open (chars "S10712300102030AA6\n"))).map (·.1) = some [(0x1230 / 24, 0x0201), (0x1230 / 24 + 1, 0x0a03)] ∧
    (readS19 24 (File.open (chars "S106123001020AAA\n"))).map (·.1) = some [(0x1230 / 12, 0x0a0201)] ∧
    (readS19 32 (File.open (chars "S10712300102030AA6\n"))).map (·.1) = some [(0x1230 / 4, 0x0a030201)] := by decide +kernel

/-- Loading a file of fewer than two characters never returns. -/
theorem s19_hang_short (width : Nat) (l : List Nat) (h : l.length < 2) : readS19 width (File.open l) = none := by
  match l, h with
  | [], _ => rfl
  | [b], _ =>
    have g : (File.open [b]).getC = some (File.charVal b false, ⟨[], [], false⟩) := rfl
    have e : (File.open [b]).getS = none := by
      unfold File.getS
      rw [g]
      show (match getSSkip 1 (File.charVal b false) ⟨[], [], false⟩ with
        | none => none
        | some (none, f) => some ([], f)
        | some (some c, f) => if f.eof then some ([], f) else match f.getC with
          | none => none
          | some (c', f) => getSLoop (f.left.length + 1) (appendChar [] c) c' f) = none
      unfold getSSkip
      by_cases hn : isNl (File.charVal b false) = true
      · rw [if_pos hn]; rfl
      · rw [if_neg hn]; rfl
    unfold readS19
    show s19Read width 2 (File.open [b]) = none
    unfold s19Read
    rw [e]; rfl

/-! ## C29 -/

/-- C29 as far as it holds: from a file of OMF records the loader stores every
byte of data of every content record, in order, and nothing else - but three
addresses too high.  Records without a byte 255 (see `c29_ff_false`). -/
theorem c29_shifted_partial (rs : List OmfRec) (hr : ∀ r ∈ rs, OmfOk r) (hne : rs ≠ []) :
    readOmf (File.open ((rs.map OmfRec.bytes).flatten)) =
      some (((rs.map OmfRec.stores).flatten).map (fun c => (c.1 + 3, c.2)), ((rs.map OmfRec.stores).flatten).length) := by
  rw [readOmf_recs rs hr hne]
  simp [List.map_flatten, List.map_map, Function.comp_def]

/-- C29 is false of every file with some data. -/
theorem c29_false (rs : List OmfRec) (hr : ∀ r ∈ rs, OmfOk r) (hd : (rs.map OmfRec.stores).flatten ≠ []) (n : Nat) :
    readOmf (File.open ((rs.map OmfRec.bytes).flatten)) ≠ some ((rs.map OmfRec.stores).flatten, n) := by
  rw [c29_shifted_partial rs hr (by intro h; subst h; exact hd rfl)]
  intro h
  simp only [Option.some.injEq, Prod.mk.injEq] at h
  have h := h.1
  generalize (rs.map OmfRec.stores).flatten = l at h hd
  cases l with
  | nil => exact hd rfl
  | cons c cs =>
    simp only [List.map_cons, List.cons.injEq] at h
    have := congrArg Prod.fst h.1
    simp only at this
    omega

/-- Two records, a header and contents: the hypotheses are met. -/
example : ∀ r ∈ [OmfRec.mk 2 [1, 65] 0, OmfRec.mk 6 [0, 0x34, 0x12, 7, 8] 9], OmfOk r := by
  intro r hr
  simp only [List.mem_cons, List.not_mem_nil, or_false] at hr
  rcases hr with rfl | rfl <;> exact ⟨by decide, by decide, by decide, by decide, by decide⟩

example : (readOmf (File.open [2, 3, 0, 1, 65, 0, 6, 6, 0, 0, 0x34, 0x12, 7, 8, 9])).map (·.1) = some [(0x1237, 7), (0x1238, 8)] := by decide +kernel

/-- A byte 255 near the end of the file is stored as 0, the checksum is not
looked at. -/
theorem c29_ff_false :
    (readOmf (File.open (OmfRec.mk 6 [0, 0, 0, 255, 1] 77).bytes)).map (·.1) = some [(3, 0), (4, 1)] := by decide +kernel

end Ucsim.Props
