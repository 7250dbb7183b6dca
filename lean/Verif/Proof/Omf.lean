import Verif.Proof.S19
/-!
The OMF loader on files of records.
-/
namespace Ucsim
open Spec.Hex Spec.S19

theorem omfG_at {f b bs} (h : AtR f (b :: bs)) (hb : b ≠ 255) : ∃ f', omfG f = some (b, f') ∧ At f' bs := by
  obtain ⟨f', h1, h2⟩ := h.get
  have hlt := h.bytes b (by simp)
  refine ⟨f', ?_, h2⟩
  unfold omfG
  rw [h1]
  simp only [Option.map_some]
  congr 2
  unfold File.charVal uchar
  split
  · omega
  · omega

theorem omfG_any {f b bs} (h : At f (b :: bs)) : ∃ v f', omfG f = some (v, f') ∧ At f' bs := by
  obtain ⟨f', h1, h2⟩ := h.get
  exact ⟨_, f', by unfold omfG; rw [h1]; rfl, h2⟩

theorem omfBytes_at (l : List Nat) : ∀ {f : File} {c : Nat} {rest : List Nat}, At f (l ++ c :: rest) → (∀ b ∈ l, b ≠ 255) →
    ∃ f', omfBytes l.length f = some (l, true, f') ∧ At f' (c :: rest) := by
  induction l with
  | nil => intro f c rest h _; exact ⟨f, rfl, h⟩
  | cons b l ih =>
    intro f c rest h hb
    obtain ⟨f1, h1, h2⟩ := omfG_at (At.toR h) (hb b (by simp))
    obtain ⟨f2, h3, h4⟩ := ih h2 (fun x hx => hb x (by simp [hx]))
    refine ⟨f2, ?_, h4⟩
    rw [List.length_cons]
    unfold omfBytes
    have he : f1.eof = false := by rw [h2.eof]; cases l <;> rfl
    rw [h1]
    simp only [he, Bool.false_eq_true, ↓reduceIte, h3]

/-- A record which can be read back: no byte 255 in it but the checksum. -/
structure OmfOk (r : OmfRec) : Prop where
  typ : r.typ < 255
  len : r.body.length + 1 < 65280
  low : (r.body.length + 1) % 256 ≠ 255
  body : ∀ b ∈ r.body, b < 255
  chk : r.chk < 256

theorem omfRead_at {f : File} {r : OmfRec} {rest : List Nat} (hr : OmfOk r) (h : AtR f (r.bytes ++ rest)) :
    ∃ f', omfRead f = some (some (r.typ, r.body), f') ∧ At f' rest := by
  have hl := hr.len
  have ht := hr.typ
  unfold OmfRec.bytes at h
  simp only [List.cons_append, List.append_assoc, List.nil_append] at h
  obtain ⟨f1, h1, a1⟩ := omfG_at h (by omega)
  obtain ⟨f2, h2, a2⟩ := omfG_at a1.toR hr.low
  obtain ⟨f3, h3, a3⟩ := omfG_at a2.toR (by omega)
  obtain ⟨f4, h4, a4⟩ := omfBytes_at r.body a3 (fun b hb => by have := hr.body b hb; omega)
  obtain ⟨v, f5, h5, a5⟩ := omfG_any a4
  refine ⟨f5, ?_, a5⟩
  unfold omfRead
  have e0 : f.eof = false := by rw [h.eof]; rfl
  have e1 : f1.eof = false := by rw [a1.eof]; rfl
  have e2 : f2.eof = false := by rw [a2.eof]; rfl
  have e3 : f3.eof = false := by rw [a3.eof]; cases r.body <;> rfl
  have e4 : ((r.body.length + 1) / 256 * 256 + (r.body.length + 1) % 256 + 65535) % 65536 = r.body.length := by omega
  simp only [e0, e1, e2, e3, h1, h2, h3, e4, h4, h5, Bool.false_eq_true, ↓reduceIte]

theorem omfStores_seq (addr : Nat) (data : List Nat) : ∀ i, addr + i + data.length ≤ 4294967296 →
    omfStores addr i data = seqAt (addr + i) data := by
  induction data with
  | nil => intro i _; rfl
  | cons d data ih =>
    intro i h
    simp only [List.length_cons] at h
    unfold omfStores seqAt
    rw [ih (i + 1) (by omega)]
    unfold u32
    rw [Nat.mod_eq_of_lt (by omega), Nat.add_assoc]

theorem seqAt_shift19 (k : Nat) (l : List Nat) : ∀ a, seqAt (a + k) l = (seqAt a l).map fun c => (c.1 + k, c.2) := by
  induction l with
  | nil => intro a; rfl
  | cons x xs ih =>
    intro a
    simp only [seqAt, List.map_cons]
    rw [show a + k + 1 = (a + 1) + k by omega, ih]

theorem omfRecord_stores {r : OmfRec} (hr : OmfOk r) :
    omfRecord r.typ r.body = r.stores.map fun c => (c.1 + 3, c.2) := by
  have hl := hr.len
  obtain ⟨typ, body, chk⟩ := r
  simp only at hl
  unfold omfRecord OmfRec.stores
  by_cases h : typ = 6
  · subst h
    rw [if_pos rfl]
    match body with
    | [] => rfl
    | [_] => rfl
    | [_, _] => rfl
    | s :: lo :: hi :: data =>
      have b1 := hr.body lo (by simp)
      have b2 := hr.body hi (by simp)
      simp only [List.length_cons] at hl
      have e : omfWord (s :: lo :: hi :: data) 1 = hi * 256 + lo := by
        unfold omfWord
        rw [if_neg (by simp only [List.length_cons]; omega)]
        rfl
      rw [e]
      simp only [List.drop_succ_cons, List.drop_zero]
      rw [omfStores_seq _ _ 3 (by omega), seqAt_shift19]
  · rw [if_neg h]
    simp [h]

theorem omfLoop_at (n : Nat) : ∀ (rs : List OmfRec) (f : File), (∀ r ∈ rs, OmfOk r) → AtR f ((rs.map OmfRec.bytes).flatten) → rs.length < n →
    omfLoop n f = some ((rs.map fun r => r.stores.map fun c => (c.1 + 3, c.2)).flatten) := by
  induction n with
  | zero => intro rs f _ _ h; omega
  | succ n ih =>
    intro rs f hr h hn
    unfold omfLoop
    cases rs with
    | nil =>
      have : f.eof = true := by rw [h.eof]; rfl
      have : omfRead f = some (none, f) := by unfold omfRead; rw [this]; rfl
      rw [this]; rfl
    | cons r rs =>
      simp only [List.map_cons, List.flatten_cons] at h
      obtain ⟨f1, h1, h2⟩ := omfRead_at (hr r (by simp)) h
      rw [h1]
      simp only
      rw [ih rs f1 (fun x hx => hr x (by simp [hx])) h2.toR (by simp at hn; omega), omfRecord_stores (hr r (by simp))]
      simp

theorem omfBytes8 {r : OmfRec} (hr : OmfOk r) : Bytes8 r.bytes := by
  have := hr.typ; have := hr.len; have := hr.chk
  intro b hb
  unfold OmfRec.bytes at hb
  simp only [List.mem_cons, List.mem_append, List.not_mem_nil, or_false] at hb
  rcases hb with rfl | rfl | rfl | hb | rfl
  · omega
  · omega
  · omega
  · have := hr.body b hb; omega
  · omega

theorem readOmf_recs (rs : List OmfRec) (hr : ∀ r ∈ rs, OmfOk r) (hne : rs ≠ []) :
    readOmf (File.open ((rs.map OmfRec.bytes).flatten)) =
      some ((rs.map fun r => r.stores.map fun c => (c.1 + 3, c.2)).flatten, ((rs.map OmfRec.stores).flatten).length) := by
  unfold readOmf
  have hlen : ∀ rs : List OmfRec, 4 * rs.length ≤ ((rs.map OmfRec.bytes).flatten).length := by
    intro rs
    induction rs with
    | nil => simp
    | cons r rs ih => simp [OmfRec.bytes] at ih ⊢; omega
  have h1 := hlen rs
  have h2 : 0 < rs.length := List.length_pos_iff.2 hne
  rw [omfLoop_at _ rs _ hr (AtR.open (by omega) (by
    intro b hb
    simp only [List.mem_flatten, List.mem_map] at hb
    obtain ⟨_, ⟨r, hm, rfl⟩, hb⟩ := hb
    exact omfBytes8 (hr r hm) b hb)) (by show rs.length < ((rs.map OmfRec.bytes).flatten).length + 1; omega)]
  simp only [Option.map_some]
  congr 2
  simp [List.length_flatten, List.map_map, Function.comp_def]

end Ucsim
