import Verif.Proof.S19
/-!
One S-record line, 8-bit memories.
-/
namespace Ucsim
open Spec.Hex Spec.S19

theorem hexVal_digit19 (c : Nat) : hexVal (c : Int) = (digit c).map (fun (x : Nat) => (x : Int)) := by
  unfold hexVal digit
  by_cases h1 : 48 ≤ c ∧ c ≤ 57
  · rw [if_pos h1, if_pos (by omega)]; simp only [Option.map_some, Option.some.injEq]; omega
  · rw [if_neg h1, if_neg (by omega)]
    by_cases h2 : 65 ≤ c ∧ c ≤ 70
    · rw [if_pos h2, if_pos (by omega)]; simp only [Option.map_some, Option.some.injEq]; omega
    · rw [if_neg h2, if_neg (by omega)]
      by_cases h3 : 97 ≤ c ∧ c ≤ 102
      · rw [if_pos h3, if_pos (by omega)]; simp only [Option.map_some, Option.some.injEq]; omega
      · rw [if_neg h3, if_neg (by omega)]; rfl

theorem digit_pos19 {c x : Nat} (h : digit c = some x) : 0 < c ∧ x < 16 := by
  unfold digit at h
  split at h
  · cases h; omega
  · split at h
    · cases h; omega
    · split at h
      · cases h; omega
      · cases h

/-- Characters in pairs spell bytes: the text as seen by `h2`, at any place. -/
theorem spells_h2 {text bs : List Nat} (h : Spells text bs) : ∀ (pre tail : List Nat) (i : Nat), i < bs.length →
    h2 (ints (pre ++ (text ++ tail))) (pre.length + 2 * i) = bs.getD i 0 ∧
    chAt (ints (pre ++ (text ++ tail))) (pre.length + 2 * i) ≠ 0 ∧ chAt (ints (pre ++ (text ++ tail))) (pre.length + 2 * i + 1) ≠ 0 := by
  induction h with
  | nil => intro pre tail i hi; simp at hi
  | @cons a b x y t bs ha hb _ ih =>
    intro pre tail i hi
    cases i with
    | zero =>
      have e0 : chAt (ints (pre ++ (a :: b :: t ++ tail))) (pre.length + 2 * 0) = a := by
        unfold chAt; simp [List.getD_eq_getElem?_getD]
      have e1 : chAt (ints (pre ++ (a :: b :: t ++ tail))) (pre.length + 2 * 0 + 1) = b := by
        unfold chAt; simp [List.getD_eq_getElem?_getD]
      have p1 := digit_pos19 ha
      have p2 := digit_pos19 hb
      refine ⟨?_, by rw [e0]; omega, by rw [e1]; omega⟩
      unfold h2
      rw [e0, e1, hexVal_digit19, hexVal_digit19, ha, hb]
      simp only [Option.map_some, List.getD_cons_zero]
      omega
    | succ i =>
      have := ih (pre ++ [a, b]) tail i (by simp at hi; omega)
      have e : (pre ++ [a, b]) ++ (t ++ tail) = pre ++ (a :: b :: t ++ tail) := by simp
      have e2 : (pre ++ [a, b]).length + 2 * i = pre.length + 2 * (i + 1) := by simp; omega
      rw [e, e2] at this
      simpa using this

theorem spells_len19 {text bs : List Nat} (h : Spells text bs) : text.length = 2 * bs.length := by
  induction h with
  | nil => rfl
  | cons _ _ _ ih => simp; omega

theorem spells_lt19 {text bs : List Nat} (h : Spells text bs) : ∀ b ∈ bs, b < 256 := by
  induction h with
  | nil => intro b hb; simp at hb
  | cons ha hb _ ih =>
    intro c hc
    simp only [List.mem_cons] at hc
    rcases hc with rfl | hc
    · have := digit_pos19 ha; have := digit_pos19 hb; omega
    · exact ih c hc

theorem s19Sum_spells {text bs : List Nat} (h : Spells text bs) (pre tail : List Nat) (n : Nat) : ∀ (i : Nat), i + n ≤ bs.length →
    s19Sum (ints (pre ++ (text ++ tail))) n (pre.length + 2 * i) = ((bs.drop i).take n).sum := by
  induction n with
  | zero => intro i _; simp [s19Sum]
  | succ n ih =>
    intro i hi
    obtain ⟨h1, h2, h3⟩ := spells_h2 h pre tail i (by omega)
    unfold s19Sum
    rw [if_pos ⟨h2, h3⟩, h1]
    have := ih (i + 1) (by omega)
    rw [show pre.length + 2 * (i + 1) = pre.length + 2 * i + 2 by omega] at this
    rw [this]
    rw [List.drop_eq_getElem_cons (show i < bs.length by omega), List.take_succ_cons, List.sum_cons]
    rw [List.getD_eq_getElem?_getD, List.getElem?_eq_getElem (by omega)]
    rfl

/-- A right checksum, as the program tests it. -/
theorem s19_line {typ : Nat} {text rest tail : List Nat} (h : Spells text (rest.length :: rest)) (width : Nat) :
    s19Line width (ints (83 :: typ :: (text ++ tail))) =
      if (rest.length :: rest).sum % 256 ≠ 255 then ([], 0)
      else
        let s := ints (83 :: typ :: (text ++ tail))
        if (typ : Int) = 49 then s19 width (a16 s 4) s 8 ((rest.length : Int) - 2 - 1)
        else if (typ : Int) = 50 then s19 width (a24 s 4) s 10 ((rest.length : Int) - 3 - 1)
        else if (typ : Int) = 51 then s19 width (a32 s 4) s 12 ((rest.length : Int) - 4 - 1)
        else ([], 0) := by
  have hl := spells_len19 h
  have hlt := spells_lt19 h
  have hh := fun i hi => spells_h2 h [83, typ] tail i hi
  have hcnt : h2 (ints (83 :: typ :: (text ++ tail))) 2 = rest.length := by
    have := (hh 0 (by simp)).1
    simpa using this
  have hlen : (ints (83 :: typ :: (text ++ tail))).length = 2 + text.length + tail.length := by
    simp only [List.length_map, List.length_cons, List.length_append]; omega
  unfold s19Line
  rw [if_neg (by simp), if_neg (by show ¬ ((83 : Int) ≠ 83); omega), if_neg (by rw [hlen, hl]; simp; omega)]
  simp only [hcnt]
  rw [if_neg (by rw [hlen, hl]; simp; omega)]
  have hsum : s19Sum (ints (83 :: typ :: (text ++ tail))) rest.length 2 = ((rest.length :: rest).take rest.length).sum := by
    have := s19Sum_spells h [83, typ] tail rest.length 0 (by simp)
    simpa using this
  have hchk : h2 (ints (83 :: typ :: (text ++ tail))) (2 + rest.length * 2) = (rest.length :: rest).getD rest.length 0 := by
    have := (hh rest.length (by simp)).1
    rw [show [83, typ].length + 2 * rest.length = 2 + rest.length * 2 by simp; omega] at this
    simpa using this
  rw [hsum, hchk]
  have hsplit : (rest.length :: rest).sum = ((rest.length :: rest).take rest.length).sum + (rest.length :: rest).getD rest.length 0 := by
    have e : ∀ (l : List Nat) (n : Nat), l.length = n + 1 → l.sum = (l.take n).sum + l.getD n 0 := by
      intro l n hl
      have h1 := List.take_append_drop n l
      have h2 : l.drop n = [l.getD n 0] := by
        rw [List.drop_eq_getElem_cons (by omega), List.drop_eq_nil_of_le (by omega), List.getD_eq_getElem?_getD, List.getElem?_eq_getElem (by omega)]
        rfl
      conv => lhs; rw [← h1, h2]
      simp
    exact e _ _ (by simp)
  have hc : (rest.length :: rest).getD rest.length 0 < 256 := by
    apply hlt
    rw [List.getD_eq_getElem?_getD, List.getElem?_eq_getElem (by simp)]
    exact List.getElem_mem _
  by_cases hg : (rest.length :: rest).sum % 256 ≠ 255
  · rw [if_pos hg, if_pos (by omega)]
  · rw [if_neg hg, if_neg (by omega)]
    rfl

theorem s19Loop8 (width : Nat) (hw : width ≤ 8) (s : List Int) (data : List Nat) : ∀ (n a p : Nat), n = data.length →
    (∀ i, i < data.length → h2 s (p + 2 * i) = data.getD i 0) → a < 4294967296 →
    s19Loop width s n a p data.length = (seqAt a data).map fun c => (c.1 % 2 ^ 32, c.2) := by
  induction data with
  | nil => intro n a p hn _ _; subst hn; rfl
  | cons d data ih =>
    intro n a p hn hh ha
    subst hn
    rw [List.length_cons]
    unfold s19Loop
    rw [if_pos (by omega), if_pos hw]
    have h0 := hh 0 (by simp)
    simp only [Nat.mul_zero, Nat.add_zero, List.getD_cons_zero] at h0
    rw [h0]
    have e : ((data.length + 1 : Nat) : Int) - 1 = (data.length : Int) := by omega
    rw [e, ih data.length (u32 (a + 1)) (p + 2) rfl (by
      intro i hi
      have := hh (i + 1) (by simp; omega)
      rw [show p + 2 * (i + 1) = p + 2 + 2 * i by omega] at this
      simpa using this) (by unfold u32; omega)]
    have hs : ∀ (l : List Nat) (a b : Nat), a % 2 ^ 32 = b % 2 ^ 32 →
        (seqAt a l).map (fun c => (c.1 % 2 ^ 32, c.2)) = (seqAt b l).map fun c => (c.1 % 2 ^ 32, c.2) := by
      intro l
      induction l with
      | nil => intros; rfl
      | cons x xs ih =>
        intro a b hab
        simp only [seqAt, List.map_cons, hab]
        rw [ih (a + 1) (b + 1) (by omega)]
    simp only [seqAt, List.map_cons]
    rw [hs data (u32 (a + 1)) (a + 1) (by unfold u32; omega)]
    rw [Nat.mod_eq_of_lt (show a < 2 ^ 32 by omega)]

theorem seqAt_length19 (a : Nat) (l : List Nat) : (seqAt a l).length = l.length := by
  induction l generalizing a with
  | nil => rfl
  | cons x xs ih => simp [seqAt, ih]

theorem getD_append_right' (l1 l2 : List Nat) (i : Nat) : (l1 ++ l2).getD (l1.length + i) 0 = l2.getD i 0 := by
  simp only [List.getD_eq_getElem?_getD]
  rw [List.getElem?_append_right (by omega), Nat.add_sub_cancel_left]

/-- A right data record. -/
theorem s19_data {typ n : Nat} {text addr data tail : List Nat} {chk : Nat} (ht : addrBytes typ = some n) (hn : addr.length = n)
    (h : Spells text ((addr.length + data.length + 1) :: (addr ++ data ++ [chk])))
    (hg : ((addr.length + data.length + 1) :: (addr ++ data ++ [chk])).sum % 256 = 255) (width : Nat) (hw : width ≤ 8) :
    s19Line width (ints (83 :: typ :: (text ++ tail))) = ((seqAt (be addr) data).map fun c => (c.1 % 2 ^ 32, c.2), data.length) := by
  have hlen : (addr ++ data ++ [chk]).length = addr.length + data.length + 1 := by simp; omega
  have h' : Spells text ((addr ++ data ++ [chk]).length :: (addr ++ data ++ [chk])) := by rw [hlen]; exact h
  rw [s19_line h' width, if_neg (by rw [hlen, hg]; omega)]
  have hlt := spells_lt19 h
  have hh : ∀ i, i < addr.length + data.length + 2 → h2 (ints (83 :: typ :: (text ++ tail))) (2 + 2 * i) =
      ((addr.length + data.length + 1) :: (addr ++ data ++ [chk])).getD i 0 := by
    intro i hi
    have := (spells_h2 h [83, typ] tail i (by simp; omega)).1
    simpa using this
  generalize hs : ints (83 :: typ :: (text ++ tail)) = s at hh ⊢
  simp only
  have hdata : ∀ i, i < data.length → h2 s (2 + 2 * (addr.length + 1 + i)) = data.getD i 0 := by
    intro i hi
    rw [hh _ (by omega)]
    rw [show addr.length + 1 + i = (addr.length + i) + 1 by omega, List.getD_cons_succ, List.append_assoc, getD_append_right']
    simp only [List.getD_eq_getElem?_getD]
    rw [List.getElem?_append_left hi]
  have hsc : ∀ a, s19Scale width a = a := by intro a; unfold s19Scale; rw [if_neg (by omega)]
  have fin : ∀ a p, a < 4294967296 → p = 2 + 2 * (addr.length + 1) → a = be addr → ∀ k : Int, k = data.length →
      s19 width a s p k = ((seqAt (be addr) data).map fun c => (c.1 % 2 ^ 32, c.2), data.length) := by
    intro a p ha hp hbe k hk
    subst hk
    unfold s19
    cases data with
    | nil => simp [seqAt]
    | cons d data =>
      rw [if_neg (by simp; omega), hsc]
      rw [show ((d :: data).length : Int).toNat = (d :: data).length by simp]
      rw [s19Loop8 width hw s (d :: data) _ a p rfl (by
        intro i hi
        have := hdata i hi
        rw [hp, show 2 + 2 * (addr.length + 1) + 2 * i = 2 + 2 * (addr.length + 1 + i) by omega]; exact this) ha, hbe]
  unfold addrBytes at ht
  have hab : ∀ b ∈ addr, b < 256 := fun b hb => hlt b (by simp [hb])
  split at ht
  · next e =>
    cases ht
    obtain ⟨x, y, rfl⟩ : ∃ x y, addr = [x, y] := by
      match addr, hn with
      | [x, y], _ => exact ⟨x, y, rfl⟩
    rw [if_pos (by omega)]
    have g1 : h2 s 4 = x := by have := hh 1 (by simp <;> omega); simpa using this
    have g2 : h2 s 6 = y := by have := hh 2 (by simp <;> omega); simpa using this
    have k1 := hab x (by simp); have k2 := hab y (by simp)
    refine fin _ 8 ?_ (by simp) ?_ _ (by simp <;> omega)
    · unfold a16 u32; omega
    · unfold a16 u32 be; rw [g1, g2]; simp only [List.foldl_cons, List.foldl_nil]; omega
  · next e1 =>
    split at ht
    · next e =>
      cases ht
      obtain ⟨x, y, z, rfl⟩ : ∃ x y z, addr = [x, y, z] := by
        match addr, hn with
        | [x, y, z], _ => exact ⟨x, y, z, rfl⟩
      rw [if_neg (by omega), if_pos (by omega)]
      have g1 : h2 s 4 = x := by have := hh 1 (by simp <;> omega); simpa using this
      have g2 : h2 s 6 = y := by have := hh 2 (by simp <;> omega); simpa using this
      have g3 : h2 s 8 = z := by have := hh 3 (by simp <;> omega); simpa using this
      have k1 := hab x (by simp); have k2 := hab y (by simp); have k3 := hab z (by simp)
      refine fin _ 10 ?_ (by simp) ?_ _ (by simp <;> omega)
      · unfold a24 u32; omega
      · unfold a24 u32 be; rw [g1, g2, g3]; simp only [List.foldl_cons, List.foldl_nil]; omega
    · next e2 =>
      split at ht
      · next e =>
        cases ht
        obtain ⟨x, y, z, u, rfl⟩ : ∃ x y z u, addr = [x, y, z, u] := by
          match addr, hn with
          | [x, y, z, u], _ => exact ⟨x, y, z, u, rfl⟩
        rw [if_neg (by omega), if_neg (by omega), if_pos (by omega)]
        have g1 : h2 s 4 = x := by have := hh 1 (by simp <;> omega); simpa using this
        have g2 : h2 s 6 = y := by have := hh 2 (by simp <;> omega); simpa using this
        have g3 : h2 s 8 = z := by have := hh 3 (by simp <;> omega); simpa using this
        have g4 : h2 s 10 = u := by have := hh 4 (by simp <;> omega); simpa using this
        have k1 := hab x (by simp); have k2 := hab y (by simp); have k3 := hab z (by simp); have k4 := hab u (by simp)
        refine fin _ 12 ?_ (by simp) ?_ _ (by simp <;> omega)
        · unfold a32 u32; omega
        · unfold a32 u32 be; rw [g1, g2, g3, g4]; simp only [List.foldl_cons, List.foldl_nil]; omega
      · cases ht

/-- Every line stores what it has to, addresses modulo 2^32. -/
theorem s19Line_spec {t : List Nat} {l : List (Nat × Nat)} (h : Line t l) (width : Nat) (hw : width ≤ 8) :
    s19Line width (ints t) = (l.map (fun c => (c.1 % 2 ^ 32, c.2)), l.length) := by
  cases h with
  | data ht hn hs hg => rw [s19_data ht hn hs hg width hw, seqAt_length19]
  | wrong hs hg => rw [s19_line hs, if_pos hg]; rfl
  | @otherType typ text rest tail hs ht =>
    rw [s19_line hs]
    unfold addrBytes at ht
    have e : ¬ typ = 49 ∧ ¬ typ = 50 ∧ ¬ typ = 51 := by
      refine ⟨?_, ?_, ?_⟩ <;> intro h <;> rw [h] at ht <;> simp at ht
    simp only
    rw [if_neg (show ¬ (typ : Int) = 49 by omega), if_neg (show ¬ (typ : Int) = 50 by omega), if_neg (show ¬ (typ : Int) = 51 by omega)]
    split <;> rfl
  | @noAddr typ n text rest tail hs ht hn =>
    rw [s19_line hs]
    have z : ∀ a s p (k : Int), k < 1 → s19 width a s p k = ([], 0) := by intro a s p k hk; unfold s19; rw [if_pos hk]
    split
    · rfl
    · simp only
      unfold addrBytes at ht
      split at ht
      · cases ht; rw [if_pos (by omega), z _ _ _ _ (by omega)]; rfl
      · split at ht
        · cases ht; rw [if_neg (by omega), if_pos (by omega), z _ _ _ _ (by omega)]; rfl
        · split at ht
          · cases ht; rw [if_neg (by omega), if_neg (by omega), if_pos (by omega), z _ _ _ _ (by omega)]; rfl
          · cases ht
  | noCount hl =>
    unfold s19Line
    split
    · rfl
    · split
      · rfl
      · rw [if_pos (by simpa using hl)]; rfl
  | @short typ cnt text tail hs hl =>
    have hl2 := spells_len19 hs
    have hcnt : h2 (ints (83 :: typ :: (text ++ tail))) 2 = cnt := by
      have := (spells_h2 hs [83, typ] tail 0 (by simp)).1
      simpa using this
    unfold s19Line
    rw [if_neg (by simp), if_neg (by show ¬ ((83 : Int) ≠ 83); omega), if_neg (by simp at hl2 ⊢; omega), hcnt,
      if_pos (by simp at hl ⊢; omega)]
    rfl
  | @other c t hc =>
    unfold s19Line
    rw [if_neg (by simp), if_pos (by show (c : Int) ≠ 83; omega)]
    rfl

end Ucsim
