import Verif.Fio.Edit

namespace Ucsim.Fio

def Printable (c : Byte) : Prop := 32 ≤ c ∧ c ≤ 126

theorem Printable.ne {c : Byte} (h : Printable c) : c ≠ 0 ∧ c ≠ 10 := by
  have : ∀ c : Byte, (32 ≤ c ∧ c ≤ 126) → c ≠ 0 ∧ c ≠ 10 := by decide
  exact this c h

/-- the string `s` is in the buffer -/
structure RepL (line : Nat → Byte) (s : List Byte) : Prop where
  len : s.length ≤ 1023
  pr : ∀ c ∈ s, Printable c
  at' : ∀ i, i ≤ s.length → line i = s.getD i 0

theorem getD_zero {s : List Byte} {i : Nat} (h : s.length ≤ i) : s.getD i 0 = 0 := by
  simp [List.getD, List.getElem?_eq_none h]

theorem getD_ne {s : List Byte} (h : ∀ c ∈ s, Printable c) {i : Nat} (hi : i < s.length) :
    s.getD i 0 ≠ 0 := by
  simp only [List.getD, List.getElem?_eq_getElem hi, Option.getD_some]
  exact (h _ (List.getElem_mem hi)).ne.1

theorem getD_append (a b : List Byte) (d : Byte) (i : Nat) :
    (a ++ b).getD i d = if i < a.length then a.getD i d else b.getD (i - a.length) d := by
  simp only [List.getD, List.getElem?_append]
  split <;> rfl

theorem getD_drop (a : List Byte) (d : Byte) (n i : Nat) : (a.drop n).getD i d = a.getD (n + i) d := by
  simp only [List.getD, List.getElem?_drop]

theorem getD_out (a : List Byte) (d : Byte) {i : Nat} (h : a.length ≤ i) : a.getD i d = d := by
  simp [List.getD, List.getElem?_eq_none h]

theorem getD_dropLast (a : List Byte) (d : Byte) (i : Nat) :
    a.dropLast.getD i d = if i < a.length - 1 then a.getD i d else d := by
  simp only [List.getD, List.dropLast_eq_take, List.getElem?_take]
  split <;> rfl

theorem RepL.zero {line s} (h : RepL line s) : line s.length = 0 := by
  rw [h.at' _ (Nat.le_refl _), getD_zero (Nat.le_refl _)]

theorem RepL.nz {line s} (h : RepL line s) {i} (hi : i < s.length) : line i ≠ 0 := by
  rw [h.at' _ (Nat.le_of_lt hi)]; exact getD_ne h.pr hi

theorem RepL.eq0 {line s} (h : RepL line s) {i} (hi : i ≤ s.length) : line i = 0 ↔ i = s.length := by
  constructor
  · intro e
    by_cases hl : i < s.length
    · exact absurd e (h.nz hl)
    · omega
  · intro e; rw [e]; exact h.zero

theorem RepL.strlenFrom {line s} (h : RepL line s) (fuel i : Nat) (hi : i ≤ s.length)
    (hf : s.length - i < fuel) : strlenFrom line i fuel = s.length - i := by
  induction fuel generalizing i with
  | zero => omega
  | succ fuel ih =>
    unfold Fio.strlenFrom
    by_cases hz : i = s.length
    · rw [if_pos ((h.eq0 hi).2 hz)]; omega
    · rw [if_neg (fun e => hz ((h.eq0 hi).1 e)), ih (i + 1) (by omega) (by omega)]
      omega

theorem RepL.strlen {line s} (h : RepL line s) : strlen line = s.length := by
  have := h.len
  unfold Fio.strlen
  rw [h.strlenFrom 1024 0 (by omega) (by omega)]
  rfl

theorem RepL.chars {line s} (h : RepL line s) (i n : Nat) (hn : i + n ≤ s.length) :
    chars line i n = (s.drop i).take n := by
  apply List.ext_getElem
  · simp [Fio.chars]; omega
  · intro j h1 h2
    have hj : j < n := by simpa [Fio.chars] using h1
    simp only [Fio.chars, List.getElem_map, List.getElem_range, List.getElem_take, List.getElem_drop]
    rw [h.at' _ (by omega)]
    simp [List.getD, List.getElem?_eq_getElem (show i + j < s.length by omega)]

theorem RepL.all {line s} (h : RepL line s) : Fio.chars line 0 (Fio.strlen line) = s := by
  rw [h.strlen, h.chars 0 s.length (by omega)]
  simp

theorem RepL.str {line s} (h : RepL line s) (i : Nat) (hi : i ≤ s.length) :
    str line i = s.drop i := by
  have := h.len
  unfold Fio.str
  rw [h.strlenFrom 1024 i hi (by omega), h.chars i _ (by omega)]
  rw [List.take_of_length_le (by simp)]

theorem shiftDown_at {s : List Byte} (hp : ∀ c ∈ s, Printable c) (fuel i : Nat) (line : Nat → Byte)
    (h1 : 1 ≤ i) (hi : i ≤ s.length) (hf : s.length - i < fuel)
    (hl : ∀ j, i ≤ j → j ≤ s.length → line j = s.getD j 0) (j : Nat) :
    shiftDown line i fuel j =
      if i - 1 ≤ j ∧ j + 1 < s.length then s.getD (j + 1) 0 else line j := by
  induction fuel generalizing i line with
  | zero => omega
  | succ fuel ih =>
    unfold shiftDown
    by_cases hz : i = s.length
    · rw [if_pos (by rw [hl i (Nat.le_refl _) hi, hz, getD_zero (Nat.le_refl _)])]
      rw [if_neg (by omega)]
    · have hlt : i < s.length := by omega
      rw [if_neg (by rw [hl i (Nat.le_refl _) hi]; exact getD_ne hp hlt)]
      rw [ih (i + 1) _ (by omega) (by omega) (by omega) ?_]
      · simp only [setAt]
        by_cases hj : j = i - 1
        · rw [if_neg (by omega), if_pos hj, if_pos (by omega), hl i (Nat.le_refl _) hi]
          congr 1; omega
        · rw [if_neg hj]
          by_cases hc : i + 1 - 1 ≤ j ∧ j + 1 < s.length
          · rw [if_pos hc, if_pos (by omega)]
          · rw [if_neg hc, if_neg (by omega)]
      · intro k k1 k2
        simp only [setAt]
        rw [if_neg (by omega)]
        exact hl k (by omega) k2

theorem shiftUp_at (cur n : Nat) (line : Nat → Byte) (j : Nat) :
    shiftUp line cur n j = if cur + 1 ≤ j ∧ j ≤ cur + n then line (j - 1) else line j := by
  induction n generalizing line with
  | zero =>
    unfold shiftUp
    rw [if_neg (by omega)]
  | succ n ih =>
    unfold shiftUp
    rw [ih]
    simp only [setAt]
    by_cases hj : j = cur + n + 1
    · rw [if_neg (by omega), if_pos hj, if_pos (by omega)]
      congr 1; omega
    · by_cases hc : cur + 1 ≤ j ∧ j ≤ cur + n
      · rw [if_pos hc, if_neg (by omega), if_pos (by omega)]
      · rw [if_neg hc, if_neg hj, if_neg (by omega)]

/-! ### the operations on the buffer -/

theorem repL_nil (line : Nat → Byte) : RepL (setAt line 0 0) [] := by
  refine ⟨by simp, by simp, ?_⟩
  intro i hi
  have : i = 0 := by simpa using hi
  subst this
  rfl

/-- remove the character before position `i` (backspace: i = cursor; delete: i = cursor+1) -/
theorem repL_remove {line : Nat → Byte} {b a : List Byte} {x : Byte} (h : RepL line (b ++ x :: a)) :
    RepL (setAt (shiftDown line (b.length + 1) 1024) ((b ++ x :: a).length - 1) 0) (b ++ a) := by
  have hlen := h.len
  have hl1 : (b ++ x :: a).length = b.length + a.length + 1 := by simp; omega
  have hl2 : (b ++ a).length = b.length + a.length := by simp
  refine ⟨by omega, ?_, ?_⟩
  · intro c hc
    apply h.pr
    rw [List.mem_append] at hc ⊢
    rcases hc with hc | hc
    · exact Or.inl hc
    · exact Or.inr (List.mem_cons_of_mem _ hc)
  · intro i hi
    simp only [setAt]
    by_cases he : i = (b ++ x :: a).length - 1
    · rw [if_pos he, getD_zero (by omega)]
    · rw [if_neg he, shiftDown_at h.pr 1024 _ line (by omega) (by omega) (by omega)
        (fun j _ h2 => h.at' j h2)]
      by_cases hc : b.length ≤ i
      · rw [if_pos (by omega), getD_append, getD_append, if_neg (by omega), if_neg (by omega)]
        rw [show i + 1 - b.length = (i - b.length) + 1 by omega]
        rfl
      · rw [if_neg (by omega), h.at' i (by omega), getD_append, getD_append, if_pos (by omega),
          if_pos (by omega)]

theorem repL_append {line : Nat → Byte} {b : List Byte} (h : RepL line b) {k : Byte}
    (hk : Printable k) (hl : b.length < 1023) :
    RepL (setAt (setAt line b.length k) (b.length + 1) 0) (b ++ [k]) := by
  have hl2 : (b ++ [k]).length = b.length + 1 := by simp
  refine ⟨by omega, ?_, ?_⟩
  · intro c hc
    rw [List.mem_append, List.mem_singleton] at hc
    rcases hc with hc | hc
    · exact h.pr c hc
    · rw [hc]; exact hk
  · intro i hi
    simp only [setAt]
    by_cases h1 : i = b.length + 1
    · rw [if_pos h1, getD_zero (by omega)]
    · rw [if_neg h1]
      by_cases h2 : i = b.length
      · rw [if_pos h2, getD_append, if_neg (by omega), h2]; simp
      · rw [if_neg h2, getD_append, if_pos (by omega)]
        exact h.at' i (by omega)

theorem repL_insert {line : Nat → Byte} {b a : List Byte} (h : RepL line (b ++ a)) {k : Byte}
    (hk : Printable k) (hl : (b ++ a).length < 1023) :
    RepL (setAt (shiftUp line b.length ((b ++ a).length + 1 - b.length)) b.length k)
      (b ++ k :: a) := by
  have hl1 : (b ++ k :: a).length = b.length + a.length + 1 := by simp; omega
  have hl2 : (b ++ a).length = b.length + a.length := by simp
  refine ⟨by omega, ?_, ?_⟩
  · intro c hc
    rw [List.mem_append, List.mem_cons] at hc
    rcases hc with hc | hc | hc
    · exact h.pr c (List.mem_append_left _ hc)
    · rw [hc]; exact hk
    · exact h.pr c (List.mem_append_right _ hc)
  · intro i hi
    simp only [setAt]
    by_cases h2 : i = b.length
    · rw [if_pos h2, getD_append, if_neg (by omega), h2]; simp
    · rw [if_neg h2, shiftUp_at]
      by_cases hc : b.length + 1 ≤ i ∧ i ≤ b.length + ((b ++ a).length + 1 - b.length)
      · rw [if_pos hc, h.at' (i - 1) (by omega), getD_append, getD_append, if_neg (by omega),
          if_neg (by omega)]
        rw [show i - b.length = (i - 1 - b.length) + 1 by omega]
        rfl
      · rw [if_neg hc, h.at' i (by omega), getD_append, getD_append, if_pos (by omega),
          if_pos (by omega)]

theorem repL_strcpy (line : Nat → Byte) {s : List Byte} (h : ∀ c ∈ s, Printable c)
    (hl : s.length ≤ 1023) : RepL (strcpy line s) s := by
  refine ⟨hl, h, ?_⟩
  intro i hi
  unfold strcpy
  by_cases h1 : i < s.length
  · rw [if_pos h1]
  · rw [if_neg h1, if_pos (by omega), getD_zero (by omega)]

end Ucsim.Fio
