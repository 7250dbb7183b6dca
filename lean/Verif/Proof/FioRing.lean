import Verif.Fio.Dev

/- The ring buffer of cl_f is a queue of at most 1023 values. -/
namespace Ucsim.Fio

/-- number of values held -/
def Ring.len (r : Ring) : Nat := (r.ff + 1024 - r.lu) % 1024

/-- the values held, oldest first -/
def Ring.items (r : Ring) : List Int :=
  (List.range r.len).map (fun i => r.buf ((r.lu + i) % 1024))

structure Ring.Ok (r : Ring) : Prop where
  lu : r.lu < 1024
  ff : r.ff < 1024

theorem Ring.ok_init (j) : (Ring.init j).Ok := ⟨Nat.zero_lt_succ _, Nat.zero_lt_succ _⟩

theorem Ring.items_init (j) : (Ring.init j).items = [] := by
  simp [Ring.items, Ring.len, Ring.init]

theorem Ring.length_items (r : Ring) : r.items.length = r.len := by simp [Ring.items]

theorem Ring.len_lt (r : Ring) : r.len < 1024 := Nat.mod_lt _ (by decide)

theorem Ring.freePlace_eq {r : Ring} (h : r.Ok) : r.freePlace = 1023 - r.len := by
  have := h.lu; have := h.ff
  unfold Ring.freePlace Ring.len
  split <;> omega

theorem Ring.empty_iff {r : Ring} (h : r.Ok) : r.lu = r.ff ↔ r.items = [] := by
  have := h.lu; have := h.ff
  rw [← List.length_eq_zero_iff, Ring.length_items]
  unfold Ring.len
  omega

theorem Ring.put_full {r : Ring} (h : r.Ok) (c) (hf : r.len = 1023) : r.put c = (r, -1) := by
  have := h.lu; have := h.ff
  unfold Ring.len at hf
  simp only [Ring.put]
  rw [if_pos (by omega)]

theorem Ring.put_room {r : Ring} (h : r.Ok) (c) (hf : r.len < 1023) :
    (r.put c).1.Ok ∧ (r.put c).1.items = r.items ++ [c] ∧ (r.put c).2 = 0 := by
  have h1 := h.lu; have h2 := h.ff
  have hne : ¬ (r.ff + 1) % 1024 = r.lu := by unfold Ring.len at hf; omega
  simp only [Ring.put, if_neg hne]
  refine ⟨⟨h1, Nat.mod_lt _ (by decide)⟩, ?_, trivial⟩
  have hl : Ring.len { r with buf := (fun i => if i = r.ff then c else r.buf i), ff := (r.ff + 1) % 1024 } = r.len + 1 := by
    unfold Ring.len at *; simp only []; omega
  unfold Ring.items
  rw [hl, List.range_succ, List.map_append]
  congr 1
  · apply List.map_congr_left
    intro i hi
    have hi := List.mem_range.1 hi
    have : ¬ (r.lu + i) % 1024 = r.ff := by unfold Ring.len at *; omega
    simp only [if_neg this]
  · have : (r.lu + r.len) % 1024 = r.ff := by unfold Ring.len at *; omega
    simp [this]

theorem Ring.put_ok {r : Ring} (h : r.Ok) (c) : (r.put c).1.Ok := by
  by_cases hf : r.len = 1023
  · rw [Ring.put_full h c hf]; exact h
  · exact (Ring.put_room h c (by have := r.len_lt; omega)).1

/-- what `get` makes of a stored value -/
def cut (c : Int) : Int := if 0 < c then c % 256 else c

theorem Ring.get_nil {r : Ring} (h : r.Ok) (he : r.items = []) : r.get = (r, -1) := by
  unfold Ring.get
  rw [if_pos ((Ring.empty_iff h).2 he)]

theorem Ring.get_cons {r : Ring} (h : r.Ok) {c cs} (he : r.items = c :: cs) :
    r.get.1.Ok ∧ r.get.1.items = cs ∧ r.get.2 = cut c := by
  have h1 := h.lu; have h2 := h.ff
  have hne : ¬ r.lu = r.ff := by rw [Ring.empty_iff h, he]; simp
  have hlen : r.len = cs.length + 1 := by rw [← Ring.length_items, he]; rfl
  unfold Ring.items at he
  rw [hlen, List.range_succ_eq_map] at he
  simp only [List.map_cons, Nat.add_zero, List.map_map, List.cons.injEq] at he
  obtain ⟨hc, hcs⟩ := he
  rw [Nat.mod_eq_of_lt h1] at hc
  simp only [Ring.get, if_neg hne]
  refine ⟨⟨Nat.mod_lt _ (by decide), h2⟩, ?_, by rw [hc]; rfl⟩
  have hl : Ring.len { r with lu := (r.lu + 1) % 1024 } = cs.length := by
    unfold Ring.len at *; simp only []; omega
  unfold Ring.items
  rw [hl]
  conv => rhs; rw [← hcs]
  apply List.map_congr_left
  intro i _
  simp only [Function.comp]
  congr 1
  omega

theorem cut_toInt (b : Byte) : cut b.toInt = b.toInt := by
  revert b; decide

theorem toInt_ff (b : Byte) : b.toInt = -1 ↔ b = 255 := by
  revert b; decide

theorem raw_fold {r : Ring} (h : r.Ok) (bs : List Byte) (hr : r.len + bs.length ≤ 1023) :
    (bs.foldl Ring.raw r).Ok ∧ (bs.foldl Ring.raw r).items = r.items ++ bs.map BitVec.toInt := by
  induction bs generalizing r with
  | nil => simp [h]
  | cons b bs ih =>
    simp only [List.length_cons] at hr
    obtain ⟨o, i, _⟩ := Ring.put_room h b.toInt (by omega)
    have hl : (r.raw b).len = r.len + 1 := by
      rw [← Ring.length_items, ← Ring.length_items]; unfold Ring.raw; rw [i]; simp
    have := ih (r := r.raw b) o (by omega)
    refine ⟨this.1, ?_⟩
    rw [List.foldl_cons, this.2]
    unfold Ring.raw
    rw [i]; simp

end Ucsim.Fio
