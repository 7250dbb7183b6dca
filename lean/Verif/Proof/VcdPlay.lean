import Verif.Proof.Vcd
/-
Proofs about playing a recorded file.
-/
namespace Ucsim.Vcd
open Spec

/-! ### Numbers -/

theorem bitCharVal (b : Bool) : (if bitChar b = '1' then 1 else 0) = b.toNat := by cases b <;> rfl

theorem shiftIn_bits (v : Nat) : ∀ (n hi a : Nat), n ≤ hi + 1 → n ≤ 32 →
    shiftIn a ((List.range n).map (fun i => bitChar (v.testBit (hi - i)))) % 2 ^ n = v / 2 ^ (hi + 1 - n) % 2 ^ n := by
  intro n
  induction n with
  | zero => intro hi a _ _; simp [Nat.mod_one]
  | succ n ih =>
    intro hi a hn h32
    have e : (List.range (n + 1)).map (fun i => bitChar (v.testBit (hi - i))) =
        (List.range n).map (fun i => bitChar (v.testBit (hi - i))) ++ [bitChar (v.testBit (hi - n))] := by
      rw [List.range_succ, List.map_append]; rfl
    rw [e]
    unfold shiftIn at ih ⊢
    rw [List.foldl_append, List.foldl_cons, List.foldl_nil, bitCharVal]
    have ih := ih hi a (by omega) (by omega)
    generalize List.foldl (fun a c => (2 * a + if c = '1' then 1 else 0) % 2 ^ 32) a
      ((List.range n).map (fun i => bitChar (v.testBit (hi - i)))) = A at ih ⊢
    rw [Nat.mod_mod_of_dvd _ (Nat.pow_dvd_pow 2 h32)]
    have e1 : hi + 1 - (n + 1) = hi - n := by omega
    have e2 : hi + 1 - n = (hi - n) + 1 := by omega
    rw [e1]
    rw [e2, Nat.pow_succ, ← Nat.div_div_eq_div_mul] at ih
    have hb : (v.testBit (hi - n)).toNat = v / 2 ^ (hi - n) % 2 := by
      rw [Nat.testBit_eq_decide_div_mod_eq]
      cases Nat.mod_two_eq_zero_or_one (v / 2 ^ (hi - n)) with
      | inl h => simp [h]
      | inr h => simp [h]
    rw [hb]
    generalize v / 2 ^ (hi - n) = q at *
    rw [Nat.pow_succ, Nat.mul_comm (2 ^ n) 2, Nat.mod_mul, Nat.mod_mul]
    have : (2 * A + q % 2) / 2 = A := by omega
    rw [this, ih]
    omega

/-! ### Assignments -/

theorem mask_testBit (x : Var) (i : Nat) (h : x.lo ≤ x.hi) : (mask x).testBit i = (decide (x.lo ≤ i) && decide (i ≤ x.hi)) := by
  unfold mask
  rw [Nat.one_shiftLeft, Nat.testBit_shiftLeft, Nat.testBit_two_pow_sub_one]
  by_cases h1 : x.lo ≤ i
  · have : (i - x.lo < x.hi - x.lo + 1) ↔ i ≤ x.hi := by omega
    simp [h1, this]
  · simp [h1]

theorem get_le_one (W : World) (m : Mem) (c b : Nat) (h : W.bit c = some b) : get W m c ≤ 1 := by
  unfold get; rw [h]; simp only; split <;> omega

/-- The bits of a cell after an assignment to a variable of it. -/
theorem assign_bits (W : World) (x : Var) (hw : Watchable W x) (value : Nat) (m : Mem) (i : Nat) (hi : i < W.width x.cell) :
    (get W (assign W x value m) x.cell).testBit i =
      if x.lo ≤ i ∧ i ≤ x.hi then value.testBit (i - x.lo) else (get W m x.cell).testBit i := by
  unfold assign
  simp only
  rw [hw.last]
  have h32 : i < 32 := Nat.lt_of_lt_of_le hi hw.small
  have hone : W.width x.cell = 1 → (get W m x.cell &&& (0xffffffff ^^^ mask x)) ||| ((value <<< x.lo) &&& mask x) ≤ 1 := by
    intro h1
    obtain ⟨b, hb⟩ := hw.bit.1 h1
    have hg := get_le_one W m x.cell b hb
    have hh := hw.inside
    have hl := hw.lohi
    have e1 : x.hi = 0 := by omega
    have e2 : x.lo = 0 := by omega
    have em : mask x = 1 := by unfold mask; rw [e1, e2]; rfl
    rw [em, e2]
    have : (get W m x.cell &&& (0xffffffff ^^^ 1)) ||| ((value <<< 0) &&& 1) < 2 ^ 1 := by
      apply Nat.or_lt_two_pow
      · exact Nat.lt_of_le_of_lt Nat.and_le_left (by omega)
      · exact Nat.lt_of_le_of_lt Nat.and_le_right (by omega)
    omega
  rw [get_set W x.cell _ m hw.rw (fun b h => hw.bit.2 ⟨b, h⟩) hone, Nat.testBit_mod_two_pow]
  have hall : (0xffffffff : Nat).testBit i = true := by
    rw [show (0xffffffff : Nat) = 2 ^ 32 - 1 from rfl, Nat.testBit_two_pow_sub_one]; simp [h32]
  rw [Nat.testBit_or, Nat.testBit_and, Nat.testBit_and, Nat.testBit_xor, hall, mask_testBit x i hw.lohi, Nat.testBit_shiftLeft]
  by_cases h1 : x.lo ≤ i <;> by_cases h2 : i ≤ x.hi <;> simp [h1, h2, hi]

theorem assign_apart (W : World) (x : Var) (value : Nat) (m : Mem) (c : Nat) (h : Apart W c x.cell) :
    get W (assign W x value m) c = get W m c := get_set_apart W _ _ _ m h

/-- Only the low bits of the value count. -/
theorem assign_mod (W : World) (x : Var) (hl : x.lo ≤ x.hi) (a b : Nat) (m : Mem) (h : a % 2 ^ (x.hi + 1 - x.lo) = b % 2 ^ (x.hi + 1 - x.lo)) :
    assign W x a m = assign W x b m := by
  have : (a <<< x.lo) &&& mask x = (b <<< x.lo) &&& mask x := by
    apply Nat.eq_of_testBit_eq
    intro i
    rw [Nat.testBit_and, Nat.testBit_and, mask_testBit x i hl, Nat.testBit_shiftLeft, Nat.testBit_shiftLeft]
    by_cases h1 : x.lo ≤ i
    · by_cases h2 : i ≤ x.hi
      · have h3 : i - x.lo < x.hi + 1 - x.lo := by omega
        have ha := Nat.testBit_mod_two_pow a (x.hi + 1 - x.lo) (i - x.lo)
        have hb := Nat.testBit_mod_two_pow b (x.hi + 1 - x.lo) (i - x.lo)
        rw [h] at ha
        rw [ha] at hb
        simp only [h3, decide_true, Bool.true_and] at hb
        rw [hb]
      · simp [h2]
    · simp [h1]
  unfold assign
  rw [this]

/-- The player's memory has the bits of the variable of the number `v`. -/
def Agree (W : World) (m : Mem) (x : Var) (v : Nat) : Prop :=
  ∀ i, x.lo ≤ i → i ≤ x.hi → (get W m x.cell).testBit i = v.testBit i

theorem Agree.field {W m x v} (h : Agree W m x v) (hl : x.lo ≤ x.hi) : field x.hi x.lo (get W m x.cell) = Spec.field x.hi x.lo v := by
  apply Nat.eq_of_testBit_eq
  intro i
  rw [field_testBit _ _ _ _ hl, field_testBit _ _ _ _ hl]
  by_cases h' : i ≤ x.hi - x.lo
  · rw [h (x.lo + i) (by omega) (by omega)]
  · simp [h']

/-- The assignment of the field of a number to a variable. -/
def assignF (W : World) (x : Var) (v : Nat) (m : Mem) : Mem := assign W x (field x.hi x.lo v) m

theorem assignF_agree (W : World) (x y : Var) (hx : Watchable W x) (hy : Watchable W y) (hxy : y.cell = x.cell ∨ Apart W y.cell x.cell)
    (g : Nat → Nat) (m : Mem) (h : y = x ∨ Agree W m y (g y.cell)) : Agree W (assignF W x (g x.cell) m) y (g y.cell) := by
  intro i h1 h2
  unfold assignF
  rcases hxy with e | ha
  · have hw : i < W.width x.cell := by rw [← e]; have := hy.inside; omega
    rw [e, assign_bits W x hx _ m i hw]
    split
    · rename_i hh
      rw [field_testBit _ _ _ _ hx.lohi]
      rw [show x.lo + (i - x.lo) = i by omega]
      have : i - x.lo ≤ x.hi - x.lo := by omega
      simp [this]
    · rename_i hh
      rcases h with rfl | h
      · exact absurd ⟨h1, h2⟩ hh
      · rw [← e]; exact h i h1 h2
  · rw [assign_apart W x _ m _ ha]
    rcases h with rfl | h
    · exfalso
      rcases ha with ha | ⟨b, b', h1, h2, h3⟩
      · exact ha rfl
      · rw [h1] at h2; exact h3 (Option.some.inj h2)
    · exact h i h1 h2

/-- A list of assignments. -/
theorem assigns_agree (W : World) (vars : List Var) (hw : ∀ x ∈ vars, Watchable W x) (hap : AllApart W vars) (g : Nat → Nat) :
    ∀ (l : List Var) (m : Mem), (∀ x ∈ l, x ∈ vars) → ∀ y ∈ vars, y ∈ l ∨ Agree W m y (g y.cell) →
    Agree W (l.foldl (fun m x => assignF W x (g x.cell) m) m) y (g y.cell) := by
  intro l
  induction l with
  | nil => intro m _ y _ h; rcases h with h | h; cases h; exact h
  | cons x l ih =>
    intro m hl y hy h
    rw [List.foldl_cons]
    apply ih _ (fun z hz => hl z (by simp [hz])) y hy
    have hx := hl x (by simp)
    have key := assignF_agree W x y (hw x hx) (hw y hy) (hap y hy x hx) g m
    rcases h with h | h
    · rcases List.mem_cons.1 h with rfl | h
      · exact Or.inr (key (Or.inl rfl))
      · exact Or.inl h
    · exact Or.inr (key (Or.inr h))

/-! ### The player on records -/

/-- The records of a recording without pauses. -/
def Plain (vars : List Var) : Rec → Prop
  | .stamp _ => True
  | .kw k => k = "dumpvars".toList ∨ k = "end".toList
  | .cmt _ => False
  | .val x _ => x ∈ vars
  | .unk _ => False

def memR (W : World) : List Rec → Mem → Mem
  | [], m => m
  | .val x v :: l, m => memR W l (assignF W x v m)
  | _ :: l, m => memR W l m

def loopR (W : World) (t0 now : Nat) : List Rec → Mem → Nat → Mem × Nat × List Rec
  | [], m, e => (m, e, [])
  | .stamp t :: l, m, _ => if t0 + t < now then loopR W t0 now l m (t0 + t) else (m, t0 + t, l)
  | .val x v :: l, m, e => loopR W t0 now l (assignF W x v m) e
  | _ :: l, m, e => loopR W t0 now l m e

def tickR (W : World) (t0 now : Nat) (a : Mem × Nat × List Rec) : Mem × Nat × List Rec :=
  if a.2.1 < now then loopR W t0 now a.2.2 a.1 a.2.1 else a

def toPl (a : Mem × Nat × List Rec) : Pl := { mem := a.1, event := a.2.1, pend := false, file := enc a.2.2 }

theorem find_id (vars : List Var) (hn : (vars.map Var.id).Nodup) (x : Var) (hx : x ∈ vars) : vars.find? (fun y => y.id = x.id) = some x := by
  cases h : vars.find? (fun y => y.id = x.id) with
  | none =>
    have := List.find?_eq_none.1 h x hx
    simp at this
  | some y =>
    have h1 := List.mem_of_find?_eq_some h
    have h2 := List.find?_some h
    rw [nodup_inj vars hn y x h1 hx (by simpa using h2)]

theorem loop_val (W : World) (vars : List Var) (t0 now : Nat) (x : Var) (v : Nat) (ws : List Word) (value : Nat) (m : Mem) (e : Nat) (f : List Word)
    (hw : Watchable W x) (hn : (vars.map Var.id).Nodup) (hx : x ∈ vars) (hid : x.lo ≠ x.hi → x.id ≠ '0' ∧ x.id ≠ '1') :
    ∃ value', loop W vars t0 now (valWords x v ++ ws) value { mem := m, event := e, pend := false, file := f } =
      loop W vars t0 now ws value' { mem := assignF W x v m, event := e, pend := false, file := f } := by
  have hs := hw.small
  have hin := hw.inside
  have hl := hw.lohi
  unfold valWords
  split
  · rename_i h
    cases hb : v.testBit x.lo with
    | true =>
      refine ⟨1, ?_⟩
      simp only [bitChar, if_true, List.cons_append, List.nil_append, loop, List.headD_cons, valId, List.tail_cons]
      simp only [assignId, find_id vars hn x hx]
      simp
      unfold assignF
      congr 2
      apply assign_mod W x hl
      unfold field
      rw [h]; rw [h] at hb
      rw [Nat.testBit_eq_decide_div_mod_eq] at hb
      simp at hb ⊢; omega
    | false =>
      refine ⟨0, ?_⟩
      simp only [bitChar, List.cons_append, List.nil_append, loop, List.headD_cons, valId, List.tail_cons]
      simp [assignId, find_id vars hn x hx]
      unfold assignF
      congr 2
      apply assign_mod W x hl
      unfold field
      rw [h]; rw [h] at hb
      rw [Nat.testBit_eq_decide_div_mod_eq] at hb
      simp at hb ⊢; omega
  · rename_i h
    have ⟨i0, i1⟩ := hid h
    refine ⟨shiftIn value ('b' :: (List.range (x.hi + 1 - x.lo)).map (fun i => bitChar (v.testBit (x.hi - i)))), ?_⟩
    simp only [List.cons_append, List.nil_append, loop, List.headD_cons]
    simp [valId, i0, i1, assignId, find_id vars hn x hx]
    unfold assignF
    congr 2
    apply assign_mod W x hl
    unfold field
    rw [Nat.mod_mod]
    have := shiftIn_bits v (x.hi + 1 - x.lo) x.hi (shiftIn value ['b']) (by omega) (by omega)
    rw [show x.hi + 1 - (x.hi + 1 - x.lo) = x.lo by omega] at this
    rw [← this]
    rfl

theorem loop_enc (W : World) (vars : List Var) (hw : ∀ x ∈ vars, Watchable W x) (hn : (vars.map Var.id).Nodup)
    (hid : ∀ x ∈ vars, x.lo ≠ x.hi → x.id ≠ '0' ∧ x.id ≠ '1') (t0 now : Nat) : ∀ (l : List Rec), (∀ c ∈ l, Plain vars c) → ∀ (value : Nat) (m : Mem) (e : Nat) (f : List Word),
    loop W vars t0 now (enc l) value { mem := m, event := e, pend := false, file := f } = toPl (loopR W t0 now l m e) := by
  intro l
  induction l with
  | nil => intro _ value m e f; rfl
  | cons c l ih =>
    intro hp value m e f
    have ih := ih (fun c hc => hp c (by simp [hc]))
    have hc := hp c (by simp)
    rw [enc_cons]
    cases c with
    | stamp t =>
      simp only [Rec.enc, List.cons_append, List.nil_append, loop, loopR]
      simp only [Bool.not_false, if_true]
      split
      · exact ih _ _ _ _
      · rfl
    | kw k =>
      simp only [Rec.enc, List.cons_append, List.nil_append, loop, loopR, List.headD_cons]
      simp
      exact ih _ _ _ _
    | cmt ws => exact absurd hc (by intro h; exact h)
    | val x v =>
      obtain ⟨value', e'⟩ := loop_val W vars t0 now x v (enc l) value m e f (hw x hc) hn hc (hid x hc)
      show loop W vars t0 now (valWords x v ++ enc l) value _ = _
      rw [e', ih]
      rfl
    | unk x => exact absurd hc (by intro h; exact h)

theorem loopR_plain (W : World) (vars : List Var) (t0 now : Nat) : ∀ (l : List Rec), (∀ c ∈ l, Plain vars c) → ∀ m e, ∀ c ∈ (loopR W t0 now l m e).2.2, Plain vars c := by
  intro l
  induction l with
  | nil => intro _ m e c h; cases h
  | cons c l ih =>
    intro hp m e
    have ih := ih (fun c hc => hp c (by simp [hc]))
    cases c with
    | stamp t =>
      simp only [loopR]
      split
      · exact ih _ _
      · intro c hc; exact hp c (by simp [show c ∈ l from hc])
    | kw k => exact ih _ _
    | cmt ws => exact ih _ _
    | val x v => exact ih _ _
    | unk x => exact ih _ _

theorem tick_enc (W : World) (vars : List Var) (hw : ∀ x ∈ vars, Watchable W x) (hn : (vars.map Var.id).Nodup)
    (hid : ∀ x ∈ vars, x.lo ≠ x.hi → x.id ≠ '0' ∧ x.id ≠ '1') (t0 now : Nat) (a : Mem × Nat × List Rec) (hp : ∀ c ∈ a.2.2, Plain vars c) :
    tick W vars t0 now (toPl a) = toPl (tickR W t0 now a) := by
  unfold tick tickR
  by_cases h : a.2.1 < now
  · rw [if_pos h, if_pos (show (toPl a).event < now from h)]
    exact loop_enc W vars hw hn hid t0 now _ hp 0 _ _ _
  · rw [if_neg h, if_neg (show ¬ (toPl a).event < now from h)]

theorem tickR_loopR (W : World) (t0 a b : Nat) (h : a ≤ b) : ∀ (l : List Rec) (m : Mem) (e : Nat), e < b →
    tickR W t0 b (loopR W t0 a l m e) = loopR W t0 b l m e := by
  intro l
  induction l with
  | nil => intro m e he; simp [loopR, tickR, he]
  | cons c l ih =>
    intro m e he
    cases c with
    | stamp t =>
      simp only [loopR]
      by_cases h1 : t0 + t < a
      · have h2 : t0 + t < b := by omega
        rw [if_pos h1, if_pos h2]
        exact ih _ _ h2
      · rw [if_neg h1]
        unfold tickR
        rfl
    | kw k => exact ih _ _ he
    | cmt ws => exact ih _ _ he
    | val x v => exact ih _ _ he
    | unk x => exact ih _ _ he

theorem tickR_tickR (W : World) (t0 a b : Nat) (h : a ≤ b) (p) : tickR W t0 b (tickR W t0 a p) = tickR W t0 b p := by
  by_cases h1 : p.2.1 < a
  · have h2 : p.2.1 < b := by omega
    conv => lhs; arg 4; unfold tickR; rw [if_pos h1]
    rw [tickR_loopR W t0 a b h _ _ _ h2]
    unfold tickR
    rw [if_pos h2]
  · conv => lhs; arg 4; unfold tickR; rw [if_neg h1]

theorem ticksR (W : World) (t0 now : Nat) (ts : List Nat) : ∀ p, (∀ t ∈ ts, t ≤ now) →
    tickR W t0 now (ts.foldl (fun p t => tickR W t0 t p) p) = tickR W t0 now p := by
  induction ts with
  | nil => intros; rfl
  | cons t ts ih =>
    intro p h
    rw [List.foldl_cons, ih _ (fun t ht => h t (by simp [ht])), tickR_tickR W t0 t now (h t (by simp))]

theorem ticks_enc (W : World) (vars : List Var) (hw : ∀ x ∈ vars, Watchable W x) (hn : (vars.map Var.id).Nodup)
    (hid : ∀ x ∈ vars, x.lo ≠ x.hi → x.id ≠ '0' ∧ x.id ≠ '1') (t0 : Nat) (ts : List Nat) : ∀ (a : Mem × Nat × List Rec), (∀ c ∈ a.2.2, Plain vars c) →
    ts.foldl (fun p t => tick W vars t0 t p) (toPl a) = toPl (ts.foldl (fun p t => tickR W t0 t p) a) ∧
      ∀ c ∈ (ts.foldl (fun p t => tickR W t0 t p) a).2.2, Plain vars c := by
  induction ts with
  | nil => intro a h; exact ⟨rfl, h⟩
  | cons t ts ih =>
    intro a h
    rw [List.foldl_cons, List.foldl_cons, tick_enc W vars hw hn hid t0 t a h]
    apply ih
    unfold tickR
    split
    · exact loopR_plain W vars t0 t _ h _ _
    · exact h

/-- Up to the first stamp that is not before `now`. -/
theorem loopR_mem (W : World) (t0 now : Nat) (l2 : List Rec) (h2 : (∃ t, l2 = [.stamp t]) ∨ l2 = [] ∨ ∃ t l, l2 = .stamp t :: l ∧ now ≤ t0 + t) :
    ∀ (l : List Rec) (m : Mem) (e : Nat), (∀ t, Rec.stamp t ∈ l → t0 + t < now) → (loopR W t0 now (l ++ l2) m e).1 = memR W l m := by
  intro l
  induction l with
  | nil =>
    intro m e _
    rcases h2 with ⟨t, rfl⟩ | rfl | ⟨t, l, rfl, h⟩
    · simp only [List.nil_append, loopR, memR]; split <;> rfl
    · rfl
    · simp only [List.nil_append, loopR, memR]
      rw [if_neg (by omega)]
  | cons c l ih =>
    intro m e hs
    have ih := fun m e => ih m e (fun t ht => hs t (by simp [ht]))
    cases c with
    | stamp t =>
      simp only [List.cons_append, loopR, memR]
      rw [if_pos (hs t (by simp))]
      exact ih _ _
    | kw k => exact ih _ _
    | cmt ws => exact ih _ _
    | val x v => exact ih _ _
    | unk x => exact ih _ _

theorem memR_append (W : World) (b : List Rec) : ∀ (a : List Rec) (m : Mem), memR W (a ++ b) m = memR W b (memR W a m) := by
  intro a
  induction a with
  | nil => intro m; rfl
  | cons c a ih => intro m; cases c <;> exact ih _

theorem memR_vals (W : World) (g : Var → Nat) (l : List Var) : ∀ m, memR W (l.map fun x => .val x (g x)) m = l.foldl (fun m x => assignF W x (g x) m) m := by
  induction l with
  | nil => intro m; rfl
  | cons x l ih => intro m; exact ih _

/-! ### What is recorded -/

structure PInv (W : World) (vars : List Var) (s : St) (l : List Rec) : Prop where
  st : s.started = true
  pa : s.paused = false
  vs : s.vars = vars
  se : s.starttime ≤ s.event
  en : s.event ≤ s.now
  file : s.file = enc (.stamp 0 :: l)
  plain : ∀ c ∈ l, Plain vars c
  stamps : ∀ t, Rec.stamp t ∈ l → t ≤ s.now - s.starttime
  agree : ∀ m, ∀ y ∈ vars, Agree W (memR W l m) y (get W s.mem y.cell)

theorem init_pinv (W : World) (s : St) (h1 : s.started = false) (h3 : s.starttime = 0) (h4 : s.event = 0)
    (h5 : s.file = []) (hw : ∀ x ∈ s.vars, Watchable W x) (hap : AllApart W s.vars) :
    ∃ l, PInv W s.vars (start W s) l := by
  rw [start_fresh W s h1 h3 h4]
  refine ⟨.kw "dumpvars".toList :: vals W s.mem s.vars ++ [.kw "end".toList], ⟨rfl, rfl, rfl, Nat.le_refl _, Nat.le_refl _, ?_, ?_, ?_, ?_⟩⟩
  · rw [h5]; rfl
  · intro c hc
    simp only [List.mem_append, List.mem_cons, List.not_mem_nil, or_false, vals, List.mem_map] at hc
    rcases hc with (rfl | ⟨x, hx, rfl⟩) | rfl
    · exact Or.inl rfl
    · exact hx
    · exact Or.inr rfl
  · intro t ht
    simp [vals] at ht
  · intro m y hy
    rw [memR_append]
    show Agree W (memR W [_] (memR W (vals W s.mem s.vars) m)) y _
    show Agree W (memR W (vals W s.mem s.vars) m) y _
    unfold vals
    rw [memR_vals]
    exact assigns_agree W s.vars hw hap (fun c => get W s.mem c) s.vars m (fun _ h => h) y hy (Or.inl hy)

/-- The records of an operation of a recording without pauses. -/
def recs (s : St) : Op → List Rec
  | .write c v => (if (s.vars.filter (fun x => x.cell = c)) ≠ [] ∧ s.event ≠ s.now then [.stamp (s.now - s.starttime)] else []) ++ (s.vars.filter (fun x => x.cell = c)).map fun x => .val x v
  | _ => []

theorem start_id (W : World) (s : St) (h1 : s.started = true) (h2 : s.paused = false) : start W s = s := by
  unfold start
  simp only [h1, h2]
  cases s; simp_all

theorem step_pinv (W : World) {vars s l} (hw : ∀ x ∈ vars, Watchable W x) (hap : AllApart W vars) (h : PInv W vars s l) (op : Op)
    (ho : Recorded W vars op) (hn : op ≠ .pause) : PInv W vars (step W s op) (l ++ recs s op) := by
  have h1 := h.se
  have h2 := h.en
  cases op with
  | pause => exact absurd rfl hn
  | start =>
    simp only [step, recs, List.append_nil]
    rw [start_id W s h.st h.pa]
    exact h
  | adv n =>
    simp only [recs, List.append_nil]
    refine ⟨h.st, h.pa, h.vs, h1, ?_, h.file, h.plain, ?_, h.agree⟩
    · show s.event ≤ s.now + n; omega
    · intro t ht; have := h.stamps t ht; show t ≤ s.now + n - s.starttime; omega
  | set c v =>
    simp only [recs, List.append_nil]
    refine ⟨h.st, h.pa, h.vs, h1, h2, h.file, h.plain, h.stamps, ?_⟩
    intro m y hy
    show Agree W _ y (get W (set W c v s.mem) y.cell)
    rw [get_set_apart W _ _ v s.mem (ho y hy)]
    exact h.agree m y hy
  | write c v =>
    simp only [step, recs, write_eq W c v s h.st h.pa]
    have hm : ∀ y ∈ vars, Agree W s.mem y (get W s.mem y.cell) := fun y _ i _ _ => rfl
    generalize hl : s.vars.filter (fun x => x.cell = c) = fl
    have hfl : ∀ x ∈ fl, x ∈ vars ∧ x.cell = c := by
      intro x hx; rw [← hl, h.vs] at hx
      have := List.mem_filter.1 hx
      exact ⟨this.1, by simpa using this.2⟩
    refine ⟨h.st, h.pa, h.vs, ?_, ?_, ?_, ?_, ?_, ?_⟩
    · show s.starttime ≤ if fl = [] then s.event else s.now; split <;> omega
    · show (if fl = [] then s.event else s.now) ≤ s.now; split <;> omega
    · show s.file ++ _ = _
      rw [h.file, ← enc_append]; rfl
    · intro q hq
      rcases List.mem_append.1 hq with hq | hq
      · exact h.plain q hq
      · rcases List.mem_append.1 hq with hq | hq
        · split at hq
          · rcases List.mem_singleton.1 hq with rfl; trivial
          · cases hq
        · obtain ⟨x, hx, rfl⟩ := List.mem_map.1 hq; exact (hfl x hx).1
    · intro t ht
      show t ≤ s.now - s.starttime
      rcases List.mem_append.1 ht with ht | ht
      · exact h.stamps t ht
      · rcases List.mem_append.1 ht with ht | ht
        · split at ht
          · have := List.mem_singleton.1 ht
            injection this with this
            omega
          · cases ht
        · obtain ⟨x, hx, hh⟩ := List.mem_map.1 ht; cases hh
    · intro m y hy
      rw [memR_append, memR_append]
      have e0 : memR W (if fl ≠ [] ∧ s.event ≠ s.now then [.stamp (s.now - s.starttime)] else []) (memR W l m) = memR W l m := by
        split <;> rfl
      rw [e0, memR_vals W (fun _ => v)]
      have eg : fl.foldl (fun m x => assignF W x v m) (memR W l m)
          = fl.foldl (fun m x => assignF W x ((fun c' => if c' = c then v else get W s.mem c') x.cell) m) (memR W l m) := by
        have : ∀ (k : List Var), (∀ x ∈ k, x.cell = c) → ∀ m, k.foldl (fun m x => assignF W x v m) m
            = k.foldl (fun m x => assignF W x ((fun c' => if c' = c then v else get W s.mem c') x.cell) m) m := by
          intro k
          induction k with
          | nil => intros; rfl
          | cons x k ih =>
            intro hk m
            rw [List.foldl_cons, List.foldl_cons, ih (fun x hx => hk x (by simp [hx]))]
            simp only [hk x (by simp), if_true]
        exact this fl (fun x hx => (hfl x hx).2) _
      rw [eg]
      have key := assigns_agree W vars hw hap (fun c' => if c' = c then v else get W s.mem c') fl (memR W l m) (fun x hx => (hfl x hx).1) y hy
      have w := hw y hy
      by_cases ec : y.cell = c
      · have hyf : y ∈ fl := by rw [← hl, h.vs]; exact List.mem_filter.2 ⟨hy, by simp [ec]⟩
        have key := key (Or.inl hyf)
        intro i hi1 hi2
        have k := key i hi1 hi2
        rw [k]
        simp only [ec, if_true]
        have hl := w.last v
        rw [ec] at hl
        rcases ho y hy with ⟨_, hw1⟩ | ha
        · rw [hl, get_set W c v s.mem (ec ▸ w.rw) (fun b h => ec ▸ w.bit.2 ⟨b, ec ▸ h⟩) hw1, Nat.testBit_mod_two_pow]
          have : i < W.width c := by have := w.inside; rw [ec] at this; omega
          simp [this]
        · exfalso
          rw [ec] at ha
          rcases ha with ha | ⟨b, b', h1, h2, h3⟩
          · exact ha rfl
          · rw [h1] at h2; exact h3 (Option.some.inj h2)
      · have ha : Apart W y.cell c := by
          rcases ho y hy with ⟨e, _⟩ | ha
          · exact absurd e ec
          · exact ha
        rw [get_set_apart W _ _ _ s.mem ha]
        have k := key (Or.inr (by simp only [ec, if_false]; exact h.agree m y hy))
        simp only [ec, if_false] at k
        exact k

theorem run_pinv (W : World) {vars} (hw : ∀ x ∈ vars, Watchable W x) (hap : AllApart W vars) : ∀ (h : List Op) {s l}, PInv W vars s l →
    (∀ op ∈ h, Recorded W vars op) → NoPause h → ∃ l', PInv W vars (run W h s) (l ++ l') := by
  intro h
  induction h with
  | nil => intro s l hi _ _; exact ⟨[], by rw [List.append_nil]; exact hi⟩
  | cons op h ih =>
    intro s l hi ho hn
    have hs := step_pinv W hw hap hi op (ho op (by simp)) (hn op (by simp))
    obtain ⟨l', hl⟩ := ih hs (fun o h => ho o (by simp [h])) (fun o h => hn o (by simp [h]))
    exact ⟨recs s op ++ l', by rw [← List.append_assoc]; exact hl⟩

def total : List Op → Nat
  | [] => 0
  | .adv n :: h => n + total h
  | _ :: h => total h

theorem run_now (W : World) {vars} (hw : ∀ x ∈ vars, Watchable W x) (hap : AllApart W vars) : ∀ (h : List Op) {s l}, PInv W vars s l →
    (∀ op ∈ h, Recorded W vars op) → NoPause h → (run W h s).now - (run W h s).starttime = s.now - s.starttime + total h := by
  intro h
  induction h with
  | nil => intros; rfl
  | cons op h ih =>
    intro s l hi ho hn
    have hs := step_pinv W hw hap hi op (ho op (by simp)) (hn op (by simp))
    have ih := ih hs (fun o h => ho o (by simp [h])) (fun o h => hn o (by simp [h]))
    have h1 := hi.se
    have h2 := hi.en
    refine Eq.trans (show _ = _ from ih) ?_
    cases op with
    | pause => exact absurd rfl (hn .pause (by simp))
    | start => rw [show step W s .start = s from start_id W s hi.st hi.pa]; rfl
    | adv n => show s.now + n - s.starttime + total h = s.now - s.starttime + (n + total h); omega
    | set c v => rfl
    | write c v =>
      rw [show step W s (.write c v) = write W c v s from rfl, write_eq W c v s hi.st hi.pa]
      rfl

theorem clock_total (lim : Option Nat) : ∀ (h : List Op) (k : Clock), k.paused = false → NoPause h →
    h.foldl (Clock.step lim) k = { k with el := k.el + total h } := by
  intro h
  induction h with
  | nil => intros; rfl
  | cons op h ih =>
    intro k hk hn
    have hn' : NoPause h := fun o h => hn o (by simp [h])
    rw [List.foldl_cons]
    cases op with
    | pause => exact absurd rfl (hn .pause (by simp))
    | start => rw [show Clock.step lim k .start = k by simp [Clock.step, hk]]; exact ih k hk hn'
    | adv n =>
      rw [ih _ (by exact hk) hn']
      simp [Clock.step, total, Nat.add_assoc]
    | set c v => exact ih k hk hn'
    | write c v => exact ih k hk hn'

theorem clock_time (h : List Op) (hn : NoPause h) : (clock none h).time none = total h := by
  unfold clock
  rw [clock_total none h _ rfl hn]
  simp [Clock.time]

/-- What is written after the time has passed begins with a stamp. -/
theorem run_later (W : World) {vars} (hw : ∀ x ∈ vars, Watchable W x) (hap : AllApart W vars) (T : Nat) : ∀ (h : List Op) {s l}, PInv W vars s l →
    (∀ op ∈ h, Recorded W vars op) → NoPause h → s.event < s.now → T ≤ s.now - s.starttime →
    ∃ l', PInv W vars (run W h s) (l ++ l') ∧ (l' = [] ∨ ∃ t k, l' = .stamp t :: k ∧ T ≤ t) ∧ T ≤ (run W h s).now - (run W h s).starttime := by
  intro h
  induction h with
  | nil => intro s l hi _ _ _ hT; exact ⟨[], by rw [List.append_nil]; exact hi, Or.inl rfl, hT⟩
  | cons op h ih =>
    intro s l hi ho hn hlt hT
    have hs := step_pinv W hw hap hi op (ho op (by simp)) (hn op (by simp))
    have ho' : ∀ o ∈ h, Recorded W vars o := fun o h => ho o (by simp [h])
    have hn' : NoPause h := fun o h => hn o (by simp [h])
    cases op with
    | pause => exact absurd rfl (hn .pause (by simp))
    | start =>
      simp only [recs, List.append_nil] at hs
      have e : step W s .start = s := start_id W s hi.st hi.pa
      show ∃ l', PInv W vars (run W h (step W s .start)) _ ∧ _
      rw [e]
      have : (run W (Op.start :: h) s) = run W h s := by show run W h (step W s .start) = _; rw [e]
      rw [this]
      exact ih hi ho' hn' hlt hT
    | adv n =>
      simp only [recs, List.append_nil] at hs
      apply ih hs ho' hn'
      · show s.event < s.now + n; omega
      · show T ≤ s.now + n - s.starttime; omega
    | set c v =>
      simp only [recs, List.append_nil] at hs
      exact ih hs ho' hn' hlt hT
    | write c v =>
      have hnow : (step W s (.write c v)).now = s.now ∧ (step W s (.write c v)).starttime = s.starttime := by
        rw [show step W s (.write c v) = write W c v s from rfl, write_eq W c v s hi.st hi.pa]; exact ⟨rfl, rfl⟩
      by_cases hf : s.vars.filter (fun x => x.cell = c) = []
      · have e : recs s (.write c v) = [] := by simp [recs, hf]
        rw [e, List.append_nil] at hs
        have hev : (step W s (.write c v)).event = s.event := by
          simp only [step, write_eq W c v s hi.st hi.pa]; simp [hf]
        apply ih hs ho' hn'
        · rw [hnow.1, hev]; exact hlt
        · rw [hnow.1, hnow.2]; exact hT
      · obtain ⟨l', hl⟩ := run_pinv W hw hap h hs ho' hn'
        refine ⟨recs s (.write c v) ++ l', by rw [← List.append_assoc]; exact hl, Or.inr ?_, ?_⟩
        · have : s.event ≠ s.now := by omega
          refine ⟨s.now - s.starttime, ((s.vars.filter (fun x => x.cell = c)).map fun x => .val x v) ++ l', ?_, hT⟩
          simp only [recs]
          rw [if_pos ⟨hf, this⟩]
          rfl
        · rw [show run W (Op.write c v :: h) s = run W h (step W s (.write c v)) from rfl, run_now W hw hap h hs ho' hn', hnow.1, hnow.2]
          exact Nat.le_add_right_of_le hT

theorem playback (W : World) (s : St) (h1 h2 : List Op) (hs : s.started = false) (hst : s.starttime = 0) (hev : s.event = 0)
    (hf : s.file = []) (hw : ∀ x ∈ s.vars, Watchable W x) (hap : AllApart W s.vars) (hn : (s.vars.map Var.id).Nodup)
    (hid : ∀ x ∈ s.vars, x.lo ≠ x.hi → x.id ≠ '0' ∧ x.id ≠ '1')
    (ho : ∀ op ∈ h1 ++ h2, Recorded W s.vars op) (hp : NoPause (h1 ++ h2))
    (m : Mem) (t0 now : Nat) (ts : List Nat) (hts : ∀ t ∈ ts, t ≤ now) (hb : Before (now - t0) h1 h2) (x : Var) (hx : x ∈ s.vars) :
    field x.hi x.lo (get W (tick W s.vars t0 now (ts.foldl (fun p t => tick W s.vars t0 t p)
        (play m t0 (stop (run W (h1 ++ h2) (start W s))).file))).mem x.cell)
      = field x.hi x.lo (get W (run W h1 (start W s)).mem x.cell) := by
  obtain ⟨hb1, hb2⟩ := hb
  have ho1 : ∀ op ∈ h1, Recorded W s.vars op := fun o h => ho o (List.mem_append_left _ h)
  have ho2 : ∀ op ∈ h2, Recorded W s.vars op := fun o h => ho o (List.mem_append_right _ h)
  have hp1 : NoPause h1 := fun o h => hp o (List.mem_append_left _ h)
  have hp2 : NoPause h2 := fun o h => hp o (List.mem_append_right _ h)
  obtain ⟨l0, i0⟩ := init_pinv W s hs hst hev hf hw hap
  obtain ⟨l1, i1⟩ := run_pinv W hw hap h1 i0 ho1 hp1
  have e1 := run_now W hw hap h1 i0 ho1 hp1
  have e0 : (start W s).now - (start W s).starttime = 0 := by rw [start_fresh W s hs hst hev]; simp
  rw [e0, Nat.zero_add] at e1
  rw [clock_time h1 hp1] at hb1
  have hfile : ∃ l2, (stop (run W (h1 ++ h2) (start W s))).file = enc (.stamp 0 :: ((l0 ++ l1) ++ l2)) ∧ (∀ c ∈ l2, Plain s.vars c) ∧
      ((∃ t, l2 = [.stamp t]) ∨ l2 = [] ∨ ∃ t l, l2 = .stamp t :: l ∧ now ≤ t0 + t) := by
    rw [run_append]
    rcases hb2 with rfl | ⟨n, l, rfl, hT⟩
    · refine ⟨[.stamp ((run W h1 (start W s)).now - (run W h1 (start W s)).starttime)], ?_, ?_, Or.inl ⟨_, rfl⟩⟩
      · show (stop (run W h1 (start W s))).file = _
        unfold stop
        rw [if_pos i1.st]
        simp only [emit]
        rw [i1.file, enc_cons, enc_cons, enc_append]
        simp [enc, Rec.enc]
      · intro c hc; rcases List.mem_singleton.1 hc with rfl; trivial
    · have hpn : NoPause (h1 ++ [.adv n]) := by
        intro o ho
        rcases List.mem_append.1 ho with h | h
        · exact hp1 o h
        · rcases List.mem_singleton.1 h with rfl; intro h; cases h
      rw [clock_time _ hpn] at hT
      have et : total (h1 ++ [.adv n]) = total h1 + n := by
        have : ∀ h : List Op, total (h ++ [.adv n]) = total h + n := by
          intro h
          induction h with
          | nil => simp [total]
          | cons o h ih => cases o <;> simp only [List.cons_append, total, ih] <;> omega
        exact this h1
      rw [et] at hT
      have hn0 : 0 < n := by omega
      have i2 := step_pinv W hw hap i1 (.adv n) trivial (by intro h; cases h)
      simp only [recs, List.append_nil] at i2
      have := i1.se
      have := i1.en
      obtain ⟨l', i3, h3, h4⟩ := run_later W hw hap (now - t0) l i2 (fun o h => ho2 o (by simp [h])) (fun o h => hp2 o (by simp [h]))
        (by show (run W h1 (start W s)).event < (run W h1 (start W s)).now + n; omega)
        (by show now - t0 ≤ (run W h1 (start W s)).now + n - (run W h1 (start W s)).starttime; omega)
      refine ⟨l' ++ [.stamp ((run W l (step W (run W h1 (start W s)) (.adv n))).now - (run W l (step W (run W h1 (start W s)) (.adv n))).starttime)], ?_, ?_, ?_⟩
      · show (stop (run W l (step W (run W h1 (start W s)) (.adv n)))).file = _
        unfold stop
        rw [if_pos i3.st]
        simp only [emit]
        rw [i3.file, ← List.append_assoc, enc_cons, enc_cons, enc_append _ [_]]
        simp [enc, Rec.enc]
      · intro c hc
        rcases List.mem_append.1 hc with h | h
        · exact i3.plain c (List.mem_append_right _ h)
        · rcases List.mem_singleton.1 h with rfl; trivial
      · right; right
        rcases h3 with rfl | ⟨t, k, rfl, ht⟩
        · exact ⟨_, _, rfl, by omega⟩
        · exact ⟨t, _, rfl, by omega⟩
  obtain ⟨l2, ef, hpl, hl2⟩ := hfile
  have hplain : ∀ c ∈ (l0 ++ l1) ++ l2, Plain s.vars c := by
    intro c hc
    rcases List.mem_append.1 hc with h | h
    · exact i1.plain c h
    · exact hpl c h
  have ep : play m t0 (stop (run W (h1 ++ h2) (start W s))).file = toPl (m, t0 + 0, (l0 ++ l1) ++ l2) := by
    rw [ef, enc_cons]; rfl
  rw [ep]
  obtain ⟨et, hpt⟩ := ticks_enc W s.vars hw hn hid t0 ts (m, t0 + 0, (l0 ++ l1) ++ l2) hplain
  rw [et, tick_enc W s.vars hw hn hid t0 now _ hpt, ticksR W t0 now ts _ hts]
  have hlt : t0 < now := by omega
  have em : (toPl (tickR W t0 now (m, t0 + 0, (l0 ++ l1) ++ l2))).mem = memR W (l0 ++ l1) m := by
    unfold tickR
    rw [if_pos (by exact hlt)]
    refine loopR_mem W t0 now l2 hl2 (l0 ++ l1) m _ ?_
    intro t ht
    have := i1.stamps t ht
    omega
  rw [em]
  exact (i1.agree m x hx).field (hw x hx).lohi

end Ucsim.Vcd
