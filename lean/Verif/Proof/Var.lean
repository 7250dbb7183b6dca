import Verif.Props.Pobj
import Verif.Spec.Var

namespace Ucsim
open Spec

/-! ### comparison functions -/

theorem strcmp_refl (a : CStr) : strcmp a a = 0 := by
  induction a with
  | nil => rfl
  | cons x xs ih => simp [strcmp, ih]

theorem strcmp_eq {a b : CStr} : strcmp a b = 0 ↔ a = b := by
  induction a generalizing b with
  | nil => cases b <;> simp [strcmp]
  | cons x xs ih =>
    cases b with
    | nil => simp [strcmp]
    | cons y ys =>
      simp only [strcmp, List.cons.injEq]
      by_cases h : x = y
      · simp [h, ih]
      · rw [if_neg h]; split <;> simp [h]

theorem strcmp_lt_gt (a b : CStr) : strcmp a b < 0 ↔ 0 < strcmp b a := by
  induction a generalizing b with
  | nil => cases b <;> simp [strcmp]
  | cons x xs ih =>
    cases b with
    | nil => simp [strcmp]
    | cons y ys =>
      simp only [strcmp]
      by_cases h : x = y
      · simp [h, ih]
      · rw [if_neg h, if_neg (show ¬ y = x from fun e => h e.symm)]
        split <;> split <;> omega

theorem strcmp_trans (a b c : CStr) : strcmp a b ≤ 0 → strcmp b c ≤ 0 → strcmp a c ≤ 0 := by
  induction a generalizing b c with
  | nil => cases c <;> simp [strcmp]
  | cons x xs ih =>
    cases b with
    | nil => simp [strcmp]
    | cons y ys =>
      cases c with
      | nil => simp [strcmp]
      | cons z zs =>
        simp only [strcmp]
        by_cases h1 : x = y
        · by_cases h2 : y = z
          · subst h1; subst h2; simp only [if_true]; exact ih ys zs
          · subst h1
            rw [if_neg h2, if_neg h2]
            intro _ h; exact h
        · by_cases h2 : y = z
          · subst h2
            rw [if_neg h1, if_neg h1]
            intro h _; exact h
          · rw [if_neg h1, if_neg h2]
            intro h3 h4
            have hx : x < y := by split at h3 <;> omega
            have hy : y < z := by split at h4 <;> omega
            rw [if_neg (by omega), if_pos (by omega)]; omega

theorem strcmp_preorder : PreorderCmp strcmp := ⟨strcmp_refl, strcmp_lt_gt, strcmp_trans⟩

theorem preorder_map {α κ : Type} {cmp : κ → κ → Int} (h : PreorderCmp cmp) (f : α → κ) :
    PreorderCmp (fun a b => cmp (f a) (f b)) :=
  ⟨fun _ => h.refl _, fun _ _ => h.lt_gt _ _, fun _ _ _ => h.trans _ _ _⟩

theorem preorder_lex {α : Type} {c1 c2 : α → α → Int} (h1 : PreorderCmp c1) (h2 : PreorderCmp c2) :
    PreorderCmp (fun a b => if c1 a b ≠ 0 then c1 a b else c2 a b) := by
  have sym : ∀ a b, c1 a b = 0 ↔ c1 b a = 0 := fun a b => by
    have := h1.lt_gt a b; have := h1.lt_gt b a; omega
  refine ⟨fun a => ?_, fun a b => ?_, fun a b c => ?_⟩
  · rw [if_neg (by simpa using h1.refl a)]; exact h2.refl a
  · have := sym a b; have := h1.lt_gt a b; have := h2.lt_gt a b
    by_cases h : c1 a b = 0
    · rw [if_neg (by simpa using h), if_neg (by simp; omega)]; omega
    · rw [if_pos h, if_pos (by omega)]; omega
  · have s1 := sym a b; have s2 := sym b c; have s3 := sym a c
    have t1 := h1.trans a b c; have t2 := h2.trans a b c
    have t3 := h1.trans c a b; have t4 := h1.trans b c a
    have g1 := h1.lt_gt a b; have g2 := h1.lt_gt b c; have g3 := h1.lt_gt a c
    have g4 := h1.lt_gt b a; have g5 := h1.lt_gt c b; have g6 := h1.lt_gt c a
    split <;> split <;> split <;> intros <;> simp only [ne_eq, Decidable.not_not] at * <;> omega

theorem preorder_int : PreorderCmp (fun a b : Int => a - b) :=
  ⟨fun a => by omega, fun a b => by omega, fun a b c => by omega⟩

theorem preorder_hi : PreorderCmp cmpHi := by
  refine ⟨fun a => ?_, fun a b => ?_, fun a b c => ?_⟩ <;> unfold cmpHi <;> (repeat' split) <;> omega

theorem preorder_lo : PreorderCmp cmpLo := by
  refine ⟨fun a => ?_, fun a b => ?_, fun a b c => ?_⟩ <;> unfold cmpLo <;> (repeat' split) <;> omega

/-- The intended order of the address index. -/
def cmpT (a b : Var) : Int :=
  if (a.uid : Int) - b.uid ≠ 0 then (a.uid : Int) - b.uid
  else if (a.addr : Int) - b.addr ≠ 0 then (a.addr : Int) - b.addr
  else if cmpHi a.hi b.hi ≠ 0 then cmpHi a.hi b.hi
  else if cmpLo a.lo b.lo ≠ 0 then cmpLo a.lo b.lo
  else strcmp a.name b.name

theorem cmpT_preorder : PreorderCmp cmpT :=
  preorder_lex (preorder_map preorder_int fun v : Var => (v.uid : Int))
    (preorder_lex (preorder_map preorder_int fun v : Var => (v.addr : Int))
      (preorder_lex (preorder_map preorder_hi Var.hi)
        (preorder_lex (preorder_map preorder_lo Var.lo) (preorder_map strcmp_preorder Var.name))))

theorem cmpName_preorder : PreorderCmp cmpByName := preorder_map strcmp_preorder Var.name

theorem diffInt_small {a b : Nat} (ha : a < 2 ^ 31) (hb : b < 2 ^ 31) : diffInt a b = (a : Int) - b := by
  unfold diffInt
  rw [BitVec.toInt_sub, BitVec.toInt_ofNat', BitVec.toInt_ofNat']
  simp only [Int.bmod_def]
  omega

/-- What the theorems require of a variable. -/
structure VOk (v : Var) : Prop where
  uid : v.uid < 2 ^ 31
  addr : v.addr < 2 ^ 31
  lo : -1 ≤ v.lo
  hi : -1 ≤ v.hi

theorem cmpByAddr_eq {a b : Var} (ha : VOk a) (hb : VOk b) : cmpByAddr a b = cmpT a b := by
  unfold cmpByAddr cmpAddrBits cmpT
  rw [diffInt_small ha.uid hb.uid, diffInt_small ha.addr hb.addr]
  (repeat' split) <;> simp_all

theorem cmpHi_eq {a b : Int} (ha : -1 ≤ a) (hb : -1 ≤ b) : cmpHi a b = 0 ↔ a = b := by
  unfold cmpHi; (repeat' split) <;> omega

theorem cmpLo_eq {a b : Int} (ha : -1 ≤ a) (hb : -1 ≤ b) : cmpLo a b = 0 ↔ a = b := by
  unfold cmpLo; (repeat' split) <;> omega

/-! ### searches -/

theorem slLoop_congr {α : Type} (f g : α → Int) (dup : Bool) (items : List α)
    (hfg : ∀ x ∈ items, f x = g x) (n : Nat) : ∀ (l h : Int) (res : Bool), (h - l + 1).toNat = n →
    slLoop f dup items l h res = slLoop g dup items l h res := by
  induction n using Nat.strongRecOn with
  | _ n ih =>
    intro l h res hn
    rw [slLoop, slLoop]
    by_cases hlh : l ≤ h
    · rw [dif_pos hlh, dif_pos hlh]
      simp only
      cases hx : (if (l + h) / 2 < 0 then none else items[((l + h) / 2).toNat]?) with
      | none => rfl
      | some x =>
        have hm : x ∈ items := by
          split at hx
          · cases hx
          · exact List.mem_of_getElem? hx
        simp only [hfg x hm]
        split
        · exact ih _ (by omega) _ _ _ rfl
        · split
          · split
            · exact ih _ (by omega) _ _ _ rfl
            · exact ih _ (by omega) _ _ _ rfl
          · exact ih _ (by omega) _ _ _ rfl
    · rw [dif_neg hlh, dif_neg hlh]

theorem slSearch_congr {α : Type} (f g : α → Int) (dup : Bool) (items : List α)
    (hfg : ∀ x ∈ items, f x = g x) : slSearch f dup items = slSearch g dup items :=
  slLoop_congr f g dup items hfg _ _ _ _ rfl

theorem slAdd_congr {α : Type} (f g : α → α → Int) (dup : Bool) (l : CList α) (x : α)
    (hfg : ∀ y ∈ l.items, f y x = g y x) : slAdd f dup l x = slAdd g dup l x := by
  unfold slAdd
  rw [slSearch_congr (fun y => f y x) (fun y => g y x) dup l.items hfg]

theorem backLoop_le (cmp : Var → Int) (items : List Var) (i : Nat) : backLoop cmp items i ≤ i := by
  induction i with
  | zero => simp [backLoop]
  | succ i ih =>
    unfold backLoop
    split
    · split <;> omega
    · omega

/-- The back loop stops at the first of the equal items before `i`. -/
theorem backLoop_spec (cmp : Var → Int) (items : List Var) (i : Nat) (hi : i ≤ items.length) :
    (∀ j x, backLoop cmp items i ≤ j → j < i → items[j]? = some x → cmp x = 0) ∧
    (∀ k x, backLoop cmp items i = k + 1 → items[k]? = some x → cmp x ≠ 0) := by
  induction i with
  | zero => exact ⟨fun j x _ h => by omega, fun k x h => by simp [backLoop] at h⟩
  | succ i ih =>
    have ih := ih (by omega)
    unfold backLoop
    rw [List.getElem?_eq_getElem (by omega)]
    simp only
    split
    · rename_i h0
      refine ⟨fun j x h1 h2 hx => ?_, ih.2⟩
      by_cases hj : j = i
      · subst hj
        rw [List.getElem?_eq_getElem (by omega)] at hx
        cases hx; exact h0
      · exact ih.1 j x h1 (by omega) hx
    · rename_i h0
      refine ⟨fun j x h1 h2 hx => by omega, fun k x hk hx => ?_⟩
      have : k = i := by omega
      subst this
      rw [List.getElem?_eq_getElem (by omega)] at hx
      cases hx; exact h0

/-- cl_var_by_addr_list::search on an ordered list. -/
theorem avLoop_spec (cmp : Var → Int) (items : List Var) (hord : Ordered cmp items) (n : Nat) :
    ∀ (l : Nat) (h : Int) (res : Bool), (h + 1 - l).toNat + (h + 1).toNat < n → h < items.length → (l : Int) ≤ h + 1 →
    (∀ (j : Nat) x, j < l → items[j]? = some x → cmp x < 0) →
    (∀ (j : Nat) x, h < j → items[j]? = some x → 0 ≤ cmp x) →
    (res = true → ∃ (j : Nat) (x : Var), items[j]? = some x ∧ cmp x = 0) →
    (res = false → ∀ (j : Nat) x, h < j → items[j]? = some x → 0 < cmp x) →
    ∃ (f : Bool) (k : Nat), avLoop cmp items n l h res = some (f, (k : Int)) ∧ k ≤ items.length ∧
      (f = true ↔ ∃ (j : Nat) (x : Var), items[j]? = some x ∧ cmp x = 0) ∧
      (∀ (j : Nat) x, items[j]? = some x → (j < k → cmp x < 0) ∧ (k ≤ j → 0 ≤ cmp x)) := by
  induction n with
  | zero => intro l h res hn; omega
  | succ n ih =>
    intro l h res hn hh hlh1 h1 h2 h3 h4
    rw [avLoop]
    by_cases hlh : (l : Int) ≤ h
    · rw [if_pos hlh]
      simp only
      obtain ⟨i, hi⟩ : ∃ i : Nat, ((l : Int) + h) / 2 = i := ⟨(((l : Int) + h) / 2).toNat, by omega⟩
      rw [hi, if_neg (by omega)]
      have hil : i < items.length := by omega
      simp only [Int.toNat_natCast]
      have hx := List.getElem?_eq_getElem hil
      rw [hx]
      generalize items[i] = x at hx
      simp only
      by_cases hc : cmp x < 0
      · rw [if_pos hc]
        have := ih (i + 1) h res (by omega) hh (by omega)
          (fun j y hj hy => by
            by_cases hji : j = i
            · subst hji; rw [hx] at hy; cases hy; exact hc
            · exact (hord j i y x (by omega) hy hx).1 hc) h2 h3 h4
        exact this
      · rw [if_neg hc]
        by_cases h0 : cmp x = 0
        · rw [if_pos h0]
          obtain ⟨b1, b2⟩ := backLoop_spec cmp items i (by omega)
          have b3 := backLoop_le cmp items i
          have b4 : l ≤ backLoop cmp items i := by
            rcases Nat.lt_or_ge (backLoop cmp items i) l with hlt | hge
            · have hz := List.getElem?_eq_getElem (show backLoop cmp items i < items.length by omega)
              have := b1 _ _ (Nat.le_refl _) (by omega) hz
              have := h1 _ _ hlt hz
              omega
            · exact hge
          have := ih (backLoop cmp items i) (i - 1) true (by omega) (by omega) (by omega)
            (fun j y hj hy => by
              obtain ⟨k, hk⟩ : ∃ k, backLoop cmp items i = k + 1 := ⟨backLoop cmp items i - 1, by omega⟩
              have hkl : k < items.length := by omega
              have hz := List.getElem?_eq_getElem hkl
              have hne := b2 k _ hk hz
              have hle : cmp items[k] ≤ 0 := by
                rcases Nat.lt_or_ge k i with hlt | hge
                · exact (hord k i _ _ hlt hz hx).2 (by omega)
                · omega
              by_cases hjk : j = k
              · subst hjk; rw [hz] at hy; cases hy; omega
              · exact (hord j k y _ (by omega) hy hz).1 (by omega))
            (fun j y hj hy => by
              by_cases hji : j = i
              · subst hji; rw [hx] at hy; cases hy; omega
              · have := (hord i j x y (by omega) hx hy).1; omega)
            (fun _ => ⟨i, x, hx, h0⟩) (fun h => by cases h)
          exact this
        · rw [if_neg h0]
          have := ih l (i - 1) res (by omega) (by omega) (by omega) h1
            (fun j y hj hy => by
              by_cases hji : j = i
              · subst hji; rw [hx] at hy; cases hy; omega
              · have := (hord i j x y (by omega) hx hy).1; omega) h3
            (fun _ j y hj hy => by
              by_cases hji : j = i
              · subst hji; rw [hx] at hy; cases hy; omega
              · have := (hord i j x y (by omega) hx hy).2; omega)
          exact this
    · rw [if_neg hlh]
      refine ⟨res, l, rfl, by omega, ⟨h3, ?_⟩, fun j x hx => ⟨fun hj => h1 j x hj hx, fun hj => h2 j x (by omega) hx⟩⟩
      rintro ⟨j, x, hx, h0⟩
      cases hr : res with
      | true => rfl
      | false =>
        rcases Nat.lt_or_ge j l with hj | hj
        · have := h1 j x hj hx; omega
        · have := h4 hr j x (by omega) hx; omega

end Ucsim
