import Verif.Proof.VarStep

/-
C16, C17, C18: the table of variables.
-/
namespace Ucsim.Props
open Ucsim Spec

/-- One command on the table (the width command asks for the longest name). -/
def vexec (s : VarList) : VOp → Out VarList
  | .add n p b1 b2 => s.add (mkVar n p b1 b2)
  | .del n => match s.del n with
    | .ok (s', _) => .ok s'
    | .exit => .exit
    | .ub => .ub
  | .width => .ok s.getMaxLen.1

/-- A history of commands. -/
def vrun (s : VarList) : List VOp → Out VarList
  | [] => .ok s
  | op :: ops => match vexec s op with
    | .ok s' => vrun s' ops
    | .exit => .exit
    | .ub => .ub

/-- The new names used by a history all belong to the given list. -/
def Uses (names : List CStr) (ops : List VOp) : Prop :=
  ∀ n p b1 b2, VOp.add n p b1 b2 ∈ ops → n ∈ names

theorem mkVar_eq (n : CStr) (p : Place) (b1 b2 : Int) : mkVar n p b1 b2 = defOf n p b1 b2 := by
  unfold mkVar defOf
  split
  · rw [Int.max_eq_left (by omega), Int.min_eq_right (by omega)]
  · rw [Int.max_eq_right (by omega), Int.min_eq_left (by omega)]

theorem vok_def (n : CStr) (p : Place) (b1 b2 : Int) (h : (VOp.add n p b1 b2).ok) : VOk (defOf n p b1 b2) := by
  unfold defOf
  cases p with
  | cell c =>
    have h : -1 ≤ b1 ∧ -1 ≤ b2 := h
    exact ⟨by show 0 < 2 ^ 31; decide, by show 0 < 2 ^ 31; decide, by show -1 ≤ min b1 b2; omega,
      by show -1 ≤ max b1 b2; omega⟩
  | mem u a =>
    have h : u < 2 ^ 31 ∧ a < 2 ^ 31 ∧ -1 ≤ b1 ∧ -1 ≤ b2 := h
    exact ⟨h.1, h.2.1, by show -1 ≤ min b1 b2; omega, by show -1 ≤ max b1 b2; omega⟩

theorem getMaxLen_same (s : VarList) :
    s.getMaxLen.1.byName = s.byName ∧ s.getMaxLen.1.byAddr = s.byAddr := by
  unfold VarList.getMaxLen; split <;> exact ⟨rfl, rfl⟩

theorem maxLenLoop_spec (l : List Var) (m : Nat) :
    m ≤ maxLenLoop l m ∧ (∀ v ∈ l, v.name.length ≤ maxLenLoop l m) ∧
    (maxLenLoop l m = m ∨ ∃ v ∈ l, v.name.length = maxLenLoop l m) := by
  induction l generalizing m with
  | nil => exact ⟨Nat.le_refl _, by simp, Or.inl rfl⟩
  | cons a l ih =>
    unfold maxLenLoop
    obtain ⟨h1, h2, h3⟩ := ih (if a.name.length > m then a.name.length else m)
    have ha : a.name.length ≤ (if a.name.length > m then a.name.length else m) ∧
        m ≤ (if a.name.length > m then a.name.length else m) := by split <;> omega
    refine ⟨by omega, ?_, ?_⟩
    · intro v hv
      rcases List.mem_cons.1 hv with rfl | hv
      · omega
      · exact h2 v hv
    · rcases h3 with h3 | ⟨v, hv, h3⟩
      · rw [h3]
        split
        · exact Or.inr ⟨a, List.mem_cons_self, rfl⟩
        · exact Or.inl rfl
      · exact Or.inr ⟨v, List.mem_cons_of_mem _ hv, h3⟩

theorem getMaxLen_inv {names : List CStr} {s : VarList} {m : VMap} (hI : VInv names s m) :
    VInv names s.getMaxLen.1 m := by
  obtain ⟨e1, e2⟩ := getMaxLen_same s
  refine ⟨?_, ?_, ?_, ?_, ?_, ?_, ?_, ?_, ?_, ?_, ?_, hI.mapn, ?_, ?_, ?_⟩
  · rw [e1]; exact hI.fn
  · rw [e1]; exact hI.dn
  · rw [e1]; exact hI.sn
  · rw [e1]; exact hI.nn
  · rw [e2]; exact hI.fa
  · rw [e2]; exact hI.da
  · rw [e2]; exact hI.sa
  · rw [e2]; exact hI.na
  · rw [e1, e2]; exact hI.mem
  · rw [e1]; exact hI.ok
  · rw [e1]; exact hI.map
  · rw [e2]; exact hI.lab
  · rw [e1]
    intro v hv
    unfold VarList.getMaxLen
    split
    · exact hI.len v hv
    · exact (maxLenLoop_spec _ _).2.1 v hv
  · rw [e1]; exact hI.nam

/-- The cached length, if trusted, is the length of a name. -/
def Exact (s : VarList) : Prop :=
  s.known = true → (∃ u ∈ s.byName.items, u.name.length = s.maxLen) ∨ s.maxLen = 0

/-- The command does not replace a defined name. -/
def FreshOp (m : VMap) : VOp → Prop
  | .add n _ _ _ => m n = none
  | _ => True

/-- No `add` of the history replaces a defined name. -/
def NoReplace (m : VMap) : List VOp → Prop
  | [] => True
  | op :: ops => FreshOp m op ∧ NoReplace (m.step op) ops

theorem vexec_spec {names : List CStr} (hl : names.length ≤ 8192) {s : VarList} {m : VMap}
    (hI : VInv names s m) (op : VOp) (hok : op.ok) (hu : ∀ n p b1 b2, op = .add n p b1 b2 → n ∈ names) :
    ∃ s', vexec s op = .ok s' ∧ VInv names s' (m.step op) ∧
      (FreshOp m op → Exact s → Exact s') := by
  cases op with
  | add n p b1 b2 =>
    obtain ⟨s', h1, h2, h3⟩ := add_spec (by exact hl) hI (defOf n p b1 b2) (vok_def n p b1 b2 hok)
      (hu n p b1 b2 rfl)
    refine ⟨s', by show s.add (mkVar n p b1 b2) = _; rw [mkVar_eq]; exact h1, h2, fun hm he hk => Or.inl (h3 hm he hk)⟩
  | del n =>
    obtain ⟨s', b, h1, h2, h3, h4, h5⟩ := del_spec hI n
    refine ⟨s', by unfold vexec; simp only [h1], h2, fun _ he hk => ?_⟩
    cases b with
    | true => rw [h5] at hk; cases hk
    | false =>
      have hmn : m n = none := by
        cases h : m n with
        | none => rfl
        | some v => have := h3.2 (by simp [h]); cases this
      have : s' = s := by
        unfold VarList.del at h1
        rcases searchName_spec hI n with ⟨_, i, hs⟩ | ⟨v, i, hv, _⟩
        · rw [hs] at h1; cases h1; rfl
        · rw [hmn] at hv; cases hv
      rw [this] at hk ⊢
      exact he hk
  | width =>
    refine ⟨_, rfl, getMaxLen_inv hI, fun _ he => ?_⟩
    unfold VarList.getMaxLen
    by_cases hk : s.known = true
    · rw [if_pos hk]; exact he
    · rw [if_neg hk]
      intro _
      rcases (maxLenLoop_spec s.byName.items 0).2.2 with h | h
      · exact Or.inr h
      · exact Or.inl h

theorem vrun_spec {names : List CStr} (hl : names.length ≤ 8192) (ops : List VOp) {s : VarList} {m : VMap}
    (hI : VInv names s m) (hok : ∀ op ∈ ops, op.ok) (hu : Uses names ops) :
    ∃ s', vrun s ops = .ok s' ∧ VInv names s' (m.run ops) ∧ (NoReplace m ops → Exact s → Exact s') := by
  induction ops generalizing s m with
  | nil => exact ⟨s, rfl, hI, fun _ h => h⟩
  | cons op ops ih =>
    obtain ⟨s1, h1, h2, h3⟩ := vexec_spec hl hI op (hok op List.mem_cons_self)
      (fun n p b1 b2 he => hu n p b1 b2 (by rw [he]; exact List.mem_cons_self))
    obtain ⟨s', h4, h5, h6⟩ := ih h2 (fun o ho => hok o (List.mem_cons_of_mem _ ho))
      (fun n p b1 b2 he => hu n p b1 b2 (List.mem_cons_of_mem _ he))
    exact ⟨s', by unfold vrun; rw [h1]; exact h4, h5, fun hn he => h6 hn.2 (h3 hn.1 he)⟩

/-! ## C16 -/

theorem lookup_spec {names : List CStr} {s : VarList} {m : VMap} (hI : VInv names s m) (n : CStr) :
    s.lookup n = .ok (m n) := by
  unfold VarList.lookup
  rcases searchName_spec hI n with ⟨h1, i, h2⟩ | ⟨v, i, h1, h2, h3⟩
  · rw [h2, h1]
  · rw [h2, h1]
    simp only
    rw [get_ok _ _ _ h3]

/-- C16.  After any history that uses at most 8192 different names (and memory
ids and addresses below 2^31, bit numbers at least -1) the table is the
specified map: every lookup returns what the map says; no two variables have
the same name.  Missing: more than 8192 names (see `c16_false_full`). -/
theorem c16_map_partial (names : List CStr) (hl : names.length ≤ 8192) (ops : List VOp)
    (hok : ∀ op ∈ ops, op.ok) (hu : Uses names ops) :
    ∃ s, vrun VarList.empty ops = .ok s ∧ (∀ n, s.lookup n = .ok (VMap.empty.run ops n)) ∧
      s.byName.items.Pairwise (fun a b => a.name ≠ b.name) ∧
      (∀ v, v ∈ s.byName.items ↔ VMap.empty.run ops v.name = some v) := by
  obtain ⟨s, h1, h2, _⟩ := vrun_spec hl ops (vinv_empty names) hok hu
  refine ⟨s, h1, lookup_spec h2, ?_, h2.map⟩
  exact List.Pairwise.imp (fun {a b} h he => h (by unfold cmpByName; rw [he]; exact strcmp_refl _)) h2.nn

/-- The specified map, read as the property says it: the last command about a
name decides (apart from labels superseded later). -/
theorem c16_spec_last (m : VMap) (n : CStr) (p : Place) (b1 b2 : Int) (ops : List VOp)
    (hno : ∀ op ∈ ops, (∀ q c d, op ≠ .add n q c d) ∧ op ≠ .del n)
    (hdot : n.head? ≠ some '.'.toNat) :
    m.run (.add n p b1 b2 :: ops) n = some (defOf n p b1 b2) ∧ m.run (.del n :: ops) n = none := by
  have key : ∀ (ops : List VOp) (m : VMap), (∀ op ∈ ops, (∀ q c d, op ≠ .add n q c d) ∧ op ≠ .del n) →
      (∀ k v, m k = some v → v.name = k) → m.run ops n = m n := by
    intro ops
    induction ops with
    | nil => intros; rfl
    | cons op ops ih =>
      intro m hno hmn
      have h0 := hno op List.mem_cons_self
      show VMap.run (m.step op) ops n = m n
      rw [ih (m.step op) (fun o ho => hno o (List.mem_cons_of_mem _ ho))]
      · cases op with
        | add k q c d =>
          have hk : n ≠ k := fun he => h0.1 q c d (by rw [he])
          show (if n = k then _ else (m n).filter _) = m n
          rw [if_neg hk]
          cases hm : m n with
          | none => rfl
          | some v =>
            have hv := hmn n v hm
            rw [Option.filter_some, if_pos]
            have : superseded v (defOf k q c d) = false := by
              unfold superseded
              rw [show (v.name.head? == some '.'.toNat) = false from beq_eq_false_iff_ne.2 (by rw [hv]; exact hdot)]
              rfl
            rw [this]; rfl
        | del k =>
          have hk : n ≠ k := fun he => h0.2 (by rw [he])
          show (if n = k then none else m n) = m n
          rw [if_neg hk]
        | width => rfl
      · intro k v hk
        cases op with
        | add j q c d =>
          have hk : (if k = j then some (defOf j q c d) else (m k).filter _) = some v := hk
          split at hk
          · rename_i hkj; cases hk; exact hkj.symm
          · rw [Option.filter_eq_some_iff] at hk; exact hmn k v hk.1
        | del j =>
          have hk : (if k = j then none else m k) = some v := hk
          split at hk
          · cases hk
          · exact hmn k v hk
        | width => exact hmn k v hk
  -- only the value at n matters: restrict the map to n
  have restrict : ∀ (ops : List VOp) (m1 m2 : VMap), m1 n = m2 n → m1.run ops n = m2.run ops n := by
    intro ops
    induction ops with
    | nil => intro m1 m2 h; exact h
    | cons op ops ih =>
      intro m1 m2 h
      refine ih (m1.step op) (m2.step op) ?_
      cases op with
      | add k q c d =>
        show (if n = k then _ else (m1 n).filter _) = (if n = k then _ else (m2 n).filter _)
        rw [h]
      | del k =>
        show (if n = k then none else m1 n) = (if n = k then none else m2 n)
        rw [h]
      | width => exact h
  constructor
  · show VMap.run (m.step (.add n p b1 b2)) ops n = _
    rw [restrict ops _ (fun k => if k = n then some (defOf n p b1 b2) else none) (by simp [VMap.step]),
      key ops _ hno (fun k v hk => by
        split at hk
        · rename_i h; cases hk; exact h.symm
        · cases hk)]
    simp
  · show VMap.run (m.step (.del n)) ops n = _
    rw [restrict ops _ VMap.empty (by simp [VMap.step, VMap.empty]), key ops _ hno (fun k v hk => by cases hk)]
    rfl

/-- A label `.x` is superseded by `y` for the same place; `z` is replaced. -/
example : vrun VarList.empty [.add [46, 120] (.mem 1 5) (-1) (-1), .add [122] (.mem 1 5) 3 0, .add [122] (.cell 7) (-1) (-1),
      .add [121] (.mem 1 5) (-1) (-1)] =
    .ok ⟨⟨[⟨[121], .mem 1 5, -1, -1⟩, ⟨[122], .cell 7, -1, -1⟩], 10, 10⟩, ⟨[⟨[121], .mem 1 5, -1, -1⟩], 10, 10⟩, 2, false⟩ := by
  decide +kernel

/-! ## C17 -/

/-- C17, address: the variables listed for an address are exactly the defined
memory variables of that address (same limits as C16). -/
theorem c17_addr_partial (names : List CStr) (hl : names.length ≤ 8192) (ops : List VOp)
    (hok : ∀ op ∈ ops, op.ok) (hu : Uses names ops) (uid addr : Nat) (h1 : uid < 2 ^ 31) (h2 : addr < 2 ^ 31) :
    ∃ s l, vrun VarList.empty ops = .ok s ∧ s.varsAt uid addr = .ok l ∧ l.Nodup ∧
      ∀ v, v ∈ l ↔ VMap.empty.run ops v.name = some v ∧ v.place = .mem uid addr := by
  obtain ⟨s, hr, hI, _⟩ := vrun_spec hl ops (vinv_empty names) hok hu
  refine ⟨s, ?_⟩
  have hokA : ∀ x ∈ s.byAddr.items, VOk x := fun x hx => hI.ok x ((hI.mem x).1 hx).1
  have hk : VOk ⟨[], .mem uid addr, -1, -1⟩ := ⟨h1, h2, by show (-1 : Int) ≤ -1; omega, by show (-1 : Int) ≤ -1; omega⟩
  obtain ⟨f, k, a1, a2, a3, a4⟩ := searchAddr_spec s.byAddr.items hI.sa hokA ⟨[], .mem uid addr, -1, -1⟩ hk
  have a1 : searchAddr s.byAddr.items uid addr = some (f, (k : Int)) := a1
  have hz : ∀ x ∈ s.byAddr.items, cmpAT x ⟨[], .mem uid addr, -1, -1⟩ = 0 ↔ x.place = .mem uid addr := by
    intro x hx
    have hp := isMem_place ((hI.mem x).1 hx).2
    rw [hp]
    unfold cmpAT
    show (if (x.uid : Int) - (uid : Nat) ≠ 0 then (x.uid : Int) - (uid : Nat) else (x.addr : Int) - (addr : Nat)) = 0 ↔ _
    rw [Place.mem.injEq]
    split <;> omega
  have hmap : ∀ v, VMap.empty.run ops v.name = some v ∧ v.place = .mem uid addr ↔
      v ∈ s.byAddr.items ∧ v.place = .mem uid addr := by
    intro v
    rw [← hI.map, hI.mem]
    constructor
    · rintro ⟨h, h'⟩; exact ⟨⟨h, by unfold Var.isMem; rw [h']⟩, h'⟩
    · rintro ⟨h, h'⟩; exact ⟨h.1, h'⟩
  cases f with
  | false =>
    refine ⟨[], hr, by unfold VarList.varsAt; rw [a1], List.nodup_nil, fun v => ?_⟩
    rw [hmap]
    constructor
    · intro h; cases h
    · rintro ⟨h, h'⟩
      have := a3.2 ⟨v, h, (hz v h).2 h'⟩
      cases this
  | true =>
    refine ⟨_, hr, by unfold VarList.varsAt; rw [a1], ?_, fun v => ?_⟩
    · exact List.Pairwise.sublist ((List.takeWhile_sublist _).trans (List.drop_sublist _ _))
        (nodup_of_noDup cmpT_preorder hI.na)
    · rw [hmap, Int.toNat_natCast]
      have hpred : ∀ x ∈ s.byAddr.items, decide (x.uid = uid ∧ x.addr = addr) = decide (x.place = .mem uid addr) := by
        intro x hx
        have hp := isMem_place ((hI.mem x).1 hx).2
        apply decide_eq_decide.2
        rw [hp, Place.mem.injEq]
      constructor
      · intro h
        have hd := (List.takeWhile_sublist _).subset h
        have hm := List.mem_of_mem_drop hd
        refine ⟨hm, ?_⟩
        have := List.all_takeWhile (l := s.byAddr.items.drop k) (p := fun v => decide (v.uid = uid ∧ v.addr = addr))
        rw [List.all_eq_true] at this
        have := this v h
        rw [hpred v hm] at this
        exact of_decide_eq_true this
      · rintro ⟨h, h'⟩
        obtain ⟨j, hj, rfl⟩ := List.mem_iff_getElem.1 h
        have hx := List.getElem?_eq_getElem hj
        have h0 := (hz _ h).2 h'
        have hkj : k ≤ j := by
          rcases Nat.lt_or_ge j k with hlt | hge
          · have := (a4 j _ hx).1 hlt; omega
          · exact hge
        -- everything between k and j is at the address too
        have hall : ∀ i, k ≤ i → (hi : i ≤ j) → (s.byAddr.items[i]'(by omega)).place = .mem uid addr := by
          intro i hki hij
          have hi' : i < s.byAddr.items.length := by omega
          have hxi := List.getElem?_eq_getElem hi'
          apply (hz _ (List.getElem_mem hi')).1
          have g1 := (a4 i _ hxi).2 hki
          have hs' : SortedBy cmpAT s.byAddr.items := List.Pairwise.imp (fun h => cmpAT_of_cmpT h) hI.sa
          have ho := ordered_of_sorted cmpAT_preorder hs' ⟨[], .mem uid addr, -1, -1⟩
          rcases Nat.lt_or_ge i j with hlt | hge
          · have g2 : cmpAT s.byAddr.items[j] ⟨[], .mem uid addr, -1, -1⟩ ≤ 0 →
                cmpAT s.byAddr.items[i] ⟨[], .mem uid addr, -1, -1⟩ ≤ 0 := (ho i j _ _ hlt hxi hx).2
            omega
          · have : i = j := by omega
            subst this; exact h0
        have hdrop : s.byAddr.items.drop k =
            (s.byAddr.items.drop k).take (j - k + 1) ++ (s.byAddr.items.drop k).drop (j - k + 1) :=
          (List.take_append_drop _ _).symm
        rw [hdrop, List.takeWhile_append_of_pos]
        · apply List.mem_append_left
          rw [List.mem_take_iff_getElem]
          refine ⟨j - k, by rw [List.length_drop]; omega, ?_⟩
          rw [List.getElem_drop]
          congr 1; omega
        · intro a ha
          rw [List.mem_take_iff_getElem] at ha
          obtain ⟨i, hi, rfl⟩ := ha
          rw [List.length_drop] at hi
          rw [List.getElem_drop]
          have := hall (k + i) (by omega) (by omega)
          rw [hpred _ (List.getElem_mem _), this]
          simp

/-- C17, bit range: the search finds a variable of the place and bits iff one is
defined, and returns the position of the first one in the address index, which
holds exactly the defined memory variables (same limits as C16). -/
theorem c17_bits_partial (names : List CStr) (hl : names.length ≤ 8192) (ops : List VOp)
    (hok : ∀ op ∈ ops, op.ok) (hu : Uses names ops) (uid addr : Nat) (hi lo : Int)
    (h1 : uid < 2 ^ 31) (h2 : addr < 2 ^ 31) (h3 : -1 ≤ lo) (h4 : -1 ≤ hi) :
    ∃ (s : VarList) (f : Bool) (k : Nat), vrun VarList.empty ops = .ok s ∧
      searchBits s.byAddr.items uid addr hi lo = some (f, (k : Int)) ∧
      (∀ v, v ∈ s.byAddr.items ↔ VMap.empty.run ops v.name = some v ∧ ∃ u a, v.place = .mem u a) ∧
      (f = true ↔ ∃ n v, VMap.empty.run ops n = some v ∧ v.place = .mem uid addr ∧ v.hi = hi ∧ v.lo = lo) ∧
      (f = true → ∃ v, s.byAddr.items[k]? = some v ∧ v.place = .mem uid addr ∧ v.hi = hi ∧ v.lo = lo) ∧
      (∀ v ∈ s.byAddr.items.take k, ¬ (v.place = .mem uid addr ∧ v.hi = hi ∧ v.lo = lo)) := by
  obtain ⟨s, hr, hI, _⟩ := vrun_spec hl ops (vinv_empty names) hok hu
  have hokA : ∀ x ∈ s.byAddr.items, VOk x := fun x hx => hI.ok x ((hI.mem x).1 hx).1
  have hk : VOk ⟨[], .mem uid addr, hi, lo⟩ := ⟨h1, h2, h3, h4⟩
  obtain ⟨f, k, a1, a2, a3, a4⟩ := searchBits_spec s.byAddr.items hI.sa hokA ⟨[], .mem uid addr, hi, lo⟩ hk
  have hz : ∀ x ∈ s.byAddr.items, x.samePlace ⟨[], .mem uid addr, hi, lo⟩ = true ↔
      x.place = .mem uid addr ∧ x.hi = hi ∧ x.lo = lo := by
    intro x hx
    have hp := isMem_place ((hI.mem x).1 hx).2
    rw [hp, Place.mem.injEq]
    unfold Var.samePlace
    rw [decide_eq_true_iff]
    show x.uid = uid ∧ x.addr = addr ∧ x.hi = hi ∧ x.lo = lo ↔ _
    rw [and_assoc]
  refine ⟨s, f, k, hr, a1, ?_, ?_, ?_, ?_⟩
  · intro v
    rw [hI.mem, hI.map]
    constructor
    · rintro ⟨h, h'⟩; exact ⟨h, _, _, isMem_place h'⟩
    · rintro ⟨h, u, a, h'⟩; exact ⟨h, by unfold Var.isMem; rw [h']⟩
  · rw [a3]
    constructor
    · rintro ⟨x, hx, h⟩
      exact ⟨x.name, x, (hI.map x).1 ((hI.mem x).1 hx).1, (hz x hx).1 h⟩
    · rintro ⟨n, v, h, h'⟩
      have hn := hI.mapn n v h
      have hv : v ∈ s.byAddr.items := (hI.mem v).2 ⟨(hI.map v).2 (by rw [hn]; exact h), by unfold Var.isMem; rw [h'.1]⟩
      exact ⟨v, hv, (hz v hv).2 h'⟩
  · intro hf
    obtain ⟨x, hx, h⟩ := a3.1 hf
    obtain ⟨j, hj, rfl⟩ := List.mem_iff_getElem.1 hx
    have hxj := List.getElem?_eq_getElem hj
    have h0 := (cmpBT_zero (hokA _ hx) hk).2 h
    have hkj : k ≤ j := by
      rcases Nat.lt_or_ge j k with hlt | hge
      · have := (a4 j _ hxj).1 hlt; omega
      · exact hge
    have hkl : k < s.byAddr.items.length := by omega
    have hxk := List.getElem?_eq_getElem hkl
    refine ⟨_, hxk, (hz _ (List.getElem_mem hkl)).1 ((cmpBT_zero (hokA _ (List.getElem_mem hkl)) hk).1 ?_)⟩
    have g1 := (a4 k _ hxk).2 (Nat.le_refl _)
    have hs' : SortedBy cmpBT s.byAddr.items := List.Pairwise.imp (fun h => cmpBT_of_cmpT h) hI.sa
    have ho := ordered_of_sorted cmpBT_preorder hs' ⟨[], .mem uid addr, hi, lo⟩
    rcases Nat.lt_or_ge k j with hlt | hge
    · have g2 : cmpBT s.byAddr.items[j] ⟨[], .mem uid addr, hi, lo⟩ ≤ 0 →
          cmpBT s.byAddr.items[k] ⟨[], .mem uid addr, hi, lo⟩ ≤ 0 := (ho k j _ _ hlt hxk hxj).2
      omega
    · have : k = j := by omega
      subst this; exact h0
  · intro v hv hp
    obtain ⟨j, hj, rfl⟩ := List.mem_iff_getElem.1 hv
    rw [List.length_take] at hj
    rw [List.getElem_take] at hp
    have hxj := List.getElem?_eq_getElem (show j < s.byAddr.items.length by omega)
    have := (a4 j _ hxj).1 (by omega)
    have hm := List.mem_of_getElem? hxj
    have := (cmpBT_zero (hokA _ hm) hk).2 ((hz _ hm).2 hp)
    omega

/-- The restriction to addresses below 2^31 is needed: with these four variables
the one at 0x60000000 is not found by its address. -/
theorem c17_false_high : ∃ s, vrun VarList.empty [.add [97] (.mem 0 0) (-1) (-1), .add [98] (.mem 0 0x60000000) (-1) (-1),
      .add [99] (.mem 0 0xa0000000) (-1) (-1), .add [100] (.mem 0 0xc0000000) (-1) (-1)] = .ok s ∧
    s.lookup [98] = .ok (some ⟨[98], .mem 0 0x60000000, -1, -1⟩) ∧ s.varsAt 0 0x60000000 = .ok [] := by
  refine ⟨⟨⟨[⟨[97], .mem 0 0, -1, -1⟩, ⟨[98], .mem 0 0x60000000, -1, -1⟩, ⟨[99], .mem 0 0xa0000000, -1, -1⟩,
    ⟨[100], .mem 0 0xc0000000, -1, -1⟩], 10, 10⟩, ⟨[⟨[99], .mem 0 0xa0000000, -1, -1⟩, ⟨[100], .mem 0 0xc0000000, -1, -1⟩,
    ⟨[97], .mem 0 0, -1, -1⟩, ⟨[98], .mem 0 0x60000000, -1, -1⟩], 10, 10⟩, 1, true⟩, ?_⟩
  decide +kernel

/-! ## C18 -/

/-- C18: the reported length is at least the length of every defined name; it is
the length of a defined name (or 0) if no `add` replaced a defined name.
Missing: exactness after replacements (see `c18_false`); limits as C16. -/
theorem c18_width_partial (names : List CStr) (hl : names.length ≤ 8192) (ops : List VOp)
    (hok : ∀ op ∈ ops, op.ok) (hu : Uses names ops) :
    ∃ s, vrun VarList.empty ops = .ok s ∧
      (∀ n v, VMap.empty.run ops n = some v → n.length ≤ s.getMaxLen.2) ∧
      (NoReplace VMap.empty ops →
        (∃ n v, VMap.empty.run ops n = some v ∧ n.length = s.getMaxLen.2) ∨ s.getMaxLen.2 = 0) := by
  obtain ⟨s, hr, hI, hE⟩ := vrun_spec hl ops (vinv_empty names) hok hu
  refine ⟨s, hr, ?_, ?_⟩
  · intro n v h
    have hn := hI.mapn n v h
    have hv := (hI.map v).2 (by rw [hn]; exact h)
    rw [← hn]
    unfold VarList.getMaxLen
    split
    · exact hI.len v hv
    · exact (maxLenLoop_spec _ _).2.1 v hv
  · intro hno
    have he := hE hno (fun _ => Or.inr rfl)
    have conv : (∃ u ∈ s.byName.items, u.name.length = s.getMaxLen.2) →
        ∃ n v, VMap.empty.run ops n = some v ∧ n.length = s.getMaxLen.2 := by
      rintro ⟨u, hu, h⟩
      exact ⟨u.name, u, (hI.map u).1 hu, h⟩
    unfold VarList.getMaxLen at conv ⊢
    by_cases hk : s.known = true
    · rw [if_pos hk] at conv ⊢
      rcases he hk with h | h
      · exact Or.inl (conv h)
      · exact Or.inr h
    · rw [if_neg hk] at conv ⊢
      rcases (maxLenLoop_spec s.byName.items 0).2.2 with h | h
      · exact Or.inr h
      · exact Or.inl (conv h)

/-- C18 as stated is false: abc and b are added, abc deleted, b added again; the
reported length is 3 though b is the only name. -/
theorem c18_false : ∃ s, vrun VarList.empty [.add [97, 98, 99] (.mem 0 0) (-1) (-1), .add [98] (.mem 0 1) (-1) (-1),
      .del [97, 98, 99], .add [98] (.mem 0 1) (-1) (-1)] = .ok s ∧
    s.getMaxLen.2 = 3 ∧ s.byName.items.map Var.name = [[98]] := by
  refine ⟨⟨⟨[⟨[98], .mem 0 1, -1, -1⟩], 10, 10⟩, ⟨[⟨[98], .mem 0 1, -1, -1⟩], 10, 10⟩, 3, true⟩, ?_⟩
  decide +kernel

/-! ### More than 8192 names -/

theorem slAdd_full {α : Type} (cmp : α → α → Int) (hp : PreorderCmp cmp) (l : CList α) (hf : l.Fits)
    (hn : l.items.length = maxListSize) (hs : SortedBy cmp l.items) (x : α) (hx : ∀ y ∈ l.items, cmp y x ≠ 0) :
    slAdd cmp false l x = .ub := by
  obtain ⟨f, i, h1, h2, _, h4⟩ := c14_search cmp hp false l.items hs x
  have hff : f = false := by
    cases f with
    | false => rfl
    | true => obtain ⟨y, hy, h0⟩ := h2.1 rfl; exact absurd h0 (hx y hy)
  subst hff
  unfold slAdd
  rw [h1]
  simp only [Bool.not_false, Bool.true_or, if_true]
  have hlim : l.limit = maxListSize := by have := hf.1; have := hf.2; omega
  unfold CList.addAt
  rw [if_neg (by omega)]
  have hc : l.count = l.limit := by unfold CList.count; omega
  rw [if_pos hc, CList.setLimit_ok _ _ (by omega)]
  simp only
  have := (h4 (Or.inr rfl)).2.2
  rw [if_neg (by unfold CList.count; simp only [Int.toNat_natCast]; omega), if_pos]
  unfold CList.count; simp only; rw [hn]; omega

/-- A name of two characters for every number below 16384. -/
def nm (i : Nat) : CStr := [i / 128 + 1, i % 128 + 1]

/-- C16 as stated is false: the 8193rd different name makes the program write
outside of its array of pointers. -/
theorem c16_false_full :
    vrun VarList.empty (((List.range 8192).map nm).map (fun n => VOp.add n (.cell 0) (-1) (-1)) ++
      [VOp.add (nm 8192) (.cell 0) (-1) (-1)]) = .ub := by
  have hinj : ∀ i j, nm i = nm j → i = j := by
    intro i j h; unfold nm at h; simp only [List.cons.injEq] at h; omega
  generalize hnames : (List.range 8192).map nm = names
  have hnd : names.Nodup := by
    subst hnames
    unfold List.Nodup
    rw [List.pairwise_map]
    exact List.Pairwise.imp (fun {a b} h he => h (hinj a b he)) List.nodup_range
  have hlen : names.length = 8192 := by subst hnames; simp
  have hnew : nm 8192 ∉ names := by
    subst hnames
    intro h
    obtain ⟨i, hi, he⟩ := List.mem_map.1 h
    have := hinj _ _ he
    have := List.mem_range.1 hi
    omega
  have happ : ∀ (xs ys : List VOp) (s s' : VarList), vrun s xs = .ok s' → vrun s (xs ++ ys) = vrun s' ys := by
    intro xs
    induction xs with
    | nil => intro ys s s' h; cases h; rfl
    | cons x xs ih =>
      intro ys s s' h
      rw [List.cons_append, vrun]
      rw [vrun] at h
      cases hx : vexec s x with
      | ok t => rw [hx] at h; exact ih ys t s' h
      | exit => rw [hx] at h; cases h
      | ub => rw [hx] at h; cases h
  obtain ⟨s, hr, hI, _⟩ := vrun_spec (by omega) (names.map (fun n => VOp.add n (.cell 0) (-1) (-1)))
    (vinv_empty names)
    (fun op ho => by
      obtain ⟨n, _, rfl⟩ := List.mem_map.1 ho
      exact ⟨by omega, by omega⟩)
    (fun n p b1 b2 h => by
      obtain ⟨k, hk, he⟩ := List.mem_map.1 h
      cases he; exact hk)
  rw [happ _ _ _ _ hr]
  have hdef : ∀ (l : List CStr) (m : VMap) n, (m n = some ⟨n, .cell 0, -1, -1⟩ ∨ n ∈ l) →
      m.run (l.map (fun n => VOp.add n (.cell 0) (-1) (-1))) n = some ⟨n, .cell 0, -1, -1⟩ := by
    intro l
    induction l with
    | nil => intro m n h; exact h.resolve_right (by simp)
    | cons a l ih =>
      intro m n h
      refine ih (m.step (VOp.add a (.cell 0) (-1) (-1))) n ?_
      by_cases hna : n = a
      · left; subst hna; simp [VMap.step, defOf]
      · rcases h with h | h
        · left
          show (if n = a then _ else (m n).filter _) = _
          rw [if_neg hna, h, Option.filter_some, if_pos]
          simp [superseded, defOf]
        · exact Or.inr ((List.mem_cons.1 h).resolve_left hna)
  have hnone : ∀ (l : List CStr) (m : VMap) n, m n = none → n ∉ l →
      m.run (l.map (fun n => VOp.add n (.cell 0) (-1) (-1))) n = none := by
    intro l
    induction l with
    | nil => intro m n h _; exact h
    | cons a l ih =>
      intro m n h hn
      refine ih (m.step (VOp.add a (.cell 0) (-1) (-1))) n ?_ (fun h' => hn (List.mem_cons_of_mem _ h'))
      have hna : n ≠ a := fun he => hn (he ▸ List.mem_cons_self)
      show (if n = a then _ else (m n).filter _) = _
      rw [if_neg hna, h]; rfl
  have hcount : s.byName.items.length = maxListSize := by
    have h1 := length_le_of_subset (m := s.byName.items.map Var.name) hnd (fun n hn => by
      have h := hdef names VMap.empty n (Or.inr hn)
      exact List.mem_map.2 ⟨_, (hI.map ⟨n, .cell 0, -1, -1⟩).2 h, rfl⟩)
    rw [List.length_map] at h1
    have := hI.fn.1; have := hI.fn.2
    unfold maxListSize at *
    omega
  have hmn := hnone names VMap.empty (nm 8192) rfl hnew
  have hdel : s.del (nm 8192) = .ok (s, false) := by
    unfold VarList.del
    rcases searchName_spec hI (nm 8192) with ⟨_, i, hs⟩ | ⟨v, i, hv, _⟩
    · rw [hs]
    · rw [hmn] at hv; cases hv
  rw [vrun]
  show (match s.add (mkVar (nm 8192) (.cell 0) (-1) (-1)) with | .ok s' => vrun s' [] | .exit => .exit | .ub => .ub) = _
  rw [mkVar_eq]
  unfold VarList.add
  have hnm : (defOf (nm 8192) (.cell 0) (-1) (-1)).name = nm 8192 := rfl
  rw [hnm, hdel]
  simp only [Bool.false_eq_true, if_false]
  rw [slAdd_full cmpByName cmpName_preorder s.byName hI.fn hcount hI.sn]
  intro y hy h0
  have h0 : y.name = nm 8192 := strcmp_eq.1 h0
  have := (hI.map y).1 hy
  rw [h0, hmn] at this; cases this

end Ucsim.Props
