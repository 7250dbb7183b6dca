import Verif.Pb.Find
set_option linter.constructorNameAsVariable false
/-
C160 (programs).
-/
namespace Ucsim.Pb

/-- the code of an instruction for the processor of the machine -/
def encE (e : Env) (i : I) : Option (BitVec 6 × BitVec 12) := if e.six then enc6 i else enc3 i

theorem find_enc (e : Env) (i : I) (o : BitVec 6) (r : BitVec 12) (h : encE e i = some (o, r)) :
    ∃ t, find (table e) (o ++ r) = some t ∧ t.op = (opOf e.six i).1 ∧ t.opr = (opOf e.six i).2 := by
  unfold encE at h; unfold table
  cases h6 : e.six <;> simp [h6] at h ⊢
  · exact find3 i o r h
  · exact find6 i o r h

theorem bits18 (o : BitVec 6) (r : BitVec 12) (i : Nat) : (o ++ r : BitVec 18).getLsbD i = if i < 12 then r.getLsbD i else o.getLsbD (i - 12) :=
  BitVec.getLsbD_append
theorem bits12 (x : Reg) (v : Byte) (i : Nat) : (x ++ v : BitVec 12).getLsbD i = if i < 8 then v.getLsbD i else x.getLsbD (i - 8) :=
  BitVec.getLsbD_append
theorem bits8 (x y : Reg) (i : Nat) : (x ++ y : BitVec 8).getLsbD i = if i < 4 then y.getLsbD i else x.getLsbD (i - 4) :=
  BitVec.getLsbD_append
theorem bits10 (c : BitVec 2) (a : BitVec 10) (i : Nat) : (c ++ a : BitVec 12).getLsbD i = if i < 10 then a.getLsbD i else c.getLsbD (i - 10) :=
  BitVec.getLsbD_append

theorem getX_eq (o : BitVec 6) (x : Reg) (v : Byte) : getX (o ++ (x ++ v : BitVec 12)) = x := by
  unfold getX; apply BitVec.eq_of_getLsbD_eq; intro i hi
  rw [BitVec.getLsbD_extractLsb', bits18, bits12]
  have h1 : 8 + i < 12 := by omega
  have h2 : ¬ 8 + i < 8 := by omega
  have h3 : 8 + i - 8 = i := by omega
  simp [h1, h2, h3, hi]
theorem getK_eq (o : BitVec 6) (x : Reg) (v : Byte) : getK (o ++ (x ++ v : BitVec 12)) = v := by
  unfold getK; apply BitVec.eq_of_getLsbD_eq; intro i hi
  rw [BitVec.getLsbD_extractLsb', bits18, bits12]
  have h1 : 0 + i < 12 := by omega
  have h2 : 0 + i < 8 := by omega
  simp [hi]; intro; omega
theorem getY_eq (o : BitVec 6) (x y z : Reg) : getY (o ++ (x ++ (y ++ z : BitVec 8) : BitVec 12)) = y := by
  unfold getY; apply BitVec.eq_of_getLsbD_eq; intro i hi
  rw [BitVec.getLsbD_extractLsb', bits18, bits12, bits8]
  have h1 : 4 + i < 12 := by omega
  have h2 : 4 + i < 8 := by omega
  have h4 : ¬ 4 + i < 4 := by omega
  have h3 : 4 + i - 4 = i := by omega
  simp [h1, h2, h3, h4, hi]
theorem getA12_eq (o : BitVec 6) (a : BitVec 12) : getA12 (o ++ a) = a.toNat := by
  unfold getA12; congr 1; apply BitVec.eq_of_getLsbD_eq; intro i hi
  rw [BitVec.getLsbD_extractLsb', bits18]
  simp [hi]
theorem getA10_eq (o : BitVec 6) (c : BitVec 2) (a : BitVec 10) : getA10 (o ++ (c ++ a : BitVec 12)) = a.toNat := by
  unfold getA10; congr 1; apply BitVec.eq_of_getLsbD_eq; intro i hi
  rw [BitVec.getLsbD_extractLsb', bits18, bits10]
  simp [hi]; intro; omega

/-- the second operand of a word -/
theorem operand_eq (m : M) (o : BitVec 6) (x : Reg) (d : Opd) (kk : Opr)
    (hk : kk = .REG_CONSTANT ∨ kk = .REG_PORT ∨ kk = .REG_ADDRESS8) :
    operand m (o ++ low x d) (oprOf kk d) = opd (view m) d := by
  cases d with
  | k v => rcases hk with rfl | rfl | rfl <;> exact getK_eq o x v
  | r y => exact congrArg (m.reg m.bank) (getY_eq o x y 0#4)

theorem operand6_eq (m : M) (o : BitVec 6) (x : Reg) (d : Opd) (h : ∀ v, d = .k v → v.toNat < 64) :
    operand m (o ++ low x d) (oprOf .REG_ADDRESS6 d) = opd (view m) d := by
  cases d with
  | k v =>
    have h1 : operand m (o ++ low x (.k v)) (oprOf .REG_ADDRESS6 (.k v)) = v &&& 63#8 := congrArg (· &&& 63#8) (getK_eq o x v)
    rw [h1]
    exact (by decide +kernel : ∀ v : BitVec 8, v.toNat < 64 → v &&& 63#8 = v) v (h v rfl)
  | r y => exact congrArg (m.reg m.bank) (getY_eq o x y 0#4)

theorem getX_low (o : BitVec 6) (x : Reg) (d : Opd) : getX (o ++ low x d) = x := by
  cases d with
  | k v => exact getX_eq o x v
  | r y => exact getX_eq o x (y ++ 0#4)

/-- the parity loop -/
theorem parity_eq (v : Byte) : parity 9 v.toNat false = odd v := by
  exact (by decide +kernel : ∀ v : BitVec 8, parity 9 v.toNat false = odd v) v

theorem rl_eq (v : Byte) : v <<< 1 ||| v >>> 7 = v.rotateLeft 1 := (by decide +kernel : ∀ v : BitVec 8, v <<< 1 ||| v >>> 7 = v.rotateLeft 1) v
theorem rr_eq (v : Byte) : v >>> 1 ||| v <<< 7 = v.rotateRight 1 := (by decide +kernel : ∀ v : BitVec 8, v >>> 1 ||| v <<< 7 = v.rotateRight 1) v

theorem sub_eq (a b : Byte) (c : Nat) (hc : c ≤ 1) :
    BitVec.ofInt 8 (((a.toNat : Int) - b.toNat - c).tmod 256) = BitVec.ofNat 8 ((a.toNat + 512 - b.toNat - c) % 256) ∧
    (((a.toNat : Int) - b.toNat - c).tmod 256 = 0 ↔ (a.toNat + 512 - b.toNat - c) % 256 = 0) := by
  have ha := a.isLt
  have hb := b.isLt
  generalize a.toNat = p at *
  generalize b.toNat = q at *
  constructor
  · apply BitVec.eq_of_toNat_eq
    simp only [BitVec.toNat_ofInt, BitVec.toNat_ofNat]
    by_cases h : 0 ≤ (p : Int) - q - c
    · rw [Int.tmod_eq_emod_of_nonneg h]; omega
    · have : ((p : Int) - q - c).tmod 256 = - ((-((p : Int) - q - c)) % 256) := by
        have h2 : (p : Int) - q - c = - (-((p : Int) - q - c)) := by omega
        rw [h2, Int.neg_tmod, Int.tmod_eq_emod_of_nonneg (by omega)]; omega
      rw [this]; omega
  · by_cases h : 0 ≤ (p : Int) - q - c
    · rw [Int.tmod_eq_emod_of_nonneg h]; omega
    · have : ((p : Int) - q - c).tmod 256 = - ((-((p : Int) - q - c)) % 256) := by
        have h2 : (p : Int) - q - c = - (-((p : Int) - q - c)) := by omega
        rw [h2, Int.neg_tmod, Int.tmod_eq_emod_of_nonneg (by omega)]; omega
      rw [this]; omega

/-- what the simulator does as the guides say: not STAR and OUTPUTK, addresses within the scratch pad, and
no COMPARECY with 0xFF and C -/
def Plain (e : Env) (s : S) : I → Prop
  | .star _ _ => False
  | .outputk _ _ => False
  | .fetch _ d => (opd s d).toNat < e.ramSize
  | .store _ d => (opd s d).toNat < e.ramSize
  | .tst .comparecy _ d => ¬ ((opd s d).toNat = 255 ∧ s.C = true)
  | _ => True

theorem view_wreg (m : M) (x : Reg) (v : Byte) : view (wreg m x v) = setReg (view m) x v := rfl

theorem call_eq (e : Env) (m : M) (hpc : 1 ≤ m.PC ∧ m.PC < 4096) (a : Nat) (s' : S) (h : push (view m) a = some s') (hs : m.sp ≤ 30) :
    view (call e m a) = s' ∧ (call e m a).sp ≤ 30 := by
  unfold push at h
  split at h
  · rename_i hl
    simp [view] at hl
    cases h
    have h1 : (m.sp + 1) % 31 = m.sp + 1 := by omega
    have h2 : m.sp < stackSize e := by unfold stackSize; split <;> omega
    have h3 : ¬ 30 < m.sp + 1 := by omega
    constructor
    · simp only [call, stackPush, h1, h2, h3]
      simp [view, List.range_succ]
      constructor
      · omega
      · intro i hi
        rw [if_neg (by omega)]
    · simp only [call, stackPush, h1, h2, h3]
      simp; omega
  · cases h

theorem ret_eq (e : Env) (m : M) (s' : S) (h : pop (view m) = some s') (hs : m.sp ≤ 30) :
    view (ret e m) = s' ∧ (ret e m).sp ≤ 30 := by
  obtain ⟨n, hn⟩ : ∃ n, m.sp = n + 1 := by
    cases hm : m.sp with
    | zero => simp [pop, view, hm] at h
    | succ n => exact ⟨n, rfl⟩
  have hp : (stackPop e m) = ({ m with sp := n }, (m.stk n).toNat, false) := by
    have : n < stackSize e := by unfold stackSize; split <;> omega
    simp [stackPop, hn, this]; omega
  simp [pop, view, hn, List.range_succ] at h
  subst h
  constructor
  · simp [ret, hp, view]
  · simp [ret, hp]; omega

theorem enc_low (e : Env) (i : I) (x : Reg) (d : Opd) (o : BitVec 6) (r : BitVec 12) (h : encE e i = some (o, r))
    (hi : (∃ f, i = .alu f x d) ∨ (∃ f, i = .tst f x d) ∨ i = .input x d ∨ i = .output x d ∨ i = .fetch x d ∨ i = .store x d) :
    r = low x d := by
  unfold encE at h
  cases h6 : e.six <;> simp [h6] at h <;> rcases hi with ⟨f, rfl⟩ | ⟨f, rfl⟩ | rfl | rfl | rfl | rfl
  · simp [enc3] at h; exact h.2.symm
  · cases f <;> simp [enc3] at h <;> exact h.2.symm
  · simp [enc3] at h; exact h.2.symm
  · simp [enc3] at h; exact h.2.symm
  · cases d <;> simp [enc3] at h
    · exact h.2.2.symm
    · exact h.2.symm
  · cases d <;> simp [enc3] at h
    · exact h.2.2.symm
    · exact h.2.symm
  · simp [enc6] at h; exact h.2.symm
  · simp [enc6] at h; exact h.2.symm
  · simp [enc6] at h; exact h.2.symm
  · simp [enc6] at h; exact h.2.symm
  · simp [enc6] at h; exact h.2.symm
  · simp [enc6] at h; exact h.2.symm

theorem mem_operand (e : Env) (m : M) (o : BitVec 6) (x : Reg) (d : Opd) (r : BitVec 12)
    (h : encE e (.fetch x d) = some (o, r) ∨ encE e (.store x d) = some (o, r)) :
    operand m (o ++ low x d) (oprOf (if e.six then .REG_ADDRESS8 else .REG_ADDRESS6) d) = opd (view m) d := by
  unfold encE at h
  cases h6 : e.six <;> simp [h6] at h ⊢
  · apply operand6_eq
    intro v hv; subst hv
    rcases h with h | h <;> simp [enc3] at h <;> exact h.1
  · exact operand_eq m o x d _ (Or.inr (Or.inr rfl))

theorem upd (m : M) (x : Reg) {v1 v2 : Byte} {c1 c2 z1 z2 : Bool} (hv : v1 = v2) (hc : c1 = c2) (hz : z1 = z2) :
    view (wreg { m with C := c1, Z := z1 } x v1) = { setReg (view m) x v2 with C := c2, Z := z2 } := by
  subst hv hc hz; rfl

theorem zr (a : Byte) : decide (a = 0) = decide (a.toNat = 0) := by
  have : a = 0 ↔ a.toNat = 0 := by rw [BitVec.toNat_eq]; simp
  simp only [this]

theorem alu_eq (e : Env) (m : M) (o : BitVec 6) (f : Alu) (x : Reg) (d : Opd) (s' : S) (h : exec e (view m) (.alu f x d) = some s') :
    view (execM e m (o ++ low x d) (aluOp f) (oprOf .REG_CONSTANT d)) = s' := by
  have ho := operand_eq m o x d _ (Or.inl rfl)
  simp only [exec] at h
  cases h
  have hc : ∀ c : Bool, c.toNat = if c then 1 else 0 := by intro c; cases c <;> rfl
  have ha : (view m).reg (view m).bank x = m.reg m.bank x := rfl
  have hC : (view m).C = m.C := rfl
  have hZ : (view m).Z = m.Z := rfl
  cases f <;> simp only [aluOp, execM, ho, getX_low, alu, ha, hC, hZ, hc] <;> generalize opd (view m) d = b <;> generalize m.reg m.bank x = a
  · exact upd m x (by simp) rfl rfl
  · exact upd m x (by simp [← BitVec.toNat_and]) rfl (by rw [zr, BitVec.toNat_and])
  · exact upd m x (by simp [← BitVec.toNat_or]) rfl (by rw [zr, BitVec.toNat_or])
  · exact upd m x (by simp [← BitVec.toNat_xor]) rfl (by rw [zr, BitVec.toNat_xor])
  · exact upd m x rfl (by simp; omega) rfl
  · exact upd m x rfl (by simp; omega) (by cases e.six <;> simp [Bool.and_comm])
  · have h1 := sub_eq a b 0 (by omega)
    have h2 : (a.toNat + 512 - b.toNat - 0) % 256 = (a.toNat + 256 - b.toNat) % 256 := by
      have := a.isLt; have := b.isLt; omega
    rw [h2] at h1
    have h0 : ((a.toNat : Int) - b.toNat - ((0 : Nat) : Int)) = a.toNat - b.toNat := by omega
    rw [h0] at h1
    refine upd m x ?_ (by simp; omega) (by simp [h1.2])
    exact h1.1
  · have h1 := sub_eq a b (if m.C then 1 else 0) (by split <;> omega)
    have h2 : (((if m.C then 1 else 0 : Nat)) : Int) = if m.C then 1 else 0 := by split <;> rfl
    rw [h2] at h1
    refine upd m x h1.1 (by simp; split <;> omega) ?_
    cases e.six <;> simp [h1.2, Bool.and_comm]

theorem tst_eq (e : Env) (m : M) (o : BitVec 6) (f : Tst) (x : Reg) (d : Opd) (s' : S) (hp : Plain e (view m) (.tst f x d))
    (h : exec e (view m) (.tst f x d) = some s') :
    view (execM e m (o ++ low x d) (tstOp f) (oprOf .REG_CONSTANT d)) = s' := by
  have ho := operand_eq m o x d _ (Or.inl rfl)
  simp only [exec] at h
  cases h
  have ha : (view m).reg (view m).bank x = m.reg m.bank x := rfl
  have hC : (view m).C = m.C := rfl
  have hZ : (view m).Z = m.Z := rfl
  have hcz : ∀ c1 c2 z1 z2 : Bool, c1 = c2 → z1 = z2 → view { m with C := c1, Z := z1 } = { view m with C := c2, Z := z2 } := by
    intro c1 c2 z1 z2 h1 h2; subst h1 h2; rfl
  cases f <;> simp only [Plain, hC] at hp <;> simp only [tstOp, execM, ho, getX_low, tst, alu, ha, hC, hZ, parity_eq] <;>
    generalize opd (view m) d = b at hp ⊢ <;> generalize m.reg m.bank x = a <;> apply hcz <;> try rfl
  · have h1 : (a = b) ↔ (a.toNat + 256 - b.toNat) % 256 = 0 := by
      rw [← BitVec.toNat_inj]
      have := a.isLt; have := b.isLt; omega
    simp only [h1]
  · have h1 : (a.toNat = b.toNat + m.C.toNat) ↔ (a.toNat + 512 - b.toNat - m.C.toNat) % 256 = 0 := by
      have := a.isLt; have := b.isLt
      cases hm : m.C <;> simp [hm] at hp ⊢ <;> omega
    simp only [h1]; simp

theorem shf_eq (e : Env) (m : M) (w : BitVec 18) (f : Shf) (x : Reg) (opr : Opr) (s' : S) (hw : getX w = x)
    (h : exec e (view m) (.shf f x) = some s') : view (execM e m w (shfOp f) opr) = s' := by
  simp only [exec] at h
  cases h
  cases f <;> simp [shfOp, execM, hw, shf, view, setReg, wreg, rl_eq, rr_eq]

theorem sp_wreg (m : M) (x : Reg) (v : Byte) : (wreg m x v).sp = m.sp := rfl

theorem exec_eq (e : Env) (m : M) (i : I) (o : BitVec 6) (r : BitVec 12) (s' : S) (henc : encE e i = some (o, r))
    (hp : Plain e (view m) i) (hpc : 1 ≤ m.PC ∧ m.PC < 4096) (hs : m.sp ≤ 30) (h : exec e (view m) i = some s') :
    view (execM e m (o ++ r) (opOf e.six i).1 (opOf e.six i).2) = s' ∧
      (execM e m (o ++ r) (opOf e.six i).1 (opOf e.six i).2).sp ≤ 30 := by
  have low_of := enc_low e i
  have hlow : ∀ x d, r = low x d → getX (o ++ r) = x := by intro x d hr; rw [hr]; exact getX_low o x d
  cases i with
  | alu f x d =>
    have hr := low_of x d o r henc (Or.inl ⟨f, rfl⟩)
    subst hr
    refine ⟨alu_eq e m o f x d s' h, ?_⟩
    cases f <;> simpa [opOf, aluOp, execM, wreg] using hs
  | tst f x d =>
    have hr := low_of x d o r henc (Or.inr (Or.inl ⟨f, rfl⟩))
    subst hr
    refine ⟨tst_eq e m o f x d s' hp h, ?_⟩
    cases f <;> simpa [opOf, tstOp, execM] using hs
  | shf f x =>
    have hr : r = x ++ shfCode f := by
      unfold encE at henc; cases h6 : e.six <;> simp [h6, enc3, enc6] at henc <;> exact henc.2.symm
    refine ⟨shf_eq e m _ f x _ s' (by rw [hr]; exact getX_eq o x _) h, ?_⟩
    cases f <;> simpa [opOf, shfOp, execM, wreg] using hs
  | input x d =>
    have hr := low_of x d o r henc (by simp)
    subst hr
    have ho := operand_eq m o x d _ (Or.inr (Or.inl rfl))
    simp only [exec] at h; cases h
    refine ⟨?_, hs⟩
    simp only [opOf, execM, ho, getX_low]; rfl
  | output x d =>
    have hr := low_of x d o r henc (by simp)
    subst hr
    have ho := operand_eq m o x d _ (Or.inr (Or.inl rfl))
    simp only [exec] at h; cases h
    refine ⟨?_, hs⟩
    simp only [opOf, execM, ho, getX_low]; rfl
  | outputk v p => exact hp.elim
  | fetch x d =>
    have hr := low_of x d o r henc (by simp)
    subst hr
    have ho := mem_operand e m o x d _ (Or.inl henc)
    simp only [exec] at h; cases h
    simp only [Plain] at hp
    have hpl : place e (opd (view m) d) = opd (view m) d := by
      unfold place; rw [Nat.mod_eq_of_lt hp]; simp
    refine ⟨?_, hs⟩
    simp only [opOf, execM, ho, getX_low, hpl, hp]; rfl
  | store x d =>
    have hr := low_of x d o r henc (by simp)
    subst hr
    have ho := mem_operand e m o x d _ (Or.inr henc)
    simp only [exec] at h; cases h
    simp only [Plain] at hp
    have hpl : place e (opd (view m) d) = opd (view m) d := by
      unfold place; rw [Nat.mod_eq_of_lt hp]; simp
    simp only [opOf, execM, ho, getX_low, hpl, hp]
    exact ⟨rfl, hs⟩
  | jump c a =>
    have ht : target m (o ++ r) (if e.six then .ADDRESS12 else .ADDRESS10) = a.toNat := by
      unfold encE at henc; cases h6 : e.six <;> simp [h6, enc3, enc6] at henc ⊢
      · obtain ⟨h0, h1, h2⟩ := henc
        subst h2
        refine (getA10_eq o (cnd2 c) (a.setWidth 10)).trans ?_
        simp; omega
      · obtain ⟨h1, h2⟩ := henc
        subst h2
        exact getA12_eq o a
    simp only [exec] at h; cases h
    cases c
    · simp only [opOf, jmpOp, execM, ht, cond]; exact ⟨rfl, hs⟩
    · cases hz : m.Z <;> simp [opOf, jmpOp, execM, ht, cnd, cond, hz, view, hs]
    · cases hz : m.Z <;> simp [opOf, jmpOp, execM, ht, cnd, cond, hz, view, hs]
    · cases hz : m.C <;> simp [opOf, jmpOp, execM, ht, cnd, cond, hz, view, hs]
    · cases hz : m.C <;> simp [opOf, jmpOp, execM, ht, cnd, cond, hz, view, hs]
  | call c a =>
    have ht : target m (o ++ r) (if e.six then .ADDRESS12 else .ADDRESS10) = a.toNat := by
      unfold encE at henc; cases h6 : e.six <;> simp [h6, enc3, enc6] at henc ⊢
      · obtain ⟨h0, h1, h2⟩ := henc
        subst h2
        refine (getA10_eq o (cnd2 c) (a.setWidth 10)).trans ?_
        simp; omega
      · obtain ⟨h1, h2⟩ := henc
        subst h2
        exact getA12_eq o a
    simp only [exec] at h
    have hz : (view m).Z = m.Z := rfl
    have hc : (view m).C = m.C := rfl
    cases c <;> simp only [opOf, calOp, execM, ht, cnd, cond, hz, hc] at h ⊢ <;> first | exact call_eq e m hpc _ s' h hs | skip
    all_goals
      split at h
      · rename_i hh; rw [if_pos hh]; exact call_eq e m hpc _ s' h hs
      · rename_i hh; rw [if_neg hh]; cases h; exact ⟨rfl, hs⟩
  | ret c =>
    simp only [exec] at h
    have hz : (view m).Z = m.Z := rfl
    have hc : (view m).C = m.C := rfl
    cases c
    · simp only [opOf, retOp, execM, cond] at h ⊢; exact ret_eq e m s' h hs
    · cases hb : m.Z <;> simp [opOf, retOp, execM, cnd, cond, hz, hc, hb] at h ⊢ <;> first | exact ret_eq e m s' h hs | (subst h; exact ⟨rfl, hs⟩)
    · cases hb : m.Z <;> simp [opOf, retOp, execM, cnd, cond, hz, hc, hb] at h ⊢ <;> first | exact ret_eq e m s' h hs | (subst h; exact ⟨rfl, hs⟩)
    · cases hb : m.C <;> simp [opOf, retOp, execM, cnd, cond, hz, hc, hb] at h ⊢ <;> first | exact ret_eq e m s' h hs | (subst h; exact ⟨rfl, hs⟩)
    · cases hb : m.C <;> simp [opOf, retOp, execM, cnd, cond, hz, hc, hb] at h ⊢ <;> first | exact ret_eq e m s' h hs | (subst h; exact ⟨rfl, hs⟩)
  | jumpAt x y =>
    have h6 : e.six = true := by
      unfold encE at henc; cases h6 : e.six <;> simp [h6, enc3] at henc ⊢
    have hr : r = low x (.r y) := by simp [encE, h6, enc6] at henc; exact henc.2.symm
    subst hr
    simp only [exec] at h; cases h
    refine ⟨?_, hs⟩
    simp only [opOf, execM, target, getX_low]
    rw [show getY (o ++ low x (.r y)) = y from getY_eq o x y 0#4]; rfl
  | callAt x y =>
    have h6 : e.six = true := by
      unfold encE at henc; cases h6 : e.six <;> simp [h6, enc3] at henc ⊢
    have hr : r = low x (.r y) := by simp [encE, h6, enc6] at henc; exact henc.2.symm
    subst hr
    simp only [exec] at h
    simp only [opOf, execM, target, getX_low]
    rw [show getY (o ++ low x (.r y)) = y from getY_eq o x y 0#4]
    exact call_eq e m hpc _ s' h hs
  | loadRet x v =>
    have h6 : e.six = true := by
      unfold encE at henc; cases h6 : e.six <;> simp [h6, enc3] at henc ⊢
    have hr : r = low x (.k v) := by simp [encE, h6, enc6] at henc; exact henc.2.symm
    subst hr
    simp only [exec] at h
    have ho := operand_eq m o x (.k v) _ (Or.inl rfl)
    simp only [oprOf, opd] at ho
    simp only [opOf, execM, getX_low, ho]
    exact ret_eq e (wreg m x v) s' h hs
  | reti b =>
    simp only [exec, Option.map_eq_some_iff] at h
    obtain ⟨s1, h1, h2⟩ := h
    have h3 := ret_eq e m s1 h1 hs
    cases b <;> simp only [opOf, execM] <;> subst h2 <;> rw [← h3.1] <;> exact ⟨rfl, h3.2⟩
  | intr b => simp only [exec] at h; cases h; cases b <;> exact ⟨rfl, hs⟩
  | bank b => simp only [exec] at h; cases h; cases b <;> exact ⟨rfl, hs⟩
  | star x y => exact hp.elim
  | hwbuild x =>
    have h6 : e.six = true := by
      unfold encE at henc; cases h6 : e.six <;> simp [h6, enc3] at henc ⊢
    have hr : r = x ++ 0x80#8 := by simp [encE, h6, enc6] at henc; exact henc.2.symm
    have hx : getX (o ++ r) = x := by rw [hr]; exact getX_eq o x _
    simp only [exec] at h; cases h
    simp only [opOf, execM, hx]
    exact ⟨rfl, hs⟩

theorem rom_exec (e : Env) (m : M) (w : BitVec 18) (op : Op) (opr : Opr) : (execM e m w op opr).rom = m.rom := by
  have hc : ∀ m a, (call e m a).rom = m.rom := by
    intro m a; simp only [call]; cases h : ((stackPush e m (BitVec.ofNat 12 (m.PC + 4095))).2 && e.six) <;> simp [stackPush, reset]
  have hr : ∀ m, (ret e m).rom = m.rom := by
    intro m; simp only [ret]; cases h : ((stackPop e m).2.2 && e.six) <;> simp [stackPop, reset]
  cases op <;> simp [execM, wreg, hc, hr] <;> split <;> simp [hc, hr]

theorem getA12_3ff : getA12 (0x3FF : BitVec 18) = 0x3FF := by decide

theorem rom_step (e : Env) (m : M) : (step e m).rom = m.rom := by
  simp only [step]; cases find (table e) (m.rom m.PC) with
  | none => rfl
  | some t => exact rom_exec _ _ _ _ _

theorem rom_interrupt (e : Env) (m : M) : (interrupt e m).rom = m.rom := by
  unfold interrupt; split
  · have := rom_exec e { m with clocks := m.clocks + 1, sC := m.C, sZ := m.Z, IE := false, irq := false } (0x3FF : BitVec 18) .CALL .ADDRESS12
    simp only [execM, target, getA12_3ff] at this
    exact this
  · rfl

/-- the program `prog` has been put into the program memory -/
def Loaded (e : Env) (m : M) (prog : Nat → Option I) : Prop :=
  ∀ a i, prog a = some i → ∃ o r, encE e i = some (o, r) ∧ m.rom a = o ++ r

/-- C160, one instruction -/
theorem c160_step_partial (e : Env) (m : M) (prog : Nat → Option I) (hl : Loaded e m prog) (hpc : m.PC < 1023) (hs : m.sp ≤ 30)
    (s' : S) (hp : ∀ i, prog m.PC = some i → Plain e (view m) i) (h : sstep e prog (view m) = some s') :
    view (step e m) = s' ∧ (step e m).sp ≤ 30 ∧ (step e m).rom = m.rom := by
  unfold sstep at h
  have hv : (view m).PC = m.PC := rfl
  rw [hv] at h
  cases hi : prog m.PC with
  | none => simp [hi] at h
  | some i =>
    obtain ⟨o, r, h1, h2⟩ := hl _ i hi
    obtain ⟨t, ht, hto, htr⟩ := find_enc e i o r h1
    simp only [hi, Option.bind] at h
    have hn : (m.PC + 1) % (if e.six then 4096 else 1024) = (m.PC + 1) % 1024 := by split <;> omega
    rw [hn] at h
    have hm : step e m = execM e { m with PC := (m.PC + 1) % 1024, clocks := m.clocks + 1 } (o ++ r) (opOf e.six i).1 (opOf e.six i).2 := by
      simp only [step, h2, ht, hto, htr]
    rw [hm]
    have hp1 : Plain e (view { m with PC := (m.PC + 1) % 1024, clocks := m.clocks + 1 }) i := by
      have := hp i hi
      cases i <;> exact this
    have := exec_eq e { m with PC := (m.PC + 1) % 1024, clocks := m.clocks + 1 } i o r s' h1 hp1 (by simp only; omega) hs h
    exact ⟨this.1, this.2, rom_exec _ _ _ _ _⟩

/-- the first n steps of a run of the simulator -/
def run (e : Env) : Nat → M → M
  | 0, m => m
  | n + 1, m => run e n (step e m)

/-- C160: a program runs as the guide says -/
theorem c160_program_partial (e : Env) (prog : Nat → Option I) (n : Nat) (m : M) (hl : Loaded e m prog) (hs : m.sp ≤ 30)
    (hg : ∀ k, k < n → ∀ s, srun e prog k (view m) = some s → s.PC < 1023 ∧ ∀ i, prog s.PC = some i → Plain e s i)
    (s' : S) (h : srun e prog n (view m) = some s') : view (run e n m) = s' := by
  induction n generalizing m with
  | zero => simp [srun] at h; simpa [run] using h
  | succ n ih =>
    simp only [srun] at h
    cases h1 : sstep e prog (view m) with
    | none => simp [h1] at h
    | some s1 =>
      simp only [h1, Option.bind] at h
      obtain ⟨g1, g2⟩ := hg 0 (by omega) (view m) rfl
      obtain ⟨a1, a2, a3⟩ := c160_step_partial e m prog hl g1 hs s1 g2 h1
      rw [run]
      apply ih
      · intro a i hi; rw [a3]; exact hl a i hi
      · exact a2
      · intro k hk s hks
        refine hg (k + 1) (by omega) s ?_
        rw [srun, h1]
        rw [a1] at hks
        exact hks
      · rw [a1]; exact h

/-- C161: an interrupt that is accepted saves the address and the flags and goes to 0x3FF -/
theorem c161_accept_partial (e : Env) (m : M) (hpc : 1 ≤ m.PC ∧ m.PC < 4096) (hs : m.sp ≤ 30) (hi : m.IE = true ∧ m.irq = true)
    (s' : S) (h : accept (view m) = some s') : view (interrupt e m) = s' ∧ (interrupt e m).sp ≤ 30 ∧ (interrupt e m).irq = false := by
  unfold interrupt accept at *
  rw [hi.1, hi.2]
  have h1 := call_eq e { m with clocks := m.clocks + 1, sC := m.C, sZ := m.Z, IE := false, irq := false } hpc 0x3FF s' h hs
  refine ⟨h1.1, h1.2, ?_⟩
  simp only [call, Bool.and_self, if_true]
  cases hh : ((stackPush e { m with clocks := m.clocks + 1, sC := m.C, sZ := m.Z, IE := false, irq := false } (BitVec.ofNat 12 (m.PC + 4095))).2 && e.six) <;> simp [stackPush, reset]

/-- C161: without a request, or while interrupts are off, nothing happens -/
theorem c161_off (e : Env) (m : M) (h : m.IE = false ∨ m.irq = false) : interrupt e m = m := by
  unfold interrupt; rcases h with h | h <;> simp [h]

/-- C161: RETURNI, at the end of a routine that has left the saved address and flags alone, goes back to
where the interrupt was, with its flags -/
theorem c161_back_partial (e : Env) (m m2 : M) (hpc : 1 ≤ m.PC ∧ m.PC < 4096) (hs : m.sp ≤ 30) (hi : m.IE = true ∧ m.irq = true)
    (s' : S) (h : accept (view m) = some s') (prog : Nat → Option I) (b : Bool) (hl : Loaded e m2 prog) (hp2 : m2.PC < 1023)
    (hr : prog m2.PC = some (.reti b)) (h1 : (view m2).stack = (view (interrupt e m)).stack) (hs2 : m2.sp ≤ 30)
    (h2 : (m2.sC, m2.sZ) = ((interrupt e m).sC, (interrupt e m).sZ)) :
    let m3 := step e m2
    m3.PC = m.PC ∧ m3.C = m.C ∧ m3.Z = m.Z ∧ m3.IE = b ∧ (view m3).stack = (view m).stack := by
  obtain ⟨a1, a2, a3⟩ := c161_accept_partial e m hpc hs hi s' h
  have hsC : (interrupt e m).sC = s'.sC := by rw [← a1]; rfl
  have hsZ : (interrupt e m).sZ = s'.sZ := by rw [← a1]; rfl
  unfold accept push at h
  split at h
  · cases h
    rw [a1] at h1
    simp only [Prod.mk.injEq] at h2
    have h3 : sstep e prog (view m2) = some { view m2 with stack := (view m).stack, PC := m.PC, clocks := m2.clocks + 1, C := m.C, Z := m.Z, IE := b } := by
      have hv : (view m2).PC = m2.PC := rfl
      simp only [sstep, hv, hr, Option.bind, exec, pop, h1, Option.map]
      have e1 : (view m2).sC = m.C := h2.1.trans hsC
      have e2 : (view m2).sZ = m.Z := h2.2.trans hsZ
      rw [e1, e2]; rfl
    have h4 := (c160_step_partial e m2 prog hl hp2 hs2 _ (by intro i hi; rw [hr] at hi; cases hi; trivial) h3).1
    have g : ∀ {α : Type} (f : S → α), f (view (step e m2)) = f { view m2 with stack := (view m).stack, PC := m.PC, clocks := m2.clocks + 1, C := m.C, Z := m.Z, IE := b } := by
      intro α f; rw [h4]
    exact ⟨g S.PC, g S.C, g S.Z, g S.IE, g S.stack⟩
  · cases h

end Ucsim.Pb
