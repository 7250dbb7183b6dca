import Verif.Proof.H08

namespace Ucsim.H08

/-- What every instruction keeps. -/
structure Ok (s r : St) : Prop where
  pc : r.pc < 0x10000
  cc : CcOk r
  vec : r.vector = s.vector
  s08 : r.s08 = s.s08

theorem pc_add (p : Word) (n k : Nat) : p + BitVec.ofNat 16 (n + k) = p + BitVec.ofNat 16 n + BitVec.ofNat 16 k := by
  apply BitVec.eq_of_toNat_eq
  simp only [BitVec.toNat_add, BitVec.toNat_ofNat]
  omega

/-! ### The constant bits of the flags -/

theorem cc_and : ∀ p : Byte, ∀ c : Bool,
    assign bC c p &&& 0x60#8 = p &&& 0x60#8 ∧ assign bZ c p &&& 0x60#8 = p &&& 0x60#8 ∧ assign bN c p &&& 0x60#8 = p &&& 0x60#8 ∧
    assign bI c p &&& 0x60#8 = p &&& 0x60#8 ∧ assign bH c p &&& 0x60#8 = p &&& 0x60#8 ∧ assign bV c p &&& 0x60#8 = p &&& 0x60#8 := by
  decide +kernel

theorem cc_C (p : Byte) (c : Bool) : assign bC c p &&& 0x60#8 = p &&& 0x60#8 := (cc_and p c).1
theorem cc_Z (p : Byte) (c : Bool) : assign bZ c p &&& 0x60#8 = p &&& 0x60#8 := (cc_and p c).2.1
theorem cc_N (p : Byte) (c : Bool) : assign bN c p &&& 0x60#8 = p &&& 0x60#8 := (cc_and p c).2.2.1
theorem cc_I (p : Byte) (c : Bool) : assign bI c p &&& 0x60#8 = p &&& 0x60#8 := (cc_and p c).2.2.2.1
theorem cc_H (p : Byte) (c : Bool) : assign bH c p &&& 0x60#8 = p &&& 0x60#8 := (cc_and p c).2.2.2.2.1
theorem cc_V (p : Byte) (c : Bool) : assign bV c p &&& 0x60#8 = p &&& 0x60#8 := (cc_and p c).2.2.2.2.2
theorem cc_nz (v p : Byte) : flagNZ v p &&& 0x60#8 = p &&& 0x60#8 := by rw [flagNZ_eq, cc_N, cc_Z]
theorem cc_logic (v p : Byte) : logicP v p &&& 0x60#8 = p &&& 0x60#8 := by unfold logicP; rw [cc_nz, cc_V]
theorem cc_add (x y c : Nat) (p : Byte) : addP x y c p &&& 0x60#8 = p &&& 0x60#8 := by
  unfold addP; simp only [cc_nz, cc_V, cc_C, cc_H]
theorem cc_sub (x y c : Nat) (p : Byte) : subP x y c p &&& 0x60#8 = p &&& 0x60#8 := by
  unfold subP; simp only [cc_nz, cc_V, cc_C]
theorem cc_cphx (x y : Nat) (p : Byte) : cphxP x y p &&& 0x60#8 = p &&& 0x60#8 := by
  unfold cphxP; simp only [cc_N, cc_Z, cc_V, cc_C]
theorem cc_rmw (o : Rmw) (v p : Byte) : (rmwOp o v p).2 &&& 0x60#8 = p &&& 0x60#8 := by
  cases o <;> simp only [rmwOp, shiftP, cc_nz, cc_V, cc_C, cc_N, cc_Z]
theorem cc_or : ∀ p : Byte, (p ||| 0x60#8) &&& 0x60#8 = 0x60#8 := by decide +kernel

/-! ### Register/memory instructions -/

theorem alu_pc (m : Isa.Mach) (o : Isa.Alu) (b : Byte) (w : Word) : ({ m with pc := w }).alu o b = { m.alu o b with pc := w } := by
  cases o <;> simp only [Isa.Mach.alu, Isa.Mach.addc, Isa.Mach.subc, Isa.Mach.nz, Isa.Mach.logic]

theorem alu_keep (o : Alu) (v : Byte) (s : St) : (aluOp o v s).pc = s.pc ∧ (aluOp o v s).vector = s.vector ∧ (aluOp o v s).s08 = s.s08 ∧
    (aluOp o v s).p &&& 0x60#8 = s.p &&& 0x60#8 := by
  cases o <;> simp only [aluOp, cc_logic, cc_add, cc_sub, and_self]

theorem alu_ok (s : St) (o : Alu) (code : Byte) (pre : Bool) (n t : Nat) (hc : CcOk s)
    (hn : code.toNat / 16 ∈ [0, 1, 3, 6, 7, 10, 11, 12, 13, 14, 15]) (u : Isa.Undef) :
    let r := exec (.alu o) code pre (fr s n t)
    let q := (abs s).pc + BitVec.ofNat 16 n
    r.1 = .go ∧ abs r.2 = Isa.exec u (abs s) q (.alu (convA o) (modeOf (code.toNat / 16) pre)) ∧ Ok s r.2 := by
  simp only [exec, operand_ok s _ pre n t hn, tick_fr]
  refine ⟨trivial, ?_, ?_⟩
  · rw [abs_alu, abs_fr, pc_add]
    simp only [Isa.exec]
    generalize (abs s).operand _ _ = v
    exact alu_pc _ _ _ _
  · generalize (abs s).operand _ _ = v
    obtain ⟨k1, k2, k3, k4⟩ := alu_keep o v (fr s (n + (modeOf (code.toNat / 16) pre).bytes) (t + (if code.toNat / 16 = 10 then 0 else eaClk (modeOf (code.toNat / 16) pre)) + 1))
    exact ⟨by rw [k1]; exact Nat.mod_lt _ (by decide), by unfold CcOk; rw [k4]; exact hc, k2, k3⟩

theorem abs_st (s : St) (f : Byte) (w : Word) (v : Byte) :
    abs { s with p := f, mem := fun x => if x = w then v else s.mem x } = ((abs s).store w v).setCcr f := rfl

theorem logic_pc (m : Isa.Mach) (v : Byte) (w : Word) : ({ m with pc := w }).logic v = { m.logic v with pc := w } := rfl
theorem store_pc (m : Isa.Mach) (a : Word) (v : Byte) (w : Word) : ({ m with pc := w }).store a v = { m.store a v with pc := w } := rfl

theorem mode_mem (nib : Nat) (pre : Bool) (hn : nib ∈ [0, 1, 3, 6, 7, 11, 12, 13, 14, 15]) :
    modeOf nib pre ≠ .imm ∧ modeOf nib pre ≠ .A ∧ modeOf nib pre ≠ .X := by
  simp only [List.mem_cons, List.not_mem_nil, or_false] at hn
  rcases hn with rfl | rfl | rfl | rfl | rfl | rfl | rfl | rfl | rfl | rfl <;> cases pre <;> decide

theorem put_mem (m : Isa.Mach) (q : Word) (k : Isa.Mode) (h : k ≠ .A) (h2 : k ≠ .X) (v : Byte) : m.put q k v = m.store (m.ea q k) v := by
  cases k <;> first | rfl | contradiction
theorem operand_mem (m : Isa.Mach) (q : Word) (k : Isa.Mode) (h : k ≠ .imm) (h1 : k ≠ .A) (h2 : k ≠ .X) : m.operand q k = m.mem (m.ea q k) := by
  cases k <;> first | rfl | contradiction

theorem sta_ok (s : St) (code : Byte) (pre : Bool) (n t : Nat) (hc : CcOk s)
    (hn : code.toNat / 16 ∈ [0, 1, 3, 6, 7, 11, 12, 13, 14, 15]) (u : Isa.Undef)
    (hd : ¬ Isa.Differs (abs s) ((abs s).pc + BitVec.ofNat 16 n) (.sta (modeOf (code.toNat / 16) pre))) :
    let r := exec .sta code pre (fr s n t)
    let q := (abs s).pc + BitVec.ofNat 16 n
    r.1 = .go ∧ abs r.2 = Isa.exec u (abs s) q (.sta (modeOf (code.toNat / 16) pre)) ∧ Ok s r.2 := by
  have hm := mode_mem _ pre hn
  simp only [exec, fetchea_ok s _ pre n t hn]
  refine ⟨trivial, ?_, ?_⟩
  · rw [store1_sum _ _ _ _ hd]
    simp only [Isa.exec, put_mem _ _ _ hm.2.1 hm.2.2]
    rw [← pc_add]
    show ((abs (fr s (n + (modeOf (code.toNat / 16) pre).bytes) t)).store _ _).setCcr (logicP s.a s.p) = _
    rw [abs_fr, logicP_abs]; rfl
  · rw [store1_sum _ _ _ _ hd]
    refine ⟨Nat.mod_lt _ (by decide), ?_, rfl, rfl⟩
    show logicP _ _ &&& _ = _
    rw [cc_logic]; exact hc

theorem stx_ok (s : St) (code : Byte) (pre : Bool) (n t : Nat) (hc : CcOk s)
    (hn : code.toNat / 16 ∈ [0, 1, 3, 6, 7, 11, 12, 13, 14, 15]) (u : Isa.Undef)
    (hd : ¬ Isa.Differs (abs s) ((abs s).pc + BitVec.ofNat 16 n) (.stx (modeOf (code.toNat / 16) pre))) :
    let r := exec .stx code pre (fr s n t)
    let q := (abs s).pc + BitVec.ofNat 16 n
    r.1 = .go ∧ abs r.2 = Isa.exec u (abs s) q (.stx (modeOf (code.toNat / 16) pre)) ∧ Ok s r.2 := by
  have hm := mode_mem _ pre hn
  simp only [exec, fetchea_ok s _ pre n t hn]
  refine ⟨trivial, ?_, ?_⟩
  · rw [store1_sum _ _ _ _ hd]
    simp only [Isa.exec, put_mem _ _ _ hm.2.1 hm.2.2]
    rw [← pc_add]
    show ((abs (fr s (n + (modeOf (code.toNat / 16) pre).bytes) t)).store _ _).setCcr (logicP s.x s.p) = _
    rw [abs_fr, logicP_abs]; rfl
  · rw [store1_sum _ _ _ _ hd]
    refine ⟨Nat.mod_lt _ (by decide), ?_, rfl, rfl⟩
    show logicP _ _ &&& _ = _
    rw [cc_logic]; exact hc

/-! ### Read-modify-write -/

/-- Clocks of rmwGet and rmwPut. -/
def getClk (nib : Nat) (k : Isa.Mode) : Nat := if nib = 4 ∨ nib = 5 then 0 else eaClk k + 1
def putClk (nib k : Nat) : Nat := if nib = 4 ∨ nib = 5 then 0 else k + if nib % 8 ≠ 7 then 1 else 0

theorem rmwGet_ok (s : St) (nib : Nat) (pre : Bool) (n t : Nat) (hn : nib ∈ [3, 4, 5, 6, 7]) :
    rmwGet nib pre (fr s n t) = (if nib = 4 ∨ nib = 5 then 0xffff else (abs s).sum ((abs s).pc + BitVec.ofNat 16 n) (modeOf nib pre),
      (abs s).operand ((abs s).pc + BitVec.ofNat 16 n) (modeOf nib pre),
      fr s (n + (modeOf nib pre).bytes) (t + getClk nib (modeOf nib pre))) := by
  unfold rmwGet getClk
  by_cases h4 : nib = 4
  · subst h4; rfl
  by_cases h5 : nib = 5
  · subst h5; rfl
  have hn' : nib ∈ [0, 1, 3, 6, 7, 11, 12, 13, 14, 15] := by simp at hn ⊢; omega
  have hm := mode_mem nib pre hn'
  rw [if_neg h4, if_neg h5, if_neg (by omega), if_neg (by omega), fetchea_ok s nib pre n t hn']
  simp only [get1_sum, tick_fr, operand_mem _ _ _ hm.1 hm.2.1 hm.2.2]
  rw [Nat.add_assoc]

theorem rmwPut_ok (s : St) (nib : Nat) (pre : Bool) (n t c k : Nat) (q : Word) (f v : Byte) (hn : nib ∈ [3, 4, 5, 6, 7])
    (hd : ¬ (abs s).over q (modeOf nib pre)) :
    let r := rmwPut nib c (if nib = 4 ∨ nib = 5 then 0xffff else (abs s).sum q (modeOf nib pre)) v { fr s n t with p := f }
    r = { fr (rmwPut nib c (if nib = 4 ∨ nib = 5 then 0xffff else (abs s).sum q (modeOf nib pre)) v s) n (t + putClk nib c) with p := f } ∧
    abs (tick k (rmwPut nib c (if nib = 4 ∨ nib = 5 then 0xffff else (abs s).sum q (modeOf nib pre)) v s)) = (abs s).put q (modeOf nib pre) v := by
  unfold rmwPut putClk
  by_cases h4 : nib = 4
  · subst h4; exact ⟨rfl, rfl⟩
  by_cases h5 : nib = 5
  · subst h5; exact ⟨rfl, rfl⟩
  have hn' : nib ∈ [0, 1, 3, 6, 7, 11, 12, 13, 14, 15] := by simp at hn ⊢; omega
  have hm := mode_mem nib pre hn'
  have h45 : ¬ (nib = 4 ∨ nib = 5) := by omega
  simp only [if_neg h4, if_neg h5, if_neg h45, store1_sum _ _ _ _ hd]
  rw [put_mem _ _ _ hm.2.1 hm.2.2]
  by_cases h7 : nib % 8 ≠ 7
  · rw [if_pos h7, if_pos h7, if_pos h7]
    refine ⟨?_, rfl⟩
    simp only [tick, fr, Nat.add_assoc]
  · rw [if_neg h7, if_neg h7, if_neg h7]
    exact ⟨rfl, rfl⟩

theorem rmwPut_keep (s : St) (nib c ea : Nat) (v : Byte) :
    let r := rmwPut nib c ea v s
    r.p = s.p ∧ r.pc = s.pc ∧ r.vector = s.vector ∧ r.s08 = s.s08 := by
  have h1 : ∀ s : St, (store1 s ea v).p = s.p ∧ (store1 s ea v).pc = s.pc ∧ (store1 s ea v).vector = s.vector ∧ (store1 s ea v).s08 = s.s08 := by
    intro s; unfold store1; split <;> exact ⟨rfl, rfl, rfl, rfl⟩
  unfold rmwPut
  simp only
  split
  · exact ⟨rfl, rfl, rfl, rfl⟩
  split
  · exact ⟨rfl, rfl, rfl, rfl⟩
  split <;> exact h1 s

theorem rmwFlags_pc (m : Isa.Mach) (o : Isa.Rmw) (b : Byte) (w : Word) : ({ m with pc := w }).rmwFlags o b = { m.rmwFlags o b with pc := w } := by
  cases o <;> rfl

theorem put_c (m : Isa.Mach) (q : Word) (k : Isa.Mode) (v : Byte) : (m.put q k v).c = m.c ∧ (m.put q k v).pc = m.pc := by
  cases k <;> exact ⟨rfl, rfl⟩

theorem exec_rmw (u : Isa.Undef) (m : Isa.Mach) (q : Word) (o : Isa.Rmw) (k : Isa.Mode) (h : o ≠ .tst) :
    Isa.exec u m q (.rmw o k) = { (m.put q k (o.val m.c (m.operand q k))).rmwFlags o (m.operand q k) with pc := q + BitVec.ofNat 16 k.bytes } := by
  cases o <;> first | rfl | exact absurd rfl h

theorem rmwBody (s : St) (o : Rmw) (nib : Nat) (pre : Bool) (n t c : Nat) (hc : CcOk s) (hn : nib ∈ [3, 4, 5, 6, 7]) (ho : o ≠ .tst)
    (q : Word) (hq : q = (abs s).pc + BitVec.ofNat 16 n)
    (hd : ¬ (abs s).over q (modeOf nib pre)) (u : Isa.Undef) :
    let v := (abs s).operand q (modeOf nib pre)
    let w := rmwOp o v s.p
    let r := rmwPut nib c (if nib = 4 ∨ nib = 5 then 0xffff else (abs s).sum q (modeOf nib pre)) w.1 { fr s (n + (modeOf nib pre).bytes) t with p := w.2 }
    abs r = Isa.exec u (abs s) q (.rmw (convR o) (modeOf nib pre)) ∧ Ok s r := by
  intro v w r
  have e := rmwPut_ok s nib pre (n + (modeOf nib pre).bytes) t c 0 q w.2 w.1 hn hd
  simp only at e
  generalize hy : rmwPut nib c (if nib = 4 ∨ nib = 5 then 0xffff else (abs s).sum q (modeOf nib pre)) w.1 s = y at e
  have ky := rmwPut_keep s nib c (if nib = 4 ∨ nib = 5 then 0xffff else (abs s).sum q (modeOf nib pre)) w.1
  simp only at ky
  rw [hy] at ky
  have er : r = { fr y (n + (modeOf nib pre).bytes) (t + putClk nib c) with p := w.2 } := e.1
  have ey : abs y = (abs s).put q (modeOf nib pre) w.1 := e.2
  have ho' : convR o ≠ .tst := by cases o <;> first | exact absurd rfl ho | decide
  have hwv : w.1 = (convR o).val (abs s).c v := rmw_val o v s.p
  constructor
  · rw [er, abs_p, abs_fr, rmw_flags, ey, exec_rmw _ _ _ _ _ ho', ← hwv]
    have k2 := put_c (abs s) q (modeOf nib pre) w.1
    have k3 : ({ (abs s).put q (modeOf nib pre) w.1 with pc := ((abs s).put q (modeOf nib pre) w.1).pc + BitVec.ofNat 16 (n + (modeOf nib pre).bytes) } : Isa.Mach).setCcr s.p
        = { (abs s).put q (modeOf nib pre) w.1 with pc := q + BitVec.ofNat 16 (modeOf nib pre).bytes } := by
      rw [k2.2, pc_add, ← hq, ← ey]
      rw [← ky.1]; rfl
    rw [k3, rmwFlags_pc]
  · rw [er]
    refine ⟨Nat.mod_lt _ (by decide), ?_, ky.2.2.1, ky.2.2.2⟩
    show w.2 &&& _ = _
    rw [cc_rmw]; exact hc

theorem rmw_ok (s : St) (o : Rmw) (code : Byte) (pre : Bool) (n t : Nat) (hc : CcOk s) (hn : code.toNat / 16 ∈ [3, 4, 5, 6, 7]) (u : Isa.Undef)
    (hd : ¬ Isa.Differs (abs s) ((abs s).pc + BitVec.ofNat 16 n) (.rmw (convR o) (modeOf (code.toNat / 16) pre))) :
    let r := exec (.rmw o) code pre (fr s n t)
    let q := (abs s).pc + BitVec.ofNat 16 n
    r.1 = .go ∧ abs r.2 = Isa.exec u (abs s) q (.rmw (convR o) (modeOf (code.toNat / 16) pre)) ∧ Ok s r.2 := by
  intro r q
  refine ⟨rfl, ?_⟩
  show abs (rmwInst o (code.toNat / 16) pre (fr s n t)) = _ ∧ Ok s (rmwInst o (code.toNat / 16) pre (fr s n t))
  unfold rmwInst
  rw [rmwGet_ok s _ pre n t hn]
  by_cases ho : o = .tst
  · subst ho
    simp only
    generalize hv : (abs s).operand ((abs s).pc + BitVec.ofNat 16 n) (modeOf (code.toNat / 16) pre) = v
    have e : ∀ X : St, (X.pc < 0x10000 → CcOk X → X.vector = s.vector → X.s08 = s.s08 → abs X = { (abs s).rmwFlags .tst v with pc := q + BitVec.ofNat 16 (modeOf (code.toNat / 16) pre).bytes } →
        abs (if code.toNat / 16 = 3 ∨ code.toNat / 16 = 6 then tick 1 X else X) = Isa.exec u (abs s) q (.rmw .tst (modeOf (code.toNat / 16) pre)) ∧
        Ok s (if code.toNat / 16 = 3 ∨ code.toNat / 16 = 6 then tick 1 X else X)) := by
      intro X h1 h2 h3 h4 h5
      have h6 : abs X = Isa.exec u (abs s) q (.rmw .tst (modeOf (code.toNat / 16) pre)) := by
        rw [h5]; simp only [Isa.exec]; rw [← hv]
      split
      · exact ⟨h6, ⟨h1, h2, h3, h4⟩⟩
      · exact ⟨h6, ⟨h1, h2, h3, h4⟩⟩
    apply e
    · exact Nat.mod_lt _ (by decide)
    · show (rmwOp .tst v s.p).2 &&& _ = _
      rw [cc_rmw]; exact hc
    · rfl
    · rfl
    · rw [abs_p, abs_fr, pc_add]
      show Isa.Mach.setCcr _ (rmwOp .tst v s.p).2 = _
      rw [rmw_flags]; rfl
  · have hd' : ¬ (abs s).over q (modeOf (code.toNat / 16) pre) := fun h => hd ⟨by cases o <;> first | exact absurd rfl ho | decide, h⟩
    have b0 := rmwBody s o (code.toNat / 16) pre n (t + getClk (code.toNat / 16) (modeOf (code.toNat / 16) pre)) 0 hc hn ho q rfl hd' u
    have b1 := rmwBody s o (code.toNat / 16) pre n (t + getClk (code.toNat / 16) (modeOf (code.toNat / 16) pre)) 1 hc hn ho q rfl hd' u
    cases o <;> first | exact absurd rfl ho | exact b0 | exact b1

/-! ### Branches -/

theorem fr_zero (s : St) (h : s.pc < 0x10000) : s = fr s 0 s.ticks := by
  unfold fr
  rw [Nat.add_zero, Nat.mod_eq_of_lt h]

theorem fetch_any (s : St) (h : s.pc < 0x10000) : fetch s = (s.mem (abs s).pc, fr s 1 s.ticks) := by
  have e := fetch_fr s 0 s.ticks
  rw [← fr_zero s h] at e
  rw [e]; simp

theorem rel_add (q : Word) (o : Byte) (h0 : 0 ≤ (q.toNat : Int) + o.toInt) (h1 : (q.toNat : Int) + o.toInt < 0x10000) :
    BitVec.ofNat 16 (((q.toNat : Int) + o.toInt) % 0x100000000).toNat = q + o.signExtend 16 ∧
    (((q.toNat : Int) + o.toInt) % 0x100000000).toNat < 0x10000 := by
  have e : ((q.toNat : Int) + o.toInt) % 0x100000000 = (q.toNat : Int) + o.toInt := by omega
  rw [e]
  refine ⟨?_, by omega⟩
  have g : (BitVec.ofNat 16 ((q.toNat : Int) + o.toInt).toNat : Word) = BitVec.ofInt 16 ((q.toNat : Int) + o.toInt) := by
    apply BitVec.eq_of_toNat_eq
    rw [BitVec.toNat_ofNat, BitVec.toNat_ofInt]
    omega
  rw [g, BitVec.ofInt_add]
  simp [BitVec.signExtend]

theorem jrel_ok (s : St) (b : Bool) (h : s.pc < 0x10000) (hl : ¬ (abs s).leaves (abs s).pc b) :
    abs (jrel b s) = (abs s).rel (abs s).pc b ∧ (jrel b s).pc < 0x10000 ∧ (jrel b s).p = s.p ∧ (jrel b s).vector = s.vector ∧ (jrel b s).s08 = s.s08 := by
  unfold jrel
  rw [fetch_any s h]
  cases b
  · simp only [if_false, Bool.false_eq_true]
    refine ⟨?_, Nat.mod_lt _ (by decide), rfl, rfl, rfl⟩
    show abs (fr s 1 _) = _
    rw [abs_fr]; rfl
  · simp only [if_true]
    have hl' : 0 ≤ (((abs s).pc + 1).toNat : Int) + (s.mem (abs s).pc).toInt ∧ (((abs s).pc + 1).toNat : Int) + (s.mem (abs s).pc).toInt < 0x10000 :=
      Classical.not_not.mp fun k => hl ⟨rfl, k⟩
    have k := rel_add _ _ hl'.1 hl'.2
    have ep : (fr s 1 s.ticks).pc = ((abs s).pc + 1).toNat := fr_pc s 1 _
    have e : (addPC (s.mem (abs s).pc) (tick 1 (fr s 1 s.ticks))).pc =
        (((((abs s).pc + 1).toNat : Int) + (s.mem (abs s).pc).toInt) % 0x100000000).toNat := by
      rw [← ep]; rfl
    refine ⟨?_, ?_, rfl, rfl, rfl⟩
    · have : ∀ X : St, X.a = s.a → X.x = s.x → X.h = s.h → X.sp = s.sp → X.p = s.p → X.mem = s.mem → BitVec.ofNat 16 X.pc = (abs s).pc + 1 + (s.mem (abs s).pc).signExtend 16 →
          abs X = (abs s).rel (abs s).pc true := by
        intro X h1 h2 h3 h4 h5 h6 h7
        unfold abs
        rw [h1, h2, h3, h4, h5, h6, h7]; rfl
      apply this <;> try rfl
      show BitVec.ofNat 16 (addPC (s.mem (abs s).pc) (tick 1 (fr s 1 s.ticks))).pc = _
      rw [e]; exact k.1
    · show (addPC (s.mem (abs s).pc) (tick 1 (fr s 1 s.ticks))).pc < _
      rw [e]; exact k.2

end Ucsim.H08
