import Verif.Proof.P22Alu
/-
Loads, stores, moves, calls of the P1516 and P2223, and numbers of several words.
-/
set_option linter.constructorNameAsVariable false
namespace Ucsim.P15
open Spec

/-! ### words of halves -/

theorem low16_set (x : Wd) : x &&& 0x0000ffff#32 = (x.setWidth 16).zeroExtend 32 := low16 x (x.setWidth 16) (by rw [BitVec.toNat_setWidth])

theorem lit16 (j : Nat) : (0xffff#32).getLsbD j = decide (j < 16) := by
  have e : (0xffff#32) = (BitVec.allOnes 16).setWidth 32 := rfl
  rw [e, BitVec.getLsbD_setWidth, BitVec.getLsbD_allOnes]
  by_cases h : j < 16
  · simp [h]; omega
  · simp [h]

theorem lit16h (j : Nat) : (0xffff0000#32).getLsbD j = (decide (16 ≤ j) && decide (j < 32)) := by
  have e : (0xffff0000#32) = 0xffff#32 <<< 16 := rfl
  rw [e, BitVec.getLsbD_shiftLeft, lit16]
  by_cases h : 16 ≤ j
  · by_cases h2 : j < 32
    · have : j - 16 < 16 := by omega
      simp [h, h2, this]
    · simp [h, h2]
  · have : j < 16 := by omega
    simp [h, this]

theorem ldl_val (x code : Wd) (i : BitVec 16) (hi : code.toNat % 65536 = i.toNat) :
    (x &&& 0xffff0000#32) ||| (code &&& 0x0000ffff#32) = x.extractLsb' 16 16 ++ i := by
  rw [low16 code i hi]
  apply BitVec.eq_of_getLsbD_eq
  intro j hj
  rw [BitVec.getLsbD_or, BitVec.getLsbD_and, lit16h, BitVec.getLsbD_append, BitVec.zeroExtend, BitVec.getLsbD_setWidth, BitVec.getLsbD_extractLsb']
  by_cases h : j < 16
  · have h2 : ¬16 ≤ j := by omega
    simp [h, h2, hj]
  · have h2 : 16 ≤ j := by omega
    have h3 : j - 16 < 16 := by omega
    have h4 : 16 + (j - 16) = j := by omega
    have h5 : i.getLsbD j = false := BitVec.getLsbD_of_ge _ _ h2
    simp [h, h2, hj, h3, h4, h5]

theorem ldh_val (x code : Wd) (i : BitVec 16) (hi : code.toNat % 65536 = i.toNat) :
    (x &&& 0x0000ffff#32) ||| (code <<< 16) = i ++ x.setWidth 16 := by
  have hii : i = code.setWidth 16 := by apply BitVec.eq_of_toNat_eq; rw [BitVec.toNat_setWidth, ← hi]
  subst hii
  apply BitVec.eq_of_getLsbD_eq
  intro j hj
  rw [BitVec.getLsbD_or, BitVec.getLsbD_and, lit16, BitVec.getLsbD_append, BitVec.getLsbD_shiftLeft]
  by_cases h : j < 16
  · simp [h]
  · have h3 : j - 16 < 16 := by omega
    simp [h, hj, h3]

theorem mvh_val (x code : Wd) (i : BitVec 16) (hi : code.toNat % 65536 = i.toNat) :
    (x &&& 0x0000ffff#32) ||| ((code &&& 0x0000ffff#32) <<< 16) = i ++ x.setWidth 16 := by
  rw [← ldh_val x (code &&& 0x0000ffff#32) i]
  rw [BitVec.toNat_and, BitVec.toNat_ofNat]
  have e : 65535 % 2 ^ 32 = 2 ^ 16 - 1 := rfl
  rw [e, Nat.and_two_pow_sub_one_eq_mod]
  omega

/-! ### P1516 -/

theorem exec15_go (s : St) (code : Wd) (hat : at15 s code) (hc : holds15 (flags s.F) code) : exec15 false s = (body15 (fetched 1 s) code, .go) := by
  rw [exec15_eq s code hat, if_pos ((cond15_iff (fetched 1 s) code).2 hc)]

theorem exec15_skip (s : St) (code : Wd) (hat : at15 s code) (hc : ¬holds15 (flags s.F) code) :
    Next 1 s (exec15 false s).1 keep ∧ (exec15 false s).1.F = s.F ∧ (exec15 false s).2 = .go := by
  rw [exec15_eq s code hat, if_neg (fun h => hc ((cond15_iff (fetched 1 s) code).1 h))]
  exact ⟨next_keep 1 s _ rfl rfl rfl rfl rfl, rfl, rfl⟩

theorem word_rd_fetched {k : Nat} {s : St} {a v : Wd} (h : word s a = some v) : rd (fetched k s) a = v := word_rd (s := s) h

theorem next_one (k : Nat) (s : St) (d : Rn) (v : Wd) :
    Next k s { setR (fetched k s) d v with PC := (setR (fetched k s) d v).R 15 } (to d v) :=
  next_setR k s _ d v rfl rfl rfl rfl rfl

theorem exec15_ld (s : St) (code : Wd) (d a : Rn) (v : Wd) (h : Enc15 code 1 d a) (hat : at15 s code) (hc : holds15 (flags s.F) code)
    (hv : word s (src s a) = some v) : Next 1 s (exec15 false s).1 (to d v) ∧ (exec15 false s).1.F = s.F := by
  rw [exec15_go s code hat hc]
  obtain ⟨h27, hg⟩ := body15_grp (fetched 1 s) code 1 h.grp (by decide)
  unfold body15
  rw [hg, h27, fld_rn code 20 d h.d, fld_rn code 16 a h.a]
  have hr : rd (fetched 1 s) ((fetched 1 s).R a) = v := word_rd_fetched hv
  simp only [Bool.false_eq_true, if_false, hr]
  exact ⟨next_one 1 s d v, rfl⟩

theorem exec15_mov (s : St) (code : Wd) (d a : Rn) (h : Enc15 code 3 d a) (hat : at15 s code) (hc : holds15 (flags s.F) code) :
    Next 1 s (exec15 false s).1 (to d (src s a)) ∧ (exec15 false s).1.F = s.F := by
  rw [exec15_go s code hat hc]
  obtain ⟨h27, hg⟩ := body15_grp (fetched 1 s) code 3 h.grp (by decide)
  unfold body15
  rw [hg, h27, fld_rn code 20 d h.d, fld_rn code 16 a h.a]
  exact ⟨next_one 1 s d (src s a), rfl⟩

theorem exec15_imm (s : St) (code : Wd) (d a : Rn) (g : Nat) (i : BitVec 16) (h : Enc15 code g d a) (hg : 4 ≤ g ∧ g ≤ 6) (hi : code.toNat % 2 ^ 16 = i.toNat)
    (hat : at15 s code) (hc : holds15 (flags s.F) code) :
    Next 1 s (exec15 false s).1 (to d (if g = 4 then i.zeroExtend 32 else if g = 5 then (src s d).extractLsb' 16 16 ++ i else i ++ (src s d).setWidth 16)) ∧
      (exec15 false s).1.F = s.F := by
  rw [exec15_go s code hat hc]
  obtain ⟨h27, hgg⟩ := body15_grp (fetched 1 s) code g h.grp (by omega)
  have e1 := low16 code i hi
  have e2 := ldl_val (src s d) code i hi
  have e3 := ldh_val (src s d) code i hi
  unfold body15
  rw [hgg, h27, fld_rn code 20 d h.d]
  have : g = 4 ∨ g = 5 ∨ g = 6 := by omega
  rcases this with e | e | e <;> subst e
  · simp only [Bool.false_eq_true, if_false, if_true, e1]
    exact ⟨next_one 1 s d _, rfl⟩
  · rw [if_neg (by decide), if_pos rfl, ← e2]
    exact ⟨next_one 1 s d _, rfl⟩
  · rw [if_neg (by decide), if_neg (by decide), ← e3]
    exact ⟨next_one 1 s d _, rfl⟩

theorem exec15_st (s : St) (code : Wd) (d a : Rn) (h : Enc15 code 2 d a) (hat : at15 s code) (hc : holds15 (flags s.F) code)
    (hv : (src s a).toNat < 0x20000) : Store 1 s (exec15 false s).1 keep (src s a) (src s d) := by
  rw [exec15_go s code hat hc]
  obtain ⟨h27, hg⟩ := body15_grp (fetched 1 s) code 2 h.grp (by decide)
  unfold body15
  rw [hg, h27, fld_rn code 20 d h.d, fld_rn code 16 a h.a]
  have hw : wr (fetched 1 s) ((fetched 1 s).R a) ((fetched 1 s).R d) =
      { fetched 1 s with mem := fun x => if x = src s a then src s d else s.mem x } := if_pos hv
  simp only [Bool.false_eq_true, if_false, hw]
  exact ⟨fun r => rfl, rfl, if_pos rfl, fun x hx => if_neg hx, rfl, rfl, rfl⟩

theorem exec15_nop (s : St) (code : Wd) (d a : Rn) (h : Enc15 code 0 d a) (hat : at15 s code) :
    Next 1 s (exec15 false s).1 keep ∧ (exec15 false s).1.F = s.F := by
  by_cases hc : holds15 (flags s.F) code
  · rw [exec15_go s code hat hc]
    obtain ⟨h27, hg⟩ := body15_grp (fetched 1 s) code 0 h.grp (by decide)
    unfold body15
    rw [hg, h27]
    exact ⟨next_keep 1 s _ rfl rfl rfl rfl rfl, rfl⟩
  · have := exec15_skip s code hat hc; exact ⟨this.1, this.2.1⟩

theorem call_val (code : Wd) : code &&& 0x07ffffff#32 = BitVec.ofNat 32 (code.toNat % 2 ^ 27) := by
  apply BitVec.eq_of_toNat_eq
  rw [BitVec.toNat_and, BitVec.toNat_ofNat, BitVec.toNat_ofNat]
  have e : 134217727 % 2 ^ 32 = 2 ^ 27 - 1 := rfl
  rw [e, Nat.and_two_pow_sub_one_eq_mod]; omega

theorem next_call (k : Nat) (s : St) (x : Wd) (w : St) (hw : w = setR { setR (fetched k s) 14 ((fetched k s).R 15) with PC := x } 15 x) :
    Next k s w (calls s x) ∧ w.F = s.F := by
  subst hw
  refine ⟨⟨?_, rfl, rfl, rfl, rfl⟩, rfl⟩
  intro r
  unfold calls setR fetched
  simp only
  split
  · rfl
  · split
    · rfl
    · rfl

theorem exec15_call (s : St) (code : Wd) (h27 : code.toNat / 2 ^ 27 % 2 = 1) (hat : at15 s code) (hc : holds15 (flags s.F) code) :
    Next 1 s (exec15 false s).1 (calls s (BitVec.ofNat 32 (code.toNat % 2 ^ 27))) ∧ (exec15 false s).1.F = s.F := by
  rw [exec15_go s code hat hc]
  have hb : code.getLsbD 27 = true := by rw [bit_of, decide_eq_true_eq]; exact h27
  unfold body15
  rw [hb, if_pos rfl, call_val]
  exact next_call 1 s _ _ rfl

/-! ### P2223 -/

theorem fld_reg (code : Wd) (lo : Nat) : fld code lo 4 = reg code lo := by
  apply BitVec.eq_of_toNat_eq
  rw [fld_toNat, reg, BitVec.toNat_ofNat]


theorem exec22_skip (ver : Wd) (s : St) (code : Wd) (cc : Cc) (hcc : code.toNat / 2 ^ 28 = cc.num) (hat : at15 s code) (hc : ¬cc.holds (flags s.F)) :
    Next 4 s (exec22 ver false s).1 keep ∧ (exec22 ver false s).1.F = s.F ∧ (exec22 ver false s).2 = .go := by
  rw [exec22_eq ver s code hat, if_neg (fun h => hc ((cond22_iff (fetched 4 s) code cc hcc).1 h))]
  exact ⟨next_keep 4 s _ rfl rfl rfl rfl rfl, rfl, rfl⟩

theorem exec22_go (ver : Wd) (s : St) (code : Wd) (cc : Cc) (hcc : code.toNat / 2 ^ 28 = cc.num) (hat : at15 s code) (hc : cc.holds (flags s.F)) :
    exec22 ver false s = body22 ver (fetched 4 s) code := by
  rw [exec22_eq ver s code hat, if_pos ((cond22_iff (fetched 4 s) code cc hcc).2 hc)]

theorem call22_eq (t : St) (code : Wd) (h24 : code.getLsbD 24 = false) : call22 t code =
    setR { setR t 14 (t.R 15) with PC := BitVec.ofNat 32 (code.toNat % 2 ^ 24) } 15 (BitVec.ofNat 32 (code.toNat % 2 ^ 24)) := by
  have e : code &&& 0x00ffffff#32 = BitVec.ofNat 32 (code.toNat % 2 ^ 24) := by
    apply BitVec.eq_of_toNat_eq
    rw [BitVec.toNat_and, BitVec.toNat_ofNat, BitVec.toNat_ofNat]
    have e : 16777215 % 2 ^ 32 = 2 ^ 24 - 1 := rfl
    rw [e, Nat.and_two_pow_sub_one_eq_mod]; omega
  unfold call22
  simp only [h24, Bool.false_eq_true, if_false, e]

theorem off20 (code : Wd) : (if (code &&& 0x000fffff#32).getLsbD 19 then (code &&& 0x000fffff#32) ||| 0xfff00000#32 else code &&& 0x000fffff#32) =
    (code.setWidth 20).signExtend 32 := by
  have hi := (code.setWidth 20).isLt
  have e : code &&& 0x000fffff#32 = (code.setWidth 20).setWidth 32 := by
    apply BitVec.eq_of_toNat_eq
    rw [BitVec.toNat_and, BitVec.toNat_setWidth, BitVec.toNat_setWidth, BitVec.toNat_ofNat]
    have e : 1048575 % 2 ^ 32 = 2 ^ 20 - 1 := rfl
    rw [e, Nat.and_two_pow_sub_one_eq_mod]; omega
  rw [e]
  generalize code.setWidth 20 = i at hi
  have hb : (i.setWidth 32).getLsbD 19 = i.msb := by
    rw [BitVec.msb_eq_getLsbD_last, BitVec.getLsbD_setWidth]; simp
  rw [hb]
  apply BitVec.eq_of_toNat_eq
  rw [BitVec.toNat_signExtend]
  cases i.msb
  · rfl
  · simp only [if_true]
    rw [BitVec.toNat_or, BitVec.toNat_ofNat, Nat.or_comm, BitVec.toNat_setWidth, Nat.mod_eq_of_lt (a := i.toNat) (by omega)]
    have e2 : 4293918720 % 2 ^ 32 = 4095 <<< 20 := rfl
    rw [e2, ← Nat.shiftLeft_add_eq_or_of_lt hi, Nat.shiftLeft_eq]
    omega

theorem call22_ind (t : St) (code : Wd) (d : Rn) (h24 : code.getLsbD 24 = true) (hd : code.toNat / 2 ^ 20 % 16 = d.toNat) : call22 t code =
    setR { setR t 14 (t.R 15) with PC := t.R d + (code.setWidth 20).signExtend 32 } 15 (t.R d + (code.setWidth 20).signExtend 32) := by
  unfold call22
  rw [fld_rn code 20 d hd]
  simp only [h24, if_true, off20]

theorem body22_call (ver : Wd) (t : St) (code : Wd) (x : Wd) (hg : code.toNat / 2 ^ 25 % 8 = 2)
    (h : call22 t code = setR { setR t 14 (t.R 15) with PC := x } 15 x) : body22 ver t code = (call22 t code, .go) := by
  have h25 : (fld code 25 3).toNat = 2 := by rw [fld_toNat]; exact hg
  unfold body22
  rw [h25]
  split
  · simp only [if_true, h]; rfl
  · simp only [h]; rfl

theorem exec22_call (ver : Wd) (s : St) (code : Wd) (hat : at15 s code) (hg : code.toNat / 2 ^ 25 % 8 = 2)
    (hcc : code.toNat / 2 ^ 28 = 15 ∨ ∃ cc : Cc, code.toNat / 2 ^ 28 = cc.num ∧ cc.holds (flags s.F)) :
    (exec22 ver false s).2 = .go ∧ (exec22 ver false s).1.F = s.F ∧
    Next 4 s (exec22 ver false s).1 (calls s (if code.toNat / 2 ^ 24 % 2 = 0 then BitVec.ofNat 32 (code.toNat % 2 ^ 24)
      else src s (reg code 20) + (code.setWidth 20).signExtend 32)) := by
  have hx : exec22 ver false s = body22 ver (fetched 4 s) code := by
    rcases hcc with h | ⟨cc, h, hh⟩
    · rw [exec22_eq ver s code hat, if_pos]
      have h28 : (fld code 28 4).toNat = 15 := by rw [fld_toNat]; omega
      unfold cond22
      rw [h28]; rfl
    · exact exec22_go ver s code cc h hat hh
  rw [hx]
  split
  · rename_i h0
    have h24 : code.getLsbD 24 = false := by rw [bit_of, decide_eq_false_iff_not]; omega
    have e := call22_eq (fetched 4 s) code h24
    rw [body22_call ver (fetched 4 s) code _ hg e]
    have := next_call 4 s _ _ e
    exact ⟨rfl, this.2, this.1⟩
  · rename_i h0
    have h24 : code.getLsbD 24 = true := by rw [bit_of, decide_eq_true_eq]; omega
    have e := call22_ind (fetched 4 s) code (reg code 20) h24 (by rw [← fld_reg, fld_toNat])
    rw [body22_call ver (fetched 4 s) code _ hg e]
    have := next_call 4 s _ _ e
    exact ⟨rfl, this.2, this.1⟩

theorem body22_mem (ver : Wd) (t : St) (code : Wd) (hcc : code.toNat / 2 ^ 28 ≠ 15) (hg : 8 ≤ code.toNat / 2 ^ 24 % 16) :
    body22 ver t code = ({ mem22 t code with PC := (mem22 t code).R 15 }, .go) := by
  have hl := lt_wd code
  have h28 : (fld code 28 4).toNat ≠ 15 := by rw [fld_toNat]; omega
  have h25 : 4 ≤ (fld code 25 3).toNat := by rw [fld_toNat]; omega
  unfold body22
  rw [if_neg h28]
  split <;> first | rfl | omega

theorem mem22_eq (s : St) (code : Wd) (d a : Rn) (hd : code.toNat / 2 ^ 20 % 16 = d.toNat) (ha : code.toNat / 2 ^ 16 % 16 = a.toNat) :
    mem22 (fetched 4 s) code =
      (let m := modeOf code s.F
       let addr := m.addr (src s a) (offOf s code)
       let t := if code.getLsbD 25 then setR (fetched 4 s) d (rd (fetched 4 s) addr) else wr (fetched 4 s) addr (src s d)
       if m.change then setR t a (m.moved (src s a)) else t) := by
  have hi : imS code = (code.setWidth 16).signExtend 32 := imS_eq code (code.setWidth 16) (by rw [BitVec.toNat_setWidth])
  unfold mem22 modeOf offOf
  rw [fld_rn code 20 d hd, fld_rn code 16 a ha, hi, fld_reg]
  have eu : fl (fetched 4 s) bU = up s.F := rfl
  have ep : fl (fetched 4 s) bP = pre s.F := rfl
  have er : (fetched 4 s).R = src s := rfl
  rw [eu, ep, er]
  cases code.getLsbD 26 <;> cases code.getLsbD 25 <;> cases code.getLsbD 24 <;> cases code.getLsbD 14 <;> cases (pre s.F) <;>
    simp [Mode.addr, Mode.moved]

theorem exec22_load (ver : Wd) (s : St) (code : Wd) (cc : Cc) (g : Nat) (d a : Rn) (v : Wd) (h : Enc22 code cc.num g d a.toNat) (hg : 8 ≤ g)
    (hld : code.getLsbD 25 = true) (hat : at15 s code) (hc : cc.holds (flags s.F))
    (hv : word s ((modeOf code s.F).addr (src s a) (offOf s code)) = some v) :
    (exec22 ver false s).2 = .go ∧ (exec22 ver false s).1.F = s.F ∧
    Next 4 s (exec22 ver false s).1 (fun r => if (modeOf code s.F).change && r == a then some ((modeOf code s.F).moved (src s a)) else if r = d then some v else none) := by
  rw [exec22_go ver s code cc h.cc hat hc, body22_mem ver _ code (by rw [h.cc]; exact ccnum_ne cc) (by rw [h.grp]; exact hg),
    mem22_eq s code d a h.d h.op]
  have hr : rd (fetched 4 s) ((modeOf code s.F).addr (src s a) (offOf s code)) = v := word_rd_fetched hv
  simp only [hld, if_true, hr]
  cases hch : (modeOf code s.F).change
  · simp only [Bool.false_eq_true, if_false, Bool.false_and]
    have := next_one 4 s d v
    refine ⟨trivial, rfl, ?_, this.pc, this.mem, this.dummy, this.ticks⟩
    exact this.regs
  · simp only [if_true, Bool.true_and]
    refine ⟨trivial, rfl, ?_, rfl, rfl, rfl, rfl⟩
    intro r
    show (if r = a then _ else if r = d then v else src s r) = _
    by_cases h1 : r = a
    · rw [if_pos h1, if_pos (beq_iff_eq.2 h1)]; rfl
    · rw [if_neg h1, if_neg (fun e => h1 (beq_iff_eq.1 e))]
      split <;> rfl

theorem exec22_store (ver : Wd) (s : St) (code : Wd) (cc : Cc) (g : Nat) (d a : Rn) (h : Enc22 code cc.num g d a.toNat) (hg : 8 ≤ g)
    (hld : code.getLsbD 25 = false) (hat : at15 s code) (hc : cc.holds (flags s.F))
    (hv : ((modeOf code s.F).addr (src s a) (offOf s code)).toNat < 0x20000) :
    (exec22 ver false s).2 = .go ∧
    Store 4 s (exec22 ver false s).1 (res a (if (modeOf code s.F).change then some ((modeOf code s.F).moved (src s a)) else none))
      ((modeOf code s.F).addr (src s a) (offOf s code)) (src s d) := by
  rw [exec22_go ver s code cc h.cc hat hc, body22_mem ver _ code (by rw [h.cc]; exact ccnum_ne cc) (by rw [h.grp]; exact hg),
    mem22_eq s code d a h.d h.op]
  generalize hA : (modeOf code s.F).addr (src s a) (offOf s code) = A at hv ⊢
  have hw : wr (fetched 4 s) A (src s d) = { fetched 4 s with mem := fun x => if x = A then src s d else s.mem x } := if_pos hv
  simp only [hld, Bool.false_eq_true, if_false, hA, hw]
  cases hch : (modeOf code s.F).change
  · exact ⟨trivial, fun r => rfl, rfl, if_pos rfl, fun x hx => if_neg hx, rfl, rfl, rfl⟩
  · refine ⟨trivial, ?_, rfl, if_pos rfl, fun x hx => if_neg hx, rfl, rfl, rfl⟩
    intro r
    show (if r = a then _ else src s r) = (to a _ r).getD _
    unfold to
    split <;> rfl

end Ucsim.P15
