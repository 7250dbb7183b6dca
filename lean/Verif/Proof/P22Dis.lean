import Verif.Spec.P22Dis
import Verif.Proof.P15Dis
/-
The disassembler of the P2223 and the execution.
-/
set_option linter.constructorNameAsVariable false
namespace Ucsim.P15
open Spec

theorem cc_of (n : Nat) (h : n < 15) : ∃ cc : Cc, n = cc.num := by
  have : n = 0 ∨ n = 1 ∨ n = 2 ∨ n = 3 ∨ n = 4 ∨ n = 5 ∨ n = 6 ∨ n = 7 ∨ n = 8 ∨ n = 9 ∨ n = 10 ∨ n = 11 ∨ n = 12 ∨ n = 13 ∨ n = 14 := by omega
  rcases this with h | h | h | h | h | h | h | h | h | h | h | h | h | h | h
  · exact ⟨.al, h⟩
  · exact ⟨.eq, h⟩
  · exact ⟨.ne, h⟩
  · exact ⟨.cs, h⟩
  · exact ⟨.cc, h⟩
  · exact ⟨.mi, h⟩
  · exact ⟨.pl, h⟩
  · exact ⟨.vs, h⟩
  · exact ⟨.vc, h⟩
  · exact ⟨.hi, h⟩
  · exact ⟨.ls, h⟩
  · exact ⟨.ge, h⟩
  · exact ⟨.lt, h⟩
  · exact ⟨.gt, h⟩
  · exact ⟨.le, h⟩

theorem shown22_iff (f : Flags) (e : Entry) (code : Wd) (cc : Cc) (he : e.mac = false) (h : code.toNat / 2 ^ 28 = cc.num) :
    shown22 f (prefix22 e code) ↔ cc.holds f := by
  unfold prefix22
  rw [he, data_eq, h]
  cases cc <;> exact Iff.rfl

theorem shown22_15 (f : Flags) (e : Entry) (code : Wd) (h : code.toNat / 2 ^ 28 = 15) : shown22 f (prefix22 e code) := by
  unfold prefix22
  rw [data_eq, h]
  cases e.mac <;> exact trivial

/-- The line of the disassembler says what the execution does. -/
def Right22 (ver : Wd) (s : St) (code : Wd) (e : Entry) (i : Ins22) : Prop :=
  (shown22 (flags s.F) (prefix22 e code) → i.does (args22 s code) s (exec22 ver false s).1) ∧
  (¬shown22 (flags s.F) (prefix22 e code) → skips 4 s (exec22 ver false s).1)

theorem right22_of {ver : Wd} {s : St} {code : Wd} {e : Entry} {i : Ins22} (hat : at15 s code) (hm : e.mac = false) (h15 : code.toNat / 2 ^ 28 ≠ 15)
    (h : ∀ cc : Cc, code.toNat / 2 ^ 28 = cc.num → cc.holds (flags s.F) → i.does (args22 s code) s (exec22 ver false s).1) : Right22 ver s code e i := by
  have hl := lt_wd code
  obtain ⟨cc, hcc⟩ := cc_of (code.toNat / 2 ^ 28) (by omega)
  refine ⟨fun hs => h cc hcc ((shown22_iff _ e code cc hm hcc).1 hs), fun hn => ?_⟩
  have := exec22_skip ver s code cc hcc hat (fun q => hn ((shown22_iff _ e code cc hm hcc).2 q))
  exact ⟨this.1, this.2.1⟩

theorem reg_nat (code : Wd) (lo : Nat) : code.toNat / 2 ^ lo % 16 = (reg code lo).toNat := (BitVec.toNat_ofNat (code.toNat / 2 ^ lo) 4).symm

theorem enc22_reg {code : Wd} {cc : Cc} {g o : Nat} (h1 : code.toNat / 2 ^ 28 = cc.num) (hg : code.toNat / 2 ^ 24 % 16 = g) (ho : code.toNat / 2 ^ 16 % 16 = o) :
    Enc22 code cc.num g (reg code 20) o :=
  ⟨h1, hg, reg_nat code 20, ho⟩

theorem enc22_rega {code : Wd} {cc : Cc} {g : Nat} (h1 : code.toNat / 2 ^ 28 = cc.num) (hg : code.toNat / 2 ^ 24 % 16 = g) :
    Enc22 code cc.num g (reg code 20) (reg code 16).toNat :=
  ⟨h1, hg, reg_nat code 20, reg_nat code 16⟩

theorem r_op1 {ver : Wd} {s : St} {code : Wd} {e : Entry} (o : Op1) (hat : at15 s code) (h15 : code.toNat / 2 ^ 28 ≠ 15) (he : code &&& e.mask = e.code)
    (hm : e.mac = false) (k1 : fld e.mask 25 3 = BitVec.allOnes 3) (k2 : (fld e.code 25 3).toNat = 1) (k3 : fld e.mask 16 4 = BitVec.allOnes 4)
    (k4 : (fld e.code 16 4).toNat = o.num) : Right22 ver s code e (.op1 o) := by
  have f1 := field_of he 25 3 k1
  have f2 := field_of he 16 4 k3
  rw [k2] at f1; rw [k4] at f2
  refine right22_of hat hm h15 (fun cc hcc hc => ?_)
  exact (exec22_op1 ver s code o cc _ _ (enc22_reg hcc rfl f2) (by omega) hat hc).2

theorem r_op2r {ver : Wd} {s : St} {code : Wd} {e : Entry} (o : Op2) (hat : at15 s code) (h15 : code.toNat / 2 ^ 28 ≠ 15) (hb : o ≠ .btst) (he : code &&& e.mask = e.code)
    (hm : e.mac = false) (k1 : fld e.mask 24 4 = BitVec.allOnes 4) (k2 : (fld e.code 24 4).toNat = 0) (k3 : fld e.mask 16 4 = BitVec.allOnes 4)
    (k4 : (fld e.code 16 4).toNat = o.num) : Right22 ver s code e (.op2 o false) := by
  have f1 := field_of he 24 4 k1
  have f2 := field_of he 16 4 k3
  rw [k2] at f1; rw [k4] at f2
  refine right22_of hat hm h15 (fun cc hcc hc => ?_)
  exact (exec22_reg ver s code o cc _ (reg code 8) (enc22_reg hcc f1 f2) (reg_nat code 8) hb hat hc).2

theorem r_op2i {ver : Wd} {s : St} {code : Wd} {e : Entry} (o : Op2) (hat : at15 s code) (h15 : code.toNat / 2 ^ 28 ≠ 15) (hb : o ≠ .btst) (he : code &&& e.mask = e.code)
    (hm : e.mac = false) (k1 : fld e.mask 24 4 = BitVec.allOnes 4) (k2 : (fld e.code 24 4).toNat = 1) (k3 : fld e.mask 16 4 = BitVec.allOnes 4)
    (k4 : (fld e.code 16 4).toNat = o.num) : Right22 ver s code e (.op2 o true) := by
  have f1 := field_of he 24 4 k1
  have f2 := field_of he 16 4 k3
  rw [k2] at f1; rw [k4] at f2
  refine right22_of hat hm h15 (fun cc hcc hc => ?_)
  exact (exec22_imm ver s code o cc _ _ (enc22_reg hcc f1 f2) (imm_eq code) hb hat hc).2

theorem d15 {code : Wd} (h : code.toNat / 2 ^ 20 % 16 = 15) : reg code 20 = 15 := BitVec.eq_of_toNat_eq ((reg_nat code 20).symm.trans h)

theorem r_jump {ver : Wd} {s : St} {code : Wd} {e : Entry} (c : Cc) (hat : at15 s code) (h15 : code.toNat / 2 ^ 28 ≠ 15) (he : code &&& e.mask = e.code)
    (hm : e.mac = false) (k1 : fld e.mask 16 12 = BitVec.allOnes 12) (k2 : (fld e.code 16 12).toNat = 0x1f2) : Right22 ver s code e (.jump c) := by
  have f1 := field_of he 16 12 k1
  rw [k2] at f1
  refine right22_of hat hm h15 (fun cc hcc hc => ?_)
  have h := exec22_mvi ver s code cc (reg code 20) (code.setWidth 16) 2 (enc22_reg hcc (by omega) (by omega)) (imm_eq code) (by decide) hat hc
  rw [d15 (by omega)] at h
  exact ⟨h.1, h.2.1⟩

theorem r_mem {ver : Wd} {s : St} {code : Wd} {cc : Cc} (ld : Bool) (m : Mode) (off : Wd) (hcc : code.toNat / 2 ^ 28 = cc.num)
    (hg : 8 ≤ code.toNat / 2 ^ 24 % 16) (hld : code.getLsbD 25 = ld) (hm : (modeOf code s.F).change = m.change)
    (hm2 : m.change = true → modeOf code s.F = m) (ho : offOf s code = off) (hat : at15 s code) (hc : cc.holds (flags s.F)) :
    if ld then loads s (exec22 ver false s).1 m (reg code 20) (reg code 16) off else stores s (exec22 ver false s).1 m (reg code 20) (reg code 16) off := by
  have ha : (modeOf code s.F).addr = m.addr := by
    cases hb : m.change
    · unfold Mode.addr; rw [hm, hb]; rfl
    · rw [hm2 hb]
  have hmv : m.change = true → (modeOf code s.F).moved = m.moved := fun hb => by rw [hm2 hb]
  subst ho
  cases ld
  · rw [if_neg (by decide)]
    intro hlt
    have h := (exec22_store ver s code cc _ _ _ (enc22_rega hcc rfl) hg hld hat hc (by rw [ha]; exact hlt)).2
    rw [ha, hm] at h
    cases hb : m.change
    · rw [hb] at h; exact h
    · rw [hmv hb, hb] at h; exact h
  · rw [if_pos rfl]
    intro hda v hv
    have h := (exec22_load ver s code cc _ _ _ v (enc22_rega hcc rfl) hg hld hat hc (by rw [ha]; exact hv)).2
    refine ⟨h.1, ?_⟩
    have hh := h.2
    rw [hm] at hh
    cases hb : m.change
    · rw [hb] at hh
      refine ⟨fun r => ?_, hh.pc, hh.mem, hh.dummy, hh.ticks⟩
      rw [hh.regs r]
      simp
    · rw [hmv hb, hb] at hh
      refine ⟨fun r => ?_, hh.pc, hh.mem, hh.dummy, hh.ticks⟩
      rw [hh.regs r]
      have := hda hb
      by_cases hr : r = reg code 16
      · subst hr
        simp [Ne.symm this]
      · simp [hr]

theorem next_nop {k : Nat} {s s' : St} (h : Next k s s' (to 0 (src s 0))) : Next k s s' keep :=
  ⟨fun r => by
    rw [h.regs r]; unfold to keep
    by_cases hr : r = 0
    · rw [if_pos hr, hr]; rfl
    · rw [if_neg hr], h.pc, h.mem, h.dummy, h.ticks⟩

theorem inc_of {s s' : St} {d : Rn} (h : Next 4 s s' (res d (Op2.add.value (src s d) (Op2.add.imm 1#16) (flags s.F).c)) ∧
    flags s'.F = Op2.add.flags (src s d) (Op2.add.imm 1#16) (flags s.F) ∧ rest s'.F = rest s.F) :
    Next 4 s s' (to d (src s d + 1)) ∧ flags s'.F = addFlags (src s d) 1 false ∧ rest s'.F = rest s.F := h

theorem dec_flags (a : Wd) : addFlags a (BitVec.signExtend 32 65535#16) false = subFlags a 1 true := by
  rw [← addFlags_not]
  have e : BitVec.signExtend 32 65535#16 = 0xffffffff#32 := by decide
  rw [e]
  have e2 : a + 0xffffffff#32 + (if false = true then 1 else 0) = a + ~~~1#32 + (if true = true then 1 else 0) := by
    rw [if_neg (by decide), if_pos rfl, add_zero', BitVec.add_assoc]; congr 1
  unfold addFlags
  rw [e2]
  have e3 : a.toNat + (0xffffffff#32).toNat + false.toNat = a.toNat + (~~~1#32).toNat + true.toNat := rfl
  have e4 : a.toInt + (0xffffffff#32).toInt + (false.toNat : Int) = a.toInt + (~~~1#32).toInt + (true.toNat : Int) := by
    rw [show (0xffffffff#32).toInt = -1 from rfl, show (~~~1#32).toInt = -2 from rfl]; simp; omega
  rw [e3, e4]
  rfl

theorem dec_of {s s' : St} {d : Rn} (h : Next 4 s s' (res d (Op2.add.value (src s d) (Op2.add.imm 65535#16) (flags s.F).c)) ∧
    flags s'.F = Op2.add.flags (src s d) (Op2.add.imm 65535#16) (flags s.F) ∧ rest s'.F = rest s.F) :
    Next 4 s s' (to d (src s d - 1)) ∧ flags s'.F = subFlags (src s d) 1 true ∧ rest s'.F = rest s.F := by
  refine ⟨?_, h.2.1.trans (dec_flags _), h.2.2⟩
  have e : src s d - 1 = src s d + BitVec.signExtend 32 65535#16 := by rw [BitVec.sub_eq_add_neg]; rfl
  rw [e]; exact h.1

theorem tgt24 (code : Wd) : BitVec.ofNat 32 (code.toNat % 2 ^ 24) = (code.setWidth 24).zeroExtend 32 := by
  apply BitVec.eq_of_toNat_eq
  simp [BitVec.toNat_setWidth]

theorem call_cc (s : St) (code : Wd) (e : Entry) (he : e.mac = false) (hs : shown22 (flags s.F) (prefix22 e code)) :
    code.toNat / 2 ^ 28 = 15 ∨ ∃ cc : Cc, code.toNat / 2 ^ 28 = cc.num ∧ cc.holds (flags s.F) := by
  have hl := lt_wd code
  by_cases h : code.toNat / 2 ^ 28 = 15
  · exact .inl h
  · obtain ⟨cc, hcc⟩ := cc_of (code.toNat / 2 ^ 28) (by omega)
    exact .inr ⟨cc, hcc, (shown22_iff _ e code cc he hcc).1 hs⟩

theorem call_skip {ver : Wd} {s : St} {code : Wd} {e : Entry} (hat : at15 s code) (he : e.mac = false)
    (hn : ¬shown22 (flags s.F) (prefix22 e code)) : skips 4 s (exec22 ver false s).1 := by
  have hl := lt_wd code
  have h : code.toNat / 2 ^ 28 ≠ 15 := fun h => hn (shown22_15 _ e code h)
  obtain ⟨cc, hcc⟩ := cc_of (code.toNat / 2 ^ 28) (by omega)
  have := exec22_skip ver s code cc hcc hat (fun q => hn ((shown22_iff _ e code cc he hcc).2 q))
  exact ⟨this.1, this.2.1⟩

theorem body22_1op (ver : Wd) (t : St) (code : Wd) (cc : Cc) (hcc : code.toNat / 2 ^ 28 = cc.num) (f25 : code.toNat / 2 ^ 25 % 2 ^ 3 = 1) :
    body22 ver t code = ({ alu1op t code with PC := (alu1op t code).R 15 }, .go) :=
  body22_alu ver t _ code _ (fun h => ccnum_ne cc (hcc ▸ h)) (by omega) (alu22_1op t code _ rfl (by omega))

theorem getf_of (ver : Wd) (s : St) (code : Wd) (cc : Cc) (hcc : code.toNat / 2 ^ 28 = cc.num) (hat : at15 s code) (hc : cc.holds (flags s.F))
    (f25 : code.toNat / 2 ^ 25 % 2 ^ 3 = 1) (f16 : code.toNat / 2 ^ 16 % 2 ^ 4 = 14) :
    Next 4 s (exec22 ver false s).1 (to (reg code 20) s.F) ∧ (exec22 ver false s).1.F = s.F := by
  rw [exec22_go ver s code cc hcc hat hc, body22_1op ver _ code cc hcc f25]
  have h : alu1op (fetched 4 s) code = setR (fetched 4 s) (fld code 20 4) s.F := by
    unfold alu1op
    rw [fld_toNat, f16]
    rfl
  rw [h, fld_reg]
  exact ⟨next_one 4 s _ _, rfl⟩

theorem setf_of (ver : Wd) (s : St) (code : Wd) (cc : Cc) (hcc : code.toNat / 2 ^ 28 = cc.num) (hat : at15 s code) (hc : cc.holds (flags s.F))
    (f25 : code.toNat / 2 ^ 25 % 2 ^ 3 = 1) (f16 : code.toNat / 2 ^ 16 % 2 ^ 4 = 15) :
    Next 4 s (exec22 ver false s).1 keep ∧ (exec22 ver false s).1.F = src s (reg code 20) := by
  rw [exec22_go ver s code cc hcc hat hc, body22_1op ver _ code cc hcc f25]
  have h : alu1op (fetched 4 s) code = { fetched 4 s with F := (fetched 4 s).R (fld code 20 4) } := by
    unfold alu1op
    rw [fld_toNat, f16]
    rfl
  rw [h, fld_reg]
  exact ⟨next_keep 4 s _ (funext fun r => rfl) rfl rfl rfl rfl, rfl⟩

theorem right22 (ver : Wd) (s : St) (code : Wd) (e : Entry) (i : Ins22) (hat : at15 s code) (he : lookup table22 code = some e) (hi : means22 e.text = some i)
    (hx : Shown22 code i) : Right22 ver s code e i := by
  have hl := lt_wd code
  have hmem := List.mem_of_find?_eq_some he
  have hmat := List.find?_some he
  have hmat : code &&& e.mask = e.code := beq_iff_eq.1 hmat
  clear he
  obtain ⟨hret, hstack, hbt, hcond⟩ := hx
  unfold table22 at hmem
  simp only [List.mem_cons, List.not_mem_nil, or_false] at hmem
  rcases hmem with h | h | h | h | h | h | h | h | h | h | h | h | h | h | h | h | h | h | h | h | h | h | h | h | h | h | h | h | h | h | h | h | h | h | h | h | h | h | h | h | h | h | h | h | h | h | h | h | h | h | h | h | h | h | h | h | h | h | h | h | h | h | h | h | h | h | h | h | h | h | h | h | h | h | h | h | h | h | h | h | h | h | h | h | h | h | h | h | h <;> subst h
  · obtain rfl : _ = i := Option.some.inj (show some (.call : Ins22) = some i from hi)
    have f24 : code.toNat / 2 ^ 24 % 2 ^ 4 = 4 := field_of hmat 24 4 rfl
    refine ⟨fun hs => ?_, fun hn => ?_⟩
    · have h := exec22_call ver s code hat (by omega) (call_cc s code _ rfl hs)
      rw [if_pos (by omega)] at h
      exact ⟨(tgt24 code) ▸ h.2.2, h.2.1⟩
    · exact call_skip hat rfl hn
  · obtain rfl : _ = i := Option.some.inj (show some (.callr : Ins22) = some i from hi)
    have f24 : code.toNat / 2 ^ 24 % 2 ^ 4 = 5 := field_of hmat 24 4 rfl
    refine ⟨fun hs => ?_, fun hn => ?_⟩
    · have h := exec22_call ver s code hat (by omega) (call_cc s code _ rfl hs)
      rw [if_neg (by omega)] at h
      exact ⟨h.2.2, h.2.1⟩
    · exact call_skip hat rfl hn
  · obtain rfl : _ = i := Option.some.inj (show some (.nop : Ins22) = some i from hi)
    have h15 : code.toNat / 2 ^ 28 ≠ 15 := fun q => absurd (hcond q) (by decide)
    have f0 : code.toNat / 2 ^ 0 % 2 ^ 28 = 0 := field_of hmat 0 28 rfl
    refine right22_of hat rfl h15 (fun cc hcc hc => ?_)
    have h := exec22_mov ver s code cc (reg code 20) (enc22_reg hcc (by omega) (by omega)) hat hc
    rw [show reg code 8 = 0 from BitVec.eq_of_toNat_eq ((reg_nat code 8).symm.trans (by show _ = 0; omega)), show reg code 20 = 0 from BitVec.eq_of_toNat_eq ((reg_nat code 20).symm.trans (by show _ = 0; omega))] at h
    exact ⟨next_nop h.1, h.2.1⟩
  · exact absurd (show none = some i from hi) (fun h => nomatch h)
  · obtain rfl : _ = i := Option.some.inj (show some (.ret : Ins22) = some i from hi)
    have h15 : code.toNat / 2 ^ 28 ≠ 15 := fun q => absurd (hcond q) (by decide)
    have f8 : code.toNat / 2 ^ 8 % 2 ^ 4 = 14 := field_of hmat 8 4 rfl
    have f16 := hret rfl
    refine right22_of hat rfl h15 (fun cc hcc hc => ?_)
    have h := exec22_mov ver s code cc (reg code 20) (enc22_reg hcc (by omega) (by omega)) hat hc
    rw [d15 (by omega), show reg code 8 = 14 from BitVec.eq_of_toNat_eq ((reg_nat code 8).symm.trans f8)] at h
    exact ⟨h.1, h.2.1⟩
  · obtain rfl : _ = i := Option.some.inj (show some (.jump .eq : Ins22) = some i from hi)
    have h15 : code.toNat / 2 ^ 28 ≠ 15 := fun q => absurd (hcond q) (by decide)
    exact r_jump .eq hat h15 hmat rfl rfl rfl
  · obtain rfl : _ = i := Option.some.inj (show some (.jump .ne : Ins22) = some i from hi)
    have h15 : code.toNat / 2 ^ 28 ≠ 15 := fun q => absurd (hcond q) (by decide)
    exact r_jump .ne hat h15 hmat rfl rfl rfl
  · obtain rfl : _ = i := Option.some.inj (show some (.jump .cs : Ins22) = some i from hi)
    have h15 : code.toNat / 2 ^ 28 ≠ 15 := fun q => absurd (hcond q) (by decide)
    exact r_jump .cs hat h15 hmat rfl rfl rfl
  · obtain rfl : _ = i := Option.some.inj (show some (.jump .cc : Ins22) = some i from hi)
    have h15 : code.toNat / 2 ^ 28 ≠ 15 := fun q => absurd (hcond q) (by decide)
    exact r_jump .cc hat h15 hmat rfl rfl rfl
  · obtain rfl : _ = i := Option.some.inj (show some (.jump .al : Ins22) = some i from hi)
    have h15 : code.toNat / 2 ^ 28 ≠ 15 := fun q => absurd (hcond q) (by decide)
    exact r_jump .al hat h15 hmat rfl rfl rfl
  · obtain rfl : _ = i := Option.some.inj (show some (.push : Ins22) = some i from hi)
    have hz : code.toNat % 2 ^ 16 = 0 := hstack (.inl rfl)
    have h15 : code.toNat / 2 ^ 28 ≠ 15 := fun q => absurd (hcond q) (by decide)
    have f24 : code.toNat / 2 ^ 24 % 2 ^ 4 = 13 := field_of hmat 24 4 rfl
    have f16 : code.toNat / 2 ^ 16 % 2 ^ 4 = 13 := field_of hmat 16 4 rfl
    refine right22_of hat rfl h15 (fun cc hcc hc => ?_)
    have b24 : code.getLsbD 24 = true := (by rw [bit_of]; exact decide_eq_true (by omega))
    have b25 : code.getLsbD 25 = false := (by rw [bit_of]; exact decide_eq_false (by omega))
    have b26 : code.getLsbD 26 = true := (by rw [bit_of]; exact decide_eq_true (by omega))
    have h := r_mem (ver := ver) false (Index.flags.mode false s.F) 0 hcc (by omega) b25 (by unfold modeOf; simp only [b24, b26]; rfl) (fun _ => by unfold modeOf; simp only [b24, b25, b26]; rfl) (by unfold offOf; rw [b26, if_pos rfl, show code.setWidth 16 = 0#16 from BitVec.eq_of_toNat_eq (by rw [BitVec.toNat_setWidth]; exact hz)]; rfl) hat hc
    rw [show reg code 16 = 13 from BitVec.eq_of_toNat_eq ((reg_nat code 16).symm.trans f16)] at h
    exact h
  · obtain rfl : _ = i := Option.some.inj (show some (.pop : Ins22) = some i from hi)
    have hz : code.toNat % 2 ^ 16 = 0 := hstack (.inr rfl)
    have h15 : code.toNat / 2 ^ 28 ≠ 15 := fun q => absurd (hcond q) (by decide)
    have f24 : code.toNat / 2 ^ 24 % 2 ^ 4 = 15 := field_of hmat 24 4 rfl
    have f16 : code.toNat / 2 ^ 16 % 2 ^ 4 = 13 := field_of hmat 16 4 rfl
    refine right22_of hat rfl h15 (fun cc hcc hc => ?_)
    have b24 : code.getLsbD 24 = true := (by rw [bit_of]; exact decide_eq_true (by omega))
    have b25 : code.getLsbD 25 = true := (by rw [bit_of]; exact decide_eq_true (by omega))
    have b26 : code.getLsbD 26 = true := (by rw [bit_of]; exact decide_eq_true (by omega))
    have h := r_mem (ver := ver) true (Index.flags.mode true s.F) 0 hcc (by omega) b25 (by unfold modeOf; simp only [b24, b26]; rfl) (fun _ => by unfold modeOf; simp only [b24, b25, b26]; rfl) (by unfold offOf; rw [b26, if_pos rfl, show code.setWidth 16 = 0#16 from BitVec.eq_of_toNat_eq (by rw [BitVec.toNat_setWidth]; exact hz)]; rfl) hat hc
    rw [show reg code 16 = 13 from BitVec.eq_of_toNat_eq ((reg_nat code 16).symm.trans f16)] at h
    exact h
  · obtain rfl : _ = i := Option.some.inj (show some (.jp : Ins22) = some i from hi)
    have h15 : code.toNat / 2 ^ 28 ≠ 15 := fun q => absurd (hcond q) (by decide)
    have f16 : code.toNat / 2 ^ 16 % 2 ^ 12 = 240 := field_of hmat 16 12 rfl
    refine right22_of hat rfl h15 (fun cc hcc hc => ?_)
    have h := exec22_mov ver s code cc (reg code 20) (enc22_reg hcc (by omega) (by omega)) hat hc
    rw [d15 (by omega)] at h
    exact ⟨h.1, h.2.1⟩
  · obtain rfl : _ = i := Option.some.inj (show some (.inc : Ins22) = some i from hi)
    have h15 : code.toNat / 2 ^ 28 ≠ 15 := fun q => absurd (hcond q) (by decide)
    have f24 : code.toNat / 2 ^ 24 % 2 ^ 4 = 1 := field_of hmat 24 4 rfl
    have f0 : code.toNat / 2 ^ 0 % 2 ^ 20 = 262145 := field_of hmat 0 20 rfl
    refine right22_of hat rfl h15 (fun cc hcc hc => ?_)
    have h := exec22_imm ver s code .add cc (reg code 20) 1#16 (enc22_reg hcc f24 (by show _ = 4; omega)) (by show _ = 1; omega) (by decide) hat hc
    exact inc_of h.2
  · obtain rfl : _ = i := Option.some.inj (show some (.dec : Ins22) = some i from hi)
    have h15 : code.toNat / 2 ^ 28 ≠ 15 := fun q => absurd (hcond q) (by decide)
    have f24 : code.toNat / 2 ^ 24 % 2 ^ 4 = 1 := field_of hmat 24 4 rfl
    have f0 : code.toNat / 2 ^ 0 % 2 ^ 20 = 327679 := field_of hmat 0 20 rfl
    refine right22_of hat rfl h15 (fun cc hcc hc => ?_)
    have h := exec22_imm ver s code .add cc (reg code 20) 65535#16 (enc22_reg hcc f24 (by show _ = 4; omega)) (by show _ = 65535; omega) (by decide) hat hc
    exact dec_of h.2
  · obtain rfl : _ = i := Option.some.inj (show some (.call : Ins22) = some i from hi)
    have f24 : code.toNat / 2 ^ 24 % 2 ^ 4 = 4 := field_of hmat 24 4 rfl
    refine ⟨fun hs => ?_, fun hn => ?_⟩
    · have h := exec22_call ver s code hat (by omega) (call_cc s code _ rfl hs)
      rw [if_pos (by omega)] at h
      exact ⟨(tgt24 code) ▸ h.2.2, h.2.1⟩
    · exact call_skip hat rfl hn
  · obtain rfl : _ = i := Option.some.inj (show some (.callr : Ins22) = some i from hi)
    have f24 : code.toNat / 2 ^ 24 % 2 ^ 4 = 5 := field_of hmat 24 4 rfl
    refine ⟨fun hs => ?_, fun hn => ?_⟩
    · have h := exec22_call ver s code hat (by omega) (call_cc s code _ rfl hs)
      rw [if_neg (by omega)] at h
      exact ⟨h.2.2, h.2.1⟩
    · exact call_skip hat rfl hn
  · obtain rfl : _ = i := Option.some.inj (show some (.op1 .zeb : Ins22) = some i from hi)
    have h15 : code.toNat / 2 ^ 28 ≠ 15 := fun q => absurd (hcond q) (by decide)
    exact r_op1 .zeb hat h15 hmat rfl rfl rfl rfl rfl
  · obtain rfl : _ = i := Option.some.inj (show some (.op1 .zew : Ins22) = some i from hi)
    have h15 : code.toNat / 2 ^ 28 ≠ 15 := fun q => absurd (hcond q) (by decide)
    exact r_op1 .zew hat h15 hmat rfl rfl rfl rfl rfl
  · obtain rfl : _ = i := Option.some.inj (show some (.op1 .seb : Ins22) = some i from hi)
    have h15 : code.toNat / 2 ^ 28 ≠ 15 := fun q => absurd (hcond q) (by decide)
    exact r_op1 .seb hat h15 hmat rfl rfl rfl rfl rfl
  · obtain rfl : _ = i := Option.some.inj (show some (.op1 .sew : Ins22) = some i from hi)
    have h15 : code.toNat / 2 ^ 28 ≠ 15 := fun q => absurd (hcond q) (by decide)
    exact r_op1 .sew hat h15 hmat rfl rfl rfl rfl rfl
  · obtain rfl : _ = i := Option.some.inj (show some (.op1 .not : Ins22) = some i from hi)
    have h15 : code.toNat / 2 ^ 28 ≠ 15 := fun q => absurd (hcond q) (by decide)
    exact r_op1 .not hat h15 hmat rfl rfl rfl rfl rfl
  · obtain rfl : _ = i := Option.some.inj (show some (.op1 .neg : Ins22) = some i from hi)
    have h15 : code.toNat / 2 ^ 28 ≠ 15 := fun q => absurd (hcond q) (by decide)
    exact r_op1 .neg hat h15 hmat rfl rfl rfl rfl rfl
  · obtain rfl : _ = i := Option.some.inj (show some (.op1 .ror : Ins22) = some i from hi)
    have h15 : code.toNat / 2 ^ 28 ≠ 15 := fun q => absurd (hcond q) (by decide)
    exact r_op1 .ror hat h15 hmat rfl rfl rfl rfl rfl
  · obtain rfl : _ = i := Option.some.inj (show some (.op1 .rol : Ins22) = some i from hi)
    have h15 : code.toNat / 2 ^ 28 ≠ 15 := fun q => absurd (hcond q) (by decide)
    exact r_op1 .rol hat h15 hmat rfl rfl rfl rfl rfl
  · obtain rfl : _ = i := Option.some.inj (show some (.op1 .shl : Ins22) = some i from hi)
    have h15 : code.toNat / 2 ^ 28 ≠ 15 := fun q => absurd (hcond q) (by decide)
    exact r_op1 .shl hat h15 hmat rfl rfl rfl rfl rfl
  · obtain rfl : _ = i := Option.some.inj (show some (.op1 .shr : Ins22) = some i from hi)
    have h15 : code.toNat / 2 ^ 28 ≠ 15 := fun q => absurd (hcond q) (by decide)
    exact r_op1 .shr hat h15 hmat rfl rfl rfl rfl rfl
  · obtain rfl : _ = i := Option.some.inj (show some (.op1 .sha : Ins22) = some i from hi)
    have h15 : code.toNat / 2 ^ 28 ≠ 15 := fun q => absurd (hcond q) (by decide)
    exact r_op1 .sha hat h15 hmat rfl rfl rfl rfl rfl
  · obtain rfl : _ = i := Option.some.inj (show some (.op1 .sz : Ins22) = some i from hi)
    have h15 : code.toNat / 2 ^ 28 ≠ 15 := fun q => absurd (hcond q) (by decide)
    exact r_op1 .sz hat h15 hmat rfl rfl rfl rfl rfl
  · obtain rfl : _ = i := Option.some.inj (show some (.op1 .sec : Ins22) = some i from hi)
    have h15 : code.toNat / 2 ^ 28 ≠ 15 := fun q => absurd (hcond q) (by decide)
    exact r_op1 .sec hat h15 hmat rfl rfl rfl rfl rfl
  · obtain rfl : _ = i := Option.some.inj (show some (.op1 .clc : Ins22) = some i from hi)
    have h15 : code.toNat / 2 ^ 28 ≠ 15 := fun q => absurd (hcond q) (by decide)
    exact r_op1 .clc hat h15 hmat rfl rfl rfl rfl rfl
  · obtain rfl : _ = i := Option.some.inj (show some (.getf : Ins22) = some i from hi)
    have h15 : code.toNat / 2 ^ 28 ≠ 15 := fun q => absurd (hcond q) (by decide)
    have f25 : code.toNat / 2 ^ 25 % 2 ^ 3 = 1 := field_of hmat 25 3 rfl
    have f16 : code.toNat / 2 ^ 16 % 2 ^ 4 = 14 := field_of hmat 16 4 rfl
    refine right22_of hat rfl h15 (fun cc hcc hc => ?_)
    exact getf_of ver s code cc hcc hat hc f25 f16
  · obtain rfl : _ = i := Option.some.inj (show some (.setf : Ins22) = some i from hi)
    have h15 : code.toNat / 2 ^ 28 ≠ 15 := fun q => absurd (hcond q) (by decide)
    have f25 : code.toNat / 2 ^ 25 % 2 ^ 3 = 1 := field_of hmat 25 3 rfl
    have f16 : code.toNat / 2 ^ 16 % 2 ^ 4 = 15 := field_of hmat 16 4 rfl
    refine right22_of hat rfl h15 (fun cc hcc hc => ?_)
    exact setf_of ver s code cc hcc hat hc f25 f16
  · obtain rfl : _ = i := Option.some.inj (show some (.mov : Ins22) = some i from hi)
    have h15 : code.toNat / 2 ^ 28 ≠ 15 := fun q => absurd (hcond q) (by decide)
    have f24 : code.toNat / 2 ^ 24 % 2 ^ 4 = 0 := field_of hmat 24 4 rfl
    have f16 : code.toNat / 2 ^ 16 % 2 ^ 4 = 0 := field_of hmat 16 4 rfl
    refine right22_of hat rfl h15 (fun cc hcc hc => ?_)
    have h := exec22_mov ver s code cc (reg code 20) (enc22_reg hcc f24 f16) hat hc
    exact ⟨h.1, h.2.1⟩
  · exact absurd (show none = some i from hi) (fun h => nomatch h)
  · obtain rfl : _ = i := Option.some.inj (show some (.op2 .add false : Ins22) = some i from hi)
    have h15 : code.toNat / 2 ^ 28 ≠ 15 := fun q => absurd (hcond q) (by decide)
    exact r_op2r .add hat h15 (by decide) hmat rfl rfl rfl rfl rfl
  · obtain rfl : _ = i := Option.some.inj (show some (.op2 .adc false : Ins22) = some i from hi)
    have h15 : code.toNat / 2 ^ 28 ≠ 15 := fun q => absurd (hcond q) (by decide)
    exact r_op2r .adc hat h15 (by decide) hmat rfl rfl rfl rfl rfl
  · obtain rfl : _ = i := Option.some.inj (show some (.op2 .sub false : Ins22) = some i from hi)
    have h15 : code.toNat / 2 ^ 28 ≠ 15 := fun q => absurd (hcond q) (by decide)
    exact r_op2r .sub hat h15 (by decide) hmat rfl rfl rfl rfl rfl
  · obtain rfl : _ = i := Option.some.inj (show some (.op2 .sbb false : Ins22) = some i from hi)
    have h15 : code.toNat / 2 ^ 28 ≠ 15 := fun q => absurd (hcond q) (by decide)
    exact r_op2r .sbb hat h15 (by decide) hmat rfl rfl rfl rfl rfl
  · obtain rfl : _ = i := Option.some.inj (show some (.op2 .cmp false : Ins22) = some i from hi)
    have h15 : code.toNat / 2 ^ 28 ≠ 15 := fun q => absurd (hcond q) (by decide)
    exact r_op2r .cmp hat h15 (by decide) hmat rfl rfl rfl rfl rfl
  · obtain rfl : _ = i := Option.some.inj (show some (.op2 .mul false : Ins22) = some i from hi)
    have h15 : code.toNat / 2 ^ 28 ≠ 15 := fun q => absurd (hcond q) (by decide)
    exact r_op2r .mul hat h15 (by decide) hmat rfl rfl rfl rfl rfl
  · obtain rfl : _ = i := Option.some.inj (show some (.op2 .plus false : Ins22) = some i from hi)
    have h15 : code.toNat / 2 ^ 28 ≠ 15 := fun q => absurd (hcond q) (by decide)
    exact r_op2r .plus hat h15 (by decide) hmat rfl rfl rfl rfl rfl
  · obtain rfl : _ = i := Option.some.inj (show some (.op2 .btst false : Ins22) = some i from hi)
    exact absurd rfl (hbt _)
  · obtain rfl : _ = i := Option.some.inj (show some (.op2 .test false : Ins22) = some i from hi)
    have h15 : code.toNat / 2 ^ 28 ≠ 15 := fun q => absurd (hcond q) (by decide)
    exact r_op2r .test hat h15 (by decide) hmat rfl rfl rfl rfl rfl
  · exact absurd (show none = some i from hi) (fun h => nomatch h)
  · obtain rfl : _ = i := Option.some.inj (show some (.op2 .xor false : Ins22) = some i from hi)
    have h15 : code.toNat / 2 ^ 28 ≠ 15 := fun q => absurd (hcond q) (by decide)
    exact r_op2r .xor hat h15 (by decide) hmat rfl rfl rfl rfl rfl
  · obtain rfl : _ = i := Option.some.inj (show some (.op2 .and false : Ins22) = some i from hi)
    have h15 : code.toNat / 2 ^ 28 ≠ 15 := fun q => absurd (hcond q) (by decide)
    exact r_op2r .and hat h15 (by decide) hmat rfl rfl rfl rfl rfl
  · obtain rfl : _ = i := Option.some.inj (show some (.mvl : Ins22) = some i from hi)
    have h15 : code.toNat / 2 ^ 28 ≠ 15 := fun q => absurd (hcond q) (by decide)
    have f24 : code.toNat / 2 ^ 24 % 2 ^ 4 = 1 := field_of hmat 24 4 rfl
    have f16 : code.toNat / 2 ^ 16 % 2 ^ 4 = 0 := field_of hmat 16 4 rfl
    refine right22_of hat rfl h15 (fun cc hcc hc => ?_)
    have h := exec22_mvi ver s code cc (reg code 20) (code.setWidth 16) 0 (enc22_reg hcc f24 f16) (imm_eq code) (by decide) hat hc
    exact ⟨h.1, h.2.1⟩
  · obtain rfl : _ = i := Option.some.inj (show some (.mvh : Ins22) = some i from hi)
    have h15 : code.toNat / 2 ^ 28 ≠ 15 := fun q => absurd (hcond q) (by decide)
    have f24 : code.toNat / 2 ^ 24 % 2 ^ 4 = 1 := field_of hmat 24 4 rfl
    have f16 : code.toNat / 2 ^ 16 % 2 ^ 4 = 1 := field_of hmat 16 4 rfl
    refine right22_of hat rfl h15 (fun cc hcc hc => ?_)
    have h := exec22_mvi ver s code cc (reg code 20) (code.setWidth 16) 1 (enc22_reg hcc f24 f16) (imm_eq code) (by decide) hat hc
    exact ⟨h.1, h.2.1⟩
  · obtain rfl : _ = i := Option.some.inj (show some (.mvzl : Ins22) = some i from hi)
    have h15 : code.toNat / 2 ^ 28 ≠ 15 := fun q => absurd (hcond q) (by decide)
    have f24 : code.toNat / 2 ^ 24 % 2 ^ 4 = 1 := field_of hmat 24 4 rfl
    have f16 : code.toNat / 2 ^ 16 % 2 ^ 4 = 2 := field_of hmat 16 4 rfl
    refine right22_of hat rfl h15 (fun cc hcc hc => ?_)
    have h := exec22_mvi ver s code cc (reg code 20) (code.setWidth 16) 2 (enc22_reg hcc f24 f16) (imm_eq code) (by decide) hat hc
    exact ⟨h.1, h.2.1⟩
  · obtain rfl : _ = i := Option.some.inj (show some (.mvs : Ins22) = some i from hi)
    have h15 : code.toNat / 2 ^ 28 ≠ 15 := fun q => absurd (hcond q) (by decide)
    have f24 : code.toNat / 2 ^ 24 % 2 ^ 4 = 1 := field_of hmat 24 4 rfl
    have f16 : code.toNat / 2 ^ 16 % 2 ^ 4 = 3 := field_of hmat 16 4 rfl
    refine right22_of hat rfl h15 (fun cc hcc hc => ?_)
    have h := exec22_mvi ver s code cc (reg code 20) (code.setWidth 16) 3 (enc22_reg hcc f24 f16) (imm_eq code) (by decide) hat hc
    exact ⟨h.1, h.2.1⟩
  · obtain rfl : _ = i := Option.some.inj (show some (.op2 .add true : Ins22) = some i from hi)
    have h15 : code.toNat / 2 ^ 28 ≠ 15 := fun q => absurd (hcond q) (by decide)
    exact r_op2i .add hat h15 (by decide) hmat rfl rfl rfl rfl rfl
  · obtain rfl : _ = i := Option.some.inj (show some (.op2 .adc true : Ins22) = some i from hi)
    have h15 : code.toNat / 2 ^ 28 ≠ 15 := fun q => absurd (hcond q) (by decide)
    exact r_op2i .adc hat h15 (by decide) hmat rfl rfl rfl rfl rfl
  · obtain rfl : _ = i := Option.some.inj (show some (.op2 .sub true : Ins22) = some i from hi)
    have h15 : code.toNat / 2 ^ 28 ≠ 15 := fun q => absurd (hcond q) (by decide)
    exact r_op2i .sub hat h15 (by decide) hmat rfl rfl rfl rfl rfl
  · obtain rfl : _ = i := Option.some.inj (show some (.op2 .sbb true : Ins22) = some i from hi)
    have h15 : code.toNat / 2 ^ 28 ≠ 15 := fun q => absurd (hcond q) (by decide)
    exact r_op2i .sbb hat h15 (by decide) hmat rfl rfl rfl rfl rfl
  · obtain rfl : _ = i := Option.some.inj (show some (.op2 .cmp true : Ins22) = some i from hi)
    have h15 : code.toNat / 2 ^ 28 ≠ 15 := fun q => absurd (hcond q) (by decide)
    exact r_op2i .cmp hat h15 (by decide) hmat rfl rfl rfl rfl rfl
  · obtain rfl : _ = i := Option.some.inj (show some (.op2 .mul true : Ins22) = some i from hi)
    have h15 : code.toNat / 2 ^ 28 ≠ 15 := fun q => absurd (hcond q) (by decide)
    exact r_op2i .mul hat h15 (by decide) hmat rfl rfl rfl rfl rfl
  · obtain rfl : _ = i := Option.some.inj (show some (.op2 .plus true : Ins22) = some i from hi)
    have h15 : code.toNat / 2 ^ 28 ≠ 15 := fun q => absurd (hcond q) (by decide)
    exact r_op2i .plus hat h15 (by decide) hmat rfl rfl rfl rfl rfl
  · obtain rfl : _ = i := Option.some.inj (show some (.op2 .btst true : Ins22) = some i from hi)
    exact absurd rfl (hbt _)
  · obtain rfl : _ = i := Option.some.inj (show some (.op2 .test true : Ins22) = some i from hi)
    have h15 : code.toNat / 2 ^ 28 ≠ 15 := fun q => absurd (hcond q) (by decide)
    exact r_op2i .test hat h15 (by decide) hmat rfl rfl rfl rfl rfl
  · obtain rfl : _ = i := Option.some.inj (show some (.op2 .or true : Ins22) = some i from hi)
    have h15 : code.toNat / 2 ^ 28 ≠ 15 := fun q => absurd (hcond q) (by decide)
    exact r_op2i .or hat h15 (by decide) hmat rfl rfl rfl rfl rfl
  · obtain rfl : _ = i := Option.some.inj (show some (.op2 .xor true : Ins22) = some i from hi)
    have h15 : code.toNat / 2 ^ 28 ≠ 15 := fun q => absurd (hcond q) (by decide)
    exact r_op2i .xor hat h15 (by decide) hmat rfl rfl rfl rfl rfl
  · obtain rfl : _ = i := Option.some.inj (show some (.op2 .and true : Ins22) = some i from hi)
    have h15 : code.toNat / 2 ^ 28 ≠ 15 := fun q => absurd (hcond q) (by decide)
    exact r_op2i .and hat h15 (by decide) hmat rfl rfl rfl rfl rfl
  · obtain rfl : _ = i := Option.some.inj (show some (.mem false false .none : Ins22) = some i from hi)
    have h15 : code.toNat / 2 ^ 28 ≠ 15 := fun q => absurd (hcond q) (by decide)
    have f24 : code.toNat / 2 ^ 24 % 2 ^ 4 = 8 := field_of hmat 24 4 rfl
    refine right22_of hat rfl h15 (fun cc hcc hc => ?_)
    have b24 : code.getLsbD 24 = false := (by rw [bit_of]; exact decide_eq_false (by omega))
    have b25 : code.getLsbD 25 = false := (by rw [bit_of]; exact decide_eq_false (by omega))
    have b26 : code.getLsbD 26 = false := (by rw [bit_of]; exact decide_eq_false (by omega))
    have h := r_mem (ver := ver) false (Index.none.mode false s.F) (src s (reg code 8)) hcc (by omega) b25 (by unfold modeOf; simp only [b24, b26]; rfl) (fun h => absurd (show false = true from h) (by decide)) (by unfold offOf; rw [b26]; exact if_neg (by decide)) hat hc
    exact h
  · obtain rfl : _ = i := Option.some.inj (show some (.mem false false (.by false false) : Ins22) = some i from hi)
    have h15 : code.toNat / 2 ^ 28 ≠ 15 := fun q => absurd (hcond q) (by decide)
    have f24 : code.toNat / 2 ^ 24 % 2 ^ 4 = 9 := field_of hmat 24 4 rfl
    refine right22_of hat rfl h15 (fun cc hcc hc => ?_)
    have b24 : code.getLsbD 24 = true := (by rw [bit_of]; exact decide_eq_true (by omega))
    have b25 : code.getLsbD 25 = false := (by rw [bit_of]; exact decide_eq_false (by omega))
    have b26 : code.getLsbD 26 = false := (by rw [bit_of]; exact decide_eq_false (by omega))
    have f14 : code.toNat / 2 ^ 14 % 2 ^ 2 = 0 := field_of hmat 14 2 rfl
    have b15 : code.getLsbD 15 = false := (by rw [bit_of]; exact decide_eq_false (by omega))
    have b14 : code.getLsbD 14 = false := (by rw [bit_of]; exact decide_eq_false (by omega))
    have h := r_mem (ver := ver) false ((Index.by false false).mode false s.F) (src s (reg code 8)) hcc (by omega) b25 (by unfold modeOf; simp only [b24, b26]; rfl) (fun _ => by unfold modeOf; simp only [b24, b25, b26, b15, b14]; rfl) (by unfold offOf; rw [b26]; exact if_neg (by decide)) hat hc
    exact h
  · obtain rfl : _ = i := Option.some.inj (show some (.mem false false (.by false true) : Ins22) = some i from hi)
    have h15 : code.toNat / 2 ^ 28 ≠ 15 := fun q => absurd (hcond q) (by decide)
    have f24 : code.toNat / 2 ^ 24 % 2 ^ 4 = 9 := field_of hmat 24 4 rfl
    refine right22_of hat rfl h15 (fun cc hcc hc => ?_)
    have b24 : code.getLsbD 24 = true := (by rw [bit_of]; exact decide_eq_true (by omega))
    have b25 : code.getLsbD 25 = false := (by rw [bit_of]; exact decide_eq_false (by omega))
    have b26 : code.getLsbD 26 = false := (by rw [bit_of]; exact decide_eq_false (by omega))
    have f14 : code.toNat / 2 ^ 14 % 2 ^ 2 = 1 := field_of hmat 14 2 rfl
    have b15 : code.getLsbD 15 = false := (by rw [bit_of]; exact decide_eq_false (by omega))
    have b14 : code.getLsbD 14 = true := (by rw [bit_of]; exact decide_eq_true (by omega))
    have h := r_mem (ver := ver) false ((Index.by false true).mode false s.F) (src s (reg code 8)) hcc (by omega) b25 (by unfold modeOf; simp only [b24, b26]; rfl) (fun _ => by unfold modeOf; simp only [b24, b25, b26, b15, b14]; rfl) (by unfold offOf; rw [b26]; exact if_neg (by decide)) hat hc
    exact h
  · obtain rfl : _ = i := Option.some.inj (show some (.mem false false (.by true false) : Ins22) = some i from hi)
    have h15 : code.toNat / 2 ^ 28 ≠ 15 := fun q => absurd (hcond q) (by decide)
    have f24 : code.toNat / 2 ^ 24 % 2 ^ 4 = 9 := field_of hmat 24 4 rfl
    refine right22_of hat rfl h15 (fun cc hcc hc => ?_)
    have b24 : code.getLsbD 24 = true := (by rw [bit_of]; exact decide_eq_true (by omega))
    have b25 : code.getLsbD 25 = false := (by rw [bit_of]; exact decide_eq_false (by omega))
    have b26 : code.getLsbD 26 = false := (by rw [bit_of]; exact decide_eq_false (by omega))
    have f14 : code.toNat / 2 ^ 14 % 2 ^ 2 = 2 := field_of hmat 14 2 rfl
    have b15 : code.getLsbD 15 = true := (by rw [bit_of]; exact decide_eq_true (by omega))
    have b14 : code.getLsbD 14 = false := (by rw [bit_of]; exact decide_eq_false (by omega))
    have h := r_mem (ver := ver) false ((Index.by true false).mode false s.F) (src s (reg code 8)) hcc (by omega) b25 (by unfold modeOf; simp only [b24, b26]; rfl) (fun _ => by unfold modeOf; simp only [b24, b25, b26, b15, b14]; rfl) (by unfold offOf; rw [b26]; exact if_neg (by decide)) hat hc
    exact h
  · obtain rfl : _ = i := Option.some.inj (show some (.mem false false (.by true true) : Ins22) = some i from hi)
    have h15 : code.toNat / 2 ^ 28 ≠ 15 := fun q => absurd (hcond q) (by decide)
    have f24 : code.toNat / 2 ^ 24 % 2 ^ 4 = 9 := field_of hmat 24 4 rfl
    refine right22_of hat rfl h15 (fun cc hcc hc => ?_)
    have b24 : code.getLsbD 24 = true := (by rw [bit_of]; exact decide_eq_true (by omega))
    have b25 : code.getLsbD 25 = false := (by rw [bit_of]; exact decide_eq_false (by omega))
    have b26 : code.getLsbD 26 = false := (by rw [bit_of]; exact decide_eq_false (by omega))
    have f14 : code.toNat / 2 ^ 14 % 2 ^ 2 = 3 := field_of hmat 14 2 rfl
    have b15 : code.getLsbD 15 = true := (by rw [bit_of]; exact decide_eq_true (by omega))
    have b14 : code.getLsbD 14 = true := (by rw [bit_of]; exact decide_eq_true (by omega))
    have h := r_mem (ver := ver) false ((Index.by true true).mode false s.F) (src s (reg code 8)) hcc (by omega) b25 (by unfold modeOf; simp only [b24, b26]; rfl) (fun _ => by unfold modeOf; simp only [b24, b25, b26, b15, b14]; rfl) (by unfold offOf; rw [b26]; exact if_neg (by decide)) hat hc
    exact h
  · obtain rfl : _ = i := Option.some.inj (show some (.mem true false .none : Ins22) = some i from hi)
    have h15 : code.toNat / 2 ^ 28 ≠ 15 := fun q => absurd (hcond q) (by decide)
    have f24 : code.toNat / 2 ^ 24 % 2 ^ 4 = 10 := field_of hmat 24 4 rfl
    refine right22_of hat rfl h15 (fun cc hcc hc => ?_)
    have b24 : code.getLsbD 24 = false := (by rw [bit_of]; exact decide_eq_false (by omega))
    have b25 : code.getLsbD 25 = true := (by rw [bit_of]; exact decide_eq_true (by omega))
    have b26 : code.getLsbD 26 = false := (by rw [bit_of]; exact decide_eq_false (by omega))
    have h := r_mem (ver := ver) true (Index.none.mode true s.F) (src s (reg code 8)) hcc (by omega) b25 (by unfold modeOf; simp only [b24, b26]; rfl) (fun h => absurd (show false = true from h) (by decide)) (by unfold offOf; rw [b26]; exact if_neg (by decide)) hat hc
    exact h
  · obtain rfl : _ = i := Option.some.inj (show some (.mem true false (.by false false) : Ins22) = some i from hi)
    have h15 : code.toNat / 2 ^ 28 ≠ 15 := fun q => absurd (hcond q) (by decide)
    have f24 : code.toNat / 2 ^ 24 % 2 ^ 4 = 11 := field_of hmat 24 4 rfl
    refine right22_of hat rfl h15 (fun cc hcc hc => ?_)
    have b24 : code.getLsbD 24 = true := (by rw [bit_of]; exact decide_eq_true (by omega))
    have b25 : code.getLsbD 25 = true := (by rw [bit_of]; exact decide_eq_true (by omega))
    have b26 : code.getLsbD 26 = false := (by rw [bit_of]; exact decide_eq_false (by omega))
    have f14 : code.toNat / 2 ^ 14 % 2 ^ 2 = 0 := field_of hmat 14 2 rfl
    have b15 : code.getLsbD 15 = false := (by rw [bit_of]; exact decide_eq_false (by omega))
    have b14 : code.getLsbD 14 = false := (by rw [bit_of]; exact decide_eq_false (by omega))
    have h := r_mem (ver := ver) true ((Index.by false false).mode true s.F) (src s (reg code 8)) hcc (by omega) b25 (by unfold modeOf; simp only [b24, b26]; rfl) (fun _ => by unfold modeOf; simp only [b24, b25, b26, b15, b14]; rfl) (by unfold offOf; rw [b26]; exact if_neg (by decide)) hat hc
    exact h
  · obtain rfl : _ = i := Option.some.inj (show some (.mem true false (.by false true) : Ins22) = some i from hi)
    have h15 : code.toNat / 2 ^ 28 ≠ 15 := fun q => absurd (hcond q) (by decide)
    have f24 : code.toNat / 2 ^ 24 % 2 ^ 4 = 11 := field_of hmat 24 4 rfl
    refine right22_of hat rfl h15 (fun cc hcc hc => ?_)
    have b24 : code.getLsbD 24 = true := (by rw [bit_of]; exact decide_eq_true (by omega))
    have b25 : code.getLsbD 25 = true := (by rw [bit_of]; exact decide_eq_true (by omega))
    have b26 : code.getLsbD 26 = false := (by rw [bit_of]; exact decide_eq_false (by omega))
    have f14 : code.toNat / 2 ^ 14 % 2 ^ 2 = 1 := field_of hmat 14 2 rfl
    have b15 : code.getLsbD 15 = false := (by rw [bit_of]; exact decide_eq_false (by omega))
    have b14 : code.getLsbD 14 = true := (by rw [bit_of]; exact decide_eq_true (by omega))
    have h := r_mem (ver := ver) true ((Index.by false true).mode true s.F) (src s (reg code 8)) hcc (by omega) b25 (by unfold modeOf; simp only [b24, b26]; rfl) (fun _ => by unfold modeOf; simp only [b24, b25, b26, b15, b14]; rfl) (by unfold offOf; rw [b26]; exact if_neg (by decide)) hat hc
    exact h
  · obtain rfl : _ = i := Option.some.inj (show some (.mem true false (.by true false) : Ins22) = some i from hi)
    have h15 : code.toNat / 2 ^ 28 ≠ 15 := fun q => absurd (hcond q) (by decide)
    have f24 : code.toNat / 2 ^ 24 % 2 ^ 4 = 11 := field_of hmat 24 4 rfl
    refine right22_of hat rfl h15 (fun cc hcc hc => ?_)
    have b24 : code.getLsbD 24 = true := (by rw [bit_of]; exact decide_eq_true (by omega))
    have b25 : code.getLsbD 25 = true := (by rw [bit_of]; exact decide_eq_true (by omega))
    have b26 : code.getLsbD 26 = false := (by rw [bit_of]; exact decide_eq_false (by omega))
    have f14 : code.toNat / 2 ^ 14 % 2 ^ 2 = 2 := field_of hmat 14 2 rfl
    have b15 : code.getLsbD 15 = true := (by rw [bit_of]; exact decide_eq_true (by omega))
    have b14 : code.getLsbD 14 = false := (by rw [bit_of]; exact decide_eq_false (by omega))
    have h := r_mem (ver := ver) true ((Index.by true false).mode true s.F) (src s (reg code 8)) hcc (by omega) b25 (by unfold modeOf; simp only [b24, b26]; rfl) (fun _ => by unfold modeOf; simp only [b24, b25, b26, b15, b14]; rfl) (by unfold offOf; rw [b26]; exact if_neg (by decide)) hat hc
    exact h
  · obtain rfl : _ = i := Option.some.inj (show some (.mem true false (.by true true) : Ins22) = some i from hi)
    have h15 : code.toNat / 2 ^ 28 ≠ 15 := fun q => absurd (hcond q) (by decide)
    have f24 : code.toNat / 2 ^ 24 % 2 ^ 4 = 11 := field_of hmat 24 4 rfl
    refine right22_of hat rfl h15 (fun cc hcc hc => ?_)
    have b24 : code.getLsbD 24 = true := (by rw [bit_of]; exact decide_eq_true (by omega))
    have b25 : code.getLsbD 25 = true := (by rw [bit_of]; exact decide_eq_true (by omega))
    have b26 : code.getLsbD 26 = false := (by rw [bit_of]; exact decide_eq_false (by omega))
    have f14 : code.toNat / 2 ^ 14 % 2 ^ 2 = 3 := field_of hmat 14 2 rfl
    have b15 : code.getLsbD 15 = true := (by rw [bit_of]; exact decide_eq_true (by omega))
    have b14 : code.getLsbD 14 = true := (by rw [bit_of]; exact decide_eq_true (by omega))
    have h := r_mem (ver := ver) true ((Index.by true true).mode true s.F) (src s (reg code 8)) hcc (by omega) b25 (by unfold modeOf; simp only [b24, b26]; rfl) (fun _ => by unfold modeOf; simp only [b24, b25, b26, b15, b14]; rfl) (by unfold offOf; rw [b26]; exact if_neg (by decide)) hat hc
    exact h
  · obtain rfl : _ = i := Option.some.inj (show some (.mem false true .none : Ins22) = some i from hi)
    have h15 : code.toNat / 2 ^ 28 ≠ 15 := fun q => absurd (hcond q) (by decide)
    have f24 : code.toNat / 2 ^ 24 % 2 ^ 4 = 12 := field_of hmat 24 4 rfl
    refine right22_of hat rfl h15 (fun cc hcc hc => ?_)
    have b24 : code.getLsbD 24 = false := (by rw [bit_of]; exact decide_eq_false (by omega))
    have b25 : code.getLsbD 25 = false := (by rw [bit_of]; exact decide_eq_false (by omega))
    have b26 : code.getLsbD 26 = true := (by rw [bit_of]; exact decide_eq_true (by omega))
    have h := r_mem (ver := ver) false (Index.none.mode false s.F) ((code.setWidth 16).signExtend 32) hcc (by omega) b25 (by unfold modeOf; simp only [b24, b26]; rfl) (fun h => absurd (show false = true from h) (by decide)) (by unfold offOf; rw [b26]; exact if_pos rfl) hat hc
    exact h
  · obtain rfl : _ = i := Option.some.inj (show some (.mem false true .flags : Ins22) = some i from hi)
    have h15 : code.toNat / 2 ^ 28 ≠ 15 := fun q => absurd (hcond q) (by decide)
    have f24 : code.toNat / 2 ^ 24 % 2 ^ 4 = 13 := field_of hmat 24 4 rfl
    refine right22_of hat rfl h15 (fun cc hcc hc => ?_)
    have b24 : code.getLsbD 24 = true := (by rw [bit_of]; exact decide_eq_true (by omega))
    have b25 : code.getLsbD 25 = false := (by rw [bit_of]; exact decide_eq_false (by omega))
    have b26 : code.getLsbD 26 = true := (by rw [bit_of]; exact decide_eq_true (by omega))
    have h := r_mem (ver := ver) false (Index.flags.mode false s.F) ((code.setWidth 16).signExtend 32) hcc (by omega) b25 (by unfold modeOf; simp only [b24, b26]; rfl) (fun _ => by unfold modeOf; simp only [b24, b25, b26]; rfl) (by unfold offOf; rw [b26]; exact if_pos rfl) hat hc
    exact h
  · obtain rfl : _ = i := Option.some.inj (show some (.mem true true .none : Ins22) = some i from hi)
    have h15 : code.toNat / 2 ^ 28 ≠ 15 := fun q => absurd (hcond q) (by decide)
    have f24 : code.toNat / 2 ^ 24 % 2 ^ 4 = 14 := field_of hmat 24 4 rfl
    refine right22_of hat rfl h15 (fun cc hcc hc => ?_)
    have b24 : code.getLsbD 24 = false := (by rw [bit_of]; exact decide_eq_false (by omega))
    have b25 : code.getLsbD 25 = true := (by rw [bit_of]; exact decide_eq_true (by omega))
    have b26 : code.getLsbD 26 = true := (by rw [bit_of]; exact decide_eq_true (by omega))
    have h := r_mem (ver := ver) true (Index.none.mode true s.F) ((code.setWidth 16).signExtend 32) hcc (by omega) b25 (by unfold modeOf; simp only [b24, b26]; rfl) (fun h => absurd (show false = true from h) (by decide)) (by unfold offOf; rw [b26]; exact if_pos rfl) hat hc
    exact h
  · obtain rfl : _ = i := Option.some.inj (show some (.mem true true .flags : Ins22) = some i from hi)
    have h15 : code.toNat / 2 ^ 28 ≠ 15 := fun q => absurd (hcond q) (by decide)
    have f24 : code.toNat / 2 ^ 24 % 2 ^ 4 = 15 := field_of hmat 24 4 rfl
    refine right22_of hat rfl h15 (fun cc hcc hc => ?_)
    have b24 : code.getLsbD 24 = true := (by rw [bit_of]; exact decide_eq_true (by omega))
    have b25 : code.getLsbD 25 = true := (by rw [bit_of]; exact decide_eq_true (by omega))
    have b26 : code.getLsbD 26 = true := (by rw [bit_of]; exact decide_eq_true (by omega))
    have h := r_mem (ver := ver) true (Index.flags.mode true s.F) ((code.setWidth 16).signExtend 32) hcc (by omega) b25 (by unfold modeOf; simp only [b24, b26]; rfl) (fun _ => by unfold modeOf; simp only [b24, b25, b26]; rfl) (by unfold offOf; rw [b26]; exact if_pos rfl) hat hc
    exact h
  · obtain rfl : _ = i := Option.some.inj (show some (.std : Ins22) = some i from hi)
    have h15 : code.toNat / 2 ^ 28 ≠ 15 := fun q => absurd (hcond q) (by decide)
    have f24 : code.toNat / 2 ^ 24 % 2 ^ 4 = 6 := field_of hmat 24 4 rfl
    have f16 : code.toNat / 2 ^ 16 % 2 ^ 4 = 0 := field_of hmat 16 4 rfl
    refine right22_of hat rfl h15 (fun cc hcc hc => ?_)
    have h := exec22_std ver s code cc (reg code 20) (code.setWidth 16) (enc22_reg hcc f24 f16) (imm_eq code) hat hc
    exact h.1
  · obtain rfl : _ = i := Option.some.inj (show some (.ldd : Ins22) = some i from hi)
    have h15 : code.toNat / 2 ^ 28 ≠ 15 := fun q => absurd (hcond q) (by decide)
    have f24 : code.toNat / 2 ^ 24 % 2 ^ 4 = 7 := field_of hmat 24 4 rfl
    have f16 : code.toNat / 2 ^ 16 % 2 ^ 4 = 0 := field_of hmat 16 4 rfl
    refine right22_of hat rfl h15 (fun cc hcc hc => ?_)
    have h := exec22_ldd ver s code cc (reg code 20) (code.setWidth 16) (enc22_reg hcc f24 f16) (imm_eq code) hat hc
    exact ⟨h.1, h.2.1⟩
  · obtain rfl : _ = i := Option.some.inj (show some (.getb (some false) : Ins22) = some i from hi)
    have h15 : code.toNat / 2 ^ 28 ≠ 15 := fun q => absurd (hcond q) (by decide)
    have f24 : code.toNat / 2 ^ 24 % 2 ^ 4 = 6 := field_of hmat 24 4 rfl
    have f16 : code.toNat / 2 ^ 16 % 2 ^ 4 = 1 := field_of hmat 16 4 rfl
    have f14 : code.toNat / 2 ^ 14 % 2 ^ 1 = 1 := field_of hmat 14 1 rfl
    have f13 : code.toNat / 2 ^ 13 % 2 ^ 1 = 0 := field_of hmat 13 1 rfl
    refine right22_of hat rfl h15 (fun cc hcc hc => ?_)
    have h := exec22_getb ver s code cc (reg code 20) (reg code 8) (enc22_reg hcc f24 f16) rfl hat hc
    rw [if_pos (by rw [bit_of, decide_eq_true_eq]; omega), if_neg (by rw [bit_of, decide_eq_true_eq]; omega)] at h
    exact ⟨h.1, h.2.1⟩
  · obtain rfl : _ = i := Option.some.inj (show some (.getb (some false) : Ins22) = some i from hi)
    have h15 : code.toNat / 2 ^ 28 ≠ 15 := fun q => absurd (hcond q) (by decide)
    have f24 : code.toNat / 2 ^ 24 % 2 ^ 4 = 6 := field_of hmat 24 4 rfl
    have f16 : code.toNat / 2 ^ 16 % 2 ^ 4 = 1 := field_of hmat 16 4 rfl
    have f14 : code.toNat / 2 ^ 14 % 2 ^ 1 = 1 := field_of hmat 14 1 rfl
    have f13 : code.toNat / 2 ^ 13 % 2 ^ 1 = 0 := field_of hmat 13 1 rfl
    refine right22_of hat rfl h15 (fun cc hcc hc => ?_)
    have h := exec22_getb ver s code cc (reg code 20) (reg code 8) (enc22_reg hcc f24 f16) rfl hat hc
    rw [if_pos (by rw [bit_of, decide_eq_true_eq]; omega), if_neg (by rw [bit_of, decide_eq_true_eq]; omega)] at h
    exact ⟨h.1, h.2.1⟩
  · obtain rfl : _ = i := Option.some.inj (show some (.getb (some true) : Ins22) = some i from hi)
    have h15 : code.toNat / 2 ^ 28 ≠ 15 := fun q => absurd (hcond q) (by decide)
    have f24 : code.toNat / 2 ^ 24 % 2 ^ 4 = 6 := field_of hmat 24 4 rfl
    have f16 : code.toNat / 2 ^ 16 % 2 ^ 4 = 1 := field_of hmat 16 4 rfl
    have f14 : code.toNat / 2 ^ 14 % 2 ^ 1 = 1 := field_of hmat 14 1 rfl
    have f13 : code.toNat / 2 ^ 13 % 2 ^ 1 = 1 := field_of hmat 13 1 rfl
    refine right22_of hat rfl h15 (fun cc hcc hc => ?_)
    have h := exec22_getb ver s code cc (reg code 20) (reg code 8) (enc22_reg hcc f24 f16) rfl hat hc
    rw [if_pos (by rw [bit_of, decide_eq_true_eq]; omega), if_pos (by rw [bit_of, decide_eq_true_eq]; omega)] at h
    exact ⟨h.1, h.2.1⟩
  · obtain rfl : _ = i := Option.some.inj (show some (.getb (some true) : Ins22) = some i from hi)
    have h15 : code.toNat / 2 ^ 28 ≠ 15 := fun q => absurd (hcond q) (by decide)
    have f24 : code.toNat / 2 ^ 24 % 2 ^ 4 = 6 := field_of hmat 24 4 rfl
    have f16 : code.toNat / 2 ^ 16 % 2 ^ 4 = 1 := field_of hmat 16 4 rfl
    have f14 : code.toNat / 2 ^ 14 % 2 ^ 1 = 1 := field_of hmat 14 1 rfl
    have f13 : code.toNat / 2 ^ 13 % 2 ^ 1 = 1 := field_of hmat 13 1 rfl
    refine right22_of hat rfl h15 (fun cc hcc hc => ?_)
    have h := exec22_getb ver s code cc (reg code 20) (reg code 8) (enc22_reg hcc f24 f16) rfl hat hc
    rw [if_pos (by rw [bit_of, decide_eq_true_eq]; omega), if_pos (by rw [bit_of, decide_eq_true_eq]; omega)] at h
    exact ⟨h.1, h.2.1⟩
  · obtain rfl : _ = i := Option.some.inj (show some (.getb none : Ins22) = some i from hi)
    have h15 : code.toNat / 2 ^ 28 ≠ 15 := fun q => absurd (hcond q) (by decide)
    have f24 : code.toNat / 2 ^ 24 % 2 ^ 4 = 6 := field_of hmat 24 4 rfl
    have f16 : code.toNat / 2 ^ 16 % 2 ^ 4 = 1 := field_of hmat 16 4 rfl
    have f14 : code.toNat / 2 ^ 14 % 2 ^ 1 = 0 := field_of hmat 14 1 rfl
    refine right22_of hat rfl h15 (fun cc hcc hc => ?_)
    have h := exec22_getb ver s code cc (reg code 20) (reg code 8) (enc22_reg hcc f24 f16) rfl hat hc
    rw [if_neg (by rw [bit_of, decide_eq_true_eq]; omega)] at h
    exact ⟨h.1, h.2.1⟩
  · obtain rfl : _ = i := Option.some.inj (show some (.getb none : Ins22) = some i from hi)
    have h15 : code.toNat / 2 ^ 28 ≠ 15 := fun q => absurd (hcond q) (by decide)
    have f24 : code.toNat / 2 ^ 24 % 2 ^ 4 = 6 := field_of hmat 24 4 rfl
    have f16 : code.toNat / 2 ^ 16 % 2 ^ 4 = 1 := field_of hmat 16 4 rfl
    have f14 : code.toNat / 2 ^ 14 % 2 ^ 1 = 0 := field_of hmat 14 1 rfl
    refine right22_of hat rfl h15 (fun cc hcc hc => ?_)
    have h := exec22_getb ver s code cc (reg code 20) (reg code 8) (enc22_reg hcc f24 f16) rfl hat hc
    rw [if_neg (by rw [bit_of, decide_eq_true_eq]; omega)] at h
    exact ⟨h.1, h.2.1⟩
  · obtain rfl : _ = i := Option.some.inj (show some (.putb : Ins22) = some i from hi)
    have h15 : code.toNat / 2 ^ 28 ≠ 15 := fun q => absurd (hcond q) (by decide)
    have f24 : code.toNat / 2 ^ 24 % 2 ^ 4 = 7 := field_of hmat 24 4 rfl
    have f16 : code.toNat / 2 ^ 16 % 2 ^ 4 = 1 := field_of hmat 16 4 rfl
    refine right22_of hat rfl h15 (fun cc hcc hc => ?_)
    obtain ⟨v, h1, h2, _, h4⟩ := exec22_putb ver s code cc (reg code 20) (reg code 8) (enc22_reg hcc f24 f16) rfl hat hc
    exact ⟨v, h1, h2, h4⟩
  · obtain rfl : _ = i := Option.some.inj (show some (.putb : Ins22) = some i from hi)
    have h15 : code.toNat / 2 ^ 28 ≠ 15 := fun q => absurd (hcond q) (by decide)
    have f24 : code.toNat / 2 ^ 24 % 2 ^ 4 = 7 := field_of hmat 24 4 rfl
    have f16 : code.toNat / 2 ^ 16 % 2 ^ 4 = 1 := field_of hmat 16 4 rfl
    refine right22_of hat rfl h15 (fun cc hcc hc => ?_)
    obtain ⟨v, h1, h2, _, h4⟩ := exec22_putb ver s code cc (reg code 20) (reg code 8) (enc22_reg hcc f24 f16) rfl hat hc
    exact ⟨v, h1, h2, h4⟩
  · exact absurd (show none = some i from hi) (fun h => nomatch h)
  · exact absurd (show none = some i from hi) (fun h => nomatch h)

end Ucsim.P15
