import Verif.Spec.P15Dis
import Verif.Proof.P15Ext
/-
The disassembler of the P1516 and the execution.
-/
set_option linter.constructorNameAsVariable false
namespace Ucsim.P15
open Spec

theorem field_of {code m c : Wd} (h : code &&& m = c) (lo n : Nat) (hm : fld m lo n = BitVec.allOnes n) :
    code.toNat / 2 ^ lo % 2 ^ n = (fld c lo n).toNat := by
  rw [← fld_toNat, ← h]
  congr 1
  unfold fld at hm ⊢
  rw [BitVec.extractLsb'_and, hm]
  simp

theorem data_eq (code : Wd) : (code &&& 0xf0000000#32) >>> 28 = BitVec.ofNat 32 (code.toNat / 2 ^ 28) := by
  apply BitVec.eq_of_getLsbD_eq
  intro j hj
  have e : (0xf0000000#32) = 0xf#32 <<< 28 := rfl
  have e4 : ∀ j, (0xf#32).getLsbD j = decide (j < 4) := by
    intro j
    have e : (0xf#32) = (BitVec.allOnes 4).setWidth 32 := rfl
    rw [e, BitVec.getLsbD_setWidth, BitVec.getLsbD_allOnes]
    by_cases h : j < 4
    · simp [h]; omega
    · simp [h]
  rw [BitVec.getLsbD_ushiftRight, BitVec.getLsbD_and, e, BitVec.getLsbD_shiftLeft, e4, BitVec.getLsbD_ofNat, Nat.testBit_div_two_pow]
  have ec : code.getLsbD (28 + j) = code.toNat.testBit (j + 28) := by rw [BitVec.getLsbD, Nat.add_comm]
  rw [ec]
  by_cases h : j < 4
  · have h2 : 28 + j < 32 := by omega
    simp [h, h2, hj]
  · have h2 : ¬28 + j < 32 := by omega
    have h3 : code.toNat.testBit (j + 28) = false := by
      rw [← BitVec.getLsbD]; exact BitVec.getLsbD_of_ge _ _ (by omega)
    simp [h2, h3]

theorem shown_iff (f : Flags) (e : Entry) (code : Wd) (he : e.mac = false) : shown f (prefix15 e code) ↔ holds15 f code := by
  have hl := lt_wd code
  unfold prefix15 holds15
  rw [data_eq, he]
  have h28 : code.getLsbD 28 = decide (code.toNat / 2 ^ 28 % 2 = 1) := bit_of code 28
  have h29 : code.getLsbD 29 = decide (code.toNat / 2 ^ 28 / 2 % 2 = 1) := by rw [bit_of]; congr 1; apply propext; omega
  have h30 : code.getLsbD 30 = decide (code.toNat / 2 ^ 28 / 4 % 2 = 1) := by rw [bit_of]; congr 1; apply propext; omega
  have h31 : code.getLsbD 31 = decide (code.toNat / 2 ^ 28 / 8 % 2 = 1) := by rw [bit_of]; congr 1; apply propext; omega
  rw [h28, h29, h30, h31]
  have hq : code.toNat / 2 ^ 28 < 16 := by omega
  generalize code.toNat / 2 ^ 28 = q at hq ⊢
  have : q = 0 ∨ q = 1 ∨ q = 2 ∨ q = 3 ∨ q = 4 ∨ q = 5 ∨ q = 6 ∨ q = 7 ∨ q = 8 ∨ q = 9 ∨ q = 10 ∨ q = 11 ∨ q = 12 ∨ q = 13 ∨ q = 14 ∨ q = 15 := by omega
  rcases this with h | h | h | h | h | h | h | h | h | h | h | h | h | h | h | h <;> subst h <;>
    first | exact ⟨fun _ h => absurd h (by decide), fun _ => trivial⟩ | exact ⟨fun h _ => h, fun h => h rfl⟩

theorem shown_mac (f : Flags) (e : Entry) (code : Wd) (he : e.mac = true) : shown f (prefix15 e code) := by
  unfold prefix15
  rw [he]
  simp [shown]

/-- An entry of the table and the instruction: what the word must be. -/
theorem enc_reg (code : Wd) (g : Nat) (h : code.toNat / 2 ^ 24 % 16 = g) : Enc15 code g (reg code 20) (reg code 16) :=
  ⟨h, by rw [reg, BitVec.toNat_ofNat], by rw [reg, BitVec.toNat_ofNat]⟩

theorem imm_eq (code : Wd) : code.toNat % 2 ^ 16 = (code.setWidth 16).toNat := by rw [BitVec.toNat_setWidth]

/-- The line for an instruction word: condition and text are those of what is executed. -/
def Right (s : St) (code : Wd) (e : Entry) (i : Ins) : Prop :=
  (shown (flags s.F) (prefix15 e code) → i.cond (flags s.F) → i.does (args15 code) s (exec15 false s).1) ∧
  (¬(shown (flags s.F) (prefix15 e code) ∧ i.cond (flags s.F)) → skips 1 s (exec15 false s).1)

theorem right_of {s : St} {code : Wd} {e : Entry} {i : Ins} (hat : at15 s code) (hm : e.mac = false) (hi : ∀ f, i.cond f)
    (h : holds15 (flags s.F) code → i.does (args15 code) s (exec15 false s).1) : Right s code e i := by
  refine ⟨fun h1 _ => h ((shown_iff _ e code hm).1 h1), fun hn => ?_⟩
  have := exec15_skip s code hat (fun hh => hn ⟨(shown_iff _ e code hm).2 hh, hi _⟩)
  exact ⟨this.1, this.2.1⟩

theorem right_alu {s : St} {code : Wd} {e : Entry} (o : Op) (hat : at15 s code) (hm : e.mac = false) (hd : o ≠ .div) (he : code &&& e.mask = e.code)
    (k1 : fld e.mask 24 4 = BitVec.allOnes 4) (k2 : (fld e.code 24 4).toNat = 7) (k3 : fld e.mask 7 5 = BitVec.allOnes 5) (k4 : (fld e.code 7 5).toNat = o.num) :
    Right s code e (.alu o) := by
  refine right_of hat hm (fun _ => trivial) (fun hc => ?_)
  have hg := field_of he 24 4 k1
  have ho := field_of he 7 5 k3
  rw [k2] at hg
  rw [k4] at ho
  exact exec15_alu s code o _ _ (reg code 12) ⟨enc_reg code 7 hg, by show _ = (reg code 12).toNat; rw [reg, BitVec.toNat_ofNat], ho⟩ hat hc hd

theorem right_jump {s : St} {code : Wd} {e : Entry} (z v : Bool) (hat : at15 s code) (hm : e.mac = true) (he : code &&& e.mask = e.code)
    (k1 : fld e.mask 20 12 = BitVec.allOnes 12) (k2 : (fld e.code 20 12).toNat = 0x14f + (if v then 0x200 else 0) + (if z then 0x800 else 0x400)) :
    Right s code e (.jump (some (z, v))) := by
  have hl := lt_wd code
  have hf := field_of he 20 12 k1
  rw [k2] at hf
  have hd : reg code 20 = 15 := by
    apply BitVec.eq_of_toNat_eq
    rw [reg, BitVec.toNat_ofNat]
    show _ = 15
    cases v <;> cases z <;> simp at hf <;> omega
  have hg : code.toNat / 2 ^ 24 % 16 = 4 := by cases v <;> cases z <;> simp at hf <;> omega
  have hh : holds15 (flags s.F) code ↔ (Ins.jump (some (z, v))).cond (flags s.F) := by
    unfold holds15
    have h28 : code.getLsbD 28 = true := by rw [bit_of, decide_eq_true_eq]; cases v <;> cases z <;> simp at hf <;> omega
    have h29 : code.getLsbD 29 = v := by
      rw [bit_of]; cases v <;> cases z <;> simp at hf <;> first | (rw [decide_eq_false_iff_not]; omega) | (rw [decide_eq_true_eq]; omega)
    have h30 : code.getLsbD 30 = !z := by
      rw [bit_of]; cases v <;> cases z <;> simp at hf <;> simp only [Bool.not_true, Bool.not_false] <;> first | (rw [decide_eq_false_iff_not]; omega) | (rw [decide_eq_true_eq]; omega)
    have h31 : code.getLsbD 31 = z := by
      rw [bit_of]; cases v <;> cases z <;> simp at hf <;> first | (rw [decide_eq_false_iff_not]; omega) | (rw [decide_eq_true_eq]; omega)
    rw [h28, h29, h30, h31]
    cases z <;> simp [Ins.cond]
  refine ⟨fun _ h2 => ?_, fun hn => ?_⟩
  · have := exec15_imm s code (reg code 20) (reg code 16) 4 (code.setWidth 16) (enc_reg code 4 hg) ⟨by decide, by decide⟩ (imm_eq code) hat (hh.2 h2)
    rw [if_pos rfl, hd] at this
    exact this
  · have := exec15_skip s code hat (fun q => hn ⟨shown_mac _ e code hm, hh.1 q⟩)
    exact ⟨this.1, this.2.1⟩

theorem right15 (s : St) (code : Wd) (e : Entry) (i : Ins) (hat : at15 s code) (he : lookup table15 code = some e) (hi : means e.text = some i)
    (hdiv : i ≠ .alu .div) : Right s code e i := by
  have hmem := List.mem_of_find?_eq_some he
  have hmat := List.find?_some he
  have hmat : code &&& e.mask = e.code := beq_iff_eq.1 hmat
  clear he
  unfold table15 at hmem
  simp only [List.mem_cons, List.not_mem_nil, or_false] at hmem
  rcases hmem with h | h | h | h | h | h | h | h | h | h | h | h | h | h | h | h | h | h | h | h | h | h | h | h | h | h | h | h | h | h | h | h | h | h <;> subst h
  · obtain rfl : _ = i := Option.some.inj (show some (.call : Ins) = some i from hi)
    have hg := field_of hmat 27 1 rfl
    exact right_of hat rfl (fun _ => trivial) (fun hc => exec15_call s code hg hat hc)
  · obtain rfl : _ = i := Option.some.inj (show some (.jump (some (true, true)) : Ins) = some i from hi)
    exact right_jump true true hat rfl hmat rfl rfl
  · obtain rfl : _ = i := Option.some.inj (show some (.jump (some (true, false)) : Ins) = some i from hi)
    exact right_jump true false hat rfl hmat rfl rfl
  · obtain rfl : _ = i := Option.some.inj (show some (.jump (some (false, true)) : Ins) = some i from hi)
    exact right_jump false true hat rfl hmat rfl rfl
  · obtain rfl : _ = i := Option.some.inj (show some (.jump (some (false, false)) : Ins) = some i from hi)
    exact right_jump false false hat rfl hmat rfl rfl
  · obtain rfl : _ = i := Option.some.inj (show some (.jump none : Ins) = some i from hi)
    have hg := field_of hmat 20 9 rfl
    have hg : code.toNat / 2 ^ 20 % 512 = 0x4f := hg
    have hd : reg code 20 = 15 := by
      apply BitVec.eq_of_toNat_eq
      rw [reg, BitVec.toNat_ofNat]
      show _ = 15
      omega
    have hh : holds15 (flags s.F) code := by
      intro h
      rw [bit_of, decide_eq_true_eq] at h
      omega
    refine ⟨fun _ _ => ?_, fun hn => absurd ⟨shown_mac _ _ code rfl, trivial⟩ hn⟩
    have := exec15_imm s code (reg code 20) (reg code 16) 4 (code.setWidth 16) (enc_reg code 4 (by omega)) ⟨by decide, by decide⟩ (imm_eq code) hat hh
    rw [if_pos rfl, hd] at this
    exact this
  · obtain rfl : _ = i := Option.some.inj (show some (.jump none : Ins) = some i from hi)
    have hg := field_of hmat 20 8 rfl
    have hg : code.toNat / 2 ^ 20 % 256 = 0x4f := hg
    have hd : reg code 20 = 15 := by
      apply BitVec.eq_of_toNat_eq
      rw [reg, BitVec.toNat_ofNat]
      show _ = 15
      omega
    refine right_of hat rfl (fun _ => trivial) (fun hc => ?_)
    have := exec15_imm s code (reg code 20) (reg code 16) 4 (code.setWidth 16) (enc_reg code 4 (by omega)) ⟨by decide, by decide⟩ (imm_eq code) hat hc
    rw [if_pos rfl, hd] at this
    exact this
  · obtain rfl : _ = i := Option.some.inj (show some (.nop : Ins) = some i from hi)
    have hg := field_of hmat 24 4 rfl
    exact right_of hat rfl (fun _ => trivial) (fun hc => exec15_nop s code _ _ (enc_reg code 0 hg) hat)
  · obtain rfl : _ = i := Option.some.inj (show some (.ld : Ins) = some i from hi)
    have hg := field_of hmat 24 4 rfl
    exact right_of hat rfl (fun _ => trivial) (fun hc v hv => exec15_ld s code _ _ v (enc_reg code 1 hg) hat hc hv)
  · obtain rfl : _ = i := Option.some.inj (show some (.st : Ins) = some i from hi)
    have hg := field_of hmat 24 4 rfl
    exact right_of hat rfl (fun _ => trivial) (fun hc hv => exec15_st s code _ _ (enc_reg code 2 hg) hat hc hv)
  · obtain rfl : _ = i := Option.some.inj (show some (.ret : Ins) = some i from hi)
    have hg := field_of hmat 16 12 rfl
    have hg : code.toNat / 2 ^ 16 % 4096 = 0x3fe := hg
    have hd : reg code 20 = 15 := by
      apply BitVec.eq_of_toNat_eq
      rw [reg, BitVec.toNat_ofNat]
      show _ = 15
      omega
    have ha : reg code 16 = 14 := by
      apply BitVec.eq_of_toNat_eq
      rw [reg, BitVec.toNat_ofNat]
      show _ = 14
      omega
    refine right_of hat rfl (fun _ => trivial) (fun hc => ?_)
    have := exec15_mov s code (reg code 20) (reg code 16) (enc_reg code 3 (by omega)) hat hc
    rw [hd, ha] at this
    exact this
  · obtain rfl : _ = i := Option.some.inj (show some (.mov : Ins) = some i from hi)
    have hg := field_of hmat 24 4 rfl
    exact right_of hat rfl (fun _ => trivial) (fun hc => exec15_mov s code _ _ (enc_reg code 3 hg) hat hc)
  · obtain rfl : _ = i := Option.some.inj (show some (.ldl0 : Ins) = some i from hi)
    have hg := field_of hmat 24 4 rfl
    refine right_of hat rfl (fun _ => trivial) (fun hc => ?_)
    have := exec15_imm s code (reg code 20) (reg code 16) 4 (code.setWidth 16) (enc_reg code 4 hg) ⟨by decide, by decide⟩ (imm_eq code) hat hc
    rw [if_pos rfl] at this
    exact this
  · obtain rfl : _ = i := Option.some.inj (show some (.ldl : Ins) = some i from hi)
    have hg := field_of hmat 24 4 rfl
    refine right_of hat rfl (fun _ => trivial) (fun hc => ?_)
    have := exec15_imm s code (reg code 20) (reg code 16) 5 (code.setWidth 16) (enc_reg code 5 hg) ⟨by decide, by decide⟩ (imm_eq code) hat hc
    rw [if_neg (by decide), if_pos rfl] at this
    exact this
  · obtain rfl : _ = i := Option.some.inj (show some (.ldh : Ins) = some i from hi)
    have hg := field_of hmat 24 4 rfl
    refine right_of hat rfl (fun _ => trivial) (fun hc => ?_)
    have := exec15_imm s code (reg code 20) (reg code 16) 6 (code.setWidth 16) (enc_reg code 6 hg) ⟨by decide, by decide⟩ (imm_eq code) hat hc
    rw [if_neg (by decide), if_neg (by decide)] at this
    exact this
  · obtain rfl : _ = i := Option.some.inj (show some (.alu .add : Ins) = some i from hi)
    exact right_alu .add hat rfl (by decide) hmat rfl rfl rfl rfl
  · obtain rfl : _ = i := Option.some.inj (show some (.alu .addc : Ins) = some i from hi)
    exact right_alu .addc hat rfl (by decide) hmat rfl rfl rfl rfl
  · obtain rfl : _ = i := Option.some.inj (show some (.alu .sub : Ins) = some i from hi)
    exact right_alu .sub hat rfl (by decide) hmat rfl rfl rfl rfl
  · obtain rfl : _ = i := Option.some.inj (show some (.alu .sbb : Ins) = some i from hi)
    exact right_alu .sbb hat rfl (by decide) hmat rfl rfl rfl rfl
  · obtain rfl : _ = i := Option.some.inj (show some (.alu .inc : Ins) = some i from hi)
    exact right_alu .inc hat rfl (by decide) hmat rfl rfl rfl rfl
  · obtain rfl : _ = i := Option.some.inj (show some (.alu .dec : Ins) = some i from hi)
    exact right_alu .dec hat rfl (by decide) hmat rfl rfl rfl rfl
  · obtain rfl : _ = i := Option.some.inj (show some (.alu .and : Ins) = some i from hi)
    exact right_alu .and hat rfl (by decide) hmat rfl rfl rfl rfl
  · obtain rfl : _ = i := Option.some.inj (show some (.alu .or : Ins) = some i from hi)
    exact right_alu .or hat rfl (by decide) hmat rfl rfl rfl rfl
  · obtain rfl : _ = i := Option.some.inj (show some (.alu .xor : Ins) = some i from hi)
    exact right_alu .xor hat rfl (by decide) hmat rfl rfl rfl rfl
  · obtain rfl : _ = i := Option.some.inj (show some (.alu .shl : Ins) = some i from hi)
    exact right_alu .shl hat rfl (by decide) hmat rfl rfl rfl rfl
  · obtain rfl : _ = i := Option.some.inj (show some (.alu .shr : Ins) = some i from hi)
    exact right_alu .shr hat rfl (by decide) hmat rfl rfl rfl rfl
  · obtain rfl : _ = i := Option.some.inj (show some (.alu .sha : Ins) = some i from hi)
    exact right_alu .sha hat rfl (by decide) hmat rfl rfl rfl rfl
  · obtain rfl : _ = i := Option.some.inj (show some (.alu .rol : Ins) = some i from hi)
    exact right_alu .rol hat rfl (by decide) hmat rfl rfl rfl rfl
  · obtain rfl : _ = i := Option.some.inj (show some (.alu .ror : Ins) = some i from hi)
    exact right_alu .ror hat rfl (by decide) hmat rfl rfl rfl rfl
  · obtain rfl : _ = i := Option.some.inj (show some (.alu .mul : Ins) = some i from hi)
    exact right_alu .mul hat rfl (by decide) hmat rfl rfl rfl rfl
  · obtain rfl : _ = i := Option.some.inj (show some (.alu .div : Ins) = some i from hi)
    exact absurd rfl hdiv
  · obtain rfl : _ = i := Option.some.inj (show some (.alu .cmp : Ins) = some i from hi)
    exact right_alu .cmp hat rfl (by decide) hmat rfl rfl rfl rfl
  · obtain rfl : _ = i := Option.some.inj (show some (.alu .setc : Ins) = some i from hi)
    exact right_alu .setc hat rfl (by decide) hmat rfl rfl rfl rfl
  · obtain rfl : _ = i := Option.some.inj (show some (.alu .clrc : Ins) = some i from hi)
    exact right_alu .clrc hat rfl (by decide) hmat rfl rfl rfl rfl

end Ucsim.P15
