import Verif.Proof.H08Exec3

namespace Ucsim.H08

theorem sthxFin (s : St) (n t n' : Nat) (k : Isa.Mode) (hn : n' = n + k.bytes) (a : Nat) (ha : a = (abs s).sum ((abs s).pc + BitVec.ofNat 16 n) k)
    (hd : ¬ (abs s).over ((abs s).pc + BitVec.ofNat 16 n) k) (hc : CcOk s) :
    let X := tick 1 (store1 (fr s n' t) a (fr s n' t).h)
    Refines s (.go, hxP (tick 1 (store1 X ((a + 1) % 0x10000) X.x))) n (.sthx k) := by
  intro X
  have hX : X = { fr s n' (t + 1) with mem := fun x => if x = (abs s).ea ((abs s).pc + BitVec.ofNat 16 n) k then s.h else s.mem x } := by
    show tick 1 (store1 (fr s n' t) a (fr s n' t).h) = _
    rw [ha, store1_sum _ _ _ _ hd]; rfl
  have e1 : (a + 1) % 0x10000 = ((abs s).ea ((abs s).pc + BitVec.ofNat 16 n) k + 1).toNat := by
    rw [ha, ← sum_ea, BitVec.toNat_add, BitVec.toNat_ofNat, show (1 : Word).toNat = 1 from rfl]
    omega
  have hY : tick 1 (store1 X ((a + 1) % 0x10000) X.x) = { fr s n' (t + 2) with mem := fun y => if y = (abs s).ea ((abs s).pc + BitVec.ofNat 16 n) k + 1 then s.x else if y = (abs s).ea ((abs s).pc + BitVec.ofNat 16 n) k then s.h else s.mem y } := by
    rw [e1, store1_word, hX]; rfl
  rw [hY]
  have kk := hxP_abs { fr s n' (t + 2) with mem := fun y => if y = (abs s).ea ((abs s).pc + BitVec.ofNat 16 n) k + 1 then s.x else if y = (abs s).ea ((abs s).pc + BitVec.ofNat 16 n) k then s.h else s.mem y }
  refine ⟨rfl, ⟨u0, ?_⟩, ⟨mod_pc s n' t, kk.2.trans hc, rfl, rfl⟩⟩
  have eX : ∀ (s : St) (a b : Word) (v w : Byte) (hh : (abs s).mem = s.mem), abs { s with mem := fun y => if y = a then v else if y = b then w else s.mem y } = ((abs s).store b w).store a v := fun _ _ _ _ _ _ => rfl
  rw [kk.1]
  have eX' : abs { fr s n' (t + 2) with mem := fun y => if y = (abs s).ea ((abs s).pc + BitVec.ofNat 16 n) k + 1 then s.x else if y = (abs s).ea ((abs s).pc + BitVec.ofNat 16 n) k then s.h else s.mem y } =
      ((abs (fr s n' (t + 2))).store ((abs s).ea ((abs s).pc + BitVec.ofNat 16 n) k) s.h).store ((abs s).ea ((abs s).pc + BitVec.ofNat 16 n) k + 1) s.x := rfl
  rw [eX', abs_fr, hn, pc_add]
  rfl

theorem sthx_ok (s : St) (code : Byte) (pre : Bool) (n t : Nat) (hc : CcOk s)
    (hf : (pre = false ∧ select code = .sthx ∧ (code = 0x96#8 → s.s08)) ∨ (pre = true ∧ select9e code = .sthx ∧ s.s08))
    (hd : ¬ Isa.Differs (abs s) ((abs s).pc + BitVec.ofNat 16 n) (.sthx (hxMode code pre))) :
    Refines s (exec .sthx code pre (fr s n t)) n (.sthx (hxMode code pre)) := by
  have s1 : ∀ c : Byte, select c = .sthx → c = 0x35#8 ∨ c = 0x96#8 := by decide +kernel
  have s2 : ∀ c : Byte, select9e c = .sthx → c = 0xff#8 := by decide +kernel
  have hsp : ∀ n t, (fr s n t).sp = (abs s).sp := fun _ _ => rfl
  rcases hf with ⟨rfl, hf, h08⟩ | ⟨rfl, hf, h08⟩
  · rcases s1 code hf with rfl | rfl
    · simp only [exec, sthx]
      rw [if_pos trivial]
      simp only [fetch_fr, tick_fr, orInv]
      exact sthxFin s n _ (n + 1) .dir rfl _ rfl hd hc
    · simp only [exec, sthx]
      rw [if_neg (by decide), if_pos ⟨trivial, h08 rfl⟩]
      simp only [fetch2_fr, tick_fr, orInv]
      exact sthxFin s n _ (n + 2) .ext rfl _ rfl hd hc
  · obtain rfl := s2 code hf
    simp only [exec, sthx]
    rw [if_neg (by decide), if_neg (fun h => absurd h.1 (by decide)), if_pos ⟨trivial, trivial, h08⟩]
    simp only [fetch_fr, tick_fr, orInv, hsp]
    exact sthxFin s n _ (n + 1) .sp1 rfl _ rfl hd hc

/-! ### CPHX -/

theorem toInt_cond16 (r : Word) : r.toInt = if r.toNat < 32768 then (r.toNat : Int) else r.toNat - 65536 := by
  rw [BitVec.toInt_eq_toNat_cond]
  have := r.isLt
  split <;> split <;> omega

theorem cphx_v (x y : Word) : (0x8000 &&& (x.toNat ^^^ y.toNat ^^^ diff x.toNat y.toNat 0 ^^^ (diff x.toNat y.toNat 0 >>> 1)) != 0) =
    decide (x.toInt - y.toInt < -32768 ∨ 32767 < x.toInt - y.toInt) := by
  have := x.isLt
  have := y.isLt
  generalize hr : diff x.toNat y.toNat 0 = r
  unfold diff at hr
  rw [show (0x8000 : Nat) = 2 ^ 15 from rfl, mask_bit, Nat.testBit_xor, Nat.testBit_xor, Nat.testBit_xor, Nat.testBit_shiftRight,
    testBit_nat, testBit_nat, testBit_nat, testBit_nat]
  simp only [Nat.reducePow, Nat.reduceAdd]
  rw [xor4 _ _ _ _ (Nat.mod_lt _ (by decide)) (Nat.mod_lt _ (by decide)) (Nat.mod_lt _ (by decide)) (Nat.mod_lt _ (by decide)),
    decide_eq_decide, toInt_cond16, toInt_cond16]
  have h1 : x.toNat / 32768 = 0 ∨ x.toNat / 32768 = 1 := by omega
  have h2 : y.toNat / 32768 = 0 ∨ y.toNat / 32768 = 1 := by omega
  have h3 : r / 32768 = 131070 ∨ r / 32768 = 131071 ∨ r / 32768 = 131072 ∨ r / 32768 = 131073 := by omega
  rcases h1 with h1 | h1 <;> rcases h2 with h2 | h2 <;> rcases h3 with h3 | h3 | h3 | h3 <;>
    rw [h1, h2, h3] <;> split <;> split <;> omega

theorem cphx_c (x y : Word) : (0x10000 &&& diff x.toNat y.toNat 0 != 0) = decide (x.toNat < y.toNat) := by
  have := x.isLt
  have := y.isLt
  rw [show (0x10000 : Nat) = 2 ^ 16 from rfl, mask_bit, testBit_nat, decide_eq_decide]
  unfold diff
  simp only [Nat.reducePow]; omega

theorem cphx_sub (x y : Word) : (x - y).toNat = diff x.toNat y.toNat 0 % 65536 := by
  have := x.isLt
  have := y.isLt
  rw [BitVec.toNat_sub]
  unfold diff
  omega

theorem cphx_n (x y : Word) : (diff x.toNat y.toNat 0 &&& 0x8000 != 0) = (x - y).msb := by
  rw [Nat.and_comm, show (0x8000 : Nat) = 2 ^ 15 from rfl, mask_bit, testBit_nat, BitVec.msb_eq_decide, cphx_sub, decide_eq_decide]
  simp only [Nat.reducePow, Nat.reduceSub]; omega

theorem cphx_z (x y : Word) : (diff x.toNat y.toNat 0 &&& 0xffff == 0) = (x - y == 0) := by
  have e : diff x.toNat y.toNat 0 &&& 0xffff = (x - y).toNat := by
    rw [cphx_sub, show (0xffff : Nat) = 2 ^ 16 - 1 from rfl, Nat.and_two_pow_sub_one_eq_mod]
  rw [e, Bool.eq_iff_iff]
  simp only [beq_iff_eq]
  constructor
  · intro h; exact BitVec.eq_of_toNat_eq h
  · intro h; rw [h]; rfl

theorem cphxP_abs (s : St) (w : Word) : abs { s with p := cphxP (abs s).hx.toNat w.toNat s.p } = (abs s).cphx w := by
  rw [abs_p]
  unfold cphxP
  simp only [ccr_Z, ccr_N, ccr_C, ccr_V, cphx_v, cphx_c, cphx_n, cphx_z, setCcr_self]
  rfl

theorem cphxFin (s : St) (n n' t' : Nat) (k : Isa.Mode) (hn : n' = n + if k = .imm then 2 else k.bytes) (v : Nat)
    (hv : v = ((abs s).operand2 ((abs s).pc + BitVec.ofNat 16 n) k).toNat) (hc : CcOk s) :
    Refines s (.go, { fr s n' t' with p := cphxP (hx (fr s n' t')) v (fr s n' t').p }) n (.cphx k) := by
  have e := cphxP_abs (fr s n' t') ((abs s).operand2 ((abs s).pc + BitVec.ofNat 16 n) k)
  rw [hx_eq, hv]
  refine ⟨rfl, ⟨u0, ?_⟩, ⟨mod_pc s n' t', ?_, rfl, rfl⟩⟩
  · rw [e, abs_fr, hn, pc_add]
    simp only [Isa.exec]
    by_cases hk : k = .imm
    · rw [if_pos hk, if_pos hk]; rfl
    · rw [if_neg hk, if_neg hk]; rfl
  · unfold CcOk
    rw [cc_cphx]; exact hc

theorem cphxMem (s : St) (n n' t' : Nat) (k : Isa.Mode) (hk : k ≠ .imm) (a : Nat) (ha : a = (abs s).sum ((abs s).pc + BitVec.ofNat 16 n) k) :
    (get1 (fr s n' t') a).toNat * 256 + (get1 (fr s n' t') (a + 1)).toNat = ((abs s).operand2 ((abs s).pc + BitVec.ofNat 16 n) k).toNat := by
  have e1 : BitVec.ofNat 16 (a + 1) = (abs s).ea ((abs s).pc + BitVec.ofNat 16 n) k + 1 := by
    rw [ha, ← sum_ea]
    apply BitVec.eq_of_toNat_eq; simp [BitVec.toNat_add]
  have e2 : (abs s).operand2 ((abs s).pc + BitVec.ofNat 16 n) k = (abs s).word ((abs s).ea ((abs s).pc + BitVec.ofNat 16 n) k) := by
    cases k <;> first | rfl | exact absurd rfl hk
  rw [e2, get1_eq, get1_eq, e1, ha, sum_ea, of_eq]; rfl

theorem cphx_ok (s : St) (code : Byte) (pre : Bool) (n t : Nat) (hc : CcOk s)
    (hf : (pre = false ∧ select code = .cphx ∧ (code = 0x3e#8 → s.s08)) ∨ (pre = true ∧ select9e code = .cphx ∧ s.s08)) :
    Refines s (exec .cphx code pre (fr s n t)) n (.cphx (hxMode code pre)) := by
  have s1 : ∀ c : Byte, select c = .cphx → c = 0x65#8 ∨ c = 0x75#8 ∨ c = 0x3e#8 := by decide +kernel
  have s2 : ∀ c : Byte, select9e c = .cphx → c = 0xf3#8 := by decide +kernel
  have hsp : ∀ n t, (fr s n t).sp = (abs s).sp := fun _ _ => rfl
  rcases hf with ⟨rfl, hf, h08⟩ | ⟨rfl, hf, h08⟩
  · rcases s1 code hf with rfl | rfl | rfl
    · simp only [exec, cphx]
      rw [if_pos trivial]
      simp only [fetch2_fr, tick_fr, orInv]
      exact cphxFin s n (n + 2) _ .imm rfl _ rfl hc
    · simp only [exec, cphx]
      rw [if_neg (by decide), if_pos trivial]
      simp only [fetch_fr, tick_fr, orInv]
      exact cphxFin s n (n + 1) _ .dir rfl _ (cphxMem s n _ _ .dir (by decide) _ rfl) hc
    · simp only [exec, cphx]
      rw [if_neg (by decide), if_neg (by decide), if_pos ⟨trivial, h08 rfl⟩]
      simp only [fetch2_fr, tick_fr, orInv]
      exact cphxFin s n (n + 2) _ .ext rfl _ (cphxMem s n _ _ .ext (by decide) _ rfl) hc
  · obtain rfl := s2 code hf
    simp only [exec, cphx]
    rw [if_neg (by decide), if_neg (by decide), if_neg (fun h => absurd h.1 (by decide)), if_pos ⟨trivial, trivial, h08⟩]
    simp only [fetch_fr, tick_fr, orInv, hsp]
    exact cphxFin s n (n + 1) _ .sp1 rfl _ (cphxMem s n _ _ .sp1 (by decide) _ (Nat.add_comm _ _)) hc

/-! ### The rest -/

theorem abs_fr1 (s : St) (n t : Nat) : abs (fr s n t) = { abs s with pc := (abs s).pc + BitVec.ofNat 16 n } := abs_fr s n t

theorem mul_ok (s : St) (code : Byte) (pre : Bool) (n t : Nat) (hc : CcOk s) : Refines s (exec .mul code pre (fr s n t)) n .mul := by
  simp only [exec]
  refine ⟨rfl, ⟨u0, ?_⟩, ⟨mod_pc s n t, ?_, rfl, rfl⟩⟩
  · have e : ∀ (X : St) (a x f : Byte), abs (tick 4 { X with a := a, x := x, p := f }) = { (abs X).setCcr f with a := a, x := x } := fun _ _ _ _ => rfl
    rw [e, ccr_H, ccr_C, setCcr_self, abs_fr]
    simp only [Isa.exec]
    rw [Nat.mul_comm (abs s).x.toNat]; rfl
  · show assign bH false (assign bC false s.p) &&& _ = _
    rw [cc_H, cc_C]; exact hc

theorem div_ok (s : St) (code : Byte) (pre : Bool) (n t : Nat) (hc : CcOk s) : Refines s (exec .div code pre (fr s n t)) n .div := by
  have ha : (fr s n t).a = s.a := rfl
  have hh : (fr s n t).h = s.h := rfl
  have hx : (fr s n t).x = s.x := rfl
  have hp : (fr s n t).p = s.p := rfl
  have no : ∀ (h : s.x = 0 ∨ 255 < (s.h.toNat * 256 + s.a.toNat) / s.x.toNat),
      Refines s (.go, tick 5 { fr s n t with p := assign bC true s.p }) n .div := by
    intro h
    refine ⟨rfl, ⟨⟨s.a, s.h, (abs s).z, false⟩, ?_⟩, ⟨mod_pc s n t, ?_, rfl, rfl⟩⟩
    · have e : ∀ (X : St) (f : Byte), abs (tick 5 { X with p := f }) = (abs X).setCcr f := fun _ _ => rfl
      rw [e, ccr_C, ← hp, setCcr_self, abs_fr]
      simp only [Isa.exec, Isa.Mach.div]
      rw [if_pos (show ((abs s).x = 0 ∨ 255 < ((abs s).h.toNat * 256 + (abs s).a.toNat) / (abs s).x.toNat) from h)]
      rfl
    · show assign bC true s.p &&& _ = _
      rw [cc_C]; exact hc
  simp only [exec, div, ha, hh, hx, hp]
  by_cases h0 : s.x = 0#8
  · rw [if_neg (fun h => h h0)]; exact no (.inl h0)
  rw [if_pos h0]
  by_cases h1 : (s.h.toNat * 256 + s.a.toNat) / s.x.toNat ≤ 0xff
  · rw [if_pos h1]
    show Refines s (.go, tick 5 { fr s n t with a := BitVec.ofNat 8 ((s.h.toNat * 256 + s.a.toNat) / s.x.toNat), h := BitVec.ofNat 8 ((s.h.toNat * 256 + s.a.toNat) % s.x.toNat), p := assign bZ ((s.h.toNat * 256 + s.a.toNat) / s.x.toNat == 0) (assign bC false s.p) }) n .div
    refine ⟨rfl, ⟨u0, ?_⟩, ⟨mod_pc s n t, ?_, rfl, rfl⟩⟩
    · have e : ∀ (X : St) (a h f : Byte), abs (tick 5 { X with a := a, h := h, p := f }) = { (abs X).setCcr f with a := a, h := h } := fun _ _ _ _ => rfl
      rw [e, ccr_Z, ccr_C, ← hp, setCcr_self, abs_fr]
      simp only [Isa.exec, Isa.Mach.div]
      rw [if_neg (show ¬ ((abs s).x = 0 ∨ 255 < ((abs s).h.toNat * 256 + (abs s).a.toNat) / (abs s).x.toNat) from
        fun h => h.elim (fun h => h0 h) (fun h => absurd h1 (Nat.not_le_of_gt h)))]
      rfl
    · show assign bZ _ (assign bC false s.p) &&& _ = _
      rw [cc_Z, cc_C]; exact hc
  · rw [if_neg h1]; exact no (.inr (Nat.lt_of_not_le h1))

theorem nsa_ok (s : St) (code : Byte) (pre : Bool) (n t : Nat) (hc : CcOk s) : Refines s (exec .nsa code pre (fr s n t)) n .nsa := by
  have h : ∀ a : Byte, (a &&& 0xf0#8) >>> 4 ||| (a &&& 0x0f#8) <<< 4 = a.extractLsb' 0 4 ++ a.extractLsb' 4 4 := by decide +kernel
  simp only [exec, h]
  refine ⟨rfl, ⟨u0, ?_⟩, ⟨mod_pc s n t, hc, rfl, rfl⟩⟩
  have e : ∀ (X : St) (a : Byte), abs { X with a := a } = { abs X with a := a } := fun _ _ => rfl
  rw [e, abs_fr]; rfl

theorem clrh_ok (s : St) (code : Byte) (pre : Bool) (n t : Nat) (hc : CcOk s) : Refines s (exec .clrh code pre (fr s n t)) n .clrh := by
  simp only [exec]
  refine ⟨rfl, ⟨u0, ?_⟩, ⟨mod_pc s n t, ?_, rfl, rfl⟩⟩
  · have e : ∀ (X : St) (h f : Byte), abs { X with h := h, p := f } = { (abs X).setCcr f with h := h } := fun _ _ _ => rfl
    rw [e, ccr_Z, ccr_N, ccr_V, setCcr_self, abs_fr]; rfl
  · show assign bZ true (assign bN false (assign bV false s.p)) &&& _ = _
    rw [cc_Z, cc_N, cc_V]; exact hc

theorem nop_ok (s : St) (code : Byte) (pre : Bool) (n t : Nat) (hc : CcOk s) : Refines s (exec .nop code pre (fr s n t)) n .nop :=
  ⟨rfl, ⟨u0, abs_fr s n t⟩, ⟨mod_pc s n t, hc, rfl, rfl⟩⟩

theorem rsp_ok (s : St) (code : Byte) (pre : Bool) (n t : Nat) (hc : CcOk s)
    (hd : ¬ Isa.Differs (abs s) ((abs s).pc + BitVec.ofNat 16 n) .rsp) : Refines s (exec .rsp code pre (fr s n t)) n .rsp := by
  have hd : s.sp.extractLsb' 8 8 = 0#8 := Classical.not_not.mp hd
  refine ⟨rfl, ⟨u0, ?_⟩, ⟨mod_pc s n t, hc, rfl, rfl⟩⟩
  have e : ∀ (X : St) (w : Word), abs { X with sp := w } = { abs X with sp := w } := fun _ _ => rfl
  simp only [exec, Isa.exec]
  rw [e, abs_fr, show (abs s).sp = s.sp from rfl, hd]; rfl

theorem ais_ok (s : St) (code : Byte) (pre : Bool) (n t : Nat) (hc : CcOk s) : Refines s (exec .ais code pre (fr s n t)) n .ais := by
  simp only [exec, fetch_fr]
  refine ⟨rfl, ⟨u0, ?_⟩, ⟨mod_pc s (n + 1) t, hc, rfl, rfl⟩⟩
  have e : ∀ (X : St) (w : Word), abs { X with sp := w } = { abs X with sp := w } := fun _ _ => rfl
  rw [e, abs_fr, pc_succ]; rfl

theorem aix_ok (s : St) (code : Byte) (pre : Bool) (n t : Nat) (hc : CcOk s) : Refines s (exec .aix code pre (fr s n t)) n .aix := by
  simp only [exec, fetch_fr]
  refine ⟨rfl, ⟨u0, ?_⟩, ⟨mod_pc s (n + 1) t, hc, rfl, rfl⟩⟩
  rw [tick_fr, abs_setHX, abs_fr, pc_succ, show hx (fr s n t) = (abs s).hx.toNat from hx_eq s]
  have g : ∀ (w : Word) (o : Byte), (BitVec.ofNat 16 (((w.toNat : Int) + o.toInt) % 0x10000).toNat : Word) = w + o.signExtend 16 := by
    intro w o
    have : (BitVec.ofNat 16 (((w.toNat : Int) + o.toInt) % 0x10000).toNat : Word) = BitVec.ofInt 16 ((w.toNat : Int) + o.toInt) := by
      apply BitVec.eq_of_toNat_eq
      rw [BitVec.toNat_ofNat, BitVec.toNat_ofInt]
      omega
    rw [this, BitVec.ofInt_add]
    simp [BitVec.signExtend]
  rw [g]; rfl

def transIns (code : Byte) : Isa.Ins :=
  if code = 0x84#8 then .tap else if code = 0x85#8 then .tpa else if code = 0x97#8 then .tax else if code = 0x9f#8 then .txa
  else if code = 0x94#8 then .txs else .tsx

theorem transfer_ok (s : St) (code : Byte) (pre : Bool) (n t : Nat) (hc : CcOk s) (hf : select code = .transfer) :
    Refines s (exec .transfer code pre (fr s n t)) n (transIns code) := by
  have s1 : ∀ c : Byte, select c = .transfer → c = 0x84#8 ∨ c = 0x85#8 ∨ c = 0x97#8 ∨ c = 0x9f#8 ∨ c = 0x94#8 ∨ c = 0x95#8 := by decide +kernel
  rcases s1 code hf with rfl | rfl | rfl | rfl | rfl | rfl
  · refine ⟨rfl, ⟨u0, ?_⟩, ⟨mod_pc s n t, cc_or _, rfl, rfl⟩⟩
    show (abs (fr s n t)).setCcr (s.a ||| 0x60#8) = _
    rw [ccr_or, abs_fr]; rfl
  · refine ⟨rfl, ⟨u0, ?_⟩, ⟨mod_pc s n t, hc, rfl, rfl⟩⟩
    show ({ abs (fr s n t) with a := s.p ||| 0x60#8 } : Isa.Mach) = ({ abs s with a := (abs s).ccr, pc := _ } : Isa.Mach)
    have : ∀ p : Byte, p &&& 0x60#8 = 0x60#8 → p ||| 0x60#8 = p := by decide +kernel
    rw [abs_ccr s hc, this s.p hc, abs_fr]
  · refine ⟨rfl, ⟨u0, ?_⟩, ⟨mod_pc s n t, hc, rfl, rfl⟩⟩
    show ({ abs (fr s n t) with x := s.a } : Isa.Mach) = _
    rw [abs_fr]; rfl
  · refine ⟨rfl, ⟨u0, ?_⟩, ⟨mod_pc s n t, hc, rfl, rfl⟩⟩
    show ({ abs (fr s n t) with a := s.x } : Isa.Mach) = _
    rw [abs_fr]; rfl
  · refine ⟨rfl, ⟨u0, ?_⟩, ⟨mod_pc s n t, hc, rfl, rfl⟩⟩
    have e0 : ∀ (X : St) (w : Word), abs { X with sp := w } = { abs X with sp := w } := fun _ _ => rfl
    have e : BitVec.ofNat 16 (0xffff + hx (fr s n t)) = (abs s).hx - 1 := by
      rw [show hx (fr s n t) = (abs s).hx.toNat from hx_eq s]
      apply BitVec.eq_of_toNat_eq
      rw [BitVec.toNat_ofNat, BitVec.toNat_sub, show (1 : Word).toNat = 1 from rfl]
    simp only [exec, transfer, e]
    rw [if_neg (by decide), if_neg (by decide), if_neg (by decide), if_neg (by decide), if_pos trivial]
    simp only [orHalt]
    rw [e0, abs_fr]; rfl
  · refine ⟨rfl, ⟨u0, ?_⟩, ⟨mod_pc s n t, hc, rfl, rfl⟩⟩
    show abs (setHX (s.sp.toNat + 1) (fr s n t)) = _
    rw [abs_setHX, ofNat_succ, abs_fr]; rfl

def setclrIns (code : Byte) : Isa.Ins :=
  if code = 0x98#8 then .clc else if code = 0x99#8 then .sec else if code = 0x9a#8 then .cli else .sei

theorem setclear_ok (s : St) (code : Byte) (pre : Bool) (n t : Nat) (hc : CcOk s) (hf : select code = .setclear) :
    Refines s (exec .setclear code pre (fr s n t)) n (setclrIns code) := by
  have s1 : ∀ c : Byte, select c = .setclear → c = 0x98#8 ∨ c = 0x99#8 ∨ c = 0x9a#8 ∨ c = 0x9b#8 := by decide +kernel
  rcases s1 code hf with rfl | rfl | rfl | rfl
  · refine ⟨rfl, ⟨u0, ?_⟩, ⟨mod_pc s n t, (cc_C _ _).trans hc, rfl, rfl⟩⟩
    show (abs (fr s n t)).setCcr (assign bC false (fr s n t).p) = _
    rw [ccr_C, setCcr_self, abs_fr]; rfl
  · refine ⟨rfl, ⟨u0, ?_⟩, ⟨mod_pc s n t, (cc_C _ _).trans hc, rfl, rfl⟩⟩
    show (abs (fr s n t)).setCcr (assign bC true (fr s n t).p) = _
    rw [ccr_C, setCcr_self, abs_fr]; rfl
  · refine ⟨rfl, ⟨u0, ?_⟩, ⟨mod_pc s n t, (cc_I _ _).trans hc, rfl, rfl⟩⟩
    show (abs (fr s n t)).setCcr (assign bI false (fr s n t).p) = _
    rw [ccr_I, setCcr_self, abs_fr]; rfl
  · refine ⟨rfl, ⟨u0, ?_⟩, ⟨mod_pc s n t, (cc_I _ _).trans hc, rfl, rfl⟩⟩
    show (abs (fr s n t)).setCcr (assign bI true (fr s n t).p) = _
    rw [ccr_I, setCcr_self, abs_fr]; rfl

def ppIns (code : Byte) : Isa.Ins :=
  if code = 0x86#8 then .pul .a else if code = 0x87#8 then .psh .a else if code = 0x88#8 then .pul .x else if code = 0x89#8 then .psh .x
  else if code = 0x8a#8 then .pul .h else .psh .h

theorem pushpull_ok (s : St) (code : Byte) (pre : Bool) (n t : Nat) (hc : CcOk s) (hf : select code = .pushpull) :
    Refines s (exec .pushpull code pre (fr s n t)) n (ppIns code) := by
  have s1 : ∀ c : Byte, select c = .pushpull → c = 0x86#8 ∨ c = 0x87#8 ∨ c = 0x88#8 ∨ c = 0x89#8 ∨ c = 0x8a#8 ∨ c = 0x8b#8 := by decide +kernel
  have psh : ∀ (r : Isa.Reg) (v : Byte), v = (abs s).reg r → Refines s (.go, tick 1 (push1 v (fr s n t))) n (.psh r) := by
    intro r v hv
    obtain ⟨k1, k2, k3, k4, k5⟩ := push1_abs (fr s n t) v
    refine ⟨rfl, ⟨u0, ?_⟩, ⟨by show (push1 v (fr s n t)).pc < _; rw [k3]; exact mod_pc _ _ _, by show (push1 v (fr s n t)).p &&& _ = _; rw [k2]; exact hc, k4, k5⟩⟩
    show abs (push1 v (fr s n t)) = _
    rw [k1, abs_fr, hv]; rfl
  have e1 : (pop1 (fr s n t)) = ((abs s).pull 1, { fr s n t with sp := s.sp + 1 }) := by rw [pop1_abs]; rfl
  rcases s1 code hf with rfl | rfl | rfl | rfl | rfl | rfl
  · simp only [exec, pushpull, e1]
    rw [if_pos trivial]
    refine ⟨rfl, ⟨u0, ?_⟩, ⟨mod_pc s n t, hc, rfl, rfl⟩⟩
    show ({ abs (fr s n t) with a := (abs s).pull 1, sp := s.sp + 1 } : Isa.Mach) = _
    rw [abs_fr]; rfl
  · exact psh .a s.a rfl
  · simp only [exec, pushpull, e1]
    rw [if_neg (by decide), if_neg (by decide), if_pos trivial]
    refine ⟨rfl, ⟨u0, ?_⟩, ⟨mod_pc s n t, hc, rfl, rfl⟩⟩
    show ({ abs (fr s n t) with x := (abs s).pull 1, sp := s.sp + 1 } : Isa.Mach) = _
    rw [abs_fr]; rfl
  · exact psh .x s.x rfl
  · simp only [exec, pushpull, e1]
    rw [if_neg (by decide), if_neg (by decide), if_neg (by decide), if_neg (by decide), if_pos trivial]
    refine ⟨rfl, ⟨u0, ?_⟩, ⟨mod_pc s n t, hc, rfl, rfl⟩⟩
    show ({ abs (fr s n t) with h := (abs s).pull 1, sp := s.sp + 1 } : Isa.Mach) = _
    rw [abs_fr]; rfl
  · exact psh .h s.h rfl

end Ucsim.H08
