import Verif.Proof.S51IsaOp
/-!
Refinement of the manual's instruction set: jumps, bits, stack, data pointer.
-/
namespace Ucsim.S51
open Isa (Cpu)
open Spec (code Ok)

variable {H : Type} {P : Hw H} {s : St H}

theorem after_lt (s : St H) (n k : Nat) : (after s n k).pc < 0x10000 := Nat.mod_lt _ (by decide)

theorem byte2_le (a b : Byte) : 256 * a.toNat + b.toNat ≤ 0x10000 := by
  have := a.isLt; have := b.isLt; omega
theorem page_le (c : Cpu) (h : c.pc < 0x10000) (a b : Byte) : c.page a b ≤ 0x10000 := by
  have := a.isLt; have := b.isLt; unfold Cpu.page; omega

theorem rr_val : ∀ a : Byte, (if a &&& 1#8 != 0#8 then (a >>> 1) ||| 0x80#8 else a >>> 1) = a.rotateRight 1 := by decide +kernel
theorem rl_val : ∀ a : Byte, (if a &&& 0x80#8 != 0#8 then (a <<< 1) ||| 1#8 else a <<< 1) = a.rotateLeft 1 := by decide +kernel
theorem rrc_val : ∀ (b : Bool) (a : Byte), (if b = true then (a >>> 1) ||| 0x80#8 else a >>> 1) = Cpu.withBit (a >>> 1) 7 b := by decide +kernel
theorem rlc_val : ∀ (b : Bool) (a : Byte), (if b = true then (a <<< 1) ||| 1#8 else a <<< 1) = Cpu.withBit (a <<< 1) 0 b := by decide +kernel
theorem rrc_cy : ∀ a : Byte, (a &&& 1#8 != 0#8) = a.getLsbD 0 := by decide +kernel
theorem rlc_cy : ∀ a : Byte, (a &&& 0x80#8 != 0#8) = a.getLsbD 7 := by decide +kernel

theorem put_comm (f : Nat → Byte) (a b : Nat) (v w : Byte) (h : a ≠ b) :
    Isa.put (Isa.put f a v) b w = Isa.put (Isa.put f b w) a v := by
  funext x; unfold Isa.put
  by_cases h1 : x = b
  · rw [if_pos h1, if_neg (fun e => h (e.symm.trans h1)), if_pos h1]
  · rw [if_neg h1]; by_cases h2 : x = a
    · rw [if_pos h2, if_pos h2]
    · rw [if_neg h2, if_neg h2, if_neg h1]

theorem setCY_setA (c : Cpu) (b : Bool) (v : Byte) : (c.setCY b).setA v = (c.setA v).setCY b :=
  Isa.Cpu.ext rfl rfl (put_comm c.sfr 0xd0 0xe0 _ v (by decide)) rfl rfl

theorem Rel.dptrWrite {s0 t : St H} {c : Cpu} (h : Rel s0 t c) (v : Nat) : Rel s0 (dptrWrite v t).2 (c.setDPTR v) :=
  (h.setSfr 0x83 (by decide) _).setSfr 0x82 (by decide) _

theorem Rel.cjne {s0 t : St H} {c : Cpu} (h : Rel s0 t c) (hp : t.pc < 0x10000) (x d j : Byte) :
    Rel s0 (cjneBody x d j t).2 ((c.setCY (decide (x.toNat < d.toNat))).relIf (decide (x ≠ d)) j) := by
  unfold cjneBody
  simp only [bind_def, bne_dec]
  exact (h.cy _).relIf hp _ _

theorem Rel.push {s0 t : St H} {c : Cpu} (h : Rel s0 t c) (hs : (c.SP + 1#8).toNat < P.iramSize) (v : Byte) :
    Rel s0 (pushByte P v t).2 (c.push v) := by
  unfold pushByte
  simp only [bind_def, sfrRead_SP, sfrWrite_SP]
  have e : t.sfr SP = c.SP := h.sfr 0x81 (by decide)
  rw [e]
  exact (h.setSfr 0x81 (by decide) _).iramWrite _ hs v

theorem Rel.pop {s0 t : St H} {c : Cpu} (h : Rel s0 t c) (hs : c.SP.toNat < P.iramSize) :
    Rel s0 (popByte P t).2 c.drop ∧ (popByte P t).1 = c.top := by
  unfold popByte
  simp only [bind_def, pure_def, sfrRead_SP, sfrWrite_SP]
  have e : t.sfr SP = c.SP := h.sfr 0x81 (by decide)
  rw [e, iramRead_in _ hs]
  exact ⟨h.setSfr 0x81 (by decide) _, by rw [h.iram]; rfl⟩

theorem sfrRead_P2 (hp : Tame P (0xa0#8).toNat) (n k : Nat) : sfrRead P P2 false (after s n k) = (s.sfr 0xa0, after s n k) := by
  have h : PlainSfr P P2 := (hp.resolve_left (by decide)).resolve_left (by decide)
  unfold sfrRead
  rw [if_neg (by decide), h.rd, h.eff]; rfl

theorem touchP2 {n : Nat} (h : (code s 0).toNat = n) (hn : n = 0xe2 ∨ n = 0xe3 ∨ n = 0xf2 ∨ n = 0xf3) :
    0xa0#8 ∈ (toCpu s).touched := by
  have h' : ((toCpu s).code 0).toNat = n := h
  unfold Cpu.touched
  simp only [h']
  rw [if_neg (by omega), if_neg (by omega), if_neg (by omega), if_neg (by omega), if_pos hn]; exact List.mem_singleton.mpr rfl

theorem isa_nop (h : Pre P s) (hd : decode (code s 0) = .nop) :
    Rel s (exec P .nop (code s 0) (after s 1 1)).2 (toCpu s).step := by
  have h0 := op_one hd
  rw [step_low h0 (by decide)]
  exact h.base 1 1

theorem isa_rr (h : Pre P s) (hd : decode (code s 0) = .rr) :
    Rel s (exec P .rr (code s 0) (after s 1 1)).2 (toCpu s).step := by
  have h0 := op_one hd
  rw [step_low h0 (by decide)]
  isa [rr_val]
  exact (h.base 1 1).acc _

theorem isa_rl (h : Pre P s) (hd : decode (code s 0) = .rl) :
    Rel s (exec P .rl (code s 0) (after s 1 1)).2 (toCpu s).step := by
  have h0 := op_one hd
  rw [step_low h0 (by decide)]
  isa [rl_val]
  exact (h.base 1 1).acc _

theorem isa_rrc (h : Pre P s) (hd : decode (code s 0) = .rrc) :
    Rel s (exec P .rrc (code s 0) (after s 1 1)).2 (toCpu s).step := by
  have h0 := op_one hd
  rw [step_low h0 (by decide)]
  isa [rrc_val, rrc_cy]
  have r := ((h.base 1 1).cy ((toCpu s).A.getLsbD 0)).acc (P := P) (Cpu.withBit ((toCpu s).A >>> 1) 7 (toCpu s).CY)
  rw [setCY_setA] at r
  exact r

theorem isa_rlc (h : Pre P s) (hd : decode (code s 0) = .rlc) :
    Rel s (exec P .rlc (code s 0) (after s 1 1)).2 (toCpu s).step := by
  have h0 := op_one hd
  rw [step_low h0 (by decide)]
  isa [rlc_val, rlc_cy]
  have r := ((h.base 1 1).cy ((toCpu s).A.getLsbD 7)).acc (P := P) (Cpu.withBit ((toCpu s).A <<< 1) 0 (toCpu s).CY)
  rw [setCY_setA] at r
  exact r

theorem isa_incDptr (h : Pre P s) (hd : decode (code s 0) = .incDptr) :
    Rel s (exec P .incDptr (code s 0) (after s 1 1)).2 (toCpu s).step := by
  have h0 := op_one hd
  rw [step_low h0 (by decide)]
  isa []
  exact ((h.base 1 1).dptrWrite _).tick 1

theorem isa_movDptr (h : Pre P s) (hd : decode (code s 0) = .movDptr) :
    Rel s (exec P .movDptr (code s 0) (after s 1 1)).2 (toCpu s).step := by
  have h0 := op_one hd
  rw [step_low h0 (by decide)]
  isa [Nat.mul_comm _ 256]
  exact ((h.base 3 1).dptrWrite _).tick 1

theorem isa_ljmp (h : Pre P s) (hd : decode (code s 0) = .ljmp) :
    Rel s (exec P .ljmp (code s 0) (after s 1 1)).2 (toCpu s).step := by
  have h0 := op_one hd
  rw [step_low h0 (by decide)]
  isa [Nat.mul_comm _ 256]
  exact ((h.base 3 1).jump _ (byte2_le _ _)).tick 1

theorem isa_jb (h : Pre P s) (hd : decode (code s 0) = .jb) :
    Rel s (exec P .jb (code s 0) (after s 1 1)).2 (toCpu s).step := by
  have h0 := op_one hd
  have hb := h.bit h0 (by decide)
  rw [step_low h0 (by decide)]
  isa [bitR_after _ hb]
  exact (h.base 3 2).relIf (after_lt _ _ _) _ _

theorem isa_jnb (h : Pre P s) (hd : decode (code s 0) = .jnb) :
    Rel s (exec P .jnb (code s 0) (after s 1 1)).2 (toCpu s).step := by
  have h0 := op_one hd
  have hb := h.bit h0 (by decide)
  rw [step_low h0 (by decide)]
  isa [bitR_after _ hb]
  exact (h.base 3 2).relIf (after_lt _ _ _) _ _

theorem isa_jbc (h : Pre P s) (hd : decode (code s 0) = .jbc) :
    Rel s (exec P .jbc (code s 0) (after s 1 1)).2 (toCpu s).step := by
  have h0 := op_one hd
  have hb := h.bit h0 (by decide)
  rw [step_low h0 (by decide)]
  isa []
  unfold Cpu.low
  by_cases hv : (toCpu s).bit (code s 1) = true
  · simp only [hv, ↓reduceIte, bind_def]
    exact (((h.base 3 1).bitWrite h.bits _ hb false).rel (by rw [bitWrite_pc]; exact after_lt _ _ _) _).tick 1
  · simp only [hv, ↓reduceIte, pure_def, Bool.false_eq_true]
    exact (h.base 3 1).tick 1

theorem isa_jc (h : Pre P s) (hd : decode (code s 0) = .jc) :
    Rel s (exec P .jc (code s 0) (after s 1 1)).2 (toCpu s).step := by
  have h0 := op_one hd
  rw [step_low h0 (by decide)]
  isa [Nat.add_zero]
  exact (h.base 2 2).relIf (after_lt _ _ _) _ _

theorem isa_jnc (h : Pre P s) (hd : decode (code s 0) = .jnc) :
    Rel s (exec P .jnc (code s 0) (after s 1 1)).2 (toCpu s).step := by
  have h0 := op_one hd
  rw [step_low h0 (by decide)]
  isa [Nat.add_zero]
  exact (h.base 2 2).relIf (after_lt _ _ _) _ _

theorem isa_jz (h : Pre P s) (hd : decode (code s 0) = .jz) :
    Rel s (exec P .jz (code s 0) (after s 1 1)).2 (toCpu s).step := by
  have h0 := op_one hd
  rw [step_low h0 (by decide)]
  isa [beq_dec]
  exact (h.base 2 2).relIf (after_lt _ _ _) _ _

theorem isa_jnz (h : Pre P s) (hd : decode (code s 0) = .jnz) :
    Rel s (exec P .jnz (code s 0) (after s 1 1)).2 (toCpu s).step := by
  have h0 := op_one hd
  rw [step_low h0 (by decide)]
  isa [bne_dec]
  exact (h.base 2 2).relIf (after_lt _ _ _) _ _

theorem isa_sjmp (h : Pre P s) (hd : decode (code s 0) = .sjmp) :
    Rel s (exec P .sjmp (code s 0) (after s 1 1)).2 (toCpu s).step := by
  have h0 := op_one hd
  rw [step_low h0 (by decide)]
  isa []
  exact ((h.base 2 1).rel (after_lt _ _ _) _).tick 1

theorem isa_cjneAImm (h : Pre P s) (hd : decode (code s 0) = .cjneAImm) :
    Rel s (exec P .cjneAImm (code s 0) (after s 1 1)).2 (toCpu s).step := by
  rw [step_four (op_one hd) (k := 11) rfl]
  isa []
  exact (h.base 3 2).cjne (after_lt _ _ _) _ _ _

theorem isa_cjneADir (h : Pre P s) (hd : decode (code s 0) = .cjneADir) :
    Rel s (exec P .cjneADir (code s 0) (after s 1 1)).2 (toCpu s).step := by
  have h0 := op_one hd
  have ht := h.tame1 (touch5 (k := 11) h0)
  rw [step_high (k := 11) (lo := 5) h0 (by decide) (by decide)]
  isa [h.dirR _ ht]
  exact (h.base 3 2).cjne (after_lt _ _ _) _ _ _

theorem isa_cjneRi (h : Pre P s) (hd : decode (code s 0) = .cjneRi) :
    Rel s (exec P .cjneRi (code s 0) (after s 1 1)).2 (toCpu s).step := by
  obtain ⟨h0, h1, h2⟩ := op_row hd
  have hr := h.riLt (k := 11) h0 (by omega)
  rw [step_high (k := 11) h0 (by omega) (by omega), high_ri (code s 0) (by omega)]
  simp only [Cpu.high, Cpu.opnd, Cpu.store, ri5, ri8, ri6, ↓reduceIte]
  isa [h.riA, iramRead_after _ hr]
  exact (h.base 3 2).cjne (after_lt _ _ _) _ _ _

theorem isa_cjneRn (h : Pre P s) (hd : decode (code s 0) = .cjneRn) :
    Rel s (exec P .cjneRn (code s 0) (after s 1 1)).2 (toCpu s).step := by
  obtain ⟨h0, h1, h2⟩ := op_row hd
  rw [step_high (k := 11) h0 (by omega) (by omega), high_rn (code s 0) (by omega)]
  simp only [Cpu.high, Cpu.opnd, Cpu.store, rn5, rn8, rn6, ↓reduceIte]
  isa [h.reg]
  exact (h.base 3 2).cjne (after_lt _ _ _) _ _ _

theorem isa_djnzRn (h : Pre P s) (hd : decode (code s 0) = .djnzRn) :
    Rel s (exec P .djnzRn (code s 0) (after s 1 1)).2 (toCpu s).step := by
  obtain ⟨h0, h1, h2⟩ := op_row hd
  rw [step_high (k := 13) h0 (by omega) (by omega), high_rn (code s 0) (by omega)]
  simp only [Cpu.high, Cpu.opnd, Cpu.store, rn5, rn8, rn6, ↓reduceIte]
  isa [h.reg]
  rw [bne_dec]
  exact ((h.base 2 2).regWrite _ _).relIf (after_lt s 2 2) _ _

theorem isa_djnzDir (h : Pre P s) (hd : decode (code s 0) = .djnzDir) :
    Rel s (exec P .djnzDir (code s 0) (after s 1 1)).2 (toCpu s).step := by
  have h0 := op_one hd
  have ht := h.tame1 (touch5 (k := 13) h0)
  rw [step_high (k := 13) (lo := 5) h0 (by decide) (by decide)]
  isa [h.dirR _ ht]
  have r := (h.base 3 2).dirWrite h.ok.size _ ht ((toCpu s).dir (code s 1) - 1#8)
  have hpc : (dirWrite P (code s 1) ((toCpu s).dir (code s 1) - 1#8) (after s 3 2)).2.pc < 0x10000 := by
    rw [dirWrite_pc]; exact after_lt _ _ _
  have r2 := r.relIf hpc (decide ((toCpu s).dir (code s 1) - 1#8 ≠ 0#8)) (code s 2)
  by_cases ha : (code s 1).toNat < 0x80
  · rw [if_pos ha]
    simp only [bind_def, pure_def, bne_dec]
    unfold dirWrite at r2
    rw [if_pos ha] at r2
    exact r2
  · rw [if_neg ha, ((h.base (1 + 1 + 1) (1 + 1)).sfrWrite _ (ht.resolve_left ha) _).2, bne_dec]
    unfold dirWrite at r2
    rw [if_neg ha] at r2
    exact r2

theorem isa_orlC (h : Pre P s) (hd : decode (code s 0) = .orlC) :
    Rel s (exec P .orlC (code s 0) (after s 1 1)).2 (toCpu s).step := by
  have h0 := op_one hd
  have hb := h.bit h0 (by decide)
  rw [step_low h0 (by decide)]
  isa []
  unfold Cpu.low
  cases hv : (toCpu s).CY <;> cases hw : (toCpu s).bit (code s 1) <;>
    simp only [↓reduceIte, pure_def, Bool.false_eq_true, bitR_after _ hb, hw] <;> exact ((h.base 2 1).cy _).tick 1

theorem isa_anlC (h : Pre P s) (hd : decode (code s 0) = .anlC) :
    Rel s (exec P .anlC (code s 0) (after s 1 1)).2 (toCpu s).step := by
  have h0 := op_one hd
  have hb := h.bit h0 (by decide)
  rw [step_low h0 (by decide)]
  isa []
  unfold Cpu.low
  cases hv : (toCpu s).CY <;> cases hw : (toCpu s).bit (code s 1) <;>
    simp only [↓reduceIte, pure_def, Bool.false_eq_true, bitR_after _ hb, hw] <;> exact ((h.base 2 1).cy _).tick 1

theorem isa_orlCN (h : Pre P s) (hd : decode (code s 0) = .orlCN) :
    Rel s (exec P .orlCN (code s 0) (after s 1 1)).2 (toCpu s).step := by
  have h0 := op_one hd
  have hb := h.bit h0 (by decide)
  rw [step_low h0 (by decide)]
  isa []
  unfold Cpu.low
  cases hv : (toCpu s).CY <;> cases hw : (toCpu s).bit (code s 1) <;>
    simp only [↓reduceIte, pure_def, Bool.false_eq_true, bitR_after _ hb, hw] <;> exact ((h.base 2 1).cy _).tick 1

theorem isa_anlCN (h : Pre P s) (hd : decode (code s 0) = .anlCN) :
    Rel s (exec P .anlCN (code s 0) (after s 1 1)).2 (toCpu s).step := by
  have h0 := op_one hd
  have hb := h.bit h0 (by decide)
  rw [step_low h0 (by decide)]
  isa []
  unfold Cpu.low
  cases hv : (toCpu s).CY <;> cases hw : (toCpu s).bit (code s 1) <;>
    simp only [↓reduceIte, pure_def, Bool.false_eq_true, bitR_after _ hb, hw] <;> exact ((h.base 2 1).cy _).tick 1

theorem isa_movBitC (h : Pre P s) (hd : decode (code s 0) = .movBitC) :
    Rel s (exec P .movBitC (code s 0) (after s 1 1)).2 (toCpu s).step := by
  have h0 := op_one hd
  have hb := h.bit h0 (by decide)
  rw [step_low h0 (by decide)]
  isa []
  exact ((h.base 2 1).bitWrite h.bits _ hb _).tick 1

theorem isa_movCBit (h : Pre P s) (hd : decode (code s 0) = .movCBit) :
    Rel s (exec P .movCBit (code s 0) (after s 1 1)).2 (toCpu s).step := by
  have h0 := op_one hd
  have hb := h.bit h0 (by decide)
  rw [step_low h0 (by decide)]
  isa [bitR_after _ hb]
  exact (h.base 2 1).cy _

theorem isa_cplBit (h : Pre P s) (hd : decode (code s 0) = .cplBit) :
    Rel s (exec P .cplBit (code s 0) (after s 1 1)).2 (toCpu s).step := by
  have h0 := op_one hd
  have hb := h.bit h0 (by decide)
  rw [step_low h0 (by decide)]
  isa []
  exact (h.base 2 1).bitWrite h.bits _ hb _

theorem isa_clrBit (h : Pre P s) (hd : decode (code s 0) = .clrBit) :
    Rel s (exec P .clrBit (code s 0) (after s 1 1)).2 (toCpu s).step := by
  have h0 := op_one hd
  have hb := h.bit h0 (by decide)
  rw [step_low h0 (by decide)]
  isa []
  exact (h.base 2 1).bitWrite h.bits _ hb _

theorem isa_setbBit (h : Pre P s) (hd : decode (code s 0) = .setbBit) :
    Rel s (exec P .setbBit (code s 0) (after s 1 1)).2 (toCpu s).step := by
  have h0 := op_one hd
  have hb := h.bit h0 (by decide)
  rw [step_low h0 (by decide)]
  isa []
  exact (h.base 2 1).bitWrite h.bits _ hb _

theorem isa_cplC (h : Pre P s) (hd : decode (code s 0) = .cplC) :
    Rel s (exec P .cplC (code s 0) (after s 1 1)).2 (toCpu s).step := by
  have h0 := op_one hd
  rw [step_low h0 (by decide)]
  isa [bitR_after CYbit (.inr (.inl (by decide)))]
  exact (h.base 1 1).bitWrite h.bits CYbit (.inr (.inl (by decide))) _

theorem isa_clrC (h : Pre P s) (hd : decode (code s 0) = .clrC) :
    Rel s (exec P .clrC (code s 0) (after s 1 1)).2 (toCpu s).step := by
  have h0 := op_one hd
  rw [step_low h0 (by decide)]
  isa []
  exact (h.base 1 1).bitWrite h.bits CYbit (.inr (.inl (by decide))) _

theorem isa_setbC (h : Pre P s) (hd : decode (code s 0) = .setbC) :
    Rel s (exec P .setbC (code s 0) (after s 1 1)).2 (toCpu s).step := by
  have h0 := op_one hd
  rw [step_low h0 (by decide)]
  isa []
  exact (h.base 1 1).bitWrite h.bits CYbit (.inr (.inl (by decide))) _

theorem isa_movcPC (h : Pre P s) (hd : decode (code s 0) = .movcPC) (ht : ∀ a ∈ (toCpu s).table, a < 0x10000) :
    Rel s (exec P .movcPC (code s 0) (after s 1 1)).2 (toCpu s).step := by
  have h0 := op_one hd
  rw [step_low h0 (by decide)]
  have hm := ht ((s.pc + 1) % 0x10000 + (toCpu s).A.toNat) (by
    unfold Cpu.table; simp only [show ((toCpu s).code 0).toNat = 0x83 from h0, ↓reduceIte]; exact List.mem_singleton.mpr rfl)
  isa [getPC, romRead, after_pc]
  rw [if_pos hm]
  have r := ((h.base 1 1).acc (P := P) (s.rom ((s.pc + 1) % 0x10000 + (toCpu s).A.toNat))).tick 1
  unfold Cpu.low
  rw [Nat.mod_eq_of_lt (show ((toCpu s).pc + 1) % 0x10000 + (toCpu s).A.toNat < 0x10000 from hm)]
  exact r

theorem isa_movcDptr (h : Pre P s) (hd : decode (code s 0) = .movcDptr) (ht : ∀ a ∈ (toCpu s).table, a < 0x10000) :
    Rel s (exec P .movcDptr (code s 0) (after s 1 1)).2 (toCpu s).step := by
  have h0 := op_one hd
  rw [step_low h0 (by decide)]
  have hm := ht ((toCpu s).DPTR + (toCpu s).A.toNat) (by
    unfold Cpu.table; simp only [show ((toCpu s).code 0).toNat = 0x93 from h0]; exact List.mem_singleton.mpr rfl)
  isa [romRead]
  rw [if_pos hm]
  have r := ((h.base 1 1).acc (P := P) (s.rom ((toCpu s).DPTR + (toCpu s).A.toNat))).tick 1
  unfold Cpu.low
  rw [Nat.mod_eq_of_lt hm]
  exact r

theorem isa_jmpADptr (h : Pre P s) (hd : decode (code s 0) = .jmpADptr) :
    Rel s (exec P .jmpADptr (code s 0) (after s 1 1)).2 (toCpu s).step := by
  have h0 := op_one hd
  rw [step_low h0 (by decide)]
  isa []
  have hA := (toCpu s).A.isLt
  have hD : (toCpu s).DPTR < 65536 := by
    have := (s.sfr 0x83).isLt
    have := (s.sfr 0x82).isLt
    unfold Cpu.DPTR; show 256 * (s.sfr 0x83).toNat + (s.sfr 0x82).toNat < _; omega
  refine Rel.tick ?_ 1
  refine Rel.setPc (c := toCpu s) ((h.base 1 1).setPc _ _ (Nat.mod_eq_of_lt h.ok.pc) (Nat.le_of_lt h.ok.pc)) _ _ ?_ ?_
  · unfold validate
    simp only
    split <;> omega
  · unfold validate
    simp only
    split <;> omega

theorem isa_movxADptr (h : Pre P s) (hd : decode (code s 0) = .movxADptr) :
    Rel s (exec P .movxADptr (code s 0) (after s 1 1)).2 (toCpu s).step := by
  have h0 := op_one hd
  rw [step_low h0 (by decide)]
  isa [xramRead]
  exact ((h.base 1 1).acc _).tick 1

theorem isa_movxDptrA (h : Pre P s) (hd : decode (code s 0) = .movxDptrA) :
    Rel s (exec P .movxDptrA (code s 0) (after s 1 1)).2 (toCpu s).step := by
  have h0 := op_one hd
  rw [step_low h0 (by decide)]
  isa []
  exact ((h.base 1 1).xramWrite _ _).tick 1

theorem isa_movxARi (h : Pre P s) (hd : decode (code s 0) = .movxARi) :
    Rel s (exec P .movxARi (code s 0) (after s 1 1)).2 (toCpu s).step := by
  obtain ⟨h0, h1, h2⟩ := op_row hd
  have hp := h.dir 0xa0#8 (touchP2 h0 (by omega))
  have e2 : ri (code s 0) = (code s 0).toNat % 16 - 2 := by unfold ri; omega
  isa [h.reg, xramRead, sfrRead_P2 hp, Nat.mul_comm _ 256]
  rcases (show (code s 0).toNat % 16 = 2 ∨ (code s 0).toNat % 16 = 3 by omega) with e | e
  · rw [e] at h0 e2
    rw [step_low h0 (by decide), e2]
    exact ((h.base 1 1).acc _).tick 1
  · rw [e] at h0 e2
    rw [step_low h0 (by decide), e2]
    exact ((h.base 1 1).acc _).tick 1

theorem isa_movxRiA (h : Pre P s) (hd : decode (code s 0) = .movxRiA) :
    Rel s (exec P .movxRiA (code s 0) (after s 1 1)).2 (toCpu s).step := by
  obtain ⟨h0, h1, h2⟩ := op_row hd
  have hp := h.dir 0xa0#8 (touchP2 h0 (by omega))
  have e2 : ri (code s 0) = (code s 0).toNat % 16 - 2 := by unfold ri; omega
  isa [h.reg, sfrRead_P2 hp, Nat.mul_comm _ 256]
  rcases (show (code s 0).toNat % 16 = 2 ∨ (code s 0).toNat % 16 = 3 by omega) with e | e
  · rw [e] at h0 e2
    rw [step_low h0 (by decide), e2]
    exact ((h.base 1 1).xramWrite _ _).tick 1
  · rw [e] at h0 e2
    rw [step_low h0 (by decide), e2]
    exact ((h.base 1 1).xramWrite _ _).tick 1

theorem isa_push (h : Pre P s) (hd : decode (code s 0) = .push) (hsp : code s 1 ≠ 0x81#8) :
    Rel s (exec P .push (code s 0) (after s 1 1)).2 (toCpu s).step := by
  have h0 := op_one hd
  have ht := h.tame1 (touchD h0 (by decide))
  have hs := h.ind ((toCpu s).SP + 1#8) (by
    unfold Cpu.reached; simp only [show ((toCpu s).code 0).toNat = 0xc0 from h0]; exact List.mem_singleton.mpr rfl)
  rw [step_low h0 (by decide)]
  isa [h.dirR _ ht]
  have e : (toCpu s).low 0xc0 (code s 1) (code s 2) = ((toCpu s).next 2).push ((toCpu s).dir (code s 1)) := by
    show (((toCpu s).next 2).setSP ((toCpu s).SP + 1#8)).setIram _ ((((toCpu s).next 2).setSP ((toCpu s).SP + 1#8)).dir (code s 1)) = _
    have : (((toCpu s).next 2).setSP ((toCpu s).SP + 1#8)).dir (code s 1) = (toCpu s).dir (code s 1) := by
      unfold Cpu.dir
      split
      · rfl
      · show Isa.put s.sfr 0x81 _ (code s 1).toNat = s.sfr (code s 1).toNat
        unfold Isa.put
        rw [if_neg (show ¬ (code s 1).toNat = 0x81 from fun e => hsp (BitVec.eq_of_toNat_eq e))]
    rw [this]; rfl
  rw [show 16 * 12 + 0 = 0xc0 from rfl, e]
  exact ((h.base 2 1).push hs _).tick 1

theorem isa_pop (h : Pre P s) (hd : decode (code s 0) = .pop) :
    Rel s (exec P .pop (code s 0) (after s 1 1)).2 (toCpu s).step := by
  have h0 := op_one hd
  have ht := h.tame1 (touchD h0 (by decide))
  have hs := h.ind (toCpu s).SP (by
    unfold Cpu.reached; simp only [show ((toCpu s).code 0).toNat = 0xd0 from h0]; exact List.mem_singleton.mpr rfl)
  rw [step_low h0 (by decide)]
  isa []
  obtain ⟨r, e⟩ := (h.base 2 1).pop (P := P) hs
  rw [e]
  exact (r.dirWrite h.ok.size _ ht _).tick 1


/-! ### AJMP, ACALL, LCALL, RET, RETI -/

theorem jop {o : Op} (hd : decode (code s 0) = o) (ho : o = .ajmp ∨ o = .acall) :
    (code s 0).toNat % 16 = 1 ∧ ((code s 0).toNat / 16 % 2 = 0 ↔ o = .ajmp) := by
  have key : ∀ c : Byte, decode c = .ajmp ∨ decode c = .acall → c.toNat % 16 = 1 ∧ (c.toNat / 16 % 2 = 0 ↔ decode c = .ajmp) := by
    decide +kernel
  have := key (code s 0) (by rw [hd]; exact ho)
  rw [hd] at this; exact this

theorem low_j (c : Cpu) (op b1 b2 : Byte) (h : op.toNat % 16 = 1) : c.low op.toNat b1 b2 =
    if op.toNat / 16 % 2 = 0 then (c.next 2).jump ((c.next 2).page op b1) else (c.next 2).call ((c.next 2).page op b1) := by
  have e : op = BitVec.ofNat 8 op.toNat := by simp
  have hl := op.isLt
  generalize op.toNat = n at *
  subst e
  rcases (show n = 0x01 ∨ n = 0x11 ∨ n = 0x21 ∨ n = 0x31 ∨ n = 0x41 ∨ n = 0x51 ∨ n = 0x61 ∨ n = 0x71 ∨ n = 0x81 ∨ n = 0x91 ∨
    n = 0xa1 ∨ n = 0xb1 ∨ n = 0xc1 ∨ n = 0xd1 ∨ n = 0xe1 ∨ n = 0xf1 by omega) with
    h | h | h | h | h | h | h | h | h | h | h | h | h | h | h | h <;> subst h <;> rfl

theorem step_j (h : (code s 0).toNat % 16 = 1) : (toCpu s).step =
    if (code s 0).toNat / 16 % 2 = 0 then ((toCpu s).next 2).jump (((toCpu s).next 2).page (code s 0) (code s 1))
    else ((toCpu s).next 2).call (((toCpu s).next 2).page (code s 0) (code s 1)) := by
  rw [step_low rfl (by omega), low_j _ _ _ _ h]

theorem isa_ajmp (h : Pre P s) (hd : decode (code s 0) = .ajmp) :
    Rel s (exec P .ajmp (code s 0) (after s 1 1)).2 (toCpu s).step := by
  have hj := jop hd (.inl rfl)
  isa [getPC]
  rw [step_j hj.1, if_pos (hj.2.2 rfl), addr11_eq _ (after_lt _ _ _)]
  exact (h.base 2 2).jump _ (page_le ((toCpu s).next 2) (after_lt s 2 1) _ _)

theorem push_sp (c : Cpu) (v : Byte) : (c.push v).SP = c.SP + 1#8 := rfl
theorem inc2 : ∀ v : Byte, v + 1#8 + 1#8 = v + 2#8 := by decide +kernel

/-- Both bytes of the return address and the jump. -/
theorem Rel.call {s0 t : St H} {c : Cpu} (h : Rel s0 t c) (h1 : (c.SP + 1#8).toNat < P.iramSize) (h2 : (c.SP + 2#8).toNat < P.iramSize)
    (hp : t.pc < 0x10000) (a : Nat) (l : a ≤ 0x10000) :
    Rel s0 (setPC a (pushByte P (byte (t.pc / 256)) (S51.tick 1 (pushByte P (byte t.pc) t).2).2).2).2 (c.call a) := by
  have e : t.pc = c.pc := by rw [← h.pc, Nat.mod_eq_of_lt hp]
  rw [e]
  exact ((((h.push h1 (byte c.pc)).tick 1).push (by rw [push_sp, inc2]; exact h2) (byte (c.pc / 256))).jump a l)

theorem reach2 (h : (code s 0).toNat = 0x12 ∨ (code s 0).toNat % 32 = 17) :
    (toCpu s).SP + 1#8 ∈ (toCpu s).reached ∧ (toCpu s).SP + 2#8 ∈ (toCpu s).reached := by
  have h' : ((toCpu s).code 0).toNat = (code s 0).toNat := rfl
  have e : (toCpu s).reached = [(toCpu s).SP + 1#8, (toCpu s).SP + 2#8] := by
    unfold Cpu.reached
    simp only [h']
    rw [if_neg (by omega), if_neg (by omega), if_neg (by omega), if_pos h]
  rw [e]
  exact ⟨List.mem_cons_self, List.mem_cons_of_mem _ List.mem_cons_self⟩

theorem isa_acall (h : Pre P s) (hd : decode (code s 0) = .acall) :
    Rel s (exec P .acall (code s 0) (after s 1 1)).2 (toCpu s).step := by
  have hj := jop hd (.inr rfl)
  have hn : ¬ (code s 0).toNat / 16 % 2 = 0 := fun e => by simpa using hj.2.1 e
  isa [getPC]
  rw [step_j hj.1, if_neg hn, addr11_eq _ (after_lt _ _ _)]
  have hr := reach2 (s := s) (by omega)
  exact (h.base 2 1).call (h.ind _ hr.1) (h.ind _ hr.2) (after_lt _ _ _) _ (page_le ((toCpu s).next 2) (after_lt s 2 1) _ _)

theorem isa_lcall (h : Pre P s) (hd : decode (code s 0) = .lcall) :
    Rel s (exec P .lcall (code s 0) (after s 1 1)).2 (toCpu s).step := by
  have h0 := op_one hd
  have hr := reach2 (s := s) (.inl h0)
  rw [step_low h0 (by decide)]
  isa [getPC, Nat.mul_comm _ 256]
  exact (h.base 3 1).call (h.ind _ hr.1) (h.ind _ hr.2) (after_lt _ _ _) _ (byte2_le _ _)

theorem reachRet (h : (code s 0).toNat = 0x22 ∨ (code s 0).toNat = 0x32) :
    (toCpu s).SP ∈ (toCpu s).reached ∧ (toCpu s).SP - 1#8 ∈ (toCpu s).reached := by
  have h' : ((toCpu s).code 0).toNat = (code s 0).toNat := rfl
  have e : (toCpu s).reached = [(toCpu s).SP, (toCpu s).SP - 1#8] := by
    unfold Cpu.reached
    simp only [h']
    rw [if_neg (by omega), if_neg (by omega), if_neg (by omega), if_neg (by omega), if_pos h]
  rw [e]
  exact ⟨List.mem_cons_self, List.mem_cons_of_mem _ List.mem_cons_self⟩

/-- RET on the state after the fetch; the PC of the manual's machine is replaced. -/
theorem Rel.ret {s0 t : St H} {c : Cpu} (h : Rel s0 t c) (h1 : c.SP.toNat < P.iramSize) (h2 : (c.SP - 1#8).toNat < P.iramSize) :
    Rel s0 (retBody P t).2 c.ret := by
  unfold retBody
  simp only [bind_def]
  obtain ⟨r1, e1⟩ := h.pop (P := P) h1
  obtain ⟨r2, e2⟩ := (r1.tick 1).pop (P := P) h2
  rw [e1, e2, Nat.mul_comm]
  exact r2.jump _ (byte2_le _ _)

theorem isa_ret (h : Pre P s) (hd : decode (code s 0) = .ret) :
    Rel s (exec P .ret (code s 0) (after s 1 1)).2 (toCpu s).step := by
  have h0 := op_one hd
  have hr := reachRet (s := s) (.inl h0)
  rw [step_low h0 (by decide)]
  exact (h.base 1 1).ret (h.ind _ hr.1) (h.ind _ hr.2)

theorem Rel.popLevel {s0 t : St H} {c : Cpu} (h : Rel s0 t c) : Rel s0 (popLevel t).2 c := by
  unfold S51.popLevel
  split
  · split
    · exact ⟨h.pc, h.iram, h.xram, h.rom, h.sfr, h.psw, h.bank, h.hw, h.state, h.le⟩
    · exact h
  · exact h

theorem isa_reti (h : Pre P s) (hd : decode (code s 0) = .reti) :
    Rel s (exec P .reti (code s 0) (after s 1 1)).2 (toCpu s).step := by
  have h0 := op_one hd
  have hr := reachRet (s := s) (.inr h0)
  rw [step_low h0 (by decide)]
  isa []
  exact (((h.base 1 1).ret (h.ind _ hr.1) (h.ind _ hr.2)).setReti true).popLevel

/-! ### MUL, DIV, DA -/

theorem isa_mul (h : Pre P s) (hd : decode (code s 0) = .mul) :
    Rel s (exec P .mul (code s 0) (after s 1 1)).2 (toCpu s).step := by
  rw [step_four (op_one hd) (k := 10) rfl]
  have hA := (toCpu s).A.isLt
  have hB := (toCpu s).B.isLt
  have hov : (byte ((toCpu s).A.toNat * (toCpu s).B.toNat / 256) != 0#8) = decide (255 < (toCpu s).A.toNat * (toCpu s).B.toNat) := by
    have hm : (toCpu s).A.toNat * (toCpu s).B.toNat < 256 * 256 :=
      Nat.mul_lt_mul'' hA hB
    rw [bne_dec]
    congr 1
    refine propext ⟨fun hne => ?_, fun hlt he => ?_⟩
    · refine Nat.lt_of_not_le fun hle => hne ?_
      rw [show (toCpu s).A.toNat * (toCpu s).B.toNat / 256 = 0 by omega]; rfl
    · have := congrArg BitVec.toNat he
      rw [byte_toNat] at this
      simp at this
      omega
  have r1 := (h.base 1 1).acc (P := P) (byte ((toCpu s).A.toNat * (toCpu s).B.toNat))
  obtain ⟨e, r2⟩ := r1.coreWrite (P := P) 0xf0 (by decide) (by decide) (by decide) (byte ((toCpu s).A.toNat * (toCpu s).B.toNat / 256))
  have r3 := ((r2.ov (decide (255 < (toCpu s).A.toNat * (toCpu s).B.toNat))).clrCy false).tick 3
  have e' : ∀ c : Cpu, ∀ b : Bool, (c.setOV b).setCY false = (c.setCY false).setOV b := by
    intro c b
    have key : ∀ (p : Byte) (b : Bool), Cpu.withBit (Cpu.withBit p 2 b) 7 false = Cpu.withBit (Cpu.withBit p 7 false) 2 b := by decide +kernel
    refine Isa.Cpu.ext rfl rfl ?_ rfl rfl
    funext x
    show Isa.put (Isa.put c.sfr 0xd0 _) 0xd0 (Cpu.withBit (Isa.put c.sfr 0xd0 _ 0xd0) 7 false) x =
      Isa.put (Isa.put c.sfr 0xd0 _) 0xd0 (Cpu.withBit (Isa.put c.sfr 0xd0 _ 0xd0) 2 b) x
    unfold Isa.put
    split
    · exact key _ _
    · rfl
  rw [e'] at r3
  unfold exec mulAB
  isa [sfrGet]
  have e2 : sfrWrite P SFRB (byte ((toCpu s).A.toNat * (toCpu s).B.toNat / 256))
      (sfrWrite P ACC (byte ((toCpu s).A.toNat * (toCpu s).B.toNat)) (after s 1 1)).2 = _ := e
  show Rel s (tick 3 (sfrSetBit false PSW 0x80#8 (sfrSetBit ((sfrWrite P SFRB (byte ((toCpu s).A.toNat * (toCpu s).B.toNat / 256))
      (sfrWrite P ACC (byte ((toCpu s).A.toNat * (toCpu s).B.toNat)) (after s 1 1)).2).1 != 0#8) PSW 0x04#8
      (sfrWrite P SFRB (byte ((toCpu s).A.toNat * (toCpu s).B.toNat / 256))
      (sfrWrite P ACC (byte ((toCpu s).A.toNat * (toCpu s).B.toNat)) (after s 1 1)).2).2).2).2).2 _
  rw [e2]
  simp only [hov]
  exact r3

theorem isa_div (h : Pre P s) (hd : decode (code s 0) = .div) :
    Rel s (exec P .div (code s 0) (after s 1 1)).2 (toCpu s).step := by
  rw [step_four (op_one hd) (k := 8) rfl]
  have k7 : ∀ p : Byte, p &&& ~~~(0x80#8) = Cpu.withBit p 7 false := by decide +kernel
  have k2 : ∀ p : Byte, p ||| 0x04#8 = Cpu.withBit p 2 true := by decide +kernel
  have k2' : ∀ p : Byte, p &&& ~~~(0x04#8) = Cpu.withBit p 2 false := by decide +kernel
  isa [divAB, sfrGet]
  show Rel s ((if (toCpu s).B = 0#8 then _ else _ : M H Unit) (after s 1 1)).2 _
  unfold Cpu.four
  by_cases hb : (toCpu s).B = 0#8
  · rw [if_pos hb]
    simp only [if_pos hb, bind_def, k7, k2]
    have r := (((h.base 1 1).pswWrite (P := P) (Cpu.withBit (Cpu.withBit (s.sfr 0xd0) 7 false) 2 true) _ (fun _ _ => rfl)).acc (P := P) (toCpu s).A).tick 3
    have e : ((((toCpu s).next 1).setSfr 0xd0 (Cpu.withBit (Cpu.withBit (s.sfr 0xd0) 7 false) 2 true)).setA (toCpu s).A) =
        ((((toCpu s).next 1).setCY false).setOV true) := by
      refine Isa.Cpu.ext rfl rfl ?_ rfl rfl
      funext x
      show Isa.put (Isa.put s.sfr 0xd0 _) 0xe0 (s.sfr 0xe0) x =
        Isa.put (Isa.put s.sfr 0xd0 _) 0xd0 (Cpu.withBit (Isa.put s.sfr 0xd0 _ 0xd0) 2 true) x
      unfold Isa.put
      by_cases h1 : x = 0xd0
      · subst h1; rfl
      · by_cases h2 : x = 0xe0
        · subst h2; rfl
        · simp only [h1, h2, ↓reduceIte]
    rw [e] at r
    exact r
  · rw [if_neg hb]
    simp only [if_neg hb, bind_def, k7, k2']
    obtain ⟨e0, r0⟩ := (h.base 1 1).coreWrite (P := P) 0xf0 (by decide) (by decide) (by decide) (byte ((toCpu s).A.toNat % (toCpu s).B.toNat))
    have r := ((r0.pswWrite (P := P) (Cpu.withBit (Cpu.withBit (s.sfr 0xd0) 7 false) 2 false) _ (fun _ _ => rfl)).acc (P := P)
      (byte ((toCpu s).A.toNat / (toCpu s).B.toNat))).tick 3
    have e : ((((toCpu s).next 1).setSfr 0xf0 (byte ((toCpu s).A.toNat % (toCpu s).B.toNat))).setSfr 0xd0
          (Cpu.withBit (Cpu.withBit (s.sfr 0xd0) 7 false) 2 false)).setA (byte ((toCpu s).A.toNat / (toCpu s).B.toNat)) =
        (((((toCpu s).next 1).setA (byte ((toCpu s).A.toNat / (toCpu s).B.toNat))).setB (byte ((toCpu s).A.toNat % (toCpu s).B.toNat))).setCY false).setOV false := by
      refine Isa.Cpu.ext rfl rfl ?_ rfl rfl
      funext x
      show Isa.put (Isa.put (Isa.put s.sfr 0xf0 _) 0xd0 _) 0xe0 _ x =
        Isa.put (Isa.put (Isa.put (Isa.put s.sfr 0xe0 _) 0xf0 _) 0xd0 _) 0xd0 _ x
      by_cases h1 : x = 0xd0
      · subst h1; rfl
      · by_cases h2 : x = 0xe0
        · subst h2; rfl
        · by_cases h3 : x = 0xf0
          · subst h3; rfl
          · unfold Isa.put
            simp only [h1, h2, h3, ↓reduceIte]
    rw [e] at r
    have e2 : sfrWrite P SFRB (byte ((toCpu s).A.toNat % (toCpu s).B.toNat)) (after s 1 1) = _ := e0
    show Rel s (tick 3 (sfrWrite P ACC _ (sfrWrite P PSW _ (sfrWrite P SFRB (byte ((toCpu s).A.toNat % (toCpu s).B.toNat)) (after s 1 1)).2).2).2).2 _
    rw [e2]
    exact r

/-- DA A on accumulator and flags. -/
theorem da_val (a p : Byte) : daHigh (daLow a p).1 (daLow a p).2 =
    (let a1 := if a.toNat % 16 > 9 ∨ p.getLsbD 6 = true then a.toNat + 6 else a.toNat
     let cy1 := p.getLsbD 7 || decide (255 < a1)
     let a2 := if a1 % 256 / 16 > 9 ∨ cy1 = true then a1 % 256 + 0x60 else a1 % 256
     (BitVec.ofNat 8 a2, Cpu.withBit p 7 (cy1 || decide (255 < a2)))) := by
  have k1 : ∀ p : Byte, p ||| 0x80#8 = Cpu.withBit p 7 true := by decide +kernel
  have k2 : ∀ p : Byte, p = Cpu.withBit p 7 (p.getLsbD 7) := by decide +kernel
  have k3 : ∀ p : Byte, (Cpu.withBit p 7 true).getLsbD 7 = true := by decide +kernel
  have k4 : ∀ p : Byte, Cpu.withBit (Cpu.withBit p 7 true) 7 true = Cpu.withBit p 7 true := by decide +kernel
  have e1 : a.toNat &&& 15 = a.toNat % 16 := Nat.and_two_pow_sub_one_eq_mod _ 4
  have e2 : ∀ x : Byte, ((x.toNat &&& 0xf0) > 0x90) ↔ x.toNat / 16 > 9 := by decide +kernel
  have ha := a.isLt
  have low : daLow a p = (BitVec.ofNat 8 (if a.toNat % 16 > 9 ∨ p.getLsbD 6 = true then a.toNat + 6 else a.toNat),
      Cpu.withBit p 7 (p.getLsbD 7 || decide (255 < if a.toNat % 16 > 9 ∨ p.getLsbD 6 = true then a.toNat + 6 else a.toNat))) := by
    unfold daLow
    rw [e1]
    simp only [mask40]
    split
    · have : a + 6#8 = BitVec.ofNat 8 (a.toNat + 6) := by
        apply BitVec.eq_of_toNat_eq; simp
      rw [this]
      congr 1
      by_cases h : a.toNat + 6 > 255
      · rw [if_pos h, decide_eq_true (show 255 < a.toNat + 6 from h), Bool.or_true, k1]
      · rw [if_neg h, decide_eq_false (show ¬ 255 < a.toNat + 6 from h), Bool.or_false, ← k2]
    · rw [decide_eq_false (show ¬ 255 < a.toNat by omega), Bool.or_false, ← k2]
      simp
  rw [low]
  simp only
  generalize (if a.toNat % 16 > 9 ∨ p.getLsbD 6 = true then a.toNat + 6 else a.toNat) = a1
  have g : ∀ b : Bool, (Cpu.withBit p 7 b).getLsbD 7 = b := fun b => by
    have := withBit_get p ⟨7, by decide⟩ b ⟨7, by decide⟩
    simpa using this
  have g2 : ∀ b c : Bool, Cpu.withBit (Cpu.withBit p 7 b) 7 c = Cpu.withBit p 7 c := fun b c => by
    have : ∀ (p : Byte) (b c : Bool), Cpu.withBit (Cpu.withBit p 7 b) 7 c = Cpu.withBit p 7 c := by decide +kernel
    exact this p b c
  unfold daHigh
  have e3 : (a1 % 2 ^ 8 &&& 0xf0 > 0x90) ↔ a1 % 256 / 16 > 9 := by
    have := e2 (BitVec.ofNat 8 a1)
    rw [BitVec.toNat_ofNat] at this; exact this
  simp only [mask80, g, BitVec.toNat_ofNat, k1, g2, e3]
  generalize (p.getLsbD 7 || decide (255 < a1)) = cy
  split
  · have : BitVec.ofNat 8 a1 + 0x60#8 = BitVec.ofNat 8 (a1 % 256 + 0x60) := by
      apply BitVec.eq_of_toNat_eq; simp [BitVec.toNat_add]
    rw [this]
    congr 1
    by_cases h : a1 % 2 ^ 8 + 96 > 255
    · rw [if_pos h, decide_eq_true (show 255 < a1 % 256 + 0x60 from h), Bool.or_true]
    · rw [if_neg h, decide_eq_false (show ¬ 255 < a1 % 256 + 0x60 from h), Bool.or_false]
  · rw [decide_eq_false (show ¬ 255 < a1 % 256 by omega), Bool.or_false]
    congr 1
    apply BitVec.eq_of_toNat_eq; simp

theorem isa_da (h : Pre P s) (hd : decode (code s 0) = .da) :
    Rel s (exec P .da (code s 0) (after s 1 1)).2 (toCpu s).step := by
  rw [step_four (op_one hd) (k := 13) rfl]
  isa [sfrGet]
  show Rel s (sfrWrite P ACC (daHigh (daLow (s.sfr 0xe0) (s.sfr 0xd0)).1 (daLow (s.sfr 0xe0) (s.sfr 0xd0)).2).1 (sfrWrite P PSW
    (daHigh (daLow (s.sfr 0xe0) (s.sfr 0xd0)).1 (daLow (s.sfr 0xe0) (s.sfr 0xd0)).2).2 (after s 1 1)).2).2 ((toCpu s).next 1).da
  rw [da_val]
  unfold Cpu.da
  simp only
  rw [← setCY_setA]
  exact ((h.base 1 1).pswWrite _ _ (fun _ _ => rfl)).acc _

/-- One instruction of the program is one instruction of the manual's machine. -/
theorem isa_step (h : Pre P s) (hu : (code s 0) ≠ 0xa5#8) (ht : ∀ a ∈ (toCpu s).table, a < 0x10000)
    (hp : code s 0 = 0xc0#8 → code s 1 ≠ 0x81#8) : Rel s (execInst P s).2 (toCpu s).step := by
  rw [execInst_after P s h.ok.pc]
  have hpush : decode (code s 0) = .push → code s 0 = 0xc0#8 := by
    intro hd; have := op_one hd; exact BitVec.eq_of_toNat_eq this
  have hund : decode (code s 0) = .undef → code s 0 = 0xa5#8 := by
    intro hd; have := op_one hd; exact BitVec.eq_of_toNat_eq this
  cases hd : decode (code s 0)
  case nop => exact isa_nop h hd
  case ajmp => exact isa_ajmp h hd
  case ljmp => exact isa_ljmp h hd
  case rr => exact isa_rr h hd
  case incA => exact isa_incA h hd
  case incDir => exact isa_incDir h hd
  case incRi => exact isa_incRi h hd
  case incRn => exact isa_incRn h hd
  case jbc => exact isa_jbc h hd
  case acall => exact isa_acall h hd
  case lcall => exact isa_lcall h hd
  case rrc => exact isa_rrc h hd
  case decA => exact isa_decA h hd
  case decDir => exact isa_decDir h hd
  case decRi => exact isa_decRi h hd
  case decRn => exact isa_decRn h hd
  case jb => exact isa_jb h hd
  case ret => exact isa_ret h hd
  case rl => exact isa_rl h hd
  case addImm => exact isa_addImm h hd
  case addDir => exact isa_addDir h hd
  case addRi => exact isa_addRi h hd
  case addRn => exact isa_addRn h hd
  case jnb => exact isa_jnb h hd
  case reti => exact isa_reti h hd
  case rlc => exact isa_rlc h hd
  case addcImm => exact isa_addcImm h hd
  case addcDir => exact isa_addcDir h hd
  case addcRi => exact isa_addcRi h hd
  case addcRn => exact isa_addcRn h hd
  case jc => exact isa_jc h hd
  case orlDirA => exact isa_orlDirA h hd
  case orlDirImm => exact isa_orlDirImm h hd
  case orlImm => exact isa_orlImm h hd
  case orlDir => exact isa_orlDir h hd
  case orlRi => exact isa_orlRi h hd
  case orlRn => exact isa_orlRn h hd
  case jnc => exact isa_jnc h hd
  case anlDirA => exact isa_anlDirA h hd
  case anlDirImm => exact isa_anlDirImm h hd
  case anlImm => exact isa_anlImm h hd
  case anlDir => exact isa_anlDir h hd
  case anlRi => exact isa_anlRi h hd
  case anlRn => exact isa_anlRn h hd
  case jz => exact isa_jz h hd
  case xrlDirA => exact isa_xrlDirA h hd
  case xrlDirImm => exact isa_xrlDirImm h hd
  case xrlImm => exact isa_xrlImm h hd
  case xrlDir => exact isa_xrlDir h hd
  case xrlRi => exact isa_xrlRi h hd
  case xrlRn => exact isa_xrlRn h hd
  case jnz => exact isa_jnz h hd
  case orlC => exact isa_orlC h hd
  case jmpADptr => exact isa_jmpADptr h hd
  case movAImm => exact isa_movAImm h hd
  case movDirImm => exact isa_movDirImm h hd
  case movRiImm => exact isa_movRiImm h hd
  case movRnImm => exact isa_movRnImm h hd
  case sjmp => exact isa_sjmp h hd
  case anlC => exact isa_anlC h hd
  case movcPC => exact isa_movcPC h hd ht
  case div => exact isa_div h hd
  case movDirDir => exact isa_movDirDir h hd
  case movDirRi => exact isa_movDirRi h hd
  case movDirRn => exact isa_movDirRn h hd
  case movDptr => exact isa_movDptr h hd
  case movBitC => exact isa_movBitC h hd
  case movcDptr => exact isa_movcDptr h hd ht
  case subbImm => exact isa_subbImm h hd
  case subbDir => exact isa_subbDir h hd
  case subbRi => exact isa_subbRi h hd
  case subbRn => exact isa_subbRn h hd
  case orlCN => exact isa_orlCN h hd
  case movCBit => exact isa_movCBit h hd
  case incDptr => exact isa_incDptr h hd
  case mul => exact isa_mul h hd
  case undef => exact absurd (hund hd) hu
  case movRiDir => exact isa_movRiDir h hd
  case movRnDir => exact isa_movRnDir h hd
  case anlCN => exact isa_anlCN h hd
  case cplBit => exact isa_cplBit h hd
  case cplC => exact isa_cplC h hd
  case cjneAImm => exact isa_cjneAImm h hd
  case cjneADir => exact isa_cjneADir h hd
  case cjneRi => exact isa_cjneRi h hd
  case cjneRn => exact isa_cjneRn h hd
  case push => exact isa_push h hd (hp (hpush hd))
  case clrBit => exact isa_clrBit h hd
  case clrC => exact isa_clrC h hd
  case swap => exact isa_swap h hd
  case xchDir => exact isa_xchDir h hd
  case xchRi => exact isa_xchRi h hd
  case xchRn => exact isa_xchRn h hd
  case pop => exact isa_pop h hd
  case setbBit => exact isa_setbBit h hd
  case setbC => exact isa_setbC h hd
  case da => exact isa_da h hd
  case djnzDir => exact isa_djnzDir h hd
  case xchd => exact isa_xchd h hd
  case djnzRn => exact isa_djnzRn h hd
  case movxADptr => exact isa_movxADptr h hd
  case movxARi => exact isa_movxARi h hd
  case clrA => exact isa_clrA h hd
  case movADir => exact isa_movADir h hd
  case movARi => exact isa_movARi h hd
  case movARn => exact isa_movARn h hd
  case movxDptrA => exact isa_movxDptrA h hd
  case movxRiA => exact isa_movxRiA h hd
  case cplA => exact isa_cplA h hd
  case movDirA => exact isa_movDirA h hd
  case movRiA => exact isa_movRiA h hd
  case movRnA => exact isa_movRnA h hd

end Ucsim.S51
