import Verif.Spec.S51Isa
import Verif.S51.State
/-!
The manual's instructions neither see nor change registers that they do not name: what
they do commutes with replacing the registers of the devices.
-/
namespace Ucsim.S51
open Isa (Cpu)

/-- The registers of the devices replaced by `f`. -/
def mask (f : Nat → Byte) (c : Cpu) : Cpu := { c with sfr := fun a => if isCore a then c.sfr a else f a }

variable (f : Nat → Byte) (c : Cpu)

theorem mask_put (g : Nat → Byte) (a : Nat) (v : Byte) (ha : isCore a = true) :
    Isa.put (fun x => if isCore x then g x else f x) a v = fun x => if isCore x then Isa.put g a v x else f x := by
  funext x; unfold Isa.put
  by_cases h : x = a
  · subst h; simp [ha]
  · simp [h]

theorem mask_setSfr (a : Nat) (v : Byte) (ha : isCore a = true) : (mask f c).setSfr a v = mask f (c.setSfr a v) :=
  Isa.Cpu.ext rfl rfl (mask_put f c.sfr a v ha) rfl rfl

theorem mask_A : (mask f c).A = c.A := rfl
theorem mask_B : (mask f c).B = c.B := rfl
theorem mask_SP : (mask f c).SP = c.SP := rfl
theorem mask_DPTR : (mask f c).DPTR = c.DPTR := rfl
theorem mask_psw : (mask f c).psw = c.psw := rfl
theorem mask_CY : (mask f c).CY = c.CY := rfl
theorem mask_AC : (mask f c).AC = c.AC := rfl
theorem mask_R (n : Nat) : (mask f c).R n = c.R n := rfl
theorem mask_ind (n : Nat) : (mask f c).ind n = c.ind n := rfl
theorem mask_code (n : Nat) : (mask f c).code n = c.code n := rfl
theorem mask_pc : (mask f c).pc = c.pc := rfl
theorem mask_rom : (mask f c).rom = c.rom := rfl
theorem mask_xram : (mask f c).xram = c.xram := rfl
theorem mask_top : (mask f c).top = c.top := rfl
theorem mask_next (n : Nat) : (mask f c).next n = mask f (c.next n) := rfl
theorem mask_jump (n : Nat) : (mask f c).jump n = mask f (c.jump n) := rfl
theorem mask_rel (d : Byte) : (mask f c).rel d = mask f (c.rel d) := rfl
theorem mask_relIf (b : Bool) (d : Byte) : (mask f c).relIf b d = mask f (c.relIf b d) := by cases b <;> rfl
theorem mask_setIram (a : Nat) (v : Byte) : (mask f c).setIram a v = mask f (c.setIram a v) := rfl
theorem mask_setXram (a : Nat) (v : Byte) : (mask f c).setXram a v = mask f (c.setXram a v) := rfl
theorem mask_setR (n : Nat) (v : Byte) : (mask f c).setR n v = mask f (c.setR n v) := rfl
theorem mask_setInd (n : Nat) (v : Byte) : (mask f c).setInd n v = mask f (c.setInd n v) := rfl
theorem mask_setA (v : Byte) : (mask f c).setA v = mask f (c.setA v) := mask_setSfr f c _ v (by decide)
theorem mask_setB (v : Byte) : (mask f c).setB v = mask f (c.setB v) := mask_setSfr f c _ v (by decide)
theorem mask_setSP (v : Byte) : (mask f c).setSP v = mask f (c.setSP v) := mask_setSfr f c _ v (by decide)
theorem mask_setDPTR (v : Nat) : (mask f c).setDPTR v = mask f (c.setDPTR v) := by
  unfold Cpu.setDPTR; rw [mask_setSfr f c _ _ (by decide), mask_setSfr f _ _ _ (by decide)]
theorem mask_setFlag (i : Nat) (b : Bool) : (mask f c).setFlag i b = mask f (c.setFlag i b) := mask_setSfr f c _ _ (by decide)
theorem mask_setCY (b : Bool) : (mask f c).setCY b = mask f (c.setCY b) := mask_setFlag f c 7 b
theorem mask_setAC (b : Bool) : (mask f c).setAC b = mask f (c.setAC b) := mask_setFlag f c 6 b
theorem mask_setOV (b : Bool) : (mask f c).setOV b = mask f (c.setOV b) := mask_setFlag f c 2 b
theorem mask_page (a b : Byte) : (mask f c).page a b = c.page a b := rfl

theorem mask_add (x : Byte) (k : Nat) : (mask f c).add x k = mask f (c.add x k) := by
  unfold Cpu.add; simp only [mask_A, mask_setA, mask_setCY, mask_setOV, mask_setAC]; rfl
theorem mask_sub (x : Byte) (k : Nat) : (mask f c).sub x k = mask f (c.sub x k) := by
  unfold Cpu.sub; simp only [mask_A, mask_setA, mask_setCY, mask_setOV, mask_setAC]; rfl
theorem mask_da : (mask f c).da = mask f c.da := by
  unfold Cpu.da; simp only [mask_A, mask_CY, mask_AC, mask_setA, mask_setCY]; rfl
theorem mask_push (v : Byte) : (mask f c).push v = mask f (c.push v) := by
  unfold Cpu.push; simp only [mask_SP, mask_setSP, mask_setIram]
theorem mask_drop : (mask f c).drop = mask f c.drop := by
  unfold Cpu.drop; simp only [mask_SP, mask_setSP]
theorem mask_call (a : Nat) : (mask f c).call a = mask f (c.call a) := by
  unfold Cpu.call; simp only [mask_push, mask_jump, mask_pc]
theorem mask_ret : (mask f c).ret = mask f c.ret := by
  unfold Cpu.ret; simp only [mask_drop, mask_jump, mask_top]

/-- A location of the CPU's own. -/
def OwnLoc (a : Nat) : Prop := a < 0x80 ∨ isCore a = true

theorem mask_dir (a : Byte) (ha : OwnLoc a.toNat) : (mask f c).dir a = c.dir a := by
  unfold Cpu.dir
  split
  · rfl
  · next h =>
    show (if isCore a.toNat = true then c.sfr a.toNat else f a.toNat) = _
    rw [if_pos (ha.resolve_left h)]
theorem mask_setDir (a v : Byte) (ha : OwnLoc a.toNat) : (mask f c).setDir a v = mask f (c.setDir a v) := by
  unfold Cpu.setDir
  split
  · rfl
  · next h => exact mask_setSfr f c _ v (ha.resolve_left h)
theorem mask_bit (b : Byte) (hb : b.toNat < 0x80 ∨ isCore (b.toNat / 8 * 8) = true) : (mask f c).bit b = c.bit b := by
  unfold Cpu.bit
  split
  · rfl
  · next h =>
    show (if isCore (b.toNat / 8 * 8) = true then c.sfr (b.toNat / 8 * 8) else f (b.toNat / 8 * 8)).getLsbD _ = _
    rw [if_pos (hb.resolve_left h)]
theorem mask_setBit (b : Byte) (v : Bool) (hb : b.toNat < 0x80 ∨ isCore (b.toNat / 8 * 8) = true) :
    (mask f c).setBit b v = mask f (c.setBit b v) := by
  unfold Cpu.setBit
  split
  · rfl
  · next h =>
    have hc := hb.resolve_left h
    rw [mask_setSfr f c _ _ hc]
    show mask f (c.setSfr _ (Cpu.withBit (if isCore (b.toNat / 8 * 8) = true then c.sfr (b.toNat / 8 * 8) else f (b.toNat / 8 * 8)) _ _)) = _
    rw [if_pos hc]

theorem mask_opnd (lo : Nat) (h : lo = 5 → OwnLoc (c.code 1).toNat) : (mask f c).opnd lo = c.opnd lo := by
  unfold Cpu.opnd
  split
  · next e => exact mask_dir f c _ (h e)
  · rfl
theorem mask_store (lo : Nat) (a v : Byte) (h : lo = 5 → OwnLoc a.toNat) : (mask f c).store lo a v = mask f (c.store lo a v) := by
  unfold Cpu.store
  split
  · next e => exact mask_setDir f c _ _ (h e)
  · split <;> rfl

macro "msk" "[" ls:Lean.Parser.Tactic.simpLemma,* "]" : tactic =>
  `(tactic| simp only [mask_A, mask_B, mask_SP, mask_DPTR, mask_CY, mask_AC, mask_R, mask_ind, mask_pc, mask_rom, mask_xram, mask_top,
    mask_next, mask_jump, mask_rel, mask_relIf, mask_setIram, mask_setXram, mask_setR, mask_setInd, mask_setA, mask_setB, mask_setSP,
    mask_setDPTR, mask_setCY, mask_setAC, mask_setOV, mask_page, mask_add, mask_sub, mask_da, mask_push, mask_drop, mask_call, mask_ret, $ls,*])

theorem mask_four (hi : Nat) (b1 b2 : Byte) : (mask f c).four hi b1 b2 = mask f (c.four hi b1 b2) := by
  unfold Cpu.four
  split <;> msk [apply_ite (mask f)] <;> rfl

theorem mask_high (hi lo : Nat) (b1 b2 : Byte) (hb : b1 = c.code 1) (h : lo = 5 → OwnLoc b1.toNat)
    (h2 : lo = 5 → hi = 8 → OwnLoc b2.toNat) (h3 : hi = 8 ∨ hi = 10 → OwnLoc b1.toNat) :
    (mask f c).high hi lo b1 b2 = mask f (c.high hi lo b1 b2) := by
  have ho : (mask f c).opnd lo = c.opnd lo := mask_opnd f c lo (by rw [← hb]; exact h)
  have hs : ∀ (d : Cpu) (v : Byte), (mask f d).store lo b1 v = mask f (d.store lo b1 v) := fun d v => mask_store f d lo b1 v h
  unfold Cpu.high
  simp only [ho]
  split
  all_goals try (msk [hs]; done)
  · by_cases h5 : lo = 5
    · simp only [if_pos h5, mask_next, mask_setDir f _ _ _ (h h5)]
    · simp only [if_neg h5, mask_next, hs]
  · have o := h3 (.inl rfl)
    by_cases h5 : lo = 5
    · simp only [if_pos h5, mask_next, mask_dir f _ _ o, mask_setDir f _ _ _ (h2 h5 rfl)]
    · simp only [if_neg h5, mask_next, mask_setDir f _ _ _ o]
  · have o := h3 (.inr rfl)
    simp only [mask_next, mask_dir f _ _ o, hs]
  · by_cases h5 : lo = 5
    · simp only [if_pos h5]; msk [hs]; rfl
    · simp only [if_neg h5]; msk [hs]
  · by_cases h5 : lo = 5
    · simp only [if_pos h5, mask_next, mask_setDir f _ _ _ (h h5), mask_relIf]
    · simp only [if_neg h5]
      by_cases h8 : lo < 8
      · simp only [if_pos h8]; msk [hs]
      · simp only [if_neg h8]; msk [hs]

theorem mask_low (op : Nat) (b1 b2 : Byte)
    (hD : op = 0x42 ∨ op = 0x43 ∨ op = 0x52 ∨ op = 0x53 ∨ op = 0x62 ∨ op = 0x63 ∨ op = 0xc0 ∨ op = 0xd0 → OwnLoc b1.toNat)
    (hB : op = 0x10 ∨ op = 0x20 ∨ op = 0x30 ∨ op = 0x72 ∨ op = 0x82 ∨ op = 0x92 ∨ op = 0xa0 ∨ op = 0xa2 ∨ op = 0xb0 ∨ op = 0xb2 ∨
      op = 0xc2 ∨ op = 0xd2 → b1.toNat < 0x80 ∨ isCore (b1.toNat / 8 * 8) = true)
    (hP : ¬ (op = 0xe2 ∨ op = 0xe3 ∨ op = 0xf2 ∨ op = 0xf3)) :
    (mask f c).low op b1 b2 = mask f (c.low op b1 b2) := by
  unfold Cpu.low
  split
  all_goals first
    | exact absurd (by decide) hP
    | (have o := hD (by decide); msk [mask_dir f _ _ o, mask_setDir f _ _ _ o]; done)
    | (have o := hB (by decide); msk [mask_bit f _ _ o, mask_setBit f _ _ _ o, apply_ite (mask f)]; done)
    | (msk [apply_ite (mask f)]; done)
    | (msk [apply_ite (mask f)]; rfl)

theorem mask_step (h : ∀ a ∈ c.touched, OwnLoc a.toNat) : (mask f c).step = mask f c.step := by
  unfold Cpu.step
  simp only [mask_code]
  unfold Cpu.touched at h
  obtain ⟨op, hop⟩ : ∃ op, (c.code 0).toNat = op := ⟨_, rfl⟩
  have hlt : op < 256 := by rw [← hop]; exact (c.code 0).isLt
  simp only [hop] at h ⊢
  split
  · refine mask_low f c op _ _ ?_ ?_ ?_
    · intro hd
      rw [if_neg (by omega), if_neg (by omega), if_pos hd] at h
      exact h _ (List.mem_singleton.mpr rfl)
    · intro hd
      rw [if_neg (by omega), if_neg (by omega), if_neg (by omega), if_pos hd] at h
      by_cases hb : (c.code 1).toNat < 0x80
      · exact .inl hb
      · rw [if_neg hb] at h
        have hl := (c.code 1).isLt
        have e : (BitVec.ofNat 8 ((c.code 1).toNat / 8 * 8)).toNat = (c.code 1).toNat / 8 * 8 := by
          rw [BitVec.toNat_ofNat]; omega
        have := h _ (List.mem_singleton.mpr rfl)
        rw [e] at this
        exact .inr (this.resolve_left (by omega))
    · intro hd
      rw [if_neg (by omega), if_neg (by omega), if_neg (by omega), if_neg (by omega), if_pos hd] at h
      have := h _ (List.mem_singleton.mpr rfl)
      rcases this with this | this
      · exact absurd this (by decide)
      · exact absurd this (by decide)
  · split
    · exact mask_four f c _ _ _
    · refine mask_high f c _ _ _ _ rfl ?_ ?_ ?_
      · intro h5
        split at h
        · exact h _ List.mem_cons_self
        · rw [if_pos (by omega)] at h; exact h _ List.mem_cons_self
      · intro h5 h8
        rw [if_pos (by omega)] at h
        exact h _ (List.mem_cons_of_mem _ List.mem_cons_self)
      · intro h8
        split at h
        · exact h _ List.mem_cons_self
        · rw [if_pos (by omega)] at h; exact h _ List.mem_cons_self

end Ucsim.S51
