import Verif.Spec.S51Abs
import Verif.Proof.S51Stack
/-!
Refinement of the manual's instruction set: elementary accesses.
-/
namespace Ucsim.S51
open Isa (Cpu)

variable {H : Type} {P : Hw H}

/-- The simulated machine `s` and the manual's machine `c` agree (but for the parity
flag), and the devices are still those of `s0`. -/
structure Rel (s0 s : St H) (c : Cpu) : Prop where
  pc : s.pc % 0x10000 = c.pc
  iram : s.iram = c.iram
  xram : s.xram = c.xram
  rom : s.rom = c.rom
  sfr : ∀ a, a ≠ 0xd0 → s.sfr a = c.sfr a
  psw : ∀ i, 0 < i → (s.sfr 0xd0).getLsbD i = (c.sfr 0xd0).getLsbD i
  bank : s.bank = c.bank
  hw : s.hw = s0.hw
  state : s.state = s0.state
  le : s.pc ≤ 0x10000

variable {s0 s : St H} {c : Cpu}

theorem withBit_get : ∀ (v : Byte) (j : Fin 8) (b : Bool) (i : Fin 8),
    (Cpu.withBit v j b).getLsbD i = if i = j then b else v.getLsbD i := by decide +kernel

theorem withBit_congr {v w : Byte} (h : ∀ i, 0 < i → v.getLsbD i = w.getLsbD i) (j : Nat) (hj : j < 8) (b : Bool) :
    ∀ i, 0 < i → (Cpu.withBit v j b).getLsbD i = (Cpu.withBit w j b).getLsbD i := by
  intro i hi
  by_cases h8 : i < 8
  · have e1 := withBit_get v ⟨j, hj⟩ b ⟨i, h8⟩
    have e2 := withBit_get w ⟨j, hj⟩ b ⟨i, h8⟩
    simp only at e1 e2
    rw [e1, e2, h i hi]
  · rw [BitVec.getLsbD_of_ge _ _ (by omega), BitVec.getLsbD_of_ge _ _ (by omega)]

theorem putBits_eq (v b : Byte) (x : Bool) : putBits v (bitMask b) x = Cpu.withBit v (b.toNat % 8) x := rfl
theorem putBits80 (v : Byte) (x : Bool) : putBits v 0x80#8 x = Cpu.withBit v 7 x := rfl
theorem putBits40 (v : Byte) (x : Bool) : putBits v 0x40#8 x = Cpu.withBit v 6 x := rfl
theorem putBits04 (v : Byte) (x : Bool) : putBits v 0x04#8 x = Cpu.withBit v 2 x := rfl

theorem bank_of {c : Cpu} {p : Byte} (h : ∀ i, 0 < i → p.getLsbD i = (c.sfr 0xd0).getLsbD i) :
    ((p &&& 0x18#8) >>> 3).toNat = c.bank := by
  rw [rsBits, h 4 (by decide), h 3 (by decide)]; rfl

/-- Changing a register of the CPU's other than PSW. -/
theorem Rel.setSfr (h : Rel s0 s c) (a : Nat) (ha : a ≠ 0xd0) (v : Byte) :
    Rel s0 { s with sfr := upd s.sfr a v } (c.setSfr a v) := by
  refine ⟨h.pc, h.iram, h.xram, h.rom, ?_, ?_, ?_, h.hw, h.state, h.le⟩
  · intro x hx
    show upd s.sfr a v x = Isa.put c.sfr a v x
    unfold upd Isa.put
    split
    · rfl
    · exact h.sfr x hx
  · intro i hi
    show (upd s.sfr a v 0xd0).getLsbD i = (Isa.put c.sfr a v 0xd0).getLsbD i
    unfold upd Isa.put
    rw [if_neg (fun e => ha e.symm), if_neg (fun e => ha e.symm)]
    exact h.psw i hi
  · rw [h.bank]
    show c.bank = (c.setSfr a v).bank
    unfold Cpu.bank Cpu.psw Cpu.setSfr Isa.put
    simp only
    rw [if_neg (fun e => ha e.symm)]

/-- The parity flag is of no interest. -/
theorem Rel.parity (h : Rel s0 s c) (v : Byte) :
    Rel s0 { s with sfr := upd s.sfr 0xd0 ((s.sfr 0xd0 &&& ~~~(1#8)) ||| parityMask v) } c := by
  refine ⟨h.pc, h.iram, h.xram, h.rom, ?_, ?_, h.bank, h.hw, h.state, h.le⟩
  · intro x hx
    show upd s.sfr 0xd0 _ x = _
    unfold upd; rw [if_neg hx]; exact h.sfr x hx
  · intro i hi
    show (upd s.sfr 0xd0 _ 0xd0).getLsbD i = _
    unfold upd; rw [if_pos rfl]
    rw [← h.psw i hi]
    by_cases h8 : i < 8
    · have key : ∀ (p : Byte) (o : Bool) (i : Fin 8), 0 < i.val → ((p &&& ~~~(1#8)) ||| (if o then 1#8 else 0#8)).getLsbD i = p.getLsbD i := by
        decide +kernel
      rw [parity_ok]
      exact key (s.sfr 0xd0) (Spec.oddOnes v) ⟨i, h8⟩ hi
    · rw [BitVec.getLsbD_of_ge _ _ (by omega), BitVec.getLsbD_of_ge _ _ (by omega)]

theorem Rel.acc (h : Rel s0 s c) (v : Byte) : Rel s0 (sfrWrite P ACC v s).2 (c.setA v) := by
  have : (sfrWrite P ACC v s).2 =
      { s with sfr := upd (upd s.sfr 0xd0 ((s.sfr 0xd0 &&& ~~~(1#8)) ||| parityMask v)) 0xe0 v } := rfl
  rw [this]
  exact (h.parity v).setSfr 0xe0 (by decide) v

/-- Setting PSW to something equal up to parity. -/
theorem Rel.setPsw (h : Rel s0 s c) (v w : Byte) (hvw : ∀ i, 0 < i → v.getLsbD i = w.getLsbD i)
    (k : Nat) (hk : k = 2 * (w.getLsbD 4).toNat + (w.getLsbD 3).toNat) :
    Rel s0 { s with sfr := upd s.sfr 0xd0 v, bank := k } (c.setSfr 0xd0 w) := by
  refine ⟨h.pc, h.iram, h.xram, h.rom, ?_, ?_, ?_, h.hw, h.state, h.le⟩
  · intro x hx
    show upd s.sfr 0xd0 v x = Isa.put c.sfr 0xd0 w x
    unfold upd Isa.put
    rw [if_neg hx, if_neg hx]; exact h.sfr x hx
  · intro i hi
    show (upd s.sfr 0xd0 v 0xd0).getLsbD i = (Isa.put c.sfr 0xd0 w 0xd0).getLsbD i
    unfold upd Isa.put
    rw [if_pos rfl, if_pos rfl]; exact hvw i hi
  · show k = (c.setSfr 0xd0 w).bank
    rw [hk]; rfl

theorem Rel.pswWrite (h : Rel s0 s c) (v w : Byte) (hvw : ∀ i, 0 < i → v.getLsbD i = w.getLsbD i) :
    Rel s0 (sfrWrite P PSW v s).2 (c.setSfr 0xd0 w) := by
  have : (sfrWrite P PSW v s).2 = { s with sfr := upd s.sfr 0xd0 v, bank := ((v &&& 0x18#8) >>> 3).toNat } := rfl
  rw [this]
  exact h.setPsw v w hvw _ (by rw [rsBits, hvw 4 (by decide), hvw 3 (by decide)])

/-- A flag which is not a bank selector. -/
theorem Rel.flag (h : Rel s0 s c) (j : Nat) (hj : j = 7 ∨ j = 6 ∨ j = 2) (b : Bool) :
    Rel s0 { s with sfr := upd s.sfr 0xd0 (Cpu.withBit (s.sfr 0xd0) j b) } (c.setFlag j b) := by
  have hj8 : j < 8 := by omega
  refine h.setPsw _ (Cpu.withBit c.psw j b) (withBit_congr h.psw j hj8 b) s.bank ?_
  have e4 := withBit_get c.psw ⟨j, hj8⟩ b 4
  have e3 := withBit_get c.psw ⟨j, hj8⟩ b 3
  have n4 : ¬ (4 : Fin 8) = ⟨j, hj8⟩ := by intro e; have := congrArg Fin.val e; simp at this; omega
  have n3 : ¬ (3 : Fin 8) = ⟨j, hj8⟩ := by intro e; have := congrArg Fin.val e; simp at this; omega
  rw [if_neg n4] at e4
  rw [if_neg n3] at e3
  have e4' : (Cpu.withBit c.psw j b).getLsbD 4 = c.psw.getLsbD 4 := e4
  have e3' : (Cpu.withBit c.psw j b).getLsbD 3 = c.psw.getLsbD 3 := e3
  rw [e4', e3', h.bank]; rfl

theorem Rel.cy (h : Rel s0 s c) (b : Bool) : Rel s0 (bitSet CYbit b s).2 (c.setCY b) := h.flag 7 (by decide) b
theorem Rel.ov (h : Rel s0 s c) (b : Bool) : Rel s0 (sfrSetBit b PSW 0x04#8 s).2 (c.setOV b) := h.flag 2 (by decide) b
theorem Rel.clrCy (h : Rel s0 s c) (b : Bool) : Rel s0 (sfrSetBit b PSW 0x80#8 s).2 (c.setCY b) := h.flag 7 (by decide) b

theorem Rel.tick (h : Rel s0 s c) (n : Nat) : Rel s0 (tick n s).2 c :=
  ⟨h.pc, h.iram, h.xram, h.rom, h.sfr, h.psw, h.bank, h.hw, h.state, h.le⟩

theorem Rel.setIram (h : Rel s0 s c) (a : Nat) (v : Byte) : Rel s0 { s with iram := upd s.iram a v } (c.setIram a v) := by
  refine ⟨h.pc, ?_, h.xram, h.rom, h.sfr, h.psw, h.bank, h.hw, h.state, h.le⟩
  show upd s.iram a v = Isa.put c.iram a v
  rw [h.iram]; rfl

theorem Rel.iramWrite (h : Rel s0 s c) (a : Nat) (ha : a < P.iramSize) (v : Byte) :
    Rel s0 (iramWrite P a v s).2 (c.setIram a v) := by
  unfold S51.iramWrite; rw [if_pos ha]; exact h.setIram a v

theorem Rel.regWrite (h : Rel s0 s c) (n : Nat) (v : Byte) : Rel s0 (regWrite n v s).2 (c.setR n v) := by
  unfold S51.regWrite Cpu.setR
  rw [← h.bank]; exact h.setIram _ v

theorem Rel.xramWrite (h : Rel s0 s c) (a : Nat) (v : Byte) : Rel s0 (xramWrite a v s).2 (c.setXram a v) := by
  refine ⟨h.pc, h.iram, ?_, h.rom, h.sfr, h.psw, h.bank, h.hw, h.state, h.le⟩
  show upd s.xram a v = Isa.put c.xram a v
  rw [h.xram]; rfl

theorem Rel.setReti (h : Rel s0 s c) (b : Bool) : Rel s0 { s with wasReti := b } c :=
  ⟨h.pc, h.iram, h.xram, h.rom, h.sfr, h.psw, h.bank, h.hw, h.state, h.le⟩

/-- Writing a register of the CPU other than ACC and PSW. -/
theorem Rel.coreWrite (h : Rel s0 s c) (a : Nat) (hc : isCore a = true) (h1 : a ≠ 0xe0) (h2 : a ≠ 0xd0) (v : Byte) :
    sfrWrite P a v s = (v, { s with sfr := upd s.sfr a v }) ∧ Rel s0 { s with sfr := upd s.sfr a v } (c.setSfr a v) := by
  refine ⟨?_, h.setSfr a h2 v⟩
  unfold S51.sfrWrite
  rw [if_neg (show ¬ a = ACC from h1), if_neg (show ¬ a = PSW from h2), if_pos hc]

theorem Rel.sfrWrite (h : Rel s0 s c) (a : Nat) (ha : isCore a = true ∨ PlainSfr P a) (v : Byte) :
    Rel s0 (sfrWrite P a v s).2 (c.setSfr a v) ∧ (S51.sfrWrite P a v s).1 = v := by
  by_cases h1 : a = 0xe0
  · subst h1; exact ⟨h.acc v, rfl⟩
  · by_cases h2 : a = 0xd0
    · subst h2; exact ⟨h.pswWrite v v (fun _ _ => rfl), rfl⟩
    · by_cases h3 : isCore a = true
      · obtain ⟨e, h4⟩ := h.coreWrite (P := P) a h3 h1 h2 v
        rw [e]; exact ⟨h4, rfl⟩
      · have hp : PlainSfr P a := ha.resolve_left h3
        unfold S51.sfrWrite
        rw [if_neg (show ¬ a = ACC from h1), if_neg (show ¬ a = PSW from h2), if_neg h3, hp.wr]
        simp only
        have e : protect s.sfr s.sfr = s.sfr := by funext x; unfold protect; split <;> rfl
        rw [e]
        exact ⟨(h.setSfr a h2 v).setReti _, trivial⟩

theorem Rel.dirWrite (h : Rel s0 s c) (hs : 0x80 ≤ P.iramSize) (a : Byte) (ha : Tame P a.toNat) (v : Byte) :
    Rel s0 (dirWrite P a v s).2 (c.setDir a v) := by
  unfold S51.dirWrite Cpu.setDir
  by_cases h1 : a.toNat < 0x80
  · rw [if_pos h1, if_pos h1]; exact h.iramWrite _ (by omega) v
  · rw [if_neg h1, if_neg h1]
    exact (h.sfrWrite a.toNat (ha.resolve_left h1) v).1

theorem Rel.setPc (h : Rel s0 s c) (a b : Nat) (e : a % 0x10000 = b) (l : a ≤ 0x10000) : Rel s0 { s with pc := a } { c with pc := b } :=
  ⟨e, h.iram, h.xram, h.rom, h.sfr, h.psw, h.bank, h.hw, h.state, l⟩

theorem Rel.jump (h : Rel s0 s c) (a : Nat) (l : a ≤ 0x10000) : Rel s0 (setPC a s).2 (c.jump a) := h.setPc a _ rfl l

theorem Rel.rel (h : Rel s0 s c) (hp : s.pc < 0x10000) (d : Byte) : Rel s0 (relJump d s).2 (c.rel d) := by
  have e : (relJump d s).2 = { s with pc := validate ((s.pc : Int) + d.toInt) } := rfl
  rw [e]
  refine h.setPc _ _ ?_ (by unfold validate; simp only; split <;> omega)
  rw [validate_eq s.pc hp d, ← h.pc, Nat.mod_eq_of_lt hp]
  split
  · next e => rw [e]; decide
  · omega

theorem Rel.relIf (h : Rel s0 s c) (hp : s.pc < 0x10000) (b : Bool) (d : Byte) : Rel s0 (branchIf b d s).2 (c.relIf b d) := by
  unfold branchIf Cpu.relIf
  cases b
  · exact h
  · exact h.rel hp d

/-- Writing a bit. -/
theorem Rel.bitWrite (h : Rel s0 s c) (hcb : CoreBits P) (b : Byte) (hb : b.toNat < 0x80 ∨ isCore (b.toNat / 8 * 8) = true ∨ PlainSfr P (b.toNat / 8 * 8))
    (v : Bool) : Rel s0 (bitWrite P b v s).2 (c.setBit b v) := by
  unfold S51.bitWrite Cpu.setBit
  by_cases h1 : b.toNat < 0x80
  · rw [if_pos h1, if_pos h1]
    unfold S51.bitSet
    rw [if_pos h1]
    simp only [putBits_eq]
    rw [show s.iram (0x20 + b.toNat / 8) = c.iram (0x20 + b.toNat / 8) by rw [h.iram]]
    exact h.setIram _ _
  · rw [if_neg h1, if_neg h1]
    have ht := hb.resolve_left h1
    simp only [bind_def, sfrGet, bitBase, putBits_eq]
    generalize ha : b.toNat / 8 * 8 = a at ht
    have hbit : ∀ u : St H, (bitHook P b v u).2 = u := by
      intro u
      have : P.bitWr u.hw u.sfr b.toNat v = (u.hw, u.sfr) := by
        rcases ht with ht | ht
        · exact hcb b.toNat (by rw [ha]; exact ht) _ _ _
        · exact ht.bit b.toNat ha _ _ _
      unfold bitHook
      simp only [this]
      refine St.ext rfl rfl rfl ?_ rfl rfl rfl rfl rfl rfl rfl rfl rfl
      funext x; show protect u.sfr u.sfr x = u.sfr x; unfold protect; split <;> rfl
    rw [hbit]
    -- the register is written with the bit changed; the bit itself is stored once more
    have hval : ∀ x : Byte, ∀ j : Fin 8, ∀ w : Bool, Cpu.withBit (Cpu.withBit x j w) j w = Cpu.withBit x j w := by decide +kernel
    have hmod : b.toNat % 8 < 8 := Nat.mod_lt _ (by decide)
    by_cases hp : a = 0xd0
    · -- PSW: equal up to parity
      subst hp
      have r := h.pswWrite (P := P) (Cpu.withBit (s.sfr 0xd0) (b.toNat % 8) v) (Cpu.withBit (c.sfr 0xd0) (b.toNat % 8) v)
        (withBit_congr h.psw _ hmod v)
      have e : (S51.sfrWrite P 0xd0 (Cpu.withBit (s.sfr 0xd0) (b.toNat % 8) v) s).2 =
        { s with sfr := upd s.sfr 0xd0 (Cpu.withBit (s.sfr 0xd0) (b.toNat % 8) v), bank := ((Cpu.withBit (s.sfr 0xd0) (b.toNat % 8) v &&& 0x18#8) >>> 3).toNat } := rfl
      have r' : Rel s0 (S51.sfrWrite P 0xd0 (Cpu.withBit (s.sfr 0xd0) (b.toNat % 8) v) s).2 (c.setSfr 0xd0 (Cpu.withBit (c.sfr 0xd0) (b.toNat % 8) v)) := r
      rw [e] at r' ⊢
      unfold S51.bitSet
      rw [if_neg h1]
      simp only [bitBase, ha, putBits_eq]
      have e2 : upd s.sfr 0xd0 (Cpu.withBit (s.sfr 0xd0) (b.toNat % 8) v) 0xd0 = Cpu.withBit (s.sfr 0xd0) (b.toNat % 8) v := by
        unfold upd; rw [if_pos rfl]
      rw [e2, hval (s.sfr 0xd0) ⟨_, hmod⟩ v]
      have e3 : upd (upd s.sfr 0xd0 (Cpu.withBit (s.sfr 0xd0) (b.toNat % 8) v)) 0xd0 (Cpu.withBit (s.sfr 0xd0) (b.toNat % 8) v) =
          upd s.sfr 0xd0 (Cpu.withBit (s.sfr 0xd0) (b.toNat % 8) v) := by funext x; unfold upd; split <;> rfl
      rw [e3]; exact r'
    · have r := (h.sfrWrite (P := P) a ht (Cpu.withBit (s.sfr a) (b.toNat % 8) v)).1
      rw [show c.sfr a = s.sfr a from (h.sfr a hp).symm]
      generalize (S51.sfrWrite P a (Cpu.withBit (s.sfr a) (b.toNat % 8) v) s).2 = u at r
      unfold S51.bitSet
      rw [if_neg h1]
      simp only [bitBase, ha, putBits_eq]
      have e2 : u.sfr a = Cpu.withBit (s.sfr a) (b.toNat % 8) v := by
        rw [r.sfr a hp]
        show Isa.put c.sfr a _ a = _
        unfold Isa.put; rw [if_pos rfl]
      have e3 : upd u.sfr a (Cpu.withBit (u.sfr a) (b.toNat % 8) v) = u.sfr := by
        funext x; unfold upd
        split
        · next e => rw [e, e2, hval (s.sfr a) ⟨_, hmod⟩ v]
        · rfl
      rw [e3]; exact r

/-! ### Reading -/

theorem dirRead_tame (hs : 0x80 ≤ P.iramSize) (a : Byte) (ha : Tame P a.toNat) (l : Bool) (s : St H) :
    dirRead P a l s = ((toCpu s).dir a, s) := by
  unfold dirRead Cpu.dir
  by_cases h : a.toNat < 0x80
  · rw [if_pos h, if_pos h]; unfold iramRead; rw [if_pos (by omega)]; rfl
  · rw [if_neg h, if_neg h]
    unfold sfrRead
    by_cases hc : isCore a.toNat = true
    · rw [if_pos hc]; rfl
    · rw [if_neg hc]
      have hp := (ha.resolve_left h).resolve_left hc
      rw [hp.rd, hp.eff]; rfl

theorem iramRead_in (a : Nat) (ha : a < P.iramSize) (s : St H) : iramRead P a s = (s.iram a, s) := by
  unfold iramRead; rw [if_pos ha]

theorem bitGet_eq (b : Byte) (s : St H) : bitGet b s = ((toCpu s).bit b, s) := by
  have h := bitGet_val b s
  have h2 : (bitGet b s).2 = s := by unfold bitGet; split <;> rfl
  have : (bitGet b s).1 = (toCpu s).bit b := h
  exact Prod.ext this h2

theorem cyGet_eq (s : St H) : bitGet CYbit s = ((toCpu s).CY, s) := bitGet_eq CYbit s

theorem bitRead_tame (b : Byte) (hb : b.toNat < 0x80 ∨ isCore (b.toNat / 8 * 8) = true ∨ PlainSfr P (b.toNat / 8 * 8)) (s : St H) :
    bitRead P b s = ((toCpu s).bit b, s) := by
  unfold bitRead Cpu.bit
  by_cases h1 : b.toNat < 0x80
  · rw [if_pos h1, if_pos h1, bitGet_eq]; unfold Cpu.bit; rw [if_pos h1]
  · rw [if_neg h1, if_neg h1]
    simp only [bind_def, pure_def, bitTest', bitBase]
    unfold sfrRead
    have ht := hb.resolve_left h1
    by_cases hc : isCore (b.toNat / 8 * 8) = true
    · rw [if_pos hc]; rfl
    · rw [if_neg hc]
      have hp := ht.resolve_left hc
      rw [hp.rd, hp.eff]; rfl

end Ucsim.S51
