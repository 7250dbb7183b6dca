import Verif.Props.I80

/-
C61: packed BCD addition with ADD/ADC and DAA on the 8080/8085.
-/
namespace Ucsim.I80

/-- Two decimal digits in a byte. -/
def bcd (n : Nat) : Byte := BitVec.ofNat 8 (n / 10 % 10 * 16 + n % 10)

/-- What DAA leaves in A and CY, by A, AC and CY. -/
def daaA (a : Byte) (ac cy : Bool) : Byte × Bool :=
  let f : Byte := (if ac then flagA else 0#8) ||| (if cy then flagC else 0#8)
  let k := daaCorr a f
  if k = 0#8 then (a, cy) else (BitVec.ofNat 8 (a.toNat + k.toNat), decide (a.toNat + k.toNat > 0xff))

theorem daaCorr_f (a f : Byte) : daaCorr a f = daaCorr a ((if f.getLsbD 4 then flagA else 0#8) ||| (if f.getLsbD 0 then flagC else 0#8)) := by
  have e : ∀ f : Byte, ((f &&& flagA != 0#8) = (((if f.getLsbD 4 then flagA else 0#8) ||| (if f.getLsbD 0 then flagC else 0#8)) &&& flagA != 0#8)) ∧
      ((f &&& flagC != 0#8) = (((if f.getLsbD 4 then flagA else 0#8) ||| (if f.getLsbD 0 then flagC else 0#8)) &&& flagC != 0#8)) := by decide +kernel
  unfold daaCorr
  rw [(e f).1, (e f).2]

theorem daaA_ok (cpu : Cpu) (s : St) : ((daa cpu s).a, (daa cpu s).f.getLsbD 0) = daaA s.a (s.f.getLsbD 4) (s.f.getLsbD 0) := by
  unfold daa daaA
  rw [daaCorr_f]
  dsimp only
  generalize daaCorr s.a ((if s.f.getLsbD 4 then flagA else 0#8) ||| (if s.f.getLsbD 0 then flagC else 0#8)) = corr
  by_cases h : corr = 0#8
  · rw [if_pos h, if_neg (by simp [h])]
  · rw [if_neg h, if_pos h]
    have k := maskAllA s.f
    unfold add8 setF
    dsimp only
    simp only [Bool.false_and, Bool.false_eq_true, if_false, if_true, (flagOp_bit cpu _).1, orIf_bit, fbits, k]
    simp

/-- The DAA instruction at PC. -/
theorem step_daa (cpu : Cpu) (s : St) (h : s.mem s.pc = 0x27#8) :
    ((step cpu s).2.a, (abs (step cpu s).2).cy) = daaA s.a (abs s).ac (abs s).cy := by
  have hi : itab cpu 0x27#8 = some .daa := by cases cpu <;> decide +kernel
  have k : (step cpu s).2.a = (daa cpu (fetched s (s.ticks + 1))).a ∧ (step cpu s).2.f = (daa cpu (fetched s (s.ticks + 1))).f := by
    unfold step
    simp only [fetch_eq, h, hi]; exact ⟨rfl, rfl⟩
  have e := daaA_ok cpu (fetched s (s.ticks + 1))
  rw [← k.1, ← k.2] at e
  exact e

/-- After the binary addition of two numbers of two digits. -/
def sumBin (x y : Nat) (c : Bool) : Nat := (bcd x).toNat + (bcd y).toNat + c.toNat

/-- Where DAA gets it right: the binary sum has not left the byte, and not both was there a
carry from the low digit and is the high digit of the binary sum 9. -/
def BcdOk (x y : Nat) (c : Bool) : Prop :=
  sumBin x y c < 256 ∧ ¬ (16 ≤ x % 10 + y % 10 + c.toNat ∧ sumBin x y c / 16 = 9)

instance (x y : Nat) (c : Bool) : Decidable (BcdOk x y c) := by unfold BcdOk; infer_instance

theorem bcd_all (c : Bool) : ∀ x, x < 100 → ∀ y, y < 100 →
    ((daaA (BitVec.ofNat 8 (sumBin x y c)) (decide (16 ≤ (bcd x).toNat % 16 + (bcd y).toNat % 16 + c.toNat)) (decide (256 ≤ sumBin x y c)) =
      (bcd (x + y + c.toNat), decide (100 ≤ x + y + c.toNat))) ↔ BcdOk x y c) := by
  cases c <;> decide +kernel

/-- The two instructions: `ins` is ADD r, ADC r (o = 0, 1). -/
theorem bcd_run (cpu : Cpu) (s : St) (o r : BitVec 3) (c : Bool) (x y : Nat)
    (hi : Isa.decode (s.mem s.pc) = .alu o r) (ho : (o = 0 ∧ c = false) ∨ (o = 1 ∧ c = (abs s).cy))
    (hx : x < 100) (hy : y < 100) (ha : s.a = bcd x) (hv : (abs s).reg r = bcd y) (hd : s.mem (s.pc + 1) = 0x27#8) :
    ((steps cpu 2 s).a, (abs (steps cpu 2 s)).cy) =
      daaA (BitVec.ofNat 8 (sumBin x y c)) (decide (16 ≤ (bcd x).toNat % 16 + (bcd y).toNat % 16 + c.toNat)) (decide (256 ≤ sumBin x y c)) := by
  have low : ∀ y, y < 100 → (bcd y).toNat % 16 ≠ 15 := by decide
  have k : abs (step cpu s).2 = ((abs s).add (bcd y) c).next 1 := by
    have hnd : ¬ Isa.Differs (cpu == .i8085) (abs s) (Isa.decode (s.mem s.pc)) := by
      rw [hi]
      show ¬ Isa.aluDiffers (cpu == .i8085) (abs s) o ((abs s).reg r)
      rw [hv]
      rcases ho with ⟨ho, _⟩ | ⟨ho, _⟩ <;> subst ho
      · exact fun h => h
      · exact fun h => low y hy h.2
    rw [step_ok cpu s hnd]
    unfold Isa.step
    rw [show Isa.decode ((abs s).mem (abs s).pc) = .alu o r from hi]
    simp only [Isa.exec, hv]
    rcases ho with ⟨ho, hc⟩ | ⟨ho, hc⟩ <;> subst ho <;> subst hc <;> rfl
  have hm : (step cpu s).2.mem (step cpu s).2.pc = 0x27#8 := by
    have h1 : (step cpu s).2.mem = s.mem := congrArg Isa.Mach.mem k
    have h2 : (step cpu s).2.pc = s.pc + 1 := congrArg Isa.Mach.pc k
    rw [h1, h2, hd]
  have e := step_daa cpu (step cpu s).2 hm
  rw [show (step cpu s).2.a = BitVec.ofNat 8 ((bcd x).toNat + (bcd y).toNat + c.toNat) from by rw [← ha]; exact congrArg Isa.Mach.a k,
    show (abs (step cpu s).2).ac = decide (16 ≤ (bcd x).toNat % 16 + (bcd y).toNat % 16 + c.toNat) from by rw [← ha]; exact congrArg Isa.Mach.ac k,
    show (abs (step cpu s).2).cy = decide (256 ≤ (bcd x).toNat + (bcd y).toNat + c.toNat) from by rw [← ha]; exact congrArg Isa.Mach.cy k] at e
  exact e

/-- **C61**: ADD r; DAA, or ADC r; DAA, on two packed BCD numbers leaves the BCD sum in A and
the decimal carry in CY - if and only if `BcdOk`. -/
theorem c61_bcd_partial (cpu : Cpu) (s : St) (o r : BitVec 3) (c : Bool) (x y : Nat)
    (hi : Isa.decode (s.mem s.pc) = .alu o r) (ho : (o = 0 ∧ c = false) ∨ (o = 1 ∧ c = (abs s).cy))
    (hx : x < 100) (hy : y < 100) (ha : s.a = bcd x) (hv : (abs s).reg r = bcd y) (hd : s.mem (s.pc + 1) = 0x27#8) :
    ((steps cpu 2 s).a = bcd (x + y + c.toNat) ∧ (abs (steps cpu 2 s)).cy = decide (100 ≤ x + y + c.toNat)) ↔ BcdOk x y c := by
  rw [← bcd_all c x hx y hy, ← bcd_run cpu s o r c x y hi ho hx hy ha hv hd]
  exact Prod.mk.injEq .. ▸ Iff.rfl

/-- 49 + 49: A is 0xF8. -/
theorem c61_false (cpu : Cpu) : (steps cpu 2 (demo 0x49 0x02 0x4949 (prog [0x80, 0x27]))).a = 0xf8#8 := by
  cases cpu <;> decide +kernel

/-- 90 + 90: the carry is lost. -/
theorem c61_false_carry (cpu : Cpu) : (steps cpu 2 (demo 0x90 0x02 0x9090 (prog [0x80, 0x27]))).a = 0x80#8 ∧
    (abs (steps cpu 2 (demo 0x90 0x02 0x9090 (prog [0x80, 0x27])))).cy = false := by
  cases cpu <;> decide +kernel

/-- Where the sum has two digits and the carry of the low digits does not make a 9: e.g. all
sums below 80 are right. -/
theorem c61_small (x y : Nat) (c : Bool) (h : x + y + c.toNat < 80) : BcdOk x y c := by
  have hc : c.toNat ≤ 1 := by cases c <;> decide
  have e : ∀ n, n < 100 → (bcd n).toNat = n / 10 * 16 + n % 10 := by decide
  unfold BcdOk sumBin
  rw [e x (by omega), e y (by omega)]
  omega

example : Isa.decode 0x80 = .alu 0 0 ∧ (demo 0x38 0x02 0x4545 (prog [0x80, 0x27])).a = bcd 38 ∧
    (abs (demo 0x38 0x02 0x4545 (prog [0x80, 0x27]))).reg 0 = bcd 45 ∧ BcdOk 38 45 false ∧
    (steps .i8080 2 (demo 0x38 0x02 0x4545 (prog [0x80, 0x27]))).a = 0x83 := by decide +kernel

end Ucsim.I80
