import Verif.M65.Step
import Verif.Spec.M65Diff

namespace Ucsim.M65

/-- What the manual's machine sees of the simulated one. -/
def abs (s : St) : Isa.Mach where
  a := s.a
  x := s.x
  y := s.y
  s := s.sp
  n := s.p.getLsbD 7
  v := s.p.getLsbD 6
  d := s.p.getLsbD 3
  i := s.p.getLsbD 2
  z := s.p.getLsbD 1
  c := s.p.getLsbD 0
  pc := BitVec.ofNat 16 s.pc
  mem := s.mem

/-! ### Words and bytes -/

theorem of_eq (h l : Byte) : h.toNat * 256 + l.toNat = (h ++ l : Word).toNat := by
  have := h.isLt
  have := l.isLt
  rw [BitVec.toNat_append, ← Nat.shiftLeft_add_eq_or_of_lt l.isLt, Nat.shiftLeft_eq]

theorem rd_word (s : St) (w : Word) : rd s w.toNat = s.mem w := by
  unfold rd; rw [if_pos w.isLt]; simp

theorem wr_word (s : St) (w : Word) (v : Byte) :
    wr s w.toNat v = { s with mem := fun x => if x = w then v else s.mem x } := by
  unfold wr; rw [if_pos w.isLt]; simp

theorem rd_lt (s : St) (n : Nat) (h : n < 0x10000) : rd s n = s.mem (BitVec.ofNat 16 n) := by
  unfold rd; rw [if_pos h]

theorem zero_toNat (z : Byte) : (Isa.zero z).toNat = z.toNat := by
  have := of_eq 0#8 z
  unfold Isa.zero
  rw [← this]; simp

theorem zero_eq (z : Byte) : BitVec.ofNat 16 z.toNat = Isa.zero z := by
  rw [← zero_toNat]; simp

theorem rd_zero (s : St) (z : Byte) : rd s z.toNat = s.mem (Isa.zero z) := by rw [← zero_toNat, rd_word]

theorem rd_zero1 (s : St) (z : Byte) (h : z ≠ 0xff#8) : rd s (z.toNat + 1) = s.mem (Isa.zero (z + 1)) := by
  rw [← rd_zero]
  have := z.isLt
  have : z.toNat ≠ 255 := fun e => h (BitVec.eq_of_toNat_eq e)
  rw [BitVec.toNat_add]
  simp; congr 1; omega

theorem readAddr_zero (s : St) (z : Byte) (h : z ≠ 0xff#8) :
    readAddr s z.toNat = (s.mem (Isa.zero (z + 1)) ++ s.mem (Isa.zero z) : Word).toNat := by
  unfold readAddr; rw [rd_zero1 s z h, rd_zero, of_eq]

/-! ### Fetching -/

/-- After `n` bytes of the instruction at PC were fetched. -/
def fr (s : St) (n t : Nat) (v : Byte) : St := { s with setB := false, pc := (s.pc + n) % 0x10000, ticks := t, i8d := v }

theorem fr_pc (s : St) (n t : Nat) (v : Byte) : (fr s n t v).pc = ((abs s).pc + BitVec.ofNat 16 n).toNat := by
  show (s.pc + n) % 0x10000 = (BitVec.ofNat 16 s.pc + BitVec.ofNat 16 n).toNat
  rw [BitVec.toNat_add]; simp

theorem abs_fr (s : St) (n t : Nat) (v : Byte) : abs (fr s n t v) = { abs s with pc := (abs s).pc + BitVec.ofNat 16 n } := by
  unfold abs fr
  congr 1
  apply BitVec.eq_of_toNat_eq
  rw [BitVec.toNat_add]; simp

theorem fetch_fr (s : St) (n t : Nat) (v : Byte) :
    fetch (fr s n t v) = (s.mem ((abs s).pc + BitVec.ofNat 16 n), fr s (n + 1) t v) := by
  unfold fetch
  rw [fr_pc, rd_word]
  have : ((abs s).pc + BitVec.ofNat 16 n).toNat = (s.pc + n) % 0x10000 := (fr_pc s n t v).symm
  have e : (((abs s).pc + BitVec.ofNat 16 n).toNat + 1) % 0x10000 = (s.pc + (n + 1)) % 0x10000 := by rw [this]; omega
  rw [e]; rfl

theorem tick_fr (s : St) (n t k : Nat) (v : Byte) : tick k (fr s n t v) = fr s n (t + k) v := rfl

theorem i16_fr (s : St) (t : Nat) (v : Byte) : i16 (fr s 1 t v) = ((abs s).opw.toNat, fr s 3 t v) := by
  unfold i16
  simp only [fetch_fr, of_eq]
  rfl

theorem execInst_fr (s : St) (h : s.pc < 0x10000) : execInst s = (match table.getD (s.mem (abs s).pc).toNat none with
    | none => (.inv, { fr s 1 (s.ticks + 1) s.i8d with pc := s.pc })
    | some i => (.go, exec i (fr s 1 (s.ticks + 1) s.i8d))) := by
  unfold execInst fetch
  have e : rd { s with setB := false } s.pc = s.mem (abs s).pc := rd_lt _ _ h
  simp only [e]
  rfl

/-! ### Operands -/

def conv : Mode → Isa.Mode
  | .imm => .imm | .zpg => .zp | .zpgX => .zpx | .zpgY => .zpy | .abs => .abs | .absX => .absx | .absY => .absy
  | .indX => .indx | .indY => .indy

/-- Clocks `operand` counts. -/
def opClk (m : Isa.Mach) (k : Mode) : Nat := m.rdClk (conv k) - 1

def ref (m : Isa.Mach) (k : Mode) : Ref := if k = .imm then .imm else .at (m.ea (conv k)).toNat

theorem cross_fr (a1 : Word) (i : Byte) (s : St) (n t : Nat) (v : Byte) :
    cross a1.toNat ((a1.toNat + i.toNat) % 0x10000) (fr s n t v) = fr s n (t + (Isa.crosses a1 i).toNat) v := by
  unfold cross Isa.crosses
  have := a1.isLt
  have := i.isLt
  by_cases h : 256 ≤ a1.toNat % 256 + i.toNat
  · rw [if_pos (by omega), tick_fr]; simp [h]
  · rw [if_neg (by omega)]; simp [h]

theorem add_ext (a : Word) (i : Byte) : (a.toNat + i.toNat) % 0x10000 = (a + i.zeroExtend 16).toNat := by
  have := i.isLt
  rw [BitVec.toNat_add, BitVec.toNat_setWidth, Nat.mod_eq_of_lt (by omega : i.toNat < 2 ^ 16)]

/-- What ci8 holds after the operand was found. -/
def newI (m : Isa.Mach) (k : Mode) (v : Byte) : Byte := if k = .imm then m.op1 else v

theorem operand_ok (k : Mode) (s : St) (t : Nat) (v : Byte) (hd : ¬ (conv k).Differs (abs s)) :
    operand k (fr s 1 t v) = (ref (abs s) k, fr s (conv k).length (t + opClk (abs s) k) (newI (abs s) k v)) := by
  have hx : ∀ n t v, (fr s n t v).x = s.x := fun _ _ _ => rfl
  have hy : ∀ n t v, (fr s n t v).y = s.y := fun _ _ _ => rfl
  have hm : ∀ n t v, (fr s n t v).mem = s.mem := fun _ _ _ => rfl
  cases k
  case imm => simp only [operand, fetch_fr]; rfl
  case zpg => simp only [operand, fetch_fr, ref, conv, Isa.Mach.ea, zero_toNat]; rfl
  case zpgX => simp only [operand, fetch_fr, ref, conv, Isa.Mach.ea, zero_toNat]; rfl
  case zpgY => simp only [operand, fetch_fr, ref, conv, Isa.Mach.ea, zero_toNat]; rfl
  case abs => simp only [operand, i16_fr]; rfl
  case absX =>
    simp only [operand, i16_fr, tick_fr, hx]
    rw [cross_fr, add_ext]
    have e : (Isa.crosses (abs s).opw s.x) = (abs s).pageCross .absx := rfl
    rw [e]
    have k : t + 3 + ((abs s).pageCross .absx).toNat = t + opClk (abs s) .absX := by
      show _ = t + (4 + ((abs s).pageCross .absx).toNat - 1); omega
    rw [k]; rfl
  case absY =>
    simp only [operand, i16_fr, tick_fr, hy]
    rw [cross_fr, add_ext]
    have e : (Isa.crosses (abs s).opw s.y) = (abs s).pageCross .absy := rfl
    rw [e]
    have k : t + 3 + ((abs s).pageCross .absy).toNat = t + opClk (abs s) .absY := by
      show _ = t + (4 + ((abs s).pageCross .absy).toNat - 1); omega
    rw [k]; rfl
  case indX =>
    have hd : s.mem ((abs s).pc + BitVec.ofNat 16 1) + s.x ≠ 0xff#8 := hd
    simp only [operand, fetch_fr, tick_fr, hx, readAddr_zero _ _ hd, hm]
    rfl
  case indY =>
    have hd : s.mem ((abs s).pc + BitVec.ofNat 16 1) ≠ 0xff#8 := hd
    simp only [operand, fetch_fr, tick_fr, hy, readAddr_zero _ _ hd, hm]
    rw [cross_fr, add_ext]
    have e : (Isa.crosses (s.mem (Isa.zero (s.mem ((abs s).pc + BitVec.ofNat 16 1) + 1)) ++ s.mem (Isa.zero (s.mem ((abs s).pc + BitVec.ofNat 16 1)))) s.y) =
      (abs s).pageCross .indy := rfl
    rw [e]
    have k : t + 4 + ((abs s).pageCross .indy).toNat = t + opClk (abs s) .indY := by
      show _ = t + (5 + ((abs s).pageCross .indy).toNat - 1); omega
    rw [k]; rfl

theorem rdRef_ok (k : Mode) (s : St) (n t : Nat) (v : Byte) :
    rdRef (fr s n t (newI (abs s) k v)) (ref (abs s) k) = (abs s).operand (conv k) := by
  by_cases hk : k = .imm
  · subst hk; rfl
  · unfold ref
    rw [if_neg hk]
    show rd _ _ = _
    rw [rd_word]
    cases k <;> first | exact absurd rfl hk | rfl

theorem wrRef_ok (k : Mode) (hk : k ≠ .imm) (s : St) (n t : Nat) (v b : Byte) :
    wrRef (fr s n t v) (ref (abs s) k) b = { fr s n t v with mem := fun x => if x = (abs s).ea (conv k) then b else s.mem x } := by
  unfold ref
  rw [if_neg hk]
  show wr _ _ _ = _
  rw [wr_word]; rfl

/-! ### Flags -/

theorem orIf_bit (c : Bool) (m f : Byte) (i : Nat) : (orIf c m f).getLsbD i = (f.getLsbD i || (c && m.getLsbD i)) := by
  unfold orIf; cases c <;> simp

theorem bit7_lsb : ∀ r : Byte, bit7 r = r.getLsbD 7 := by decide +kernel
theorem bit7_msb : ∀ r : Byte, bit7 r = r.msb := by decide +kernel
theorem msb_nat (r : Byte) : r.msb = decide (128 ≤ r.toNat) := by
  rw [BitVec.msb_eq_decide]

theorem flag_ne (v : Byte) : ((v &&& flagC) != 0#8) = v.getLsbD 0 ∧ ((v &&& flagZ) != 0#8) = v.getLsbD 1 ∧
    ((v &&& flagI) != 0#8) = v.getLsbD 2 ∧ ((v &&& flagD) != 0#8) = v.getLsbD 3 ∧
    ((v &&& flagV) != 0#8) = v.getLsbD 6 ∧ ((v &&& flagN) != 0#8) = v.getLsbD 7 := by
  revert v; decide +kernel

/-- The six flags of a status byte. -/
theorem ext_status (f g : Byte) (h : ∀ i, i = 0 ∨ i = 1 ∨ i = 2 ∨ i = 3 ∨ i = 6 ∨ i = 7 → f.getLsbD i = g.getLsbD i) (s : St) :
    abs { s with p := f } = abs { s with p := g } := by
  unfold abs
  simp only [h 0 (by simp), h 1 (by simp), h 2 (by simp), h 3 (by simp), h 6 (by simp), h 7 (by simp)]

theorem abs_p (s : St) (f : Byte) : abs { s with p := f } = (abs s).setStatus f := rfl

/-- Bits of the masks. -/
theorem fbits : flagC.getLsbD 0 = true ∧ flagC.getLsbD 1 = false ∧ flagC.getLsbD 2 = false ∧ flagC.getLsbD 3 = false ∧ flagC.getLsbD 6 = false ∧ flagC.getLsbD 7 = false ∧
    flagZ.getLsbD 0 = false ∧ flagZ.getLsbD 1 = true ∧ flagZ.getLsbD 2 = false ∧ flagZ.getLsbD 3 = false ∧ flagZ.getLsbD 6 = false ∧ flagZ.getLsbD 7 = false ∧
    flagN.getLsbD 0 = false ∧ flagN.getLsbD 1 = false ∧ flagN.getLsbD 2 = false ∧ flagN.getLsbD 3 = false ∧ flagN.getLsbD 6 = false ∧ flagN.getLsbD 7 = true ∧
    flagV.getLsbD 0 = false ∧ flagV.getLsbD 1 = false ∧ flagV.getLsbD 2 = false ∧ flagV.getLsbD 3 = false ∧ flagV.getLsbD 6 = true ∧ flagV.getLsbD 7 = false := by
  decide

theorem maskNZ : ∀ f : Byte, let g := f &&& ~~~(flagZ ||| flagN)
    g.getLsbD 0 = f.getLsbD 0 ∧ g.getLsbD 1 = false ∧ g.getLsbD 2 = f.getLsbD 2 ∧ g.getLsbD 3 = f.getLsbD 3 ∧ g.getLsbD 6 = f.getLsbD 6 ∧ g.getLsbD 7 = false := by
  decide +kernel
theorem maskNZC : ∀ f : Byte, let g := f &&& ~~~(flagZ ||| flagN ||| flagC)
    g.getLsbD 0 = false ∧ g.getLsbD 1 = false ∧ g.getLsbD 2 = f.getLsbD 2 ∧ g.getLsbD 3 = f.getLsbD 3 ∧ g.getLsbD 6 = f.getLsbD 6 ∧ g.getLsbD 7 = false := by
  decide +kernel
theorem maskNZV : ∀ f : Byte, let g := f &&& ~~~(flagZ ||| flagN ||| flagV)
    g.getLsbD 0 = f.getLsbD 0 ∧ g.getLsbD 1 = false ∧ g.getLsbD 2 = f.getLsbD 2 ∧ g.getLsbD 3 = f.getLsbD 3 ∧ g.getLsbD 6 = false ∧ g.getLsbD 7 = false := by
  decide +kernel

theorem nz_bits (v f : Byte) (i : Nat) : (nz v f).getLsbD i =
    (f.getLsbD i || (v == 0#8 && flagZ.getLsbD i) || (bit7 v && flagN.getLsbD i)) := by
  unfold nz; rw [orIf_bit, orIf_bit]

theorem abs_setNZ (v : Byte) (s : St) : abs (setNZ v s) = (abs s).nz v := by
  have k := maskNZ s.p
  unfold setNZ
  rw [abs_p]
  unfold Isa.Mach.setStatus Isa.Mach.nz
  simp only [nz_bits, fbits, k, bit7_msb]
  simp [abs]


theorem abs_transNZ (v : Byte) (s : St) : abs (transNZ v s) = (abs s).nz v := by
  have h : ∀ p : Byte, ∀ z n : Bool,
      let f := if z then p ||| flagZ else p &&& ~~~flagZ
      let g := if n then f ||| flagN else f &&& ~~~flagN
      g.getLsbD 0 = p.getLsbD 0 ∧ g.getLsbD 1 = z ∧ g.getLsbD 2 = p.getLsbD 2 ∧ g.getLsbD 3 = p.getLsbD 3 ∧
        g.getLsbD 6 = p.getLsbD 6 ∧ g.getLsbD 7 = n := by decide +kernel
  have k := h s.p (v == 0#8) v.msb
  have e : transNZ v s = { s with p := (let f := if v == 0#8 then s.p ||| flagZ else s.p &&& ~~~flagZ
      if v.msb then f ||| flagN else f &&& ~~~flagN) } := by
    unfold transNZ nonz
    simp only [bit7_msb]
    by_cases hv : v = 0#8
    · subst hv; rfl
    · have h1 : (v == 0#8) = false := by simp [hv]
      have h2 : (v != 0#8) = true := by simp [hv]
      rw [h1, h2]; rfl
  rw [e, abs_p]
  unfold Isa.Mach.setStatus Isa.Mach.nz
  simp only [k]
  simp [abs]

theorem carry_eq (s : St) : carry s = (abs s).c := (flag_ne s.p).1

theorem dec_eq (s : St) : (s.p &&& flagD = 0#8) ↔ (abs s).d = false := by
  have := (flag_ne s.p).2.2.2.1
  show _ ↔ s.p.getLsbD 3 = false
  rw [← this]; simp

theorem toInt_cond (r : Byte) : r.toInt = if r.toNat < 128 then (r.toNat : Int) else r.toNat - 256 := by
  rw [BitVec.toInt_eq_toNat_cond]
  have := r.isLt
  split <;> split <;> omega

theorem bit7_xor (x y : Byte) : bit7 (x ^^^ y) = (x.msb != y.msb) := by
  simp only [bit7_msb, BitVec.msb_xor]

theorem vadd (a b : Byte) (c : Bool) : let r : Byte := BitVec.ofNat 8 (a.toNat + b.toNat + c.toNat)
    (bit7 (r ^^^ a) && !bit7 (a ^^^ b)) = decide (a.toInt + b.toInt + c.toNat < -128 ∨ 127 < a.toInt + b.toInt + c.toNat) := by
  intro r
  have := a.isLt
  have := b.isLt
  have hr : r.toNat = (a.toNat + b.toNat + c.toNat) % 256 := BitVec.toNat_ofNat ..
  have hc : c.toNat ≤ 1 := by cases c <;> decide
  rw [bit7_xor, bit7_xor, msb_nat, msb_nat, msb_nat, hr, toInt_cond, toInt_cond, Bool.eq_iff_iff]
  by_cases h1 : a.toNat < 128 <;> by_cases h2 : b.toNat < 128 <;>
    by_cases h3 : 128 ≤ (a.toNat + b.toNat + c.toNat) % 256 <;>
    simp only [h1, h2, h3, show ¬ 128 ≤ a.toNat ↔ a.toNat < 128 by omega, decide_true, decide_false, if_true, if_false, decide_eq_true_eq] <;>
    simp <;> omega

theorem vsub (a b : Byte) (c : Bool) (r : Byte) (hr : r.toNat = (a.toNat + 256 - b.toNat - (!c).toNat) % 256) :
    bit7 ((r &&& b &&& ~~~a) ||| (~~~r &&& ~~~b &&& a)) =
      decide (a.toInt - b.toInt - (!c).toNat < -128 ∨ 127 < a.toInt - b.toInt - (!c).toNat) := by
  have := a.isLt
  have := b.isLt
  have hc : (!c).toNat ≤ 1 := by cases c <;> decide
  have e : bit7 ((r &&& b &&& ~~~a) ||| (~~~r &&& ~~~b &&& a)) = ((r.msb && b.msb && !a.msb) || (!r.msb && !b.msb && a.msb)) := by
    rw [bit7_msb]; simp only [BitVec.msb_or, BitVec.msb_and, BitVec.msb_not, show decide (0 < 8) = true from rfl, Bool.true_and]
  rw [e, msb_nat, msb_nat, msb_nat, hr, toInt_cond, toInt_cond, Bool.eq_iff_iff]
  by_cases h1 : a.toNat < 128 <;> by_cases h2 : b.toNat < 128 <;>
    by_cases h3 : 128 ≤ (a.toNat + 256 - b.toNat - (!c).toNat) % 256 <;>
    simp only [h1, h2, h3, decide_true, decide_false, if_true, if_false, decide_eq_true_eq] <;>
    simp <;> omega

theorem maskAdc : ∀ f : Byte, let g := f &&& ~~~(flagZ ||| flagC ||| flagN) &&& ~~~flagV
    g.getLsbD 0 = false ∧ g.getLsbD 1 = false ∧ g.getLsbD 2 = f.getLsbD 2 ∧ g.getLsbD 3 = f.getLsbD 3 ∧ g.getLsbD 6 = false ∧ g.getLsbD 7 = false := by
  decide +kernel
theorem maskAdcD : ∀ f : Byte, let g := f &&& ~~~(flagZ ||| flagC ||| flagN)
    g.getLsbD 0 = false ∧ g.getLsbD 1 = false ∧ g.getLsbD 2 = f.getLsbD 2 ∧ g.getLsbD 3 = f.getLsbD 3 ∧
    (g ||| flagC).getLsbD 0 = true ∧ (g ||| flagC).getLsbD 2 = f.getLsbD 2 ∧ (g ||| flagC).getLsbD 3 = f.getLsbD 3 ∧
    (g &&& ~~~flagC).getLsbD 0 = false ∧ (g &&& ~~~flagC).getLsbD 2 = f.getLsbD 2 ∧ (g &&& ~~~flagC).getLsbD 3 = f.getLsbD 3 := by
  decide +kernel
theorem maskSbc : (flagC ||| flagZ ||| flagN) = (flagZ ||| flagC ||| flagN) := by decide

/-- What became of the flags that decimal mode leaves undefined. -/
def und (s : St) : Isa.Undef := ⟨(abs s).n, (abs s).v, (abs s).z⟩

theorem toDigits_eq (n : Nat) (h : n < 100) : toDigits n = Isa.toBcd n := by
  unfold toDigits Isa.toBcd
  rw [if_pos h]; congr 1; omega

theorem digits_eq (v : Byte) : digits v = Isa.bcd v := by
  unfold digits Isa.bcd; omega

theorem bcd_lt (v : Byte) (h : Isa.isBcd v) : Isa.bcd v < 100 := by
  unfold Isa.isBcd at h; unfold Isa.bcd; omega

theorem abs_adc (b : Byte) (s : St) (h : (abs s).decimal b) : abs (adc b s) = (abs s).adc (und (adc b s)) b := by
  unfold Isa.Mach.adc
  by_cases hd : (abs s).d = false
  · rw [if_neg (by rw [hd]; decide)]
    have k := maskAdc s.p
    unfold adc
    rw [if_pos ((dec_eq s).mpr hd)]
    simp only [carry_eq]
    show Isa.Mach.mk .. = _
    simp only [orIf_bit, fbits, k, bit7_msb, Bool.and_true, Bool.and_false, Bool.or_false, Bool.false_or, gt_iff_lt]
    have e := vadd s.a b (abs s).c
    simp only [bit7_msb] at e
    rw [e]
    unfold Isa.Mach.nz
    simp [abs, Nat.lt_iff_add_one_le]
  · have hd : (abs s).d = true := by simpa using hd
    obtain ⟨h1, h2⟩ := h hd
    have g1 := bcd_lt _ h1
    have g2 := bcd_lt _ h2
    have k := maskAdcD s.p
    rw [if_pos hd]
    have hn : ¬ s.p &&& flagD = 0#8 := by rw [dec_eq, hd]; decide
    have hc : (abs s).c.toNat ≤ 1 := by cases (abs s).c <;> decide
    unfold adc
    rw [if_neg hn]
    simp only [carry_eq, digits_eq]
    have ha : s.a = (abs s).a := rfl
    rw [ha]
    rw [show Isa.bcd b + Isa.bcd (abs s).a + (abs s).c.toNat = Isa.bcd (abs s).a + Isa.bcd b + (abs s).c.toNat by omega]
    have ht : Isa.bcd (abs s).a + Isa.bcd b + (abs s).c.toNat < 200 := by omega
    generalize Isa.bcd (abs s).a + Isa.bcd b + (abs s).c.toNat = t at *
    by_cases hs : t > 99
    · simp only [if_pos hs]
      rw [toDigits_eq _ (by omega), show t % 100 = t - 100 by omega]
      simp only [und, abs, orIf_bit, fbits, k, hs]
      simp
      omega
    · simp only [if_neg hs]
      rw [toDigits_eq _ (by omega), show t % 100 = t by omega]
      simp only [und, abs, orIf_bit, fbits, k]
      simp
      omega

theorem nat_bool (c : Bool) : (!c).toNat = 1 - c.toNat := by cases c <;> rfl

theorem abs_sbc (b : Byte) (s : St) (h : (abs s).decimal b) : abs (sbc b s) = (abs s).sbc (und (sbc b s)) b := by
  have hc : (abs s).c.toNat ≤ 1 := by cases (abs s).c <;> decide
  have hc' := nat_bool (abs s).c
  have l1 := s.a.isLt
  have l2 := b.isLt
  unfold Isa.Mach.sbc
  by_cases hd : (abs s).d = false
  · rw [if_neg (by rw [hd]; decide)]
    have k := maskAdc s.p
    unfold sbc
    rw [if_pos ((dec_eq s).mpr hd)]
    simp only [carry_eq, maskSbc]
    have er : (BitVec.ofNat 8 ((s.a.toNat + 0x10000 - b.toNat - 1 + (abs s).c.toNat) % 0x10000) : Byte) =
        BitVec.ofInt 8 ((s.a.toNat : Int) - b.toNat - (!(abs s).c).toNat) := by
      apply BitVec.eq_of_toNat_eq
      rw [BitVec.toNat_ofNat, BitVec.toNat_ofInt]
      omega
    have ec : decide ((s.a.toNat + 0x10000 - b.toNat - 1 + (abs s).c.toNat) % 0x10000 < 0x100) =
        decide (0 ≤ (s.a.toNat : Int) - b.toNat - (!(abs s).c).toNat) := by
      rw [decide_eq_decide]; omega
    have hr : (BitVec.ofInt 8 ((s.a.toNat : Int) - b.toNat - (!(abs s).c).toNat) : Byte).toNat = (s.a.toNat + 256 - b.toNat - (!(abs s).c).toNat) % 256 := by
      rw [BitVec.toNat_ofInt]; omega
    have ev := vsub s.a b (abs s).c _ hr
    rw [er, ec]
    show Isa.Mach.mk .. = _
    simp only [orIf_bit, fbits, k, ev, bit7_msb, Bool.and_true, Bool.and_false, Bool.or_false, Bool.false_or]
    rfl
  · have hd : (abs s).d = true := by simpa using hd
    obtain ⟨h1, h2⟩ := h hd
    have g1 := bcd_lt _ h1
    have g2 := bcd_lt _ h2
    have k := maskAdcD s.p
    rw [if_pos hd]
    have hn : ¬ s.p &&& flagD = 0#8 := by rw [dec_eq, hd]; decide
    have e2 : (if (abs s).c.toNat = 0 then (1 : Int) else 0) = ((!(abs s).c).toNat : Int) := by cases (abs s).c <;> rfl
    unfold sbc
    rw [if_neg hn]
    simp only [carry_eq, digits_eq, e2, maskSbc]
    have ha : s.a = (abs s).a := rfl
    rw [ha]
    have ht : -100 ≤ (Isa.bcd (abs s).a : Int) - Isa.bcd b - (!(abs s).c).toNat ∧
      (Isa.bcd (abs s).a : Int) - Isa.bcd b - (!(abs s).c).toNat < 100 := by omega
    generalize (Isa.bcd (abs s).a : Int) - Isa.bcd b - (!(abs s).c).toNat = t at *
    by_cases hs : t < 0
    · simp only [if_pos hs]
      rw [if_pos (by omega), toDigits_eq _ (by omega), show t % 100 = t + 100 by omega]
      simp only [und, abs, orIf_bit, fbits, k]
      simp
      omega
    · simp only [if_neg hs]
      rw [if_pos (by omega), toDigits_eq _ (by omega), show t % 100 = t by omega]
      simp only [und, abs, orIf_bit, fbits, k]
      simp
      omega

theorem abs_cmp (v b : Byte) (s : St) : abs (cmp v b s) = { abs s with c := decide (b.toNat ≤ v.toNat) }.nz (v - b) := by
  have k := maskNZC s.p
  have l1 := v.isLt
  have l2 := b.isLt
  have er : (BitVec.ofNat 8 ((v.toNat + 0x10000 - b.toNat) % 0x10000) : Byte) = v - b := by
    apply BitVec.eq_of_toNat_eq
    rw [BitVec.toNat_ofNat, BitVec.toNat_sub]; omega
  have ec : decide ((v.toNat + 0x10000 - b.toNat) % 0x10000 < 256) = decide (b.toNat ≤ v.toNat) := by
    rw [decide_eq_decide]; omega
  unfold cmp
  simp only [er, ec]
  show Isa.Mach.mk .. = _
  simp only [orIf_bit, fbits, k, bit7_msb, Bool.and_true, Bool.and_false, Bool.or_false, Bool.false_or]
  rfl

theorem abs_bit (v : Byte) (s : St) : abs (bit v s) =
    { abs s with n := v.getLsbD 7, v := v.getLsbD 6, z := s.a &&& v == 0 } := by
  have k := maskNZV s.p
  have e : ∀ v : Byte, (v &&& 0x40#8 != 0#8) = v.getLsbD 6 := by decide +kernel
  unfold bit
  show Isa.Mach.mk .. = _
  simp only [orIf_bit, fbits, k, bit7_lsb, e, Bool.and_true, Bool.and_false, Bool.or_false, Bool.false_or]
  rfl

/-- The value and the carry of the read-modify-write operations. -/
def rmwVal (o : Rmw) (c : Bool) (v : Byte) : Byte :=
  match o with
  | .inc => v + 1 | .dec => v - 1 | .asl => v <<< 1 | .lsr => v >>> 1
  | .rol => v <<< 1 ||| Isa.bitAt c 0 | .ror => v >>> 1 ||| Isa.bitAt c 7

def rmwC (o : Rmw) (c : Bool) (v : Byte) : Bool :=
  match o with
  | .inc | .dec => c | .asl | .rol => v.getLsbD 7 | .lsr | .ror => v.getLsbD 0

theorem bit0 : ∀ v : Byte, (v &&& 1#8 != 0#8) = v.getLsbD 0 := by decide +kernel
theorem shr_msb : ∀ v : Byte, (v >>> 1).getLsbD 7 = false := by decide +kernel
theorem msb_lsb : ∀ v : Byte, v.msb = v.getLsbD 7 := by decide +kernel

theorem rmw_val (o : Rmw) (f v : Byte) : (rmw o f v).1 = rmwVal o (f.getLsbD 0) v := by
  have := (flag_ne f).1
  unfold rmw rmwVal
  rw [this]
  cases o <;> cases f.getLsbD 0 <;> rfl

theorem rmw_flags (o : Rmw) (v : Byte) (s : St) : abs { s with p := (rmw o s.p v).2 } =
    { abs s with c := rmwC o (abs s).c v }.nz (rmwVal o (abs s).c v) := by
  have k1 := maskNZ s.p
  have k2 := maskNZC s.p
  have hv : (rmw o s.p v).1 = rmwVal o (abs s).c v := rmw_val ..
  rw [abs_p, ← hv]
  unfold rmw rmwC
  cases o <;> unfold Isa.Mach.setStatus Isa.Mach.nz <;>
    simp only [nz_bits, orIf_bit, fbits, k1, k2, bit7_lsb, msb_lsb, bit0, Bool.and_true, Bool.and_false, Bool.or_false, Bool.false_or, shr_msb] <;>
    rfl

/-! ### Stack -/

theorem stackAt_eq (s : St) : stackAt s = (1#8 ++ s.sp : Word).toNat := by
  rw [← of_eq]; rfl

theorem abs_push (v : Byte) (s : St) : abs (push v s) = (abs s).push v := by
  unfold push
  rw [stackAt_eq, wr_word]; rfl

theorem pop_eq (s : St) : pop s = (s.mem (1#8 ++ (s.sp + 1)), { s with sp := s.sp + 1 }) := by
  unfold pop
  simp only [stackAt_eq, rd_word]

theorem hi_eq (n : Nat) : (BitVec.ofNat 8 (n / 256) : Byte) = (BitVec.ofNat 16 n : Word).extractLsb' 8 8 := by
  apply BitVec.eq_of_toNat_eq
  simp only [BitVec.extractLsb'_toNat, BitVec.toNat_ofNat, Nat.shiftRight_eq_div_pow]
  omega

theorem lo_eq (n : Nat) : (BitVec.ofNat 8 n : Byte) = (BitVec.ofNat 16 n : Word).extractLsb' 0 8 := by
  apply BitVec.eq_of_toNat_eq
  simp [BitVec.extractLsb'_toNat, BitVec.toNat_ofNat]

theorem abs_tick (n : Nat) (s : St) : abs (tick n s) = abs s := rfl

theorem abs_pushAddr (n : Nat) (s : St) : abs (pushAddr n s) = (abs s).pushw (BitVec.ofNat 16 n) := by
  unfold pushAddr Isa.Mach.pushw
  rw [abs_tick, abs_push, abs_push, hi_eq, lo_eq]

theorem sp2 (b : Byte) : b + 1 + 1 = b + 2 := by rw [BitVec.add_assoc]; rfl
theorem sp3 (b : Byte) : b + 1 + 2 = b + 3 := by rw [BitVec.add_assoc]; rfl

theorem popAddr_eq (s : St) : popAddr s =
    ((s.mem (1#8 ++ (s.sp + 2)) ++ s.mem (1#8 ++ (s.sp + 1)) : Word).toNat, { s with sp := s.sp + 2, ticks := s.ticks + 2 }) := by
  unfold popAddr
  simp only [pop_eq, of_eq, sp2]; rfl

end Ucsim.M65
