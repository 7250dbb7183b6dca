import Verif.H08.Step
import Verif.Spec.H08Diff

namespace Ucsim.H08

/-- What the manual's machine sees of the simulated one.  The IRQ pin is never low. -/
def abs (s : St) : Isa.Mach where
  a := s.a
  x := s.x
  h := s.h
  sp := s.sp
  pc := BitVec.ofNat 16 s.pc
  v := s.p.getLsbD 7
  hc := s.p.getLsbD 4
  i := s.p.getLsbD 3
  n := s.p.getLsbD 2
  z := s.p.getLsbD 1
  c := s.p.getLsbD 0
  mem := s.mem
  irq := true
  waiting := false

/-- The two bits of the condition code register that are always 1. -/
def CcOk (s : St) : Prop := s.p &&& 0x60#8 = 0x60#8

/-! ### Words and bytes -/

theorem of_eq (h l : Byte) : h.toNat * 256 + l.toNat = (h ++ l : Word).toNat := by
  have := h.isLt
  have := l.isLt
  rw [BitVec.toNat_append, ← Nat.shiftLeft_add_eq_or_of_lt l.isLt, Nat.shiftLeft_eq]

theorem hx_eq (s : St) : hx s = (abs s).hx.toNat := of_eq _ _

theorem rd_word (s : St) (w : Word) : rd s w.toNat = s.mem w := by
  unfold rd; rw [if_pos w.isLt]; simp

theorem get1_eq (s : St) (n : Nat) : get1 s n = s.mem (BitVec.ofNat 16 n) := by
  unfold get1 rd
  rw [if_pos (Nat.mod_lt _ (by decide))]
  congr 1
  apply BitVec.eq_of_toNat_eq; simp

theorem get2_eq (s : St) (w : Word) : get2 s w.toNat = ((abs s).word w).toNat := by
  unfold get2
  rw [get1_eq, get1_eq, of_eq]
  have : BitVec.ofNat 16 (w.toNat + 1) = w + 1 := by apply BitVec.eq_of_toNat_eq; simp [BitVec.toNat_add]
  rw [this]; simp [Isa.Mach.word, abs]

theorem store1_word (s : St) (w : Word) (v : Byte) :
    store1 s w.toNat v = { s with mem := fun x => if x = w then v else s.mem x } := by
  unfold store1; rw [if_pos w.isLt]; simp

theorem store1_lt (s : St) (n : Nat) (h : n < 0x10000) (v : Byte) :
    store1 s n v = { s with mem := fun x => if x = BitVec.ofNat 16 n then v else s.mem x } := by
  unfold store1; rw [if_pos h]

theorem abs_store1 (s : St) (w : Word) (v : Byte) : abs (store1 s w.toNat v) = (abs s).store w v := by
  rw [store1_word]; rfl

theorem hi_eq (w : Word) : BitVec.ofNat 8 (w.toNat / 256) = w.extractLsb' 8 8 := by
  apply BitVec.eq_of_toNat_eq
  simp [BitVec.extractLsb'_toNat, Nat.shiftRight_eq_div_pow]
theorem lo_eq (w : Word) : BitVec.ofNat 8 w.toNat = w.extractLsb' 0 8 := by
  apply BitVec.eq_of_toNat_eq
  simp [BitVec.extractLsb'_toNat]

theorem hi_eq' (n : Nat) : BitVec.ofNat 8 (n / 256) = (BitVec.ofNat 16 n : Word).extractLsb' 8 8 := by
  apply BitVec.eq_of_toNat_eq
  simp [BitVec.extractLsb'_toNat, Nat.shiftRight_eq_div_pow]
  omega
theorem lo_eq' (n : Nat) : BitVec.ofNat 8 n = (BitVec.ofNat 16 n : Word).extractLsb' 0 8 := by
  apply BitVec.eq_of_toNat_eq
  simp [BitVec.extractLsb'_toNat]
  

theorem abs_setHX (s : St) (n : Nat) : abs (setHX n s) = (abs s).setHX (BitVec.ofNat 16 n) := by
  unfold setHX Isa.Mach.setHX
  rw [hi_eq', lo_eq']; rfl

theorem ext_toNat (b : Byte) : (b.zeroExtend 16 : Word).toNat = b.toNat := by
  have := b.isLt
  rw [BitVec.toNat_setWidth, Nat.mod_eq_of_lt (by omega)]

/-! ### Fetching -/

/-- After `n` bytes of the instruction at PC were fetched. -/
def fr (s : St) (n t : Nat) : St := { s with pc := (s.pc + n) % 0x10000, ticks := t }

theorem fr_pc (s : St) (n t : Nat) : (fr s n t).pc = ((abs s).pc + BitVec.ofNat 16 n).toNat := by
  show (s.pc + n) % 0x10000 = (BitVec.ofNat 16 s.pc + BitVec.ofNat 16 n).toNat
  rw [BitVec.toNat_add]; simp

theorem abs_fr (s : St) (n t : Nat) : abs (fr s n t) = { abs s with pc := (abs s).pc + BitVec.ofNat 16 n } := by
  unfold abs fr
  congr 1
  apply BitVec.eq_of_toNat_eq
  rw [BitVec.toNat_add]; simp

theorem fetch_fr (s : St) (n t : Nat) :
    fetch (fr s n t) = (s.mem ((abs s).pc + BitVec.ofNat 16 n), fr s (n + 1) t) := by
  unfold fetch
  rw [fr_pc, rd_word]
  have : ((abs s).pc + BitVec.ofNat 16 n).toNat = (s.pc + n) % 0x10000 := (fr_pc s n t).symm
  have e : (((abs s).pc + BitVec.ofNat 16 n).toNat + 1) % 0x10000 = (s.pc + (n + 1)) % 0x10000 := by rw [this]; omega
  rw [e]; rfl

theorem tick_fr (s : St) (n t k : Nat) : tick k (fr s n t) = fr s n (t + k) := rfl

theorem pc_succ (p : Word) (n : Nat) : p + BitVec.ofNat 16 (n + 1) = p + BitVec.ofNat 16 n + 1 := by
  apply BitVec.eq_of_toNat_eq
  have : (1 : Word).toNat = 1 := rfl
  simp only [BitVec.toNat_add, BitVec.toNat_ofNat, this]
  omega

theorem fetch2_fr (s : St) (n t : Nat) :
    fetch2 (fr s n t) = (((abs s).word ((abs s).pc + BitVec.ofNat 16 n)).toNat, fr s (n + 2) (t + 2)) := by
  unfold fetch2
  simp only [fetch_fr, of_eq, tick_fr, pc_succ]
  rfl

/-! ### Operands -/

def modeOf (nib : Nat) (pre : Bool) : Isa.Mode :=
  match nib with
  | 0x4 => .A
  | 0x5 => .X
  | 0x6 | 0xe => if pre then .sp1 else .ix1
  | 0x7 | 0xf => .ix
  | 0xa => .imm
  | 0xc => .ext
  | 0xd => if pre then .sp2 else .ix2
  | _ => .dir

/-- Clocks fetchea counts. -/
def eaClk (k : Isa.Mode) : Nat := match k with | .ext | .ix2 | .sp2 => 2 | _ => 1

theorem fetchea_ok (s : St) (nib : Nat) (pre : Bool) (n t : Nat)
    (hn : nib ∈ [0, 1, 3, 6, 7, 11, 12, 13, 14, 15]) :
    fetchea nib pre (fr s n t) = ((abs s).sum ((abs s).pc + BitVec.ofNat 16 n) (modeOf nib pre),
      fr s (n + (modeOf nib pre).bytes) (t + eaClk (modeOf nib pre))) := by
  have hh : ∀ n t, hx (fr s n t) = (abs s).hx.toNat := fun _ _ => hx_eq s
  have hs : ∀ n t, (fr s n t).sp = (abs s).sp := fun _ _ => rfl
  simp only [List.mem_cons, List.not_mem_nil, or_false] at hn
  rcases hn with rfl | rfl | rfl | rfl | rfl | rfl | rfl | rfl | rfl | rfl <;> cases pre <;>
    simp only [fetchea, tick_fr, fetch_fr, fetch2_fr, modeOf, Isa.Mach.sum, Isa.Mode.bytes, eaClk, hh, hs, if_true, if_false, Bool.false_eq_true] <;>
    first | rfl | (congr 1; exact Nat.add_comm _ _)

theorem sum_ea (m : Isa.Mach) (q : Word) (k : Isa.Mode) : BitVec.ofNat 16 (m.sum q k) = m.ea q k := by
  apply BitVec.eq_of_toNat_eq
  cases k <;> simp only [Isa.Mach.sum, Isa.Mach.ea, BitVec.toNat_ofNat, BitVec.toNat_add, ext_toNat] <;>
    first | rfl | exact Nat.mod_eq_of_lt (BitVec.isLt _) | (have := (m.mem q).isLt; omega)

theorem get1_sum (s : St) (n t : Nat) (q : Word) (k : Isa.Mode) :
    get1 (fr s n t) ((abs s).sum q k) = (abs s).mem ((abs s).ea q k) := by
  rw [get1_eq, sum_ea]; rfl

theorem store1_sum (s : St) (q : Word) (k : Isa.Mode) (m : Isa.Mach) (h : ¬ m.over q k) (v : Byte) :
    store1 s (m.sum q k) v = { s with mem := fun x => if x = m.ea q k then v else s.mem x } := by
  rw [store1_lt _ _ (Nat.lt_of_not_ge h), sum_ea]

theorem operand_ok (s : St) (nib : Nat) (pre : Bool) (n t : Nat) (hn : nib ∈ [0, 1, 3, 6, 7, 10, 11, 12, 13, 14, 15]) :
    operand nib pre (fr s n t) = ((abs s).operand ((abs s).pc + BitVec.ofNat 16 n) (modeOf nib pre),
      fr s (n + (modeOf nib pre).bytes) (t + if nib = 10 then 0 else eaClk (modeOf nib pre))) := by
  unfold operand
  by_cases h : nib = 10
  · subst h; rw [if_pos rfl, fetch_fr]; rfl
  · rw [if_neg h, if_neg h, fetchea_ok s nib pre n t (by simp at hn ⊢; omega)]
    simp only [get1_sum]
    have : (modeOf nib pre) ≠ .imm ∧ (modeOf nib pre) ≠ .A ∧ (modeOf nib pre) ≠ .X := by
      simp only [List.mem_cons, List.not_mem_nil, or_false] at hn
      rcases hn with rfl | rfl | rfl | rfl | rfl | rfl | rfl | rfl | rfl | rfl | rfl <;> cases pre <;> first | (exact absurd rfl h) | decide
    congr 1
    revert this
    generalize modeOf nib pre = k
    intro this
    cases k <;> first | rfl | exact absurd rfl this.1 | exact absurd rfl this.2.1 | exact absurd rfl this.2.2

/-! ### Flags -/

theorem abs_p (s : St) (f : Byte) : abs { s with p := f } = (abs s).setCcr f := rfl
theorem setCcr_self (s : St) : (abs s).setCcr s.p = abs s := rfl

theorem assign_bits : ∀ p : Byte, ∀ c : Bool,
    let g := assign bC c p; g.getLsbD 7 = p.getLsbD 7 ∧ g.getLsbD 4 = p.getLsbD 4 ∧ g.getLsbD 3 = p.getLsbD 3 ∧ g.getLsbD 2 = p.getLsbD 2 ∧ g.getLsbD 1 = p.getLsbD 1 ∧ g.getLsbD 0 = c := by
  decide +kernel
theorem assign_bitsZ : ∀ p : Byte, ∀ c : Bool,
    let g := assign bZ c p; g.getLsbD 7 = p.getLsbD 7 ∧ g.getLsbD 4 = p.getLsbD 4 ∧ g.getLsbD 3 = p.getLsbD 3 ∧ g.getLsbD 2 = p.getLsbD 2 ∧ g.getLsbD 1 = c ∧ g.getLsbD 0 = p.getLsbD 0 := by
  decide +kernel
theorem assign_bitsN : ∀ p : Byte, ∀ c : Bool,
    let g := assign bN c p; g.getLsbD 7 = p.getLsbD 7 ∧ g.getLsbD 4 = p.getLsbD 4 ∧ g.getLsbD 3 = p.getLsbD 3 ∧ g.getLsbD 2 = c ∧ g.getLsbD 1 = p.getLsbD 1 ∧ g.getLsbD 0 = p.getLsbD 0 := by
  decide +kernel
theorem assign_bitsI : ∀ p : Byte, ∀ c : Bool,
    let g := assign bI c p; g.getLsbD 7 = p.getLsbD 7 ∧ g.getLsbD 4 = p.getLsbD 4 ∧ g.getLsbD 3 = c ∧ g.getLsbD 2 = p.getLsbD 2 ∧ g.getLsbD 1 = p.getLsbD 1 ∧ g.getLsbD 0 = p.getLsbD 0 := by
  decide +kernel
theorem assign_bitsH : ∀ p : Byte, ∀ c : Bool,
    let g := assign bH c p; g.getLsbD 7 = p.getLsbD 7 ∧ g.getLsbD 4 = c ∧ g.getLsbD 3 = p.getLsbD 3 ∧ g.getLsbD 2 = p.getLsbD 2 ∧ g.getLsbD 1 = p.getLsbD 1 ∧ g.getLsbD 0 = p.getLsbD 0 := by
  decide +kernel
theorem assign_bitsV : ∀ p : Byte, ∀ c : Bool,
    let g := assign bV c p; g.getLsbD 7 = c ∧ g.getLsbD 4 = p.getLsbD 4 ∧ g.getLsbD 3 = p.getLsbD 3 ∧ g.getLsbD 2 = p.getLsbD 2 ∧ g.getLsbD 1 = p.getLsbD 1 ∧ g.getLsbD 0 = p.getLsbD 0 := by
  decide +kernel

theorem ccr_C (m : Isa.Mach) (p : Byte) (c : Bool) : m.setCcr (assign bC c p) = { m.setCcr p with c := c } := by
  unfold Isa.Mach.setCcr; simp only [assign_bits p c]
theorem ccr_Z (m : Isa.Mach) (p : Byte) (c : Bool) : m.setCcr (assign bZ c p) = { m.setCcr p with z := c } := by
  unfold Isa.Mach.setCcr; simp only [assign_bitsZ p c]
theorem ccr_N (m : Isa.Mach) (p : Byte) (c : Bool) : m.setCcr (assign bN c p) = { m.setCcr p with n := c } := by
  unfold Isa.Mach.setCcr; simp only [assign_bitsN p c]
theorem ccr_I (m : Isa.Mach) (p : Byte) (c : Bool) : m.setCcr (assign bI c p) = { m.setCcr p with i := c } := by
  unfold Isa.Mach.setCcr; simp only [assign_bitsI p c]
theorem ccr_H (m : Isa.Mach) (p : Byte) (c : Bool) : m.setCcr (assign bH c p) = { m.setCcr p with hc := c } := by
  unfold Isa.Mach.setCcr; simp only [assign_bitsH p c]
theorem ccr_V (m : Isa.Mach) (p : Byte) (c : Bool) : m.setCcr (assign bV c p) = { m.setCcr p with v := c } := by
  unfold Isa.Mach.setCcr; simp only [assign_bitsV p c]

theorem flagNZ_eq : ∀ v p : Byte, flagNZ v p = assign bN v.msb (assign bZ (v == 0#8) p) := by
  have h : ∀ p : Byte, ∀ z n : Bool, (p &&& ~~~(bN ||| bZ)) ||| (if z = true then bZ else 0#8) ||| (if n = true then bN else 0#8) =
    assign bN n (assign bZ z p) := by decide +kernel
  intro v p
  rw [← h]
  have e : ∀ v : Byte, (if v &&& 0x80#8 = 0#8 then (0#8 : Byte) else bN) = if v.msb = true then bN else 0#8 := by decide +kernel
  unfold flagNZ
  rw [e]
  simp

theorem ccr_nz (m : Isa.Mach) (v p : Byte) : m.setCcr (flagNZ v p) = (m.setCcr p).nz v := by
  rw [flagNZ_eq, ccr_N, ccr_Z]; rfl

/-- The flags the simulator tests. -/
theorem flag_eq : ∀ p : Byte, flag p bC = p.getLsbD 0 ∧ flag p bZ = p.getLsbD 1 ∧ flag p bN = p.getLsbD 2 ∧ flag p bI = p.getLsbD 3 ∧
    flag p bH = p.getLsbD 4 ∧ flag p bV = p.getLsbD 7 := by decide +kernel

theorem carry_eq (s : St) : flag s.p bC = (abs s).c := (flag_eq s.p).1

theorem ccr_eq : ∀ p : Byte, p &&& 0x60#8 = 0x60#8 →
    Isa.bitAt (p.getLsbD 7) 7 ||| 0x60 ||| Isa.bitAt (p.getLsbD 4) 4 ||| Isa.bitAt (p.getLsbD 3) 3 ||| Isa.bitAt (p.getLsbD 2) 2 |||
      Isa.bitAt (p.getLsbD 1) 1 ||| Isa.bitAt (p.getLsbD 0) 0 = p := by decide +kernel

theorem abs_ccr (s : St) (h : CcOk s) : (abs s).ccr = s.p := ccr_eq s.p h

theorem ccr_or : ∀ p : Byte, ∀ m : Isa.Mach, m.setCcr (p ||| 0x60#8) = m.setCcr p := by
  intro p m
  have : ∀ p : Byte, let g := p ||| 0x60#8
      g.getLsbD 7 = p.getLsbD 7 ∧ g.getLsbD 4 = p.getLsbD 4 ∧ g.getLsbD 3 = p.getLsbD 3 ∧ g.getLsbD 2 = p.getLsbD 2 ∧ g.getLsbD 1 = p.getLsbD 1 ∧ g.getLsbD 0 = p.getLsbD 0 := by
    decide +kernel
  unfold Isa.Mach.setCcr
  simp only [this p]

/-! ### Carries -/

theorem mask_bit (i n : Nat) : (2 ^ i &&& n != 0) = n.testBit i := by
  have h : 2 ^ i &&& n = (n.testBit i).toNat * 2 ^ i := by
    apply Nat.eq_of_testBit_eq
    intro j
    rw [Nat.testBit_and, Nat.testBit_two_pow]
    by_cases e : i = j
    · subst e; cases n.testBit i <;> simp
    · cases n.testBit i <;> simp [e, Nat.testBit_two_pow]
  rw [h]
  cases n.testBit i <;> simp

theorem testBit_nat (n i : Nat) : n.testBit i = decide (n / 2 ^ i % 2 = 1) := by
  rw [Nat.testBit_eq_decide_div_mod_eq]

theorem xor4 (a b c d : Nat) (ha : a < 2) (hb : b < 2) (hc : c < 2) (hd : d < 2) :
    (decide (a = 1) ^^ decide (b = 1) ^^ decide (c = 1) ^^ decide (d = 1)) = decide ((a + b + c + d) % 2 = 1) := by
  have : a = 0 ∨ a = 1 := by omega
  have : b = 0 ∨ b = 1 := by omega
  have : c = 0 ∨ c = 1 := by omega
  have : d = 0 ∨ d = 1 := by omega
  rcases ‹a = 0 ∨ a = 1› with rfl | rfl <;> rcases ‹b = 0 ∨ b = 1› with rfl | rfl <;>
    rcases ‹c = 0 ∨ c = 1› with rfl | rfl <;> rcases ‹d = 0 ∨ d = 1› with rfl | rfl <;> decide

theorem ovf_nat (x y r : Nat) : ovf x y r = decide ((x / 128 % 2 + y / 128 % 2 + r / 128 % 2 + r / 256 % 2) % 2 = 1) := by
  unfold ovf
  rw [show (0x80 : Nat) = 2 ^ 7 from rfl, mask_bit, Nat.testBit_xor, Nat.testBit_xor, Nat.testBit_xor, Nat.testBit_shiftRight,
    testBit_nat, testBit_nat, testBit_nat, testBit_nat]
  simp only [Nat.reducePow, Nat.reduceAdd]
  rw [← xor4 _ _ _ _ (Nat.mod_lt _ (by decide)) (Nat.mod_lt _ (by decide)) (Nat.mod_lt _ (by decide)) (Nat.mod_lt _ (by decide))]

theorem toInt_cond (r : Byte) : r.toInt = if r.toNat < 128 then (r.toNat : Int) else r.toNat - 256 := by
  rw [BitVec.toInt_eq_toNat_cond]
  have := r.isLt
  split <;> split <;> omega

theorem add_v (x y : Byte) (c : Bool) :
    ovf x.toNat y.toNat (x.toNat + y.toNat + c.toNat) = Isa.ovf (x.toInt + y.toInt + c.toNat) := by
  have := x.isLt
  have := y.isLt
  have hc : c.toNat ≤ 1 := by cases c <;> decide
  rw [ovf_nat]
  unfold Isa.ovf
  rw [decide_eq_decide, toInt_cond, toInt_cond]
  have h1 : x.toNat / 128 = 0 ∨ x.toNat / 128 = 1 := by omega
  have h2 : y.toNat / 128 = 0 ∨ y.toNat / 128 = 1 := by omega
  generalize hr : x.toNat + y.toNat + c.toNat = r
  have h3 : r / 128 = 0 ∨ r / 128 = 1 ∨ r / 128 = 2 ∨ r / 128 = 3 := by omega
  rcases h1 with h1 | h1 <;> rcases h2 with h2 | h2 <;> rcases h3 with h3 | h3 | h3 | h3 <;>
    rw [h1, h2, h3] <;> split <;> split <;> omega

theorem add_c (x y : Byte) (c : Bool) :
    (0x100 &&& (x.toNat + y.toNat + c.toNat) != 0) = decide (256 ≤ x.toNat + y.toNat + c.toNat) := by
  have := x.isLt
  have := y.isLt
  have hc : c.toNat ≤ 1 := by cases c <;> decide
  rw [show (0x100 : Nat) = 2 ^ 8 from rfl, mask_bit, testBit_nat, decide_eq_decide]
  simp only [Nat.reducePow]; omega

theorem add_h (x y : Byte) (c : Bool) :
    (0x10 &&& (x.toNat ^^^ y.toNat ^^^ (x.toNat + y.toNat + c.toNat)) != 0) = decide (16 ≤ x.toNat % 16 + y.toNat % 16 + c.toNat) := by
  have := x.isLt
  have := y.isLt
  have hc : c.toNat ≤ 1 := by cases c <;> decide
  rw [show (0x10 : Nat) = 2 ^ 4 from rfl, mask_bit, Nat.testBit_xor, Nat.testBit_xor, testBit_nat, testBit_nat, testBit_nat]
  have := xor4 (x.toNat / 16 % 2) (y.toNat / 16 % 2) ((x.toNat + y.toNat + c.toNat) / 16 % 2) 0 (by omega) (by omega) (by omega) (by omega)
  simp only [show decide ((0 : Nat) = 1) = false from rfl, Bool.xor_false] at this
  simp only [Nat.reducePow]
  rw [this, decide_eq_decide]; omega

theorem sub_v (x y : Byte) (c : Bool) :
    ovf x.toNat y.toNat (diff x.toNat y.toNat c.toNat) = Isa.ovf (x.toInt - y.toInt - c.toNat) := by
  have := x.isLt
  have := y.isLt
  have hc : c.toNat ≤ 1 := by cases c <;> decide
  rw [ovf_nat]
  unfold Isa.ovf diff
  rw [decide_eq_decide, toInt_cond, toInt_cond]
  have h1 : x.toNat / 128 = 0 ∨ x.toNat / 128 = 1 := by omega
  have h2 : y.toNat / 128 = 0 ∨ y.toNat / 128 = 1 := by omega
  generalize hr : 0x100000000 + x.toNat - y.toNat - c.toNat = r
  have h3 : r / 128 = 33554430 ∨ r / 128 = 33554431 ∨ r / 128 = 33554432 ∨ r / 128 = 33554433 := by omega
  rcases h1 with h1 | h1 <;> rcases h2 with h2 | h2 <;> rcases h3 with h3 | h3 | h3 | h3 <;>
    rw [h1, h2, h3] <;> split <;> split <;> omega

theorem sub_c (x y : Byte) (c : Bool) :
    (0x100 &&& diff x.toNat y.toNat c.toNat != 0) = decide (x.toNat < y.toNat + c.toNat) := by
  have := x.isLt
  have := y.isLt
  have hc : c.toNat ≤ 1 := by cases c <;> decide
  rw [show (0x100 : Nat) = 2 ^ 8 from rfl, mask_bit, testBit_nat, decide_eq_decide]
  unfold diff
  simp only [Nat.reducePow]; omega

theorem sub_r (x y : Byte) (c : Bool) : BitVec.ofNat 8 (diff x.toNat y.toNat c.toNat) = BitVec.ofInt 8 ((x.toNat : Int) - y.toNat - c.toNat) := by
  have := x.isLt
  have := y.isLt
  have hc : c.toNat ≤ 1 := by cases c <;> decide
  apply BitVec.eq_of_toNat_eq
  rw [BitVec.toNat_ofNat, BitVec.toNat_ofInt]
  unfold diff
  omega

theorem abs_add (b : Byte) (c : Bool) (s : St) :
    abs { s with a := BitVec.ofNat 8 (s.a.toNat + b.toNat + c.toNat), p := addP s.a.toNat b.toNat c.toNat s.p } = (abs s).addc b c := by
  show (abs { s with a := BitVec.ofNat 8 (s.a.toNat + b.toNat + c.toNat) }).setCcr (addP s.a.toNat b.toNat c.toNat s.p) = _
  unfold addP
  simp only [ccr_H, ccr_C, ccr_V, ccr_nz, add_v, add_c, add_h]
  rfl

theorem subP_abs (m : Isa.Mach) (x b : Byte) (c : Bool) (p : Byte) :
    m.setCcr (subP x.toNat b.toNat c.toNat p) = (m.setCcr p).subc x b c := by
  unfold subP
  simp only [ccr_C, ccr_V, ccr_nz, sub_v, sub_c, sub_r]
  rfl

theorem logicP_abs (m : Isa.Mach) (v p : Byte) : m.setCcr (logicP v p) = (m.setCcr p).logic v := by
  unfold logicP; rw [ccr_nz, ccr_V]; rfl

def convA : Alu → Isa.Alu
  | .sub => .sub | .cmp => .cmp | .sbc => .sbc | .cpx => .cpx | .and => .and | .bit => .bit | .lda => .lda | .eor => .eor
  | .adc => .adc | .ora => .ora | .add => .add | .ldx => .ldx

theorem abs_ap (s : St) (x f : Byte) : abs { s with a := x, p := f } = { (abs s).setCcr f with a := x } := rfl
theorem abs_xp (s : St) (x f : Byte) : abs { s with x := x, p := f } = { (abs s).setCcr f with x := x } := rfl
theorem abs_a (s : St) : (abs s).a = s.a := rfl
theorem abs_x (s : St) : (abs s).x = s.x := rfl
theorem subP0_abs (m : Isa.Mach) (x b : Byte) (p : Byte) : m.setCcr (subP x.toNat b.toNat 0 p) = (m.setCcr p).subc x b false := by
  have e := subP_abs m x b false p
  rw [Bool.toNat_false] at e
  exact e

theorem abs_alu (o : Alu) (v : Byte) (s : St) : abs (aluOp o v s) = (abs s).alu (convA o) v := by
  have hc : flag s.p bC = (abs s).c := carry_eq s
  have r := sub_r s.a v false
  rw [Bool.toNat_false, show ((0 : Nat) : Int) = 0 from rfl, Int.sub_zero] at r
  have ad := abs_add v false s
  rw [Bool.toNat_false, Nat.add_zero] at ad
  have adc := abs_add v (abs s).c s
  rw [abs_ap] at ad adc
  cases o <;> simp only [aluOp, convA, Isa.Mach.alu, hc, r, sub_r, abs_a, abs_x]
  case add => rw [abs_ap, ad]
  case adc => rw [abs_ap, adc]
  case cmp => rw [abs_p, subP0_abs, setCcr_self]
  case cpx => rw [abs_p, subP0_abs, setCcr_self]
  case bit => rw [abs_p, logicP_abs, setCcr_self]
  case sub => rw [abs_ap, subP0_abs, setCcr_self]
  case sbc => rw [abs_ap, subP_abs, setCcr_self]
  case ldx => rw [abs_xp, logicP_abs, setCcr_self]
  all_goals rw [abs_ap, logicP_abs, setCcr_self]

/-! ### Read-modify-write -/

def convR : Rmw → Isa.Rmw
  | .neg => .neg | .com => .com | .lsr => .lsr | .ror => .ror | .asr => .asr | .lsl => .lsl | .rol => .rol | .dec => .dec
  | .inc => .inc | .tst => .tst | .clr => .clr

theorem rmw_val (o : Rmw) (v p : Byte) : (rmwOp o v p).1 = (convR o).val (p.getLsbD 0) v := by
  have h1 : ∀ v : Byte, (v >>> 1) ||| (v &&& 0x80#8) = v.sshiftRight 1 := by decide +kernel
  have h2 : ∀ v : Byte, (v >>> 1) &&& 0x7f#8 = v >>> 1 := by decide +kernel
  have hc := (flag_eq p).1
  cases o <;> simp only [rmwOp, convR, Isa.Rmw.val, h1, h2, hc, Isa.bitAt] <;> rfl

theorem shiftP_abs (m : Isa.Mach) (c : Bool) (v p : Byte) :
    m.setCcr (shiftP c v p) = { m.setCcr p with c := c, v := v.msb != c }.nz v := by
  unfold shiftP
  simp only [ccr_V, ccr_nz, ccr_C]
  have e : (flag (flagNZ v (assign bC c p)) bC ^^ flag (flagNZ v (assign bC c p)) bN) = (v.msb != c) := by
    have h := flag_eq (flagNZ v (assign bC c p))
    rw [h.1, h.2.2.1, flagNZ_eq, (assign_bitsN _ _).2.2.2.2.2, (assign_bitsN _ _).2.2.2.1, (assign_bitsZ _ _).2.2.2.2.2, (assign_bits _ _).2.2.2.2.2]
    cases v.msb <;> cases c <;> rfl
  rw [e]; rfl

theorem rmw_flags (m : Isa.Mach) (o : Rmw) (v p : Byte) : m.setCcr (rmwOp o v p).2 = (m.setCcr p).rmwFlags (convR o) v := by
  have h1 : ∀ v : Byte, (v &&& 1#8 != 0#8) = v.getLsbD 0 := by decide +kernel
  have h7 : ∀ v : Byte, (v &&& 0x80#8 != 0#8) = v.getLsbD 7 := by decide +kernel
  have k : (m.setCcr p).c = p.getLsbD 0 := rfl
  cases o
  case asr =>
    have e := rmw_val .asr v p
    simp only [rmwOp, convR] at e
    simp only [rmwOp, shiftP_abs, h1, e, Isa.Mach.rmwFlags, convR, k]
  case lsr =>
    have e := rmw_val .lsr v p
    simp only [rmwOp, convR] at e
    simp only [rmwOp, shiftP_abs, h1, e, Isa.Mach.rmwFlags, convR, k]
  case ror =>
    have e := rmw_val .ror v p
    simp only [rmwOp, convR] at e
    simp only [rmwOp, shiftP_abs, h1, e, Isa.Mach.rmwFlags, convR, k]
  case rol =>
    have e := rmw_val .rol v p
    simp only [rmwOp, convR] at e
    simp only [rmwOp, shiftP_abs, h7, e, Isa.Mach.rmwFlags, convR, k]
  case lsl =>
    have e := rmw_val .lsl v p
    simp only [rmwOp, convR] at e
    simp only [rmwOp, shiftP_abs, h7, e, Isa.Mach.rmwFlags, convR, k]
  case inc =>
    simp only [rmwOp, ccr_V, ccr_nz, Isa.Mach.rmwFlags, convR, Isa.Rmw.val]
    have : ∀ v : Byte, (v + 1 == 0x80#8) = (v == 0x7f#8) := by decide +kernel
    rw [this]; rfl
  case dec =>
    simp only [rmwOp, ccr_V, ccr_nz, Isa.Mach.rmwFlags, convR, Isa.Rmw.val]
    have : ∀ v : Byte, (v - 1 == 0x7f#8) = (v == 0x80#8) := by decide +kernel
    rw [this]; rfl
  case neg =>
    simp only [rmwOp, ccr_V, ccr_C, ccr_nz, Isa.Mach.rmwFlags, convR, Isa.Rmw.val]
    have h1 : ∀ v : Byte, (v == 0x80#8) = (-v == 0x80#8) := by decide +kernel
    have h2 : ∀ v : Byte, (v != 0#8) = (-v != 0) := by decide +kernel
    rw [h1, h2]
  case tst => simp only [rmwOp, ccr_V, ccr_C, ccr_nz, Isa.Mach.rmwFlags, convR, Isa.Rmw.val]; rfl
  case clr => simp only [rmwOp, ccr_V, ccr_N, ccr_Z, Isa.Mach.rmwFlags, convR, Isa.Rmw.val]; rfl
  case com => simp only [rmwOp, ccr_V, ccr_C, ccr_nz, Isa.Mach.rmwFlags, convR, Isa.Rmw.val]; rfl

end Ucsim.H08
