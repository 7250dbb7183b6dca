import Verif.Spec.AvrDiff
/- The instruction selected by the simulator is that of the manual, for every word. -/
namespace Ucsim.Avr

open Isa (Ins)

/-- The instruction of the manual a member function executes, with the operands it takes from the code. -/
def ofFn (f : Fn) (c : Nat) : Option Ins :=
  match f with
  | .nop => some ⟨.nop, 0, 0⟩
  | .wdr => if c = 0x95a8 then some ⟨.wdr, 0, 0⟩ else none
  | .sleep => if c = 0x9588 then some ⟨.sleep, 0, 0⟩ else some ⟨.brk, 0, 0⟩
  | .eijmp | .eicall | .elpm | .spm | .espm | .elpmZ | .elpmZinc | .ser => none
  | .ret => if c = 0x9508 then some ⟨.ret, 0, 0⟩ else none
  | .reti => if c = 0x9518 then some ⟨.reti, 0, 0⟩ else none
  | .lpm => some ⟨.lpm0, 0, 0⟩
  | .bset i => some ⟨.bset, i, 0⟩
  | .bclr i => some ⟨.bclr, i, 0⟩
  | .cpi => some ⟨.cpi, 16 + cd4 c, cK c⟩
  | .sbci => some ⟨.sbci, 16 + cd4 c, cK c⟩
  | .subi => some ⟨.subi, 16 + cd4 c, cK c⟩
  | .ori => some ⟨.ori, 16 + cd4 c, cK c⟩
  | .andi => some ⟨.andi, 16 + cd4 c, cK c⟩
  | .ldi => some ⟨.ldi, 16 + cd4 c, cK c⟩
  | .rjmp => some ⟨.rjmp, c &&& 0xfff, 0⟩
  | .rcall => some ⟨.rcall, c &&& 0xfff, 0⟩
  | .movw => some ⟨.movw, c / 16 % 16 * 2, c % 16 * 2⟩
  | .muls => some ⟨.muls, 16 + c / 16 % 16, 16 + c % 16⟩
  | .mulsu => some ⟨.mulsu, 16 + c / 16 % 8, 16 + c % 8⟩
  | .fmul => some ⟨.fmul, 16 + c / 16 % 8, 16 + c % 8⟩
  | .fmuls => some ⟨.fmuls, 16 + c / 16 % 8, 16 + c % 8⟩
  | .fmulsu => some ⟨.fmulsu, 16 + c / 16 % 8, 16 + c % 8⟩
  | .cpc => some ⟨.cpc, cd c, cr c⟩
  | .sbc => some ⟨.sbc, cd c, cr c⟩
  | .add => some ⟨.add, cd c, cr c⟩
  | .cpse => some ⟨.cpse, cd c, cr c⟩
  | .cp => some ⟨.cp, cd c, cr c⟩
  | .sub => some ⟨.sub, cd c, cr c⟩
  | .adc => some ⟨.adc, cd c, cr c⟩
  | .and => some ⟨.and, cd c, cr c⟩
  | .eor => some ⟨.eor, cd c, cr c⟩
  | .or => some ⟨.or, cd c, cr c⟩
  | .mov => some ⟨.mov, cd c, cr c⟩
  | .mul => some ⟨.mul, cd c, cr c⟩
  | .ldd p => if p = rY then some ⟨.lddY, cd c, cq c⟩ else if p = rZ then some ⟨.lddZ, cd c, cq c⟩ else none
  | .std p => if p = rY then some ⟨.stdY, cd c, cq c⟩ else if p = rZ then some ⟨.stdZ, cd c, cq c⟩ else none
  | .icall => if c = 0x9509 then some ⟨.icall, 0, 0⟩ else none
  | .ijmp => if c = 0x9409 then some ⟨.ijmp, 0, 0⟩ else none
  | .adiw => some ⟨.adiw, cdl c, cK6 c⟩
  | .sbiw => some ⟨.sbiw, cdl c, cK6 c⟩
  | .lds => some ⟨.lds, cd c, 0⟩
  | .sts => some ⟨.sts, cd c, 0⟩
  | .ldInc p => if p = rX then some ⟨.ldXp, cd c, 0⟩ else if p = rY then some ⟨.ldYp, cd c, 0⟩
    else if p = rZ then some ⟨.ldZp, cd c, 0⟩ else none
  | .ldDec p => if p = rX then some ⟨.ldmX, cd c, 0⟩ else if p = rY then some ⟨.ldmY, cd c, 0⟩
    else if p = rZ then some ⟨.ldmZ, cd c, 0⟩ else none
  | .stInc p => if p = rX then some ⟨.stXp, cd c, 0⟩ else if p = rY then some ⟨.stYp, cd c, 0⟩
    else if p = rZ then some ⟨.stZp, cd c, 0⟩ else none
  | .stDec p => if p = rX then some ⟨.stmX, cd c, 0⟩ else if p = rY then some ⟨.stmY, cd c, 0⟩
    else if p = rZ then some ⟨.stmZ, cd c, 0⟩ else none
  | .lpmZ => some ⟨.lpm, cd c, 0⟩
  | .lpmZinc => some ⟨.lpmp, cd c, 0⟩
  | .ldX => some ⟨.ldX, cd c, 0⟩
  | .stX => some ⟨.stX, cd c, 0⟩
  | .pop => some ⟨.pop, cd c, 0⟩
  | .push => some ⟨.push, cd c, 0⟩
  | .com => some ⟨.com, cd c, 0⟩
  | .neg => some ⟨.neg, cd c, 0⟩
  | .swap => some ⟨.swap, cd c, 0⟩
  | .inc => some ⟨.inc, cd c, 0⟩
  | .asr => some ⟨.asr, cd c, 0⟩
  | .lsr => some ⟨.lsr, cd c, 0⟩
  | .ror => some ⟨.ror, cd c, 0⟩
  | .dec => some ⟨.dec, cd c, 0⟩
  | .jmp => some ⟨.jmp, kh c, 0⟩
  | .call => some ⟨.call, kh c, 0⟩
  | .cbi => some ⟨.cbi, cP5 c, cb c⟩
  | .sbic => some ⟨.sbic, cP5 c, cb c⟩
  | .sbi => some ⟨.sbi, cP5 c, cb c⟩
  | .sbis => some ⟨.sbis, cP5 c, cb c⟩
  | .inp => some ⟨.inp, cd c, cP c⟩
  | .out => some ⟨.out, cd c, cP c⟩
  | .brbs => some ⟨.brbs, cb c, (c &&& 0x3f8) >>> 3⟩
  | .brbc => some ⟨.brbc, cb c, (c &&& 0x3f8) >>> 3⟩
  | .bld => some ⟨.bld, cd c, cb c⟩
  | .bst => some ⟨.bst, cd c, cb c⟩
  | .sbrc => if c / 8 % 2 = 0 then some ⟨.sbrc, cd c, cb c⟩ else none
  | .sbrs => if c / 8 % 2 = 0 then some ⟨.sbrs, cd c, cb c⟩ else none

/-! ### Search by the high byte -/

theorem and_hi (hi lo : Nat) (hh : hi < 256) (hl : lo < 256) : (hi * 256 + lo) &&& 0xff00 = hi * 256 := by
  have h1 : ((hi * 256 + lo) &&& 0xff00) % 2 ^ 8 = 0 := by
    rw [Nat.and_mod_two_pow]; simp
  have h2 : ((hi * 256 + lo) &&& 0xff00) >>> 8 = hi := by
    rw [Nat.shiftRight_and_distrib, show (0xff00 : Nat) >>> 8 = 2 ^ 8 - 1 from rfl, Nat.and_two_pow_sub_one_eq_mod,
      Nat.shiftRight_eq_div_pow]
    omega
  rw [Nat.shiftRight_eq_div_pow] at h2
  omega

/-- The entries of a table that a word with this high byte can match. -/
def byHi {α : Type} (mask code : α → Nat) (hi : Nat) (l : List α) : List α :=
  l.filter (fun e => hi * 256 &&& mask e == code e &&& 0xff00)

theorem find_byHi {α : Type} (mask code : α → Nat) (hi lo : Nat) (hh : hi < 256) (hl : lo < 256) (l : List α) :
    l.find? (fun e => (hi * 256 + lo) &&& mask e == code e) =
      (byHi mask code hi l).find? (fun e => (hi * 256 + lo) &&& mask e == code e) := by
  unfold byHi
  induction l with
  | nil => rfl
  | cons e l ih =>
    rw [List.find?_cons, List.filter_cons]
    by_cases h : ((hi * 256 + lo) &&& mask e == code e) = true
    · have : (hi * 256 &&& mask e == code e &&& 0xff00) = true := by
        rw [beq_iff_eq] at h ⊢
        rw [← h, Nat.and_assoc, Nat.and_comm (mask e), ← Nat.and_assoc, and_hi hi lo hh hl]
      rw [if_pos this, List.find?_cons, h]
    · rw [Bool.not_eq_true] at h
      rw [h]
      dsimp only
      rw [ih]
      split
      · rw [List.find?_cons, h]
      · rfl

/-- What has to be checked about a word, with a part of the table. -/
def selChk (l : List (Nat × Nat × Fn)) (c : Nat) : Bool :=
  match l.find? (fun e => c &&& e.1 == e.2.1) with
  | none => Isa.decode c == none && !accepted c
  | some e => Isa.decode c == ofFn e.2.2 c && accepted c == (ofFn e.2.2 c == none)

/-- `p` of all the numbers below `n` -/
def upto (p : Nat → Bool) : Nat → Bool := fun n => Nat.rec true (fun k ih => cond (p k) ih false) n

theorem upto_spec (p : Nat → Bool) (n : Nat) (h : upto p n = true) : ∀ k < n, p k = true := by
  induction n with
  | zero => intro k hk; omega
  | succ n ih =>
    have h' : cond (p n) (upto p n) false = true := h
    intro k hk
    cases hp : p n with
    | false => rw [hp] at h'; cases h'
    | true =>
      rw [hp] at h'
      by_cases hkn : k = n
      · rw [hkn, hp]
      · exact ih h' k (by omega)

/-- The words with the first hexadecimal digit `n`. -/
def selBlk (n : Nat) : Bool :=
  upto (fun h => upto (fun lo => selChk (byHi (·.1) (·.2.1) (16 * n + h) cases) ((16 * n + h) * 256 + lo)) 256) 16

set_option maxRecDepth 100000
set_option maxHeartbeats 0
theorem sel_0 : selBlk 0x0 = true := by decide +kernel
theorem sel_1 : selBlk 0x1 = true := by decide +kernel
theorem sel_2 : selBlk 0x2 = true := by decide +kernel
theorem sel_3 : selBlk 0x3 = true := by decide +kernel
theorem sel_4 : selBlk 0x4 = true := by decide +kernel
theorem sel_5 : selBlk 0x5 = true := by decide +kernel
theorem sel_6 : selBlk 0x6 = true := by decide +kernel
theorem sel_7 : selBlk 0x7 = true := by decide +kernel
theorem sel_8 : selBlk 0x8 = true := by decide +kernel
theorem sel_9 : selBlk 0x9 = true := by decide +kernel
theorem sel_a : selBlk 0xa = true := by decide +kernel
theorem sel_b : selBlk 0xb = true := by decide +kernel
theorem sel_c : selBlk 0xc = true := by decide +kernel
theorem sel_d : selBlk 0xd = true := by decide +kernel
theorem sel_e : selBlk 0xe = true := by decide +kernel
theorem sel_f : selBlk 0xf = true := by decide +kernel

end Ucsim.Avr
