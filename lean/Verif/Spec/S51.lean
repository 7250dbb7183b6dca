import Verif.S51.Step

/-
What an 8051 programmer sees: registers, flags and operands of a machine state, and
the arithmetic of the instruction set manual.
-/
namespace Ucsim.S51.Spec
open Ucsim.S51

variable {H : Type}

def A (s : St H) : Byte := s.sfr 0xe0
def B (s : St H) : Byte := s.sfr 0xf0
def psw (s : St H) : Byte := s.sfr 0xd0
def sp (s : St H) : Nat := (s.sfr 0x81).toNat
def dptr (s : St H) : Nat := 256 * (s.sfr 0x83).toNat + (s.sfr 0x82).toNat

def CY (s : St H) : Bool := (psw s).getLsbD 7
def AC (s : St H) : Bool := (psw s).getLsbD 6
def F0 (s : St H) : Bool := (psw s).getLsbD 5
def RS1 (s : St H) : Bool := (psw s).getLsbD 4
def RS0 (s : St H) : Bool := (psw s).getLsbD 3
def OV (s : St H) : Bool := (psw s).getLsbD 2
def F1 (s : St H) : Bool := (psw s).getLsbD 1
def Pf (s : St H) : Bool := (psw s).getLsbD 0

/-- Number of register bank selected by RS1, RS0. -/
def rs (s : St H) : Nat := 2 * (RS1 s).toNat + (RS0 s).toNat

/-- Address of R`n` in internal memory. -/
def regAddr (s : St H) (n : Nat) : Nat := 8 * rs s + n

def R (s : St H) (n : Nat) : Byte := s.iram (regAddr s n)

/-- Odd number of ones. -/
def oddOnes (b : Byte) : Bool :=
  ((b.getLsbD 0).toNat + (b.getLsbD 1).toNat + (b.getLsbD 2).toNat + (b.getLsbD 3).toNat + (b.getLsbD 4).toNat +
   (b.getLsbD 5).toNat + (b.getLsbD 6).toNat + (b.getLsbD 7).toNat) % 2 == 1

/-- `n`-th byte of the instruction at the PC. -/
def code (s : St H) (n : Nat) : Byte := s.rom ((s.pc + n) % 0x10000)

/-- The value found at a direct address: internal memory below 0x80; above, a CPU
register, or what the device behind the SFR delivers. -/
def direct (P : Hw H) (s : St H) (a : Byte) : Byte :=
  if a.toNat < 0x80 then s.iram a.toNat
  else if isCore a.toNat then s.sfr a.toNat
  else P.sfrRd s.hw s.sfr a.toNat false

/-- The value found at an indirect address; outside of the implemented memory it is
not determined. -/
def indirect (P : Hw H) (s : St H) (a : Byte) : Byte :=
  if a.toNat < P.iramSize then s.iram a.toNat else P.dummyRd s.hw

/-- Source operand of the accumulator instructions, by the low nibble of the opcode:
4 #data, 5 direct, 6-7 @Ri, 8-f Rn. -/
def operand (P : Hw H) (s : St H) : Byte :=
  let n := (code s 0).toNat % 16
  if n = 4 then code s 1
  else if n = 5 then direct P s (code s 1)
  else if n < 8 then indirect P s (R s (n - 6))
  else R s (n - 8)

/-- Length of these instructions. -/
def operandLen (s : St H) : Nat := if (code s 0).toNat % 16 < 6 then 2 else 1

/-- Signed value out of the range of a byte. -/
def overflow (x : Int) : Bool := decide (x < -128) || decide (127 < x)

/-- Machine states in which instructions start: PC in code memory, the selected
register bank is the one PSW tells, the lower 128 bytes of internal memory exist. -/
structure Ok (P : Hw H) (s : St H) : Prop where
  pc : s.pc < 0x10000
  bank : s.bank = rs s
  size : 0x80 ≤ P.iramSize

/-- Nothing but A, the PSW (and the PC, the clock and the devices) changed. -/
structure OnlyAPsw (s s' : St H) : Prop where
  iram : s'.iram = s.iram
  xram : s'.xram = s.xram
  rom : s'.rom = s.rom
  sfr : ∀ a, a ≠ 0xe0 → a ≠ 0xd0 → s'.sfr a = s.sfr a
  levels : s'.levels = s.levels
  state : s'.state = s.state
  bank : s'.bank = s.bank
  f0 : F0 s' = F0 s
  rs1 : RS1 s' = RS1 s
  rs0 : RS0 s' = RS0 s
  f1 : F1 s' = F1 s

/-- The accumulator instruction at the PC has added `x` and `c`. -/
structure Added (s s' : St H) (x : Byte) (c : Nat) : Prop where
  a : (A s').toNat = ((A s).toNat + x.toNat + c) % 256
  cy : CY s' = decide (256 ≤ (A s).toNat + x.toNat + c)
  ac : AC s' = decide (16 ≤ (A s).toNat % 16 + x.toNat % 16 + c)
  ov : OV s' = overflow ((A s).toInt + x.toInt + c)
  p : Pf s' = oddOnes (A s')
  pc : s'.pc = (s.pc + operandLen s) % 0x10000
  rest : OnlyAPsw s s'

/-- The accumulator instruction at the PC has subtracted `x` and the borrow `c`. -/
structure Subtracted (s s' : St H) (x : Byte) (c : Nat) : Prop where
  a : ((A s').toNat : Int) = ((A s).toNat - x.toNat - c : Int) % 256
  cy : CY s' = decide ((A s).toNat < x.toNat + c)
  ac : AC s' = decide ((A s).toNat % 16 < x.toNat % 16 + c)
  ov : OV s' = overflow ((A s).toInt - x.toInt - c)
  p : Pf s' = oddOnes (A s')
  pc : s'.pc = (s.pc + operandLen s) % 0x10000
  rest : OnlyAPsw s s'

/-- Packed BCD. -/
def isBcd (b : Byte) : Prop := b.toNat % 16 ≤ 9 ∧ b.toNat / 16 ≤ 9

/-- The number a packed BCD byte stands for. -/
def bcd (b : Byte) : Nat := 10 * (b.toNat / 16) + b.toNat % 16

/-- Nothing but A, B, the PSW (and the PC, the clock and the devices) changed. -/
structure OnlyABPsw (s s' : St H) : Prop where
  iram : s'.iram = s.iram
  xram : s'.xram = s.xram
  rom : s'.rom = s.rom
  sfr : ∀ a, a ≠ 0xe0 → a ≠ 0xd0 → a ≠ 0xf0 → s'.sfr a = s.sfr a
  levels : s'.levels = s.levels
  state : s'.state = s.state
  bank : s'.bank = rs s
  ac : AC s' = AC s
  f0 : F0 s' = F0 s
  rs1 : RS1 s' = RS1 s
  rs0 : RS0 s' = RS0 s
  f1 : F1 s' = F1 s

/-! ### Control flow -/

/-- Bit at a bit address, as it is stored: bit `b mod 8` of internal memory byte
`0x20 + b/8`, or of the SFR at `b` rounded down to 8. -/
def bitStored (s : St H) (b : Byte) : Bool :=
  if b.toNat < 0x80 then (s.iram (0x20 + b.toNat / 8)).getLsbD (b.toNat % 8)
  else (s.sfr (b.toNat / 8 * 8)).getLsbD (b.toNat % 8)

/-- Bit at a bit address, as instructions read it: devices deliver their pins. -/
def bitPin (P : Hw H) (s : St H) (b : Byte) : Bool :=
  if b.toNat < 0x80 then (s.iram (0x20 + b.toNat / 8)).getLsbD (b.toNat % 8)
  else (direct P s (BitVec.ofNat 8 (b.toNat / 8 * 8))).getLsbD (b.toNat % 8)

/-- Jumps, calls and returns: opcodes of the manual. -/
def isBranch (c : Byte) : Bool :=
  c.toNat % 16 == 1 ||                                       -- AJMP, ACALL
  (c.toNat ≤ 0x70 && c.toNat % 16 == 0 && c.toNat ≥ 0x10) ||  -- JBC JB JNB JC JNC JZ JNZ
  c.toNat == 0x02 || c.toNat == 0x12 || c.toNat == 0x22 || c.toNat == 0x32 || c.toNat == 0x73 || c.toNat == 0x80 ||
  (0xb4 ≤ c.toNat && c.toNat ≤ 0xbf) || c.toNat == 0xd5 || c.toNat ≥ 0xd8 && c.toNat ≤ 0xdf

/-- Branches with a relative target (SJMP included). -/
def isRelative (c : Byte) : Bool :=
  (c.toNat ≤ 0x80 && c.toNat % 16 == 0 && c.toNat ≥ 0x10) ||
  (0xb4 ≤ c.toNat && c.toNat ≤ 0xbf) || c.toNat == 0xd5 || c.toNat ≥ 0xd8 && c.toNat ≤ 0xdf

/-- Length of the relative branches. -/
def relLen (c : Byte) : Nat :=
  if c.toNat = 0x10 ∨ c.toNat = 0x20 ∨ c.toNat = 0x30 ∨ (0xb4 ≤ c.toNat ∧ c.toNat ≤ 0xbf) ∨ c.toNat = 0xd5 then 3 else 2

/-- What DJNZ leaves in a directly addressed location that is not a device. -/
def decremented (P : Hw H) (s : St H) (a : Byte) : Byte :=
  if a.toNat < 0x80 then s.iram a.toNat - 1#8
  else if isCore a.toNat then s.sfr a.toNat - 1#8
  else (P.sfrWr (P.sfrRdEff s.hw s.sfr a.toNat true) s.sfr a.toNat (P.sfrRd s.hw s.sfr a.toNat true - 1#8)).1

/-- The condition of the relative branches. -/
def taken (P : Hw H) (s : St H) : Bool :=
  let c := (code s 0).toNat
  if c = 0x80 then true
  else if c = 0x10 then bitStored s (code s 1)
  else if c = 0x20 then bitPin P s (code s 1)
  else if c = 0x30 then !bitPin P s (code s 1)
  else if c = 0x40 then CY s
  else if c = 0x50 then !CY s
  else if c = 0x60 then decide (A s = 0#8)
  else if c = 0x70 then decide (A s ≠ 0#8)
  else if c = 0xb4 then decide (A s ≠ code s 1)
  else if c = 0xb5 then decide (A s ≠ direct P s (code s 1))
  else if c ≤ 0xb7 then decide (indirect P s (R s (c % 2)) ≠ code s 1)
  else if c ≤ 0xbf then decide (R s (c % 8) ≠ code s 1)
  else if c = 0xd5 then decide (decremented P s (code s 1) ≠ 0#8)
  else decide (R s (c % 8) ≠ 1#8)

/-- Address of the next instruction plus the signed displacement (last byte of the
instruction). -/
def relTarget (s : St H) : Int :=
  ((s.pc + relLen (code s 0)) % 0x10000 : Nat) + (code s (relLen (code s 0) - 1)).toInt

/-! ### Stack -/

/-- The `k` bytes above the stack pointer are implemented memory. -/
def StackRoom (P : Hw H) (s : St H) (k : Nat) : Prop := ∀ i, 1 ≤ i → i ≤ k → (sp s + i) % 256 < P.iramSize

/-- Nothing but SP, the internal memory (and the PC, the clock and the devices) changed. -/
structure OnlyStack (s s' : St H) : Prop where
  xram : s'.xram = s.xram
  rom : s'.rom = s.rom
  sfr : ∀ a, a ≠ 0x81 → s'.sfr a = s.sfr a
  levels : s'.levels = s.levels
  state : s'.state = s.state
  bank : s'.bank = s.bank

/-- A subroutine call: return address on the stack, low byte first. -/
structure Called (s s' : St H) (ret target : Nat) : Prop where
  pc : s'.pc = target
  sp : sp s' = (sp s + 2) % 256
  low : (s'.iram ((Spec.sp s + 1) % 256)).toNat = ret % 256
  high : (s'.iram ((Spec.sp s + 2) % 256)).toNat = ret / 256
  iram : ∀ a, a ≠ (Spec.sp s + 1) % 256 → a ≠ (Spec.sp s + 2) % 256 → s'.iram a = s.iram a
  rest : OnlyStack s s'

/-- The top two bytes of the stack give the address to return to. -/
structure Returned (s s' : St H) : Prop where
  pc : s'.pc = 256 * (s.iram (Spec.sp s)).toNat + (s.iram ((Spec.sp s + 255) % 256)).toNat
  sp : sp s' = (Spec.sp s + 254) % 256
  iram : s'.iram = s.iram
  xram : s'.xram = s.xram
  rom : s'.rom = s.rom
  sfr : ∀ a, a ≠ 0x81 → s'.sfr a = s.sfr a

/-- Address of the next instruction in the 2K page of AJMP and ACALL. -/
def page11 (s : St H) : Nat := (s.pc + 2) % 0x10000 / 2048 * 2048 + (code s 0).toNat / 32 * 256 + (code s 1).toNat

/-- The address in bytes 1 and 2. -/
def addr16 (s : St H) : Nat := 256 * (code s 1).toNat + (code s 2).toNat

/-! ### Histories -/

/-- What can happen to the machine: it executes an instruction (or takes an interrupt,
or idles), or somebody (a command, another device) writes an SFR, a bit of the bit
space or internal memory. -/
inductive Act
  | step
  | sfr (a : Nat) (v : Byte)
  | bit (b : Byte) (v : Bool)
  | iram (a : Nat) (v : Byte)

def act (P : Hw H) (s : St H) : Act → St H
  | .step => (doInst P s).2
  | .sfr a v => (sfrWrite P a v s).2
  | .bit b v => (bitWrite P b v s).2
  | .iram a v => (iramWrite P a v s).2

def play (P : Hw H) (s : St H) (l : List Act) : St H := l.foldl (act P) s

/-- The instruction at the PC names the PSW (direct address 0xd0) or its bit P (bit
address 0xd0) as its destination. -/
def namesPsw (s : St H) : Bool :=
  let c := (code s 0).toNat
  -- INC, DEC, ORL, ANL, XRL (two forms each), MOV (immediate, @Ri, Rn, A), XCH, POP, DJNZ; JBC, MOV bit,C, CPL, CLR, SETB
  ((c == 0x05 || c == 0x15 || c == 0x42 || c == 0x43 || c == 0x52 || c == 0x53 || c == 0x62 || c == 0x63 ||
    c == 0x75 || (0x86 ≤ c && c ≤ 0x8f) || c == 0xc5 || c == 0xd0 || c == 0xd5 || c == 0xf5 ||
    c == 0x10 || c == 0x92 || c == 0xb2 || c == 0xc2 || c == 0xd2) && code s 1 == 0xd0#8) ||
  -- MOV dst,src: the destination is the last byte
  (c == 0x85 && code s 2 == 0xd0#8)

/-! ### Interrupts -/

/-- Levels from the innermost handler to the main program: priorities decrease. -/
def Nested (l : List ItLevel) : Prop := l.Pairwise (fun inner outer => outer.level < inner.level)

/-- Priority the program runs at: -1 for the main program. -/
def current (s : St H) : Int := match s.levels with | l :: _ => l.level | [] => -1

/-- The source requests an interrupt that may be taken now: it is active, its enable
bits and EA are set, its request flag is set, and its priority (1 if its bit in IP is
set, else 0) is higher than that of the running code. -/
structure MayInterrupt (s : St H) (i : ItSrc) : Prop where
  active : i.active = true
  ea : (s.sfr 0xa8).getLsbD 7 = true
  enabled : s.sfr 0xa8 &&& i.ieMask = i.ieMask
  pending : s.sfr i.srcAddr &&& i.srcMask = i.srcMask
  prio : current s < (if s.sfr 0xb8 &&& i.ieMask = 0#8 then 0 else 1)

end Ucsim.S51.Spec
