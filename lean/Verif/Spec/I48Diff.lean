import Verif.I48.Step
import Verif.Spec.I48
/-
How a state of the simulator is read as a state of the MCS-48 of Spec/I48.lean, and the situations
in which the simulator is known to do something else.
-/
namespace Ucsim.I48

def absMode : TMode → Isa.TMode
  | .stop => .stop
  | .counter => .counter
  | .timer => .timer

/-- What the user sees of the machine: registers, memories, latches, pins, timer. -/
def abs (s : St) : Isa.Mach where
  ramSize := s.ramSize
  prog := romRd s
  ram := s.iram
  ext := s.xram
  a := s.a
  c := s.psw.getLsbD 7
  ac := s.psw.getLsbD 6
  f0 := s.psw.getLsbD 5
  bs := s.psw.getLsbD 4
  sp := s.psw.extractLsb' 0 3
  f1 := s.f1
  dbf := s.mb
  isr := s.inIsr
  pc := s.pc
  p1 := s.p1
  p2 := s.p2
  p1in := s.p1pin
  p2in := s.p2pin
  x := fun n => (s.x n).setWidth 4
  xin := fun n => (s.xpin n).setWidth 4
  bus := s.bus
  busIn := s.busIn
  t0 := s.t0
  t1 := s.t1
  int := s.int
  tmr := s.tmr
  mode := absMode s.mode
  tf := s.tflag
  eni := s.ene
  entcnti := s.ien

/-- Bit 3 of PSW is 1, the chip has at least 64 bytes of ram, the expander's latches hold four
bits.  Holds after reset (c108_reset) and in every later state (c108_wf). -/
structure Wf (s : St) : Prop where
  one : s.psw.getLsbD 3 = true
  ram : 64 ≤ s.ramSize
  x : ∀ n, (s.x n).toNat < 16

/-- The user gave four bit numbers to the variables of the expander's input pins. -/
def Pins (s : St) : Prop := ∀ n, (s.xpin n).toNat < 16

/-- Known differences; `m` is before the instruction. -/
def Differs (m : Isa.Mach) : Isa.Ins → Prop
  /- ADDC A,@Rr is not carried out. -/
  | .alu .adc (.ir _) => True
  /- A pointer outside the data memory is not cut to its size. -/
  | .alu _ (.ir r) | .incIr r | .xchIr r | .xchd r | .movIrA r | .movIrI r => m.ramSize ≤ (m.at' r).toNat
  /- Long jumps in an interrupt service routine with SEL MB1 in force. -/
  | .jmp _ | .call _ => m.dbf = true ∧ m.isr = true
  /- A jump whose second byte is the last of its page goes to the next page. -/
  | .jcc k => m.pc.extractLsb' 0 8 = 0xfe#8 ∧ m.cond k = true
  /- DJNZ always decrements R7 and always jumps. -/
  | .djnz n => n ≠ 7 ∨ m.reg 7 = 1#8 ∨ m.pc.extractLsb' 0 8 = 0xfe#8
  /- MOVP3 in the upper 2K reads from 0xb00. -/
  | .movp3 => (Isa.next m.pc).getLsbD 11 = true
  /- Using the expander clears the high half of port 2. -/
  | .movdA _ | .movdP _ | .orld _ | .anld _ => m.p2 &&& 0xf0#8 ≠ 0#8
  | _ => False

end Ucsim.I48
