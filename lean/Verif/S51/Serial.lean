import Verif.S51.State

/-
Model of the serial line of the 8051: /repo/src/sims/s51.src/serial.cc and the part of
/repo/src/core/sim.src/serial_hw.cc it uses.  The state is that of the device; what happens to it
(the CPU accesses its registers, time passes, timers overflow, the simulator looks for input) is
an event.  Not modelled: the control menu of the terminal (escape character), sockets, the 9th
bit (the code does not use it), overflow of the C++ int counters, end of file on the input (no
more input comes).
-/
namespace Ucsim.S51.Uart

abbrev Byte := BitVec 8

def lf : Byte := 10
def cr : Byte := 13

structure Ser where
  /-- serial_hwcl.h 64-90 -/
  input : Byte
  avail : Bool
  sendingNl : Bool
  skipNl : Option Byte
  nlIdx : Nat
  sIn : Byte
  sOut : Byte
  sending : Bool
  receiving : Bool
  recBit : Nat
  trBit : Nat
  /-- configuration cells: serconf_check_often, flowctrl, able_receive, nl -/
  often : Bool
  flow : Bool
  able : Bool
  nl : Nat
  /-- serialcl.h 42-60 -/
  t2baud : Bool
  recT1 : Nat
  trT1 : Nat
  recTick : Nat
  trTick : Nat
  mode : Nat
  ren : Bool
  smod : Bool
  bits : Nat
  divby : Nat
  /-- SCON -/
  scon : Byte
  /-- input still to come -/
  fin : List Byte
  /-- what was sent -/
  out : List Byte
  /-- the values written to the configuration cell serconf_received so far -/
  rx : List Byte

/-! ### serial_hw.cc -/

/-- serial_hwcl.h 112-113 -/
def isNl (c : Byte) : Bool := c == lf || c == cr
def oppositeNl (c : Byte) : Byte := if c = lf then cr else if c = cr then lf else c

/-- `(nl_value >> (i*8)) & 0xff` -/
def nlByte (nl i : Nat) : Byte := BitVec.ofNat 8 (nl / 256 ^ i)

/-- serial_hw.cc 512-530: the next character of the new line. -/
def sendNl (s : Ser) : Byte × Ser :=
  (nlByte s.nl s.nlIdx,
    if nlByte s.nl (s.nlIdx + 1) = 0 then { s with sendingNl := false, avail := false, nlIdx := 0 }
    else { s with nlIdx := s.nlIdx + 1 })

/-- cl_serial_hw::get_input, serial_hw.cc 486-537 -/
def getInput (s : Ser) : Option (Byte × Ser) :=
  if !s.avail then none
  else if nlByte s.nl 0 = 0 then some (s.input, { s with avail := false })
  else if !s.sendingNl then
    if !isNl s.input then some (s.input, { s with avail := false })
    else some (sendNl { s with skipNl := some (oppositeNl s.input), sendingNl := true, nlIdx := 0 })
  else some (sendNl s)

/-- proc_not_in_menu, serial_hw.cc 732-753: input from a file or a socket -/
def poll (s : Ser) : Ser :=
  if !s.avail && (!s.flow || s.able) then
    match s.fin with
    | [] => s
    | c :: l =>
      if s.skipNl = some c then { s with fin := l }
      else { s with fin := l, input := c, avail := true, able := false, skipNl := none }
  else s

/-- proc_not_in_menu, serial_hw.cc 703-731: a key pressed on a terminal (not the escape key) -/
def key (c : Byte) (s : Ser) : Ser :=
  if !s.avail then
    if s.skipNl = some c then s else { s with input := c, avail := true, skipNl := none }
  else s

/-! ### serial.cc -/

/-- serial.cc 170-198: SCON gets the value `n`. -/
def wrScon (n : Byte) (s : Ser) : Ser :=
  let m := n.toNat / 64
  { s with
    mode := m
    ren := n.getLsbD 4
    bits := if m = 0 then 8 else if m = 1 then 10 else 11
    divby := if m = 0 then 12 else if s.smod then 16 else 32
    scon := n }

/-- serial.cc 161-169: a bit of SCON is written. -/
def wrBit (i : Nat) (b : Bool) (s : Ser) : Ser :=
  wrScon (if b then s.scon ||| (1#8 <<< i) else s.scon &&& ~~~(1#8 <<< i)) s

/-- serial.cc 152-160 -/
def wrSbuf (v : Byte) (s : Ser) : Ser := { s with sOut := v, sending := true, trBit := 0, trTick := 0, trT1 := 0 }

/-- serial.cc 199-217 -/
def wrPcon (v : Byte) (s : Ser) : Ser :=
  let b := v.getLsbD 7
  { s with smod := b, divby := if s.mode ≠ 0 then (if b then 16 else 32) else s.divby }

/-- serial.cc 133-142 -/
def rdSbuf (s : Ser) : Byte × Ser := (s.sIn, { s with able := true })

/-- Is the bit clock counted in clocks of the oscillator?  serial.cc 252-271 -/
def byClock (s : Ser) : Bool := s.mode == 0 || s.mode == 2

/-- serial_bit_cnt, serial.cc 249-250: timer 2 as baud rate generator -/
def cntDiv (s : Ser) : Ser := if s.t2baud then { s with divby := 16 } else s

/-- serial_bit_cnt, serial.cc 252-272: bits sent.  The loops in closed form. -/
def cntTr (s : Ser) : Ser :=
  if s.sending then
    if byClock s then
      { s with
        trTick := s.trTick % s.divby
        trBit := if s.trBit < s.bits then min s.bits (s.trBit + s.trTick / s.divby) else s.trBit }
    else
      { s with
        trT1 := s.trT1 % s.divby
        trBit := if s.trBit < s.bits then min s.bits (s.trBit + s.trT1 / s.divby) else s.trBit }
  else s

/-- serial_bit_cnt, serial.cc 273-290: bits received -/
def cntRec (s : Ser) : Ser :=
  if s.receiving then
    if byClock s then { s with recTick := s.recTick % s.divby, recBit := s.recBit + s.recTick / s.divby }
    else { s with recT1 := s.recT1 % s.divby, recBit := s.recBit + s.recT1 / s.divby }
  else s

/-- serial_bit_cnt, serial.cc 246-291 -/
def bitCnt (s : Ser) : Ser := cntRec (cntTr (cntDiv s))

/-- serial.cc 300-308 -/
def txDone (s : Ser) : Ser :=
  if s.sending && decide (s.bits ≤ s.trBit) then
    let s := { s with sending := false }
    let s := wrBit 1 true s
    { s with out := s.out ++ [s.sOut], trBit := s.trBit - s.bits }
  else s

/-- serial.cc 311-312: look for input now -/
def rxPoll (s : Ser) : Ser := if s.often then poll s else s

/-- serial.cc 313-327 -/
def rxBegin (s : Ser) : Ser :=
  if s.avail then { s with receiving := true, recBit := 0, recTick := 0, recT1 := 0 } else s

/-- serial.cc 309-328 -/
def rxStart (s : Ser) : Ser :=
  if s.ren && !s.receiving then
    rxBegin (rxPoll s)
  else s

/-- serial.cc 329-340, 348-354 -/
def rxDone (s : Ser) : Ser :=
  if s.receiving && decide (s.bits ≤ s.recBit) then
    match getInput s with
    | none => s
    | some (c, s) =>
      let s := wrBit 0 true { s with sIn := c }
      { s with rx := s.rx ++ [c], receiving := false, recBit := s.recBit - s.bits }
  else s

/-- cl_serial::tick, serial.cc 293-346; one machine cycle of 12 clocks -/
def tick (s : Ser) : Ser :=
  let s := rxDone (rxStart (txDone (bitCnt s)))
  { s with trTick := s.trTick + 12, recTick := s.recTick + 12 }

/-- happen, serial.cc 371-399: overflow of timer 1 or (as baud rate generator) timer 2 -/
def ovf (s : Ser) : Ser := { s with recT1 := s.recT1 + 1, trT1 := s.trT1 + 1 }

/-- happen, serial.cc 383-391: T2CON was written; RCLK or TCLK: bits 5 and 4 -/
def t2con (v : Byte) (s : Ser) : Ser :=
  let s := if !s.t2baud then { s with recT1 := 0, trT1 := 0 } else s
  { s with t2baud := v &&& 0x30#8 != 0#8 }

/-- cl_serial::reset, serial.cc 356-369, then the registers: uc51.cc 1566-1594, uc52.cc 127-135 -/
def reset (s : Ser) : Ser :=
  t2con 0 (wrPcon 0 (wrScon 0 { s with
    trT1 := 0, recT1 := 0, trTick := 0, recTick := 0, sIn := 0, sOut := 0
    sending := false, receiving := false, recBit := 0, trBit := 0 }))

/-! ### Histories -/

inductive Ev
  | wrSbuf (v : Byte) | wrScon (v : Byte) | wrBit (i : Fin 8) (b : Bool) | wrPcon (v : Byte) | rdSbuf
  | tick
  /-- timer 1, timer 2 overflow -/
  | ovf1 | ovf2
  | t2con (v : Byte)
  /-- the simulator looks for input in the file; a key is pressed -/
  | poll | key (c : Byte)
  | reset
  deriving DecidableEq, Repr

def ev (s : Ser) : Ev → Ser
  | .wrSbuf v => wrSbuf v s
  | .wrScon v => wrScon v s
  | .wrBit i b => wrBit i b s
  | .wrPcon v => wrPcon v s
  | .rdSbuf => (rdSbuf s).2
  | .tick => tick s
  | .ovf1 | .ovf2 => ovf s
  | .t2con v => t2con v s
  | .poll => poll s
  | .key c => key c s
  | .reset => reset s

def run (s : Ser) (h : List Ev) : Ser := h.foldl ev s

/-- After `init` (serial_hw.cc 61-240) and the reset at the start; `file` is the input. -/
def start (file : List Byte) (nl : Nat) (flow often : Bool) : Ser :=
  reset { input := 0, avail := false, sendingNl := false, skipNl := none, nlIdx := 0, sIn := 0, sOut := 0
          sending := false, receiving := false, recBit := 0, trBit := 0, often := often, flow := flow, able := true
          nl := nl, t2baud := false, recT1 := 0, trT1 := 0, recTick := 0, trTick := 0, mode := 0, ren := false
          smod := false, bits := 0, divby := 1, scon := 0, fin := file, out := [], rx := [] }

end Ucsim.S51.Uart
