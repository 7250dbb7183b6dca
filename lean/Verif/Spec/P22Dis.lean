import Verif.Spec.P15Dis
/-
What a line of the disassembler of the P2223 says.
-/
namespace Ucsim.P15.Spec

/-- How a text shows the index register: as it is, as changed up or down before or after the access,
or as changed as the flags say. -/
inductive Index
  | none | by (up pre : Bool) | flags
  deriving DecidableEq

/-- The instructions of the P2223 as the disassembler names them. -/
inductive Ins22
  | call | callr | nop | ret | jump (c : Cc) | jp | push | pop | inc | dec
  | op1 (o : Op1) | op2 (o : Op2) (imm : Bool) | mov | mvl | mvh | mvzl | mvs
  | mem (ld imm : Bool) (x : Index) | std | ldd
  | getb (ext : Option Bool) | putb | getf | setf
  deriving DecidableEq

/-- The instruction a text names. -/
def means22 : String → Option Ins22
  | "ces 'ar'" => some (.call)
  | "ces %d,'s20'" => some (.callr)
  | "nop" => some (.nop)
  | "ret" => some (.ret)
  | "jz 'j'" => some (.jump .eq)
  | "jnz 'j'" => some (.jump .ne)
  | "jc 'j'" => some (.jump .cs)
  | "jnc 'j'" => some (.jump .cc)
  | "jmp 'j'" => some (.jump .al)
  | "push %d" => some (.push)
  | "pop %d" => some (.pop)
  | "jp 'jp'" => some (.jp)
  | "inc %d" => some (.inc)
  | "dec %d" => some (.dec)
  | "call 'ar'" => some (.call)
  | "call %d,'s20'" => some (.callr)
  | "zeb %d" => some (.op1 .zeb)
  | "zew %d" => some (.op1 .zew)
  | "seb %d" => some (.op1 .seb)
  | "sew %d" => some (.op1 .sew)
  | "not %d:=~%d" => some (.op1 .not)
  | "neg %d:=-%d" => some (.op1 .neg)
  | "ror %d:=(%d,C)>>1" => some (.op1 .ror)
  | "rol %d:=(C,%d)<<1" => some (.op1 .rol)
  | "shl %d:=u(%d)<<1" => some (.op1 .shl)
  | "shr %d:=u(%d)>>1" => some (.op1 .shr)
  | "sha %d:=s(%d)>>1" => some (.op1 .sha)
  | "sz F.SZ=%d" => some (.op1 .sz)
  | "sec F.C=1" => some (.op1 .sec)
  | "clc F.C=0" => some (.op1 .clc)
  | "getf %d:=F" => some (.getf)
  | "setf F:=%d" => some (.setf)
  | "mov %d:=%b" => some (.mov)
  | "add %d:=%d+%b" => some (.op2 .add false)
  | "adc %d:=%d+%b" => some (.op2 .adc false)
  | "sub %d:=%d-%b" => some (.op2 .sub false)
  | "sbb %d:=%d-%b" => some (.op2 .sbb false)
  | "cmp F:=%d-%b" => some (.op2 .cmp false)
  | "mul %d:=%d*%b" => some (.op2 .mul false)
  | "plus %d:=%d+%b" => some (.op2 .plus false)
  | "btst F:=%d&%b" => some (.op2 .btst false)
  | "test F:=%d&%b" => some (.op2 .test false)
  | "xor %d:=%d^%b" => some (.op2 .xor false)
  | "and %d:=%d&%b" => some (.op2 .and false)
  | "mvl %d:=%l" => some (.mvl)
  | "mvh %d:=%h" => some (.mvh)
  | "mvzl %d:=%0" => some (.mvzl)
  | "mvs %d:=#'s16'" => some (.mvs)
  | "add %d:=%d+#'s16'" => some (.op2 .add true)
  | "adc %d:=%d+#'s16'" => some (.op2 .adc true)
  | "sub %d:=%d-#'s16'" => some (.op2 .sub true)
  | "sbb %d:=%d-#'s16'" => some (.op2 .sbb true)
  | "cmp F:=%d-#'s16'" => some (.op2 .cmp true)
  | "mul %d:=%d*#'s16'" => some (.op2 .mul true)
  | "plus %d:=%d+#'s16'" => some (.op2 .plus true)
  | "btst F:=%d&#'u16'" => some (.op2 .btst true)
  | "test F:=%d&#'u16'" => some (.op2 .test true)
  | "or %d:=%d|#'u16'" => some (.op2 .or true)
  | "xor %d:=%d^#'u16'" => some (.op2 .xor true)
  | "and %d:=%d&#'and16'" => some (.op2 .and true)
  | "st mem[%a,%b]:=%d" => some (.mem false false .none)
  | "st mem[%a-,%b]:=%d" => some (.mem false false (.by false false))
  | "st mem[-%a,%b]:=%d" => some (.mem false false (.by false true))
  | "st mem[%a+,%b]:=%d" => some (.mem false false (.by true false))
  | "st mem[+%a,%b]:=%d" => some (.mem false false (.by true true))
  | "ld %d:=mem[%a,%b]" => some (.mem true false .none)
  | "ld %d:=mem[%a-,%b]" => some (.mem true false (.by false false))
  | "ld %d:=mem[-%a,%b]" => some (.mem true false (.by false true))
  | "ld %d:=mem[%a+,%b]" => some (.mem true false (.by true false))
  | "ld %d:=mem[+%a,%b]" => some (.mem true false (.by true true))
  | "st mem[%a,'s16']:=%d" => some (.mem false true .none)
  | "st mem['*ra','s16']:=%d" => some (.mem false true .flags)
  | "ld %d:=mem[%a,'s16']" => some (.mem true true .none)
  | "ld %d:=mem['*ra','s16']" => some (.mem true true .flags)
  | "st mem['u16']:=%d" => some (.std)
  | "ld %d:=mem['u16']" => some (.ldd)
  | "getbz %d:=%b['ri0']" => some (.getb (some false))
  | "getbz %d:=%b['u2']" => some (.getb (some false))
  | "getbs %d:=%b['ri0']" => some (.getb (some true))
  | "getbs %d:=%b['u2']" => some (.getb (some true))
  | "getb %d:=%b['ri0']" => some (.getb none)
  | "getb %d:=%b['u2']" => some (.getb none)
  | "putb %d:=%b['ri0']" => some (.putb)
  | "putb %d:=%b['u2']" => some (.putb)
  | _ => none

/-- what the printed condition says -/
def shown22 (f : Flags) : String → Prop
  | "EQ " => Cc.eq.holds f
  | "NE " => Cc.ne.holds f
  | "CS " => Cc.cs.holds f
  | "CC " => Cc.cc.holds f
  | "MI " => Cc.mi.holds f
  | "PL " => Cc.pl.holds f
  | "VS " => Cc.vs.holds f
  | "VC " => Cc.vc.holds f
  | "HI " => Cc.hi.holds f
  | "LS " => Cc.ls.holds f
  | "GE " => Cc.ge.holds f
  | "LT " => Cc.lt.holds f
  | "GT " => Cc.gt.holds f
  | "LE " => Cc.le.holds f
  | _ => True

/-- The registers and numbers the text shows: %d, %a (and *ra), %b, 'ri0' or the number 'u2', the 16
bits of the numbers, the 20 bits of 's20', the 24 bits of 'ar'. -/
structure Args22 where
  d : Rn
  a : Rn
  b : Rn
  which : Nat
  imm : BitVec 16
  off : BitVec 20
  target : BitVec 24

def args22 (s : St) (code : Wd) : Args22 :=
  { d := reg code 20, a := reg code 16, b := reg code 8, which := byteNo s code, imm := code.setWidth 16,
    off := code.setWidth 20, target := code.setWidth 24 }

/-- what is done to the index register by a load, or a store, in a machine with the flags `F` -/
def Index.mode (ld : Bool) (F : Wd) : Index → Mode
  | .none => { change := false, up := false, pre := false }
  | .by u p => { change := true, up := u, pre := p }
  | .flags => { change := true, up := up F ^^ ld, pre := pre F ^^ ld }

/-- a load of `d` from the address that the index register and the offset give; nothing is said about
a load outside of the memory, or when the loaded register is the changed one -/
def loads (s s' : St) (m : Mode) (d a : Rn) (off : Wd) : Prop :=
  (m.change = true → d ≠ a) → ∀ v, word s (m.addr (src s a) off) = some v →
    s'.F = s.F ∧ Next 4 s s' (fun r => if r = d then some v else if m.change = true ∧ r = a then some (m.moved (src s a)) else none)

/-- a store of `d` -/
def stores (s s' : St) (m : Mode) (d a : Rn) (off : Wd) : Prop :=
  (m.addr (src s a) off).toNat < 0x20000 →
    Store 4 s s' (res a (if m.change then some (m.moved (src s a)) else none)) (m.addr (src s a) off) (src s d)

/-- Executing the instruction takes `s` to `s'`. -/
def Ins22.does (x : Args22) (s s' : St) : Ins22 → Prop
  | .call => Next 4 s s' (calls s (x.target.zeroExtend 32)) ∧ s'.F = s.F
  | .callr => Next 4 s s' (calls s (src s x.d + x.off.signExtend 32)) ∧ s'.F = s.F
  | .nop => Next 4 s s' keep ∧ s'.F = s.F
  | .ret => Next 4 s s' (to 15 (s.R 14)) ∧ s'.F = s.F
  | .jump _ => Next 4 s s' (to 15 (x.imm.zeroExtend 32)) ∧ s'.F = s.F
  | .jp => Next 4 s s' (to 15 (src s x.b)) ∧ s'.F = s.F
  | .push => stores s s' (Index.flags.mode false s.F) x.d 13 0
  | .pop => loads s s' (Index.flags.mode true s.F) x.d 13 0
  | .inc => Next 4 s s' (to x.d (src s x.d + 1)) ∧ flags s'.F = addFlags (src s x.d) 1 false ∧ rest s'.F = rest s.F
  | .dec => Next 4 s s' (to x.d (src s x.d - 1)) ∧ flags s'.F = subFlags (src s x.d) 1 true ∧ rest s'.F = rest s.F
  | .op1 o => Next 4 s s' (res x.d (o.value (src s x.d) (flags s.F).c)) ∧ flags s'.F = o.flags (src s x.d) (flags s.F) ∧ rest s'.F = rest s.F
  | .op2 o imm =>
    let y := if imm then o.imm x.imm else src s x.b
    Next 4 s s' (res x.d (o.value (src s x.d) y (flags s.F).c)) ∧ flags s'.F = o.flags (src s x.d) y (flags s.F) ∧ rest s'.F = rest s.F
  | .mov => Next 4 s s' (to x.d (src s x.b)) ∧ s'.F = s.F
  | .mvl => Next 4 s s' (to x.d ((src s x.d).extractLsb' 16 16 ++ x.imm)) ∧ s'.F = s.F
  | .mvh => Next 4 s s' (to x.d (x.imm ++ (src s x.d).setWidth 16)) ∧ s'.F = s.F
  | .mvzl => Next 4 s s' (to x.d (x.imm.zeroExtend 32)) ∧ s'.F = s.F
  | .mvs => Next 4 s s' (to x.d (x.imm.signExtend 32)) ∧ s'.F = s.F
  | .mem ld imm ix =>
    let off := if imm then x.imm.signExtend 32 else src s x.b
    if ld then loads s s' (ix.mode true s.F) x.d x.a off else stores s s' (ix.mode false s.F) x.d x.a off
  | .std => Store 4 s s' keep (x.imm.zeroExtend 32) (src s x.d)
  | .ldd => Next 4 s s' (to x.d (s.mem (x.imm.zeroExtend 32))) ∧ s'.F = s.F
  | .getb ext =>
    let y := byte (src s x.b) x.which
    Next 4 s s' (to x.d (match ext with
      | none => (src s x.d).extractLsb' 8 24 ++ y
      | some false => y.zeroExtend 32
      | some true => y.signExtend 32)) ∧ s'.F = s.F
  | .putb => ∃ v : Wd, Next 4 s s' (to x.d v) ∧ s'.F = s.F ∧
      ∀ k, k < 4 → byte v k = if k = x.which then byte (src s x.b) 0 else byte (src s x.d) k
  | .getf => Next 4 s s' (to x.d s.F) ∧ s'.F = s.F
  | .setf => Next 4 s s' keep ∧ s'.F = src s x.d

/-- the words of which the text is not what they do: RET is shown for every word with these two register numbers,
push and pop are shown whatever the offset is, BTST is executed as an AND, and without a condition (15)
only calls are executed -/
structure Shown22 (code : Wd) (i : Ins22) : Prop where
  ret : i = .ret → code.toNat / 2 ^ 16 % 2 ^ 12 = 0x0f0
  stack : i = .push ∨ i = .pop → code.toNat % 2 ^ 16 = 0
  btst : ∀ b, i ≠ .op2 .btst b
  cond : code.toNat / 2 ^ 28 = 15 → i = .call ∨ i = .callr

end Ucsim.P15.Spec
