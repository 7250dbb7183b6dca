/-
Model of the CPUs of /repo/src/sims/p1516.src: cl_p1516 (p1516.cc) and cl_p2223 (p2223.cc).

The rom address space is plain memory of 0x20000 words (make_memories, p1516.cc 213-257): the
registers of the peripherals that are mapped on 0xff00-0xff5f (mk_hw_elements, 99-211) are not
modelled, nor are the counters of the statistics (vc).  Breakpoints: `hit` says whether
cl_uc::do_brk (uc.cc 3203-3231) found one.
-/
namespace Ucsim.P15

abbrev Wd := BitVec 32
abbrev Rn := BitVec 4

/-- The numbers of the flag bits, enum flags, p1516cl.h 39-52 -/
abbrev bS : Nat := 0
abbrev bC : Nat := 1
abbrev bZ : Nat := 2
abbrev bO : Nat := 3
abbrev bP : Nat := 4
abbrev bU : Nat := 5

/-- cl_p1516, p1516cl.h 72-89.  `dummy`: the cell for the addresses that do not exist; `rnd`: what
a write puts there (cl_dummy_cell::write, mem.cc 1523-1531), some arbitrary value.  `ticks`: clocks
counted by tick(). -/
structure St where
  PC : Wd
  instPC : Wd
  F : Wd
  R : Rn → Wd
  mem : Wd → Wd
  dummy : Wd
  rnd : Wd
  ticks : Nat

/-- What exec_inst returns: resGO, resBREAKPOINT, resINV (stypes.h 380-392). -/
inductive Res | go | brk | inv
  deriving DecidableEq

/-- cl_address_space::read on rom, mem.cc 1607-1617 -/
def rd (s : St) (a : Wd) : Wd := if a.toNat < 0x20000 then s.mem a else s.dummy

/-- cl_address_space::write on rom, mem.cc 1646-1657 -/
def wr (s : St) (a v : Wd) : St :=
  if a.toNat < 0x20000 then { s with mem := fun x => if x = a then v else s.mem x }
  else { s with dummy := s.rnd }

/-- RC[d]->W(v): the cell of the register is decoded to R[d], p1516.cc 241-244 -/
def setR (s : St) (d : Rn) (v : Wd) : St := { s with R := fun r => if r = d then v else s.R r }

/-- F&mask as a condition -/
def fl (s : St) (i : Nat) : Bool := s.F.getLsbD i

/-- (F&~mask) | (b?mask:NON), the macros SET_C, SET_Z, SET_S, p1516cl.h 111-113 -/
def setBit (F : Wd) (i : Nat) (b : Bool) : Wd := (F &&& ~~~(1#32 <<< i)) ||| (if b then 1#32 <<< i else 0#32)

/-- the macros on the register F -/
def setF (s : St) (i : Nat) (b : Bool) : St := { s with F := setBit s.F i b }

/-- cl_uc::fetch(&code) after do_brk found nothing: uc.cc 3185-3197; set_PC sets R[15] too,
p1516.cc 93-97.  PCmask is 0xffffffff. -/
def fetch (s : St) : Wd × St :=
  let c := rd s s.PC
  let s := setR { s with PC := s.PC + 1 } 15 (s.PC + 1)
  (c, s)

/-- The value of the bits `lo`..`lo+n-1` of the code word: (code & mask) >> lo -/
def fld (code : Wd) (lo n : Nat) : BitVec n := code.extractLsb' lo n

/-! ### cl_p1516 -/

/-- cl_p1516::cond, p1516.cc 399-419: v is bit 1 of the condition, the flag is selected by bits
3-2. -/
def cond15 (s : St) (code : Wd) : Bool :=
  if code.getLsbD 28 then
    let flag := match (fld code 30 2).toNat with
      | 0 => fl s bS
      | 1 => fl s bC
      | 2 => fl s bZ
      | _ => fl s bO
    flag == code.getLsbD 29
  else true

/-- cl_p1516::inst_ad, p1516.cc 421-443.  `big & 0x80000000` is bit 31 of the sum of the low 31
bits.  The flags are cleared and or-ed one by one in the source. -/
def instAd (s : St) (ra rb : Wd) (c : Bool) : Wd × St :=
  let cn := if c then 1 else 0
  let big := ra.toNat + rb.toNat + cn
  let fc := decide (big > 0xffffffff)
  let r := BitVec.ofNat 32 big
  let big2 := (ra &&& 0x7fffffff#32).toNat + (rb &&& 0x7fffffff#32).toNat + cn
  let b31 := big2.testBit 31
  let fo := (b31 && !fc) || (!b31 && fc)
  let s := setF s bC fc
  let s := setF s bZ (r == 0)
  let s := setF s bS (r.getLsbD 31)
  (r, setF s bO fo)

/-- W of the destination after inst_ad -/
def ad (s : St) (d : Rn) (ra rb : Wd) (c : Bool) : St :=
  let p := instAd s ra rb c
  setR p.2 d p.1

/-- RC[d]->W(v); SET_Z(R[d]) -/
def wz (s : St) (d : Rn) (v : Wd) : St :=
  let s := setR s d v
  setF s bZ (s.R d == 0)

/-- cl_p1516::inst_alu, p1516.cc 445-552 -/
def alu15 (s : St) (code : Wd) : St :=
  let d : Rn := fld code 20 4
  let a := s.R (fld code 16 4)
  let b := s.R (fld code 12 4)
  match (fld code 7 5).toNat with
  | 0 => ad s d a b false
  | 1 => ad s d a b (fl s bC)
  | 2 => ad s d a (~~~b) true
  | 3 => ad s d a (~~~b) (fl s bC)
  | 4 => ad s d a 1 false
  | 5 => ad s d a (~~~1#32) true
  | 6 => wz s d (a &&& b)
  | 7 => wz s d (a ||| b)
  | 8 => wz s d (a ^^^ b)
  | 9 => wz (setF s bC (a.getLsbD 31)) d (a <<< 1)
  | 10 => wz (setF s bC (a.getLsbD 0)) d (a >>> 1)
  | 16 => wz (setF s bC (a.getLsbD 0)) d (a.sshiftRight 1)
  | 11 =>
    let c1 := if fl s bC then 1#32 else 0#32
    let c2 := a.getLsbD 31
    let s := setR s d ((a <<< 1) + c1)
    let s := setF s bC c2
    setF s bZ (s.R d == 0)
  | 12 =>
    let c1 := fl s bC
    let c2 := a.getLsbD 0
    let s := setR s d (if c1 then (a >>> 1) ||| 0x80000000#32 else a >>> 1)
    let s := setF s bC c2
    setF s bZ (s.R d == 0)
  | 13 =>
    let s := wz s d (a * b)
    setF s bS ((s.R d).getLsbD 31)
  | 19 =>
    let s := wz s d (BitVec.ofNat 32 ((a.toNat * b.toNat) / 2 ^ 32))
    setF s bS ((s.R d).getLsbD 31)
  | 14 => s
  | 17 => setF s bC true
  | 18 => setF s bC false
  | 15 => (instAd s a (~~~b) true).2
  | _ => s

/-- The part of cl_p1516::exec_inst after the condition, p1516.cc 569-616 -/
def body15 (s : St) (code : Wd) : St :=
  if code.getLsbD 27 then
    let data : Wd := code &&& 0x07ffffff#32
    let s := setR s 14 (s.R 15)
    setR { s with PC := data } 15 data
  else
    let d : Rn := fld code 20 4
    let a := s.R (fld code 16 4)
    let s := match (fld code 24 4).toNat with
      | 0 => s
      | 1 => setR s d (rd s a)
      | 2 => wr s a (s.R d)
      | 3 => setR s d a
      | 4 => setR s d (code &&& 0x0000ffff#32)
      | 5 => setR s d ((s.R d &&& 0xffff0000#32) ||| (code &&& 0x0000ffff#32))
      | 6 => setR s d ((s.R d &&& 0x0000ffff#32) ||| (code <<< 16))
      | 7 => alu15 s code
      | _ => s
    { s with PC := s.R 15 }

/-- cl_p1516::exec_inst, p1516.cc 554-617 -/
def exec15 (hit : Bool) (s : St) : St × Res :=
  let s := { s with PC := s.R 15, instPC := s.R 15 }
  if hit then (setR { s with ticks := s.ticks + 1 } 15 s.PC, .brk)
  else
    let (code, s) := fetch s
    let s := { s with ticks := s.ticks + 1 }
    let s := setR s 15 s.PC
    if !cond15 s code then (s, .go) else (body15 s code, .go)

/-! ### cl_p2223 -/

/-- CLP2::cond, p2223.cc 495-520 -/
def cond22 (s : St) (code : Wd) : Bool :=
  let n := fl s bS
  let v := fl s bO
  match (fld code 28 4).toNat with
  | 1 => fl s bZ
  | 2 => !fl s bZ
  | 3 => fl s bC
  | 4 => !fl s bC
  | 5 => fl s bS
  | 6 => !fl s bS
  | 7 => fl s bO
  | 8 => !fl s bO
  | 9 => fl s bC && !fl s bZ
  | 10 => !fl s bC || fl s bZ
  | 11 => !(n ^^ v)
  | 12 => n ^^ v
  | 13 => !fl s bZ && !(n ^^ v)
  | 14 => fl s bZ || (n ^^ v)
  | _ => true

/-- macro setZSw, p2223cl.h 36 -/
def setZS (s : St) (v : Wd) : St := setF (setF s bZ (v == 0)) bS (v.getLsbD 31)

/-- RC[d]->W(v); setZSw(R[d]) -/
def wzs (s : St) (d : Rn) (v : Wd) : St :=
  let s := setR s d v
  setZS s (s.R d)

/-- CLP2::inst_alu_1op, p2223.cc 522-610 -/
def alu1op (s : St) (code : Wd) : St :=
  let d : Rn := fld code 20 4
  let v := s.R d
  match (fld code 16 4).toNat with
  | 0 => setR s d (v &&& 0x000000ff#32)
  | 1 => setR s d (v &&& 0x0000ffff#32)
  | 2 => let w := v &&& 0x000000ff#32
         setR s d (if w.getLsbD 7 then w ||| 0xffffff00#32 else w)
  | 3 => let w := v &&& 0x0000ffff#32
         setR s d (if w.getLsbD 15 then w ||| 0xffff0000#32 else w)
  | 4 => wzs s d (~~~v)
  | 5 => ad s d 0 (~~~v) true
  | 6 =>
    let c1 := fl s bC
    let c2 := v.getLsbD 0
    let s := setR s d (if c1 then (v >>> 1) ||| 0x80000000#32 else v >>> 1)
    let s := setF s bC c2
    setZS s (s.R d)
  | 7 =>
    let c1 := if fl s bC then 1#32 else 0#32
    let c2 := v.getLsbD 31
    let s := setR s d ((v <<< 1) + c1)
    let s := setF s bC c2
    setZS s (s.R d)
  | 8 => wzs (setF s bC (v.getLsbD 31)) d (v <<< 1)
  | 9 => wzs (setF s bC (v.getLsbD 0)) d (v >>> 1)
  | 10 => wzs (setF s bC (v.getLsbD 0)) d (v.sshiftRight 1)
  | 11 => setZS s v
  | 12 => setF s bC true
  | 13 => setF s bC false
  | 14 => setR s d s.F
  | _ => { s with F := v }

/-- the 16 bits of an immediate operand, sign extended: iop, p2223.cc 624-626 -/
def imS (code : Wd) : Wd :=
  let w := code &&& 0x0000ffff#32
  if w.getLsbD 15 then w ||| 0xffff0000#32 else w

/-- the last switch of CLP2::inst_alu, p2223.cc 677-718.  BTST has no break and goes on in TEST. -/
def aluTail (s : St) (d : Rn) (op : Nat) (iop uop : Wd) : St :=
  match op with
  | 4 => ad s d (s.R d) iop false
  | 5 => ad s d (s.R d) iop (fl s bC)
  | 6 => ad s d (s.R d) (~~~iop) true
  | 7 => ad s d (s.R d) (~~~iop) (fl s bC)
  | 8 => (instAd s (s.R d) (~~~iop) true).2
  | 9 => wzs s d (s.R d * iop)
  | 10 => setR s d (s.R d + iop)
  | 11 =>
    let r := s.R d &&& uop
    let s := setZS (setR s d r) r
    setZS s (s.R d &&& uop)
  | 12 => setZS s (s.R d &&& uop)
  | 13 => wzs s d (s.R d ||| uop)
  | 14 => wzs s d (s.R d ^^^ uop)
  | _ => s

/-- CLP2::inst_alu, p2223.cc 612-720 -/
def alu22 (s : St) (code : Wd) : St × Res :=
  if (fld code 25 3).toNat = 1 then (alu1op s code, .go)
  else
    let d : Rn := fld code 20 4
    let op := (fld code 16 4).toNat
    if code.getLsbD 24 then
      let uop : Wd := code &&& 0x0000ffff#32
      match op with
      | 0 => (setR s d ((s.R d &&& 0xffff0000#32) ||| uop), .go)
      | 1 => (setR s d ((s.R d &&& 0x0000ffff#32) ||| (uop <<< 16)), .go)
      | 2 => (setR s d uop, .go)
      | 3 => (setR s d (imS code), .go)
      | 15 => (wzs s d (s.R d &&& (uop ||| 0xffff0000#32)), .go)
      | op => (aluTail s d op (imS code) uop, .go)
    else
      let vb := s.R (fld code 8 4)
      match op with
      | 0 => (setR s d vb, .go)
      | 1 => (s, .inv)
      | 2 => (s, .inv)
      | 3 => (setR s d (if vb.getLsbD 31 then 0xffffffff#32 else 0#32), .go)
      | 15 => (wzs s d (s.R d &&& vb), .go)
      | op => (aluTail s d op vb vb, .go)

/-- CLP2::inst_mem, p2223.cc 722-774 -/
def mem22 (s : St) (code : Wd) : St :=
  let w := code.getLsbD 24
  let d : Rn := fld code 20 4
  let a : Rn := fld code 16 4
  let im := code.getLsbD 26
  let ld := code.getLsbD 25
  let offset : Wd := if im then imS code else s.R (fld code 8 4)
  let u := if im then fl s bU else code.getLsbD 15
  let p := if im then fl s bP else code.getLsbD 14
  let u := if ld && im then !u else u
  let p := if ld && im then !p else p
  let opa := s.R a
  let chg := if u then opa + 1 else opa - 1
  let base := if p then chg else opa
  let addr := if w then base + offset else opa + offset
  let s := if ld then setR s d (rd s addr) else wr s addr (s.R d)
  if w then setR s a chg else s

/-- cl_sfr_op::read, p2223.cc 69-94.  `ver`: the number made of p12cpu_version. -/
def sfrRead (ver : Wd) (s : St) (b : Rn) : Wd :=
  match b.toNat with
  | 0 => s.F
  | 1 => ver
  | 2 => 15
  | _ => 0

/-- cl_sfr_op::write, p2223.cc 55-66; what is stored in the cells 1-15 is never read -/
def sfrWrite (s : St) (b : Rn) (v : Wd) : St := if b.toNat = 0 then { s with F := v } else s

/-- CLP2::inst_ext, p2223.cc 776-860 -/
def ext22 (ver : Wd) (s : St) (code : Wd) : St × Res :=
  let d : Rn := fld code 20 4
  let b : Rn := fld code 8 4
  match (fld code 16 4).toNat with
  | 0 =>
    let addr : Wd := code &&& 0xffff#32
    if code.getLsbD 24 then (setR s d (rd s addr), .go) else (wr s addr (s.R d), .go)
  | 1 =>
    let i := (if code.getLsbD 15 then code else s.R (fld code 0 4)).toNat % 4
    if code.getLsbD 24 then
      let mask : Wd := 0xff#32 <<< (i * 8)
      let data := s.R d
      let byte := (s.R b &&& 0xff#32) <<< (i * 8)
      (setR s d ((data &&& ~~~mask) ||| byte), .go)
    else
      let byte := (s.R b >>> (i * 8)) &&& 0xff#32
      let dv :=
        if code.getLsbD 14 then
          if code.getLsbD 13 then (if byte.getLsbD 7 then 0xffffff00#32 else 0#32) ||| byte
          else byte
        else (s.R d &&& 0xffffff00#32) ||| byte
      (setR s d dv, .go)
  | 2 => if code.getLsbD 24 then (sfrWrite s b (s.R d), .go) else (setR s d (sfrRead ver s b), .go)
  | _ => (s, .inv)

/-- CLP2::inst_call, p2223.cc 875-899 -/
def call22 (s : St) (code : Wd) : St :=
  let off : Wd := code &&& 0x000fffff#32
  let off := if off.getLsbD 19 then off ||| 0xfff00000#32 else off
  let to : Wd := if code.getLsbD 24 then s.R (fld code 20 4) + off else code &&& 0x00ffffff#32
  let s := setR s 14 (s.R 15)
  setR { s with PC := to } 15 to

/-- The part of CLP2::exec_inst after the condition, with inst_uncond, p2223.cc 862-872, 920-943 -/
def body22 (ver : Wd) (s : St) (code : Wd) : St × Res :=
  let r := if (fld code 28 4).toNat = 15 then
      (if (fld code 25 3).toNat = 2 then (call22 s code, Res.go) else (s, .go))
    else match (fld code 25 3).toNat with
      | 0 => alu22 s code
      | 1 => alu22 s code
      | 2 => (call22 s code, .go)
      | 3 => ext22 ver s code
      | _ => (mem22 s code, .go)
  ({ r.1 with PC := r.1.R 15 }, r.2)

/-- CLP2::exec_inst, p2223.cc 901-945 -/
def exec22 (ver : Wd) (hit : Bool) (s : St) : St × Res :=
  let s := { s with PC := s.R 15, instPC := s.R 15 }
  if hit then (setR { s with ticks := s.ticks + 4 } 15 s.PC, .brk)
  else
    let (code, s) := fetch s
    let s := { s with ticks := s.ticks + 4 }
    let s := setR s 15 s.PC
    if !cond22 s code then (s, .go) else body22 ver s code

/-- cl_uc::do_inst, uc.cc 3244-3275: after an invalid instruction PC is set back. -/
def doInst (exec : Bool → St → St × Res) (hit : Bool) (s : St) : St × Res :=
  let i := s.PC
  let r := exec hit { s with instPC := i }
  match r.2 with
  | .inv => ({ r.1 with PC := r.1.instPC }, r.2)
  | _ => r

/-- cl_p1516::reset, p1516.cc 84-91 -/
def reset (s : St) : St := { setR s 15 0 with PC := 0, F := 0 }

/-- cl_p1516::set_PC, p1516.cc 93-97 -/
def setPC (s : St) (a : Wd) : St := { setR s 15 a with PC := a }

end Ucsim.P15
