import Verif.Core.Decoder

/-
Model of the set-up of bankers and banders: /repo/src/core/sim.src/mem.cc
2592-2731 (cl_banker::init, add_bank), 2899-2923 (cl_bander::activate).  The run
time part of bankers (actual_bank, activate, the bank switcher operator) is in
Verif.Core.Mem.
-/
namespace Ucsim

/-- `while ((m&1) == 0) m>>= 1, n++` on an int (arithmetic shift), mem.cc
2603-2604, 2619-2620.  `none`: not ended after the given number of turns. -/
def tzLoop : Nat → W → Nat → Option (W × Nat)
  | 0, _, _ => none
  | f + 1, m, n => if m &&& 1#32 = 0#32 then tzLoop f (m.sshiftRight 1) (n + 1) else some (m, n)

/-- `while ((m&1) != 0) { m>>= 1; b++; }`, mem.cc 2607-2611, 2623-2624. -/
def oneLoop : Nat → W → Nat → Option Nat
  | 0, _, _ => none
  | f + 1, m, b => if m &&& 1#32 = 0#32 then some b else oneLoop f (m.sshiftRight 1) (b + 1)

/-- The scan of a non-zero selector mask in cl_banker::init, mem.cc 2603-2611:
position and length of the lowest run of ones.  33 turns are as good as
infinitely many, because after 32 arithmetic shifts the int is 0 or -1. -/
def maskScan (m : W) : Option (Nat × Nat) :=
  (tzLoop 33 m 0).bind fun r => (oneLoop 33 (r.1.sshiftRight 1) 1).map fun b => (r.2, b)

/-- `banks` has no members if `nuof_banks` is not a positive int, mem.cc 2628. -/
def tableSize (n : Nat) : Nat := if n ≥ 2147483648 then 0 else n

/-- cl_memory_cell::prepend_operator, mem.cc 1312-1327. -/
def World.prependOp (w : World) (r : CRef) (o : MOp) : World :=
  w.setCell r { w.cell r with ops := o :: (w.cell r).ops }

/-- Constructor and cl_banker::init, mem.cc 2538-2659.  `none`: a mask scan does
not end.  Selector 2 is `none` for the constructor without it. -/
def World.bankerInit (w : World) (k selSp selAddr : Nat) (selMask : W) (sel2 : Option (Nat × Nat))
    (sel2Mask : W) (sel2Shift sp asb ase : Nat) : Option World :=
  match (if selMask = 0#32 then some (0, none) else (maskScan selMask).map fun r => (r.1, some r.2)) with
  | none => none
  | some (sh1, b1) =>
    match (if sel2.isNone ∨ sel2Mask = 0#32 then some (0, 0) else maskScan sel2Mask) with
    | none => none
    | some (sh2, b2) =>
      let n := (match b1 with | none => 0 | some b => 2 ^ b) * 2 ^ b2
      let bk : Banker :=
        ⟨selSp, selAddr, selMask, sel2, sel2Mask, sel2Shift, sp, asb, ase, sh1, sh2, tableSize n, fun _ => none, none⟩
      let w := { w with bankers := upd w.bankers k bk }
      let (w1, r) := w.getCell selSp selAddr
      let w2 := w1.prependOp r (.bank k)
      match sel2 with
      | none => some w2
      | some (sp2, a2) =>
        if sel2Mask = 0#32 then some w2
        else
          let (w3, r2) := w2.getCell sp2 a2
          some (w3.prependOp r2 (.bank k))

/-- cl_banker::add_bank, mem.cc 2697-2731.  A negative number indexes `banks`
out of its bounds.  Replacing a bank deletes its decoder, whose destructor
undecodes the area (mem.cc 2314-2320).  `none`: that loop does not end. -/
def World.addBank (env : Env) (w : World) (k : Nat) (nr : Int) (chip cb : Nat) : Option World :=
  let bk := w.bankers k
  if nr ≥ bk.nuof then some w
  else if nr < 0 then some { w with ub := true }
  else
    let w1 := match bk.banks nr.toNat with
      | none => some w
      | some _ => (rangeLen bk.asb bk.ase).map fun n =>
          w.setSpace bk.sp ((w.spaces bk.sp).undecodeN n bk.asb)
    w1.map fun w1 =>
      World.bankActivate env
        { w1 with bankers := upd w1.bankers k { bk with banks := upd bk.banks nr.toNat (some (chip, cb)) } } k

/-- The loop of cl_bander::activate, mem.cc 2905-2921: `n` turns, from address
`a`; chip address `ca`, bit number `b`, mask `m` (an int; `m<<= 1` of bit 31 is
taken as 0).  Addresses outside of the space decode the dummy cell. -/
def World.bandLoop (env : Env) (sp chip : Nat) (bpc distance : Int) : Nat → Nat → Nat → Int → W → World → World
  | 0, _, _, _, _, w => w
  | n + 1, a, ca, b, m, w =>
    let ca := if b ≥ bpc then ((ca + distance) % 4294967296).toNat else ca
    let m := if b ≥ bpc then 1#32 else m
    let b := if b ≥ bpc then 0 else b
    let (w', r) := w.getCell sp a
    let w'' := w'.setCell r ((w'.cell r).decodeMask (getSlot env.chips chip ca) m)
    World.bandLoop env sp chip bpc distance n (u32 (a + 1)) ca (b + 1) (m <<< 1) w''

/-- cl_bander::activate, mem.cc 2899-2923, without the preceding undecode_area
(which, with this decoder skipped, only removes other decoders: C06/C07).
`none`: the loop does not end (as_end = 0xffffffff). -/
def World.bandActivate (env : Env) (w : World) (sp asb ase chip cb : Nat) (bpc distance : Int) : Option World :=
  (rangeLen asb ase).map fun n => w.bandLoop env sp chip bpc distance n asb cb 0 1#32

end Ucsim
