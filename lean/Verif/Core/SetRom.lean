import Verif.Core.Hex
/-
Model of `cl_uc::set_rom`, /repo/src/core/sim.src/uc.cc 1469-1531, without
`check`.
-/
namespace Ucsim

/-- The memory named in the input specification: a chip or an address space. -/
inductive LoadTgt | chip (k : Nat) | space (sp : Nat)
deriving DecidableEq, Repr

/-- `class cl_inspec` (uccl.h 261-288) after `init`, together with the parts of
the simulator `set_rom` uses: `rom` is the address space `uc->rom`,
`bankerOf d` the banker which the decoder `d` is (`is_banker`), if any. -/
structure InSpec where
  tgt : LoadTgt
  min : Nat
  max : Nat
  offset : Int
  rom : Nat
  bankerOf : Nat → Option Nat

/-- Width of the memory (`is->get_mem()->width`). -/
def InSpec.width (is : InSpec) (env : Env) (w : World) : Nat :=
  match is.tgt with
  | .chip k => (env.chips k).width
  | .space sp => (w.spaces sp).width

/-- `cl_uc::set_rom(is, addr, val, false)`, uc.cc 1469-1531. -/
def World.setRom (env : Env) (is : InSpec) (w : World) (addr v : Nat) : World :=
  if is.min > 0 ∧ addr < is.min then w
  else if is.max < 0xffffffff ∧ addr > is.max then w
  else
    let addr := uint (addr + is.offset)
    match is.tgt with
    | .chip k => { w with bytes := chipSet env.chips w.bytes k addr (BitVec.ofNat 32 v) }
    | .space sp =>
      let s := w.spaces sp
      if addr ≥ s.start ∧ addr ≤ u32 (s.start + s.size - 1) then w.download is.rom addr (BitVec.ofNat 32 v)
      else
        let bank := addr / s.size
        let caddr := addr % s.size
        match (w.spaces is.rom).decs.find? fun d => decide (d.asb ≤ caddr ∧ caddr ≤ d.ase) with
        | none => w
        | some d =>
          match is.bankerOf d.id with
          | none => w
          | some k => ((w.switchTo env k bank).download is.rom caddr (BitVec.ofNat 32 v)).bankActivate env k

/-- The effect of all the calls of a loader. -/
def World.setRoms (env : Env) (is : InSpec) (w : World) (calls : List (Nat × Nat)) : World :=
  calls.foldl (fun w c => w.setRom env is c.1 c.2) w

/-- Loading a HEX file (`read_hex_file`, uc.cc 1575-1721, with `set_rom`). -/
def World.loadHex (env : Env) (is : InSpec) (w : World) (bytes : List Nat) : Option World :=
  (readHex (is.width env w) (File.open bytes)).map fun r => w.setRoms env is r.1

end Ucsim
