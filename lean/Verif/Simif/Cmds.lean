/-
The names both the model (Simif/Model.lean) and the specification (Spec/Simif.lean) of the
simulator interface use: its commands and what the outside world can see of it.
-/
namespace Ucsim.Simif

abbrev Byte := BitVec 8

/-- the commands, simifcl.h 41-91 (`enum sif_command`) -/
inductive Kind where
  | detect | commands | ifver | simver | ifreset | cmdinfo | cmdhelp | stop
  | print | hex | finCheck | read | write | reset | setlimit | getlimit
  deriving Repr, DecidableEq

/-- what the world sees of the commands -/
inductive Ev where
  /-- a character appears on the simulator's standard output -/
  | con (b : Byte)
  /-- a byte is appended to the output file -/
  | file (b : Byte)
  /-- the simulation is stopped, "Program stopped itself" -/
  | stop
  /-- the CPU is reset -/
  | reset
  /-- the limit of the run is set -/
  | limit (n : Nat)
  deriving Repr, DecidableEq

/-- the characters of a text -/
def chars (s : String) : List Byte := s.toList.map (fun c => BitVec.ofNat 8 c.toNat)

end Ucsim.Simif
