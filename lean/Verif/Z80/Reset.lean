import Verif.Z80.Step

namespace Ucsim.Z80

/-- cl_z80::reset, z80.cc 105-114, and what cl_uc::reset (uc.cc) does to PC and the clock. -/
def reset (s : St) : St := { s with pc := 0, ticks := 0, sp := 0xffff, a := 0xff, f := 0xff, iff1 := false, iff2 := false, imode := 0 }

end Ucsim.Z80
