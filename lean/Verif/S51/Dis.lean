import Verif.S51.Step

/-
The disassembler's table of instruction lengths, /repo/src/sims/s51.src/glob.cc 40-297
(fourth column of disass_51), row by row.
-/
namespace Ucsim.S51

def dislen0 : List Nat := [1, 2, 3, 1, 1, 2, 1, 1, 1, 1, 1, 1, 1, 1, 1, 1]
def dislen1 : List Nat := [3, 2, 3, 1, 1, 2, 1, 1, 1, 1, 1, 1, 1, 1, 1, 1]
def dislen2 : List Nat := [3, 2, 1, 1, 2, 2, 1, 1, 1, 1, 1, 1, 1, 1, 1, 1]
def dislen3 : List Nat := [3, 2, 1, 1, 2, 2, 1, 1, 1, 1, 1, 1, 1, 1, 1, 1]
def dislen4 : List Nat := [2, 2, 2, 3, 2, 2, 1, 1, 1, 1, 1, 1, 1, 1, 1, 1]
def dislen5 : List Nat := [2, 2, 2, 3, 2, 2, 1, 1, 1, 1, 1, 1, 1, 1, 1, 1]
def dislen6 : List Nat := [2, 2, 2, 3, 2, 2, 1, 1, 1, 1, 1, 1, 1, 1, 1, 1]
def dislen7 : List Nat := [2, 2, 2, 1, 2, 3, 2, 2, 2, 2, 2, 2, 2, 2, 2, 2]
def dislen8 : List Nat := [2, 2, 2, 1, 1, 3, 2, 2, 2, 2, 2, 2, 2, 2, 2, 2]
def dislen9 : List Nat := [3, 2, 2, 1, 2, 2, 1, 1, 1, 1, 1, 1, 1, 1, 1, 1]
def dislena : List Nat := [2, 2, 2, 1, 1, 1, 2, 2, 2, 2, 2, 2, 2, 2, 2, 2]
def dislenb : List Nat := [2, 2, 2, 1, 3, 3, 3, 3, 3, 3, 3, 3, 3, 3, 3, 3]
def dislenc : List Nat := [2, 2, 2, 1, 1, 2, 1, 1, 1, 1, 1, 1, 1, 1, 1, 1]
def dislend : List Nat := [2, 2, 2, 1, 1, 3, 1, 1, 2, 2, 2, 2, 2, 2, 2, 2]
def dislene : List Nat := [1, 2, 1, 1, 1, 2, 1, 1, 1, 1, 1, 1, 1, 1, 1, 1]
def dislenf : List Nat := [1, 2, 1, 1, 1, 2, 1, 1, 1, 1, 1, 1, 1, 1, 1, 1]

def disLenTab : List Nat :=
  dislen0 ++ dislen1 ++ dislen2 ++ dislen3 ++ dislen4 ++ dislen5 ++ dislen6 ++ dislen7 ++ dislen8 ++ dislen9 ++ dislena ++ dislenb ++ dislenc ++ dislend ++ dislene ++ dislenf

/-- Length the disassembler reports for an opcode. -/
def disLen (c : Byte) : Nat := disLenTab.getD c.toNat 0

end Ucsim.S51
