import Verif.Spec.Z80

/-
Assembly language text of an instruction as the manual writes it, in the simulator's layout:
mnemonic filled up to six characters, a blank, operands separated by a comma; numbers as 0x and
lower case hexadecimal digits, displacements (of IX, IY and relative jumps) as signed decimal numbers.
-/
namespace Ucsim.Z80.Isa

def regName (r : BitVec 3) : String :=
  match r.toNat with | 0 => "B" | 1 => "C" | 2 => "D" | 3 => "E" | 4 => "H" | 5 => "L" | _ => "A"
def idxName : Idx → String | .hl => "HL" | .ix => "IX" | .iy => "IY"
def pairName : Pair → String | .bc => "BC" | .de => "DE" | .idx x => idxName x | .sp => "SP"
def condName (c : BitVec 3) : String :=
  match c.toNat with | 0 => "NZ" | 1 => "Z" | 2 => "NC" | 3 => "C" | 4 => "PO" | 5 => "PE" | 6 => "P" | _ => "M"
def aluName (o : BitVec 3) : String :=
  match o.toNat with | 0 => "ADD" | 1 => "ADC" | 2 => "SUB" | 3 => "SBC" | 4 => "AND" | 5 => "XOR" | 6 => "OR" | _ => "CP"
def rotName (o : BitVec 3) : String :=
  match o.toNat with | 0 => "RLC" | 1 => "RRC" | 2 => "RL" | 3 => "RR" | 4 => "SLA" | 5 => "SRA" | _ => "SRL"
def blockName (s : String) (dn rep : Bool) : String := s ++ (if dn then "D" else "I") ++ (if rep then "R" else "")

/-- A part of an operand: text, the displacement, the last byte or the last two bytes of the instruction. -/
inductive Part | text (s : String) | disp | imm8 | imm16 deriving DecidableEq, Repr
abbrev Opd := List Part

def locOpd : Loc → Opd
  | .reg r => [.text (regName r)]
  | .ind .hl => [.text "(HL)"]
  | .ind x => [.text ("(" ++ idxName x ++ "+"), .disp, .text ")"]
def t (s : String) : Opd := [.text s]
def atNN : Opd := [.text "(", .imm16, .text ")"]

/-- ADD, ADC and SBC are written with A. -/
def aluOpd (o : BitVec 3) (v : Opd) : List Opd := if o = 0 ∨ o = 1 ∨ o = 3 then [t "A", v] else [v]

/-- RST 0, 8, 10H .. 38H -/
def rstName (n : BitVec 3) : String := if n.toNat < 2 then toString (8 * n.toNat) else toString (n.toNat / 2) ++ (if n.toNat % 2 = 0 then "0H" else "8H")

def asm : Ins → String × List Opd
  | .nop => ("NOP", []) | .halt => ("HALT", []) | .di => ("DI", []) | .ei => ("EI", [])
  | .ld d s => ("LD", [locOpd d, locOpd s])
  | .ldn d => ("LD", [locOpd d, [.imm8]])
  | .ldnn p => ("LD", [t (pairName p), [.imm16]])
  | .ldaP p => ("LD", [t "A", t ("(" ++ pairName p ++ ")")])
  | .staP p => ("LD", [t ("(" ++ pairName p ++ ")"), t "A"])
  | .lda => ("LD", [t "A", atNN])
  | .sta => ("LD", [atNN, t "A"])
  | .ldPM p => ("LD", [t (pairName p), atNN])
  | .stMP p => ("LD", [atNN, t (pairName p)])
  | .ldsp x => ("LD", [t "SP", t (idxName x)])
  | .push p => ("PUSH", [t (pairName p)]) | .pushAF => ("PUSH", [t "AF"])
  | .pop p => ("POP", [t (pairName p)]) | .popAF => ("POP", [t "AF"])
  | .exdehl => ("EX", [t "DE", t "HL"]) | .exaf => ("EX", [t "AF", t "AF'"]) | .exx => ("EXX", [])
  | .exsp x => ("EX", [t "(SP)", t (idxName x)])
  | .alu o s => (aluName o, aluOpd o (locOpd s))
  | .alun o => (aluName o, aluOpd o [.imm8])
  | .inc k => ("INC", [locOpd k]) | .dec k => ("DEC", [locOpd k])
  | .addX x p => ("ADD", [t (idxName x), t (pairName p)])
  | .adcHL p => ("ADC", [t "HL", t (pairName p)]) | .sbcHL p => ("SBC", [t "HL", t (pairName p)])
  | .incP p => ("INC", [t (pairName p)]) | .decP p => ("DEC", [t (pairName p)])
  | .rlca => ("RLCA", []) | .rrca => ("RRCA", []) | .rla => ("RLA", []) | .rra => ("RRA", [])
  | .daa => ("DAA", []) | .cpl => ("CPL", []) | .scf => ("SCF", []) | .ccf => ("CCF", []) | .neg => ("NEG", [])
  | .rot k p => (rotName k, [locOpd p])
  | .bit n p => ("BIT", [t (toString n.toNat), locOpd p])
  | .res n p => ("RES", [t (toString n.toNat), locOpd p])
  | .set n p => ("SET", [t (toString n.toNat), locOpd p])
  | .jp => ("JP", [[.imm16]]) | .jpc c => ("JP", [t (condName c), [.imm16]]) | .jpX x => ("JP", [t ("(" ++ idxName x ++ ")")])
  | .jr => ("JR", [[.disp]]) | .jrc c => ("JR", [t (condName c), [.disp]]) | .djnz => ("DJNZ", [[.disp]])
  | .call => ("CALL", [[.imm16]]) | .callc c => ("CALL", [t (condName c), [.imm16]])
  | .ret => ("RET", []) | .retc c => ("RET", [t (condName c)]) | .rst n => ("RST", [t (rstName n)])
  | .reti => ("RETI", []) | .retn => ("RETN", [])
  | .inA => ("IN", [t "A", [.text "(", .imm8, .text ")"]]) | .outA => ("OUT", [[.text "(", .imm8, .text ")"], t "A"])
  | .inR r => ("IN", [t (regName r), t "(C)"]) | .outR r => ("OUT", [t "(C)", t (regName r)])
  | .im n => ("IM", [t (toString n)])
  | .ldia => ("LD", [t "I", t "A"]) | .ldra => ("LD", [t "R", t "A"]) | .ldai => ("LD", [t "A", t "I"]) | .ldar => ("LD", [t "A", t "R"])
  | .rrd => ("RRD", []) | .rld => ("RLD", [])
  | .bld dn rep => (blockName "LD" dn rep, []) | .bcp dn rep => (blockName "CP" dn rep, []) | .bin dn rep => (blockName "IN" dn rep, [])
  | .bout dn rep => ((if rep then "OT" else "OUT") ++ (if dn then "D" else "I") ++ (if rep then "R" else ""), [])
  | .other => ("", [])

/-- Hexadecimal, `k` digits, lower case. -/
def hex (k n : Nat) : List Char :=
  "0x".toList ++ (List.range k).reverse.map (fun i => "0123456789abcdef".toList.getD (n / 16 ^ i % 16) '?')

/-- The displacement is the third byte after DD and FD, the second one of the relative jumps. -/
def dispAt (len : Nat) : Nat := if len = 2 then 1 else 2

def partText (m : Mach) (len : Nat) : Part → List Char
  | .text s => s.toList
  | .disp => (toString (m.mem (m.pc + BitVec.ofNat 16 (dispAt len))).toInt).toList
  | .imm8 => hex 2 (m.imm8 len).toNat
  | .imm16 => hex 4 (m.imm16 len).toNat

/-- The text of the instruction at PC. -/
def text (m : Mach) : List Char :=
  let mn := (asm m.ins.1).1.toList
  match (asm m.ins.1).2 with
  | [] => mn
  | os => mn ++ List.replicate (6 - mn.length) ' ' ++ ' ' :: [','].intercalate (os.map (fun o => (o.map (partText m m.ins.2)).flatten))

/-- Instructions that call a subroutine. -/
def calls : Ins → Bool
  | .call | .callc _ | .rst _ => true
  | _ => false

end Ucsim.Z80.Isa
