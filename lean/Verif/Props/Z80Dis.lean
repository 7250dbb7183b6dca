import Verif.Z80.Dis
import Verif.Spec.Z80Asm
import Verif.Props.Z80

/-
C90: the disassembler of the Z80.
-/
namespace Ucsim.Z80
open Isa (Ins Mach)

/-- Instructions shown with another text than the manual's: LD B,n; LD L,n; LD B,A; SUB r; SUB (HL); SUB n; JP NZ; CALL PE
(letter case, blanks, SUB with A), LD dd,(nn) and LD (nn),dd with ED (no address), LD I,A; LD A,I (as IV). -/
def textWrong (i : Ins) (len : Nat) : Bool :=
  match i with
  | .ldn (.reg r) => r == 0 || r == 5
  | .ld (.reg d) (.reg s) => d == 0 && s == 7
  | .alu o (.reg _) | .alu o (.ind .hl) | .alun o => o == 2
  | .jpc c => c == 0
  | .callc c => c == 5
  | .stMP (.idx .hl) | .ldPM (.idx .hl) => len == 4
  | .stMP (.idx _) | .ldPM (.idx _) => false
  | .stMP _ | .ldPM _ | .ldia | .ldai => true
  | _ => false

/-- Instructions whose length is not known right: ADD HL,DE and LD dd,(nn), LD (nn),dd with ED. -/
def lenWrong (i : Ins) (len : Nat) : Bool :=
  match i with
  | .addX .hl .de => true
  | .stMP (.idx .hl) | .ldPM (.idx .hl) => len == 4
  | .stMP (.idx _) | .ldPM (.idx _) => false
  | .stMP _ | .ldPM _ => true
  | _ => false

/-! ### Tables -/

def partPieces (len : Nat) : Isa.Part → List Piece
  | .text s => s.toList.map .ch
  | .disp => [.signed (Isa.dispAt len)]
  | .imm8 => [.byte (len - 1)]
  | .imm16 => [.word (len - 2)]

def asmPieces (i : Ins) (len : Nat) : List Piece :=
  let mn := (Isa.asm i).1.toList
  match (Isa.asm i).2 with
  | [] => mn.map .ch
  | os => mn.map .ch ++ List.replicate (6 - mn.length) (.ch ' ') ++ .ch ' ' :: [Piece.ch ','].intercalate (os.map (fun o => (o.map (partPieces len)).flatten))

/-- What is to be shown of an instruction, from the entry found. -/
def entryOk (e : Option DisEntry) (n k : Nat) (il : Ins × Nat) : Prop :=
  il.1 ≠ .other →
    (textWrong il.1 il.2 = false → (match e with | some e => disScan e.mnemonic.toList true k [] | none => "UNKNOWN/INVALID".toList.map .ch) = asmPieces il.1 il.2) ∧
    (lenWrong il.1 il.2 = false → (match e with | some e => if e.length + n = 0 then 1 else e.length + n | none => 1) = il.2) ∧
    (match e with | some e => e.isCall | none => false) = Isa.calls il.1

instance (e : Option DisEntry) (n k : Nat) (il : Ins × Nat) : Decidable (entryOk e n k il) := by
  unfold entryOk
  cases e <;> infer_instance

theorem ok00 : ∀ op : Byte, entryOk (lookDis dis00 op) 0 1 (Isa.decode1 op) := by decide +kernel
theorem okCb : ∀ op : Byte, entryOk (lookDis disCb op) 1 2 (Isa.decodeCB op) := by decide +kernel
theorem okEd : ∀ op : Byte, entryOk (lookDis disEd op) 1 2 (Isa.decodeED op) := by decide +kernel
theorem okDd : ∀ op : Byte, entryOk (lookDis disDd op) 1 2 (Isa.decodeX .ix op) := by decide +kernel
theorem okFd : ∀ op : Byte, entryOk (lookDis disFd op) 1 2 (Isa.decodeX .iy op) := by decide +kernel
theorem okDdcb : ∀ op : Byte, entryOk (lookDis disDdcb op) 2 2 (Isa.decodeXCB .ix op) := by decide +kernel
theorem okFdcb : ∀ op : Byte, entryOk (lookDis disFdcb op) 2 2 (Isa.decodeXCB .iy op) := by decide +kernel

theorem disEntry_ok (b : Nat → Byte) : entryOk (disEntry b).1 (disEntry b).2.1 (disEntry b).2.2 (Isa.decode (b 0) (b 1) (b 3)) := by
  unfold disEntry Isa.decode
  repeat' split
  · exact okCb _
  · exact okEd _
  · exact okDdcb _
  · exact okDd _
  · exact okFdcb _
  · exact okFd _
  · exact ok00 _

/-! ### Text -/

theorem print_append (b : Nat → Byte) (l k : List Piece) : disPrint b (l ++ k) = disPrint b l ++ disPrint b k := by
  induction l with
  | nil => rfl
  | cons p l ih => cases p <;> simp [disPrint, ih]

theorem print_chs (b : Nat → Byte) (t : List Char) : disPrint b (t.map .ch) = t := by
  induction t with
  | nil => rfl
  | cons c t ih => simp [disPrint, ih]

theorem print_blank (b : Nat → Byte) (n : Nat) : disPrint b (List.replicate n (.ch ' ')) = List.replicate n ' ' := by
  induction n with
  | zero => rfl
  | succ n ih => simp [List.replicate_succ, disPrint, ih]

theorem digit_eq : ∀ n, n < 16 → Nat.digitChar n = "0123456789abcdef".toList.getD n '?' := by decide

theorem hex_eq (k n : Nat) : '0' :: 'x' :: hexDigits k n = Isa.hex k n := by
  unfold hexDigits Isa.hex
  rw [show "0x".toList = ['0', 'x'] from by decide]
  simp only [List.cons_append, List.nil_append, List.cons.injEq, true_and]
  apply List.map_congr_left
  intro i _
  exact digit_eq _ (Nat.mod_lt _ (by decide))

theorem print_part (b : Nat → Byte) (m : Mach) (len : Nat) (hl : 1 ≤ len ∧ len ≤ 4)
    (hb : ∀ i, i < 4 → b i = m.mem (m.pc + BitVec.ofNat 16 i)) (p : Isa.Part) (h16 : p = .imm16 → 2 ≤ len) :
    disPrint b (partPieces len p) = Isa.partText m len p := by
  cases p with
  | text s => exact print_chs ..
  | disp =>
    simp only [partPieces, Isa.partText, disPrint, List.append_nil]
    rw [hb _ (by unfold Isa.dispAt; split <;> omega)]
  | imm8 =>
    simp only [partPieces, Isa.partText, disPrint, List.append_nil]
    rw [hb _ (by omega), hex_eq]; rfl
  | imm16 =>
    have := h16 rfl
    simp only [partPieces, Isa.partText, disPrint, List.append_nil]
    rw [hb _ (by omega), hb _ (by omega), hex_eq, show len - 2 + 1 = len - 1 by omega]
    unfold Mach.imm16 Isa.word
    congr 1
    rw [BitVec.toNat_append, Nat.shiftLeft_eq, Nat.mul_comm]
    exact Nat.two_pow_add_eq_or_of_lt (i := 8) (BitVec.isLt _) _

theorem print_opd (b : Nat → Byte) (m : Mach) (len : Nat) (hl : 1 ≤ len ∧ len ≤ 4)
    (hb : ∀ i, i < 4 → b i = m.mem (m.pc + BitVec.ofNat 16 i)) (o : Isa.Opd) (h16 : Isa.Part.imm16 ∈ o → 2 ≤ len) :
    disPrint b (o.map (partPieces len)).flatten = (o.map (Isa.partText m len)).flatten := by
  induction o with
  | nil => rfl
  | cons p o ih =>
    simp only [List.map_cons, List.flatten_cons, print_append]
    rw [ih (fun h => h16 (List.mem_cons_of_mem _ h)), print_part b m len hl hb p (fun h => h16 (h ▸ List.mem_cons_self))]

theorem print_opds (b : Nat → Byte) (m : Mach) (len : Nat) (hl : 1 ≤ len ∧ len ≤ 4)
    (hb : ∀ i, i < 4 → b i = m.mem (m.pc + BitVec.ofNat 16 i)) (os : List Isa.Opd) (h16 : ∀ o ∈ os, Isa.Part.imm16 ∈ o → 2 ≤ len) :
    disPrint b ([Piece.ch ','].intercalate (os.map (fun o => (o.map (partPieces len)).flatten))) =
      [','].intercalate (os.map (fun o => (o.map (Isa.partText m len)).flatten)) := by
  induction os with
  | nil => rfl
  | cons o os ih =>
    have k := print_opd b m len hl hb o (h16 o List.mem_cons_self)
    have r := ih (fun o ho => h16 o (List.mem_cons_of_mem _ ho))
    cases os with
    | nil => simpa [List.intercalate] using k
    | cons o2 os =>
      simp only [List.map_cons, List.intercalate, List.intersperse, List.flatten_cons] at r ⊢
      rw [print_append, print_append, r, k]; rfl

/-- Lengths of the documented instructions. -/
def lenOk (il : Ins × Nat) : Prop := 1 ≤ il.2 ∧ il.2 ≤ 4 ∧ ∀ o ∈ (Isa.asm il.1).2, Isa.Part.imm16 ∈ o → 2 ≤ il.2
instance (il : Ins × Nat) : Decidable (lenOk il) := by unfold lenOk; infer_instance

theorem len1 : ∀ op : Byte, lenOk (Isa.decode1 op) := by decide +kernel
theorem lenCb : ∀ op : Byte, lenOk (Isa.decodeCB op) := by decide +kernel
theorem lenEd : ∀ op : Byte, lenOk (Isa.decodeED op) := by decide +kernel
theorem lenX (x : Isa.Idx) : ∀ op : Byte, lenOk (Isa.decodeX x op) := by cases x <;> decide +kernel
theorem lenXCB (x : Isa.Idx) : ∀ op : Byte, lenOk (Isa.decodeXCB x op) := by cases x <;> decide +kernel
theorem len_ok (b0 b1 b3 : Byte) : lenOk (Isa.decode b0 b1 b3) := by
  unfold Isa.decode
  repeat' split
  · exact lenCb _
  · exact lenEd _
  · exact lenXCB _ _
  · exact lenX _ _
  · exact lenXCB _ _
  · exact lenX _ _
  · exact len1 _

theorem bytes_eq (s : St) (hp : s.pc + 3 < 0x10000) (i : Nat) (hi : i < 4) : rd s (s.pc + i) = (abs s).mem ((abs s).pc + BitVec.ofNat 16 i) := by
  unfold rd
  rw [if_pos (by omega)]
  show s.mem _ = s.mem (BitVec.ofNat 16 s.pc + BitVec.ofNat 16 i)
  rw [← BitVec.ofNat_add]

theorem ins_eq (s : St) (hp : s.pc + 3 < 0x10000) : Isa.decode (rd s (s.pc + 0)) (rd s (s.pc + 1)) (rd s (s.pc + 3)) = (abs s).ins := by
  rw [bytes_eq s hp 0 (by omega), bytes_eq s hp 1 (by omega), bytes_eq s hp 3 (by omega)]
  unfold Mach.ins
  rw [show (abs s).pc + BitVec.ofNat 16 0 = (abs s).pc from BitVec.add_zero _]; rfl

/-! ### C90 -/

/-- **C90**, the text: every documented instruction (of those not listed in `textWrong`) is shown as
the manual writes it, with its operands. -/
theorem c90_text_partial (s : St) (hp : s.pc + 3 < 0x10000) (ho : (abs s).ins.1 ≠ .other) (hw : textWrong (abs s).ins.1 (abs s).ins.2 = false) :
    disass s s.pc = Isa.text (abs s) := by
  have k := disEntry_ok (fun i => rd s (s.pc + i))
  rw [ins_eq s hp] at k
  have e : disPieces (fun i => rd s (s.pc + i)) = asmPieces (abs s).ins.1 (abs s).ins.2 := (k ho).1 hw
  have hl : lenOk (abs s).ins := by rw [← ins_eq s hp]; exact len_ok _ _ _
  unfold disass
  rw [e]
  unfold asmPieces Isa.text
  dsimp only
  have r := print_opds (fun i => rd s (s.pc + i)) (abs s) (abs s).ins.2 ⟨hl.1, hl.2.1⟩ (fun i hi => bytes_eq s hp i hi) (Isa.asm (abs s).ins.1).2 hl.2.2
  generalize (Isa.asm (abs s).ins.1).2 = os at r ⊢
  cases os with
  | nil => exact print_chs ..
  | cons o os =>
    dsimp only
    rw [print_append, print_append, print_chs, print_blank]
    show _ ++ _ ++ ' ' :: disPrint _ _ = _
    rw [r]

/-- **C90**, the length (ADD HL,DE and the ED codes of LD dd,(nn), LD (nn),dd apart). -/
theorem c90_length_partial (s : St) (hp : s.pc + 3 < 0x10000) (ho : (abs s).ins.1 ≠ .other) (hw : lenWrong (abs s).ins.1 (abs s).ins.2 = false) :
    instLength s s.pc = (abs s).ins.2 := by
  have k := disEntry_ok (fun i => rd s (s.pc + i))
  rw [ins_eq s hp] at k
  exact (k ho).2.1 hw

/-- **C90**: CALL, conditional CALL and RST, and nothing else, are known as calls (for `next`). -/
theorem c90_call (s : St) (hp : s.pc + 3 < 0x10000) (ho : (abs s).ins.1 ≠ .other) : isCall s s.pc = Isa.calls (abs s).ins.1 := by
  have k := disEntry_ok (fun i => rd s (s.pc + i))
  rw [ins_eq s hp] at k
  exact (k ho).2.2

/-- LD (IX-5),0x42. -/
example : let s := demo (prog [0xdd, 0x36, 0xfb, 0x42])
    s.pc + 3 < 0x10000 ∧ (abs s).ins.1 ≠ .other ∧ textWrong (abs s).ins.1 (abs s).ins.2 = false ∧ lenWrong (abs s).ins.1 (abs s).ins.2 = false ∧
      disass s s.pc = "LD     (IX+-5),0x42".toList ∧ instLength s s.pc = 4 := by decide +kernel
example : let s := demo (prog [0xfc, 0x34, 0x12]); disass s s.pc = "CALL   M,0x1234".toList ∧ isCall s s.pc = true := by decide +kernel

/-! #### Where it is false -/

/-- LD BC,(0x1234): no address, and two bytes only. -/
theorem c90_false_ed : let s := demo (prog [0xed, 0x4b, 0x34, 0x12])
    disass s s.pc = "LD     BC,(nnnn)".toList ∧ Isa.text (abs s) = "LD     BC,(0x1234)".toList ∧ instLength s s.pc = 2 ∧ (abs s).ins.2 = 4 := by decide +kernel
/-- ADD HL,DE has one byte, three are said. -/
theorem c90_false_add : let s := demo (prog [0x19])
    instLength s s.pc = 3 ∧ (abs s).ins.2 = 1 ∧ (step s).2.pc = s.pc + 1 := by decide +kernel
/-- LD I,A -/
theorem c90_false_ldi : let s := demo (prog [0xed, 0x47])
    disass s s.pc = "LD     IV,A".toList ∧ Isa.text (abs s) = "LD     I,A".toList := by decide +kernel
/-- LD B,n is shown with a small b, SUB B with A. -/
theorem c90_false_case : disass (demo (prog [0x06, 0x12])) 0x100 = "LD     b,0x12".toList ∧ disass (demo (prog [0x90])) 0x100 = "SUB    A,B".toList ∧
    disass (demo (prog [0xd6, 0x12])) 0x100 = "sub    0x12".toList := by decide +kernel

end Ucsim.Z80
