import Verif.H08.Dis
import Verif.Spec.H08Asm
import Verif.Props.H08

/-
C104: the disassembler of the M68HC08: text, length and calls.
-/
namespace Ucsim.H08

/-! ### Text -/

/-- The pieces of an addressing mode whose operand bytes are at offset `k`. -/
def modePieces (k : Nat) : Isa.Mode → List Piece
  | .imm => [.ch '#', .byte k]
  | .dir => [.ch '*', .byte k]
  | .ext => [.word k]
  | .ix2 => [.word k, .ch ',', .ch 'x']
  | .ix1 => [.byte k, .ch ',', .ch 'x']
  | .ix => [.ch ',', .ch 'x']
  | .sp2 => [.word k, .ch ',', .ch 's', .ch 'p']
  | .sp1 => [.byte k, .ch ',', .ch 's', .ch 'p']
  | .A | .X => []

def operandPieces (k : Nat) : Isa.Ins → List Piece
  | .alu _ m | .sta m | .stx m | .rmw _ m | .sthx m | .jmp m | .jsr m => modePieces k m
  | .ldhx m | .cphx m => if m = .imm then [.ch '#', .word k] else modePieces k m
  | .brbit _ n => [.ch '#', .ch (Isa.digit n), .ch ','] ++ modePieces k .dir ++ [.ch ',', .rel (k + 1)]
  | .setbit _ n => [.ch '#', .ch (Isa.digit n), .ch ','] ++ modePieces k .dir
  | .br _ _ | .bsr => [.rel k]
  | .cbeq .dir => modePieces k .dir ++ [.ch ',', .rel (k + 1)]
  | .cbeq .a | .cbeq .x => modePieces k .imm ++ [.ch ',', .rel (k + 1)]
  | .cbeq .ix1 => [.byte k, .ch ',', .ch 'x', .ch '+', .ch ',', .rel (k + 1)]
  | .cbeq .ix => [.ch ',', .ch 'x', .ch '+', .ch ',', .rel k]
  | .cbeq .sp1 => [.byte k, .ch ',', .ch 's', .ch 'p', .ch ',', .rel (k + 1)]
  | .dbnz .A | .dbnz .X => [.rel k]
  | .dbnz m => modePieces k m ++ [.ch ',', .rel (k + m.bytes)]
  | .mov .dd => modePieces k .dir ++ [.ch ','] ++ modePieces (k + 1) .dir
  | .mov .dix => modePieces k .dir ++ [.ch ',', .ch 'x', .ch '+']
  | .mov .imd => modePieces k .imm ++ [.ch ','] ++ modePieces (k + 1) .dir
  | .mov .ixd => [.ch ',', .ch 'x', .ch '+', .ch ','] ++ modePieces k .dir
  | .ais | .aix => [.ch '#', .signed k]
  | _ => []

def asmPieces (k : Nat) (i : Isa.Ins) : List Piece :=
  let n := (Isa.mnemonic i).toList
  match operandPieces k i with
  | [] => n.map .ch
  | o => n.map .ch ++ (List.replicate (7 - n.length) ' ').map .ch ++ o

/-- Shown wrongly. -/
def oddText : Isa.Ins → Bool
  | .bsr | .dbnz .dir => true
  | _ => false

def piecesOf (tab : List DisEntry) (code : Byte) (k : Nat) : List Piece :=
  match lookDis tab code with
  | some e => disScan e.mnemonic.toList true k []
  | none => "UNKNOWN/INVALID".toList.map .ch

theorem pieces_main : ∀ c : Byte, Isa.decode true c ≠ .other → oddText (Isa.decode true c) = false →
    piecesOf disTab c 1 = asmPieces 1 (Isa.decode true c) := by decide +kernel
theorem pieces_9e : ∀ c : Byte, Isa.decode9e true c ≠ .other → oddText (Isa.decode9e true c) = false →
    piecesOf dis9e c 2 = asmPieces 2 (Isa.decode9e true c) := by decide +kernel

/-- What the M68HC08 executes the HCS08 executes too. -/
theorem decode_s08 : ∀ c : Byte, (Isa.decode false c ≠ .other → Isa.decode true c = Isa.decode false c) ∧
    (Isa.decode9e false c ≠ .other → Isa.decode9e true c = Isa.decode9e false c) := by decide +kernel

theorem decode_any (b : Bool) (c : Byte) : (Isa.decode b c ≠ .other → Isa.decode true c = Isa.decode b c) ∧
    (Isa.decode9e b c ≠ .other → Isa.decode9e true c = Isa.decode9e b c) := by
  cases b
  · exact decode_s08 c
  · exact ⟨fun _ => rfl, fun _ => rfl⟩

theorem print_append (a : Nat) (b : Nat → Byte) (l k : List Piece) : disPrint a b (l ++ k) = disPrint a b l ++ disPrint a b k := by
  induction l with
  | nil => rfl
  | cons p l ih => cases p <;> simp [disPrint, ih]

theorem print_chs (a : Nat) (b : Nat → Byte) (t : List Char) : disPrint a b (t.map .ch) = t := by
  induction t with
  | nil => rfl
  | cons c t ih => simp [disPrint, ih]

theorem digit_eq : ∀ n, n < 16 → Nat.digitChar n = "0123456789abcdef".toList.getD n '?' := by decide

theorem hex_eq (k n : Nat) : '$' :: hexDigits k n = Isa.hex k n := by
  unfold hexDigits Isa.hex
  congr 1
  apply List.map_congr_left
  intro i _
  exact digit_eq _ (Nat.mod_lt _ (by decide))

/-- The bytes of the instruction as the disassembler and the manual's machine see them. -/
theorem rd_op (s : St) (n : Nat) (h : s.pc + n < 0x10000) : rd s (s.pc + n) = (abs s).mem ((abs s).pc + BitVec.ofNat 16 n) := by
  unfold rd
  rw [if_pos h, BitVec.ofNat_add]; rfl

theorem print_byte (s : St) (k : Nat) (l : List Piece) (h : s.pc + k < 0x10000) :
    disPrint s.pc (fun i => rd s (s.pc + i)) (.byte k :: l) = (abs s).byteText ((abs s).pc + BitVec.ofNat 16 k) ++ disPrint s.pc (fun i => rd s (s.pc + i)) l := by
  simp only [disPrint, rd_op s k h]
  unfold Isa.Mach.byteText; rw [← hex_eq]; rfl

theorem print_word (s : St) (k : Nat) (l : List Piece) (h : s.pc + k + 1 < 0x10000) :
    disPrint s.pc (fun i => rd s (s.pc + i)) (.word k :: l) = (abs s).wordText ((abs s).pc + BitVec.ofNat 16 k) ++ disPrint s.pc (fun i => rd s (s.pc + i)) l := by
  simp only [disPrint, rd_op s k (by omega), rd_op s (k + 1) (by omega)]
  unfold Isa.Mach.wordText Isa.Mach.word
  rw [of_eq, ← hex_eq, BitVec.ofNat_add, ← BitVec.add_assoc]; rfl

theorem rel_nat (o : Byte) (n : Nat) : (((n : Int) + 1 + o.toInt) % 0x10000).toNat = ((BitVec.ofNat 16 n : Word) + 1 + o.signExtend 16).toNat := by
  have h1 : (o.signExtend 16).toInt = o.toInt := BitVec.toInt_signExtend_of_le (by decide)
  have h2 : ((BitVec.ofNat 16 n : Word) + 1 + o.signExtend 16) = BitVec.ofInt 16 ((n : Int) + 1 + o.toInt) := by
    rw [← h1, BitVec.ofInt_add, BitVec.ofInt_add, BitVec.ofInt_toInt, BitVec.ofInt_natCast]; rfl
  rw [h2, BitVec.toNat_ofInt]
  rfl

theorem print_rel (s : St) (k : Nat) (l : List Piece) (h : s.pc + k < 0x10000) :
    disPrint s.pc (fun i => rd s (s.pc + i)) (.rel k :: l) = (abs s).relText ((abs s).pc + BitVec.ofNat 16 k) ++ disPrint s.pc (fun i => rd s (s.pc + i)) l := by
  simp only [disPrint, rd_op s k h]
  unfold Isa.Mach.relText
  have e := rel_nat ((abs s).mem ((abs s).pc + BitVec.ofNat 16 k)) (s.pc + k)
  have e2 : (BitVec.ofNat 16 (s.pc + k) : Word) = (abs s).pc + BitVec.ofNat 16 k := by rw [BitVec.ofNat_add]; rfl
  rw [e2] at e
  rw [← e, ← hex_eq]
  rw [show ((s.pc + k : Nat) : Int) = (s.pc : Int) + k from by omega]; rfl

theorem print_signed (s : St) (k : Nat) (l : List Piece) (h : s.pc + k < 0x10000) :
    disPrint s.pc (fun i => rd s (s.pc + i)) (.ch '#' :: .signed k :: l) = (abs s).signedText ((abs s).pc + BitVec.ofNat 16 k) ++ disPrint s.pc (fun i => rd s (s.pc + i)) l := by
  simp only [disPrint, rd_op s k h]; rfl

theorem print_mode (s : St) (k : Nat) (m : Isa.Mode) (h : s.pc + k + m.bytes ≤ 0x10000) :
    disPrint s.pc (fun i => rd s (s.pc + i)) (modePieces k m) = (abs s).modeText ((abs s).pc + BitVec.ofNat 16 k) m := by
  cases m <;> simp only [Isa.Mode.bytes] at h <;> simp only [modePieces, Isa.Mach.modeText, disPrint.eq_2]
  case imm => rw [print_byte s k _ (by omega)]; simp only [disPrint, List.append_nil]
  case dir => rw [print_byte s k _ (by omega)]; simp only [disPrint, List.append_nil]
  case ext => rw [print_word s k _ (by omega)]; simp only [disPrint, List.append_nil]
  case ix2 => rw [print_word s k _ (by omega)]; rfl
  case ix1 => rw [print_byte s k _ (by omega)]; rfl
  case ix => rfl
  case sp2 => rw [print_word s k _ (by omega)]; rfl
  case sp1 => rw [print_byte s k _ (by omega)]; rfl
  case A => rfl
  case X => rfl

theorem print_ops (s : St) (k : Nat) (i : Isa.Ins) (h : s.pc + k + i.operands ≤ 0x10000) :
    disPrint s.pc (fun i => rd s (s.pc + i)) (operandPieces k i) = (abs s).operandText ((abs s).pc + BitVec.ofNat 16 k) i := by
  have q1 : (abs s).pc + BitVec.ofNat 16 (k + 1) = (abs s).pc + BitVec.ofNat 16 k + 1 := by rw [BitVec.ofNat_add, ← BitVec.add_assoc]; rfl
  have qn : ∀ n, (abs s).pc + BitVec.ofNat 16 (k + n) = (abs s).pc + BitVec.ofNat 16 k + BitVec.ofNat 16 n := by intro n; rw [BitVec.ofNat_add, ← BitVec.add_assoc]
  cases i <;> simp only [Isa.Ins.operands] at h
  case alu o m => exact print_mode s k m h
  case sta m => exact print_mode s k m h
  case stx m => exact print_mode s k m h
  case rmw o m => exact print_mode s k m h
  case sthx m => exact print_mode s k m h
  case jmp m => exact print_mode s k m h
  case jsr m => exact print_mode s k m h
  case ldhx m =>
    simp only [operandPieces, Isa.Mach.operandText]
    by_cases hm : m = .imm
    · rw [if_pos hm] at h
      rw [if_pos hm, if_pos hm, disPrint.eq_2, print_word s k _ (by omega)]; simp only [disPrint, List.append_nil]
    · rw [if_neg hm] at h
      rw [if_neg hm, if_neg hm]; exact print_mode s k m h
  case cphx m =>
    simp only [operandPieces, Isa.Mach.operandText]
    by_cases hm : m = .imm
    · rw [if_pos hm] at h
      rw [if_pos hm, if_pos hm, disPrint.eq_2, print_word s k _ (by omega)]; simp only [disPrint, List.append_nil]
    · rw [if_neg hm] at h
      rw [if_neg hm, if_neg hm]; exact print_mode s k m h
  case brbit b n =>
    simp only [operandPieces, Isa.Mach.operandText, print_append]
    rw [print_mode s k .dir (by simp only [Isa.Mode.bytes]; omega)]
    simp only [disPrint.eq_2]
    rw [print_rel s (k + 1) _ (by omega), q1]
    simp [disPrint]
  case setbit b n =>
    simp only [operandPieces, Isa.Mach.operandText, print_append]
    rw [print_mode s k .dir (by simp only [Isa.Mode.bytes]; omega)]
    simp [disPrint]
  case br c b => simp only [operandPieces, Isa.Mach.operandText]; rw [print_rel s k _ (by omega)]; simp only [disPrint, List.append_nil]
  case bsr => simp only [operandPieces, Isa.Mach.operandText]; rw [print_rel s k _ (by omega)]; simp only [disPrint, List.append_nil]
  case ais => simp only [operandPieces, Isa.Mach.operandText]; rw [print_signed s k _ (by omega)]; simp only [disPrint, List.append_nil]
  case aix => simp only [operandPieces, Isa.Mach.operandText]; rw [print_signed s k _ (by omega)]; simp only [disPrint, List.append_nil]
  case cbeq m =>
    cases m <;> simp only [Isa.Ins.operands] at h <;> simp only [operandPieces, Isa.Mach.operandText, print_append]
    case dir => rw [print_mode s k .dir (by simp only [Isa.Mode.bytes]; omega), disPrint.eq_2, print_rel s (k + 1) _ (by omega), q1]; simp [disPrint]
    case a => rw [print_mode s k .imm (by simp only [Isa.Mode.bytes]; omega), disPrint.eq_2, print_rel s (k + 1) _ (by omega), q1]; simp [disPrint]
    case x => rw [print_mode s k .imm (by simp only [Isa.Mode.bytes]; omega), disPrint.eq_2, print_rel s (k + 1) _ (by omega), q1]; simp [disPrint]
    case ix1 => rw [print_byte s k _ (by omega)]; simp only [disPrint.eq_2]; rw [print_rel s (k + 1) _ (by omega), q1]; simp [disPrint]
    case ix => simp only [disPrint.eq_2]; rw [print_rel s k _ (by omega)]; simp [disPrint]
    case sp1 => rw [print_byte s k _ (by omega)]; simp only [disPrint.eq_2]; rw [print_rel s (k + 1) _ (by omega), q1]; simp [disPrint]
  case dbnz m =>
    cases m <;> simp only [operandPieces, Isa.Mach.operandText, print_append]
    case A => rw [print_rel s k _ (by simp only [Isa.Mode.bytes] at h; omega)]; simp only [disPrint, List.append_nil]
    case X => rw [print_rel s k _ (by simp only [Isa.Mode.bytes] at h; omega)]; simp only [disPrint, List.append_nil]
    all_goals
      rw [print_mode s k _ (by omega), disPrint.eq_2, print_rel s (k + _) _ (by omega), qn]
      simp [disPrint]
  case mov m =>
    cases m <;> simp only [Isa.Ins.operands] at h <;> simp only [operandPieces, Isa.Mach.operandText, print_append]
    case dd => rw [print_mode s k .dir (by simp only [Isa.Mode.bytes]; omega), print_mode s (k + 1) .dir (by simp only [Isa.Mode.bytes]; omega), q1]; rfl
    case dix => rw [print_mode s k .dir (by simp only [Isa.Mode.bytes]; omega)]; rfl
    case imd => rw [print_mode s k .imm (by simp only [Isa.Mode.bytes]; omega), print_mode s (k + 1) .dir (by simp only [Isa.Mode.bytes]; omega), q1]; rfl
    case ixd => rw [print_mode s k .dir (by simp only [Isa.Mode.bytes]; omega)]; rfl
  all_goals rfl

theorem print_asm (s : St) (k : Nat) (i : Isa.Ins) (h : s.pc + k + i.operands ≤ 0x10000) :
    disPrint s.pc (fun i => rd s (s.pc + i)) (asmPieces k i) =
      (match (abs s).operandText ((abs s).pc + BitVec.ofNat 16 k) i with
      | [] => (Isa.mnemonic i).toList
      | o => (Isa.mnemonic i).toList ++ List.replicate (7 - (Isa.mnemonic i).toList.length) ' ' ++ o) := by
  have key := print_ops s k i h
  have hnil : operandPieces k i = [] ↔ (abs s).operandText ((abs s).pc + BitVec.ofNat 16 k) i = [] := by
    rw [← key]
    cases e : operandPieces k i with
    | nil => simp [disPrint]
    | cons p l =>
      cases p <;> try simp [disPrint]
      intro hh
      exfalso
      have : ∀ (i : Isa.Ins) (j : Nat), operandPieces k i ≠ Piece.signed j :: l := by
        intro i j e
        cases i <;> simp only [operandPieces] at e <;> try cases e
        all_goals (try (rename_i m; cases m <;> simp [operandPieces, modePieces] at e))
        all_goals (try (split at e <;> try cases e))
      exact this i _ e
  unfold asmPieces
  dsimp only
  cases e : operandPieces k i with
  | nil => rw [hnil.mp e]; exact print_chs ..
  | cons p l =>
    cases e2 : (abs s).operandText ((abs s).pc + BitVec.ofNat 16 k) i with
    | nil => rw [hnil.mpr e2] at e; cases e
    | cons c t =>
      dsimp only
      rw [print_append, print_append, print_chs, print_chs, ← e, key, e2]

/-- **C104**, text: every instruction of the processor is shown as in assembly language, BSR and
DBNZ opr,rel excepted, wherever it fits in the memory. -/
theorem c104_text_partial (s : St) (hne : here s ≠ .other) (ho : oddText (here s) = false) (hfit : s.pc + (abs s).len s.s08 ≤ 0x10000) :
    disass s s.pc = (abs s).asm s.s08 := by
  unfold Isa.Mach.len at hfit
  have hpc : s.pc < 0x10000 := by split at hfit <;> omega
  have e0 : rd s (s.pc + 0) = (abs s).mem (abs s).pc := by
    rw [rd_op s 0 hpc]; simp
  unfold disass disPieces disEntry Isa.Mach.asm
  unfold here Isa.Mach.fetch at hne ho
  unfold Isa.Mach.fetch at hfit ⊢
  simp only [e0]
  by_cases hp : (abs s).mem (abs s).pc = 0x9e#8
  · simp only [if_pos hp] at hne ho hfit ⊢
    have e1 : rd s (s.pc + 1) = (abs s).mem ((abs s).pc + 1) := rd_op s 1 (by omega)
    have k := (decode_any s.s08 ((abs s).mem ((abs s).pc + 1))).2 hne
    have g := pieces_9e ((abs s).mem ((abs s).pc + 1)) (by rw [k]; exact hne) (by rw [k]; exact ho)
    rw [k] at g
    unfold piecesOf at g
    rw [e1]
    generalize hm : lookDis dis9e ((abs s).mem ((abs s).pc + 1)) = o at g ⊢
    have : (match o with | some e => disScan e.mnemonic.toList true 2 [] | none => "UNKNOWN/INVALID".toList.map .ch) = asmPieces 2 (Isa.decode9e s.s08 ((abs s).mem ((abs s).pc + 1))) := by
      cases o <;> exact g
    refine Eq.trans (congrArg _ ?_) (print_asm s 2 _ (by omega))
    rw [← this]; cases o <;> rfl
  · simp only [if_neg hp] at hne ho hfit ⊢
    have k := (decode_any s.s08 ((abs s).mem (abs s).pc)).1 hne
    have g := pieces_main ((abs s).mem (abs s).pc) (by rw [k]; exact hne) (by rw [k]; exact ho)
    rw [k] at g
    unfold piecesOf at g
    generalize hm : lookDis disTab ((abs s).mem (abs s).pc) = o at g ⊢
    refine Eq.trans (congrArg _ ?_) (print_asm s 1 _ (by omega))
    rw [← g]; cases o <;> rfl

example : disass (demo false 0 0 0 0 (bytes 0x200 [0x9e, 0xd6, 0xab, 0xcd])) 0x200 = "lda    $abcd,sp".toList ∧
    disass (demo false 0 0 0 0 (bytes 0x200 [0x05, 0x12, 0xfd])) 0x200 = "brclr  #2,*$12,$0200".toList ∧
    disass (demo false 0 0 0 0 (bytes 0x200 [0xa7, 0xfd])) 0x200 = "ais    #-3".toList := by decide +kernel
example : let s := demo false 0 0 0 0 (bytes 0x200 [0x9e, 0xd6, 0xab, 0xcd])
    here s ≠ .other ∧ oddText (here s) = false ∧ s.pc + (abs s).len s.s08 = 0x204 := by decide +kernel

/-- BSR is shown with its offset as if it were a direct address. -/
theorem c104_false_bsr : disass (demo false 0 0 0 0 (bytes 0x200 [0xad, 0x10])) 0x200 = "bsr    *$10".toList ∧
    (abs (demo false 0 0 0 0 (bytes 0x200 [0xad, 0x10]))).asm false = "bsr    $0212".toList := by decide +kernel

/-- So is the target of DBNZ opr,rel. -/
theorem c104_false_dbnz : disass (demo false 0 0 0 0 (bytes 0x200 [0x3b, 0x40, 0xfd])) 0x200 = "dbnz   *$40,*$fd".toList ∧
    (abs (demo false 0 0 0 0 (bytes 0x200 [0x3b, 0x40, 0xfd]))).asm false = "dbnz   *$40,$0200".toList := by decide +kernel

/-- Instructions of the HCS08 are shown on the M68HC08, which does not execute them. -/
theorem c104_false_hcs : disass (demo false 0 0 0 0 (bytes 0x200 [0x32, 0x12, 0x34])) 0x200 = "ldhx   $1234".toList ∧
    (step (demo false 0 0 0 0 (bytes 0x200 [0x32, 0x12, 0x34]))).1 = .inv := by decide +kernel

/-! ### Length and calls -/

/-- Shown with a wrong length. -/
def oddLen : Isa.Ins → Bool
  | .mov .dix | .dbnz .ix1 | .dbnz .sp1 => true
  | _ => false

def lenOf (tab : List DisEntry) (c : Byte) (k : Nat) : Nat :=
  match lookDis tab c with
  | some e => if e.length + k = 0 then 1 else e.length + k
  | none => 1
def callOf (tab : List DisEntry) (c : Byte) : Bool :=
  match lookDis tab c with
  | some e => e.isCall
  | none => false

theorem len_main : ∀ c : Byte, Isa.decode true c ≠ .other → ((lenOf disTab c 0 = 1 + (Isa.decode true c).operands ↔ oddLen (Isa.decode true c) = false) ∧
    callOf disTab c = (Isa.decode true c).call) := by decide +kernel
theorem len_9e : ∀ c : Byte, Isa.decode9e true c ≠ .other → ((lenOf dis9e c 1 = 2 + (Isa.decode9e true c).operands ↔ oddLen (Isa.decode9e true c) = false) ∧
    callOf dis9e c = (Isa.decode9e true c).call) := by decide +kernel

theorem instLength_eq (s : St) (addr : Nat) : instLength s addr = if rd s addr = 0x9e#8 then lenOf dis9e (rd s (addr + 1)) 1 else lenOf disTab (rd s addr) 0 := by
  unfold instLength disLen disEntry lenOf
  by_cases h : rd s addr = 0x9e#8
  · rw [if_pos h, if_pos (show rd s (addr + 0) = 0x9e#8 from h)]; rfl
  · rw [if_neg h, if_neg (show ¬ rd s (addr + 0) = 0x9e#8 from h)]; rfl
theorem isCall_eq (s : St) (addr : Nat) : isCall s addr = if rd s addr = 0x9e#8 then callOf dis9e (rd s (addr + 1)) else callOf disTab (rd s addr) := by
  unfold isCall disCall disEntry callOf
  by_cases h : rd s addr = 0x9e#8
  · rw [if_pos h, if_pos (show rd s (addr + 0) = 0x9e#8 from h)]; rfl
  · rw [if_neg h, if_neg (show ¬ rd s (addr + 0) = 0x9e#8 from h)]; rfl

/-- **C104**, length and calls: exactly three instructions get a wrong length, and calls are
exactly JSR, BSR and SWI. -/
theorem c104_length_partial (s : St) (hne : here s ≠ .other) (hfit : s.pc + (abs s).len s.s08 ≤ 0x10000) :
    (instLength s s.pc = (abs s).len s.s08 ↔ oddLen (here s) = false) ∧ isCall s s.pc = (here s).call := by
  unfold Isa.Mach.len at hfit ⊢
  have hpc : s.pc < 0x10000 := by split at hfit <;> omega
  have e0 : rd s s.pc = (abs s).mem (abs s).pc := by have := rd_op s 0 hpc; simpa using this
  rw [instLength_eq, isCall_eq]
  unfold here Isa.Mach.fetch at hne ⊢
  unfold Isa.Mach.fetch at hfit
  simp only [e0]
  by_cases hp : (abs s).mem (abs s).pc = 0x9e#8
  · simp only [if_pos hp] at hne hfit ⊢
    have e1 : rd s (s.pc + 1) = (abs s).mem ((abs s).pc + 1) := rd_op s 1 (by omega)
    have k := (decode_any s.s08 ((abs s).mem ((abs s).pc + 1))).2 hne
    rw [e1, ← k]
    exact len_9e _ (by rw [k]; exact hne)
  · simp only [if_neg hp] at hne hfit ⊢
    have k := (decode_any s.s08 ((abs s).mem (abs s).pc)).1 hne
    rw [← k]
    exact len_main _ (by rw [k]; exact hne)

/-- Instructions after which another than the next one may follow. -/
def branches : Isa.Ins → Bool
  | .brbit .. | .br .. | .cbeq _ | .dbnz _ | .rti | .rts | .swi | .jmp _ | .jsr _ | .bsr | .stop | .wait | .other => true
  | _ => false

theorem exec_pc (u : Isa.Undef) (m : Isa.Mach) (q : Word) (i : Isa.Ins) (h : branches i = false) : (Isa.exec u m q i).pc = q + BitVec.ofNat 16 i.operands := by
  cases i <;> first
    | (simp [branches] at h; done)
    | rfl
    | (simp [Isa.exec, Isa.Ins.operands]; done)
    | (rename_i k; cases k <;> rfl)
    | (rename_i o k; cases o <;> rfl)
    | (simp only [Isa.exec, Isa.Ins.operands]; split <;> rfl)

/-- **C104**, the next instruction in a listing is the next one executed. -/
theorem c104_next_partial (s : St) (h : Live s) (hd : ¬ Isa.Differs (abs s) (opnd s) (here s)) (hb : branches (here s) = false) (ho : oddLen (here s) = false)
    (hfit : s.pc + (abs s).len s.s08 ≤ 0x10000) : (step s).2.pc = (s.pc + instLength s s.pc) % 0x10000 := by
  obtain ⟨_, ⟨u, hs⟩, hl, _⟩ := c100_step_partial s h hd
  have hne : here s ≠ .other := fun e => by rw [e] at hd; exact hd trivial
  rw [(c104_length_partial s hne hfit).1.mpr ho]
  have e1 : (abs (step s).2).pc.toNat = (step s).2.pc := by
    show (BitVec.ofNat 16 (step s).2.pc).toNat = _
    rw [BitVec.toNat_ofNat, Nat.mod_eq_of_lt hl.pc]
  rw [← e1, hs, isa_step, exec_pc _ _ _ _ hb]
  unfold Isa.Mach.len opnd
  show (((abs s).fetch s.s08).2 + BitVec.ofNat 16 (here s).operands).toNat = _
  have k : ((abs s).fetch s.s08).2 = (abs s).pc + BitVec.ofNat 16 (if (abs s).mem (abs s).pc = 0x9e#8 then 2 else 1) := by
    unfold Isa.Mach.fetch; split <;> rfl
  rw [k]
  show (BitVec.ofNat 16 s.pc + _ + _ : Word).toNat = (s.pc + (_ + (here s).operands)) % 0x10000
  rw [← BitVec.ofNat_add, ← BitVec.ofNat_add, BitVec.toNat_ofNat, Nat.add_assoc]

example : let s := demo false 0 0 0 0 (bytes 0x200 [0x9e, 0xd6, 0xab, 0xcd])
    Live s ∧ ¬ Isa.Differs (abs s) (opnd s) (here s) ∧ branches (here s) = false ∧ oddLen (here s) = false ∧ (step s).2.pc = 0x204 := by decide +kernel

/-- MOV opr,X+ has two bytes, the listing goes on three bytes later. -/
theorem c104_false_mov : ∃ s : St, Live s ∧ here s = .mov .dix ∧ (step s).2.pc = s.pc + 2 ∧ instLength s s.pc = 3 :=
  ⟨demo false 0 0 0x80 0 (bytes 0x200 [0x5e, 0x40]), by decide +kernel, by decide +kernel, by decide +kernel, by decide +kernel⟩

/-- DBNZ opr,X,rel has three bytes, the listing goes on in the middle of it. -/
theorem c104_false_dbnzx : ∃ s : St, Live s ∧ here s = .dbnz .ix1 ∧ (abs s).len s.s08 = 3 ∧ instLength s s.pc = 2 :=
  ⟨demo false 0 0 0x80 0 (bytes 0x200 [0x6b, 0x40, 0x10]), by decide +kernel, by decide +kernel, by decide +kernel, by decide +kernel⟩

end Ucsim.H08
