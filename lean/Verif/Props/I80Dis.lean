import Verif.I80.Dis
import Verif.Spec.I80Asm
import Verif.Props.I80

/-
C63: the disassembler of the 8080/8085.
C64 (8080/8085 part): the next command.
-/
namespace Ucsim.I80

/-! ### Text -/

/-- Pieces of an operand. -/
def opdPieces : Isa.Opd → List Piece
  | .text s => chs s
  | .data8 => [.ch '#', .imm8]
  | .data16 => [.ch '#', .imm16]
  | .port => [.imm8]
  | .addr => [.imm16]

def asmPieces (i : Isa.Ins) : List Piece :=
  let mn := Isa.mnemonic i
  match Isa.operands i with
  | [] => chs mn
  | os => chs mn ++ List.replicate (6 - mn.toList.length) (.ch ' ') ++ .ch ' ' :: [Piece.ch ','].intercalate (os.map opdPieces)

theorem dis_pieces (cpu : Cpu) : ∀ op : Byte, Isa.decode op ≠ .other → op &&& 0xf8#8 ≠ 0xa8#8 → dis cpu op = asmPieces (Isa.decode op) := by
  cases cpu <;> decide +kernel

theorem print_append (s : St) (a : Word) (l k : List Piece) : print s a (l ++ k) = print s a l ++ print s a k := by
  induction l with
  | nil => rfl
  | cons p l ih => cases p <;> simp [print, ih]

theorem print_chs (s : St) (a : Word) (t : List Char) : print s a (t.map .ch) = t := by
  induction t with
  | nil => rfl
  | cons c t ih => simp [print, ih]

theorem print_blank (s : St) (a : Word) (n : Nat) : print s a (List.replicate n (.ch ' ')) = List.replicate n ' ' := by
  induction n with
  | zero => rfl
  | succ n ih => simp [List.replicate_succ, print, ih]

theorem digit_eq : ∀ n, n < 16 → Nat.digitChar n = "0123456789abcdef".toList.getD n '?' := by decide

theorem hex_eq (k n : Nat) : '0' :: 'x' :: hexDigits k n = Isa.hex k n := by
  unfold hexDigits Isa.hex
  rw [show "0x".toList = ['0', 'x'] from by decide]
  simp only [List.cons_append, List.nil_append, List.cons.injEq, true_and]
  apply List.map_congr_left
  intro i _
  exact digit_eq _ (Nat.mod_lt _ (by decide))

theorem print_opd (s : St) (o : Isa.Opd)
    (h8 : (o = .data8 ∨ o = .port) → s.pc ≠ 0xffff#16) (h16 : (o = .data16 ∨ o = .addr) → s.pc.toNat < 0xfffe) :
    print s s.pc (opdPieces o) = Isa.opdText (abs s).imm8 (abs s).imm16 o := by
  have e8 : s.pc ≠ 0xffff#16 → rd s (s.pc.toNat + 1) = (abs s).imm8 := fun h => rd_succ s s.pc h
  have e16 : s.pc.toNat < 0xfffe → readAddr s (s.pc.toNat + 1) = (abs s).imm16.toNat := by
    intro h
    have h1 : s.pc ≠ 0xffff#16 := fun e => by rw [e] at h; exact absurd h (by decide)
    have h2 : s.pc + 1 ≠ 0xffff#16 := fun e => by
      have := congrArg BitVec.toNat e
      rw [← succ_word s.pc h1] at this
      have k : (0xffff#16 : Word).toNat = 65535 := rfl
      rw [k] at this; omega
    have k := readAddr_eq s (s.pc + 1) h2
    rw [← succ_word s.pc h1] at k
    have k2 : (BitVec.ofNat 16 (readAddr s (s.pc.toNat + 1)) : Word).toNat = readAddr s (s.pc.toNat + 1) := by
      rw [BitVec.toNat_ofNat]; apply Nat.mod_eq_of_lt
      unfold readAddr
      have := (rd s (s.pc.toNat + 1)).isLt
      have := (rd s (s.pc.toNat + 1 + 1)).isLt
      omega
    rw [← k2, k]
    unfold Isa.Mach.load16 Isa.Mach.imm16
    rw [show s.pc + 1 + 1 = s.pc + 2 from add11 _]; rfl
  cases o
  · exact print_chs ..
  · simp only [opdPieces, Isa.opdText, print, e8 (h8 (Or.inl rfl)), List.append_nil]; rw [hex_eq]
  · simp only [opdPieces, Isa.opdText, print, e16 (h16 (Or.inl rfl)), List.append_nil]; rw [hex_eq]
  · simp only [opdPieces, Isa.opdText, print, e8 (h8 (Or.inr rfl)), List.append_nil]; rw [hex_eq]
  · simp only [opdPieces, Isa.opdText, print, e16 (h16 (Or.inr rfl)), List.append_nil]; rw [hex_eq]

/-- Operands that need the following bytes make the instruction that long. -/
theorem opd_len (i : Isa.Ins) (o : Isa.Opd) (h : o ∈ Isa.operands i) :
    ((o = .data8 ∨ o = .port) → 2 ≤ Isa.length i) ∧ ((o = .data16 ∨ o = .addr) → 3 ≤ Isa.length i) := by
  cases i <;> simp_all [Isa.operands, Isa.length] <;> (rcases h with rfl | rfl) <;> simp

/-- **C63**, text: the disassembly of every documented instruction is its assembly language
text (XRA r excepted), wherever the instruction fits in memory. -/
theorem c63_text_partial (cpu : Cpu) (s : St) (hne : Isa.decode (s.mem s.pc) ≠ .other) (hx : ∀ r, Isa.decode (s.mem s.pc) ≠ .alu 5 r)
    (hfit : s.pc.toNat + Isa.length (Isa.decode (s.mem s.pc)) ≤ 0x10000) :
    disassc cpu s s.pc = Isa.asm (abs s) := by
  have hop : s.mem s.pc &&& 0xf8#8 ≠ 0xa8#8 := by
    have : ∀ op : Byte, op &&& 0xf8#8 = 0xa8#8 → ∃ r, Isa.decode op = .alu 5 r := by decide +kernel
    intro e
    obtain ⟨r, hr⟩ := this _ e
    exact hx r hr
  unfold disassc
  rw [rd_word, dis_pieces cpu _ hne hop]
  unfold Isa.asm
  rw [show (abs s).mem (abs s).pc = s.mem s.pc from rfl]
  generalize hi : Isa.decode (s.mem s.pc) = i at *
  have ho : ∀ o ∈ Isa.operands i, print s s.pc (opdPieces o) = Isa.opdText (abs s).imm8 (abs s).imm16 o := by
    intro o h
    obtain ⟨l8, l16⟩ := opd_len i o h
    refine print_opd s o (fun k e => ?_) (fun k => ?_)
    · have := l8 k
      rw [e] at hfit
      have k2 : (0xffff#16 : Word).toNat = 65535 := rfl
      rw [k2] at hfit; omega
    · have := l16 k; omega
  have hl : (Isa.operands i).length ≤ 2 := by cases i <;> simp [Isa.operands]
  unfold asmPieces
  dsimp only
  cases e : Isa.operands i with
  | nil => exact print_chs ..
  | cons o os =>
    rw [e] at ho hl
    have h0 := ho o (List.mem_cons_self ..)
    dsimp only
    rw [print_append, print_append, print_blank, show print s s.pc (chs (Isa.mnemonic i)) = (Isa.mnemonic i).toList from print_chs ..]
    congr 1
    simp only [print]
    congr 1
    cases os with
    | nil => simpa [List.intercalate] using h0
    | cons o2 os =>
      have h1 := ho o2 (by simp)
      cases os with
      | nil => simp [List.intercalate, print_append, print, h0, h1]
      | cons _ _ => simp at hl

/-- XRA r is shown as XOR r. -/
theorem c63_false_xra (cpu : Cpu) : disassc cpu (demo 0 0 0 (prog [0xa8])) 0x100 = "XOR    B".toList ∧
    Isa.asm (abs (demo 0 0 0 (prog [0xa8]))) = "XRA    B".toList := by
  cases cpu <;> decide +kernel

example : disassc .i8085 (demo 0 0 0 (prog [0x3e, 0x5c])) 0x100 = "MVI    A,#0x5c".toList ∧
    disassc .i8080 (demo 0 0 0 (prog [0xd2, 0xcd, 0xab])) 0x100 = "JNC    0xabcd".toList := by decide +kernel

/-! ### Length -/

/-- Instructions after which another than the next one may follow. -/
def branches : Isa.Ins → Bool
  | .jmp | .jcc _ | .call | .ccc _ | .ret | .rcc _ | .rst _ | .pchl => true
  | _ => false

theorem len_ok : ∀ op : Byte, Isa.decode op ≠ .other → instLength op = Isa.length (Isa.decode op) := by decide +kernel

theorem wr_pc (s : St) (n : Nat) (v : Byte) : (wr s n v).pc = s.pc := by unfold wr; split <;> rfl
theorem set8_pc (s : St) (r : R8) (v : Byte) : (set8 s r v).pc = s.pc := by cases r <;> first | rfl | exact wr_pc ..
theorem set16_pc (s : St) (p : RP) (v : Word) : (set16 s p v).pc = s.pc := by cases p <;> rfl
theorem push2_pc (v : Word) (s : St) : (push2 v s).pc = s.pc := by rw [push2_eq]
theorem setF_pc (cpu : Cpu) (v : Byte) (s : St) : (setF cpu v s).pc = s.pc := rfl

/-- The PC after an instruction that does not branch. -/
theorem exec_pc (cpu : Cpu) (op : Byte) (i : Inst) (ins : Isa.Ins) (s : St) (t : Int) (h : conv op i = some ins) (hb : branches ins = false) :
    (exec cpu op i (fetched s t)).pc = s.pc + BitVec.ofNat 16 (Isa.length ins) := by
  have T : (fetched s t).pc = s.pc + 1 := rfl
  cases i <;> simp only [conv, Option.some.injEq, reduceCtorEq] at h
  case mov d r => subst h; simp only [exec, set8_pc, T]; rfl
  case mvi d => subst h; simp only [exec, set8_pc, fetch_fetched]; rfl
  case lxi p => subst h; simp only [exec, set16_pc, fetch16_fetched]; rfl
  case lda => subst h; simp only [exec, fetch16_fetched]; rfl
  case sta => subst h; simp only [exec, wr_pc, fetch16_fetched]; rfl
  case lhld => subst h; simp only [exec, set16_pc, fetch16_fetched]; rfl
  case shld => subst h; simp only [exec, wr_pc, fetch16_fetched]; rfl
  case stax p => subst h; simp only [exec, wr_pc, T]; rfl
  case inp => subst h; simp only [exec, fetch_fetched]; rfl
  case out => subst h; simp only [exec, fetch_fetched]; rfl
  case push p => subst h; simp only [exec, push2_pc, T]; rfl
  case pushPsw => subst h; simp only [exec, push2_pc, T]; rfl
  case pop p => subst h; simp only [exec, set16_pc, pop2_eq, T]; rfl
  case xthl => subst h; simp only [exec, set16_pc, wr_pc, T]; rfl
  case add8 o c =>
    cases o <;> simp only [conv, Option.some.injEq] at h <;> subst h
    · rfl
    · simp only [exec, src, fetch_fetched, add8, setF_pc]; rfl
  case sub8 o c k =>
    cases o <;> cases c <;> cases k <;> simp only [conv, Option.some.injEq, reduceCtorEq] at h <;> subst h <;>
      first | rfl | (simp only [exec, src, fetch_fetched, sub8, setF_pc]; rfl)
  case dad p => subst h; simp only [exec, dad, setF_pc, set16_pc, T]; rfl
  case inr r => subst h; simp only [exec, inr, setF_pc, set8_pc, T]; rfl
  case dcr r => subst h; simp only [exec, dcr, setF_pc, set8_pc, T]; rfl
  case inx p => subst h; cases cpu <;> simp only [exec, inx, setF_pc, set16_pc, T] <;> rfl
  case dcx p => subst h; cases cpu <;> simp only [exec, dcx, setF_pc, set16_pc, T] <;> rfl
  case ana o =>
    cases o <;> simp only [conv, Option.some.injEq] at h <;> subst h
    · rfl
    · simp only [exec, src, fetch_fetched, ana, logic, setF_pc]; rfl
  case ora o =>
    cases o <;> simp only [conv, Option.some.injEq] at h <;> subst h
    · rfl
    · simp only [exec, src, fetch_fetched, ora, logic, setF_pc]; rfl
  case xra o =>
    cases o <;> simp only [conv, Option.some.injEq] at h <;> subst h
    · rfl
    · simp only [exec, src, fetch_fetched, xra, logic, setF_pc]; rfl
  case daa => subst h; simp only [exec, daa]; split <;> rfl
  case jmpIf g v =>
    obtain ⟨c, hc, rfl⟩ := Option.map_eq_some_iff.mp h
    exact absurd hb (by simp [branches])
  case callIf g v =>
    obtain ⟨c, hc, rfl⟩ := Option.map_eq_some_iff.mp h
    exact absurd hb (by simp [branches])
  case retIf g v =>
    obtain ⟨c, hc, rfl⟩ := Option.map_eq_some_iff.mp h
    exact absurd hb (by simp [branches])
  case jmp => subst h; exact absurd hb (by simp [branches])
  case call => subst h; exact absurd hb (by simp [branches])
  case ret => subst h; exact absurd hb (by simp [branches])
  case rst => subst h; exact absurd hb (by simp [branches])
  case pchl => subst h; exact absurd hb (by simp [branches])
  all_goals subst h; rfl

/-- **C63**, length: after a documented instruction that does not branch the PC is where the
disassembler says the next instruction is. -/
theorem c63_length (cpu : Cpu) (s : St) (hne : Isa.decode (s.mem s.pc) ≠ .other) (hb : branches (Isa.decode (s.mem s.pc)) = false) :
    (step cpu s).2.pc = s.pc + BitVec.ofNat 16 (instLength (s.mem s.pc)) := by
  have hi := (itab_ok cpu (s.mem s.pc)).resolve_left hne
  obtain ⟨i, h1, h2⟩ := Option.bind_eq_some_iff.mp hi
  have k := exec_pc cpu _ i _ s (s.ticks + 1) h2 hb
  rw [len_ok _ hne, ← k]
  unfold step
  simp only [fetch_eq, h1]; rfl

example : Isa.decode (prog [0x21, 0x34, 0x12] 0x100) = .lxi 2 ∧ instLength 0x21 = 3 ∧
    (step .i8085 (demo 0 0 0 (prog [0x21, 0x34, 0x12]))).2.pc = 0x103 := by decide +kernel

/-- The length is looked up in the common table only: LDHI n (8085, two bytes) and JNX5
(three bytes) count as one byte long, so a listing goes on inside of them. -/
theorem c63_false_length : instLength 0x28 = 1 ∧ (step .i8085 (demo 0 0 0 (prog [0x28, 0x05]))).2.pc = 0x102 ∧
    instLength 0xdd = 1 ∧ (getDis .i8085 0xdd).map (·.2.2.1) = some 3 ∧
    instLength 0xcb = 1 ∧ (getDis .i8080 0xcb).map (·.2.2.1) = some 3 := by decide +kernel

end Ucsim.I80
