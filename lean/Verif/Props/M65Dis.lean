import Verif.M65.Dis
import Verif.Spec.M65Asm
import Verif.Props.M65Int

/-
C70: the disassembler of the 6502.
C64 (6502 part): the next command.
-/
namespace Ucsim.M65

/-! ### Text -/

/-- Pieces of an operand. -/
def modePieces : Isa.Mode → List Piece
  | .imm => [.ch '#', .b2]
  | .abs => [.w]
  | .absx => [.w, .ch ',', .ch 'X']
  | .absy => [.w, .ch ',', .ch 'Y']
  | .indx => [.ch '(', .b2, .ch ',', .ch 'X', .ch ')']
  | .acc => [.ch 'A']
  | _ => []

def operandPieces (i : Isa.Ins) : List Piece :=
  match i with
  | .jmp | .jsr => [.w]
  | .jmpInd => [.ch '(', .w, .ch ')']
  | .br _ _ => [.r]
  | i => match Isa.modeOf i with
    | some k => modePieces k
    | none => []

def asmPieces (i : Isa.Ins) : List Piece :=
  let mn := (Isa.mnemonic i).toList.map .ch
  match operandPieces i with
  | [] => mn
  | o => mn ++ "    ".toList.map .ch ++ o

/-- The modes shown in another way. -/
def oddMode : Isa.Ins → Bool
  | i => match Isa.modeOf i with
    | some .zp | some .zpx | some .zpy | some .indy => true
    | _ => false

theorem dis_pieces : ∀ op : Byte, Isa.decode op ≠ .other → oddMode (Isa.decode op) = false → dis op = asmPieces (Isa.decode op) := by
  decide +kernel

theorem print_append (s : St) (a : Nat) (l k : List Piece) : print s a (l ++ k) = print s a l ++ print s a k := by
  induction l with
  | nil => rfl
  | cons p l ih => cases p <;> simp [print, ih]

theorem print_chs (s : St) (a : Nat) (t : List Char) : print s a (t.map .ch) = t := by
  induction t with
  | nil => rfl
  | cons c t ih => simp [print, ih]

theorem digit_eq : ∀ n, n < 16 → Nat.digitChar n = "0123456789abcdef".toList.getD n '?' := by decide

theorem hex_eq (k n : Nat) : '$' :: hexDigits k n = Isa.hex k n := by
  unfold hexDigits Isa.hex
  congr 1
  apply List.map_congr_left
  intro i _
  exact digit_eq _ (Nat.mod_lt _ (by decide))

theorem rd_op (s : St) (n : Nat) (h : s.pc + n < 0x10000) : rd s (s.pc + n) = (abs s).mem ((abs s).pc + BitVec.ofNat 16 n) := by
  rw [rd_lt _ _ h]
  show s.mem _ = s.mem (BitVec.ofNat 16 s.pc + BitVec.ofNat 16 n)
  congr 1
  rw [BitVec.ofNat_add]

theorem print_b2 (s : St) (l : List Piece) (h : s.pc + 1 < 0x10000) :
    print s s.pc (.b2 :: l) = Isa.hex 2 (abs s).op1.toNat ++ print s s.pc l := by
  simp only [print, rd_op s 1 h]; rw [← hex_eq]; rfl

theorem print_w (s : St) (l : List Piece) (h : s.pc + 2 < 0x10000) :
    print s s.pc (.w :: l) = Isa.hex 4 (abs s).opw.toNat ++ print s s.pc l := by
  simp only [print, rd_op s 1 (by omega), rd_op s 2 h]
  rw [of_eq, ← hex_eq]; rfl

theorem print_r (s : St) (l : List Piece) (h : s.pc + 1 < 0x10000) :
    print s s.pc (.r :: l) = Isa.hex 4 ((abs s).pc + 2 + (abs s).op1.signExtend 16).toNat ++ print s s.pc l := by
  simp only [print, rd_op s 1 h]
  have e : (((s.pc : Int) + ((abs s).mem ((abs s).pc + BitVec.ofNat 16 1)).toInt + 2) % 0x10000).toNat =
      ((abs s).pc + 2 + (abs s).op1.signExtend 16).toNat := by
    have k : ∀ b : Byte, ∀ n : Nat, n < 0x10000 → (((n : Int) + b.toInt + 2) % 0x10000).toNat = ((BitVec.ofNat 16 n : Word) + 2 + b.signExtend 16).toNat := by
      intro b n hn
      have h1 : (b.signExtend 16).toInt = b.toInt := BitVec.toInt_signExtend_of_le (by decide)
      have h2 : ((BitVec.ofNat 16 n : Word) + 2 + b.signExtend 16) = BitVec.ofInt 16 ((n : Int) + b.toInt + 2) := by
        rw [← h1]
        rw [BitVec.ofInt_add, BitVec.ofInt_add, BitVec.ofInt_toInt, BitVec.ofInt_natCast, BitVec.add_assoc, BitVec.add_comm (2 : Word), ← BitVec.add_assoc]; rfl
      rw [h2, BitVec.toNat_ofInt]
      rfl
    exact k _ _ (by omega)
  rw [e, ← hex_eq]; rfl

/-- **C70**, text: the disassembly of every documented instruction is its assembly language
text, page zero modes and (zp),Y excepted, wherever the instruction fits in memory. -/
theorem c70_text_partial (s : St) (hne : here s ≠ .other) (ho : oddMode (here s) = false)
    (hfit : s.pc + Isa.length (here s) ≤ 0x10000) :
    disassc s s.pc = Isa.asm (abs s) := by
  have hpos : 1 ≤ Isa.length (here s) := by
    cases here s <;> simp only [Isa.length] <;> (try omega) <;> (rename_i k; cases k <;> simp [Isa.Mode.length])
  unfold disassc
  have e0 : rd s s.pc = (abs s).mem (abs s).pc := rd_lt s s.pc (by omega)
  rw [e0, dis_pieces _ hne ho]
  unfold Isa.asm
  change print s s.pc (asmPieces (here s)) = (match (abs s).operandText (here s) with
    | [] => (Isa.mnemonic (here s)).toList
    | o => (Isa.mnemonic (here s)).toList ++ "    ".toList ++ o)
  generalize here s = i at *
  have key : print s s.pc (operandPieces i) = (abs s).operandText i := by
    cases i <;> simp only [operandPieces, Isa.Mach.operandText, Isa.modeOf, oddMode] at ho ⊢ <;> try rfl
    all_goals (try simp only [Isa.length] at hfit)
    all_goals first
      | (rw [print_w s _ (by omega)]; simp only [print, List.append_nil]; done)
      | (rw [print_r s _ (by omega)]; simp only [print, List.append_nil]; done)
      | (simp only [print, rd_op s 1 (by omega), rd_op s 2 (by omega), of_eq, ← hex_eq]; rfl)
      | (rename_i k; cases k <;> simp only [modePieces, Isa.Mach.modeText, Isa.Mode.length, Bool.true_eq_false] at ho hfit ⊢ <;> first
          | rfl
          | (rw [print_w s _ (by omega)]; simp only [print, List.append_nil]; done)
          | (simp only [print.eq_2, print_b2 s _ (by omega : s.pc + 1 < 0x10000)]; simp [print]; done)
          | contradiction)
  have hnil : operandPieces i = [] ↔ (abs s).operandText i = [] := by
    rw [← key]
    cases operandPieces i with
    | nil => simp [print]
    | cons p l => cases p <;> simp [print]
  unfold asmPieces
  dsimp only
  cases e : operandPieces i with
  | nil => rw [hnil.mp e]; exact print_chs ..
  | cons p l =>
    cases e2 : (abs s).operandText i with
    | nil => rw [hnil.mpr e2] at e; cases e
    | cons c t =>
      dsimp only
      rw [print_append, print_append, print_chs, print_chs, ← e, key, e2]

example : disassc (demo 0 0 0 0 (bytes 0x200 [0xbd, 0xcd, 0xab])) 0x200 = "LDA    $abcd,X".toList ∧
    disassc (demo 0 0 0 0 (bytes 0x200 [0xd0, 0xfe])) 0x200 = "BNE    $0200".toList ∧
    oddMode (here (demo 0 0 0 0 (bytes 0x200 [0xd0, 0xfe]))) = false := by decide +kernel

/-- LDA ($12),Y is shown as LDA ($12,Y). -/
theorem c70_false_indy : disassc (demo 0 0 0 0 (bytes 0x200 [0xb1, 0x12])) 0x200 = "LDA    ($12,Y)".toList ∧
    Isa.asm (abs (demo 0 0 0 0 (bytes 0x200 [0xb1, 0x12]))) = "LDA    ($12),Y".toList := by
  decide +kernel

/-- LDA $12 (two bytes) is shown as LDA $0012, which assemblers take for the absolute mode. -/
theorem c70_false_zp : disassc (demo 0 0 0 0 (bytes 0x200 [0xa5, 0x12])) 0x200 = "LDA    $0012".toList ∧
    Isa.asm (abs (demo 0 0 0 0 (bytes 0x200 [0xa5, 0x12]))) = "LDA    $12".toList ∧
    disassc (demo 0 0 0 0 (bytes 0x200 [0xad, 0x12, 0x00])) 0x200 = "LDA    $0012".toList := by
  decide +kernel

/-! ### Length -/

/-- Instructions after which another than the next one may follow. -/
def branches : Isa.Ins → Bool
  | .jmp | .jmpInd | .jsr | .rts | .rti | .brk | .br _ _ => true
  | _ => false

theorem len_ok : ∀ op : Byte, Isa.decode op ≠ .other → instLength op = Isa.length (Isa.decode op) := by decide +kernel

theorem isa_pc (u : Isa.Undef) (m : Isa.Mach) (h : branches (Isa.decode (m.mem m.pc)) = false) :
    (Isa.step u m).pc = m.pc + BitVec.ofNat 16 (Isa.length (Isa.decode (m.mem m.pc))) := by
  unfold Isa.step
  generalize Isa.decode (m.mem m.pc) = i at *
  cases i <;> first | rfl | (simp [branches] at h)

/-- **C70**, length: after a documented instruction that does not branch the PC is where the
disassembler says the next instruction is (no interrupt requested). -/
theorem c70_length_partial (s : St) (hpc : s.pc < 0x10000) (hq : Quiet s) (hf : Fine s) (hb : branches (here s) = false) :
    (step s).2.pc = (s.pc + instLength (rd s s.pc)) % 0x10000 := by
  obtain ⟨_, u, h⟩ := c66_step_partial s hpc hq hf
  obtain ⟨k1, _⟩ := step_keeps s hpc hq hf.1 hf.2
  have hne : here s ≠ .other := fun e => hf.1 (by rw [e]; exact trivial)
  have e0 : rd s s.pc = (abs s).mem (abs s).pc := rd_lt s s.pc hpc
  have e1 : (abs (step s).2).pc.toNat = (step s).2.pc := by
    show (BitVec.ofNat 16 (step s).2.pc).toNat = _
    rw [BitVec.toNat_ofNat, Nat.mod_eq_of_lt k1]
  rw [e0, len_ok _ hne, ← e1, h, isa_pc u (abs s) hb]
  show (BitVec.ofNat 16 s.pc + BitVec.ofNat 16 _).toNat = _
  rw [BitVec.toNat_add, BitVec.toNat_ofNat, BitVec.toNat_ofNat]
  simp only [Nat.reducePow, Nat.mod_add_mod, Nat.add_mod_mod]

example : instLength 0xbd = 3 ∧ Fine (demo 0 0 0 0 (bytes 0x200 [0xbd, 0xcd, 0xab])) ∧
    (step (demo 0 0 0 0 (bytes 0x200 [0xbd, 0xcd, 0xab]))).2.pc = 0x203 := by decide +kernel

/-- An opcode which is not documented has no length: a listing does not get past it. -/
theorem c70_false_length : ∀ op : Byte, Isa.decode op = .other → instLength op = 0 := by decide +kernel

/-! ### C64 -/

theorem steps_add (m n : Nat) (s : St) : steps (m + n) s = steps n (steps m s) := by
  induction m generalizing s with
  | zero => rw [Nat.zero_add]; rfl
  | succ m ih => rw [Nat.add_right_comm]; exact ih _

/-- JSR is the only call. -/
theorem isCall_ok : ∀ c : Byte, isCall c = true ↔ c = 0x20#8 := by decide +kernel

/-- **C64**, 6502: `next` on another instruction than JSR executes just that. -/
theorem c64_m65_step (s t : St) (hpc : s.pc < 0x10000) (h : here s ≠ .jsr) : NextStop s t ↔ t = (step s).2 := by
  have e0 : rd s s.pc = (abs s).mem (abs s).pc := rd_lt s s.pc hpc
  have hn : isCall (rd s s.pc) = false := by
    cases k : isCall (rd s s.pc) with
    | false => rfl
    | true =>
      rw [isCall_ok, e0] at k
      exact absurd (show here s = .jsr by unfold here; rw [k]; decide) h
  unfold NextStop
  simp only [hn, Bool.false_eq_true, if_false]

/-- The return address on the stack. -/
theorem jsr_pushed (m : Isa.Mach) (w : Word) :
    (m.pushw w).mem (1#8 ++ m.s) = w.extractLsb' 8 8 ∧ (m.pushw w).mem (1#8 ++ (m.s - 1)) = w.extractLsb' 0 8 ∧ (m.pushw w).s = m.s - 2 := by
  have hne : (1#8 ++ m.s : Word) ≠ 1#8 ++ (m.s - 1) := by
    intro e
    have : ∀ b : Byte, (1#8 ++ b : Word) ≠ 1#8 ++ (b - 1) := by decide +kernel
    exact this _ e
  refine ⟨?_, ?_, ?_⟩
  · simp only [Isa.Mach.pushw, Isa.Mach.push, Isa.Mach.store]
    rw [if_neg hne]; exact if_pos trivial
  · simp [Isa.Mach.pushw, Isa.Mach.push, Isa.Mach.store]
  · have : ∀ b : Byte, b - 1 - 1 = b - 2 := by decide +kernel
    exact this m.s

/-- **C64**, 6502: `next` on JSR stops when the subroutine has returned: if it comes to its RTS
after `k` instructions with its return address in place, and nothing before is executed at the
return address, the command stops there, with S as before the call; and nowhere else. -/
theorem c64_m65_call_partial (s : St) (hpc : s.pc + 3 < 0x10000) (hq : Quiet s) (hj : here s = .jsr) (k : Nat)
    (hpt : (steps (k + 1) s).pc < 0x10000) (hqt : Quiet (steps (k + 1) s)) (hop : here (steps (k + 1) s) = .rts)
    (hsp : (steps (k + 1) s).sp = (step s).2.sp)
    (hm : ∀ i : Byte, i = 0 ∨ i = 1 → (steps (k + 1) s).mem (1#8 ++ (s.sp - i)) = (step s).2.mem (1#8 ++ (s.sp - i)))
    (hno : ∀ j, 1 ≤ j → j ≤ k + 1 → (steps j s).pc ≠ s.pc + 3) :
    ∀ t, NextStop s t ↔ t = steps (k + 2) s ∧ t.pc = s.pc + 3 ∧ t.sp = s.sp := by
  have hdj : Fine s := ⟨by rw [hj]; exact fun h => h, fun e => by rw [hj] at e; cases e⟩
  obtain ⟨_, u, hs⟩ := c66_step_partial s (by omega) hq hdj
  have hs1 : abs (step s).2 = { (abs s).pushw ((abs s).pc + 2) with pc := (abs s).opw } := by
    rw [hs]; unfold Isa.step
    rw [show Isa.decode ((abs s).mem (abs s).pc) = .jsr from hj]
  obtain ⟨p1, p2, p3⟩ := jsr_pushed (abs s) ((abs s).pc + 2)
  have m0 : (steps (k + 1) s).mem (1#8 ++ s.sp) = ((abs s).pc + 2).extractLsb' 8 8 := by
    have := hm 0 (Or.inl rfl)
    rw [show s.sp - 0 = s.sp from BitVec.sub_zero _] at this
    rw [this, ← p1]
    exact congrFun (congrArg Isa.Mach.mem hs1) _
  have m1 : (steps (k + 1) s).mem (1#8 ++ (s.sp - 1)) = ((abs s).pc + 2).extractLsb' 0 8 := by
    rw [hm 1 (Or.inr rfl), ← p2]
    exact congrFun (congrArg Isa.Mach.mem hs1) _
  have hsp2 : (steps (k + 1) s).sp = s.sp - 2 := by
    rw [hsp, ← show ((abs s).pushw ((abs s).pc + 2)).s = s.sp - 2 from p3]
    exact congrArg Isa.Mach.s hs1
  generalize hr : steps (k + 1) s = r at *
  have q2 : ∀ b : Byte, b - 2 + 2 = b ∧ b - 2 + 1 = b - 1 := by decide +kernel
  have pull2 : (abs r).pull 2 = ((abs s).pc + 2).extractLsb' 8 8 := by
    show r.mem (1#8 ++ (r.sp + 2)) = _
    rw [hsp2, (q2 _).1, m0]
  have pull1 : (abs r).pull 1 = ((abs s).pc + 2).extractLsb' 0 8 := by
    show r.mem (1#8 ++ (r.sp + 1)) = _
    rw [hsp2, (q2 _).2, m1]
  have hw : ((abs s).pc + 2).toNat = s.pc + 2 := by
    show (BitVec.ofNat 16 s.pc + 2).toNat = _
    rw [BitVec.toNat_add, BitVec.toNat_ofNat]
    simp; omega
  have hff : ¬ ((abs r).pull 1 = 0xff#8 ∧ (abs r).pull 2 = 0xff#8) := by
    rw [pull1, pull2]
    rintro ⟨g1, g2⟩
    have := word_split ((abs s).pc + 2)
    rw [g1, g2] at this
    have := congrArg BitVec.toNat this
    rw [hw] at this
    have : (0xff#8 ++ 0xff#8 : Word).toNat = 65535 := rfl
    omega
  have hdr : Fine r := ⟨by rw [hop]; exact hff, fun e => by rw [hop] at e; cases e⟩
  obtain ⟨_, u2, ht⟩ := c66_step_partial r hpt hqt hdr
  obtain ⟨k1, _⟩ := step_keeps r hpt hqt hdr.1 hdr.2
  have ht1 : abs (step r).2 = { abs r with pc := ((abs r).pull 2 ++ (abs r).pull 1) + 1, s := (abs r).s + 2 } := by
    rw [ht]; unfold Isa.step
    rw [show Isa.decode ((abs r).mem (abs r).pc) = .rts from hop]
  have e : steps (k + 2) s = (step r).2 := by
    rw [← hr, show k + 2 = (k + 1) + 1 from rfl, steps_add]; rfl
  have pcr : (step r).2.pc = s.pc + 3 := by
    have h1 := congrArg Isa.Mach.pc ht1
    have h2 : (abs (step r).2).pc.toNat = (step r).2.pc := by
      show (BitVec.ofNat 16 (step r).2.pc).toNat = _
      rw [BitVec.toNat_ofNat, Nat.mod_eq_of_lt k1]
    rw [← h2, h1]
    show ((abs r).pull 2 ++ (abs r).pull 1 + 1 : Word).toNat = _
    rw [pull1, pull2, word_split, BitVec.toNat_add, hw]
    simp; omega
  have spr : (step r).2.sp = s.sp := by
    have h1 : (step r).2.sp = r.sp + 2 := congrArg Isa.Mach.s ht1
    rw [h1, hsp2, (q2 _).1]
  have e0 : rd s s.pc = 0x20#8 := by
    rw [rd_lt s s.pc (by omega)]
    have : ∀ op : Byte, Isa.decode op = .jsr → op = 0x20#8 := by decide +kernel
    exact this _ hj
  have hl : instLength 0x20#8 = 3 := by decide +kernel
  intro t
  unfold NextStop
  simp only [e0, hl, (isCall_ok 0x20#8).mpr rfl, if_true]
  constructor
  · rintro ⟨n, h1, rfl, h2, h3⟩
    have hn : n = k + 2 := by
      rcases Nat.lt_trichotomy n (k + 2) with g | g | g
      · exact absurd h2 (hno n h1 (by omega))
      · exact g
      · exact absurd (by rw [e]; exact pcr) (h3 (k + 2) (by omega) g)
    subst hn
    exact ⟨rfl, h2, by rw [e]; exact spr⟩
  · rintro ⟨rfl, h2, -⟩
    exact ⟨k + 2, by omega, rfl, h2, fun j h1 h3 => hno j h1 (by omega)⟩

/-- The hypotheses can be met: JSR 0205; NOP; NOP; 0205: INX; RTS. -/
example : let s := demo 0 0 0 0 (bytes 0x200 [0x20, 0x05, 0x02, 0xea, 0xea, 0xe8, 0x60])
    here s = .jsr ∧ here (steps 2 s) = .rts ∧ (steps 2 s).sp = (step s).2.sp ∧
    (steps 1 s).pc = 0x205 ∧ (steps 2 s).pc = 0x206 ∧ (steps 3 s).pc = 0x203 := by
  decide +kernel

end Ucsim.M65
