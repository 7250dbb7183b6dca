import Verif.I48.Dis
import Verif.Spec.I48Asm
import Verif.Props.I48Stack
/-
C116: the disassembler of the MCS-48: text, length and calls.
-/
namespace Ucsim.I48

open Isa (next inPage)

/-! ### Text -/

/-- Shown under another name: ADDC A,@Rr and ADDC A,Rn as ADC, ANLD as ANL. -/
def oddText : Isa.Ins → Bool
  | .alu .adc (.ir _) | .alu .adc (.r _) | .anld _ => true
  | _ => false

def toPiece (c : Char) : Piece :=
  if c = '#' then .imm else if c = '$' then .page else if c = '&' then .long else .ch c

def asmPieces (i : Isa.Ins) : List Piece :=
  let (n, o) := i.text
  if o.isEmpty then n.map .ch else n.map .ch ++ List.replicate (6 - n.length) (.ch ' ') ++ [.ch ' '] ++ o.map toPiece

theorem pieces_b : ∀ c : Byte, (match Isa.decode c with
    | some i => oddText i || (disPieces c == asmPieces i)
    | none => true) = true := by decide +kernel

theorem pieces_ok {c : Byte} {i : Isa.Ins} (h : Isa.decode c = some i) (ho : oddText i = false) : disPieces c = asmPieces i := by
  have := pieces_b c
  rw [h] at this
  simp only [ho, Bool.false_or, beq_iff_eq] at this
  exact this

theorem print_append (a : Addr) (c b : Byte) (l k : List Piece) : disPrint a c b (l ++ k) = disPrint a c b l ++ disPrint a c b k := by
  induction l with
  | nil => rfl
  | cons p l ih => cases p <;> simp [disPrint, ih]

theorem print_chs (a : Addr) (c b : Byte) (t : List Char) : disPrint a c b (t.map .ch) = t := by
  induction t with
  | nil => rfl
  | cons x t ih => simp [disPrint, ih]

theorem print_blanks (a : Addr) (c b : Byte) (n : Nat) : disPrint a c b (List.replicate n (.ch ' ')) = List.replicate n ' ' := by
  induction n with
  | zero => rfl
  | succ n ih => simp [List.replicate_succ, disPrint, ih]

theorem digit_eq : ∀ n, n < 16 → Nat.digitChar n = "0123456789abcdef".toList.getD n '?' := by decide

theorem hex_eq (k n : Nat) : hexDigits k n = Isa.hex k n := by
  unfold hexDigits Isa.hex
  apply List.map_congr_left
  intro i _
  exact digit_eq _ (Nat.mod_lt _ (by decide))

theorem fill_other (x y z : Nat) (c : Char) (l : List Char) (h1 : c ≠ '#') (h2 : c ≠ '$') (h3 : c ≠ '&') :
    Isa.fill x y z (c :: l) = c :: Isa.fill x y z l := by
  rw [Isa.fill] <;> assumption

theorem print_fill (a : Addr) (c b : Byte) (o : List Char) :
    disPrint a c b (o.map toPiece) = Isa.fill b.toNat ((a &&& 0xf00#12) ||| b.setWidth 12).toNat (((c &&& 0xe0#8).toNat <<< 3) + b.toNat) o := by
  induction o with
  | nil => rfl
  | cons x l ih =>
    rw [List.map_cons, toPiece.eq_1 x]
    by_cases h1 : x = '#'
    · subst h1
      simp only [if_true, disPrint, Isa.fill, ih, hex_eq, List.append_assoc]
    · by_cases h2 : x = '$'
      · subst h2
        simp only [if_neg h1, if_true, disPrint, Isa.fill, ih, hex_eq, List.append_assoc]
      · by_cases h3 : x = '&'
        · subst h3
          simp only [if_neg h1, if_neg h2, if_true, disPrint, Isa.fill, ih, hex_eq, List.append_assoc]
        · simp only [if_neg h1, if_neg h2, if_neg h3, disPrint, ih, fill_other _ _ _ _ _ h1 h2 h3]

/-- Which of the three numbers are shown. -/
def shows (i : Isa.Ins) (c : Char) : Bool := i.text.2.contains c

theorem fill_same (x y z x' y' z' : Nat) (o : List Char) (h1 : o.contains '#' = true → x = x') (h2 : o.contains '$' = true → y = y')
    (h3 : o.contains '&' = true → z = z') : Isa.fill x y z o = Isa.fill x' y' z' o := by
  induction o with
  | nil => rfl
  | cons c l ih =>
    have k := ih (fun h => h1 (by simp_all)) (fun h => h2 (by simp_all)) (fun h => h3 (by simp_all))
    by_cases e1 : c = '#'
    · subst e1; simp only [Isa.fill, k]; rw [h1 (by simp)]
    · by_cases e2 : c = '$'
      · subst e2; simp only [Isa.fill, k]; rw [h2 (by simp)]
      · by_cases e3 : c = '&'
        · subst e3; simp only [Isa.fill, k]; rw [h3 (by simp)]
        · rw [fill_other _ _ _ _ _ e1 e2 e3, fill_other _ _ _ _ _ e1 e2 e3, k]

theorem shown_b : ∀ c : Byte, (match Isa.decode c with
    | some i => (!(shows i '#' || shows i '$' || shows i '&') || i.length == 2) && (!shows i '&' || (c &&& 0xe0#8).toNat <<< 3 == i.page11 * 256)
    | none => true) = true := by decide +kernel

theorem in_page : ∀ (a : Addr) (b : Byte), a.extractLsb' 0 8 ≠ 0xff#8 → (a &&& 0xf00#12) ||| b.setWidth 12 = inPage (next a) b := by
  intro a b h
  have e : (a &&& 0xf00#12) = a.extractLsb' 8 4 ++ 0#8 := by
    have : ∀ a : Addr, (a &&& 0xf00#12) = a.extractLsb' 8 4 ++ 0#8 := by decide +kernel
    exact this a
  have e2 : (next a).extractLsb' 8 4 = a.extractLsb' 8 4 := by
    have : ∀ a : Addr, a.extractLsb' 0 8 ≠ 0xff#8 → (next a).extractLsb' 8 4 = a.extractLsb' 8 4 := by decide +kernel
    exact this a h
  unfold inPage
  rw [e2, e]
  have : ∀ (p : BitVec 4) (b : Byte), (p ++ 0#8) ||| b.setWidth 12 = p ++ b := by decide +kernel
  exact this _ b

/-- **C116**, text: every instruction is shown as in assembly language, ADDC A,@Rr, ADDC A,Rn and
ANLD excepted; one of two bytes must not go round the end of a memory bank, a conditional jump not
begin in the last byte of a page. -/
theorem c116_text_partial (s : St) (i : Isa.Ins) (h : here s = some i) (ho : oddText i = false)
    (h2 : i.length = 2 → s.pc.extractLsb' 0 11 ≠ 0x7ff#11) (hp : shows i '$' = true → s.pc.extractLsb' 0 8 ≠ 0xff#8) :
    disass s s.pc = (abs s).asm i := by
  have hb := shown_b (romRd s s.pc)
  rw [show Isa.decode (romRd s s.pc) = some i from h] at hb
  simp only [Bool.and_eq_true, Bool.or_eq_true, Bool.not_eq_true', beq_iff_eq, Bool.or_eq_false_iff] at hb
  have hn : i.length = 2 → s.pc + 1 = next s.pc := by
    intro hl
    have : ∀ a : Addr, a.extractLsb' 0 11 ≠ 0x7ff#11 → a + 1 = next a := by decide +kernel
    exact this _ (h2 hl)
  unfold disass Isa.Mach.asm Isa.asm
  rw [pieces_ok h ho]
  unfold asmPieces
  simp only
  split
  · exact print_chs ..
  · rw [print_append, print_append, print_append, print_chs, print_blanks, print_fill]
    have hlen : ∀ c, shows i c = true → (c = '#' ∨ c = '$' ∨ c = '&') → i.length = 2 := by
      intro c hc hcc
      rcases hb.1 with h | h
      · rcases hcc with rfl | rfl | rfl
        · rw [h.1.1] at hc; cases hc
        · rw [h.1.2] at hc; cases hc
        · rw [h.2] at hc; cases hc
      · exact h
    congr 1
    apply fill_same
    · intro h; rw [hn (hlen '#' h (.inl rfl))]; rfl
    · intro h
      rw [hn (hlen '$' h (.inr (.inl rfl))), in_page _ _ (hp h)]; rfl
    · intro h
      rw [hn (hlen '&' h (.inr (.inr rfl)))]
      rcases hb.2 with g | g
      · rw [show shows i '&' = true from h] at g; cases g
      · rw [g]; rfl

/-- MOV A,#0x28 and JMP 0x345; JNZ in page 1 -/
example : disass (demo (bytes 0 [0x23, 0x28])) 0 = "mov    a,#0x28".toList ∧ disass (demo (bytes 0 [0x64, 0x45])) 0 = "jmp    P.0x0345".toList ∧
    disass (demo (bytes 0x110 [0x96, 0x80])) 0x110 = "jnz    0x0180".toList := by decide +kernel
example : let s := { demo (bytes 0x110 [0x96, 0x80]) with pc := 0x110#12 }
    here s = some (.jcc .nz) ∧ oddText (.jcc .nz) = false ∧ s.pc.extractLsb' 0 11 ≠ 0x7ff#11 ∧ shows (.jcc .nz) '$' = true ∧ s.pc.extractLsb' 0 8 ≠ 0xff#8 := by decide +kernel

/-- The others are shown under another name: exactly those. -/
theorem c116_false_names : ∀ c : Byte, (match Isa.decode c with
    | some i => oddText i == (disPieces c != asmPieces i)
    | none => true) = true := by decide +kernel

theorem c116_false_addc : disass (demo (bytes 0 [0x68])) 0 = "add    a,r0".toList ∧ disass (demo (bytes 0 [0x78])) 0 = "adc    a,r0".toList ∧
    disass (demo (bytes 0 [0x9c])) 0 = "anl    p4,a".toList := by decide +kernel

/-- JNZ at 0x0ff: its second byte is in page 1, so it jumps to 0x180; shown is 0x080. -/
theorem c116_false_page : let s := { demo (bytes 0xff [0x96, 0x80]) with pc := 0xff#12, a := 1#8 }
    disass s s.pc = "jnz    0x0080".toList ∧ (abs s).asm (.jcc .nz) = "jnz    0x0180".toList ∧ (step s).2.pc = 0x180#12 := by decide +kernel

/-! ### Length and calls -/

/-- Shown with a wrong length: ENT0 CLK and ANL BUS,#. -/
def oddLen : Isa.Ins → Bool
  | .ent0 | .anlP .bus => true
  | _ => false

theorem len_b : ∀ c : Byte, (match Isa.decode c with
    | some i => (instLength c == i.length) == !oddLen i
    | none => true) = true ∧ isCall c = false := by decide +kernel

/-- **C116**, length: right for all but two. -/
theorem c116_length_partial (s : St) (i : Isa.Ins) (h : here s = some i) : instLength (romRd s s.pc) = i.length ↔ oddLen i = false := by
  have := len_b (romRd s s.pc)
  rw [show Isa.decode (romRd s s.pc) = some i from h] at this
  simp only [beq_iff_eq] at this
  constructor
  · intro e
    have h1 := this.1
    rw [e] at h1
    cases hh : oddLen i
    · rfl
    · rw [hh] at h1; simp at h1
  · intro e
    have h1 := this.1
    rw [e] at h1
    simpa using h1

/-- Instructions after which another than the next one may follow. -/
def branches : Isa.Ins → Bool
  | .jmp _ | .call _ | .ret | .retr | .jcc _ | .djnz _ | .jmpp => true
  | _ => false

theorem exec_pc (m : Isa.Mach) (q : Addr) (i : Isa.Ins) (h : branches i = false) : (m.exec q i).pc = m.pc := by
  cases i <;> first
    | (simp [branches] at h; done)
    | rfl
    | (rename_i k; cases k <;> rfl)
    | (rename_i o k; cases o <;> rfl)

/-- **C116**, the next instruction in a listing is the next one executed (inside a memory bank). -/
theorem c116_next_partial (s : St) (i : Isa.Ins) (hw : Wf s) (hp : Pins s) (h : here s = some i) (hd : ¬ Differs (abs s) i)
    (hb : branches i = false) (ho : oddLen i = false) (hin : (s.pc.extractLsb' 0 11).toNat + i.length < 0x800) :
    (execInst s).2.pc.toNat = s.pc.toNat + instLength (romRd s s.pc) := by
  obtain ⟨_, m, h2, h3⟩ := c108_inst_partial s i hw hp h hd
  rw [(c116_length_partial s i h).mpr ho]
  have e : (execInst s).2.pc = m.pc := congrArg Isa.Mach.pc h3
  have hs : (abs s).step = some (({ abs s with pc := if i.length = 2 then next (next s.pc) else next s.pc } : Isa.Mach).exec (next s.pc) i) := by
    unfold Isa.Mach.step
    rw [show Isa.decode ((abs s).prog (abs s).pc) = some i from h]
    rfl
  rw [hs] at h2
  have h2 := Option.some.inj h2
  rw [e, ← h2, exec_pc _ _ _ hb]
  show (if i.length = 2 then next (next s.pc) else next s.pc).toNat = _
  have k1 : ∀ a : Addr, (a.extractLsb' 0 11).toNat + 1 < 0x800 → (next a).toNat = a.toNat + 1 ∧ ((next a).extractLsb' 0 11).toNat = (a.extractLsb' 0 11).toNat + 1 := by decide +kernel
  by_cases hl : i.length = 2
  · rw [if_pos hl]
    rw [hl] at hin ⊢
    obtain ⟨g1, g2⟩ := k1 s.pc (by omega)
    rw [(k1 (next s.pc) (by omega)).1, g1]
  · rw [if_neg hl]
    have hl1 : i.length = 1 := by
      unfold Isa.Ins.length at hl ⊢
      split <;> first | rfl | (simp at hl; done) | (split at hl <;> simp_all)
    rw [hl1] at hin ⊢
    exact (k1 s.pc hin).1

example : let s := { prog1 with pc := 5#12 }
    here s = some (.movRI 0) ∧ ¬ Differs (abs s) (.movRI 0) ∧ branches (.movRI 0) = false ∧ oddLen (.movRI 0) = false ∧ (execInst s).2.pc = 7#12 := by decide +kernel

/-- ENT0 CLK has one byte, ANL BUS,# two: the listing takes the other. -/
theorem c116_false_length : (execInst (demo (bytes 0 [0x75]))).2.pc = 1#12 ∧ instLength 0x75#8 = 2 ∧
    (execInst (demo (bytes 0 [0x98, 0x55]))).2.pc = 2#12 ∧ instLength 0x98#8 = 1 := by decide +kernel

/-- No instruction is taken for a call. -/
theorem c116_false_call (c : Byte) : isCall c = false := (len_b c).2

/-- Where `next` leaves the MCS-48: as `S51.NextStop`, with this simulator's table. -/
def NextStop (s t : St) : Prop :=
  let c := romRd s s.pc
  if isCall c then
    ∃ k, 1 ≤ k ∧ t = steps k s ∧ t.pc.toNat = s.pc.toNat + instLength c ∧
      ∀ j, 1 ≤ j → j < k → (steps j s).pc.toNat ≠ s.pc.toNat + instLength c
  else t = (step s).2

/-- `next` on CALL stops where `step` does, in the subroutine. -/
theorem c64_false_i48 (s t : St) (p : BitVec 3) (_hc : here s = some (.call p)) (hn : NextStop s t) : t = (step s).2 := by
  unfold NextStop at hn
  simp only [c116_false_call, Bool.false_eq_true, if_false] at hn
  exact hn

/-- CALL 0x110 -/
example : let s := demo (bytes 0 [0x34, 0x10])
    here s = some (.call 1#3) ∧ (step s).2.pc = 0x110#12 := by decide +kernel

end Ucsim.I48
