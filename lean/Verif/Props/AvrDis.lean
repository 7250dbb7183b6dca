import Verif.Proof.AvrDis
import Verif.Props.AvrNum
/-
C123: the disassembler of the AVR: lengths, calls, targets of jumps.
-/
namespace Ucsim.Avr

open Isa (Ins Mach)

/-! ### Lengths -/

/-- The length of the instruction at any address is that of the manual. -/
theorem c123_length (s : St) (a : Nat) (h : a < 0x10000) :
    instLength s a = if Isa.twoWords (s.rom (BitVec.ofNat 16 a)).toNat then 2 else 1 := by
  unfold instLength romRd
  rw [if_pos h]
  have hw := (s.rom (BitVec.ofNat 16 a)).isLt
  cases he : disEntry (s.rom (BitVec.ofNat 16 a)).toNat with
  | none => rw [disEntry_none _ hw he]; rfl
  | some e => exact disEntry_length _ hw e he

example : instLength (mkSt [0x940e, 5] []) 0 = 2 ∧ instLength (mkSt [0x940e, 5] []) 1 = 1 := by decide +kernel

/-! ### Unknown instructions and calls -/

/-- Of the instructions of the manual exactly those of `noEntry` are shown as unknown. -/
theorem c123_known_partial (nm : Nat → List Char) (s : St) (a : Nat) (h : a < 0x10000) (i : Ins)
    (hi : Isa.decode (s.rom (BitVec.ofNat 16 a)).toNat = some i) (hn : noEntry i = true) :
    disass nm s a = "UNKNOWN/INVALID".toList := by
  unfold disass romRd
  rw [if_pos h]
  rcases dis_entry _ (s.rom (BitVec.ofNat 16 a)).isLt i hi with h1 | ⟨e, _, h2, _⟩
  · simp only [h1.2]
  · rw [hn] at h2; cases h2

/-- `next` steps over CALL, and over no other instruction. -/
theorem c123_call_partial (s : St) (a : Nat) (h : a < 0x10000) (i : Ins) (hi : Isa.decode (s.rom (BitVec.ofNat 16 a)).toNat = some i) :
    isCall s a = true ↔ i.op = .call := by
  unfold isCall romRd
  rw [if_pos h]
  rcases dis_entry _ (s.rom (BitVec.ofNat 16 a)).isLt i hi with h1 | ⟨e, h1, _, h2, _⟩
  · simp only [h1.2, Bool.false_eq_true, false_iff]
    intro hc
    have := h1.1
    unfold noEntry at this
    rw [hc] at this
    cases this
  · simp only [h1, h2, beq_iff_eq]

/-! ### Targets -/

/-- The text of a jump with the target `t`: the name in six columns, a blank, the number. -/
def jumpText (name : String) (t : Nat) : List Char :=
  name.toList ++ List.replicate (6 - name.length) ' ' ++ " 0x".toList ++ hex6 t

/-- The names of the manual: of the branches by the flag, C Z N V S H T I. -/
def asmName (i : Ins) : Option String := match i.op with
  | .rjmp => some "rjmp"
  | .rcall => some "rcall"
  | .jmp => some "jmp"
  | .call => some "call"
  | .brbs => (["brcs", "breq", "brmi", "brvs", "brlt", "brhs", "brts", "brie"] : List String)[i.x]?
  | .brbc => (["brcc", "brne", "brpl", "brvc", "brge", "brhc", "brtc", "brid"] : List String)[i.x]?
  | _ => none

/-- The letter of the operand of a jump. -/
def kind (i : Ins) : Char := match i.op with
  | .rjmp | .rcall => 'a'
  | .jmp | .call => 'A'
  | _ => 'k'

/-- The mnemonic and the name of the manual. -/
theorem names_ok (i : Ins) (n : String) (h : asmName i = some n) : ∃ x, jumpName i = some x ∧
    ∀ (nm : Nat → List Char) (s : St) (a c t : Nat), disOp nm s a c 0 (kind i) = ("0x".toList ++ hex6 t, 0) →
      disLoop nm s a c x.toList 0 true [] = jumpText n t := by
  have key : ∀ (x n : String) (y : Char), (x.toList == n.toList ++ [' ', '%', y]) = true → n.toList.all (fun c => c != '%' && c != ' ') = true →
      ∀ (nm : Nat → List Char) (s : St) (a c t : Nat), disOp nm s a c 0 y = ("0x".toList ++ hex6 t, 0) →
      disLoop nm s a c x.toList 0 true [] = jumpText n t := by
    intro x n y hx hall nm s a c t hy2
    rw [beq_iff_eq] at hx
    rw [hx]
    have gen : ∀ (l w : List Char), l.all (fun c => c != '%' && c != ' ') = true →
        disLoop nm s a c (l ++ [' ', '%', y]) 0 true w = (w ++ l) ++ List.replicate (6 - (w ++ l).length) ' ' ++ [' '] ++ ("0x".toList ++ hex6 t) := by
      intro l
      induction l with
      | nil =>
        intro w _
        rw [List.nil_append, List.append_nil]
        rw [disLoop.eq_3 _ _ _ _ _ _ _ _ _ (by intro x l h; cases h), if_pos ⟨rfl, rfl⟩, disLoop.eq_2, hy2]
        rfl
      | cons z l ih =>
        intro w hw
        simp only [List.all_cons, Bool.and_eq_true, bne_iff_ne, ne_eq] at hw
        rw [List.cons_append, disLoop.eq_3 _ _ _ _ _ _ _ _ _ (by intro x l h; exact fun h2 => hw.1.1 h), if_neg (fun h => hw.1.2 h.1)]
        rw [ih _ hw.2]
        simp
    rw [gen n.toList [] hall]
    unfold jumpText
    simp only [List.nil_append, List.append_assoc]
    rfl
  obtain ⟨op, x, y⟩ := i
  cases op <;> simp only [asmName, Option.some.injEq, reduceCtorEq] at h
  · subst h; exact ⟨"rjmp %a", rfl, key _ _ 'a' (by decide +kernel) (by decide +kernel)⟩
  · subst h; exact ⟨"rcall %a", rfl, key _ _ 'a' (by decide +kernel) (by decide +kernel)⟩
  · subst h; exact ⟨"jmp %A", rfl, key _ _ 'A' (by decide +kernel) (by decide +kernel)⟩
  · subst h; exact ⟨"call %A", rfl, key _ _ 'A' (by decide +kernel) (by decide +kernel)⟩
  all_goals
    rcases x with _ | _ | _ | _ | _ | _ | _ | _ | x
    all_goals first
      | (cases h; exact ⟨_, rfl, key _ _ 'k' (by decide +kernel) (by decide +kernel)⟩)
      | (simp at h)

theorem branch_pc (s : St) (hp : s.pc < 0xffff) (h1 : 0 ≤ (s.pc : Int) + 1 + relInt 7 ((word s &&& 0x3f8) >>> 3))
    (h2 : (s.pc : Int) + 1 + relInt 7 ((word s &&& 0x3f8) >>> 3) ≤ 0x10000) :
    (k7 (word s) + (1 + s.pc)) % 0x100000000 = validate ((s.pc + 1 + k7 (word s)) % 0x100000000) := by
  have hk := k7_eq (word s)
  have hl := k7_lt (word s)
  generalize (word s &&& 0x3f8) >>> 3 = k at *
  unfold relInt at h1 h2
  rw [show k7 (word s) + (1 + s.pc) = s.pc + 1 + k7 (word s) by omega]
  unfold validate
  rw [if_neg]
  simp only [Nat.reducePow, Nat.reduceSub] at *
  by_cases hc : 64 ≤ k
  · rw [if_pos hc] at hk
    rw [if_neg (by omega)] at h1 h2
    omega
  · rw [if_neg hc] at hk
    rw [if_pos (by omega)] at h1 h2
    omega

/-- A jump, call or taken branch is shown with the address the simulator goes to.  Not at the last
word of the program memory; JMP and CALL within the 64K words of the simulator; a branch not over
the ends of the memory. -/
theorem c123_target_partial (nm : Nat → List Char) (s : St) (hp : s.pc < 0xffff) (i : Ins) (hi : Isa.decode (word s) = some i)
    (n : String) (hn : asmName i = some n) (hx : i.op = .jmp ∨ i.op = .call → i.x = 0)
    (hb : i.op = .brbs ∨ i.op = .brbc → Isa.flag (abs s) i.x = (i.op == .brbs) ∧
      0 ≤ (s.pc : Int) + 1 + relInt 7 i.y ∧ (s.pc : Int) + 1 + relInt 7 i.y ≤ 0x10000) :
    disass nm s s.pc = jumpText n (step s).2.pc := by
  obtain ⟨f, ho, hs⟩ := step_fn s (by omega) _ hi
  obtain ⟨x, hx1, hx2⟩ := names_ok i n hn
  have hw : romRd s s.pc = s.rom (BitVec.ofNat 16 s.pc) := by unfold romRd; rw [if_pos (by omega)]
  have hd : disass nm s s.pc = disLoop nm s s.pc (word s) x.toList 0 true [] := by
    unfold disass
    simp only
    rw [hw]
    rcases dis_entry _ (s.rom (BitVec.ofNat 16 s.pc)).isLt i hi with h1 | ⟨e, h1, _, _, h2⟩
    · exfalso
      have := h1.1
      unfold noEntry at this
      unfold asmName at hn
      cases hop : i.op <;> rw [hop] at this hn <;> first | (cases hn; done) | (cases this; done)
    · rw [h1, ← h2 x hx1]
      rfl
  rw [hd]
  apply hx2
  have hpc : (tick 1 (fetch s).2).pc = s.pc + 1 := Nat.mod_eq_of_lt (by omega)
  rw [hs]
  cases f <;> simp only [ofFn] at ho <;> (repeat' split at ho) <;> cases ho <;> try (cases hn; done)
  · have e : (exec .rjmp (word s) (tick 1 (fetch s).2)) = some (tick 1 (jump (rel (tick 1 (fetch s).2) (k12 (word s))) (tick 1 (fetch s).2))) := rfl
    rw [e]
    have h : validate ((k12 (word s) + 1 + s.pc) % 0x100000000) = validate (rel (tick 1 (fetch s).2) (k12 (word s))) := by
      unfold rel; rw [hpc, show k12 (word s) + 1 + s.pc = s.pc + 1 + k12 (word s) by omega]
    exact congrArg (fun n => ("0x".toList ++ hex6 n, 0)) h
  · have e : (exec .rcall (word s) (tick 1 (fetch s).2)) = some (tick 2 (jump (rel (pushAddr (tick 1 (fetch s).2).pc (tick 1 (fetch s).2)) (k12 (word s)))
        (pushAddr (tick 1 (fetch s).2).pc (tick 1 (fetch s).2)))) := rfl
    rw [e]
    have h : validate ((k12 (word s) + 1 + s.pc) % 0x100000000) = validate (rel (pushAddr (tick 1 (fetch s).2).pc (tick 1 (fetch s).2)) (k12 (word s))) := by
      unfold rel; rw [pushAddr_pc, hpc, show k12 (word s) + 1 + s.pc = s.pc + 1 + k12 (word s) by omega]
    exact congrArg (fun n => ("0x".toList ++ hex6 n, 0)) h
  · have hk : kh (word s) = 0 := hx (Or.inl rfl)
    have e : (exec .jmp (word s) (tick 1 (fetch s).2)) = some (tick 2 (jump ((kh (word s) <<< 16) ||| (romRd s (tick 1 (fetch s).2).pc).toNat)
        (fetch (tick 1 (fetch s).2)).2)) := rfl
    rw [e, hpc]
    have h : kh (word s) * 0x10000 + (romRd s (s.pc + 1)).toNat = validate ((kh (word s) <<< 16) ||| (romRd s (s.pc + 1)).toNat) := by
      have := (romRd s (s.pc + 1)).isLt
      rw [hk, Nat.zero_shiftLeft, Nat.zero_or, Nat.zero_mul, Nat.zero_add]
      unfold validate
      rw [if_neg (by omega)]
    exact congrArg (fun n => ("0x".toList ++ hex6 n, 0)) h
  · have hk : kh (word s) = 0 := hx (Or.inr rfl)
    have e : (exec .call (word s) (tick 1 (fetch s).2)) = some (tick 3 (jump (kh (word s) * 0x10000 + (romRd s (tick 1 (fetch s).2).pc).toNat)
        (pushAddr (fetch (tick 1 (fetch s).2)).2.pc (fetch (tick 1 (fetch s).2)).2))) := rfl
    rw [e, hpc]
    have h : kh (word s) * 0x10000 + (romRd s (s.pc + 1)).toNat = validate (kh (word s) * 0x10000 + (romRd s (s.pc + 1)).toNat) := by
      have := (romRd s (s.pc + 1)).isLt
      rw [hk, Nat.zero_mul, Nat.zero_add]
      unfold validate
      rw [if_neg (by omega)]
    exact congrArg (fun n => ("0x".toList ++ hex6 n, 0)) h
  · have hb := hb (Or.inl rfl)
    have e : (exec .brbs (word s) (tick 1 (fetch s).2)) = some (if sreg (tick 1 (fetch s).2) &&& bit (cb (word s)) != 0#8 then
        tick 1 (jump (rel (tick 1 (fetch s).2) (k7 (word s))) (tick 1 (fetch s).2)) else tick 1 (fetch s).2) := rfl
    have hc : (sreg (tick 1 (fetch s).2) &&& bit (cb (word s)) != 0#8) = true := by
      rw [bit_ne _ _ (cb_lt _), ← flag_abs]
      exact hb.1
    rw [e, if_pos hc]
    have h := branch_pc s hp hb.2.1 hb.2.2
    rw [← hpc] at h
    exact congrArg (fun n => ("0x".toList ++ hex6 n, 0)) h
  · have hb := hb (Or.inr rfl)
    have e : (exec .brbc (word s) (tick 1 (fetch s).2)) = some (if sreg (tick 1 (fetch s).2) &&& bit (cb (word s)) == 0#8 then
        tick 1 (jump (rel (tick 1 (fetch s).2) (k7 (word s))) (tick 1 (fetch s).2)) else tick 1 (fetch s).2) := rfl
    have hc : (sreg (tick 1 (fetch s).2) &&& bit (cb (word s)) == 0#8) = true := by
      rw [bit_eq _ _ (cb_lt _), ← flag_abs, show Isa.flag (abs (tick 1 (fetch s).2)) (cb (word s)) = false from hb.1]
      rfl
    rw [e, if_pos hc]
    have h := branch_pc s hp hb.2.1 hb.2.2
    rw [← hpc] at h
    exact congrArg (fun n => ("0x".toList ++ hex6 n, 0)) h

/-- RJMP -3 at 8. -/
example : let s := { mkSt [0, 0, 0, 0, 0, 0, 0, 0, 0xcffd] [] with pc := 8 }
    Isa.decode (word s) = some ⟨.rjmp, 0xffd, 0⟩ ∧ (step s).2.pc = 6 ∧ disass (fun _ => []) s 8 = "rjmp   0x000006".toList := by decide +kernel

/-- BREQ taken. -/
example : let s := mkSt [0xf009] [(0x5f, 2)]
    Isa.decode (word s) = some ⟨.brbs, 1, 1⟩ ∧ Isa.flag (abs s) 1 = true ∧ disass (fun _ => []) s 0 = "breq   0x000002".toList := by decide +kernel

/-- COM R5 and COM R7 are shown by the same text, COM R0; ADD R5,R7 as ADD R0,R5; RCALL and ICALL
are not taken for calls; MOVW and LPM Rd,Z are unknown. -/
theorem c123_false : let s := mkSt [0x9450, 0x9470, 0x0c57, 0xd000, 0x9509, 0x0112, 0x9004] []
    (Isa.decode (romRd s 0).toNat = some ⟨.com, 5, 0⟩ ∧ Isa.decode (romRd s 1).toNat = some ⟨.com, 7, 0⟩ ∧
      disass (fun _ => []) s 0 = "com    r0".toList ∧ disass (fun _ => []) s 1 = "com    r0".toList) ∧
    (Isa.decode (romRd s 2).toNat = some ⟨.add, 5, 7⟩ ∧ disass (fun _ => []) s 2 = "add    r0,r5".toList) ∧
    (Isa.decode (romRd s 3).toNat = some ⟨.rcall, 0, 0⟩ ∧ Isa.decode (romRd s 4).toNat = some ⟨.icall, 0, 0⟩ ∧ isCall s 3 = false ∧ isCall s 4 = false) ∧
    Isa.decode (romRd s 5).toNat = some ⟨.movw, 2, 4⟩ ∧ Isa.decode (romRd s 6).toNat = some ⟨.lpm, 0, 0⟩ ∧
      disass (fun _ => []) s 5 = "UNKNOWN/INVALID".toList ∧ disass (fun _ => []) s 6 = "UNKNOWN/INVALID".toList := by
  decide +kernel

end Ucsim.Avr
