import Verif.Proof.Lex
import Verif.Props.Expr
/-!
C55, C56: from the characters of an expression to its tokens.
-/
namespace Ucsim.Expr
open C

variable {chr : List Char → Long} {env : List Char → Option Tok}

/-- C55: a text is read as the tokens it was written as. -/
theorem c55_scan {s : List Char} {ts : List Tok} (h : Spelled env s ts) : scan chr env s = (ts, .text) :=
  scan_spelled h

/-- C55: a number has the value of its digits. -/
theorem c55_number {x : List Char} {v : Long} (h : Lexeme env x (.number v)) (hn : ∀ s, env s ≠ some (.number v)) :
    ∃ b s n, (x = '0' :: 'x' :: s ∧ b = 16 ∨ x = '$' :: s ∧ b = 16 ∨ x = '0' :: 'b' :: s ∧ b = 2 ∨ x = '0' :: s ∧ b = 8 ∨ x = s ∧ b = 10) ∧
      (Numeral b s n ∨ s = [] ∧ b = 8 ∧ n = 0) ∧ v.toInt = n ∧ scan chr env x = ([.number v], .text) := by
  have hs : scan chr env x = ([.number v], .text) := by
    have : Spelled env (x ++ []) [.number v] := .tok h (by unfold Apart; split <;> first | trivial | (next e => cases e)) .nil
    rw [List.append_nil] at this
    exact c55_scan this
  have big : ∀ n : Nat, n < 2 ^ 63 → (BitVec.ofNat 64 n).toInt = n := by
    intro n hn
    rw [BitVec.toInt_ofNat', Int.bmod_def]
    split <;> omega
  generalize ht : Tok.number v = t at h
  cases h with
  | op h =>
    exfalso
    subst ht
    revert h
    simp [opText]
  | hex h hv => cases ht; exact ⟨16, _, _, .inl ⟨rfl, rfl⟩, .inl h, big _ hv, hs⟩
  | dollar h hv => cases ht; exact ⟨16, _, _, .inr (.inl ⟨rfl, rfl⟩), .inl h, big _ hv, hs⟩
  | bin h hv => cases ht; exact ⟨2, _, _, .inr (.inr (.inl ⟨rfl, rfl⟩)), .inl h, big _ hv, hs⟩
  | oct h hv => cases ht; exact ⟨8, _, _, .inr (.inr (.inr (.inl ⟨rfl, rfl⟩))), .inl h, big _ hv, hs⟩
  | zero => cases ht; exact ⟨8, [], 0, .inr (.inr (.inr (.inl ⟨rfl, rfl⟩))), .inr ⟨rfl, rfl, rfl⟩, rfl, hs⟩
  | dec h hv _ => cases ht; exact ⟨10, _, _, .inr (.inr (.inr (.inr ⟨rfl, rfl⟩))), .inl h, big _ hv, hs⟩
  | name _ _ _ h => subst ht; exact absurd h (hn _)

/-- C52, C53 and C55 together: the characters of an expression evaluate to its value in C. -/
theorem c55_eval_partial {W : Type} {M : Mems W} (hq : Quiet M) (hf : Fits M) {e : E .value} {s : List Char} {ts : List Tok}
    (hs : Spelled env s ts) (h : Text 0 e ts) (ht : e.tame = true) (he : e.eager = true) {w w' : W} {i : Int}
    (hv : e.eval M w = some (i, w')) (T : Tree .expr) (hT : T.toks = (scan chr env s).1) :
    evalTree M T w = some (BitVec.ofInt 32 i, w') := by
  rw [c55_scan hs] at hT
  exact c53_eager_partial hq hf h ht he hv T hT

/-- Names of the examples: `x` and `y`. -/
def xy : List Char → Option Tok
  | ['x'] => some (.memory 0 4#32)
  | ['y'] => some (.cell 7)
  | _ => none

/-- `x<<=0x1F+ y` with and without blanks. -/
example : Spelled xy "x<<=0x1F+ y".toList [.memory 0 4#32, .leftAsg, .number 31#64, .plus, .cell 7] := by
  refine .tok (x := ['x']) (s := "<<=0x1F+ y".toList) (.name rfl rfl (by decide) rfl) (by simp [Apart, wordy, letter]) ?_
  refine .tok (x := "<<=".toList) (s := "0x1F+ y".toList) (.op (by simp [opText])) (by simp [Apart, wordy, letter]) ?_
  refine .tok (x := '0' :: 'x' :: ['1', 'F']) (s := "+ y".toList) (t := .number (BitVec.ofNat 64 (16 * 1 + 15)))
    (.hex (.more (s := ['1']) (.one (by decide) (.inl rfl)) (by decide) (.inr rfl)) (by decide)) (by simp [Apart, wordy, letter]) ?_
  refine .tok (x := "+".toList) (s := " y".toList) (.op (by simp [opText])) (by simp [Apart, wordy, letter]) ?_
  exact .blank (.tok (x := ['y']) (s := []) (.name rfl rfl (by decide) rfl) trivial .nil)

/-! ### C56 unknown names -/

/-- C56, the part that holds: if scanning ended at an unknown name, there is one. -/
theorem c56_known_partial (hk : ∀ x, env x ≠ none) (s : List Char) : (scan chr env s).2 ≠ .unknown := by
  have : ∀ n s, (scanN chr env n s).2 ≠ .unknown := by
    intro n
    induction n with
    | zero => intro s; cases s <;> (unfold scanN; intro h; cases h)
    | succ n ih =>
      intro s
      cases s with
      | nil => unfold scanN; intro h; cases h
      | cons c s =>
        unfold scanN
        simp only
        split
        · exact ih _
        · intro h; cases h
        · exact ih _
        · split
          · next h => exact absurd h (hk _)
          · exact ih _
  exact this _ s

/-- C56 is false, for every expression: what follows an unknown name is ignored, without
an error if the text before it is an expression. -/
theorem c56_false_ignored {s : List Char} {ts : List Tok} (h : Spelled env s ts) {c : Char} {x : List Char} (hc : letter c = true)
    (hx : x.all (fun c => letter c || c.isDigit) = true) (hi : c :: x ≠ "int".toList) (hu : env (c :: x) = none) (rest : List Char) :
    scan chr env (s ++ ' ' :: c :: (x ++ ' ' :: rest)) = (ts, .unknown) := by
  refine scan_unknown h (by rw [← letter_eq]; exact hc) ?_ hi hu rest
  rw [List.all_eq_true] at hx ⊢
  intro d hd
  have := hx d hd
  rw [letter_eq, digit_eq, Bool.or_comm] at this
  exact this

/-- C56 is false: `x.n` is read as `x` followed by the unknown name `.n`, so it is `x`. -/
theorem c56_false_dot : scan (fun _ => 0) xy "x.n+1".toList = ([.memory 0 4#32], .unknown) := by decide +kernel

/-- C56 is false: `1 + 2 foo * 3` is `1 + 2`. -/
theorem c56_false_example : scan (fun _ => 0) xy "1 + 2 foo * 3".toList = ([.number 1#64, .plus, .number 2#64], .unknown) := by decide +kernel

end Ucsim.Expr
