import Verif.Core.Lex
import Verif.Spec.Lex
/- The scanner finds the tokens that were written. -/
namespace Ucsim.Expr
open C

theorem best_mid (l1 l2 : List (Nat × (List Char → Act))) {n : Nat} {f : List Char → Act} (h1 : ∀ r ∈ l1, r.1 < n) (h2 : ∀ r ∈ l2, r.1 ≤ n)
    (hn : 0 < n) : best (l1 ++ (n, f) :: l2) = (n, f) := by
  have a : ∀ (l : List (Nat × (List Char → Act))) b, (∀ r ∈ l, r.1 < n) → b.1 < n →
      (l.foldl (fun b r => if b.1 < r.1 then r else b) b).1 < n := by
    intro l
    induction l with
    | nil => intro b _ hb; exact hb
    | cons r l ih =>
      intro b hl hb
      refine ih _ (fun r hr => hl r (List.mem_cons_of_mem _ hr)) ?_
      simp only
      split
      · exact hl r List.mem_cons_self
      · exact hb
  have b : ∀ (l : List (Nat × (List Char → Act))), (∀ r ∈ l, r.1 ≤ n) →
      l.foldl (fun b r => if b.1 < r.1 then r else b) (n, f) = (n, f) := by
    intro l
    induction l with
    | nil => intro _; rfl
    | cons r l ih =>
      intro hl
      have := hl r List.mem_cons_self
      rw [List.foldl_cons, if_neg (by simp only; omega)]
      exact ih (fun r hr => hl r (List.mem_cons_of_mem _ hr))
  unfold best
  rw [List.foldl_append, List.foldl_cons, if_pos (a l1 _ h1 hn)]
  exact b l2 h2

theorem fixed_le {n : Nat} {s : List Char} (h : ∀ p ∈ fixed, p.1.isPrefixOf s = true → p.1.length ≤ n) : (fixedMatch s).1 ≤ n := by
  have a : ∀ (l : List (List Char × Tok)) (b : Nat × Tok), (∀ p ∈ l, p.1.isPrefixOf s = true → p.1.length ≤ n) → b.1 ≤ n →
      (l.foldl (fun b (p : List Char × Tok) => if p.1.isPrefixOf s && b.1 < p.1.length then (p.1.length, p.2) else b) b).1 ≤ n := by
    intro l
    induction l with
    | nil => intro b _ hb; exact hb
    | cons r l ih =>
      intro b hl hb
      refine ih _ (fun r hr => hl r (List.mem_cons_of_mem _ hr)) ?_
      simp only
      split
      · next hc => simp only [Bool.and_eq_true] at hc; exact hl r List.mem_cons_self hc.1
      · exact hb
  exact a _ _ h (Nat.zero_le _)

theorem run_append {p : Char → Bool} {s r : List Char} (hs : s.all p = true) (hr : ∀ c, r.head? = some c → p c = false) : run p (s ++ r) = s.length := by
  induction s with
  | nil =>
    cases r with
    | nil => rfl
    | cons c r => simp [run, hr c rfl]
  | cons c s ih =>
    simp only [List.all_cons, Bool.and_eq_true] at hs
    have := ih hs.2
    unfold run at this ⊢
    rw [List.cons_append, List.takeWhile_cons, if_pos hs.1, List.length_cons, this, List.length_cons]

theorem drop_append {p : Char → Bool} {s r : List Char} (hs : s.all p = true) (hr : ∀ c, r.head? = some c → p c = false) : (s ++ r).dropWhile p = r := by
  induction s with
  | nil =>
    cases r with
    | nil => rfl
    | cons c r => simp [hr c rfl]
  | cons c s ih =>
    simp only [List.all_cons, Bool.and_eq_true] at hs
    rw [List.cons_append, List.dropWhile_cons, if_pos hs.1]
    exact ih hs.2

theorem letter_eq (c : Char) : letter c = isAlpha c := by
  unfold letter isAlpha Char.isAlpha
  rw [Bool.or_comm c.isUpper]
  unfold Char.isUpper Char.isLower
  simp only [Char.le_def, ge_iff_le, Bool.decide_and]

theorem digit_eq (c : Char) : c.isDigit = isDigit c := by
  unfold isDigit Char.isDigit
  simp only [Char.le_def]

theorem wordy_eq (c : Char) : wordy c = (isWord c || c == '$') := by
  unfold wordy isWord
  rw [letter_eq, digit_eq, Bool.or_comm (isAlpha c)]

/-! ### Values -/

theorem shl_or (v d k : Nat) (h : d < 2 ^ k) : (BitVec.ofNat 64 v <<< k ||| BitVec.ofNat 64 d : Long) = BitVec.ofNat 64 (2 ^ k * v + d) := by
  have e : BitVec.ofNat 64 v <<< k = BitVec.ofNat 64 (v <<< k) := by
    apply BitVec.eq_of_toNat_eq
    rw [BitVec.toNat_shiftLeft, BitVec.toNat_ofNat, BitVec.toNat_ofNat, Nat.shiftLeft_eq, Nat.shiftLeft_eq, Nat.mod_mul_mod]
  rw [e, ← BitVec.ofNat_or, ← Nat.shiftLeft_add_eq_or_of_lt h, Nat.shiftLeft_eq, Nat.mul_comm]

/-- What is known about a digit. -/
theorem digit_facts {c : Char} {d : Nat} (hd : d < 16) (h : IsDigit c d) :
    isHex c = true ∧ hexDigit c = BitVec.ofNat 64 d ∧ isWord c = true ∧
    (d < 10 → isDigit c = true ∧ BitVec.ofNat 64 ((c.toNat - 48) &&& 0xf) = BitVec.ofNat 64 d) ∧
    (d < 8 → isOct c = true ∧ BitVec.ofNat 64 ((c.toNat - 48) &&& 7) = BitVec.ofNat 64 d) ∧
    (d < 2 → isBin c = true ∧ (if c = '0' then 0#64 else 1#64) = BitVec.ofNat 64 d) := by
  have hc : c = digits[d]! ∨ c = Digits[d]! := by
    rcases h with h | h
    · left; rw [List.getElem!_eq_getElem?_getD, h]; rfl
    · right; rw [List.getElem!_eq_getElem?_getD, h]; rfl
  have all : ∀ d < 16, ∀ c ∈ [digits[d]!, Digits[d]!], isHex c = true ∧ hexDigit c = BitVec.ofNat 64 d ∧ isWord c = true ∧
    (d < 10 → isDigit c = true ∧ BitVec.ofNat 64 ((c.toNat - 48) &&& 0xf) = BitVec.ofNat 64 d) ∧
    (d < 8 → isOct c = true ∧ BitVec.ofNat 64 ((c.toNat - 48) &&& 7) = BitVec.ofNat 64 d) ∧
    (d < 2 → isBin c = true ∧ (if c = '0' then 0#64 else 1#64) = BitVec.ofNat 64 d) := by decide +kernel
  refine all d hd c ?_
  rcases hc with rfl | rfl
  · exact List.mem_cons_self
  · exact List.mem_cons_of_mem _ List.mem_cons_self

theorem numeral_ne {b : Nat} {s : List Char} {v : Nat} (h : Numeral b s v) : s ≠ [] := by
  cases h <;> simp

theorem numeral_all {b : Nat} {s : List Char} {v : Nat} (h : Numeral b s v) (p : Char → Bool) (hp : ∀ c d, d < b → IsDigit c d → p c = true) : s.all p = true := by
  induction h with
  | one h1 h2 => simp [hp _ _ h1 h2]
  | more _ h1 h2 ih => simp [List.all_append, ih, hp _ _ h1 h2]

/-- Folding digits, for a base that is a power of two. -/
theorem numeral_shl {k : Nat} {s : List Char} {v : Nat} (h : Numeral (2 ^ k) s v) (f : Char → Long)
    (hf : ∀ c d, d < 2 ^ k → IsDigit c d → f c = BitVec.ofNat 64 d) : s.foldl (fun (v : Long) c => (v <<< k) ||| f c) 0#64 = BitVec.ofNat 64 v := by
  induction h with
  | one h1 h2 =>
    simp only [List.foldl_cons, List.foldl_nil]
    rw [hf _ _ h1 h2]
    simp
  | more _ h1 h2 ih => rw [List.foldl_append, ih]; simp only [List.foldl_cons, List.foldl_nil]; rw [hf _ _ h1 h2, shl_or _ _ _ h1]

theorem numeral_dec {s : List Char} {v : Nat} (h : Numeral 10 s v) : decVal s = BitVec.ofNat 64 v := by
  unfold decVal
  induction h with
  | one h1 h2 =>
    simp only [List.foldl_cons, List.foldl_nil]
    rw [((digit_facts (by omega) h2).2.2.2.1 h1).2]
    simp
  | more _ h1 h2 ih =>
    rw [List.foldl_append, ih]
    simp only [List.foldl_cons, List.foldl_nil]
    rw [((digit_facts (by omega) h2).2.2.2.1 h1).2, ← BitVec.ofNat_mul, ← BitVec.ofNat_add, Nat.mul_comm]

/-! ### Words -/

/-- Nothing that continues a word. -/
def Stop (r : List Char) : Prop := ∀ c, r.head? = some c → isWord c = false ∧ c ≠ '$'

theorem fixed_first : ∀ p ∈ fixed, ∃ a l, p.1 = a :: l ∧ isDigit a = false ∧ a ≠ '$' ∧ (isAlpha a = true → p.1 = ['i', 'n', 't']) := by
  intro p hp
  have : (match p.1 with | a :: _ => !isDigit a && a != '$' && (!isAlpha a || p.1 == ['i', 'n', 't']) | [] => false) = true := by
    revert p
    decide +kernel
  revert this
  cases h : p.1 with
  | nil => intro h; cases h
  | cons a l =>
    intro h
    simp only [Bool.and_eq_true, Bool.not_eq_true', bne_iff_ne, Bool.or_eq_true, beq_iff_eq] at h
    refine ⟨a, l, rfl, h.1.1, h.1.2, fun ha => ?_⟩
    rcases h.2 with h | h
    · rw [ha] at h; cases h
    · exact h

theorem fixed_num {c : Char} {s : List Char} (h : isDigit c = true ∨ c = '$') : (fixedMatch (c :: s)).1 = 0 := by
  have := fixed_le (n := 0) (s := c :: s) (by
    intro p hp hpre
    obtain ⟨a, l, e, h1, h2, _⟩ := fixed_first p hp
    rw [e, List.isPrefixOf_cons_cons, Bool.and_eq_true, beq_iff_eq] at hpre
    rw [hpre.1] at h1 h2
    rcases h with h | h
    · rw [h] at h1; cases h1
    · exact absurd h h2)
  omega

theorem blank_word {c : Char} {s : List Char} (h : isWord c = true ∨ c = '$') : run isBlank (c :: s) = 0 := by
  have : isBlank c = false := by
    unfold isBlank
    rw [Bool.or_eq_false_iff]
    constructor
    · rw [beq_eq_false_iff_ne]; rintro rfl; rcases h with h | h <;> revert h <;> decide
    · rw [beq_eq_false_iff_ne]; rintro rfl; rcases h with h | h <;> revert h <;> decide
  simp [run, this]

theorem chr_word {c : Char} {s : List Char} (h : isWord c = true ∨ c = '$') : chrMatch (c :: s) = 0 := by
  unfold chrMatch
  split
  · next e => cases e; exfalso; rcases h with h | h <;> revert h <;> decide
  · rfl

theorem name_num {c : Char} {s : List Char} (h : isDigit c = true ∨ c = '$') : nameMatch (c :: s) = 0 := by
  have ha : isAlpha c = false := by
    rcases h with h | rfl
    · cases e : isAlpha c with
      | false => rfl
      | true =>
        exfalso
        unfold isDigit at h; unfold isAlpha at e
        simp only [Bool.and_eq_true, decide_eq_true_eq, Bool.or_eq_true, Char.le_def, beq_iff_eq] at h e
        rcases e with (e | e) | e
        · have := UInt32.le_iff_toNat_le.mp h.2; have := UInt32.le_iff_toNat_le.mp e.1
          simp at *; omega
        · have := UInt32.le_iff_toNat_le.mp h.2; have := UInt32.le_iff_toNat_le.mp e.1
          simp at *; omega
        · subst e; revert h; decide
    · decide
  unfold nameMatch
  split
  · next e => cases e; exfalso; rcases h with h | h <;> revert h <;> decide
  · next e => cases e; simp [ha]
  · rfl

theorem hex_word {c : Char} (h : isHex c = true) : isWord c = true := by
  unfold isHex at h; unfold isWord isAlpha
  simp only [Bool.or_eq_true, Bool.and_eq_true, decide_eq_true_eq, beq_iff_eq, Char.le_def] at h ⊢
  rcases h with (h | h) | h
  · exact .inl h
  · refine .inr (.inl (.inl ⟨h.1, ?_⟩))
    have := UInt32.le_iff_toNat_le.mp h.2
    apply UInt32.le_iff_toNat_le.mpr
    simp at *; omega
  · refine .inr (.inl (.inr ⟨h.1, ?_⟩))
    have := UInt32.le_iff_toNat_le.mp h.2
    apply UInt32.le_iff_toNat_le.mpr
    simp at *; omega

theorem dec_word {c : Char} (h : isDigit c = true) : isWord c = true := by unfold isWord; rw [h]; rfl

theorem oct_dec {c : Char} (h : isOct c = true) : isDigit c = true := by
  unfold isOct at h; unfold isDigit
  simp only [Bool.and_eq_true, decide_eq_true_eq, Char.le_def] at h ⊢
  refine ⟨h.1, ?_⟩
  have := UInt32.le_iff_toNat_le.mp h.2
  apply UInt32.le_iff_toNat_le.mpr
  simp at *; omega

theorem bin_word {c : Char} (h : isBin c = true) : isWord c = true := by
  unfold isBin at h
  simp only [Bool.or_eq_true, beq_iff_eq] at h
  rcases h with rfl | rfl <;> decide

theorem Stop.of {r : List Char} (h : Stop r) {p : Char → Bool} (hp : ∀ c, p c = true → isWord c = true) : ∀ c, r.head? = some c → p c = false := by
  intro c hc
  cases e : p c with
  | false => rfl
  | true => have := (h c hc).1; rw [hp c e] at this; cases this

variable (chr : List Char → Long)

/-- The outcome wanted for a lexeme. -/
def Found (env : List Char → Option Tok) (x r : List Char) (t : Tok) : Prop :=
  0 < x.length ∧ (best (rules chr (x ++ r))).1 = x.length ∧
    ((best (rules chr (x ++ r))).2 x = .tok t ∨ ((best (rules chr (x ++ r))).2 x = .name ∧ env x = some t))

theorem plus_run {k : Nat} {p : Char → Bool} {s r : List Char} (hs : s.all p = true) (hne : s ≠ []) (hr : ∀ c, r.head? = some c → p c = false) :
    plus k p (s ++ r) = k + s.length := by
  have : 0 < s.length := List.length_pos_iff.mpr hne
  unfold plus
  rw [run_append hs hr, if_neg (by omega)]

variable {chr} {env : List Char → Option Tok}

theorem found_of {x r : List Char} {t : Tok} {n : Nat} {f : List Char → Act} (h : best (rules chr (x ++ r)) = (n, f)) (h0 : 0 < n)
    (hn : n = x.length) (hf : f x = .tok t ∨ (f x = .name ∧ env x = some t)) : Found chr env x r t :=
  ⟨by omega, by rw [h]; exact hn, by rw [h]; exact hf⟩

theorem found_hex {s r : List Char} {v : Nat} (h : Numeral 16 s v) (hr : Stop r) :
    Found chr env ('0' :: 'x' :: s) r (.number (BitVec.ofNat 64 v)) := by
  have h1 : hexMatch ('0' :: 'x' :: s ++ r) = 2 + s.length :=
    plus_run (numeral_all h _ fun c d h1 h2 => (digit_facts h1 h2).1) (numeral_ne h) (hr.of fun _ => hex_word)
  have h2 : octMatch ('0' :: 'x' :: s ++ r) = 1 := rfl
  have h3 : (fixedMatch ('0' :: 'x' :: s ++ r)).1 = 0 := fixed_num (.inl rfl)
  have h4 : run isBlank ('0' :: 'x' :: s ++ r) = 0 := blank_word (.inl rfl)
  have h5 : chrMatch ('0' :: 'x' :: s ++ r) = 0 := rfl
  have h6 : nameMatch ('0' :: 'x' :: s ++ r) = 0 := rfl
  have h7 : binMatch ('0' :: 'x' :: s ++ r) = 0 := rfl
  have h8 : decMatch ('0' :: 'x' :: s ++ r) = 0 := rfl
  refine found_of (n := 2 + s.length) (f := fun x => .tok (.number (hexVal x))) ?_ (by omega) (by simp; omega) (.inl ?_)
  · unfold rules
    rw [h1, h2, h3, h4, h5, h6, h7, h8]
    refine best_mid [_, _] [_, _, _, _, _, _] ?_ ?_ (by omega)
    · simp only [List.mem_cons, List.not_mem_nil, or_false, forall_eq_or_imp, forall_eq]; omega
    · simp only [List.mem_cons, List.not_mem_nil, or_false, forall_eq_or_imp, forall_eq]; omega
  · show Act.tok (.number (s.foldl _ _)) = _
    rw [numeral_shl (k := 4) h _ fun c d h1 h2 => (digit_facts h1 h2).2.1]

theorem found_dollar {s r : List Char} {v : Nat} (h : Numeral 16 s v) (hr : Stop r) :
    Found chr env ('$' :: s) r (.number (BitVec.ofNat 64 v)) := by
  have h1 : hexMatch ('$' :: s ++ r) = 1 + s.length :=
    plus_run (numeral_all h _ fun c d h1 h2 => (digit_facts h1 h2).1) (numeral_ne h) (hr.of fun _ => hex_word)
  have h2 : octMatch ('$' :: s ++ r) = 0 := rfl
  have h3 : (fixedMatch ('$' :: s ++ r)).1 = 0 := fixed_num (.inr rfl)
  have h4 : run isBlank ('$' :: s ++ r) = 0 := blank_word (.inr rfl)
  have h5 : chrMatch ('$' :: s ++ r) = 0 := rfl
  have h6 : nameMatch ('$' :: s ++ r) = 0 := name_num (.inr rfl)
  have h7 : binMatch ('$' :: s ++ r) = 0 := rfl
  have h8 : decMatch ('$' :: s ++ r) = 0 := rfl
  refine found_of (n := 1 + s.length) (f := fun x => .tok (.number (hexVal x))) ?_ (by omega) (by simp; omega) (.inl ?_)
  · unfold rules
    rw [h1, h2, h3, h4, h5, h6, h7, h8]
    refine best_mid [_, _] [_, _, _, _, _, _] ?_ ?_ (by omega)
    · simp only [List.mem_cons, List.not_mem_nil, or_false, forall_eq_or_imp, forall_eq]; omega
    · simp only [List.mem_cons, List.not_mem_nil, or_false, forall_eq_or_imp, forall_eq]; omega
  · show Act.tok (.number (s.foldl _ _)) = _
    rw [numeral_shl (k := 4) h _ fun c d h1 h2 => (digit_facts h1 h2).2.1]

theorem found_bin {s r : List Char} {v : Nat} (h : Numeral 2 s v) (hr : Stop r) :
    Found chr env ('0' :: 'b' :: s) r (.number (BitVec.ofNat 64 v)) := by
  have h1 : binMatch ('0' :: 'b' :: s ++ r) = 2 + s.length :=
    plus_run (numeral_all h _ fun c d h1 h2 => ((digit_facts (by omega) h2).2.2.2.2.2 h1).1) (numeral_ne h) (hr.of fun _ => bin_word)
  have h2 : octMatch ('0' :: 'b' :: s ++ r) = 1 := rfl
  have h3 : (fixedMatch ('0' :: 'b' :: s ++ r)).1 = 0 := fixed_num (.inl rfl)
  have h4 : run isBlank ('0' :: 'b' :: s ++ r) = 0 := blank_word (.inl rfl)
  have h5 : chrMatch ('0' :: 'b' :: s ++ r) = 0 := rfl
  have h6 : nameMatch ('0' :: 'b' :: s ++ r) = 0 := rfl
  have h7 : hexMatch ('0' :: 'b' :: s ++ r) = 0 := rfl
  have h8 : decMatch ('0' :: 'b' :: s ++ r) = 0 := rfl
  refine found_of (n := 2 + s.length) (f := fun x => .tok (.number (binVal x))) ?_ (by omega) (by simp; omega) (.inl ?_)
  · unfold rules
    rw [h1, h2, h3, h4, h5, h6, h7, h8]
    refine best_mid [_, _, _] [_, _, _, _, _] ?_ ?_ (by omega)
    · simp only [List.mem_cons, List.not_mem_nil, or_false, forall_eq_or_imp, forall_eq]; omega
    · simp only [List.mem_cons, List.not_mem_nil, or_false, forall_eq_or_imp, forall_eq]; omega
  · show Act.tok (.number (s.foldl _ _)) = _
    rw [numeral_shl (k := 1) h _ fun c d h1 h2 => ((digit_facts (by omega) h2).2.2.2.2.2 h1).2]

/-- `0` followed by octal digits, or nothing. -/
theorem found_oct' {s r : List Char} (hs : s.all isOct = true) (hr : Stop r) :
    Found chr env ('0' :: s) r (.number (octVal ('0' :: s))) := by
  have hx : ∀ c, (s ++ r).head? = some c → c ≠ 'x' ∧ c ≠ 'X' ∧ c ≠ 'b' := by
    intro c hc
    cases s with
    | nil =>
      have := (hr c hc).1
      refine ⟨?_, ?_, ?_⟩ <;> rintro rfl <;> revert this <;> decide
    | cons a s =>
      cases hc
      simp only [List.all_cons, Bool.and_eq_true] at hs
      have := hs.1
      refine ⟨?_, ?_, ?_⟩ <;> rintro rfl <;> revert this <;> decide
  have h1 : hexMatch ('0' :: s ++ r) = 0 := by
    rw [List.cons_append]
    revert hx
    cases s ++ r with
    | nil => intro _; rfl
    | cons c l =>
      intro hx
      obtain ⟨a, b, _⟩ := hx c rfl
      unfold hexMatch
      split
      · next e => cases e
      · next e => cases e; exact absurd rfl a
      · next e => cases e; exact absurd rfl b
      · rfl
  have h7 : binMatch ('0' :: s ++ r) = 0 := by
    rw [List.cons_append]
    revert hx
    cases s ++ r with
    | nil => intro _; rfl
    | cons c l =>
      intro hx
      obtain ⟨_, _, a⟩ := hx c rfl
      unfold binMatch
      split
      · next e => cases e; exact absurd rfl a
      · rfl
  have h2 : octMatch ('0' :: s ++ r) = 1 + s.length := by
    show 1 + run isOct (s ++ r) = _
    rw [run_append hs (hr.of fun _ h => dec_word (oct_dec h))]
  have h3 : (fixedMatch ('0' :: s ++ r)).1 = 0 := fixed_num (.inl rfl)
  have h4 : run isBlank ('0' :: s ++ r) = 0 := blank_word (.inl rfl)
  have h5 : chrMatch ('0' :: s ++ r) = 0 := rfl
  have h6 : nameMatch ('0' :: s ++ r) = 0 := name_num (.inl rfl)
  have h8 : decMatch ('0' :: s ++ r) = 0 := rfl
  refine found_of (n := 1 + s.length) (f := fun x => .tok (.number (octVal x))) ?_ (by omega) (by simp; omega) (.inl rfl)
  unfold rules
  rw [h1, h2, h3, h4, h5, h6, h7, h8]
  refine best_mid [_, _, _, _] [_, _, _, _] ?_ ?_ (by omega)
  · simp only [List.mem_cons, List.not_mem_nil, or_false, forall_eq_or_imp, forall_eq]; omega
  · simp only [List.mem_cons, List.not_mem_nil, or_false, forall_eq_or_imp, forall_eq]; omega

theorem found_oct {s r : List Char} {v : Nat} (h : Numeral 8 s v) (hr : Stop r) :
    Found chr env ('0' :: s) r (.number (BitVec.ofNat 64 v)) := by
  have := found_oct' (chr := chr) (env := env) (numeral_all h _ fun c d h1 h2 => ((digit_facts (by omega) h2).2.2.2.2.1 h1).1) hr
  have e : octVal ('0' :: s) = BitVec.ofNat 64 v := by
    show s.foldl _ _ = _
    rw [numeral_shl (k := 3) h (fun c => BitVec.ofNat 64 ((c.toNat - 48) &&& 7)) fun c d h1 h2 => ((digit_facts (by omega) h2).2.2.2.2.1 h1).2]
  rw [e] at this
  exact this

theorem found_dec {s r : List Char} {v : Nat} (h : Numeral 10 s v) (h0 : s.head? ≠ some '0') (hr : Stop r) :
    Found chr env s r (.number (BitVec.ofNat 64 v)) := by
  have hall := numeral_all h isDigit fun c d h1 h2 => ((digit_facts (by omega) h2).2.2.2.1 h1).1
  have hv := numeral_dec h
  cases s with
  | nil => exact absurd rfl (numeral_ne h)
  | cons c s =>
    simp only [List.all_cons, Bool.and_eq_true] at hall
    have hc0 : c ≠ '0' := fun e => h0 (by rw [e]; rfl)
    have hcd : c ≠ '$' := by rintro rfl; exact absurd hall.1 (by decide)
    have h1 : hexMatch (c :: s ++ r) = 0 := by
      rw [List.cons_append]
      unfold hexMatch
      split
      · next e => exact absurd (List.cons.inj e).1 hcd
      · next e => exact absurd (List.cons.inj e).1 hc0
      · next e => exact absurd (List.cons.inj e).1 hc0
      · rfl
    have h7 : binMatch (c :: s ++ r) = 0 := by
      rw [List.cons_append]
      unfold binMatch
      split
      · next e => exact absurd (List.cons.inj e).1 hc0
      · rfl
    have h2 : octMatch (c :: s ++ r) = 0 := by
      rw [List.cons_append]
      unfold octMatch
      split
      · next e => exact absurd (List.cons.inj e).1 hc0
      · rfl
    have h3 : (fixedMatch (c :: s ++ r)).1 = 0 := fixed_num (.inl hall.1)
    have h4 : run isBlank (c :: s ++ r) = 0 := blank_word (.inl (dec_word hall.1))
    have h5 : chrMatch (c :: s ++ r) = 0 := chr_word (.inl (dec_word hall.1))
    have h6 : nameMatch (c :: s ++ r) = 0 := name_num (.inl hall.1)
    have h8 : decMatch (c :: s ++ r) = 1 + s.length := by
      rw [List.cons_append]
      simp only [decMatch]
      rw [if_pos (by simp [hall.1, hc0]), run_append hall.2 (hr.of fun _ => dec_word)]
    refine found_of (n := 1 + s.length) (f := fun x => .tok (.number (decVal x))) ?_ (by omega) (by simp; omega) (.inl ?_)
    · unfold rules
      rw [h1, h2, h3, h4, h5, h6, h7, h8]
      refine best_mid [_, _, _, _, _] [_, _, _] ?_ ?_ (by omega)
      · simp only [List.mem_cons, List.not_mem_nil, or_false, forall_eq_or_imp, forall_eq]; omega
      · simp only [List.mem_cons, List.not_mem_nil, or_false, forall_eq_or_imp, forall_eq]; omega
    · simp only [hv]

theorem alpha_digit {c : Char} (h : isAlpha c = true) : isDigit c = false := by
  cases e : isDigit c with
  | false => rfl
  | true =>
    exfalso
    unfold isDigit at e; unfold isAlpha at h
    simp only [Bool.and_eq_true, decide_eq_true_eq, Bool.or_eq_true, Char.le_def, beq_iff_eq] at h e
    rcases h with (h | h) | h
    · have := UInt32.le_iff_toNat_le.mp e.2; have := UInt32.le_iff_toNat_le.mp h.1
      simp at *; omega
    · have := UInt32.le_iff_toNat_le.mp e.2; have := UInt32.le_iff_toNat_le.mp h.1
      simp at *; omega
    · subst h; revert e; decide

theorem name_tail {s r : List Char} (hs : s.all isWord = true) (hr : Stop r) : nameTail (s ++ r) = s.length := by
  have hw : ∀ c, r.head? = some c → isWord c = false := fun c hc => (hr c hc).1
  unfold nameTail
  rw [run_append hs hw, drop_append hs hw]
  split
  · next e => exact absurd rfl (hr _ (by rw [List.head?_cons])).2
  · rfl

theorem best_name {c : Char} {s r : List Char} (hc : isAlpha c = true) (hs : s.all isWord = true) (hint : c :: s ≠ ['i', 'n', 't'])
    (hr : Stop r) : best (rules chr (c :: s ++ r)) = (1 + s.length, fun _ => .name) := by
  have hcw : isWord c = true := by unfold isWord; rw [hc, Bool.or_true]
  have hc0 : c ≠ '0' := by rintro rfl; revert hc; decide
  have hcd : c ≠ '$' := by rintro rfl; revert hc; decide
  have hcp : c ≠ '.' := by rintro rfl; revert hc; decide
  have h1 : hexMatch (c :: s ++ r) = 0 := by
    rw [List.cons_append]
    unfold hexMatch
    split
    · next e => exact absurd (List.cons.inj e).1 hcd
    · next e => exact absurd (List.cons.inj e).1 hc0
    · next e => exact absurd (List.cons.inj e).1 hc0
    · rfl
  have h7 : binMatch (c :: s ++ r) = 0 := by
    rw [List.cons_append]
    unfold binMatch
    split
    · next e => exact absurd (List.cons.inj e).1 hc0
    · rfl
  have h2 : octMatch (c :: s ++ r) = 0 := by
    rw [List.cons_append]
    unfold octMatch
    split
    · next e => exact absurd (List.cons.inj e).1 hc0
    · rfl
  have h8 : decMatch (c :: s ++ r) = 0 := by
    rw [List.cons_append]
    simp [decMatch, alpha_digit hc]
  have h3 : (fixedMatch (c :: s ++ r)).1 ≤ s.length := by
    apply fixed_le
    intro p hp hpre
    obtain ⟨a, l, e, _, _, h⟩ := fixed_first p hp
    have e1 := hpre
    rw [e, List.cons_append, List.isPrefixOf_cons_cons, Bool.and_eq_true, beq_iff_eq] at e1
    have hpi := h (by rw [e1.1]; exact hc)
    rw [hpi] at hpre ⊢
    rcases Nat.lt_or_ge s.length 3 with hlt | hge
    · exfalso
      match s, hs, hlt, hint, hpre with
      | [], _, _, _, hpre =>
        cases r with
        | nil => simp [List.isPrefixOf] at hpre
        | cons d r =>
          simp [List.isPrefixOf] at hpre
          have := (hr d rfl).1
          rw [← hpre.2.1] at this
          revert this; decide
      | [a], _, _, _, hpre =>
        cases r with
        | nil => simp [List.isPrefixOf] at hpre
        | cons d r =>
          simp [List.isPrefixOf] at hpre
          have := (hr d rfl).1
          rw [← hpre.2.2] at this
          revert this; decide
      | [a, b], _, _, hint, hpre =>
        simp [List.isPrefixOf] at hpre
        exact hint (by rw [← hpre.1, ← hpre.2.1, ← hpre.2.2])
    · exact hge
  have h4 : run isBlank (c :: s ++ r) = 0 := blank_word (.inl hcw)
  have h5 : chrMatch (c :: s ++ r) = 0 := chr_word (.inl hcw)
  have h6 : nameMatch (c :: s ++ r) = 1 + s.length := by
    rw [List.cons_append]
    unfold nameMatch
    split
    · next e => exact absurd (List.cons.inj e).1 hcp
    · next e => obtain ⟨rfl, rfl⟩ := List.cons.inj e; rw [if_pos hc, name_tail hs hr]
    · next e => cases e
  unfold rules
  rw [h1, h2, h4, h5, h6, h7, h8]
  refine best_mid [_, _, _, _, _, _] [_, _] ?_ ?_ (by omega)
  · simp only [List.mem_cons, List.not_mem_nil, or_false, forall_eq_or_imp, forall_eq]; omega
  · simp only [List.mem_cons, List.not_mem_nil, or_false, forall_eq_or_imp, forall_eq]; omega

theorem found_name {c : Char} {s r : List Char} {t : Tok} (hc : isAlpha c = true) (hs : s.all isWord = true) (hint : c :: s ≠ ['i', 'n', 't'])
    (henv : env (c :: s) = some t) (hr : Stop r) : Found chr env (c :: s) r t :=
  found_of (n := 1 + s.length) (f := fun _ => .name) (best_name hc hs hint hr) (by omega) (by simp; omega) (.inr ⟨rfl, henv⟩)

theorem best_of_fixed {x r : List Char} {t : Tok} (hx : 0 < x.length) (h1 : fixedMatch (x ++ r) = (x.length, t)) (h2 : run isBlank (x ++ r) = 0)
    (h3 : hexMatch (x ++ r) = 0) (h4 : binMatch (x ++ r) = 0) (h5 : octMatch (x ++ r) = 0) (h6 : decMatch (x ++ r) = 0)
    (h7 : nameMatch (x ++ r) ≤ x.length) (h8 : chrMatch (x ++ r) = 0) : Found chr env x r t := by
  refine found_of (n := x.length) (f := fun _ => .tok t) ?_ hx rfl (.inl rfl)
  unfold rules
  rw [h1, h2, h3, h4, h5, h6, h8]
  refine best_mid [_] [_, _, _, _, _, _, _] ?_ ?_ (by omega)
  · simp only [List.mem_cons, List.not_mem_nil, or_false, forall_eq]; omega
  · simp only [List.mem_cons, List.not_mem_nil, or_false, forall_eq_or_imp, forall_eq]; omega

theorem found_int {r : List Char} (hr : Stop r) : Found chr env ['i', 'n', 't'] r .int := by
  refine best_of_fixed (by decide) ?_ rfl rfl rfl rfl rfl ?_ rfl
  · simp [fixedMatch, fixed, List.isPrefixOf]
  · have : nameMatch (['i', 'n', 't'] ++ r) = 1 + nameTail (['n', 't'] ++ r) := rfl
    rw [this, name_tail rfl hr]
    exact Nat.le_refl _

theorem found_op {x r : List Char} {t : Tok} (h : (x, t) ∈ opText) (ha : Apart x r) : Found chr env x r t := by
  by_cases hi : x = ['i', 'n', 't']
  · subst hi
    have ht : t = .int := by
      revert h; simp [opText]
    subst ht
    refine found_int fun c hc => ?_
    unfold Apart at ha
    rw [hc] at ha
    have ha : wordy c = false := ha
    rw [wordy_eq, Bool.or_eq_false_iff, beq_eq_false_iff_ne] at ha
    exact ha
  · cases r with
    | nil =>
      have : ∀ p ∈ opText, fixedMatch (p.1 ++ []) = (p.1.length, p.2) ∧ 0 < p.1.length ∧ run isBlank (p.1 ++ []) = 0 ∧ hexMatch (p.1 ++ []) = 0 ∧
          binMatch (p.1 ++ []) = 0 ∧ octMatch (p.1 ++ []) = 0 ∧ decMatch (p.1 ++ []) = 0 ∧ nameMatch (p.1 ++ []) ≤ p.1.length ∧ chrMatch (p.1 ++ []) = 0 := by
        decide +kernel
      obtain ⟨h1, h2, h3, h4, h5, h6, h7, h8, h9⟩ := this (x, t) h
      exact best_of_fixed h2 h1 h3 h4 h5 h6 h7 h8 h9
    | cons c r =>
      have hl : ∃ a, x.getLast? = some a ∧ wordy a = false := by
        have : ∀ p ∈ opText, p.1 = ['i', 'n', 't'] ∨ (p.1.getLast?.map wordy) = some false := by decide +kernel
        rcases this (x, t) h with h | h
        · exact absurd h hi
        · simpa only [Option.map_eq_some_iff] using h
      obtain ⟨a, hl, hw⟩ := hl
      unfold Apart at ha
      rw [hl] at ha
      simp only [List.head?_cons, hw, Bool.false_eq_true, if_false] at ha
      obtain ⟨hc, hdot⟩ := ha
      have hc : (c ≠ '=' ∧ c ≠ '&' ∧ c ≠ '|' ∧ c ≠ '+' ∧ c ≠ '-' ∧ c ≠ '<' ∧ c ≠ '>') := by
        simpa using hc
      obtain ⟨c1, c2, c3, c4, c5, c6, c7⟩ := hc
      have c1 := c1.symm
      have c2 := c2.symm
      have c3 := c3.symm
      have c4 := c4.symm
      have c5 := c5.symm
      have c6 := c6.symm
      have c7 := c7.symm
      by_cases hd : x = ['.']
      · subst hd
        cases hl
        have hal := hdot rfl
        rw [letter_eq] at hal
        have ht : t = .dot := by revert h; simp [opText]
        subst ht
        refine best_of_fixed (by decide) ?_ rfl rfl rfl rfl rfl ?_ rfl
        · simp [fixedMatch, fixed, List.isPrefixOf]
        · show (if isAlpha c = true then _ else 0) ≤ _
          rw [hal]; exact Nat.zero_le _
      · unfold opText at h
        simp only [List.mem_cons, List.not_mem_nil, or_false, Prod.mk.injEq] at h
        rcases h with ⟨rfl, rfl⟩ | ⟨rfl, rfl⟩ | ⟨rfl, rfl⟩ | ⟨rfl, rfl⟩ | ⟨rfl, rfl⟩ | ⟨rfl, rfl⟩ | ⟨rfl, rfl⟩ | ⟨rfl, rfl⟩ | ⟨rfl, rfl⟩ | ⟨rfl, rfl⟩ | ⟨rfl, rfl⟩ | ⟨rfl, rfl⟩ | ⟨rfl, rfl⟩ | ⟨rfl, rfl⟩ | ⟨rfl, rfl⟩ | ⟨rfl, rfl⟩ | ⟨rfl, rfl⟩ | ⟨rfl, rfl⟩ | ⟨rfl, rfl⟩ | ⟨rfl, rfl⟩ | ⟨rfl, rfl⟩ | ⟨rfl, rfl⟩ | ⟨rfl, rfl⟩ | ⟨rfl, rfl⟩ | ⟨rfl, rfl⟩ | ⟨rfl, rfl⟩ | ⟨rfl, rfl⟩ | ⟨rfl, rfl⟩ | ⟨rfl, rfl⟩ | ⟨rfl, rfl⟩ | ⟨rfl, rfl⟩ | ⟨rfl, rfl⟩ | ⟨rfl, rfl⟩ | ⟨rfl, rfl⟩ | ⟨rfl, rfl⟩ | ⟨rfl, rfl⟩ | ⟨rfl, rfl⟩ | ⟨rfl, rfl⟩ | ⟨rfl, rfl⟩ | ⟨rfl, rfl⟩ | ⟨rfl, rfl⟩ | ⟨rfl, rfl⟩ <;>
        first
        | exact absurd rfl hd
        | exact absurd rfl hi
        | exact best_of_fixed (by decide) (by simp [fixedMatch, fixed, List.isPrefixOf, c1, c2, c3, c4, c5, c6, c7]) rfl rfl rfl rfl rfl (Nat.zero_le _) rfl

theorem lexeme_found {x r : List Char} {t : Tok} (h : Lexeme env x t) (ha : Apart x r) : Found chr env x r t := by
  have hstop : ∀ a, x.getLast? = some a → isWord a = true → Stop r := by
    intro a h1 h2 c hc
    unfold Apart at ha
    rw [h1, hc] at ha
    simp only [wordy_eq, h2, Bool.true_or, if_true, Bool.or_eq_false_iff, beq_eq_false_iff_ne] at ha
    exact ha
  have hnum : ∀ {b s v}, b ≤ 16 → Numeral b s v → ∃ a, s.getLast? = some a ∧ isWord a = true := by
    intro b s v hb h
    cases h with
    | one h1 h2 => exact ⟨_, rfl, (digit_facts (Nat.lt_of_lt_of_le h1 hb) h2).2.2.1⟩
    | more _ h1 h2 => exact ⟨_, List.getLast?_concat .., (digit_facts (Nat.lt_of_lt_of_le h1 hb) h2).2.2.1⟩
  have hlast : ∀ (a : Char) {s : List Char} {c}, s.getLast? = some c → (a :: s).getLast? = some c := by
    intro a s c h
    rw [List.getLast?_cons, h]; rfl
  cases h with
  | op h => exact found_op h ha
  | hex h _ =>
    obtain ⟨a, h1, h2⟩ := hnum (Nat.le_refl _) h
    exact found_hex h (hstop a (hlast _ (hlast _ h1)) h2)
  | dollar h _ =>
    obtain ⟨a, h1, h2⟩ := hnum (Nat.le_refl _) h
    exact found_dollar h (hstop a (hlast _ h1) h2)
  | bin h _ =>
    obtain ⟨a, h1, h2⟩ := hnum (by omega) h
    exact found_bin h (hstop a (hlast _ (hlast _ h1)) h2)
  | oct h _ =>
    obtain ⟨a, h1, h2⟩ := hnum (by omega) h
    exact found_oct h (hstop a (hlast _ h1) h2)
  | zero => exact found_oct' (s := []) rfl (hstop '0' rfl rfl)
  | dec h _ h0 =>
    obtain ⟨a, h1, h2⟩ := hnum (by omega) h
    exact found_dec h h0 (hstop a h1 h2)
  | @name c s _ h1 h2 h3 h4 =>
    have h1 : isAlpha c = true := by rw [← letter_eq]; exact h1
    have h2 : s.all isWord = true := by
      rw [List.all_eq_true] at h2 ⊢
      intro d hd
      have := h2 d hd
      rw [letter_eq, digit_eq, Bool.or_comm] at this
      exact this
    have hl : ∃ a, (c :: s).getLast? = some a ∧ isWord a = true := by
      have hall : ∀ d ∈ c :: s, isWord d = true := by
        intro d hd
        rcases List.mem_cons.mp hd with rfl | hd
        · unfold isWord; rw [h1, Bool.or_true]
        · exact List.all_eq_true.mp h2 d hd
      exact ⟨_, List.getLast?_eq_some_getLast (by simp), hall _ (List.getLast_mem (by simp))⟩
    obtain ⟨a, h5, h6⟩ := hl
    exact found_name h1 h2 h3 h4 (hstop a h5 h6)

theorem lexeme_head {c : Char} {x : List Char} {t : Tok} (h : Lexeme env (c :: x) t) : isBlank c = false := by
  have hw : isWord c = true ∨ c = '$' → isBlank c = false := by
    intro h
    have := blank_word (s := []) h
    unfold run at this
    cases e : isBlank c with
    | false => rfl
    | true => simp [e] at this
  generalize he : c :: x = y at h
  cases h with
  | op h =>
    have : ∀ p ∈ opText, p.1.head?.map isBlank = some false := by decide +kernel
    have := this _ h
    rw [← he] at this
    simpa using this
  | hex | bin | oct | zero => cases he; exact hw (.inl rfl)
  | dollar => cases he; exact hw (.inr rfl)
  | dec h =>
    have := numeral_all h isWord fun c d h1 h2 => (digit_facts (by omega) h2).2.2.1
    subst he
    simp only [List.all_cons, Bool.and_eq_true] at this
    exact hw (.inl this.1)
  | name h1 => cases he; rw [letter_eq] at h1; exact hw (.inl (by unfold isWord; rw [h1, Bool.or_true]))

theorem best_blank (s : List Char) : best (rules chr (' ' :: s)) = (1 + run isBlank s, fun _ => .skip) := by
  have h1 : (fixedMatch (' ' :: s)).1 = 0 := by
    have := fixed_le (n := 0) (s := ' ' :: s) (by
      intro p hp hpre
      have : ∀ p ∈ fixed, p.1.head? ≠ some ' ' ∧ p.1 ≠ [] := by decide +kernel
      have := this p hp
      cases e : p.1 with
      | nil => exact absurd e this.2
      | cons a l =>
        rw [e, List.isPrefixOf_cons_cons, Bool.and_eq_true, beq_iff_eq] at hpre
        rw [e, hpre.1] at this
        exact absurd rfl this.1)
    omega
  have h2 : run isBlank (' ' :: s) = 1 + run isBlank s := by
    unfold run
    rw [List.takeWhile_cons, if_pos (show isBlank ' ' = true from rfl), List.length_cons, Nat.add_comm]
  unfold rules
  rw [h1, h2, show hexMatch (' ' :: s) = 0 from rfl, show binMatch (' ' :: s) = 0 from rfl, show octMatch (' ' :: s) = 0 from rfl,
    show decMatch (' ' :: s) = 0 from rfl, show nameMatch (' ' :: s) = 0 by cases s <;> rfl, show chrMatch (' ' :: s) = 0 from rfl]
  refine best_mid [] [_, _, _, _, _, _, _, _] (fun r hr => by cases hr) ?_ (by omega)
  simp only [List.mem_cons, List.not_mem_nil, or_false, forall_eq_or_imp, forall_eq]; omega

theorem drop_run (p : Char → Bool) (s : List Char) : s.drop (run p s) = s.dropWhile p := by
  induction s with
  | nil => rfl
  | cons c s ih =>
    unfold run at ih ⊢
    rw [List.takeWhile_cons, List.dropWhile_cons]
    split
    · rw [List.length_cons, List.drop_succ_cons, ih]
    · rfl

theorem apart_append {x s u : List Char} (h : Apart x s) (hu : ∀ c, u.head? = some c → c = ' ') : Apart x (s ++ u) := by
  cases s with
  | nil =>
    cases u with
    | nil => exact h
    | cons c u =>
      cases hu c rfl
      unfold Apart
      simp only [List.nil_append, List.head?_cons]
      split
      · next a c h1 h2 =>
        cases h2
        split
        · rfl
        · exact ⟨by decide, fun _ => rfl⟩
      · trivial
  | cons c s => exact h

/-- A tail, at a blank, is scanned after the written tokens. -/
theorem scanN_tail {s u : List Char} {ts a : List Tok} {e : End} (h : Spelled env s ts) (hh : ∀ c, u.head? = some c → c = ' ')
    (hu : ∀ n, u.length ≤ n → scanN chr env n u = (a, e) ∧ scanN chr env n (u.dropWhile isBlank) = (a, e)) : ∀ n, (s ++ u).length ≤ n →
    scanN chr env n (s ++ u) = (ts ++ a, e) ∧ scanN chr env n ((s ++ u).dropWhile isBlank) = (ts ++ a, e) := by
  induction h with
  | nil => exact hu
  | @blank s ts _ ih =>
    intro n hn
    cases n with
    | zero => simp at hn
    | succ n =>
      rw [List.cons_append] at hn ⊢
      rw [List.length_cons] at hn
      refine ⟨?_, ?_⟩
      · unfold scanN
        simp only [best_blank]
        rw [Nat.add_comm 1, List.drop_succ_cons, drop_run]
        exact (ih n (by omega)).2
      · rw [List.dropWhile_cons, if_pos (show isBlank ' ' = true from rfl)]
        exact (ih (n + 1) (by omega)).2
  | @tok x t s ts hx ha _ ih =>
    intro n hn
    obtain ⟨h0, h1, h2⟩ := lexeme_found (chr := chr) hx (apart_append ha hh)
    rw [List.append_assoc] at hn ⊢
    rw [List.length_append] at hn
    cases n with
    | zero => omega
    | succ n =>
      have ih := (ih n (by omega)).1
      cases x with
      | nil => simp at h0
      | cons c x =>
        have main : scanN chr env (n + 1) (c :: x ++ (s ++ u)) = (t :: ts ++ a, e) := by
          rw [List.cons_append] at h1 h2 ⊢
          unfold scanN
          simp only [h1]
          rw [← List.cons_append, List.take_left, List.drop_left]
          rcases h2 with h2 | ⟨h2, h3⟩
          · rw [List.cons_append, h2]; simp only [ih]; rfl
          · rw [List.cons_append, h2]; simp only [h3, ih]; rfl
        refine ⟨main, ?_⟩
        rw [List.cons_append, List.dropWhile_cons, lexeme_head hx]
        exact main

theorem scan_spelled {s : List Char} {ts : List Tok} (h : Spelled env s ts) : scan chr env s = (ts, .text) := by
  have := (scanN_tail (chr := chr) (u := []) (a := []) (e := .text) h (fun c hc => by cases hc)
    (fun n _ => by cases n <;> exact ⟨rfl, rfl⟩) s.length (by simp)).1
  simpa [scan] using this

theorem scan_unknown {s : List Char} {ts : List Tok} (h : Spelled env s ts) {c : Char} {x : List Char} (hc : isAlpha c = true)
    (hx : x.all isWord = true) (hi : c :: x ≠ ['i', 'n', 't']) (hu : env (c :: x) = none) (rest : List Char) :
    scan chr env (s ++ ' ' :: c :: (x ++ ' ' :: rest)) = (ts, .unknown) := by
  have hb : isBlank c = false := by
    unfold isBlank
    rw [Bool.or_eq_false_iff, beq_eq_false_iff_ne, beq_eq_false_iff_ne]
    constructor <;> rintro rfl <;> revert hc <;> decide
  have hn : ∀ n, x.length ≤ n → scanN chr env (n + 1) (c :: (x ++ ' ' :: rest)) = ([], .unknown) := by
    intro n _
    have := best_name (chr := chr) (r := ' ' :: rest) hc hx hi (fun d hd => by cases hd; exact ⟨by decide, by decide⟩)
    rw [List.cons_append] at this
    unfold scanN
    simp only [this]
    have e : (c :: (x ++ ' ' :: rest)).take (1 + x.length) = c :: x := by
      rw [Nat.add_comm, List.take_succ_cons, List.take_left]
    rw [e, hu]
  have := (scanN_tail (chr := chr) (u := ' ' :: c :: (x ++ ' ' :: rest)) (a := []) (e := .unknown) h (fun d hd => by cases hd; rfl) (by
    intro n hl
    simp only [List.length_cons, List.length_append] at hl
    obtain ⟨m, rfl⟩ : ∃ m, n = m + 2 := ⟨n - 2, by omega⟩
    have e : (' ' :: c :: (x ++ ' ' :: rest)).dropWhile isBlank = c :: (x ++ ' ' :: rest) := by
      rw [List.dropWhile_cons, if_pos (show isBlank ' ' = true from rfl), List.dropWhile_cons, hb]; rfl
    refine ⟨?_, by rw [e]; exact hn _ (by omega)⟩
    unfold scanN
    simp only [best_blank]
    rw [Nat.add_comm 1, List.drop_succ_cons, drop_run, List.dropWhile_cons, hb]
    exact hn m (by omega)) (s ++ ' ' :: c :: (x ++ ' ' :: rest)).length (Nat.le_refl _)).1
  rw [List.append_nil] at this
  exact this

end Ucsim.Expr
