import Verif.Spec.Cmd
/-! Lemmas about command lines. -/
namespace Ucsim.Cmd
open Spec

theorem isDelim_iff (c : Char) : isDelim c = true ↔ c ∈ seps := by
  simp [isDelim, seps, or_assoc]

theorem isEnd_false {c : Char} (h : WordChar c) : isEnd c = false := by
  obtain ⟨h1, h2, h3⟩ := h
  rw [← isDelim_iff] at h1
  simp [isEnd, h1, h2, h3]

theorem isEnd_delim {c : Char} (h : c ∈ seps) : isEnd c = true := by
  simp [isEnd, (isDelim_iff c).2 h]

theorem span_append {p : Char → Bool} {w r : Text} (h : ∀ c ∈ w, p c = true)
    (hr : ∀ c t, r = c :: t → p c = false) :
    (w ++ r).takeWhile p = w ∧ (w ++ r).dropWhile p = r := by
  induction w with
  | nil =>
    cases r with
    | nil => exact ⟨rfl, rfl⟩
    | cons c t => simp [hr c t rfl]
  | cons a w ih =>
    have := ih (fun c hc => h c (List.mem_cons_of_mem _ hc))
    simp [h a List.mem_cons_self, this.1, this.2]

theorem skip_blank {s r : Text} (hs : Blank s) (hr : ∀ c t, r = c :: t → isDelim c = false) :
    skipDelims (s ++ r) = r :=
  (span_append (fun c hc => (isDelim_iff c).2 (hs c hc)) hr).2

theorem cut_some {c : Char} {a b : Text} (h : c ∉ a) : cut c (a ++ c :: b) = (a, some b) := by
  induction a with
  | nil => simp [cut]
  | cons d a ih =>
    simp only [List.mem_cons, not_or] at h
    simp [cut, ih h.2, Ne.symm h.1]

theorem cut_none {c : Char} {a : Text} (h : c ∉ a) : cut c a = (a, none) := by
  induction a with
  | nil => simp [cut]
  | cons d a ih =>
    simp only [List.mem_cons, not_or] at h
    simp [cut, ih h.2, Ne.symm h.1]

theorem foldl_value (b : Nat) (ds : Text) (a : Nat) :
    ds.foldl (fun a c => b * a + digit c) a = a * b ^ ds.length + value b ds := by
  induction ds generalizing a with
  | nil => simp [value]
  | cons c t ih =>
    simp only [List.foldl_cons, ih, value, List.length_cons]
    rw [Nat.pow_succ, Nat.add_mul]
    have : b * a * b ^ t.length = a * (b ^ t.length * b) := by
      rw [Nat.mul_comm b a, Nat.mul_assoc, Nat.mul_comm b]
    omega

theorem foldl_congr' {f g : Nat → Char → Nat} {ds : Text} (h : ∀ c ∈ ds, ∀ a, f a c = g a c) (a : Nat) :
    ds.foldl f a = ds.foldl g a := by
  induction ds generalizing a with
  | nil => rfl
  | cons c t ih =>
    simp only [List.foldl_cons]
    rw [h c List.mem_cons_self, ih (fun d hd => h d (List.mem_cons_of_mem _ hd))]

theorem digits_value {b : Nat} {ds r : Text} (h : ∀ c ∈ ds, digVal c = digit c ∧ digVal c < b)
    (hr : ∀ c t, r = c :: t → ¬ digVal c < b) : digits b (ds ++ r) = value b ds := by
  unfold digits
  rw [(span_append (p := fun c => decide (digVal c < b)) (fun c hc => by simpa using (h c hc).2)
    (fun c t e => by simpa using hr c t e)).1]
  rw [foldl_congr' (g := fun a c => b * a + digit c) (fun c hc a => by rw [(h c hc).1]), foldl_value]
  simp

theorem dec_dig : ∀ c ∈ decDigits, digVal c = digit c ∧ digVal c < 10 := by decide +kernel
theorem oct_dig : ∀ c ∈ octDigits, digVal c = digit c ∧ digVal c < 8 := by decide +kernel
theorem hex_dig : ∀ c ∈ hexDigits, digVal c = digit c ∧ digVal c < 16 := by decide +kernel
theorem dec_isDig : ∀ c ∈ decDigits, isDig c = true := by decide +kernel
theorem oct_dec : ∀ c ∈ octDigits, c ∈ decDigits := by decide +kernel

theorem isDig_iff (c : Char) : isDig c = true ↔ c ∈ decDigits := by
  constructor
  · intro h
    simp only [isDig, Bool.and_eq_true, decide_eq_true_eq] at h
    have h1 : 48 ≤ c.toNat := h.1
    have h2 : c.toNat ≤ 57 := h.2
    have e : c = Char.ofNat c.toNat := (Char.ofNat_toNat c).symm
    generalize c.toNat = n at *
    subst e
    have : n = 48 ∨ n = 49 ∨ n = 50 ∨ n = 51 ∨ n = 52 ∨ n = 53 ∨ n = 54 ∨ n = 55 ∨ n = 56 ∨ n = 57 := by omega
    rcases this with rfl | rfl | rfl | rfl | rfl | rfl | rfl | rfl | rfl | rfl <;> decide
  · exact dec_isDig c

theorem clamp_nat {n : Nat} (h : n < 2 ^ 63) : clamp n = n := by
  unfold clamp
  rw [if_neg (by omega), if_neg (by omega)]

theorem clamp_neg {n : Nat} (h : n < 2 ^ 63) : clamp (- (n : Int)) = - (n : Int) := by
  unfold clamp
  rw [if_neg (by omega), if_neg (by omega)]

/-- What `strtol` makes of a properly written number. -/
theorem strtolAbs_num {n : Num} (h : n.Ok) : strtolAbs n.text = n.val := by
  obtain ⟨_, h⟩ := h
  cases n with
  | dec ds =>
    obtain ⟨h1, h2, h3⟩ := h
    have d := digits_value (r := []) (fun c hc => dec_dig c (h1 c hc)) (by simp)
    rw [List.append_nil] at d
    cases ds with
    | nil => exact absurd rfl h2
    | cons c t =>
      simp only [List.head?_cons, ne_eq, Option.some.injEq] at h3
      simp only [Num.text, Num.val, strtolAbs]
      split <;> simp_all
  | oct ds =>
    simp only [Num.text, Num.val]
    have d : digits 8 ('0' :: ds) = value 8 ds := by
      have := digits_value (b := 8) (ds := '0' :: ds) (r := []) (by
        intro c hc
        rcases List.mem_cons.1 hc with rfl | hc
        · decide
        · exact oct_dig c (h c hc)) (by simp)
      rw [List.append_nil] at this
      rw [this, value, show digit '0' = 0 by decide]; simp
    have nx : ∀ c ∈ octDigits, c ≠ 'x' ∧ c ≠ 'X' := by decide
    cases ds with
    | nil => exact d
    | cons c t =>
      have := nx c (h c List.mem_cons_self)
      rw [← d]
      unfold strtolAbs
      split <;> simp_all
  | hex ds =>
    obtain ⟨h1, h2⟩ := h
    have d := digits_value (r := []) (fun c hc => hex_dig c (h1 c hc)) (by simp)
    rw [List.append_nil] at d
    cases ds with
    | nil => exact absurd rfl h2
    | cons c t =>
      simp only [Num.text, Num.val, strtolAbs]
      rw [if_pos (hex_dig c (h1 c List.mem_cons_self)).2, d]

/-- A number starts with a digit. -/
theorem num_first {n : Num} (h : n.Ok) : ∃ c t, n.text = c :: t ∧ c ∈ decDigits := by
  obtain ⟨_, h⟩ := h
  cases n with
  | dec ds =>
    obtain ⟨h1, h2, _⟩ := h
    cases ds with
    | nil => exact absurd rfl h2
    | cons c t => exact ⟨c, t, rfl, h1 c List.mem_cons_self⟩
  | oct ds => exact ⟨'0', ds, rfl, by decide⟩
  | hex ds => exact ⟨'0', _, rfl, by decide⟩

theorem strtol_num {n : Num} (h : n.Ok) : strtol n.text = n.val := by
  obtain ⟨c, t, e, hc⟩ := num_first h
  have a := strtolAbs_num h
  have v := clamp_nat h.1
  rw [e] at a ⊢
  have hs : ∀ c ∈ decDigits, c ≠ '-' ∧ c ≠ '+' := by decide
  have := hs c hc
  unfold strtol
  split <;> simp_all

/-- The characters of a number. -/
def numChars : Text := "0123456789abcdefABCDEFx".toList

theorem num_chars {n : Num} (h : n.Ok) : ∀ c ∈ n.text, c ∈ numChars := by
  obtain ⟨_, h⟩ := h
  have d1 : ∀ c ∈ decDigits, c ∈ numChars := by decide
  have d2 : ∀ c ∈ octDigits, c ∈ numChars := by decide
  have d3 : ∀ c ∈ hexDigits, c ∈ numChars := by decide
  cases n with
  | dec ds => intro c hc; exact d1 c (h.1 c hc)
  | oct ds =>
    intro c hc
    rcases List.mem_cons.1 hc with rfl | hc
    · decide
    · exact d2 c (h c hc)
  | hex ds =>
    intro c hc
    rcases List.mem_cons.1 hc with rfl | hc
    · decide
    rcases List.mem_cons.1 hc with rfl | hc
    · decide
    · exact d3 c (h.1 c hc)

theorem numChars_ok : ∀ c ∈ numChars, WordChar c ∧ c ≠ '[' ∧ c ≠ '$' ∧ c ≠ '\\' ∧ c ≠ ']' ∧ c ≠ '.' ∧ c ≠ ':' ∧ c ≠ '>' ∧ c ≠ '"' ∧ c ≠ '-' ∧ c ≠ '+' := by
  unfold WordChar
  decide +kernel

/-! ### parts -/

theorem part_arg {p : Part} (h : p.Ok) : part p.text = p.arg := by
  cases p with
  | name w =>
    obtain ⟨c, t, rfl, hc, _⟩ := PartName.name h |>.first
    simp only [Part.text, Part.arg, part]
    rw [if_neg (by rw [isDig_iff]; exact hc)]
  | num n =>
    have hs := strtol_num (show n.Ok from h)
    obtain ⟨c, t, e, hc⟩ := num_first (show n.Ok from h)
    simp only [Part.text, Part.arg]
    rw [e] at hs ⊢
    simp only [part]
    rw [if_pos ((isDig_iff c).2 hc), hs]

theorem part_ne {p : Part} (h : p.Ok) : p.text ≠ [] := by
  cases p with
  | name w =>
    obtain ⟨c, t, rfl, hc, _⟩ := PartName.name h |>.first
    simp [Part.text]
  | num n =>
    obtain ⟨c, t, e, hc⟩ := num_first (show n.Ok from h)
    simp [Part.text, e]

theorem part_chars {p : Part} (h : p.Ok) : ∀ c ∈ p.text,
    WordChar c ∧ c ≠ '[' ∧ c ≠ '$' ∧ c ≠ '\\' ∧ c ≠ ']' ∧ c ≠ '.' ∧ c ≠ ':' := by
  intro c hc
  cases p with
  | name w =>
    have a := (PartName.name h).chars c hc
    have b := PartName.chars h c hc
    exact ⟨a.1, a.2.1, a.2.2.1, a.2.2.2, b.1, b.2.1, b.2.2⟩
  | num n =>
    have := numChars_ok c (num_chars (show n.Ok from h) c hc)
    exact ⟨this.1, this.2.1, this.2.2.1, this.2.2.2.1, this.2.2.2.2.1, this.2.2.2.2.2.1, this.2.2.2.2.2.2.1⟩

/-- First character of a part. -/
theorem part_first {p : Part} (h : p.Ok) : ∃ c t, p.text = c :: t ∧ c ≠ '"' ∧ c ≠ '>' := by
  cases p with
  | name w =>
    obtain ⟨c, t, rfl, hc, _, _, h1, h2, _⟩ := PartName.name h |>.first
    exact ⟨c, t, rfl, h1, h2⟩
  | num n =>
    obtain ⟨c, t, e, hc⟩ := num_first (show n.Ok from h)
    have hs : ∀ c ∈ decDigits, c ≠ '"' ∧ c ≠ '>' := by decide
    exact ⟨c, t, e, hs c hc⟩

/-! ### words -/

theorem wordArg_plain {c : Char} {t : Text} (h1 : '[' ∉ c :: t) (h2 : '.' ∉ c :: t ∨ c = '.')
    (h3 : ¬ (c = '0' ∧ t.head? = some 'b')) :
    wordArg (c :: t) =
      if isDig c || c == '-' || c == '+' then ([.int (strtol (c :: t))], []) else ([.sym (c :: t)], []) := by
  unfold wordArg
  rw [cut_none h1]
  dsimp only
  rcases h2 with h2 | rfl
  · rw [cut_none h2]
    dsimp only
    split
    · simp_all
    · simp_all
    · simp_all
  · simp [cut]

theorem wordArg_name {w : Text} (h : Name w) : wordArg w = ([.sym w], []) := by
  obtain ⟨c, t, rfl, h1, h2, h3, _, _, h4⟩ := h.first
  rw [wordArg_plain]
  · rw [if_neg]
    simp [h2, h3, Bool.eq_false_iff, isDig_iff, h1]
  · intro hc
    exact (h.chars '[' hc).2.1 rfl
  · by_cases hd : c = '.'
    · exact Or.inr hd
    · left
      simp [Ne.symm hd, h4 hd]
  · rintro ⟨rfl, _⟩
    exact h1 (by decide)

theorem num_no {n : Num} (h : n.Ok) : '[' ∉ n.text ∧ '.' ∉ n.text :=
  ⟨fun hc => (numChars_ok _ (num_chars h _ hc)).2.1 rfl, fun hc => (numChars_ok _ (num_chars h _ hc)).2.2.2.2.2.1 rfl⟩

theorem num_nobin {n : Num} (h : n.Ok) {c : Char} {t : Text} (e : n.text = c :: t) : ¬ (c = '0' ∧ t.head? = some 'b') := by
  rintro ⟨rfl, hb⟩
  obtain ⟨_, h⟩ := h
  have nb : ∀ c ∈ octDigits, c ≠ 'b' := by decide
  cases n with
  | dec ds => simp only [Num.text] at e; subst e; exact h.2.2 rfl
  | oct ds =>
    simp only [Num.text, List.cons.injEq, true_and] at e
    subst e
    cases ds with
    | nil => simp at hb
    | cons c u => simp at hb; exact nb c (h c List.mem_cons_self) hb
  | hex ds =>
    simp only [Num.text, List.cons.injEq, true_and] at e
    subst e
    simp at hb

theorem wordArg_num {n : Num} (h : n.Ok) : wordArg n.text = ([.int n.val], []) := by
  have s := strtol_num h
  have nn := num_no h
  obtain ⟨c, t, e, hc⟩ := num_first h
  have nb := num_nobin h e
  rw [e] at s nn ⊢
  rw [wordArg_plain nn.1 (Or.inl nn.2) nb, if_pos (by simp [(isDig_iff c).2 hc]), s]

theorem wordArg_neg {n : Num} (h : n.Ok) : wordArg ('-' :: n.text) = ([.int (- (n.val : Int))], []) := by
  have nn := num_no h
  rw [wordArg_plain (by simp [nn.1]) (Or.inl (by simp [nn.2])) (by simp)]
  simp only [show isDig '-' = false by decide, beq_self_eq_true, Bool.or_true, Bool.true_or, if_true]
  simp only [strtol, strtolAbs_num h, clamp_neg h.1]

theorem wordArg_pos {n : Num} (h : n.Ok) : wordArg ('+' :: n.text) = ([.int n.val], []) := by
  have nn := num_no h
  rw [wordArg_plain (by simp [nn.1]) (Or.inl (by simp [nn.2])) (by simp)]
  simp only [beq_self_eq_true, Bool.or_true, if_true]
  simp only [strtol, strtolAbs_num h, clamp_nat h.1]

theorem value_lt {ds : Text} (h : ∀ c ∈ ds, c ∈ binDigits) : value 2 ds < 2 ^ ds.length := by
  have b : ∀ c ∈ binDigits, digit c ≤ 1 := by decide
  induction ds with
  | nil => simp [value]
  | cons c t ih =>
    have h1 := ih (fun d hd => h d (List.mem_cons_of_mem _ hd))
    have h2 := b c (h c List.mem_cons_self)
    simp only [value, List.length_cons, Nat.pow_succ]
    have : digit c * 2 ^ t.length ≤ 2 ^ t.length := by
      calc _ ≤ 1 * 2 ^ t.length := Nat.mul_le_mul_right _ h2
        _ = _ := Nat.one_mul _
    omega

theorem wordArg_bin {ds : Text} (h : ∀ c ∈ ds, c ∈ binDigits) (hl : ds.length < 64) :
    wordArg ('0' :: 'b' :: ds) = ([.int (value 2 ds)], []) := by
  have d : ∀ c ∈ binDigits, (c ≠ '[' ∧ c ≠ '.') ∧ (c == '0' || c == '1') = true ∧ ∀ a, 2 * a + (if (c == '0') = true then 0 else 1) = 2 * a + digit c := by
    intro c hc
    have : c = '0' ∨ c = '1' := by simpa [binDigits] using hc
    rcases this with rfl | rfl
    · exact ⟨by decide, by decide, fun a => by simp [show digit '0' = 0 by decide]⟩
    · exact ⟨by decide, by decide, fun a => by simp [show digit '1' = 1 by decide]⟩
  unfold wordArg
  have n1 : '[' ∉ '0' :: 'b' :: ds := by
    simp only [List.mem_cons, not_or]
    exact ⟨by decide, by decide, fun hc => ((d _ (h _ hc)).1).1 rfl⟩
  have n2 : '.' ∉ '0' :: 'b' :: ds := by
    simp only [List.mem_cons, not_or]
    exact ⟨by decide, by decide, fun hc => ((d _ (h _ hc)).1).2 rfl⟩
  rw [cut_none n1]
  dsimp only
  rw [cut_none n2]
  dsimp only
  suffices hb : binary ds = (value 2 ds : Int) by simp [hb]
  unfold binary
  have e := (span_append (p := fun c => c == '0' || c == '1') (w := ds) (r := [])
    (fun c hc => (d c (h c hc)).2.1) (by simp)).1
  rw [List.append_nil] at e
  rw [e, foldl_congr' (g := fun a c => 2 * a + digit c) (fun c hc a => (d c (h c hc)).2.2 a), foldl_value]
  simp only [Nat.zero_mul, Nat.zero_add]
  have lt := value_lt h
  have : 2 ^ ds.length ≤ 2 ^ 63 := Nat.pow_le_pow_right (by decide) (by omega)
  unfold wrap
  rw [Int.bmod_def]
  rw [if_pos] <;> rw [Int.emod_eq_of_lt] <;> omega

theorem not_mem_part {p : Part} (h : p.Ok) : '[' ∉ p.text ∧ ']' ∉ p.text ∧ '.' ∉ p.text ∧ ':' ∉ p.text :=
  ⟨fun hc => (part_chars h _ hc).2.1 rfl, fun hc => (part_chars h _ hc).2.2.2.2.1 rfl,
   fun hc => (part_chars h _ hc).2.2.2.2.2.1 rfl, fun hc => (part_chars h _ hc).2.2.2.2.2.2 rfl⟩

theorem dropWhile_part {p : Part} (h : p.Ok) {d : Char} (r : Text) (hd : d = ']' ∨ d = ':') :
    (p.text ++ d :: r).dropWhile (fun c => c != ']' && c != ':') = d :: r := by
  refine (span_append (fun c hc => ?_) ?_).2
  · have := part_chars h c hc
    simp [this.2.2.2.2.1, this.2.2.2.2.2.2]
  · intro c t e
    simp only [List.cons.injEq] at e
    obtain ⟨rfl, _⟩ := e
    rcases hd with rfl | rfl <;> decide

theorem wordArg_elem {p i : Part} (hp : p.Ok) (hi : i.Ok) :
    wordArg (p.text ++ '[' :: i.text ++ [']']) = ([.array p.arg i.arg], []) := by
  have np := not_mem_part hp
  have ni := not_mem_part hi
  unfold wordArg
  rw [List.append_assoc, List.cons_append, cut_some np.1]
  dsimp only
  rw [dropWhile_part hi [] (Or.inl rfl)]
  unfold arrayArg
  rw [if_neg (by simp), cut_some ni.2.1]
  dsimp only
  rw [if_neg (part_ne hi), part_arg hp, part_arg hi]
  simp

theorem wordArg_bit {p i : Part} (hp : p.Ok) (hi : i.Ok) :
    wordArg (p.text ++ '.' :: i.text) = ([.bit p.arg i.arg], []) := by
  have np := not_mem_part hp
  have ni := not_mem_part hi
  unfold wordArg
  rw [cut_none (by simp [np.1, ni.1])]
  dsimp only
  rw [cut_some np.2.2.1]
  have e := part_arg hp
  have n := part_ne hp
  cases hq : p.text with
  | nil => exact absurd hq n
  | cons c t =>
    rw [hq] at e
    dsimp only
    unfold addBit
    simp only [if_neg (part_ne hi), part_arg hi, e, Bool.false_eq_true, if_false]

theorem wordArg_bits {p h l : Part} (hp : p.Ok) (hh : h.Ok) (hl : l.Ok) :
    wordArg (p.text ++ '[' :: h.text ++ ':' :: l.text ++ [']']) = ([.bits p.arg l.arg h.arg], []) := by
  have np := not_mem_part hp
  have nh := not_mem_part hh
  have nl := not_mem_part hl
  unfold wordArg
  rw [show p.text ++ '[' :: h.text ++ ':' :: l.text ++ [']'] = p.text ++ '[' :: (h.text ++ ':' :: (l.text ++ [']'])) by simp]
  rw [cut_some np.1]
  dsimp only
  rw [dropWhile_part hh _ (Or.inr rfl)]
  unfold addBit
  simp only [if_true, cut_some nh.2.2.2, cut_some nl.2.1, if_neg (part_ne hh), part_arg hp, part_arg hh, part_arg hl]

theorem wordArg_elemBit {p i b : Part} (hp : p.Ok) (hi : i.Ok) (hb : b.Ok) :
    wordArg (p.text ++ '[' :: i.text ++ ']' :: '.' :: b.text) = ([.bit (.array p.arg i.arg) b.arg], []) := by
  have np := not_mem_part hp
  have ni := not_mem_part hi
  have nb := not_mem_part hb
  unfold wordArg
  rw [show p.text ++ '[' :: i.text ++ ']' :: '.' :: b.text = p.text ++ '[' :: (i.text ++ ']' :: ('.' :: b.text)) by simp]
  rw [cut_some np.1]
  dsimp only
  rw [dropWhile_part hi _ (Or.inl rfl)]
  unfold arrayArg
  rw [if_neg (by simp), cut_some ni.2.1]
  dsimp only
  rw [if_neg (part_ne hi)]
  unfold addBit
  simp only [if_true, cut_none nb.2.2.2, if_neg (part_ne hb), part_arg hp, part_arg hi, part_arg hb]
  simp

/-! ### incomplete words -/

theorem wordArg_noBit {p : Part} (hp : p.Ok) : wordArg (p.text ++ ['.']) = ([], [.err .incompleteBit]) := by
  have np := not_mem_part hp
  unfold wordArg
  rw [cut_none (by simp [np.1])]
  dsimp only
  rw [cut_some np.2.2.1]
  have n := part_ne hp
  cases hq : p.text with
  | nil => exact absurd hq n
  | cons c t =>
    dsimp only
    unfold addBit
    simp

theorem wordArg_noElem {p : Part} (hp : p.Ok) : wordArg (p.text ++ ['[']) = ([], [.err .incompleteArray]) := by
  have np := not_mem_part hp
  unfold wordArg
  rw [cut_some np.1]
  simp [arrayArg]

theorem wordArg_noIndex {p : Part} (hp : p.Ok) : wordArg (p.text ++ ['[', ']']) = ([], [.err .incompleteIndex]) := by
  have np := not_mem_part hp
  unfold wordArg
  rw [cut_some np.1]
  simp [arrayArg, cut]

theorem dropWhile_part_nil {p : Part} (h : p.Ok) :
    p.text.dropWhile (fun c => c != ']' && c != ':') = [] := by
  have n := not_mem_part h
  have := span_append (p := fun c => c != ']' && c != ':') (w := p.text) (r := [])
    (fun c hc => by
      have h1 : c ≠ ']' := fun e => n.2.1 (e ▸ hc)
      have h2 : c ≠ ':' := fun e => n.2.2.2 (e ▸ hc)
      simp [h1, h2]) (by simp)
  simpa using this.2

theorem wordArg_noBracket {p i : Part} (hp : p.Ok) (hi : i.Ok) :
    wordArg (p.text ++ '[' :: i.text) = ([], [.err .missingBracket]) := by
  have np := not_mem_part hp
  have ni := not_mem_part hi
  unfold wordArg
  rw [cut_some np.1]
  dsimp only
  rw [dropWhile_part_nil hi]
  unfold arrayArg
  rw [if_neg (part_ne hi), cut_none ni.2.1]

theorem wordArg_noHigh {p l : Part} (hp : p.Ok) (hl : l.Ok) :
    wordArg (p.text ++ '[' :: ':' :: l.text ++ [']']) = ([], [.err .incompleteBit]) := by
  have np := not_mem_part hp
  have nl := not_mem_part hl
  unfold wordArg
  rw [show p.text ++ '[' :: ':' :: l.text ++ [']'] = p.text ++ '[' :: (':' :: (l.text ++ [']'])) by simp]
  rw [cut_some np.1]
  have e : cut ':' (':' :: (l.text ++ [']'])) = ([], some (l.text ++ [']'])) := by simp [cut]
  simp [addBit, e, cut_some nl.2.1]

theorem wordArg_noClose {p h l : Part} (hp : p.Ok) (hh : h.Ok) (hl : l.Ok) :
    wordArg (p.text ++ '[' :: h.text ++ ':' :: l.text) = ([], [.err .incompleteBit]) := by
  have np := not_mem_part hp
  have nh := not_mem_part hh
  have nl := not_mem_part hl
  unfold wordArg
  rw [show p.text ++ '[' :: h.text ++ ':' :: l.text = p.text ++ '[' :: (h.text ++ ':' :: l.text) by simp]
  rw [cut_some np.1]
  dsimp only
  rw [dropWhile_part hh _ (Or.inr rfl)]
  unfold addBit
  simp only [if_true, cut_some nh.2.2.2, cut_none nl.2.1]

/-! ### command expansion does nothing -/

theorem expandLoop_quiet : ∀ (w : Text) (x : Expand), (∀ c ∈ w, c ≠ '$' ∧ c ≠ '\\') → x.started = false → x.ended = false →
    x.level ≤ 0 → ∃ y, expandLoop x w = some y ∧ y.started = false ∧ y.ended = false
  | [], x, _, h1, h2, _ => ⟨x, rfl, h1, h2⟩
  | c :: w, x, h, h1, h2, h3 => by
    have hc := h c List.mem_cons_self
    have hw : ∀ c ∈ w, c ≠ '$' ∧ c ≠ '\\' := fun d hd => h d (List.mem_cons_of_mem _ hd)
    by_cases hp : c = ')'
    · subst hp
      rw [expandLoop]
      have : (x.level - 1 == 0) = false := by simp; omega
      exact expandLoop_quiet w _ hw h1 (by simp [h2, this]) (by dsimp only; omega)
    · have : expandLoop x (c :: w) = expandLoop x w := by
        conv => lhs; unfold expandLoop
        split <;> simp_all
      rw [this]
      exact expandLoop_quiet w x hw h1 h2 h3

theorem expand_quiet {w : Text} (h : ∀ c ∈ w, c ≠ '$' ∧ c ≠ '\\') : expand w = some [] := by
  obtain ⟨y, e, h1, h2⟩ := expandLoop_quiet w {} h rfl rfl (by decide)
  unfold expand
  simp [e, h1, h2]

theorem expandLoop_body : ∀ (ps : List Piece) (x : Expand), (∀ p ∈ ps, p.Ok) → x.started = false → x.ended = false →
    x.level ≤ 0 → ∃ y, expandLoop x (body ps) = some y ∧ y.started = false ∧ y.ended = false
  | [], x, _, h1, h2, _ => ⟨x, rfl, h1, h2⟩
  | .esc c :: ps, x, h, h1, h2, h3 => by
    have := expandLoop_body ps x (fun q hq => h q (List.mem_cons_of_mem _ hq)) h1 h2 h3
    rw [show body (.esc c :: ps) = '\\' :: c :: body ps by simp [body, Piece.text]]
    rw [expandLoop]
    exact this
  | .plain c :: ps, x, h, h1, h2, h3 => by
    have hc : c ≠ '"' ∧ c ≠ '\\' ∧ c ≠ '$' := h _ List.mem_cons_self
    have hw : ∀ p ∈ ps, p.Ok := fun d hd => h d (List.mem_cons_of_mem _ hd)
    rw [show body (.plain c :: ps) = c :: body ps by simp [body, Piece.text]]
    by_cases hp : c = ')'
    · subst hp
      rw [expandLoop]
      have : (x.level - 1 == 0) = false := by simp; omega
      exact expandLoop_body ps _ hw h1 (by simp [h2, this]) (by dsimp only; omega)
    · have : expandLoop x (c :: body ps) = expandLoop x (body ps) := by
        conv => lhs; unfold expandLoop
        split <;> simp_all
      rw [this]
      exact expandLoop_body ps x hw h1 h2 h3

theorem expand_body {ps : List Piece} (h : ∀ p ∈ ps, p.Ok) : expand (body ps) = some [] := by
  obtain ⟨y, e, h1, h2⟩ := expandLoop_body ps {} h rfl rfl (by decide)
  unfold expand
  simp [e, h1, h2]

theorem scanStr_body : ∀ (ps : List Piece) (r : Text), (∀ p ∈ ps, p.Ok) → scanStr (body ps ++ '"' :: r) = (body ps, '"' :: r)
  | [], r, _ => by simp [body, scanStr]
  | .esc c :: ps, r, h => by
    have := scanStr_body ps r (fun q hq => h q (List.mem_cons_of_mem _ hq))
    rw [show body (.esc c :: ps) = '\\' :: c :: body ps by simp [body, Piece.text]]
    simp [scanStr, this]
  | .plain c :: ps, r, h => by
    have hc : c ≠ '"' ∧ c ≠ '\\' ∧ c ≠ '$' := h _ List.mem_cons_self
    have := scanStr_body ps r (fun q hq => h q (List.mem_cons_of_mem _ hq))
    rw [show body (.plain c :: ps) = c :: body ps by simp [body, Piece.text]]
    rw [List.cons_append]
    conv => lhs; unfold scanStr
    split <;> simp_all

end Ucsim.Cmd
