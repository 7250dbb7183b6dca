import Verif.Proof.CmdSplit
/-! Lookup of commands, subcommands, sequences of commands. -/
namespace Ucsim.Cmd
open Spec

/-! ### lookup -/

theorem nameMatch_strict (c : Command) (n : Text) : nameMatch c (some n) true = true ↔ Has n c := by
  simp [nameMatch, Has]

theorem nameMatch_abbr (c : Command) (n : Text) : nameMatch c (some n) false = true ↔ Abbr n c := by
  simp [nameMatch, Abbr]

theorem firstWith_some (p : Command → Bool) : ∀ (set : List Command) (k i : Nat),
    firstWith p k set = some i ↔ k ≤ i ∧ ∃ c, set[i - k]? = some c ∧ p c = true ∧ ∀ j < i - k, ∀ d, set[j]? = some d → p d = false
  | [], k, i => by simp [firstWith]
  | c :: cs, k, i => by
    rw [firstWith]
    by_cases h : p c = true
    · rw [if_pos h]
      constructor
      · intro e
        simp only [Option.some.injEq] at e
        subst e
        exact ⟨Nat.le_refl _, c, by simp, h, by simp⟩
      · rintro ⟨hk, d, hd, hp, hj⟩
        by_cases e : i = k
        · rw [e]
        · have := hj 0 (by omega) c (by simp)
          rw [h] at this; cases this
    · rw [if_neg h, firstWith_some p cs (k + 1) i]
      constructor
      · rintro ⟨hk, d, hd, hp, hj⟩
        refine ⟨by omega, d, ?_, hp, ?_⟩
        · rw [show i - k = (i - (k + 1)) + 1 by omega]; simpa using hd
        · intro j hjl x hx
          cases j with
          | zero => simp at hx; subst hx; simpa using h
          | succ j => exact hj j (by omega) x (by simpa using hx)
      · rintro ⟨hk, d, hd, hp, hj⟩
        have : i ≠ k := by
          rintro rfl
          simp at hd; subst hd; exact h hp
        refine ⟨by omega, d, ?_, hp, ?_⟩
        · rw [show i - k = (i - (k + 1)) + 1 by omega] at hd; simpa using hd
        · intro j hjl x hx
          exact hj (j + 1) (by omega) x (by simpa using hx)

theorem firstWith_none (p : Command → Bool) : ∀ (set : List Command) (k : Nat),
    firstWith p k set = none ↔ ∀ c ∈ set, p c = false
  | [], k => by simp [firstWith]
  | c :: cs, k => by
    rw [firstWith]
    by_cases h : p c = true
    · rw [if_pos h]; simp [h]
    · rw [if_neg h, firstWith_none p cs]; simp [h]

open Classical in
theorem matchLoop_found (n : Text) : ∀ (set : List Command) (k m : Nat),
    matchLoop (some n) k set (some m) = if ∃ c ∈ set, Abbr n c then none else some m
  | [], k, m => by simp [matchLoop]
  | c :: cs, k, m => by
    rw [matchLoop]
    by_cases h : nameMatch c (some n) false = true
    · rw [if_pos h]
      have := (nameMatch_abbr c n).1 h
      simp [this]
    · rw [if_neg h, matchLoop_found n cs]
      have : ¬ Abbr n c := fun a => h ((nameMatch_abbr c n).2 a)
      simp [this]

open Classical in
theorem matchLoop_iff (n : Text) : ∀ (set : List Command) (k i : Nat),
    matchLoop (some n) k set none = some i ↔
      k ≤ i ∧ ∃ c, set[i - k]? = some c ∧ Abbr n c ∧ ∀ j, j ≠ i - k → ∀ d, set[j]? = some d → ¬ Abbr n d
  | [], k, i => by simp [matchLoop]
  | c :: cs, k, i => by
    rw [matchLoop]
    by_cases h : nameMatch c (some n) false = true
    · rw [if_pos h]
      have ha := (nameMatch_abbr c n).1 h
      rw [matchLoop_found]
      constructor
      · intro e
        split at e
        · cases e
        · rename_i hno
          simp only [Option.some.injEq] at e
          subst e
          refine ⟨Nat.le_refl _, c, by simp, ha, ?_⟩
          intro j hj d hd hab
          cases j with
          | zero => simp at hj
          | succ j => exact hno ⟨d, List.mem_of_getElem? (by simpa using hd), hab⟩
      · rintro ⟨hk, d, hd, hp, hj⟩
        have e : i = k := by
          false_or_by_contra
          exact hj 0 (by omega) c (by simp) ha
        subst e
        rw [if_neg]
        rintro ⟨x, hx, hab⟩
        obtain ⟨j, hjl, hjx⟩ := List.getElem_of_mem hx
        exact hj (j + 1) (by omega) x (by simp [List.getElem?_eq_getElem hjl, hjx]) hab
    · rw [if_neg h, matchLoop_iff n cs]
      have hno : ¬ Abbr n c := fun a => h ((nameMatch_abbr c n).2 a)
      constructor
      · rintro ⟨hk, d, hd, hp, hj⟩
        refine ⟨by omega, d, ?_, hp, ?_⟩
        · rw [show i - k = (i - (k + 1)) + 1 by omega]; simpa using hd
        · intro j hjl x hx
          cases j with
          | zero => simp at hx; subst hx; exact hno
          | succ j => exact hj j (by omega) x (by simpa using hx)
      · rintro ⟨hk, d, hd, hp, hj⟩
        have : i ≠ k := by
          rintro rfl
          simp at hd; subst hd; exact hno hp
        refine ⟨by omega, d, ?_, hp, ?_⟩
        · rw [show i - k = (i - (k + 1)) + 1 by omega] at hd; simpa using hd
        · intro j hjl x hx
          exact hj (j + 1) (by omega) x (by simpa using hx)

/-- The lookup finds what is meant. -/
theorem getCmd_iff (set : List Command) (n : Text) (i : Nat) : getCmd set (some n) = some i ↔ Means set n i := by
  unfold getCmd Means
  cases hf : firstWith (fun c => nameMatch c (some n) true) 0 set with
  | some k =>
    have h := (firstWith_some _ _ _ _).1 hf
    obtain ⟨_, c, hc, hp, hj⟩ := h
    simp only [Nat.sub_zero] at hc hj
    have hp := (nameMatch_strict c n).1 hp
    have hj : ∀ j < k, ∀ d, set[j]? = some d → ¬ Has n d := by
      intro j hl d hd hh
      have := hj j hl d hd
      rw [(nameMatch_strict d n).2 hh] at this
      cases this
    dsimp only
    constructor
    · intro e
      simp only [Option.some.injEq] at e
      subst e
      exact Or.inl ⟨c, hc, hp, hj⟩
    · rintro (⟨d, hd, hdp, hdj⟩ | ⟨hno, _⟩)
      · by_cases e : i < k
        · exact absurd hdp (hj i e d hd)
        · by_cases e' : k < i
          · exact absurd hp (hdj k e' c hc)
          · rw [show k = i by omega]
      · exact absurd hp (hno c (List.mem_of_getElem? hc))
  | none =>
    have h := (firstWith_none _ _ _).1 hf
    have hno : ∀ c ∈ set, ¬ Has n c := by
      intro c hc hh
      have := h c hc
      rw [(nameMatch_strict c n).2 hh] at this
      cases this
    dsimp only
    rw [matchLoop_iff]
    simp only [Nat.zero_le, true_and, Nat.sub_zero]
    constructor
    · intro hh; exact Or.inr ⟨hno, hh⟩
    · rintro (⟨d, hd, hdp, hdj⟩ | ⟨_, hh⟩)
      · exact absurd hdp (hno d (List.mem_of_getElem? hd))
      · exact hh

theorem means_abbr {set : List Command} {n : Text} {i : Nat} (h : Means set n i) : ∃ c, set[i]? = some c ∧ Abbr n c := by
  rcases h with ⟨c, hc, hp, _⟩ | ⟨_, c, hc, hp, _⟩
  · exact ⟨c, hc, n, hp, List.prefix_refl _⟩
  · exact ⟨c, hc, hp⟩

/-! ### texts without `;` -/

theorem dropWhile_sub {p : Char → Bool} {s : Text} : ∀ c ∈ s.dropWhile p, c ∈ s :=
  fun _ h => (List.dropWhile_sublist p).mem h

theorem scanStr_sub : ∀ (s : Text), ∀ c ∈ (scanStr s).2, c ∈ s := by
  intro s
  fun_induction scanStr s <;> simp_all

theorem quoted_sub : ∀ (s e : Text), quoted s = some e → ∀ c ∈ e, c ∈ s := by
  intro s
  fun_induction quoted s <;> intro e h c hc
  · cases h
  · cases h; exact List.mem_cons_of_mem _ hc
  · rename_i ih; exact List.mem_cons_of_mem _ (List.mem_cons_of_mem _ (List.mem_cons_of_mem _ (ih e h c hc)))
  · cases h
  · rename_i ih; exact List.mem_cons_of_mem _ (ih e h c hc)

theorem redirectTo_sub {app : Bool} {s t : Text} {a b : Acc} (h : redirectTo app s a = some (t, b)) : ∀ c ∈ t, c ∈ s := by
  unfold redirectTo at h
  split at h
  · split at h
    · rename_i hq _
      simp only [Option.some.injEq, Prod.mk.injEq] at h
      intro c hc
      rw [← h.1] at hc
      exact List.mem_cons_of_mem _ (quoted_sub _ _ hq c hc)
    · cases h
  · simp only [Option.some.injEq, Prod.mk.injEq] at h
    rw [← h.1]
    exact dropWhile_sub

theorem argStep_sub {s t : Text} {a b : Acc} (h : argStep s a = some (t, b)) : ∀ c ∈ t, c ∈ s := by
  unfold argStep at h
  split at h
  · split at h
    · cases h
    · simp only [Option.some.injEq, Prod.mk.injEq] at h
      intro c hc
      rw [← h.1] at hc
      exact List.mem_cons_of_mem _ (scanStr_sub _ c ((List.drop_sublist _ _).mem hc))
  · unfold redirection at h
    split at h
    · intro c hc
      exact List.mem_cons_of_mem _ (List.mem_cons_of_mem _ (redirectTo_sub h c hc))
    · intro c hc
      exact List.mem_cons_of_mem _ (redirectTo_sub h c hc)
  · dsimp only at h
    split at h
    · cases h
    · simp only [Option.some.injEq, Prod.mk.injEq] at h
      rw [← h.1]
      exact dropWhile_sub

theorem argLoop_sub : ∀ (fuel : Nat) (s t : Text) (a b : Acc), argLoop fuel s a = some (t, b) → ∀ c ∈ t, c ∈ s
  | 0, s, t, a, b, h => by
    simp only [argLoop, Option.some.injEq, Prod.mk.injEq] at h
    rw [h.1]; exact fun _ h => h
  | n + 1, [], t, a, b, h => by
    simp only [argLoop, Option.some.injEq, Prod.mk.injEq] at h
    rw [← h.1]; simp
  | n + 1, c :: s, t, a, b, h => by
    rw [argLoop] at h
    split at h
    · simp only [Option.some.injEq, Prod.mk.injEq] at h
      rw [h.1]; exact fun _ h => h
    · split at h
      · cases h
      · rename_i u d he
        intro x hx
        exact argStep_sub he x (dropWhile_sub x (argLoop_sub n _ t d b h x hx))

theorem cutAt_sub {text tail : Text} : ∀ c ∈ cutAt text tail, c ∈ text :=
  fun _ h => (List.take_sublist _ _).mem h

/-- A text without `;` has no rest. -/
theorem split_nosemi {text : Text} {m : Line} (h : split text = some m) (hs : ';' ∉ text) : m.rest = none ∧ ';' ∉ m.cmd := by
  unfold split at h
  split at h
  · cases h; exact ⟨rfl, by simp⟩
  · split at h
    · cases h; exact ⟨rfl, hs⟩
    · cases h; exact ⟨rfl, hs⟩
    · cases h; exact ⟨rfl, fun hc => hs (cutAt_sub _ hc)⟩
    · rename_i t he
      exfalso
      exact hs (dropWhile_sub (p := isDelim) ';' (by rw [show text.dropWhile isDelim = ';' :: t from he]; exact List.mem_cons_self))
    · dsimp only at h
      split at h
      · cases h
      · rename_i tail a he
        cases h
        refine ⟨?_, fun hc => hs (cutAt_sub _ hc)⟩
        unfold restOf
        dsimp only
        split
        · rename_i u
          exfalso
          apply hs
          have := argLoop_sub _ _ _ _ _ he ';' List.mem_cons_self
          exact dropWhile_sub _ (dropWhile_sub _ (dropWhile_sub (p := isDelim) _ this))
        · rfl

/-- The line without what follows it. -/
def Line.alone (l : Line) : Line := { l with rest := none }

theorem shift_alone {l m : Line} {b : Bool} (h : shift l = some (m, b)) (hs : ';' ∉ l.cmd) :
    shift l.alone = some (m.alone, b) ∧ m.rest = l.rest ∧ ';' ∉ m.cmd := by
  unfold shift at h ⊢
  have : l.alone.cmd = l.cmd := rfl
  rw [this]
  split at h
  · simp only [Option.some.injEq, Prod.mk.injEq] at h
    obtain ⟨rfl, rfl⟩ := h
    exact ⟨rfl, rfl, hs⟩
  · rename_i s _
    dsimp only at h ⊢
    have hp : ';' ∉ skipDelims ((skipDelims l.cmd).dropWhile (fun c => !isEnd c)) :=
      fun hc => hs (dropWhile_sub _ (dropWhile_sub _ (dropWhile_sub (p := isDelim) _ hc)))
    split at h
    · cases h
    · rename_i k hk
      have := split_nosemi hk hp
      split at h
      · cases h
      · rename_i n hn
        simp only [Option.some.injEq, Prod.mk.injEq] at h
        obtain ⟨rfl, rfl⟩ := h
        simp [Line.alone, this.1, this.2, hk, hn]

theorem shift_none {l : Line} (h : shift l = none) : shift l.alone = none := by
  unfold shift at h ⊢
  have : l.alone.cmd = l.cmd := rfl
  rw [this]
  split at h
  · cases h
  · dsimp only at h ⊢
    split at h
    · simp [*]
    · split at h
      · simp [*]
      · cases h

theorem workCmd_alone (tree : Tree) : ∀ (fuel : Nat) (path : List Nat) (c : Command) (l : Line),
    (c.super = true → ';' ∉ l.cmd) →
    (workCmd tree fuel path c l).map (fun r => (forget r.1, r.2)) =
      (workCmd tree fuel path c l.alone).map (fun r => (forget r.1, l.rest)) := by
  intro fuel
  induction fuel with
  | zero =>
    intro path c l hs
    unfold workCmd
    split
    · rename_i hc
      cases h : shift l with
      | none => simp [shift_none h]
      | some mb =>
        obtain ⟨m, b⟩ := mb
        obtain ⟨h1, h2, _⟩ := shift_alone h (hs hc)
        rw [h1]
        cases b with
        | false =>
          dsimp only
          split <;> simp [forget, Line.alone, h2]
        | true =>
          dsimp only
          have : m.alone.name = m.name := rfl
          rw [this]
          split <;> simp_all [forget, Line.alone]
    · simp [forget, Line.alone]
  | succ n ih =>
    intro path c l hs
    unfold workCmd
    split
    · rename_i hc
      cases h : shift l with
      | none => simp [shift_none h]
      | some mb =>
        obtain ⟨m, b⟩ := mb
        obtain ⟨h1, h2, h3⟩ := shift_alone h (hs hc)
        rw [h1]
        cases b with
        | false =>
          dsimp only
          split <;> simp [forget, Line.alone, h2]
        | true =>
          dsimp only
          have : m.alone.name = m.name := rfl
          rw [this]
          cases hg : getCmd (tree path) m.name with
          | none => simp [forget, h2]
          | some j =>
            dsimp only
            cases hd : (tree path)[j]? with
            | none => simp [forget, h2]
            | some d =>
              dsimp only
              rw [ih (path ++ [j]) d m (fun _ => h3), h2]
    · simp [forget, Line.alone]

end Ucsim.Cmd
