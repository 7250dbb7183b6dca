import Verif.Spec.Dump
/-! Proofs about dumps: the loop. -/
namespace Ucsim.Dump
open Spec

/-- A memory with valid bounds. -/
structure Good (m : DMem) : Prop where
  size : 0 < m.size
  top : m.lva + m.size < 4294967296

theorem hva_eq {m : DMem} (g : Good m) : m.hva = last m := by
  have := g.size; have := g.top
  unfold DMem.hva last sub32 u32
  omega

/-- The loop ends, in this state and with these lines. -/
def Runs (m : DMem) (k : Ask) (s t : DS) (ls : List Line) : Prop := ∃ n, loop m k n s = some (t, ls)

def Cond (s : DS) : Prop := if s.up = true then s.start < s.stop else s.start > s.stop

theorem Runs.stop {m k s} (h : ¬ Cond s) : Runs m k s s [] := by
  refine ⟨1, ?_⟩
  unfold Cond at h
  simp only [loop]
  rw [if_neg h]

theorem Runs.brk {m k s t l} (h : Cond s) (hi : iter m k s = (t, l, true)) : Runs m k s t l := by
  refine ⟨1, ?_⟩
  unfold Cond at h
  simp only [loop]
  rw [if_pos h, hi]
  rfl

theorem Runs.go {m k s s1 t l l'} (h : Cond s) (hi : iter m k s = (s1, l, false)) (hr : Runs m k s1 t l') :
    Runs m k s t (l ++ l') := by
  obtain ⟨n, hn⟩ := hr
  refine ⟨n + 1, ?_⟩
  unfold Cond at h
  simp only [loop]
  rw [if_pos h, hi]
  simp [hn]

theorem loop_mono {m k} : ∀ {n p : Nat} {s : DS} {r}, loop m k n s = some r → n ≤ p → loop m k p s = some r
  | 0, _, _, _, h => by simp [loop] at h
  | n + 1, p, s, r, h => by
    intro hp
    obtain ⟨q, rfl⟩ : ∃ q, p = q + 1 := ⟨p - 1, by omega⟩
    simp only [loop] at h ⊢
    by_cases c : (if s.up = true then s.start < s.stop else s.start > s.stop)
    · rw [if_pos c] at h ⊢
      by_cases b : (iter m k s).2.2 = true
      · rw [if_pos b] at h ⊢; exact h
      · rw [if_neg b] at h ⊢
        cases e : loop m k n (iter m k s).1 with
        | none => rw [e] at h; simp at h
        | some x => rw [loop_mono e (by omega)]; rw [e] at h; exact h
    · rw [if_neg c] at h ⊢; exact h

/-! ### the length of a line -/

theorem rowLen_up {m : DMem} {smart : Bool} {start stop : Nat} (h1 : m.lva ≤ start) (h2 : stop ≤ m.hva + 1)
    (h3 : stop < 4294967296) : ∀ (k n : Nat), start + n ≤ stop →
    n ≤ rowLen m smart true start stop k n ∧ rowLen m smart true start stop k n ≤ n + k ∧
    start + rowLen m smart true start stop k n ≤ stop ∧
    (smart = true → ∀ i, n ≤ i → 0 < i → i < rowLen m smart true start stop k n → m.vars (start + i) = []) ∧
    (rowLen m smart true start stop k n = n + k ∨ start + rowLen m smart true start stop k n = stop ∨
      (smart = true ∧ rowLen m smart true start stop k n ≠ 0 ∧ m.vars (start + rowLen m smart true start stop k n) ≠ []))
  | 0, n, h => by
    simp only [rowLen]
    refine ⟨by omega, by omega, by omega, fun _ i hi h0 hl => by omega, Or.inl (by omega)⟩
  | k + 1, n, h => by
    have hk := h
    rw [rowLen]
    by_cases c : m.lva ≤ nth true start n ∧ nth true start n ≤ m.hva ∧ nth true start n ≠ stop ∧
        ¬ (smart = true ∧ n ≠ 0 ∧ m.vars (nth true start n) ≠ [])
    · rw [if_pos c]
      have e : nth true start n = start + n := by simp [nth, u32]; omega
      rw [e] at c
      have hlt : start + (n + 1) ≤ stop := by omega
      obtain ⟨i1, i2, i3, i4, i5⟩ := rowLen_up (smart := smart) h1 h2 h3 k (n + 1) hlt
      refine ⟨by omega, by omega, i3, ?_, ?_⟩
      · intro hs i hi h0 hl
        by_cases hin : i = n
        · subst hin
          have := c.2.2.2
          by_cases hv : m.vars (start + i) = []
          · exact hv
          · exact absurd ⟨hs, by omega, hv⟩ this
        · exact i4 hs i (by omega) h0 hl
      · rcases i5 with h | h | h
        · left; omega
        · right; left; exact h
        · right; right; exact h
    · rw [if_neg c]
      refine ⟨by omega, by omega, by omega, fun _ i hi h0 hl => by omega, ?_⟩
      right
      have e : nth true start n = start + n := by simp [nth, u32]; omega
      rw [e] at c
      by_cases hq : start + n = stop
      · left; exact hq
      · right
        by_cases hv : smart = true ∧ n ≠ 0 ∧ m.vars (start + n) ≠ []
        · exact hv
        · exact absurd ⟨by omega, by omega, hq, hv⟩ c

theorem rowLen_pos {m : DMem} {smart : Bool} {start stop : Nat} (h1 : m.lva ≤ start) (h2 : stop ≤ m.hva + 1)
    (h3 : stop < 4294967296) (h4 : start < stop) {k : Nat} (hk : 0 < k) : 0 < rowLen m smart true start stop k 0 := by
  obtain ⟨k, rfl⟩ : ∃ j, k = j + 1 := ⟨k - 1, by omega⟩
  rw [rowLen]
  have e : nth true start 0 = start := by simp [nth, u32]; omega
  rw [e, if_pos ⟨h1, by omega, by omega, by simp⟩]
  exact (rowLen_up (m := m) (smart := smart) h1 h2 h3 k 1 (by omega)).1

theorem rowLen_up_hex {m : DMem} {start stop : Nat} (h1 : m.lva ≤ start) (h2 : stop ≤ m.hva + 1)
    (h3 : stop < 4294967296) (h4 : start ≤ stop) (k : Nat) :
    rowLen m false true start stop k 0 = min k (stop - start) := by
  obtain ⟨i1, i2, i3, _, i5⟩ := rowLen_up (m := m) (smart := false) h1 h2 h3 k 0 (by omega)
  rcases i5 with h | h | h
  · omega
  · omega
  · exact absurd h.1 (by simp)

theorem rowLen_down {m : DMem} {start stop : Nat} (h1 : start ≤ m.hva) (h2 : m.lva ≤ stop + 1)
    (h3 : start < 4294967296) : ∀ (k n : Nat), stop + n ≤ start →
    rowLen m false false start stop k n = min (n + k) (start - stop)
  | 0, n, h => by simp [rowLen]; omega
  | k + 1, n, h => by
    rw [rowLen]
    have e : nth false start n = start - n := by simp [nth, sub32]; omega
    rw [e]
    by_cases c : stop + n = start
    · rw [if_neg (by intro hc; exact hc.2.2.1 (by omega))]; omega
    · rw [if_pos ⟨by omega, by omega, by omega, by simp⟩, rowLen_down h1 h2 h3 k (n + 1) (by omega)]
      omega

/-! ### dumps without names -/

theorem iter_hex (m : DMem) (s : DS) : iter m ⟨0, none⟩ s = dataRow m ⟨0, none⟩ s (if s.state = 0 then some s.start else none) none := by
  unfold iter
  simp

theorem map_range_up (rd : Nat → Nat) (start n : Nat) (h : start + n < 4294967296) :
    (List.range n).map (fun i => rd (nth true start i)) = (List.range' start n).map rd := by
  rw [List.range'_eq_map_range, List.map_map]
  apply List.map_congr_left
  intro i hi
  have := List.mem_range.1 hi
  simp [nth, u32, Nat.mod_eq_of_lt (show start + i < 4294967296 by omega)]

theorem rows_cons {rd : Nat → Nat} {k start n c : Nat} {ls : List Line} (hn : 0 < n) (hc : n ≤ c)
    (h : n = k ∨ n < k ∧ n = c) (hr : Rows rd k (List.range' (start + n) (c - n)) ls) :
    Rows rd k (List.range' start c) (Line.row (some start) none ((List.range' start n).map rd) :: ls) := by
  obtain ⟨n, rfl⟩ : ∃ j, n = j + 1 := ⟨n - 1, by omega⟩
  have e : List.range' start c = start :: List.range' (start + 1) n ++ List.range' (start + (n + 1)) (c - (n + 1)) := by
    rw [← List.range'_succ, List.range'_append_1]
    congr 1; omega
  rw [e, List.range'_succ]
  refine Rows.row start _ _ ls ?_ hr
  rw [List.length_range']
  rcases h with h | h
  · left; exact h
  · right; exact ⟨h.1, by rw [show c - (n + 1) = 0 by omega]; rfl⟩

/-- How many locations a dump shows when it is limited to `lines` lines (or not, if negative). -/
def quota (lines bpl : Int) (c : Nat) : Nat := if lines < 0 then c else min (lines * bpl).toNat c

theorem hex_up {m : DMem} (h3 : m.hva + 1 < 4294967296) (K : Nat) : ∀ (c : Nat) (s : DS),
    s.stop - s.start = c → s.up = true → m.lva ≤ s.start → s.start ≤ s.stop → s.stop ≤ m.hva + 1 → s.state = 0 →
    0 < s.bpl → (s.bpl = K ∨ s.bpl < K ∧ s.bpl = c) → s.lines ≠ 0 → (c = 0 → s.df = s.start) →
    ∃ t ls, Runs m ⟨0, none⟩ s t ls ∧ Rows m.rd K (List.range' s.start (quota s.lines s.bpl c)) ls ∧
      t.df = s.start + quota s.lines s.bpl c := by
  intro c
  induction c using Nat.strongRecOn with
  | ind c ih =>
    intro s hc hu h1 h2 h2' h0 hb hK hl hd
    by_cases cd : s.start < s.stop
    · have hcond : Cond s := by unfold Cond; simp [hu, cd]
      have rl := rowLen_up_hex (m := m) h1 h2' (by omega) h2 s.bpl.toNat
      have rp := rowLen_pos (m := m) (smart := false) h1 h2' (by omega) cd (k := s.bpl.toNat) (by omega)
      generalize hn : rowLen m false true s.start s.stop s.bpl.toNat 0 = n at rl rp
      have en : nth true s.start n = s.start + n := by simp [nth, u32]; omega
      have hit := iter_hex m s
      unfold dataRow at hit
      simp only [ne_eq, not_true, decide_false, hu, hn, h0, if_true] at hit
      rw [map_range_up m.rd s.start n (by omega), en] at hit
      by_cases hl0 : s.lines > 0
      · rw [if_pos hl0] at hit
        by_cases hl1 : s.lines - 1 = 0
        · rw [decide_eq_true hl1] at hit
          have q : quota s.lines s.bpl c = n := by
            unfold quota; rw [if_neg (by omega)]; rw [show s.lines = 1 by omega, Int.one_mul]; omega
          refine ⟨_, _, Runs.brk hcond hit, ?_, by rw [q]⟩
          rw [q]
          refine rows_cons rp (Nat.le_refl _) ?_ (by rw [Nat.sub_self]; exact Rows.done)
          rcases hK with h | h <;> omega
        · rw [decide_eq_false hl1] at hit
          by_cases hlast : n < c
          · have hn' : (n : Int) = s.bpl := by omega
            have hKn : s.bpl = K := by rcases hK with h | h <;> omega
            obtain ⟨t, ls, r1, r2, r3⟩ := ih (c - n) (by omega)
              { s with up := true, start := s.start + n, df := s.start + n, state := 0, lines := s.lines - 1 } (by dsimp only; omega) rfl
              (by dsimp only; omega) (by dsimp only; omega) h2' rfl hb (Or.inl hKn) hl1 (fun _ => rfl)
            dsimp only at r2 r3
            have q : quota s.lines s.bpl c = n + quota (s.lines - 1) s.bpl (c - n) := by
              unfold quota
              rw [if_neg (by omega), if_neg (by omega), Int.sub_mul, Int.one_mul]
              have : s.lines * s.bpl - s.bpl ≥ 0 := by
                have : (s.lines - 1) * s.bpl ≥ 0 := Int.mul_nonneg (by omega) (by omega)
                rw [Int.sub_mul] at this; omega
              omega
            refine ⟨t, _, Runs.go hcond hit r1, ?_, by rw [r3, q]; omega⟩
            refine rows_cons rp (by rw [q]; omega) (Or.inl (by omega)) ?_
            rw [q, Nat.add_sub_cancel_left]; exact r2
          · have hnc : n = c := by omega
            have q : quota s.lines s.bpl c = c := by
              unfold quota; rw [if_neg (by omega)]
              have : s.lines * s.bpl ≥ 1 * s.bpl := Int.mul_le_mul_of_nonneg_right (by omega) (by omega)
              omega
            refine ⟨_, _, Runs.go hcond hit (Runs.stop ?_), ?_, by rw [q, hnc]⟩
            · unfold Cond; simp [hu]; omega
            rw [q, hnc]
            refine rows_cons (by omega) (Nat.le_refl _) ?_ (by rw [Nat.sub_self]; exact Rows.done)
            rcases hK with h | h <;> omega
      · rw [if_neg hl0] at hit
        by_cases hlast : n < c
        · have hKn : s.bpl = K := by rcases hK with h | h <;> omega
          obtain ⟨t, ls, r1, r2, r3⟩ := ih (c - n) (by omega)
              { s with up := true, start := s.start + n, df := s.start + n, state := 0 } (by dsimp only; omega) rfl
              (by dsimp only; omega) (by dsimp only; omega) h2' rfl hb (Or.inl hKn) hl (fun _ => rfl)
          dsimp only at r2 r3
          have q : quota s.lines s.bpl c = n + quota s.lines s.bpl (c - n) := by
            unfold quota
            rw [if_pos (by omega), if_pos (by omega)]; omega
          refine ⟨t, _, Runs.go hcond hit r1, ?_, by rw [r3, q]; omega⟩
          refine rows_cons rp (by rw [q]; omega) (Or.inl (by omega)) ?_
          rw [q, Nat.add_sub_cancel_left]; exact r2
        · have hnc : n = c := by omega
          have q : quota s.lines s.bpl c = c := by unfold quota; rw [if_pos (by omega)]
          refine ⟨_, _, Runs.go hcond hit (Runs.stop ?_), ?_, by rw [q, hnc]⟩
          · unfold Cond; simp [hu]; omega
          rw [q, hnc]
          refine rows_cons (by omega) (Nat.le_refl _) ?_ (by rw [Nat.sub_self]; exact Rows.done)
          rcases hK with h | h <;> omega
    · have : c = 0 := by omega
      subst this
      have q : quota s.lines s.bpl 0 = 0 := by unfold quota; split <;> omega
      refine ⟨s, [], Runs.stop (by unfold Cond; simp [hu]; omega), ?_, by rw [q, hd rfl]; rfl⟩
      rw [q]; exact Rows.done

theorem rows_down {rd : Nat → Nat} {k start n c : Nat} {ls : List Line} (hn : 0 < n) (hc : n ≤ c) (hs : c ≤ start + 1)
    (h : n = k ∨ n < k ∧ n = c) (hr : Rows rd k (List.range' (start + 1 - c) (c - n)).reverse ls) :
    Rows rd k (List.range' (start + 1 - c) c).reverse
      (Line.row (some start) none ((List.range' (start + 1 - n) n).reverse.map rd) :: ls) := by
  have e : List.range' (start + 1 - c) c = List.range' (start + 1 - c) (c - n) ++ List.range' (start + 1 - n) n := by
    rw [show start + 1 - n = start + 1 - c + (c - n) by omega, List.range'_append_1]
    congr 1; omega
  rw [e, List.reverse_append]
  obtain ⟨n, rfl⟩ : ∃ j, n = j + 1 := ⟨n - 1, by omega⟩
  have e2 : (List.range' (start + 1 - (n + 1)) (n + 1)).reverse = start :: (List.range' (start + 1 - (n + 1)) n).reverse := by
    rw [List.range'_1_concat, List.reverse_append, List.reverse_singleton, List.singleton_append]
    congr 1; omega
  rw [e2]
  refine Rows.row start _ _ ls ?_ hr
  rw [List.length_reverse, List.length_range']
  rcases h with h | h
  · left; exact h
  · right; exact ⟨h.1, by rw [show c - (n + 1) = 0 by omega]; rfl⟩

theorem map_range_down (rd : Nat → Nat) (start n : Nat) (h : start < 4294967296) (hn : n ≤ start + 1) :
    (List.range n).map (fun i => rd (nth false start i)) = (List.range' (start + 1 - n) n).reverse.map rd := by
  rw [List.reverse_range', List.map_map]
  apply List.map_congr_left
  intro i hi
  have := List.mem_range.1 hi
  simp only [Function.comp]
  congr 1
  simp [nth, sub32]; omega

theorem hex_down {m : DMem} (h3 : m.hva < 4294967296) (K : Nat) : ∀ (c : Nat) (s : DS),
    s.start - s.stop = c → s.up = false → m.lva ≤ s.stop + 1 → s.stop ≤ s.start → s.start ≤ m.hva → s.state = 0 →
    0 < s.bpl → (s.bpl = K ∨ s.bpl < K ∧ s.bpl = c) → s.lines < 0 →
    ∃ t ls, Runs m ⟨0, none⟩ s t ls ∧ Rows m.rd K (List.range' (s.start + 1 - c) c).reverse ls := by
  intro c
  induction c using Nat.strongRecOn with
  | ind c ih =>
    intro s hc hu h1 h2 h2' h0 hb hK hl
    by_cases cd : s.start > s.stop
    · have hcond : Cond s := by unfold Cond; simp [hu, cd]
      have rl := rowLen_down (m := m) h2' h1 (by omega) s.bpl.toNat 0 (by omega)
      generalize hn : rowLen m false false s.start s.stop s.bpl.toNat 0 = n at rl
      have en : nth false s.start n = s.start - n := by simp [nth, sub32]; omega
      have hit := iter_hex m s
      unfold dataRow at hit
      simp only [ne_eq, not_true, decide_false, hu, hn, h0, if_true] at hit
      rw [map_range_down m.rd s.start n (by omega) (by omega), en, if_neg (by omega)] at hit
      by_cases hlast : n < c
      · have hKn : s.bpl = K := by rcases hK with h | h <;> omega
        obtain ⟨t, ls, r1, r2⟩ := ih (c - n) (by omega)
            { s with up := false, start := s.start - n, df := s.start - n, state := 0 } (by dsimp only; omega) rfl
            (by dsimp only; omega) (by dsimp only; omega) (by dsimp only; omega) rfl hb (Or.inl hKn) hl
        dsimp only at r2
        refine ⟨t, _, Runs.go hcond hit r1, ?_⟩
        refine rows_down (by omega) (by omega) (by omega) (Or.inl (by omega)) ?_
        rw [show s.start - n + 1 - (c - n) = s.start + 1 - c by omega] at r2
        exact r2
      · have hnc : n = c := by omega
        refine ⟨_, _, Runs.go hcond hit (Runs.stop ?_), ?_⟩
        · unfold Cond; simp; omega
        rw [hnc]
        refine rows_down (by omega) (Nat.le_refl _) (by omega) ?_ (by rw [Nat.sub_self]; exact Rows.done)
        rcases hK with h | h <;> omega
    · have : c = 0 := by omega
      subst this
      exact ⟨s, [], Runs.stop (by unfold Cond; simp [hu]; omega), Rows.done⟩

/-! ### the command -/

/-- The command ends, with this `dump_finished` and these lines. -/
def Dumps (m : DMem) (smart : Bool) (df : Nat) (a b : Option Nat) (bpl : Option Int) (df' : Nat) (ls : List Line) : Prop :=
  ∃ n, dumpCmd n m smart df a b bpl = some (df', ls)

theorem dump_mono {m : DMem} {k : Ask} {df : Nat} {ads : Ads} {bpl : Int} {n p : Nat} {r : Nat × List Line}
    (h : dump n m k df ads bpl = some r) (hp : n ≤ p) : dump p m k df ads bpl = some r := by
  unfold dump at h ⊢
  generalize setup m k df ads bpl = o at h ⊢
  cases o with
  | none => exact h
  | some s =>
    unfold listing at h ⊢
    dsimp only at h ⊢
    cases e : loop m k n s with
    | none => rw [e] at h; cases h
    | some x => rw [loop_mono e hp]; rw [e] at h; exact h

theorem Dumps.unique {m smart df a b bpl d1 l1 d2 l2} (h1 : Dumps m smart df a b bpl d1 l1)
    (h2 : Dumps m smart df a b bpl d2 l2) : d1 = d2 ∧ l1 = l2 := by
  obtain ⟨n1, h1⟩ := h1
  obtain ⟨n2, h2⟩ := h2
  unfold dumpCmd at h1 h2
  have := Option.some.inj ((dump_mono h1 (Nat.le_max_left n1 n2)).symm.trans (dump_mono h2 (Nat.le_max_right n1 n2)))
  exact ⟨congrArg Prod.fst this, congrArg Prod.snd this⟩

theorem Dumps.of_setup {m : DMem} {smart : Bool} {df a b bpl s t ls}
    (hs : setup m ⟨if smart = true then 1 else 0, none⟩ df (cmdAds a b) (bpl.getD (-1)) = some s)
    (hr : Runs m ⟨if smart = true then 1 else 0, none⟩ s t ls) :
    Dumps m smart df a b bpl (if t.df ≥ m.hva then m.lva else t.df) ls := by
  obtain ⟨n, hn⟩ := hr
  refine ⟨n, ?_⟩
  unfold dumpCmd dump
  rw [hs]
  unfold listing
  dsimp only
  rw [hn]
  rfl

/-- How many values on a line. -/
def bplOf (m : DMem) (bpl : Option Int) : Int := bpl.getD (perLine m)

theorem bpl_eq {m : DMem} {bpl : Option Int} (h : ∀ k, bpl = some k → 0 < k) :
    (if bpl.getD (-1) < 0 then (if m.width > 16 then (4 : Int) else 8) else bpl.getD (-1)) = bplOf m bpl := by
  cases bpl with
  | none => simp [bplOf, perLine]; split <;> rfl
  | some k =>
    have := h k rfl
    simp [bplOf]; omega

theorem bplOf_pos {m : DMem} {bpl : Option Int} (h : ∀ k, bpl = some k → 0 < k ∧ k < 2147483648) :
    0 < bplOf m bpl ∧ bplOf m bpl < 2147483648 := by
  cases bpl with
  | none => simp [bplOf, perLine]; split <;> decide
  | some k => exact h k rfl

theorem toInt_small {n : Nat} (h : n < 2147483648) : (BitVec.ofNat 32 n).toInt = n := by
  rw [BitVec.toInt_eq_toNat_of_lt (by simp; omega)]
  simp; omega

/-- Upwards: the state at the start of the loop. -/
theorem setup_up {m : DMem} (g : Good m) {k : Ask} {df : Nat} {ads : Ads} {bpl : Option Int}
    (h : ∀ k, bpl = some k → 0 < k ∧ k < 2147483648)
    (a b : Nat) (ha : a = max (ads.start.getD df) m.lva) (hb : b = min (ads.stop.getD (last m)) (last m))
    (hab : a ≤ b) : ∃ p : Int, 0 < p ∧ (p = bplOf m bpl ∨ p < bplOf m bpl ∧ p = (b + 1 - a : Nat)) ∧
      setup m k df ads (bpl.getD (-1)) = some ⟨a, b + 1, true, p, if ads.stop.isSome then -1 else 10, 0, none, [],
        decide (k.smart = 2) || (decide (k.smart ≠ 0) && k.bits.isSome), df⟩ := by
  have gs := g.size
  have gt := g.top
  have hl : last m = m.lva + m.size - 1 := rfl
  obtain ⟨b1, b2⟩ := bplOf_pos (m := m) h
  generalize hB : bplOf m bpl = B at b1 b2
  have e1 : (if ads.start.getD df < m.lva then m.lva else ads.start.getD df) = a := by
    rw [ha]; split <;> omega
  have e2 : (if ads.stop.getD (last m) > last m then last m else ads.stop.getD (last m)) = b := by
    rw [hb]; split <;> omega
  have e3 : u32 (b + 1) = b + 1 := by unfold u32; omega
  have e4 : (if u32 (a + B.toNat) > b + 1 then (BitVec.ofNat 32 (sub32 (b + 1) a)).toInt else B) =
      if u32 (a + B.toNat) > b + 1 then ((b + 1 - a : Nat) : Int) else B := by
    by_cases hc : u32 (a + B.toNat) > b + 1
    · rw [if_pos hc, if_pos hc]
      have : sub32 (b + 1) a = b + 1 - a := by unfold sub32; omega
      rw [this]
      apply toInt_small
      unfold u32 at hc
      omega
    · rw [if_neg hc, if_neg hc]
  refine ⟨if u32 (a + B.toNat) > b + 1 then ((b + 1 - a : Nat) : Int) else B, ?_, ?_, ?_⟩
  · split <;> omega
  · split
    · rename_i hc
      right
      refine ⟨?_, rfl⟩
      unfold u32 at hc
      omega
    · left; rfl
  · unfold setup
    rw [hva_eq g]
    simp only [bpl_eq (m := m) (fun k hk => (h k hk).1), hB, e1, e2, e3]
    rw [if_neg (by omega), if_neg (by omega), if_pos (by omega), e4]

theorem dumps_nothing {m : DMem} {smart : Bool} {df : Nat} {a b : Option Nat} {bpl : Option Int}
    (hs : setup m ⟨if smart = true then 1 else 0, none⟩ df (cmdAds a b) (bpl.getD (-1)) = none) :
    Dumps m smart df a b bpl df [] := by
  refine ⟨0, ?_⟩
  unfold dumpCmd dump
  rw [hs]
  rfl

theorem setup_none {m : DMem} (g : Good m) {k : Ask} {df : Nat} {ads : Ads} {bpl : Int}
    (h : last m < max (ads.start.getD df) m.lva ∨ min (ads.stop.getD (last m)) (last m) < m.lva) :
    setup m k df ads bpl = none := by
  have gs := g.size
  have gt := g.top
  have hl : last m = m.lva + m.size - 1 := rfl
  unfold setup
  rw [hva_eq g]
  dsimp only
  by_cases c : (if ads.start.getD df < m.lva then m.lva else ads.start.getD df) > last m
  · rw [if_pos c]
  · rw [if_neg c, if_pos]
    have : ¬ last m < max (ads.start.getD df) m.lva := by
      intro hc; apply c; split <;> omega
    have := h.resolve_left this
    split <;> omega

theorem setup_down {m : DMem} (g : Good m) {k : Ask} {df a b : Nat} {bpl : Option Int}
    (h : ∀ k, bpl = some k → 0 < k ∧ k < 2147483648)
    (ha : a ≤ last m) (hb : m.lva ≤ b) (hb1 : 1 ≤ b) (hab : b < a) :
    ∃ p : Int, 0 < p ∧ (p = bplOf m bpl ∨ p < bplOf m bpl ∧ p = (a + 1 - b : Nat)) ∧
      setup m k df ⟨some a, some b⟩ (bpl.getD (-1)) = some ⟨a, b - 1, false, p, -1, 0, none, [],
        decide (k.smart = 2) || (decide (k.smart ≠ 0) && k.bits.isSome), df⟩ := by
  have gs := g.size
  have gt := g.top
  have hl : last m = m.lva + m.size - 1 := rfl
  obtain ⟨b1, b2⟩ := bplOf_pos (m := m) h
  generalize hB : bplOf m bpl = B at b1 b2
  have e3 : sub32 b 1 = b - 1 := by unfold sub32; omega
  have e4 : (if sub32 a B.toNat < b - 1 then (BitVec.ofNat 32 (sub32 a (b - 1))).toInt else B) =
      if sub32 a B.toNat < b - 1 then ((a + 1 - b : Nat) : Int) else B := by
    by_cases hc : sub32 a B.toNat < b - 1
    · rw [if_pos hc, if_pos hc]
      have : sub32 a (b - 1) = a + 1 - b := by unfold sub32; omega
      rw [this]
      apply toInt_small
      unfold sub32 at hc
      omega
    · rw [if_neg hc, if_neg hc]
  refine ⟨if sub32 a B.toNat < b - 1 then ((a + 1 - b : Nat) : Int) else B, ?_, ?_, ?_⟩
  · split <;> omega
  · split
    · rename_i hc
      right
      refine ⟨?_, rfl⟩
      unfold sub32 at hc
      omega
    · left; rfl
  · unfold setup
    rw [hva_eq g]
    simp only [bpl_eq (m := m) (fun k hk => (h k hk).1), hB, Option.getD_some, Option.isSome_some, if_true]
    rw [if_neg (by omega : ¬ a < m.lva), if_neg (by omega : ¬ b > last m), if_neg (by omega), if_neg (by omega), if_neg (by omega), e3, e4]

end Ucsim.Dump
