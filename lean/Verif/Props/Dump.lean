import Verif.Proof.DumpVar
import Verif.Proof.DumpStr
import Verif.Cmd.Args
/-! C96-C99: what the dump command shows. -/
namespace Ucsim.Dump
open Spec

/-- How many values on a line: as typed, or the usual. -/
def per (m : DMem) (bpl : Option Nat) : Nat := bpl.getD (perLine m)

theorem bplOf_per (m : DMem) (bpl : Option Nat) : bplOf m (bpl.map Nat.cast) = (per m bpl : Int) := by
  cases bpl <;> rfl

theorem bpl_ok {bpl : Option Nat} (h : ∀ k, bpl = some k → 0 < k ∧ k < 2147483648) :
    ∀ k : Int, bpl.map Nat.cast = some k → 0 < k ∧ k < 2147483648 := by
  intro k hk
  cases bpl with
  | none => simp at hk
  | some n => have := h n rfl; simp at hk; omega

theorem range'_empty {a n : Nat} (h : n = 0) : List.range' a n = [] := by subst h; rfl

/-! ## C96: ranges -/

/-- C96.  `dump /h memory a b [n]` with `a` not above `b` ends, and shows exactly the locations of
the memory from `a` to `b`, each once, in order, `n` (or the usual number) on every line but the
last, every line with the address of its first location.
Missing: memories that reach the last address 0xffffffff. -/
theorem c96_up_partial {m : DMem} (g : Good m) (df a b : Nat) (hab : a ≤ b) (bpl : Option Nat)
    (h : ∀ k, bpl = some k → 0 < k ∧ k < 2147483648) :
    ∃ df' ls, Dumps m false df (some a) (some b) (bpl.map Nat.cast) df' ls ∧ Rows m.rd (per m bpl) (between m a b) ls := by
  have hl : last m = m.lva + m.size - 1 := rfl
  have gs := g.size; have gt := g.top
  have hbt : between m a b = List.range' (max a m.lva) (min b (last m) + 1 - max a m.lva) := by
    unfold between upto; rw [if_pos hab]
  by_cases hx : max a m.lva ≤ min b (last m)
  · obtain ⟨p, p1, p2, p3⟩ := setup_up g (k := ⟨0, none⟩) (df := df) (ads := ⟨some a, some b⟩) (bpl_ok h) (max a m.lva)
      (min b (last m)) rfl rfl hx
    rw [bplOf_per] at p2
    obtain ⟨t, ls, r1, r2, r3⟩ := hex_up (m := m) (by rw [hva_eq g]; omega) (per m bpl) (min b (last m) + 1 - max a m.lva)
      ⟨max a m.lva, min b (last m) + 1, true, p, -1, 0, none, [], false, df⟩ rfl rfl
      (by dsimp only; omega) (by dsimp only; omega) (by rw [hva_eq g]; dsimp only; omega) rfl p1 p2 (by dsimp only; decide)
      (by intro hz; omega)
    refine ⟨_, ls, Dumps.of_setup (smart := false) p3 r1, ?_⟩
    rw [hbt]; exact r2
  · refine ⟨df, [], dumps_nothing (setup_none g ?_), ?_⟩
    · dsimp only [cmdAds, Option.getD_some]; omega
    · rw [hbt, range'_empty (by omega)]; exact Rows.done

/-- C96, downwards: the same for `a` above `b`.
Missing: `b` is 0, or one of the addresses is outside of the memory (see `c96_down_false`). -/
theorem c96_down_partial {m : DMem} (g : Good m) (df a b : Nat) (hab : b < a) (ha : a ≤ last m) (hb : m.lva ≤ b) (hb1 : b ≠ 0)
    (bpl : Option Nat) (h : ∀ k, bpl = some k → 0 < k ∧ k < 2147483648) :
    ∃ df' ls, Dumps m false df (some a) (some b) (bpl.map Nat.cast) df' ls ∧ Rows m.rd (per m bpl) (between m a b) ls := by
  have hl : last m = m.lva + m.size - 1 := rfl
  have gs := g.size; have gt := g.top
  have hbt : between m a b = (List.range' (a + 1 - (a + 1 - b)) (a + 1 - b)).reverse := by
    unfold between upto; rw [if_neg (by omega)]
    rw [show max b m.lva = b by omega, show min a (last m) = a by omega]
    congr 2; omega
  obtain ⟨p, p1, p2, p3⟩ := setup_down g (k := ⟨0, none⟩) (df := df) (bpl_ok h) ha hb (by omega) hab
  rw [bplOf_per] at p2
  obtain ⟨t, ls, r1, r2⟩ := hex_down (m := m) (by rw [hva_eq g]; omega) (per m bpl) (a + 1 - b)
    ⟨a, b - 1, false, p, -1, 0, none, [], false, df⟩ (by dsimp only; omega) rfl (by dsimp only; omega) (by dsimp only; omega)
    (by rw [hva_eq g]; exact ha) rfl p1 p2 (by dsimp only; decide)
  refine ⟨_, ls, Dumps.of_setup (smart := false) p3 r1, ?_⟩
  rw [hbt]; exact r2

/-- With the first address only, 65 locations are shown from there. -/
theorem c96_start {m : DMem} (g : Good m) (df a : Nat) (ha : a + 64 < 4294967296) (bpl : Option Nat)
    (h : ∀ k, bpl = some k → 0 < k ∧ k < 2147483648) :
    ∃ df' ls, Dumps m false df (some a) none (bpl.map Nat.cast) df' ls ∧
      Rows m.rd (per m bpl) (between m a (a + 64)) ls := by
  obtain ⟨d, ls, h1, h2⟩ := c96_up_partial g df a (a + 64) (by omega) bpl h
  refine ⟨d, ls, ?_, h2⟩
  obtain ⟨n, hn⟩ := h1
  refine ⟨n, ?_⟩
  rw [← hn]
  have e : cmdAds (some a) none = cmdAds (some a) (some (a + 64)) := by
    simp only [cmdAds]
    rw [show u32 (a + 64) = a + 64 by unfold u32; omega]
  unfold dumpCmd
  rw [e]

/-- Nothing else is shown: the result of a dump is determined. -/
theorem c96_unique {m smart df a b bpl d1 l1 d2 l2} (h1 : Dumps m smart df a b bpl d1 l1)
    (h2 : Dumps m smart df a b bpl d2 l2) : d1 = d2 ∧ l1 = l2 := h1.unique h2

/-- A memory of 100 locations of 8 bits from 16 on. -/
def ex100 : DMem := { lva := 16, size := 100, width := 8, rd := fun a => a * 3 % 256, vars := fun _ => [] }

example : Good ex100 := ⟨by decide, by decide⟩
example : dumpCmd 100 ex100 false 0 (some 20) (some 38) none =
    some (39, [.row (some 20) none [60, 63, 66, 69, 72, 75, 78, 81], .row (some 28) none [84, 87, 90, 93, 96, 99, 102, 105],
      .row (some 36) none [108, 111, 114]]) := by decide +kernel
example : dumpCmd 100 ex100 false 0 (some 38) (some 33) (some 4) =
    some (32, [.row (some 38) none [114, 111, 108, 105], .row (some 34) none [102, 99]]) := by decide +kernel

/-- C96 is false of the program: with 0 values on a line the dump never ends. -/
theorem c96_zero_false (n : Nat) : dumpCmd n ex100 false 0 (some 20) (some 38) (some 0) = none := by
  have key : ∀ (n : Nat) (d : Nat), loop ex100 ⟨0, none⟩ n ⟨20, 39, true, 0, -1, 0, none, [], false, d⟩ = none := by
    intro n
    induction n with
    | zero => intro d; rfl
    | succ n ih =>
      intro d
      have e : iter ex100 ⟨0, none⟩ ⟨20, 39, true, 0, -1, 0, none, [], false, d⟩ =
          (⟨20, 39, true, 0, -1, 0, none, [], false, 20⟩, [.row (some 20) none []], false) := by
        rw [iter_hex]
        simp [dataRow, rowLen, nth, u32]
      simp only [loop]
      rw [if_pos (by decide), e]
      simp [ih]
  unfold dumpCmd dump
  rw [show setup ex100 ⟨if false = true then 1 else 0, none⟩ 0 (cmdAds (some 20) (some 38)) ((some 0).getD (-1)) =
    some ⟨20, 39, true, 0, -1, 0, none, [], false, 0⟩ by simp [setup, cmdAds, ex100, DMem.hva, u32, sub32]]
  unfold listing
  dsimp only
  rw [show (⟨if false = true then 1 else 0, none⟩ : Ask) = ⟨0, none⟩ from rfl, key]
  rfl

/-- C96 is false of the program: a dump down to the address 0, and one that starts above or ends
below the memory, shows nothing, although there are locations to show. -/
theorem c96_down_false :
    (dumpCmd 100 { ex100 with lva := 0 } false 0 (some 5) (some 0) none = some (0, []) ∧
      between { ex100 with lva := 0 } 5 0 = [5, 4, 3, 2, 1, 0]) ∧
    (dumpCmd 100 ex100 false 16 (some 116) (some 114) none = some (16, []) ∧ between ex100 116 114 = [115, 114]) ∧
    (dumpCmd 100 ex100 false 16 (some 18) (some 10) none = some (16, []) ∧ between ex100 18 10 = [18, 17, 16]) := by
  decide +kernel

/-! ## C97: going on -/

/-- A number of commands `dump /h memory`, one after the other. -/
inductive Again (m : DMem) : Nat → List (List Line) → Nat → Prop
  | done (df : Nat) : Again m df [] df
  | more {df d e : Nat} {ls : List Line} {r : List (List Line)} :
      Dumps m false df none none none d ls → Again m d r e → Again m df (ls :: r) e

/-- The locations shown by one such command: ten lines. -/
def chunk (m : DMem) : Nat := 10 * perLine m

/-- Part number `i` of the memory. -/
def block (m : DMem) (i : Nat) : List Nat := List.range' (m.lva + i * chunk m) (min (chunk m) (m.size - i * chunk m))

theorem again_one {m : DMem} (g : Good m) (df : Nat) (h1 : m.lva ≤ df) (h2 : df ≤ last m) :
    ∃ ls, Dumps m false df none none none
        (if df + min (chunk m) (last m + 1 - df) ≥ last m then m.lva else df + min (chunk m) (last m + 1 - df)) ls ∧
      Rows m.rd (perLine m) (List.range' df (min (chunk m) (last m + 1 - df))) ls := by
  have hl : last m = m.lva + m.size - 1 := rfl
  have gs := g.size; have gt := g.top
  obtain ⟨p, p1, p2, p3⟩ := setup_up g (k := ⟨0, none⟩) (df := df) (ads := ⟨none, none⟩) (bpl := none) (by simp) df (last m)
    (by simp; omega) (by simp) h2
  have hpl : 0 < perLine m := by unfold perLine; split <;> decide
  have hbo : bplOf m none = (perLine m : Int) := rfl
  rw [hbo] at p2
  obtain ⟨t, ls, r1, r2, r3⟩ := hex_up (m := m) (by rw [hva_eq g]; omega) (perLine m) (last m + 1 - df)
      ⟨df, last m + 1, true, p, 10, 0, none, [], false, df⟩ rfl rfl
      h1 (by dsimp only; omega) (by rw [hva_eq g]; exact Nat.le_refl _) rfl p1 p2 (by dsimp only; decide) (fun _ => rfl)
  have q : quota 10 p (last m + 1 - df) = min (chunk m) (last m + 1 - df) := by
    unfold quota chunk
    rw [if_neg (by decide)]
    omega
  dsimp only at r2 r3
  rw [q] at r2 r3
  refine ⟨ls, ?_, r2⟩
  have := Dumps.of_setup (smart := false) (bpl := none) (a := none) (b := none) p3 r1
  rw [r3, hva_eq g] at this
  exact this

/-- C97.  Repeating `dump /h memory` shows the memory from its start, ten lines at a time, without
gaps and overlaps, and then from the start again, for ever.
Missing: memories with one location more than a number of full dumps (`c97_last_false`). -/
theorem c97_again_partial {m : DMem} (g : Good m) (h : m.size = 1 ∨ m.size % chunk m ≠ 1) (n : Nat) :
    ∃ lss df, Again m m.lva lss df ∧ lss.length = n ∧
      ∀ i < n, ∃ ls, lss[i]? = some ls ∧ Rows m.rd (perLine m) (block m (i % ((m.size + chunk m - 1) / chunk m))) ls := by
  have hl : last m = m.lva + m.size - 1 := rfl
  have gs := g.size; have gt := g.top
  have hch : 1 < chunk m := by unfold chunk perLine; split <;> decide
  generalize hP : chunk m = P at h hch
  generalize hC : (m.size + P - 1) / P = C
  have c1 : P * C ≤ m.size + P - 1 := by rw [← hC]; exact Nat.mul_div_le _ _
  have c2 : m.size ≤ P * C := by
    have := Nat.div_add_mod (m.size + P - 1) P
    have := Nat.mod_lt (m.size + P - 1) (show P > 0 by omega)
    rw [hC] at *
    omega
  have cp : 0 < C := by
    rcases Nat.eq_zero_or_pos C with h | h
    · subst h; omega
    · exact h
  have step : ∀ j, j < C → ∃ ls, Dumps m false (m.lva + j * P) none none none
      (if j + 1 < C then m.lva + (j + 1) * P else m.lva) ls ∧ Rows m.rd (perLine m) (block m j) ls := by
    intro j hj
    have j1 : j * P + P ≤ C * P := by
      have := Nat.mul_le_mul_right P (show j + 1 ≤ C by omega)
      rwa [Nat.add_mul, Nat.one_mul] at this
    rw [Nat.mul_comm] at c1 c2
    obtain ⟨ls, d, r⟩ := again_one g (m.lva + j * P) (by omega) (by omega)
    rw [hP] at d r
    refine ⟨ls, ?_, ?_⟩
    · by_cases hj1 : j + 1 < C
      · have j2 : (j + 1) * P + P ≤ C * P := by
          have := Nat.mul_le_mul_right P (show j + 2 ≤ C by omega)
          rw [show j + 2 = (j + 1) + 1 by omega, Nat.add_mul (j + 1), Nat.one_mul] at this
          exact this
        have j3 : (j + 1) * P = j * P + P := by rw [Nat.add_mul, Nat.one_mul]
        have hne : m.size ≠ (j + 1) * P + 1 := by
          intro he
          rcases h with h | h
          · rw [h] at he
            have : (j + 1) * P ≥ P := by omega
            omega
          · apply h
            rw [he, Nat.mul_comm, Nat.mul_add_mod, Nat.mod_eq_of_lt hch]
        rw [if_pos hj1]
        rw [if_neg (by omega)] at d
        rw [show m.lva + (j + 1) * P = m.lva + j * P + min P (last m + 1 - (m.lva + j * P)) by omega]
        exact d
      · rw [if_neg hj1]
        have : C = j + 1 := by omega
        subst this
        rw [Nat.add_mul, Nat.one_mul] at c1 c2
        rw [if_pos (by omega)] at d
        exact d
    · unfold block
      rw [hP, show m.size - j * P = last m + 1 - (m.lva + j * P) by omega]
      exact r
  have main : ∀ n j, j < C → ∃ lss df, Again m (m.lva + j * P) lss df ∧ lss.length = n ∧
      ∀ i < n, ∃ ls, lss[i]? = some ls ∧ Rows m.rd (perLine m) (block m ((j + i) % C)) ls := by
    intro n
    induction n with
    | zero => intro j _; exact ⟨[], _, Again.done _, rfl, fun i hi => absurd hi (by omega)⟩
    | succ n ih =>
      intro j hj
      obtain ⟨ls, d, r⟩ := step j hj
      have next : ∃ j', j' < C ∧ (if j + 1 < C then m.lva + (j + 1) * P else m.lva) = m.lva + j' * P ∧
          ∀ i, (j' + i) % C = (j + (i + 1)) % C := by
        by_cases hj1 : j + 1 < C
        · exact ⟨j + 1, hj1, by rw [if_pos hj1], fun i => by congr 1; omega⟩
        · refine ⟨0, cp, by rw [if_neg hj1]; omega, fun i => ?_⟩
          rw [show j + (i + 1) = (0 + i) + C by omega, Nat.add_mod_right]
      obtain ⟨j', hj', he, hm⟩ := next
      rw [he] at d
      obtain ⟨lss, df, a1, a2, a3⟩ := ih j' hj'
      refine ⟨ls :: lss, df, Again.more d a1, by simp [a2], ?_⟩
      intro i hi
      cases i with
      | zero => exact ⟨ls, rfl, by rw [Nat.add_zero, Nat.mod_eq_of_lt hj]; exact r⟩
      | succ i =>
        obtain ⟨l, l1, l2⟩ := a3 i (by omega)
        exact ⟨l, by simpa using l1, by rw [← hm]; exact l2⟩
  obtain ⟨lss, df, a1, a2, a3⟩ := main n 0 cp
  rw [Nat.zero_mul, Nat.add_zero] at a1
  exact ⟨lss, df, a1, a2, fun i hi => by have := a3 i hi; rwa [Nat.zero_add] at this⟩

example : block ex100 0 = List.range' 16 80 ∧ block ex100 1 = List.range' 96 20 ∧ (100 + chunk ex100 - 1) / chunk ex100 = 2 := by
  decide +kernel

/-- C97 is false of the program: when one location is left it is skipped, and however often the
dump is repeated, the last location is never shown. -/
theorem c97_last_false {m : DMem} (g : Good m) (q : Nat) (hq : 0 < q) (h : m.size = q * chunk m + 1) :
    ∀ lss df, Again m m.lva lss df → ∀ ls ∈ lss, ∃ as, Rows m.rd (perLine m) as ls ∧ last m ∉ as := by
  have hl : last m = m.lva + m.size - 1 := rfl
  have gs := g.size; have gt := g.top
  have hch : 1 < chunk m := by unfold chunk perLine; split <;> decide
  generalize hP : chunk m = P at h hch
  have main : ∀ d lss e, Again m d lss e → (∃ j, j < q ∧ d = m.lva + j * P) →
      ∀ ls ∈ lss, ∃ as, Rows m.rd (perLine m) as ls ∧ last m ∉ as := by
    intro d lss e ha
    induction ha with
    | done => intro _ ls hls; cases hls
    | more hd _ ih =>
      rename_i df d' e' ls' r' _
      intro ⟨j, hj, he⟩ ls hls
      have j1 : j * P + P ≤ q * P := by
        have := Nat.mul_le_mul_right P (show j + 1 ≤ q by omega)
        rwa [Nat.add_mul, Nat.one_mul] at this
      obtain ⟨ls0, d0, r0⟩ := again_one g df (by omega) (by omega)
      rw [hP] at d0 r0
      obtain ⟨u1, u2⟩ := hd.unique d0
      rcases List.mem_cons.1 hls with rfl | hls
      · rw [u2]
        refine ⟨_, r0, ?_⟩
        rw [List.mem_range'_1]; omega
      · apply ih _ ls hls
        by_cases hj1 : j + 1 < q
        · have j2 : (j + 1) * P + P ≤ q * P := by
            have := Nat.mul_le_mul_right P (show j + 2 ≤ q by omega)
            rw [show j + 2 = (j + 1) + 1 by omega, Nat.add_mul (j + 1), Nat.one_mul] at this
            exact this
          have j3 : (j + 1) * P = j * P + P := by rw [Nat.add_mul, Nat.one_mul]
          refine ⟨j + 1, hj1, ?_⟩
          rw [if_neg (by omega)] at u1
          omega
        · refine ⟨0, hq, ?_⟩
          have : q = j + 1 := by omega
          subst this
          rw [Nat.add_mul, Nat.one_mul] at h
          rw [if_pos (by omega)] at u1
          omega
  intro lss df ha
  exact main _ _ _ ha ⟨0, hq, by omega⟩

example : Good { ex100 with size := 81 } ∧ ({ ex100 with size := 81 } : DMem).size = 1 * chunk { ex100 with size := 81 } + 1 :=
  ⟨⟨by decide, by decide⟩, by decide⟩

/-- C97 is false of the program: after a dump up to the last but one location, the next dump starts
from the beginning and not with the last location. -/
theorem c97_next_false : (dumpCmd 100 ex100 false 16 (some 16) (some 114) none).map (·.1) = some 16 ∧ last ex100 = 115 := by
  decide +kernel

/-! ## C98: names and code -/

/-- C98.  `dump memory a b [n]` shows every location from `a` to `b` once, in order; at every
location all its names are shown, each on a line of its own; a location with names is never in the
middle of a line; and every name of bits comes with the value of these bits.
Missing: downwards, and dumps without addresses (`c98_lines_false`). -/
theorem c98_names_partial {m : DMem} (g : Good m) (hm : m.rom = none)
    (hn : ∀ a, ∃ ws fs, m.vars a = ws ++ fs ∧ Names m.width ws fs) (df a b : Nat) (hab : a ≤ b) (bpl : Option Nat)
    (h : ∀ k, bpl = some k → 0 < k ∧ k < 2147483648) :
    ∃ df' ls, Dumps m true df (some a) (some b) (bpl.map Nat.cast) df' ls ∧ Labelled m (per m bpl) (between m a b) ls := by
  have hl : last m = m.lva + m.size - 1 := rfl
  have gs := g.size; have gt := g.top
  have hbt : between m a b = List.range' (max a m.lva) (min b (last m) + 1 - max a m.lva) := by
    unfold between upto; rw [if_pos hab]
  by_cases hx : max a m.lva ≤ min b (last m)
  · obtain ⟨p, p1, p2, p3⟩ := setup_up g (k := ⟨1, none⟩) (df := df) (ads := ⟨some a, some b⟩) (bpl_ok h) (max a m.lva)
      (min b (last m)) rfl rfl hx
    rw [bplOf_per] at p2
    obtain ⟨t, ls, r1, r2⟩ := named_dump hm hn (by rw [hva_eq g]; omega) (per m bpl) (min b (last m) + 1 - max a m.lva)
      ⟨max a m.lva, min b (last m) + 1, true, p, -1, 0, none, [], false, df⟩ rfl rfl
      (by dsimp only; omega) (by dsimp only; omega) (by rw [hva_eq g]; dsimp only; omega) rfl rfl p1
      (by rcases p2 with h | h
          · exact Or.inl h
          · exact Or.inr ⟨h.1, by dsimp only at *; omega⟩) (by dsimp only; decide)
    refine ⟨_, ls, Dumps.of_setup (smart := true) p3 r1, ?_⟩
    rw [hbt]; exact r2
  · refine ⟨df, [], dumps_nothing (setup_none g ?_), ?_⟩
    · dsimp only [cmdAds, Option.getD_some]; omega
    · rw [hbt, range'_empty (by omega)]; exact Labelled.done

/-- The names of 20 and of 22. -/
def exVars : Nat → List DVar
  | 20 => [⟨"x", none⟩, ⟨"y", none⟩]
  | 22 => [⟨"psw", none⟩, ⟨"all", some (7, 0)⟩, ⟨"cy", some (7, 7)⟩, ⟨"rs", some (4, 3)⟩, ⟨"bank", some (4, 3)⟩]
  | _ => []

def exNames : DMem := { ex100 with vars := exVars }

example : ∀ a, ∃ ws fs, exNames.vars a = ws ++ fs ∧ Names exNames.width ws fs := by
  intro a
  unfold exNames exVars
  dsimp only
  split
  · exact ⟨[⟨"x", none⟩, ⟨"y", none⟩], [], rfl, ⟨by simp, by simp, by simp⟩⟩
  · exact ⟨[⟨"psw", none⟩, ⟨"all", some (7, 0)⟩], [⟨"cy", some (7, 7)⟩, ⟨"rs", some (4, 3)⟩, ⟨"bank", some (4, 3)⟩], rfl,
      ⟨by simp [ex100], by simp, by simp [ex100]; exact ⟨⟨7, 7, by omega⟩, 4, 3, by omega⟩⟩⟩
  · exact ⟨[], [], rfl, ⟨by simp, by simp, by simp⟩⟩

example : dumpCmd 100 exNames true 0 (some 18) (some 24) none =
    some (25, [.row (some 18) none [54, 57], .label (some 20) "x", .row none (some "y") [60, 63],
      .label (some 22) "psw", .bits none (some "all") 7 0 66, .bits none (some "cy") 7 7 0, .label none "rs",
      .bits none (some "bank") 4 3 0, .row (some 23) none [69, 72]]) := by decide +kernel

/-- C98.  The default dump of the program memory shows every instruction from `a` on, one after the
other, up to `b`. -/
theorem c98_code {m : DMem} (g : Good m) {len : Nat → Nat} (hm : m.rom = some len) (h1 : ∀ a, 0 < len a) (h4 : ∀ a, len a ≤ 16)
    (ht : last m + 17 < 4294967296) (df a b : Nat) (ha : m.lva ≤ a) (hab : a ≤ b) (hb : b ≤ last m) :
    ∃ df' l, Dumps m true df (some a) (some b) none df' (l.map Line.inst) ∧ Code len (b + 1) a l := by
  have hl : last m = m.lva + m.size - 1 := rfl
  obtain ⟨p, p1, p2, p3⟩ := setup_up g (k := ⟨1, none⟩) (df := df) (ads := ⟨some a, some b⟩) (bpl := none) (by simp) a
      b (by simp; omega) (by simp; omega) hab
  obtain ⟨t, ls, l, r1, r2, r3⟩ := code_up hm h1 h4 (by rw [hva_eq g]; exact ht) (b + 1 - a)
    ⟨a, b + 1, true, p, -1, 0, none, [], false, df⟩ rfl rfl (by rw [hva_eq g]; dsimp only; omega) (by dsimp only; decide)
  have d := Dumps.of_setup (m := m) (smart := true) (df := df) (a := some a) (b := some b) (bpl := none) p3 r1
  rw [r3] at d
  exact ⟨_, l, d, r2⟩

example : dumpCmd 100 { ex100 with rom := some fun a => a % 3 + 1 } true 0 (some 18) (some 24) none =
    some (25, [.inst 18, .inst 19, .inst 21, .inst 22, .inst 24]) := by decide +kernel

/-- The memory whose tenth line starts with a location of two names. -/
def exTwo : DMem := { lva := 0, size := 256, width := 8, rd := fun a => a, vars := fun a => if a = 72 then [⟨"x", none⟩, ⟨"y", none⟩] else [] }

/-- C98 is false of the program: `dump memory` stops after ten lines, but not when the last of
them is due at a location with two names: then the whole memory is shown. -/
theorem c98_lines_false : (dumpCmd 100 { exTwo with vars := fun _ => [] } true 0 none none none).map (·.2.length) = some 10 ∧
    (dumpCmd 100 exTwo true 0 none none none).map (·.2.length) = some 33 := by decide +kernel

/-! ## C99: strings and bytes -/

/-- C99.  `dump /s memory a` writes the bytes from `a` to the first zero or to the end of the
memory, as they are written in a string of C, and perhaps a new line. -/
theorem c99_string {m : DMem} (g : Good m) (a : Nat) (h1 : m.lva ≤ a) (h2 : a ≤ last m) :
    ∃ n df l t, dumpS n m ⟨some a, some (u32 (a + 64))⟩ = some (df, t) ∧ Str m a l ∧
      ∃ s, CString s (l.map fun x => m.rd x % 256) ∧ (t = s ∨ t = s ++ ['\n']) := by
  obtain ⟨n, l, t, d, i1, i2, i3⟩ := strLoop_ok g (last m + 1 - a) a 10 rfl h1 (by omega)
  refine ⟨n, _, l, _, by unfold dumpS; rw [Option.getD_some, i3]; rfl, i1, t, i2, ?_⟩
  dsimp only
  split
  · right; rfl
  · left; rw [List.append_nil]

theorem reads_eq {a c : Nat} (h : a + c < 4294967296) :
    (List.range (sub32 (a + c) a + 1)).map (fun i => u32 (a + i)) = List.range' a (c + 1) := by
  rw [show sub32 (a + c) a = c by unfold sub32; omega, List.range'_eq_map_range]
  apply List.map_congr_left
  intro i hi
  have := List.mem_range.1 hi
  unfold u32; omega

/-- C99.  `dump /b memory a b` writes the low bytes of exactly the locations of the memory from `a`
to `b`.
Missing: the location after the last one is also read (`c99_reads_false`). -/
theorem c99_bytes_partial {m : DMem} (g : Good m) (a b : Nat) (hab : a ≤ b) (h1 : m.lva ≤ a) (h2 : a ≤ last m) (bpl : Int) :
    ∃ n df, dumpB n m ⟨some a, some b⟩ bpl = some (df, (between m a b).map (fun x => m.rd x % 256),
      between m a b ++ [min b (last m) + 1]) := by
  have hl : last m = m.lva + m.size - 1 := rfl
  have gt := g.top
  obtain ⟨n, hn⟩ := binLoop_ok g b (min b (last m) + 1 - a) a rfl h1
  refine ⟨n, if a + (min b (last m) + 1 - a) ≥ m.hva then m.lva else a + (min b (last m) + 1 - a), ?_⟩
  unfold dumpB
  simp only [Option.getD_some]
  rw [hn]
  unfold between upto
  rw [if_pos hab, show max a m.lva = a by omega]
  simp only [Option.map_some]
  congr 3
  rw [reads_eq (by omega)]
  rw [List.range'_1_concat]
  congr 2; omega

/-- `dump /b memory` writes the whole of a memory that starts at 0. -/
theorem c99_whole {m : DMem} (g : Good m) (h0 : m.lva = 0) (ht : last m < 4294967285) :
    ∃ n df r, dumpB n m ⟨none, none⟩ (-1) = some (df, (List.range m.size).map (fun x => m.rd x % 256), r) := by
  have hl : last m = m.lva + m.size - 1 := rfl
  have gs := g.size
  obtain ⟨n, hn⟩ := binLoop_ok g 4294967285 (last m + 1) 0 (by omega) (by omega)
  refine ⟨n, if 0 + (last m + 1) ≥ m.hva then m.lva else 0 + (last m + 1),
    (List.range (sub32 (0 + (last m + 1)) 0 + 1)).map fun i => u32 (0 + i), ?_⟩
  unfold dumpB
  simp only [Option.getD_none]
  rw [show (BitVec.ofInt 32 (((0 : Nat) : Int) + 10 * -1 - 1)).toNat = 4294967285 by decide +kernel, hn]
  rw [show last m + 1 = m.size by omega, ← List.range_eq_range']
  rfl

/-- The memory with the text `A`, newline, a byte 200, `7` and zero at 20. -/
def exText : DMem := { ex100 with rd := fun a => [65, 10, 200, 55].getD (a - 20) 0 }

example : Str exText 20 [20, 21, 22, 23] := by
  refine .char _ _ (by decide) (by decide) (.char _ _ (by decide) (by decide) (.char _ _ (by decide) (by decide)
    (.char _ _ (by decide) (by decide) (.zero _ (by decide)))))
example : dumpS 100 exText ⟨some 20, some 84⟩ = some (24, "A\\n\\3107\n".toList) := by decide +kernel
example : (dumpB 100 exText ⟨some 20, some 23⟩ (-1)).map (·.2.1) = some [65, 10, 200, 55] := by decide +kernel

/-- C99 is false of the program: a dump of bytes also reads the location after the last one, even
when it is outside of the memory. -/
theorem c99_reads_false : dumpB 100 ex100 ⟨some 115, some 115⟩ (-1) = some (16, [89], [115, 116]) ∧ last ex100 = 115 := by
  decide +kernel

/-- C99 is false of the program: a string as `dump /s` writes it is not what `set memory` reads:
the bytes 200 and 1, `7` come back as other ones. -/
theorem c99_back_false :
    (let s := escape 200; (Cmd.procEscape s.length s).map Char.toNat = [51, 49, 48]) ∧
    (let s := escape 1 ++ escape 55; (Cmd.procEscape s.length s).map Char.toNat = [15]) := by decide +kernel

end Ucsim.Dump
