import Verif.Pdk.Stack
/-
The chip with its processors (FPP) that take turns: cl_pdk of /repo/src/sims/pdk.src/pdk.cc.
-/
namespace Ucsim.Pdk

/-- cl_pdk, pdkcl.h 241-254: fpps[], what they share, act -/
structure Chip where
  cpu : Nat → Cpu
  sh : Sh
  act : Nat

/-- is FPP `i` enabled: rFPPEN & (1<<i) -/
def on (en : Byte) (i : Nat) : Bool := en.getLsbD i

/-- The loops `while (!(rFPPEN & (1<<act))) act= (act+1)%nuof_fpp`, pdk.cc 946-947 and 968-970, with
a bound on the passes; as act is below nuof_fpp, a loop that makes nuof_fpp passes never ends. -/
def seek (en : Byte) (n : Nat) : Nat → Nat → Option Nat
  | 0, _ => none
  | k + 1, a => if on en a then some a else seek en n k ((a + 1) % n)

/-- what exec_inst tells -/
inductive Told
  | go | inv | halt
  deriving DecidableEq

/-- cl_pdk::exec_inst, pdk.cc 940-976. `none`: it does not return. The second component: the FPP that
ran. -/
def exec (v : Var) (ch : Chip) : Option (Chip × Option Nat × Told) :=
  if ch.sh.mode = .pd then some (ch, none, .halt)
  else match seek ch.sh.fppen ch.sh.n ch.sh.n ch.act with
    | none => none
    | some a =>
      if ch.sh.mode = .run then
        let o := step v a (ch.cpu a) ch.sh
        let cpu' : Nat → Cpu := fun i => if i = a then o.cpu else ch.cpu i
        let t := if o.ok then Told.go else Told.inv
        if o.sh.fppen ≠ 1 then
          match seek o.sh.fppen o.sh.n o.sh.n ((a + 1) % o.sh.n) with
          | none => none
          | some b => some (⟨cpu', o.sh, b⟩, some a, t)
        else some (⟨cpu', o.sh, a⟩, some a, t)
      else some (⟨ch.cpu, ch.sh, a⟩, none, .halt)

/-- cl_pdk::reset, pdk.cc 836-859, cl_fpp::reset, pdk.cc 122-130, and the resets of the hardware in
their order: osc.cc 101-109 (CLKMD, io register 3, and EOSCR, 0x0a), t16.cc 64-71, wdt.cc 61-68 -/
def chipReset (ch : Chip) : Chip :=
  { cpu := fun i => if i < ch.sh.n then { ch.cpu i with A := 0, PC := i } else ch.cpu i
    sh := { ch.sh with mode := .run, t16 := 0, wdt := 0, sfr := upd (upd (upd (upd ch.sh.sfr 3 0xf6) 10 0x80) 6 0) 3 0 }
    act := ch.act }

/-! ### Each FPP has its own A, F, SP and PC -/

/-- C144: an instruction of one FPP changes A, F, SP and PC of no other one; the FPP that ran is
enabled, and it and the shared memory are as if it were alone -/
theorem c144_private (v : Var) (ch ch' : Chip) (r : Option Nat) (t : Told) (h : exec v ch = some (ch', r, t)) :
    (∀ i, r ≠ some i → ch'.cpu i = ch.cpu i) ∧
    (∀ a, r = some a → on ch.sh.fppen a = true ∧ ch'.cpu a = (step v a (ch.cpu a) ch.sh).cpu ∧
      ch'.sh = (step v a (ch.cpu a) ch.sh).sh ∧ (t = .go ↔ (step v a (ch.cpu a) ch.sh).ok = true)) ∧
    (r = none → ch'.sh = ch.sh) := by
  have seek_on : ∀ en n k a b, seek en n k a = some b → on en b = true := by
    intro en n k
    induction k with
    | zero => intro a b h; cases h
    | succ k ih =>
      intro a b h
      simp only [seek] at h
      split at h
      · cases h; assumption
      · exact ih _ _ h
  unfold exec at h
  split at h
  · cases h; exact ⟨fun _ _ => rfl, fun a h => (nomatch h), fun _ => rfl⟩
  · split at h
    · cases h
    · rename_i a hs
      have hon := seek_on _ _ _ _ _ hs
      split at h
      · simp only at h
        have key : ∀ b, some ((⟨fun i => if i = a then (step v a (ch.cpu a) ch.sh).cpu else ch.cpu i, (step v a (ch.cpu a) ch.sh).sh, b⟩ : Chip), some a,
            if (step v a (ch.cpu a) ch.sh).ok = true then Told.go else Told.inv) = some (ch', r, t) →
            (∀ i, r ≠ some i → ch'.cpu i = ch.cpu i) ∧
            (∀ a, r = some a → on ch.sh.fppen a = true ∧ ch'.cpu a = (step v a (ch.cpu a) ch.sh).cpu ∧
              ch'.sh = (step v a (ch.cpu a) ch.sh).sh ∧ (t = .go ↔ (step v a (ch.cpu a) ch.sh).ok = true)) ∧
            (r = none → ch'.sh = ch.sh) := by
          intro b hb
          cases hb
          refine ⟨fun i hi => ?_, fun a' ha => ?_, fun h => (nomatch h)⟩
          · simp only; rw [if_neg (fun e => hi (by rw [e]))]
          · cases ha
            refine ⟨hon, by simp, rfl, ?_⟩
            cases (step v a (ch.cpu a) ch.sh).ok <;> simp
        split at h
        · split at h
          · cases h
          · exact key _ h
        · exact key _ h
      · cases h; exact ⟨fun _ _ => rfl, fun a h => (nomatch h), fun _ => rfl⟩

/-! ### Turns -/

theorem seek_some (en : Byte) (n : Nat) (hn : 0 < n) (k a b : Nat) (ha : a < n) (h : seek en n k a = some b) :
    on en b = true ∧ ∃ t, t < k ∧ b = (a + t) % n ∧ ∀ u, u < t → on en ((a + u) % n) = false := by
  induction k generalizing a with
  | zero => cases h
  | succ k ih =>
    simp only [seek] at h
    split at h
    · rename_i h1
      cases h
      exact ⟨h1, 0, by omega, by rw [Nat.add_zero, Nat.mod_eq_of_lt ha], fun u hu => absurd hu (by omega)⟩
    · rename_i h1
      obtain ⟨h2, t, h3, h4, h5⟩ := ih ((a + 1) % n) (Nat.mod_lt _ hn) h
      have e : ∀ u, ((a + 1) % n + u) % n = (a + (u + 1)) % n := by
        intro u; rw [Nat.mod_add_mod]; congr 1; omega
      refine ⟨h2, t + 1, by omega, by rw [h4, e], ?_⟩
      intro u hu
      cases u with
      | zero => rw [Nat.add_zero, Nat.mod_eq_of_lt ha]; simpa using h1
      | succ u => rw [← e]; exact h5 u (by omega)

theorem seek_found (en : Byte) (n : Nat) (k a t : Nat) (ht : t < k) (h : on en ((a + t) % n) = true) (ha : a < n) :
    ∃ b, seek en n k a = some b := by
  induction k generalizing a t with
  | zero => omega
  | succ k ih =>
    simp only [seek]
    split
    · exact ⟨a, rfl⟩
    · rename_i h1
      cases t with
      | zero => rw [Nat.add_zero, Nat.mod_eq_of_lt ha] at h; exact absurd h h1
      | succ t =>
        refine ih ((a + 1) % n) t (by omega) ?_ (Nat.mod_lt _ (by omega))
        rw [Nat.mod_add_mod, show a + 1 + t = a + (t + 1) by omega]; exact h

theorem seek_none (en : Byte) (n : Nat) (k a : Nat) (hn : 0 < n) (ha : a < n) (h : ∀ i, i < n → on en i = false) :
    seek en n k a = none := by
  induction k generalizing a with
  | zero => rfl
  | succ k ih =>
    simp only [seek, h a ha, Bool.false_eq_true, if_false]
    exact ih _ (Nat.mod_lt _ hn)

theorem putIo_n (a : Nat) (x : Byte) (c : Cpu) (s : Sh) : (putIo a x c s).2.n = s.n := by
  unfold putIo; split; rfl; split; rfl; split <;> rfl

theorem run_n (v : Var) (id : Nat) (f : Form) (code : Word) (c : Cpu) (s : Sh) : (run v id f code c s).2.1.n = s.n := by
  cases f
  case alu o d => cases o <;> cases d <;> rfl
  case alc sub d => cases sub <;> cases d <;> rfl
  case sh o b => cases b <;> rfl
  case un b b' => cases b' <;> rfl
  case bit b b' => cases b' <;> first | rfl | exact putIo_n _ _ _ _
  case tsn b b' => cases b' <;> rfl
  case izs b b' => cases b' <;> rfl
  case comp b => cases b <;> rfl
  case nadd b => cases b <;> rfl
  case movIA => exact putIo_n _ _ _ _
  case xorIA => exact putIo_n _ _ _ _
  case swapc => exact putIo_n _ _ _ _
  case popaf => simp only [run]; split <;> rfl
  all_goals rfl

theorem step_n (v : Var) (id : Nat) (c : Cpu) (s : Sh) : (step v id c s).sh.n = s.n := by
  cases hp : pick (chain v) (s.rom c.PC) with
  | none => simp only [step, hp]
  | some f => simp only [step, hp]; exact run_n _ _ _ _ _ _

/-- A chip as it is between two instructions: there is an FPP, and act is one of them. -/
def Chip.Ok (ch : Chip) : Prop := 0 < ch.sh.n ∧ ch.sh.n ≤ 8 ∧ ch.act < ch.sh.n

theorem exec_ok (v : Var) (ch ch' : Chip) (r : Option Nat) (t : Told) (hok : ch.Ok) (h : exec v ch = some (ch', r, t)) : ch'.Ok := by
  obtain ⟨h0, h8, ha⟩ := hok
  have lt : ∀ en k a b, a < ch.sh.n → seek en ch.sh.n k a = some b → b < ch.sh.n := by
    intro en k a b ha hb
    obtain ⟨_, t, _, e, _⟩ := seek_some en _ h0 k a b ha hb
    rw [e]; exact Nat.mod_lt _ h0
  unfold exec at h
  split at h
  · cases h; exact ⟨h0, h8, ha⟩
  · split at h
    · cases h
    · rename_i a hs
      have hal := lt _ _ _ _ ha hs
      split at h
      · simp only [step_n] at h
        split at h
        · split at h
          · cases h
          · rename_i b hb
            cases h
            refine ⟨by simp only [step_n]; exact h0, by simp only [step_n]; exact h8, ?_⟩
            simp only [step_n]
            exact lt _ _ _ _ (Nat.mod_lt _ h0) hb
        · cases h
          refine ⟨by simp only [step_n]; exact h0, by simp only [step_n]; exact h8, ?_⟩
          simp only [step_n]; exact hal
      · cases h; exact ⟨h0, h8, hal⟩

/-- C145: of the enabled FPPs the first one from `act` on runs its instruction; after that `act` is the
next enabled one in the circle. Both as the data sheet has it: the FPPs take turns, one instruction
each. What is missing: see c145_false. -/
theorem c145_turns_partial (v : Var) (ch ch' : Chip) (a : Nat) (t : Told) (hok : ch.Ok)
    (h : exec v ch = some (ch', some a, t)) :
    (∃ d, d < ch.sh.n ∧ a = (ch.act + d) % ch.sh.n ∧ ∀ u, u < d → on ch.sh.fppen ((ch.act + u) % ch.sh.n) = false) ∧
    on ch.sh.fppen a = true ∧
    (ch'.sh.fppen ≠ 1 → on ch'.sh.fppen ch'.act = true ∧
      ∃ d, d < ch.sh.n ∧ ch'.act = (a + (d + 1)) % ch.sh.n ∧ ∀ u, u < d → on ch'.sh.fppen ((a + (u + 1)) % ch.sh.n) = false) ∧
    (ch'.sh.fppen = 1 → ch'.act = a) := by
  obtain ⟨h0, h8, ha⟩ := hok
  unfold exec at h
  split at h
  · cases h
  · split at h
    · cases h
    · rename_i a' hs
      obtain ⟨q1, q2⟩ := seek_some _ _ h0 _ _ _ ha hs
      split at h
      · simp only [step_n] at h
        split at h
        · rename_i hne
          split at h
          · cases h
          · rename_i b hb
            cases h
            refine ⟨q2, q1, fun _ => ?_, fun e => absurd e hne⟩
            obtain ⟨p1, d, p2, p3, p4⟩ := seek_some _ _ h0 _ _ _ (Nat.mod_lt _ h0) hb
            refine ⟨p1, d, p2, ?_, ?_⟩
            · simp only; rw [p3, Nat.mod_add_mod]; congr 1; omega
            · intro u hu
              have := p4 u hu
              rw [Nat.mod_add_mod] at this
              rw [show a + (u + 1) = a + 1 + u by omega]; exact this
        · rename_i hne
          cases h
          exact ⟨q2, q1, fun e => absurd e hne, fun _ => rfl⟩
      · cases h

/-- C145: an instruction that leaves an existing FPP enabled ends, and so the chip goes on -/
theorem c145_ends_partial (v : Var) (ch : Chip) (hok : ch.Ok) (i j : Nat) (hi : i < ch.sh.n) (hon : on ch.sh.fppen i = true)
    (hj : j < ch.sh.n) (hon' : ∀ a, on (step v a (ch.cpu a) ch.sh).sh.fppen j = true) : (exec v ch).isSome = true := by
  obtain ⟨h0, h8, ha⟩ := hok
  have dist : ∀ a i, a < ch.sh.n → i < ch.sh.n → ∃ t, t < ch.sh.n ∧ (a + t) % ch.sh.n = i := by
    intro a i ha hi
    by_cases h : a ≤ i
    · exact ⟨i - a, by omega, by rw [show a + (i - a) = i by omega, Nat.mod_eq_of_lt hi]⟩
    · exact ⟨i + ch.sh.n - a, by omega, by rw [show a + (i + ch.sh.n - a) = i + ch.sh.n by omega, Nat.add_mod_right, Nat.mod_eq_of_lt hi]⟩
  obtain ⟨t, t1, t2⟩ := dist ch.act i ha hi
  obtain ⟨a, e⟩ := seek_found ch.sh.fppen ch.sh.n ch.sh.n ch.act t t1 (by rw [t2]; exact hon) ha
  unfold exec
  split
  · rfl
  · simp only [e]
    split
    · split
      · obtain ⟨t', t1', t2'⟩ := dist ((a + 1) % ch.sh.n) j (Nat.mod_lt _ h0) hj
        obtain ⟨b, e'⟩ := seek_found (step v a (ch.cpu a) ch.sh).sh.fppen ch.sh.n ch.sh.n ((a + 1) % ch.sh.n) t' t1' (by rw [t2']; exact hon' a) (Nat.mod_lt _ h0)
        simp only [step_n, e']; rfl
      · rfl
    · rfl

/-- the chip after `k` instructions; `none` if one of them does not end -/
def execN (v : Var) : Nat → Chip → Option Chip
  | 0, ch => some ch
  | k + 1, ch => (exec v ch).bind (fun r => execN v k r.1)

/-- how far `j` is from `a` in the circle of `n` -/
def dist (n a j : Nat) : Nat := (j + n - a) % n

theorem dist_zero (n a j : Nat) (ha : a < n) (hj : j < n) (h : dist n a j = 0) : a = j := by
  unfold dist at h
  by_cases hl : a ≤ j
  · rw [show j + n - a = (j - a) + n by omega, Nat.add_mod_right, Nat.mod_eq_of_lt (by omega)] at h; omega
  · rw [Nat.mod_eq_of_lt (by omega)] at h; omega

/-- going `d` on without meeting `j` brings nearer by `d` -/
theorem dist_go (n a j d : Nat) (hn : 0 < n) (ha : a < n) (hj : j < n) (hd : d < n)
    (hmiss : ∀ u, u < d → (a + u) % n ≠ j) : dist n ((a + d) % n) j + d = dist n a j := by
  have key : ∀ a, a < n → dist n a j = if a ≤ j then j - a else j + n - a := by
    intro a ha
    unfold dist
    split
    · rw [show j + n - a = (j - a) + n by omega, Nat.add_mod_right, Nat.mod_eq_of_lt (by omega)]
    · rw [Nat.mod_eq_of_lt (by omega)]
  induction d with
  | zero => simp [Nat.mod_eq_of_lt ha]
  | succ d ih =>
    have e := ih (by omega) (fun u hu => hmiss u (by omega))
    have hm := hmiss d (by omega)
    have hb : (a + d) % n < n := Nat.mod_lt _ hn
    have hs : (a + (d + 1)) % n = ((a + d) % n + 1) % n := by rw [Nat.mod_add_mod]; rfl
    rw [hs]
    generalize (a + d) % n = b at *
    have hb' : (b + 1) % n = if b + 1 = n then 0 else b + 1 := by
      split
      · rename_i h; rw [h, Nat.mod_self]
      · rw [Nat.mod_eq_of_lt (by omega)]
    rw [key b hb] at e
    rw [key _ (Nat.mod_lt _ hn), hb']
    split at e <;> split <;> split <;> omega

/-- C145, fairness: as long as FPPEN stays the same, every enabled FPP gets its turn within as many
instructions as there are FPPs -/
theorem c145_fair_partial (v : Var) (ch : Chip) (hok : ch.Ok) (j : Nat) (hj : j < ch.sh.n) (en : Byte) (hon : on en j = true)
    (hsame : ∀ k ch', k ≤ ch.sh.n → execN v k ch = some ch' → ch'.sh.fppen = en ∧ ch'.sh.mode = .run)
    (hends : ∀ k, k ≤ ch.sh.n → (execN v k ch).isSome = true) :
    ∃ k ch' ch'' t, k < ch.sh.n ∧ execN v k ch = some ch' ∧ exec v ch' = some (ch'', some j, t) := by
  suffices H : ∀ (m : Nat) (ch : Chip), ch.Ok → j < ch.sh.n → dist ch.sh.n ch.act j < m → m ≤ ch.sh.n →
      (∀ k ch', k ≤ m → execN v k ch = some ch' → ch'.sh.fppen = en ∧ ch'.sh.mode = .run) →
      (∀ k, k ≤ m → (execN v k ch).isSome = true) →
      ∃ k ch' ch'' t, k < m ∧ execN v k ch = some ch' ∧ exec v ch' = some (ch'', some j, t) from
    H ch.sh.n ch hok hj (Nat.mod_lt _ hok.1) (Nat.le_refl _) hsame hends
  intro m
  induction m with
  | zero => intro ch _ _ h; omega
  | succ m ih =>
    intro ch hok hj hd hmn hsame hends
    have s0 := hsame 0 ch (by omega) rfl
    have s1 := hends 1 (by omega)
    simp only [execN] at s1
    cases he : exec v ch with
    | none => rw [he] at s1; cases s1
    | some r =>
      obtain ⟨ch', r, t⟩ := r
      have hr : ∃ a, r = some a := by
        unfold exec at he
        simp only [s0.2] at he
        split at he
        · rename_i hm; cases hm
        · split at he
          · cases he
          · simp only [if_true] at he
            split at he
            · split at he
              · cases he
              · cases he; exact ⟨_, rfl⟩
            · cases he; exact ⟨_, rfl⟩
      obtain ⟨a, rfl⟩ := hr
      have n' : ch'.sh.n = ch.sh.n := by
        rw [((c144_private v ch ch' (some a) t he).2.1 a rfl).2.2.1, step_n]
      have ok' := exec_ok v ch ch' _ t hok he
      obtain ⟨⟨d, d1, d2, d3⟩, aon, hnext, hone⟩ := c145_turns_partial v ch ch' a t hok he
      have s1' := hsame 1 ch' (by omega) (by simp only [execN, he]; rfl)
      by_cases haj : a = j
      · subst haj; exact ⟨0, ch, ch', t, by omega, rfl, he⟩
      · have miss : ∀ u, u < d → (ch.act + u) % ch.sh.n ≠ j := by
          intro u hu e
          have := d3 u hu
          rw [e, s0.1, hon] at this; cases this
        have g1 := dist_go ch.sh.n ch.act j d hok.1 hok.2.2 hj d1 miss
        rw [← d2] at g1
        have al : a < ch.sh.n := by rw [d2]; exact Nat.mod_lt _ hok.1
        by_cases hen : ch'.sh.fppen = 1
        · exfalso
          rw [s1'.1] at hen
          rw [s0.1] at aon
          rw [hen] at aon hon
          have one : ∀ i, i < 8 → on 1 i = true → i = 0 := by decide
          have h8 := hok.2.1
          exact haj ((one a (by omega) aon).trans (one j (by omega) hon).symm)
        · obtain ⟨_, d', e1, e2, e3⟩ := hnext hen
          have apos : dist ch.sh.n a j ≠ 0 := fun h => haj (dist_zero _ _ _ al hj h)
          have g2 := dist_go ch.sh.n a j 1 hok.1 al hj (by unfold dist at apos; have := Nat.mod_lt (j + ch.sh.n - a) hok.1; omega)
            (fun u hu => by rw [show u = 0 by omega, Nat.add_zero, Nat.mod_eq_of_lt al]; exact haj)
          have miss2 : ∀ u, u < d' → ((a + 1) % ch.sh.n + u) % ch.sh.n ≠ j := by
            intro u hu e
            have := e3 u hu
            rw [Nat.mod_add_mod, show a + 1 + u = a + (u + 1) by omega] at e
            rw [e, s1'.1, hon] at this; cases this
          have g3 := dist_go ch.sh.n ((a + 1) % ch.sh.n) j d' hok.1 (Nat.mod_lt _ hok.1) hj e1 miss2
          rw [Nat.mod_add_mod, show a + 1 + d' = a + (d' + 1) by omega, ← e2] at g3
          obtain ⟨k, c1, c2, t', k1, k2, k3⟩ := ih ch' ok' (by rw [n']; exact hj) (by rw [n']; omega) (by rw [n']; omega)
            (fun k c hk hc => hsame (k + 1) c (by omega) (by simp only [execN, he]; exact hc))
            (fun k hk => by have := hends (k + 1) (by omega); simp only [execN, he] at this; exact this)
          exact ⟨k + 1, c1, c2, t', by omega, by simp only [execN, he]; exact k2, k3⟩

/-- what a write makes of FPPEN: bits of FPPs that are not there are dropped, and zero becomes one
before that -/
theorem setFppen_bits : ∀ n, n ≤ 8 → ∀ val : Byte, ∀ i, i < 8 →
    on (setFppen n val) i = (decide (i < n) && on (if val = 0 then 1 else val) i) := by decide +kernel

/-- C145 is false: writing FPPEN with only bits of FPPs that are not there disables all of them, and the
simulator does not come back from that instruction. -/
theorem c145_false (v : Var) (ch : Chip) (hok : ch.Ok) (hrun : ch.sh.mode = .run) (a : Nat)
    (hs : seek ch.sh.fppen ch.sh.n ch.sh.n ch.act = some a)
    (hw : Enc v (ch.sh.rom (ch.cpu a).PC) .movIA [1])
    (hne : (ch.cpu a).A ≠ 0) (hnone : ∀ i, i < ch.sh.n → on (ch.cpu a).A i = false) : exec v ch = none := by
  obtain ⟨h0, h8, ha⟩ := hok
  have hk := arg1 (w := ioMask v) hw rfl
  have st : (step v a (ch.cpu a) ch.sh).sh = { ch.sh with fppen := setFppen ch.sh.n (ch.cpu a).A } := by
    rw [step_enc hw]; simp only [run, hk]; rfl
  have z : ∀ i, i < ch.sh.n → on (setFppen ch.sh.n (ch.cpu a).A) i = false := by
    intro i hi
    rw [setFppen_bits _ h8 _ i (by omega)]
    simp only [if_neg hne, hi, hnone i hi, Bool.and_false]
  have n1 : setFppen ch.sh.n (ch.cpu a).A ≠ 1 := by
    intro e
    have := z 0 h0
    rw [e] at this
    cases this
  unfold exec
  rw [if_neg (by rw [hrun]; decide), hs]
  simp only [hrun, if_true, st]
  rw [if_pos n1, seek_none _ _ _ _ h0 (Nat.mod_lt _ h0) z]

/-- the chip of an FPP at work: one FPP, about to write 2 into FPPEN -/
def exChip (n : Nat) (a : Byte) (en : Byte) (w : Word) : Chip :=
  { cpu := fun _ => exCpu a 0 0, sh := { exSh w 0 with n := n, fppen := en }, act := 0 }

example : (exChip 1 2 1 0x0181).Ok ∧ Enc .p14 0x0181 .movIA [1] ∧ seek 1 1 1 0 = some 0 ∧ exec .p14 (exChip 1 2 1 0x0181) = none := by
  refine ⟨⟨by decide, by decide, by decide⟩, by decide +kernel, rfl, ?_⟩
  refine c145_false .p14 _ ⟨by decide, by decide, by decide⟩ rfl 0 rfl (by decide +kernel) (by decide +kernel) ?_
  intro i hi
  have : i = 0 := by change i < 1 at hi; omega
  subst this; rfl
-- two FPPs of three take turns
example : (exec .p14 (exChip 3 2 5 0)).map (fun r => (r.1.act, r.2)) = some (2, some 0, .go) := by decide +kernel

/-! ### Stopped, and reset -/

/-- C146: after stopsys or stopexe nothing is executed any more, nothing changes, however often the
chip is stepped, as long as it is not reset -/
theorem c146_stopped (v : Var) (ch ch' : Chip) (k : Nat) (hm : ch.sh.mode ≠ .run) (h : execN v k ch = some ch') :
    ch'.cpu = ch.cpu ∧ ch'.sh = ch.sh := by
  induction k generalizing ch with
  | zero => cases h; exact ⟨rfl, rfl⟩
  | succ k ih =>
    simp only [execN] at h
    cases he : exec v ch with
    | none => rw [he] at h; cases h
    | some r =>
      rw [he] at h
      have hr : r.1.cpu = ch.cpu ∧ r.1.sh = ch.sh := by
        unfold exec at he
        split at he
        · cases he; exact ⟨rfl, rfl⟩
        · split at he
          · cases he
          · cases he; exact ⟨rfl, rfl⟩
      have := ih r.1 (by rw [hr.2]; exact hm) h
      rw [hr.1, hr.2] at this; exact this

/-- C146: stopsys and stopexe do stop the chip, and reset starts it again -/
theorem c146_stops (v : Var) (id : Nat) (c : Cpu) (s : Sh) (f : Form) (hf : f = .stopsys ∨ f = .stopexe)
    (h : Enc v (s.rom c.PC) f []) : (step v id c s).sh.mode ≠ .run ∧ (step v id c s).cpu = { c with PC := nextPC c.PC } ∧
      (step v id c s).sh.ram = s.ram := by
  rcases hf with rfl | rfl <;> rw [step_enc h] <;> simp [run]

theorem c146_reset_starts (ch : Chip) : (chipReset ch).sh.mode = .run := rfl

example : Enc .p14 0x0076 .stopsys [] ∧ Enc .p15 0x0077 .stopexe [] := by decide +kernel

/-- C147: reset clears A of every FPP and puts FPP i at word i; memory is kept. What is missing: see
c147_false. -/
theorem c147_reset_partial (ch : Chip) (i : Nat) (hi : i < ch.sh.n) :
    ((chipReset ch).cpu i).A = 0 ∧ ((chipReset ch).cpu i).PC = i ∧ (chipReset ch).sh.ram = ch.sh.ram ∧
    (chipReset ch).sh.rom = ch.sh.rom ∧ (chipReset ch).sh.t16 = 0 ∧ (chipReset ch).sh.wdt = 0 := by
  simp [chipReset, hi]

/-- C147 is false: FPPEN and the turn are not reset, so another FPP than FPP0 may run first and other
FPPs stay enabled; SP is not reset; CLKMD reads 0 and not 0xf6, so the watchdog is off. -/
theorem c147_false :
    let ch : Chip := { cpu := fun _ => exCpu 1 0 0x30, sh := { exSh 0 0 with n := 2, fppen := 2 }, act := 1 }
    (chipReset ch).sh.fppen = 2 ∧ (exec .p15 (chipReset ch)).map (fun r => r.2.1) = some (some 1) ∧
    ((chipReset ch).cpu 0).SP = 0x30 ∧ (chipReset ch).sh.sfr 3 = 0 := by decide +kernel

/-- C147 is false of the instruction reset: it resets the FPP that executes it, no other one, and not
its SP -/
theorem c147_false_instruction (v : Var) (id : Nat) (c : Cpu) (s : Sh) (h : Enc v (s.rom c.PC) .reset []) :
    step v id c s = ⟨{ c with A := 0, PC := id }, s, 1, true⟩ := by
  rw [step_enc h]; rfl

example : Enc .p14 0x0075 .reset [] := by decide +kernel

end Ucsim.Pdk
