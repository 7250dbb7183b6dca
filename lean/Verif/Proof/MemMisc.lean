import Verif.Core.MemMisc
import Verif.Proof.MemExtra

namespace Ucsim

theorem matchFrom_cs (get : Nat → W) (pat : List W) : ∀ a, a + pat.length ≤ 4294967296 →
    ∃ b, matchFrom true get pat a = some b ∧ (b = true ↔ ∀ i, (h : i < pat.length) → get (a + i) = pat[i]) := by
  induction pat with
  | nil => intro a _; exact ⟨true, rfl, by simp⟩
  | cons p ps ih =>
    intro a h
    simp only [List.length_cons] at h
    unfold matchFrom
    rw [if_pos rfl]
    by_cases hp : get a = p
    · rw [if_pos hp]
      have hst : ∀ b, (b = true ↔ ∀ i, (h : i < ps.length) → get (a + 1 + i) = ps[i]) →
          (b = true ↔ ∀ i, (h : i < (p :: ps).length) → get (a + i) = (p :: ps)[i]) := by
        intro b hb
        rw [hb]
        constructor
        · intro hh i hi
          cases i with
          | zero => simpa using hp
          | succ i =>
            have := hh i (by simpa using hi)
            rw [show a + (i + 1) = a + 1 + i by omega]
            simpa using this
        · intro hh i hi
          have := hh (i + 1) (by simpa using hi)
          rw [show a + (i + 1) = a + 1 + i by omega] at this
          simpa using this
      by_cases hl : ps = []
      · subst hl
        refine ⟨true, rfl, hst true ?_⟩
        simp
      · have : 0 < ps.length := List.length_pos_iff.2 hl
        have hu : u32 (a + 1) = a + 1 := by unfold u32; omega
        rw [hu]
        obtain ⟨b, h1, h2⟩ := ih (a + 1) (by omega)
        exact ⟨b, h1, hst b h2⟩
    · rw [if_neg hp]
      refine ⟨false, rfl, ?_⟩
      simp only [Bool.false_eq_true, false_iff]
      intro hh
      exact hp (by have := hh 0 (by simp); rwa [Nat.add_zero, List.getElem_cons_zero] at this)

theorem upperC_small (d : W) (h : d.toNat < 256) :
    upperC d = some (if 97 ≤ d.toNat ∧ d.toNat ≤ 122 then d - 32#32 else d) := by
  unfold upperC; rw [if_pos h]

/-- Value after upper casing, of a byte. -/
def upB (d : W) : W := if 97 ≤ d.toNat ∧ d.toNat ≤ 122 then d - 32#32 else d

theorem matchFrom_ci (get : Nat → W) (pat : List W) : ∀ a, a + pat.length ≤ 4294967296 →
    (∀ i, i < pat.length → (get (a + i)).toNat < 256) → (∀ p ∈ pat, p.toNat < 256) →
    ∃ b, matchFrom false get pat a = some b ∧
      (b = true ↔ ∀ i, (h : i < pat.length) → upB (get (a + i)) = upB pat[i]) := by
  induction pat with
  | nil => intro a _ _ _; exact ⟨true, rfl, by simp⟩
  | cons p ps ih =>
    intro a h hg hp256
    simp only [List.length_cons] at h
    unfold matchFrom
    rw [if_neg (by decide), upperC_small _ (by simpa using hg 0 (by simp)), upperC_small _ (hp256 p (by simp))]
    simp only [Option.bind_some]
    by_cases hp : upB (get a) = upB p
    · have hp' := hp
      unfold upB at hp'
      rw [if_pos hp']
      have hst : ∀ b, (b = true ↔ ∀ i, (h : i < ps.length) → upB (get (a + 1 + i)) = upB ps[i]) →
          (b = true ↔ ∀ i, (h : i < (p :: ps).length) → upB (get (a + i)) = upB (p :: ps)[i]) := by
        intro b hb
        rw [hb]
        constructor
        · intro hh i hi
          cases i with
          | zero => simpa using hp
          | succ i =>
            have := hh i (by simpa using hi)
            rw [show a + (i + 1) = a + 1 + i by omega]
            simpa using this
        · intro hh i hi
          have := hh (i + 1) (by simpa using hi)
          rw [show a + (i + 1) = a + 1 + i by omega] at this
          simpa using this
      by_cases hl : ps = []
      · subst hl
        refine ⟨true, rfl, hst true ?_⟩
        simp
      · have : 0 < ps.length := List.length_pos_iff.2 hl
        have hu : u32 (a + 1) = a + 1 := by unfold u32; omega
        rw [hu]
        obtain ⟨b, h1, h2⟩ := ih (a + 1) (by omega)
          (fun i hi => by rw [show a + 1 + i = a + (i + 1) by omega]; exact hg (i + 1) (by simp; omega))
          (fun q hq => hp256 q (by simp [hq]))
        exact ⟨b, h1, hst b h2⟩
    · have hp' := hp
      unfold upB at hp'
      rw [if_neg hp']
      refine ⟨false, rfl, ?_⟩
      simp only [Bool.false_eq_true, false_iff]
      intro hh
      exact hp (by have := hh 0 (by simp); rwa [Nat.add_zero, List.getElem_cons_zero] at this)

/-- The search loop, given what matching at an address means. -/
theorem searchLoop_run {cs : Bool} {get : Nat → W} {size : Nat} {pat : List W} {M : Nat → Prop}
    (hsz : size + 1 < 4294967296) (hpos : 1 ≤ pat.length)
    (hm : ∀ a, a + pat.length ≤ size → ∃ b, matchFrom cs get pat a = some b ∧ (b = true ↔ M a)) (f : Nat) :
    ∀ a, a + pat.length ≤ size + 1 → size + 1 ≤ a + f → 1 ≤ f →
      (∃ r, a ≤ r ∧ r + pat.length ≤ size ∧ M r ∧ (∀ x, a ≤ x → x < r → ¬ M x) ∧
        searchLoop cs get size pat f a = some (true, r)) ∨
      (∃ r, (∀ x, a ≤ x → x + pat.length ≤ size → ¬ M x) ∧ searchLoop cs get size pat f a = some (false, r)) := by
  induction f with
  | zero => intro a _ _ h; omega
  | succ f ih =>
    intro a h1 h2 _
    unfold searchLoop
    by_cases hc : a + pat.length ≤ size
    · have hu : u32 (a + pat.length) = a + pat.length := by unfold u32; omega
      rw [hu, if_pos hc]
      obtain ⟨b, hb1, hb2⟩ := hm a hc
      rw [hb1]
      simp only [Option.bind_some]
      cases b with
      | true =>
        left
        exact ⟨a, Nat.le_refl _, hc, hb2.1 rfl, fun x hx1 hx2 => by omega, by simp⟩
      | false =>
        have hna : ¬ M a := fun h => by have := hb2.2 h; cases this
        have hu1 : u32 (a + 1) = a + 1 := by unfold u32; omega
        rw [if_neg (by decide), hu1]
        rcases ih (a + 1) (by omega) (by omega) (by omega) with ⟨r, r1, r2, r3, r4, r5⟩ | ⟨r, r1, r2⟩
        · left
          refine ⟨r, by omega, r2, r3, ?_, r5⟩
          intro x hx1 hx2
          rcases Nat.eq_or_lt_of_le hx1 with rfl | h
          · exact hna
          · exact r4 x h hx2
        · right
          refine ⟨r, ?_, r2⟩
          intro x hx1 hx2
          rcases Nat.eq_or_lt_of_le hx1 with rfl | h
          · exact hna
          · exact r1 x h hx2
    · have hu : ¬ u32 (a + pat.length) ≤ size := by unfold u32; omega
      rw [if_neg hu]
      right
      exact ⟨a, fun x hx1 hx2 => by omega, rfl⟩

theorem raiseLoop_run (start size : Nat) (hs : 1 ≤ size) (hb : start + size ≤ 4294967296) (f : Nat) :
    ∀ a, start < a + f → 1 ≤ f → ∃ r k, raiseLoop start size f a = some r ∧ start ≤ r ∧ r = a + k * size ∧
      (a < start → r < start + size) := by
  induction f with
  | zero => intro a _ h; omega
  | succ f ih =>
    intro a h _
    unfold raiseLoop
    by_cases ha : a < start
    · rw [if_pos ha]
      have hu : u32 (a + size) = a + size := by unfold u32; omega
      rw [hu]
      by_cases ha2 : a + size < start
      · obtain ⟨r, k, r1, r2, r3, r4⟩ := ih (a + size) (by omega) (by omega)
        exact ⟨r, k + 1, r1, r2, by rw [r3, Nat.add_mul]; omega, fun _ => r4 ha2⟩
      · obtain ⟨f, rfl⟩ : ∃ g, f = g + 1 := ⟨f - 1, by omega⟩
        refine ⟨a + size, 1, ?_, by omega, by omega, fun _ => by omega⟩
        unfold raiseLoop; rw [if_neg ha2]
    · rw [if_neg ha]
      exact ⟨a, 0, rfl, by omega, by omega, fun h => absurd h ha⟩

theorem keepLoop_eq (keep : OpObj → Bool) (l : List OpObj) : keepLoop keep l = l.filter keep := by
  induction l with
  | nil => rfl
  | cons o os ih => unfold keepLoop; rw [ih, List.filter_cons]

end Ucsim
