import Verif.Core.Banker
import Verif.Proof.MemExtra

/-! Bander: the loop of cl_bander::activate. -/
namespace Ucsim

/-- The element that the n-th bit of the area belongs to. -/
def bandElem (cb : Nat) (bpc distance : Int) (n : Nat) : Nat :=
  ((cb + distance * (n / bpc)) % 4294967296).toNat

theorem one_shl_succ (b : Nat) : (1#32 <<< b) <<< 1 = 1#32 <<< (b + 1) := by
  exact (BitVec.shiftLeft_add 1#32 b 1).symm

/-- What a bander leaves in the world. -/
structure Banded (env : Env) (sp chip cb : Nat) (bpc distance : Int) (t a n : Nat) (w w' : World) : Prop where
  bytes : w'.bytes = w.bytes
  bankers : w'.bankers = w.bankers
  errors : w'.errors = w.errors
  ub : w'.ub = w.ub
  other : ∀ sp', sp' ≠ sp → w'.spaces sp' = w.spaces sp'
  start : (w'.spaces sp).start = (w.spaces sp).start
  size : (w'.spaces sp).size = (w.spaces sp).size
  dummy : (w'.spaces sp).dummy = (w.spaces sp).dummy
  inside : ∀ j, j < n → (w'.spaces sp).cells (a + j - (w.spaces sp).start) =
    ((w.spaces sp).cells (a + j - (w.spaces sp).start)).decodeMask
      (getSlot env.chips chip (bandElem cb bpc distance (t + j))) (1#32 <<< ((t + j) % bpc.toNat))
  outside : ∀ i, ((w.spaces sp).start + i < a ∨ a + n ≤ (w.spaces sp).start + i) →
    (w'.spaces sp).cells i = (w.spaces sp).cells i

theorem bandLoop_run (env : Env) (sp chip cb : Nat) (bpc distance : Int) (hb : 1 ≤ bpc) (n : Nat) :
    ∀ (t a ca b : Nat) (m : W) (w : World) (q : Nat), t = q * bpc.toNat + b → b ≤ bpc.toNat →
      ca = ((cb + distance * q) % 4294967296).toNat → m = 1#32 <<< b →
      (w.spaces sp).start ≤ a → a + n ≤ (w.spaces sp).start + (w.spaces sp).size →
      (w.spaces sp).start + (w.spaces sp).size ≤ 4294967296 →
      Banded env sp chip cb bpc distance t a n w (w.bandLoop env sp chip bpc distance n a ca b m) := by
  induction n with
  | zero =>
    intro t a ca b m w q _ _ _ _ _ _ _
    exact ⟨rfl, rfl, rfl, rfl, fun _ _ => rfl, rfl, rfl, rfl, fun j hj => absurd hj (Nat.not_lt_zero j), fun _ _ => rfl⟩
  | succ n ih =>
    intro t a ca b m w q ht hbb hca hm h1 h2 h3
    obtain ⟨c, hc⟩ : ∃ c : Nat, bpc = c := ⟨bpc.toNat, by omega⟩
    subst hc
    simp only [Int.toNat_natCast] at ht hbb
    have hc1 : 1 ≤ c := by omega
    -- the turn works with group t / c and bit t % c
    have key : ∃ q' b' : Nat, t = q' * c + b' ∧ b' < c ∧
        (if (b : Int) ≥ (c : Int) then ((ca + distance) % 4294967296).toNat else ca) =
          ((cb + distance * q') % 4294967296).toNat ∧
        (if (b : Int) ≥ (c : Int) then 1#32 else m) = 1#32 <<< b' ∧
        (if (b : Int) ≥ (c : Int) then (0 : Int) else b) = b' := by
      by_cases hbc : (b : Int) ≥ c
      · refine ⟨q + 1, 0, ?_, by omega, ?_, ?_, ?_⟩
        · have : b = c := by omega
          rw [ht, this, Nat.add_mul]; omega
        · rw [if_pos hbc, hca, Int.natCast_add, Int.natCast_one, Int.mul_add, Int.mul_one]
          congr 1
          generalize distance * (q : Int) = z
          omega
        · rw [if_pos hbc]; rfl
        · rw [if_pos hbc]; rfl
      · exact ⟨q, b, ht, by omega, by rw [if_neg hbc, hca], by rw [if_neg hbc, hm], by rw [if_neg hbc]⟩
    obtain ⟨q', b', e1, e2, e3, e4, e5⟩ := key
    have hq : t / c = q' := by
      rw [e1, Nat.mul_comm, Nat.mul_add_div (by omega), Nat.div_eq_of_lt e2]; omega
    have hr : t % c = b' := by
      rw [e1, Nat.mul_comm, Nat.mul_add_mod, Nat.mod_eq_of_lt e2]
    have hi : (w.spaces sp).idx? a = some (a - (w.spaces sp).start) := by
      rw [idx?_eq _ _ h3 (by omega), if_pos (by omega)]
    have hu : u32 (a + 1) = a + 1 ∨ n = 0 := by
      unfold u32; omega
    simp only [World.bandLoop]
    rw [e3, e4, e5]
    simp only [World.getCell, hi]
    have helem : ((cb + distance * q') % 4294967296).toNat = bandElem cb c distance t := by
      unfold bandElem; rw [← hq]; rfl
    rw [helem]
    generalize hw2 : w.setCell (.cell sp (a - (w.spaces sp).start))
      ((w.cell (.cell sp (a - (w.spaces sp).start))).decodeMask
        (getSlot env.chips chip (bandElem cb c distance t)) (1#32 <<< b')) = w2
    have s1 : (w2.spaces sp).start = (w.spaces sp).start := by
      rw [← hw2]; simp [World.setCell, World.setSpace]
    have s2 : (w2.spaces sp).size = (w.spaces sp).size := by
      rw [← hw2]; simp [World.setCell, World.setSpace]
    have s3 : (w2.spaces sp).dummy = (w.spaces sp).dummy := by
      rw [← hw2]; simp [World.setCell, World.setSpace]
    have s4 : ∀ sp', sp' ≠ sp → w2.spaces sp' = w.spaces sp' := by
      intro sp' h; rw [← hw2]; simp [World.setCell, World.setSpace, upd_other, h]
    have s5 : (w2.spaces sp).cells = upd (w.spaces sp).cells (a - (w.spaces sp).start)
        (((w.spaces sp).cells (a - (w.spaces sp).start)).decodeMask
          (getSlot env.chips chip (bandElem cb c distance t)) (1#32 <<< b')) := by
      rw [← hw2]; simp [World.setCell, World.setSpace, World.cell]
    have s6 : w2.bytes = w.bytes ∧ w2.bankers = w.bankers ∧ w2.errors = w.errors ∧ w2.ub = w.ub := by
      rw [← hw2]; exact ⟨rfl, rfl, rfl, rfl⟩
    have IH : Banded env sp chip cb c distance (t + 1) (a + 1) n w2
        (w2.bandLoop env sp chip c distance n (u32 (a + 1)) (bandElem cb c distance t) (b' + 1 : Int)
          ((1#32 <<< b') <<< 1)) := by
      rcases hu with hu | hu
      · rw [hu]
        have := ih (t + 1) (a + 1) (bandElem cb c distance t) (b' + 1) ((1#32 <<< b') <<< 1) w2 q'
          (by simp only [Int.toNat_natCast]; omega) (by simp only [Int.toNat_natCast]; omega)
          (by rw [← helem]) (one_shl_succ b') (by omega) (by omega) (by omega)
        exact this
      · subst hu
        exact ⟨rfl, rfl, rfl, rfl, fun _ _ => rfl, rfl, rfl, rfl, fun j hj => absurd hj (Nat.not_lt_zero j), fun _ _ => rfl⟩
    obtain ⟨i1, i2, i3, i4, i5, i6, i7, i8, i9, i10⟩ := IH
    refine ⟨i1.trans s6.1, i2.trans s6.2.1, i3.trans s6.2.2.1, i4.trans s6.2.2.2,
      fun sp' h => (i5 sp' h).trans (s4 sp' h), i6.trans s1, i7.trans s2, i8.trans s3, ?_, ?_⟩
    · intro j hj
      rcases Nat.eq_zero_or_pos j with rfl | hj0
      · simp only [Nat.add_zero]
        rw [i10 _ (by rw [s1]; omega), s5, upd_same]
        simp only [Int.toNat_natCast, hr]
      · have := i9 (j - 1) (by omega)
        rw [s1, s5, show a + 1 + (j - 1) = a + j by omega, show t + 1 + (j - 1) = t + j by omega,
          upd_other _ _ _ _ (by omega)] at this
        exact this
    · intro i hi'
      rw [i10 i (by rw [s1]; omega), s5, upd_other _ _ _ _ (by omega)]

theorem bandActivate_run (env : Env) (w : World) (sp asb ase chip cb : Nat) (bpc distance : Int) (hb : 1 ≤ bpc)
    (hcb : cb < 4294967296)
    (h1 : (w.spaces sp).start ≤ asb) (h2 : asb ≤ ase) (h3 : ase < (w.spaces sp).start + (w.spaces sp).size)
    (h4 : (w.spaces sp).start + (w.spaces sp).size < 4294967296) :
    ∃ w', w.bandActivate env sp asb ase chip cb bpc distance = some w' ∧
      Banded env sp chip cb bpc distance 0 asb (ase + 1 - asb) w w' := by
  unfold World.bandActivate rangeLen
  rw [if_neg (by omega), if_neg (by omega)]
  refine ⟨_, rfl, ?_⟩
  exact bandLoop_run env sp chip cb bpc distance hb _ 0 asb cb 0 1#32 w 0 (by omega) (by omega)
    (by simp; omega) rfl h1 (by omega) (by omega)

end Ucsim
