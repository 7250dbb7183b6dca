import Verif.Pdk.Hw
/-
C149 (the counter of T16 and its interrupt) and C150 (the watchdog).
-/
namespace Ucsim.Pdk.Hw

theorem dist_fwd {a l : BitVec 32} (h1 : l.toNat ≤ a.toNat) (h2 : a.toNat < l.toNat + 2 ^ 31) :
    (dist a l).toNat = a.toNat - l.toNat := by
  have hl := l.isLt; have ha := a.isLt
  have e : (a - l).toNat = a.toNat - l.toNat := by
    rw [BitVec.toNat_sub]; omega
  unfold dist
  rw [if_neg]
  · exact e
  · rw [BitVec.slt_iff_toInt_lt, BitVec.toInt_eq_toNat_cond, e, if_pos (by omega)]
    show ¬ ((a.toNat - l.toNat : Nat) : Int) < 0
    omega

theorem srcVal_periods (o : Osc) (c : Clk) : ((srcVal o c).map BitVec.toNat).getD 0 = o.periods c := by
  cases c <;> rfl

theorem selSrc_eq : ∀ v, selSrc v = clkOf v := by decide +kernel
theorem setDiv_eq : ∀ v, (setDiv v).toNat = divOf v := by decide +kernel
theorem setLen_eq : ∀ v, (setLen v).toNat = wdLen v := by decide +kernel
theorem mask_eq : ∀ v : BitVec 8, (1 <<< ((v &&& 7).toNat + 8) : BitVec 16).toNat = 2 ^ bitOf v := by decide +kernel
theorem divOf_vals : ∀ v, divOf v = 1 ∨ divOf v = 4 ∨ divOf v = 16 ∨ divOf v = 64 := by decide +kernel
theorem bitOf_lt : ∀ v, bitOf v < 16 := by decide +kernel
theorem falling_eq : ∀ e : BitVec 8, (e &&& 0x10 ≠ 0) ↔ e.getLsbD 4 = true := by decide +kernel

/-- the registers agree with T16M, the clock was last seen in the state `o` -/
structure Inv (o : Osc) (t : T16) : Prop where
  src : t.src = clkOf t.mod
  div : t.div.toNat = divOf t.mod
  mask : t.mask.toNat = 2 ^ bitOf t.mod
  pre : t.pre.toNat < divOf t.mod
  last : t.src = .stop ∨ t.src = .pin ∨ t.last.toNat = o.periods t.src

theorem and_pow (x m : BitVec 16) {b : Nat} (hm : m.toNat = 2 ^ b) : (x &&& m).toNat = (x.toNat / 2 ^ b % 2) * 2 ^ b := by
  rw [BitVec.toNat_and, hm]
  apply Nat.eq_of_testBit_eq
  intro j
  rw [Nat.testBit_and, Nat.testBit_two_pow]
  by_cases hj : b = j
  · subst hj
    rw [Nat.mul_comm, Nat.testBit_two_pow_mul]
    simp only [decide_true, Bool.and_true, Nat.le_refl, Bool.true_and, Nat.sub_self, Nat.testBit_zero]
    rw [Nat.testBit_eq_decide_div_mod_eq]
    simp
  · rw [Nat.mul_comm, Nat.testBit_two_pow_mul]
    simp only [hj, decide_false, Bool.and_false]
    symm
    rw [Bool.and_eq_false_iff]
    by_cases hle : b ≤ j
    · right
      apply Nat.testBit_lt_two_pow
      have : 2 ^ 1 ≤ 2 ^ (j - b) := Nat.pow_le_pow_right (by omega) (by omega)
      have := Nat.mod_lt (x.toNat / 2 ^ b) (show 2 > 0 by omega)
      omega
    · left; simpa using hle

theorem bit_ne (x y m : BitVec 16) {b : Nat} (hm : m.toNat = 2 ^ b) :
    (x &&& m ≠ y &&& m) ↔ x.toNat / 2 ^ b % 2 ≠ y.toNat / 2 ^ b % 2 := by
  have hp := Nat.two_pow_pos b
  constructor
  · intro h e; apply h; apply BitVec.eq_of_toNat_eq; rw [and_pow x m hm, and_pow y m hm, e]
  · intro h e; apply h
    have := congrArg BitVec.toNat e
    rw [and_pow x m hm, and_pow y m hm] at this
    exact Nat.eq_of_mul_eq_mul_right hp this

theorem bit_zero (x m : BitVec 16) {b : Nat} (hm : m.toNat = 2 ^ b) : (x &&& m = 0) ↔ x.toNat / 2 ^ b % 2 = 0 := by
  have hp := Nat.two_pow_pos b
  rw [← BitVec.toNat_inj, and_pow x m hm]
  show _ = 0 ↔ _
  rw [Nat.mul_eq_zero]
  constructor
  · rintro (h | h)
    · exact h
    · omega
  · exact Or.inl

/-- passing at most `2^b` steps, an edge is passed just when the bit has changed the right way -/
theorem edge_step {b : Nat} (hb : 8 ≤ b) (hb' : b < 16) (fl : Bool) (c i : Nat) (hc : c < 65536) (hi : i ≤ 2 ^ b) :
    PassesEdge b fl c i ↔ (c / 2 ^ b % 2 ≠ (c + i) % 65536 / 2 ^ b % 2 ∧
      (fl = true ∧ (c + i) % 65536 / 2 ^ b % 2 = 0 ∨ fl = false ∧ (c + i) % 65536 / 2 ^ b % 2 ≠ 0)) := by
  have : b = 8 ∨ b = 9 ∨ b = 10 ∨ b = 11 ∨ b = 12 ∨ b = 13 ∨ b = 14 ∨ b = 15 := by omega
  unfold PassesEdge
  rcases this with rfl | rfl | rfl | rfl | rfl | rfl | rfl | rfl <;> cases fl <;>
    simp only [Nat.reducePow, Nat.reduceAdd, if_true, if_false, Bool.false_eq_true, false_and, true_and, or_false, false_or, reduceCtorEq] at * <;>
    constructor <;> first | (rintro ⟨x, h1, h2, h3⟩; omega) | skip
  all_goals (intro h)
  · exact ⟨(c / 256 + 1) * 256, by omega, by omega, by omega⟩
  · exact ⟨(c / 256 + 1) * 256, by omega, by omega, by omega⟩
  · exact ⟨(c / 512 + 1) * 512, by omega, by omega, by omega⟩
  · exact ⟨(c / 512 + 1) * 512, by omega, by omega, by omega⟩
  · exact ⟨(c / 1024 + 1) * 1024, by omega, by omega, by omega⟩
  · exact ⟨(c / 1024 + 1) * 1024, by omega, by omega, by omega⟩
  · exact ⟨(c / 2048 + 1) * 2048, by omega, by omega, by omega⟩
  · exact ⟨(c / 2048 + 1) * 2048, by omega, by omega, by omega⟩
  · exact ⟨(c / 4096 + 1) * 4096, by omega, by omega, by omega⟩
  · exact ⟨(c / 4096 + 1) * 4096, by omega, by omega, by omega⟩
  · exact ⟨(c / 8192 + 1) * 8192, by omega, by omega, by omega⟩
  · exact ⟨(c / 8192 + 1) * 8192, by omega, by omega, by omega⟩
  · exact ⟨(c / 16384 + 1) * 16384, by omega, by omega, by omega⟩
  · exact ⟨(c / 16384 + 1) * 16384, by omega, by omega, by omega⟩
  · exact ⟨(c / 32768 + 1) * 32768, by omega, by omega, by omega⟩
  · exact ⟨(c / 32768 + 1) * 32768, by omega, by omega, by omega⟩

/-- one tick: the counter and the prescaler take up the periods of the clock -/
theorem tick_ok {o o' : Osc} {t : T16} (h : Inv o t) (h1 : o.periods t.src ≤ o'.periods t.src)
    (h2 : o'.periods t.src < o.periods t.src + 2 ^ 31) :
    Inv o' (tick o' t) ∧ (tick o' t).mod = t.mod ∧ (tick o' t).src = t.src ∧ (tick o' t).edg = t.edg ∧
    (tick o' t).cnt.toNat = (t.cnt.toNat + (t.pre.toNat + (o'.periods t.src - o.periods t.src)) / divOf t.mod) % 65536 ∧
    (tick o' t).pre.toNat = (t.pre.toNat + (o'.periods t.src - o.periods t.src)) % divOf t.mod ∧
    (tick o' t).irq = (if t.cnt.toNat / 2 ^ bitOf t.mod % 2 ≠ (tick o' t).cnt.toNat / 2 ^ bitOf t.mod % 2 ∧
      (t.edg.getLsbD 4 = true ∧ (tick o' t).cnt.toNat / 2 ^ bitOf t.mod % 2 = 0 ∨
       t.edg.getLsbD 4 = false ∧ (tick o' t).cnt.toNat / 2 ^ bitOf t.mod % 2 ≠ 0) then t.irq ||| 4 else t.irq) := by
  have hcl := t.cnt.isLt
  have hpre := h.pre
  have hD := divOf_vals t.mod
  cases hs : srcVal o' t.src with
  | none =>
    have hz : t.src = .stop ∨ t.src = .pin := by
      cases he : t.src <;> rw [he] at hs <;> simp_all [srcVal]
    have e : tick o' t = t := by unfold tick; rw [hs]
    have p0 : ∀ o : Osc, o.periods t.src = 0 := by rcases hz with hz | hz <;> rw [hz] <;> intro _ <;> rfl
    rw [e, p0, p0]
    refine ⟨⟨h.src, h.div, h.mask, h.pre, ?_⟩, rfl, rfl, rfl, ?_, ?_, ?_⟩
    · rcases hz with hz | hz <;> simp [hz]
    · rw [Nat.add_zero, Nat.div_eq_of_lt hpre]; omega
    · rw [Nat.add_zero, Nat.mod_eq_of_lt hpre]
    · simp
  | some act =>
    have ha : act.toNat = o'.periods t.src := by
      have := srcVal_periods o' t.src; rw [hs] at this; exact this
    have hlast : t.last.toNat = o.periods t.src := by
      rcases h.last with e | e | e
      · rw [e] at hs; simp [srcVal] at hs
      · rw [e] at hs; simp [srcVal] at hs
      · exact e
    by_cases hal : act = t.last
    · have e : tick o' t = t := by unfold tick; rw [hs]; simp [hal]
      have hd : o'.periods t.src = o.periods t.src := by rw [← ha, ← hlast, hal]
      rw [e, hd]
      refine ⟨⟨h.src, h.div, h.mask, h.pre, Or.inr (Or.inr (hlast.trans hd.symm))⟩, rfl, rfl, rfl, ?_, ?_, ?_⟩
      · rw [Nat.sub_self, Nat.add_zero, Nat.div_eq_of_lt hpre]; omega
      · rw [Nat.sub_self, Nat.add_zero, Nat.mod_eq_of_lt hpre]
      · simp
    · have hdist : (dist act t.last).toNat = o'.periods t.src - o.periods t.src := by
        rw [dist_fwd (by omega) (by omega), ha, hlast]
      have hne : act.toNat ≠ t.last.toNat := fun e => hal (BitVec.eq_of_toNat_eq e)
      have hd0 : dist act t.last ≠ 0 := by
        intro e; rw [e] at hdist; simp at hdist; omega
      have hsum : (t.pre + dist act t.last).toNat = t.pre.toNat + (o'.periods t.src - o.periods t.src) := by
        rw [BitVec.toNat_add, hdist]; omega
      have hi : ((t.pre + dist act t.last) / t.div).toNat = (t.pre.toNat + (o'.periods t.src - o.periods t.src)) / divOf t.mod := by
        rw [BitVec.toNat_udiv, hsum, h.div]
      have hm : ((t.pre + dist act t.last) % t.div).toNat = (t.pre.toNat + (o'.periods t.src - o.periods t.src)) % divOf t.mod := by
        rw [BitVec.toNat_umod, hsum, h.div]
      by_cases hi0 : (t.pre + dist act t.last) / t.div = 0
      · have e : tick o' t = { t with pre := t.pre + dist act t.last, last := act } := by
          unfold tick; rw [hs]; simp only [ne_eq, hal, hd0, hi0, not_false_eq_true, not_true_eq_false, if_true, if_false]
        rw [hi0] at hi
        have hi : 0 = (t.pre.toNat + (o'.periods t.src - o.periods t.src)) / divOf t.mod := hi
        have hlt : t.pre.toNat + (o'.periods t.src - o.periods t.src) < divOf t.mod := by
          rcases hD with e | e | e | e <;> rw [e] at hi ⊢ <;> omega
        rw [e]
        refine ⟨⟨h.src, h.div, h.mask, ?_, Or.inr (Or.inr ha)⟩, rfl, rfl, rfl, ?_, ?_, ?_⟩
        · show (t.pre + dist act t.last).toNat < _
          rw [hsum]; exact hlt
        · show t.cnt.toNat = _
          rw [← hi]; omega
        · show (t.pre + dist act t.last).toNat = _
          rw [hsum, Nat.mod_eq_of_lt hlt]
        · simp
      · have hcnt : (t.cnt + ((t.pre + dist act t.last) / t.div).setWidth 16).toNat =
            (t.cnt.toNat + (t.pre.toNat + (o'.periods t.src - o.periods t.src)) / divOf t.mod) % 65536 := by
          rw [BitVec.toNat_add, BitVec.toNat_setWidth, hi]; omega
        have e : tick o' t = { t with pre := (t.pre + dist act t.last) % t.div, cnt := t.cnt + ((t.pre + dist act t.last) / t.div).setWidth 16, irq := (if t.cnt &&& t.mask ≠ (t.cnt + ((t.pre + dist act t.last) / t.div).setWidth 16) &&& t.mask then (if (t.edg &&& 0x10 ≠ 0 ∧ (t.cnt + ((t.pre + dist act t.last) / t.div).setWidth 16) &&& t.mask = 0) ∨ (t.edg &&& 0x10 = 0 ∧ (t.cnt + ((t.pre + dist act t.last) / t.div).setWidth 16) &&& t.mask ≠ 0) then t.irq ||| 4 else t.irq) else t.irq), last := act } := by
          unfold tick; rw [hs]; simp only [ne_eq, hal, not_false_eq_true, if_true, hd0, hi0]
        rw [e]
        refine ⟨⟨h.src, h.div, h.mask, ?_, Or.inr (Or.inr ha)⟩, rfl, rfl, rfl, hcnt, hm, ?_⟩
        · show ((t.pre + dist act t.last) % t.div).toNat < _
          rw [hm]; exact Nat.mod_lt _ (by omega)
        · simp only [bit_ne _ _ _ h.mask, bit_zero _ _ h.mask, falling_eq, ne_eq]
          have hz : (t.edg &&& 0x10 = 0) ↔ t.edg.getLsbD 4 = false := by
            have := falling_eq t.edg
            constructor
            · intro e; cases hb : t.edg.getLsbD 4 with
              | false => rfl
              | true => exact absurd e (this.2 hb)
            · intro e; apply Classical.byContradiction; intro hn; rw [this.1 hn] at e; cases e
          simp only [hz]
          by_cases hA : t.cnt.toNat / 2 ^ bitOf t.mod % 2 = (t.cnt + ((t.pre + dist act t.last) / t.div).setWidth 16).toNat / 2 ^ bitOf t.mod % 2
          · simp only [hA, not_true_eq_false, if_false, false_and]
          · simp only [hA, not_false_eq_true, if_true, true_and]

theorem inv_write {o : Osc} {v : BitVec 8} {t : T16} (hv : v ≠ t.mod) : Inv o (writeMod o v t) ∧
    (writeMod o v t).mod = v ∧ (writeMod o v t).pre = 0 ∧ (writeMod o v t).cnt = t.cnt ∧
    (writeMod o v t).irq = t.irq ∧ (writeMod o v t).edg = t.edg := by
  have e : writeMod o v t = recalc o { t with mod := v } := by
    unfold writeMod; simp only [if_pos hv]; rfl
  rw [e]
  refine ⟨⟨selSrc_eq v, setDiv_eq v, mask_eq v, ?_, ?_⟩, rfl, rfl, rfl, rfl, rfl⟩
  · show (0 : Nat) < _
    have := divOf_vals v
    show 0 < divOf v
    omega
  · show selSrc v = .stop ∨ selSrc v = .pin ∨ ((srcVal o (selSrc v)).getD t.last).toNat = o.periods (selSrc v)
    cases selSrc v <;> simp [srcVal, Osc.periods]

theorem fwd_le {c : Clk} {lim : Nat} {os : List Osc} {o : Osc} (h : Forward c lim o os) :
    o.periods c ≤ (lastOf o os).periods c := by
  induction os generalizing o with
  | nil => exact Nat.le_refl _
  | cons a l ih => exact Nat.le_trans h.1 (ih h.2.2)

theorem nat_div_step (p d1 d2 D : Nat) (hD : D = 1 ∨ D = 4 ∨ D = 16 ∨ D = 64) :
    (p + d1) / D + ((p + d1) % D + d2) / D = (p + (d1 + d2)) / D := by
  rcases hD with rfl | rfl | rfl | rfl <;> omega

theorem ticks_ok {o : Osc} {t : T16} (h : Inv o t) (os : List Osc) (hf : Forward t.src (2 ^ 31 - 1) o os) :
    Inv (lastOf o os) (ticks os t) ∧ (ticks os t).mod = t.mod ∧ (ticks os t).edg = t.edg ∧
    (ticks os t).cnt.toNat = (t.cnt.toNat + (t.pre.toNat + ((lastOf o os).periods t.src - o.periods t.src)) / divOf t.mod) % 65536 := by
  induction os generalizing o t with
  | nil =>
    refine ⟨h, rfl, rfl, ?_⟩
    show t.cnt.toNat = _
    have := t.cnt.isLt
    rw [show lastOf o [] = o from rfl, Nat.sub_self, Nat.add_zero, Nat.div_eq_of_lt h.pre]; omega
  | cons a l ih =>
    obtain ⟨g1, g2, g3⟩ := hf
    obtain ⟨k1, k2, k3, k4, k5, k6, -⟩ := tick_ok h g1 (by omega)
    obtain ⟨r1, r2, r3, r4⟩ := ih k1 (by rw [k3]; exact g3)
    have hle := fwd_le g3
    refine ⟨r1, r2.trans k2, r3.trans k4, ?_⟩
    show (ticks l (tick a t)).cnt.toNat = _
    rw [r4, k5, k6, k3, k2]
    have := nat_div_step t.pre.toNat (a.periods t.src - o.periods t.src) ((lastOf a l).periods t.src - a.periods t.src) _ (divOf_vals t.mod)
    rw [show a.periods t.src - o.periods t.src + ((lastOf a l).periods t.src - a.periods t.src) = (lastOf a l).periods t.src - o.periods t.src from by omega] at this
    rw [show lastOf o (a :: l) = lastOf a l from rfl, ← this]
    omega

/-- C149: from the moment T16M is given a new value, T16 counts the selected clock divided by the
selected number: however the instructions cut up the time, the counter is its value then plus the
whole number of divided periods since (mod 2^16). -/
theorem c149_count_partial (o : Osc) (v : BitVec 8) (t : T16) (hv : v ≠ t.mod) (os : List Osc)
    (hf : Forward (clkOf v) (2 ^ 31 - 1) o os) :
    (ticks os (writeMod o v t)).cnt.toNat =
      (t.cnt.toNat + ((lastOf o os).periods (clkOf v) - o.periods (clkOf v)) / divOf v) % 65536 := by
  obtain ⟨i, e1, e2, e3, -, -⟩ := inv_write (o := o) hv
  have hs := i.src; rw [e1] at hs
  obtain ⟨-, -, -, h⟩ := ticks_ok i os (by rw [hs]; exact hf)
  rw [h, hs, e1, e2, e3]; simp

/-- C149: two runs that end at the same time have the same count, however time was cut up -/
theorem c149_chunks_partial (o : Osc) (v : BitVec 8) (t : T16) (hv : v ≠ t.mod) (os os' : List Osc)
    (hf : Forward (clkOf v) (2 ^ 31 - 1) o os) (hf' : Forward (clkOf v) (2 ^ 31 - 1) o os')
    (he : (lastOf o os).periods (clkOf v) = (lastOf o os').periods (clkOf v)) :
    (ticks os (writeMod o v t)).cnt = (ticks os' (writeMod o v t)).cnt := by
  apply BitVec.eq_of_toNat_eq
  rw [c149_count_partial o v t hv os hf, c149_count_partial o v t hv os' hf', he]

theorem passes_mod {b : Nat} (hb : b < 16) (fl : Bool) (a k : Nat) : PassesEdge b fl (a % 65536) k ↔ PassesEdge b fl a k := by
  have hdvd : 2 ^ (b + 1) ∣ 65536 := (Nat.pow_dvd_pow 2 (show b + 1 ≤ 16 by omega))
  obtain ⟨q, hq⟩ := hdvd
  have key : ∀ x, (x + 65536 * (a / 65536)) % 2 ^ (b + 1) = x % 2 ^ (b + 1) := by
    intro x; rw [hq, Nat.mul_assoc, Nat.add_mul_mod_self_left]
  have hdm := Nat.div_add_mod a 65536
  constructor
  · rintro ⟨x, h1, h2, h3⟩
    exact ⟨x + 65536 * (a / 65536), by omega, by omega, by rw [key]; exact h3⟩
  · rintro ⟨x, h1, h2, h3⟩
    refine ⟨x - 65536 * (a / 65536), by omega, by omega, ?_⟩
    rw [← key, show x - 65536 * (a / 65536) + 65536 * (a / 65536) = x from by omega]; exact h3

theorem passes_add (b : Nat) (fl : Bool) (a k l : Nat) :
    PassesEdge b fl a (k + l) ↔ PassesEdge b fl a k ∨ PassesEdge b fl (a + k) l := by
  constructor
  · rintro ⟨x, h1, h2, h3⟩
    by_cases h : x ≤ a + k
    · exact Or.inl ⟨x, h1, h, h3⟩
    · exact Or.inr ⟨x, by omega, by omega, h3⟩
  · rintro (⟨x, h1, h2, h3⟩ | ⟨x, h1, h2, h3⟩)
    · exact ⟨x, h1, by omega, h3⟩
    · exact ⟨x, by omega, by omega, h3⟩

theorem or4_bit : ∀ q : BitVec 8, (q ||| 4).getLsbD 2 = true := by decide +kernel

theorem ticks_irq {o : Osc} {t : T16} (h : Inv o t) (os : List Osc) (hf : Forward t.src ((2 ^ bitOf t.mod - 1) * divOf t.mod) o os) :
    (ticks os t).irq.getLsbD 2 = true ↔ t.irq.getLsbD 2 = true ∨
      PassesEdge (bitOf t.mod) (t.edg.getLsbD 4) t.cnt.toNat
        ((t.pre.toNat + ((lastOf o os).periods t.src - o.periods t.src)) / divOf t.mod) := by
  have hB : 8 ≤ bitOf t.mod := by unfold bitOf; omega
  have hB' := bitOf_lt t.mod
  have hlim : (2 ^ bitOf t.mod - 1) * divOf t.mod < 2 ^ 31 := by
    have hp : 2 ^ bitOf t.mod ≤ 2 ^ 15 := Nat.pow_le_pow_right (by omega) (by omega)
    rcases divOf_vals t.mod with e | e | e | e <;> rw [e] <;> omega
  induction os generalizing o t with
  | nil =>
    show t.irq.getLsbD 2 = true ↔ _
    rw [show lastOf o [] = o from rfl, Nat.sub_self, Nat.add_zero, Nat.div_eq_of_lt h.pre]
    constructor
    · exact Or.inl
    · rintro (h | ⟨x, h1, h2, -⟩)
      · exact h
      · omega
  | cons a l ih =>
    obtain ⟨g1, g2, g3⟩ := hf
    obtain ⟨k1, k2, k3, k4, k5, k6, k7⟩ := tick_ok h g1 (by omega)
    have r := ih k1 (by rw [k3, k2]; exact g3) (by rw [k2]; exact hB) (by rw [k2]; exact hB') (by rw [k2]; exact hlim)
    have hle := fwd_le g3
    show (ticks l (tick a t)).irq.getLsbD 2 = true ↔ _
    refine r.trans ?_
    rw [k2, k3, k4, k5, k6, passes_mod hB']
    have := nat_div_step t.pre.toNat (a.periods t.src - o.periods t.src) ((lastOf a l).periods t.src - a.periods t.src) _ (divOf_vals t.mod)
    rw [show a.periods t.src - o.periods t.src + ((lastOf a l).periods t.src - a.periods t.src) = (lastOf a l).periods t.src - o.periods t.src from by omega] at this
    rw [show lastOf o (a :: l) = lastOf a l from rfl, ← this, passes_add, ← or_assoc]
    apply or_congr _ Iff.rfl
    have hi : (t.pre.toNat + (a.periods t.src - o.periods t.src)) / divOf t.mod ≤ 2 ^ bitOf t.mod := by
      have hpre := h.pre
      have hp := Nat.two_pow_pos (bitOf t.mod)
      have e : (2 ^ bitOf t.mod - 1) * divOf t.mod + divOf t.mod = 2 ^ bitOf t.mod * divOf t.mod := by
        rw [Nat.sub_mul, Nat.one_mul]
        have := Nat.le_mul_of_pos_left (divOf t.mod) hp
        omega
      apply Nat.le_of_lt
      rw [Nat.div_lt_iff_lt_mul (by omega)]
      omega
    rw [edge_step hB hB' _ _ _ t.cnt.isLt hi, ← k5, k7]
    split
    · rename_i hc
      constructor
      · intro _; exact Or.inr hc
      · intro _; exact or4_bit _
    · rename_i hc
      constructor
      · exact Or.inl
      · rintro (h | h)
        · exact h
        · exact absurd h hc

/-- C149: the interrupt request (bit 2 of INTRQ) is set exactly when the counter passes the selected
edge of the selected bit, as long as no single instruction takes 2^b or more counts -/
theorem c149_irq_partial (o : Osc) (v : BitVec 8) (t : T16) (hv : v ≠ t.mod) (os : List Osc)
    (hf : Forward (clkOf v) ((2 ^ bitOf v - 1) * divOf v) o os) :
    (ticks os (writeMod o v t)).irq.getLsbD 2 = true ↔ t.irq.getLsbD 2 = true ∨
      PassesEdge (bitOf v) (t.edg.getLsbD 4) t.cnt.toNat
        (((lastOf o os).periods (clkOf v) - o.periods (clkOf v)) / divOf v) := by
  obtain ⟨i, e1, e2, e3, e4, e5⟩ := inv_write (o := o) hv
  have hs := i.src; rw [e1] at hs
  have := ticks_irq i os (by rw [hs, e1]; exact hf)
  rw [this, hs, e1, e2, e3, e4, e5]; simp

/-- the reset timer does not count and requests nothing -/
theorem c149_reset (o : Osc) (t : T16) (os : List Osc) :
    (ticks os (reset o t)).cnt = 0 ∧ (ticks os (reset o t)).irq = t.irq := by
  have hs0 : selSrc 0 = .stop := by decide
  have e : ∀ os : List Osc, ticks os (reset o t) = reset o t := by
    intro os
    induction os with
    | nil => rfl
    | cons a l ih =>
      show ticks l (tick a (reset o t)) = _
      rw [show tick a (reset o t) = reset o t from by unfold tick; rw [show (reset o t).src = .stop from by simp only [reset, recalc]; exact hs0]; rfl]; exact ih
  rw [e os]; exact ⟨rfl, rfl⟩

/-- a timer just reset, edges rising -/
def demoT : T16 := reset ⟨0, 0, 0, 0⟩ ⟨0, 0, 0, 0, 0, 1, 0, 0, .stop⟩

/-- IHRC / 4, bit 8: in two steps of 700 and 400 periods the counter goes to 275 and requests -/
example : Forward (clkOf 0x88) ((2 ^ bitOf 0x88 - 1) * divOf 0x88) ⟨0, 0, 0, 0⟩ [⟨1, 700, 0, 1⟩, ⟨2, 1100, 0, 1⟩] ∧
    (ticks [⟨1, 700, 0, 1⟩, ⟨2, 1100, 0, 1⟩] (writeMod ⟨0, 0, 0, 0⟩ 0x88 demoT)).cnt = 275 ∧
    (ticks [⟨1, 700, 0, 1⟩, ⟨2, 1100, 0, 1⟩] (writeMod ⟨0, 0, 0, 0⟩ 0x88 demoT)).irq = 4 := by
  refine ⟨⟨?_, ?_, ?_, ?_, trivial⟩, ?_, ?_⟩ <;> decide +kernel

/-- C149 is false without the limit: with the system clock at ILRC/16 (CLKMD type 1), one instruction
lasts 10666 periods of IHRC; T16 counting IHRC passes bit 9 up and down unseen -/
theorem c149_false : ∃ (o o' : Osc) (v : BitVec 8) (t : T16), v ≠ t.mod ∧ Forward (clkOf v) (2 ^ 31 - 1) o [o'] ∧
    o'.ihrc.toNat = 10666 * 3 ∧ PassesEdge (bitOf v) (t.edg.getLsbD 4) t.cnt.toNat
      ((o'.periods (clkOf v) - o.periods (clkOf v)) / divOf v) ∧
    (ticks [o'] (writeMod o v t)).irq.getLsbD 2 = false := by
  refine ⟨⟨0, 0, 0, 0⟩, ⟨3, 31998, 0, 48⟩, 0x81, demoT, by decide +kernel, ⟨by decide +kernel, by decide +kernel, trivial⟩, by decide +kernel,
    ⟨512, by decide +kernel, by decide +kernel, by decide +kernel⟩, by decide +kernel⟩

/-- C149 is false of the pins: PA0 and PA4 can be selected as the clock but are never counted -/
theorem c149_false_pin (o : Osc) (v : BitVec 8) (t : T16) (hv : clkOf v = .pin) (hm : v ≠ t.mod) (os : List Osc) :
    (ticks os (writeMod o v t)).cnt = t.cnt := by
  have e : (writeMod o v t).src = .pin := by
    unfold writeMod; simp only [if_pos hm]; exact (selSrc_eq v).trans hv
  have c : (writeMod o v t).cnt = t.cnt := (inv_write hm).2.2.2.1
  have k : ∀ (os : List Osc), ticks os (writeMod o v t) = writeMod o v t := by
    intro os
    induction os with
    | nil => rfl
    | cons a l ih =>
      show ticks l (tick a (writeMod o v t)) = _
      rw [show tick a (writeMod o v t) = writeMod o v t from by unfold tick; rw [e]; rfl]; exact ih
  rw [k os, c]

/-! ### C150 -/

/-- one tick of an enabled watchdog -/
theorem wTick_ok {i : BitVec 32} {w : Wdt} (hr : w.run = true) (h1 : w.last.toNat ≤ i.toNat)
    (h2 : i.toNat < w.last.toNat + 2 ^ 31) (hc : w.cnt.toNat ≤ w.len.toNat) (hl : w.len.toNat ≤ 262144) :
    (wTick i w).1 = decide (w.len.toNat < w.cnt.toNat + (i.toNat - w.last.toNat)) ∧
    ((wTick i w).1 = false → (wTick i w).2 = { w with cnt := w.cnt + (i - w.last), last := i } ∧
      (w.cnt + (i - w.last)).toNat = w.cnt.toNat + (i.toNat - w.last.toNat)) := by
  have hil := i.isLt
  have hsub : (i - w.last).toNat = i.toNat - w.last.toNat := by rw [BitVec.toNat_sub]; omega
  have hadd : (w.cnt + (i - w.last)).toNat = w.cnt.toNat + (i.toNat - w.last.toNat) := by
    rw [BitVec.toNat_add, hsub]; omega
  by_cases he : i = w.last
  · subst he
    have e : wTick w.last w = (false, w) := by unfold wTick; simp
    rw [e]
    refine ⟨?_, fun _ => ⟨?_, hadd⟩⟩
    · rw [Nat.sub_self, Nat.add_zero]; symm; simp; omega
    · rw [BitVec.sub_self, BitVec.add_zero]
  · have hd := dist_fwd h1 h2
    have hdd : dist i w.last = i - w.last := BitVec.eq_of_toNat_eq (hd.trans hsub.symm)
    have hne : i - w.last ≠ 0 := by
      intro e; rw [e] at hsub
      have : i.toNat ≠ w.last.toNat := fun e => he (BitVec.eq_of_toNat_eq e)
      simp at hsub; omega
    have e : wTick i w = (if w.len.ult (w.cnt + (i - w.last)) then (true, { wReset i { w with cnt := w.cnt + (i - w.last) } with last := i }) else (false, { w with cnt := w.cnt + (i - w.last), last := i })) := by
      unfold wTick
      simp only [hr, he, ne_eq, not_false_eq_true, and_self, if_true, hdd, hne]
      split <;> rfl
    rw [e]
    have hu : w.len.ult (w.cnt + (i - w.last)) = decide (w.len.toNat < w.cnt.toNat + (i.toNat - w.last.toNat)) := by
      unfold BitVec.ult; rw [hadd]
    rw [hu]
    by_cases hx : w.len.toNat < w.cnt.toNat + (i.toNat - w.last.toNat)
    · simp only [hx, decide_true, if_true, true_and]; exact fun h => (nomatch h)
    · simp only [hx, decide_false, Bool.false_eq_true, if_false, true_and]; exact fun _ => hadd

/-- C150: an enabled watchdog resets the chip exactly at the first instruction after which more than
the selected number of ILRC periods have gone by since the latest wdreset -/
theorem wRun_ok (evs : List Ev) (w : Wdt) (c0 : Nat) (hr : w.run = true) (hm : w.len.toNat = wdLen w.misc)
    (hc : w.cnt.toNat + c0 = w.last.toNat) (hle : w.cnt.toNat ≤ w.len.toNat) (hf : Fwd w.last.toNat evs) :
    (wRun evs w).1 = true ↔ ∃ a i b, evs = a ++ .tick i :: b ∧ wdLen w.misc < i.toNat - clearedAt w.last.toNat c0 a := by
  have hl : w.len.toNat ≤ 262144 := by
    rw [hm]; unfold wdLen; split <;> omega
  induction evs generalizing w c0 with
  | nil =>
    constructor
    · intro h; cases h
    · rintro ⟨a, i, b, h, -⟩; cases a <;> cases h
  | cons e l ih =>
    cases e with
    | clear =>
      have r := ih (wClear w) w.last.toNat hr hm (by simp [wClear]) (by simp [wClear]) hf hl
      rw [show wRun (.clear :: l) w = wRun l (wClear w) from rfl]
      refine r.trans ?_
      constructor
      · rintro ⟨a, i, b, h1, h2⟩; exact ⟨.clear :: a, i, b, by rw [h1]; rfl, h2⟩
      · rintro ⟨a, i, b, h1, h2⟩
        cases a with
        | nil => cases h1
        | cons x a => cases h1; exact ⟨a, i, b, rfl, h2⟩
    | clkmd v =>
      have hk : wWriteMod w.last v w = { w with mod := v } := by
        unfold wWriteMod
        by_cases hv : v = w.mod
        · simp [hv]
        · have hlen : setLen w.misc = w.len := BitVec.eq_of_toNat_eq ((setLen_eq _).trans hm.symm)
          simp only [ne_eq, hv, not_false_eq_true, if_true, wRecalc]
          have : decide (v &&& 2 ≠ 0) = true := by simp only [decide_eq_true_eq]; exact hf.1
          simp only [this, hlen, ← hr]
      have r := ih { w with mod := v } c0 hr hm hc hle hf.2 hl
      rw [show wRun (.clkmd v :: l) w = wRun l (wWriteMod w.last v w) from rfl, hk]
      refine r.trans ?_
      constructor
      · rintro ⟨a, i, b, h1, h2⟩; exact ⟨.clkmd v :: a, i, b, by rw [h1]; rfl, h2⟩
      · rintro ⟨a, i, b, h1, h2⟩
        cases a with
        | nil => cases h1
        | cons x a => cases h1; exact ⟨a, i, b, rfl, h2⟩
    | tick i =>
      obtain ⟨f1, f2, f3⟩ := hf
      obtain ⟨t1, t2⟩ := wTick_ok hr f1 f2 hle hl
      have he : w.cnt.toNat + (i.toNat - w.last.toNat) = i.toNat - c0 := by omega
      rw [he] at t1
      rw [show wRun (.tick i :: l) w = (if (wTick i w).1 then wTick i w else wRun l (wTick i w).2) from rfl]
      by_cases hx : w.len.toNat < i.toNat - c0
      · have hb : (wTick i w).1 = true := by rw [t1]; simp [hx]
        rw [if_pos hb]
        constructor
        · intro _; exact ⟨[], i, l, rfl, by rw [← hm]; exact hx⟩
        · intro _; exact hb
      · have hb : (wTick i w).1 = false := by rw [t1]; simp [hx]
        obtain ⟨e2, e3⟩ := t2 hb
        rw [hb]; simp only [Bool.false_eq_true, if_false]
        rw [e2]
        have r := ih { w with cnt := w.cnt + (i - w.last), last := i } c0 hr hm (by show (w.cnt + (i - w.last)).toNat + c0 = i.toNat; omega)
          (by show (w.cnt + (i - w.last)).toNat ≤ w.len.toNat; omega) f3 hl
        refine r.trans ?_
        constructor
        · rintro ⟨a, j, b, h1, h2⟩; exact ⟨.tick i :: a, j, b, by rw [h1]; rfl, h2⟩
        · rintro ⟨a, j, b, h1, h2⟩
          cases a with
          | nil => cases h1; exact absurd h2 (by rw [← hm]; exact hx)
          | cons x a => cases h1; exact ⟨a, j, b, rfl, h2⟩

/-- C150: when the program turns the watchdog on (bit 1 of CLKMD) right after a reset, then in any
further run it resets the chip exactly if at some instruction more than the selected number of ILRC
periods have gone by since the latest wdreset -/
theorem c150_fires_partial (i0 : BitVec 32) (m v : BitVec 8) (w : Wdt) (hm : w.misc = m) (hv : v &&& 2 ≠ 0)
    (evs : List Ev) (hf : Fwd i0.toNat evs) :
    (wRun evs (wWriteMod i0 v (wReset i0 w))).1 = true ↔
      ∃ a i b, evs = a ++ .tick i :: b ∧ wdLen m < i.toNat - clearedAt i0.toNat i0.toNat a := by
  subst hm
  have hv0 : v ≠ (wReset i0 w).mod := by
    intro e; apply hv; rw [e]; show (0 : BitVec 8) &&& 2 = 0; decide
  have e : wWriteMod i0 v (wReset i0 w) = { wReset i0 w with mod := v, run := true } := by
    unfold wWriteMod
    simp only [if_pos hv0, wRecalc]
    have : decide (v &&& 2 ≠ 0) = true := by simp only [decide_eq_true_eq]; exact hv
    simp only [this]; rfl
  rw [e]
  exact wRun_ok evs { wReset i0 w with mod := v, run := true } i0.toNat rfl (setLen_eq _) (Nat.zero_add _) (Nat.zero_le _) hf

/-- C150: a disabled watchdog never resets the chip -/
theorem c150_off (i : BitVec 32) (w : Wdt) (h : w.run = false) : wTick i w = (false, w) := by
  unfold wTick; simp [h]

/-- C150: a program that executes wdreset at least every `wdLen` periods is never reset -/
theorem c150_kept_partial (i0 : BitVec 32) (v : BitVec 8) (w : Wdt) (hv : v &&& 2 ≠ 0)
    (evs : List Ev) (hf : Fwd i0.toNat evs)
    (hk : ∀ a i b, evs = a ++ .tick i :: b → i.toNat ≤ clearedAt i0.toNat i0.toNat a + wdLen w.misc) :
    (wRun evs (wWriteMod i0 v (wReset i0 w))).1 = false := by
  cases h : (wRun evs (wWriteMod i0 v (wReset i0 w))).1 with
  | false => rfl
  | true =>
    obtain ⟨a, i, b, h1, h2⟩ := (c150_fires_partial i0 w.misc v w rfl hv evs hf).1 h
    have := hk a i b h1
    omega

def demoW : Wdt := ⟨0xf6, 0, true, 77, 8192, 0⟩

/-- cleared at 5000, still quiet at 13000, gone at 13200 -/
example : Fwd (100 : BitVec 32).toNat [.tick 5000, .clear, .clkmd 0x36, .tick 13000, .tick 13200] ∧
    (wRun [.tick 5000, .clear, .clkmd 0x36, .tick 13000] (wWriteMod 100 0xf6 (wReset 100 demoW))).1 = false ∧
    (wRun [.tick 5000, .clear, .clkmd 0x36, .tick 13000, .tick 13200] (wWriteMod 100 0xf6 (wReset 100 demoW))).1 = true := by
  refine ⟨⟨?_, ?_, ?_, ?_, ?_, ?_, ?_, trivial⟩, ?_, ?_⟩ <;> decide +kernel

/-- C150 is false across a reset: the data sheets say that CLKMD is 0xf6 after any reset (the watchdog
is enabled), here the watchdog is off after a reset and the second expiry never comes -/
theorem c150_false (i0 : BitVec 32) (w : Wdt) (evs : List (BitVec 32)) :
    (wRun (evs.map .tick) (wReset i0 w)).1 = false := by
  have h : ∀ w : Wdt, w.run = false → (wRun (evs.map .tick) w).1 = false := by
    induction evs with
    | nil => intro w _; rfl
    | cons i l ih =>
      intro w hr
      rw [List.map_cons, show wRun (.tick i :: l.map .tick) w = (if (wTick i w).1 then wTick i w else wRun (l.map .tick) (wTick i w).2) from rfl, c150_off i w hr]
      exact ih w hr
  exact h _ (by simp only [wReset, wRecalc]; exact (by decide : decide ((0 : BitVec 8) &&& 2 ≠ 0) = false))

end Ucsim.Pdk.Hw
