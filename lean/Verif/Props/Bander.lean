import Verif.Proof.Bander
import Verif.Props.Mem

/-! # C09: bit banding -/
namespace Ucsim.Props
open Ucsim

/-- Space `sp` is a space of bits: fresh or decoded cells of class bit8. -/
def BitSpace (s : Space) : Prop := ∀ i, i < s.size → (s.cells i).width = 1 ∧ (s.cells i).kind = .bit8

theorem one_shl8 (k : Nat) (hk : k < 8) : ((1#32 <<< k).setWidth 8).setWidth 32 = 1#32 <<< k := by
  have : k = 0 ∨ k = 1 ∨ k = 2 ∨ k = 3 ∨ k = 4 ∨ k = 5 ∨ k = 6 ∨ k = 7 := by omega
  rcases this with rfl | rfl | rfl | rfl | rfl | rfl | rfl | rfl <;> decide

/-- C09, wiring.  A bander of b (1..8) bits per element activated on a space of
bits ends, and wires address begin+n to bit n mod b of element
c + d * (n div b) (taken modulo 2^32), or to nothing if the chip has no such
element; every other location is wired as before, contents of the chips are not
changed. -/
theorem c09_wiring_partial (env : Env) (w : World) (hw : Wf env w) (sp asb ase chip cb : Nat) (b : Nat) (d : Int)
    (hb : 1 ≤ b) (hb8 : b ≤ 8) (hcb : cb < 2 ^ 32) (hbits : BitSpace (w.spaces sp))
    (h1 : (w.spaces sp).start ≤ asb) (h2 : asb ≤ ase) (h3 : ase < (w.spaces sp).start + (w.spaces sp).size)
    (h4 : (w.spaces sp).start + (w.spaces sp).size < 2 ^ 32) :
    ∃ w', w.bandActivate env sp asb ase chip cb b d = some w' ∧ Wf env w' ∧ w'.bytes = w.bytes ∧
      w'.errors = w.errors ∧
      (∀ n, asb + n ≤ ase → ∀ e : Nat, (e : Int) = (cb + d * (n / b : Nat)) % 2 ^ 32 →
        wire env w' sp (asb + n) =
          if e < (env.chips chip).size then some ⟨chip, e, some (1#32 <<< (n % b)), 1⟩ else none) ∧
      (∀ sp' a, a < 2 ^ 32 → (sp' ≠ sp ∨ a < asb ∨ ase < a) → wire env w' sp' a = wire env w sp' a) := by
  obtain ⟨w', r1, r2⟩ := bandActivate_run env w sp asb ase chip cb b d (by omega) hcb h1 h2 h3 h4
  have hcell : ∀ n, asb + n ≤ ase → (w'.spaces sp).cells (asb + n - (w.spaces sp).start) =
      ((w.spaces sp).cells (asb + n - (w.spaces sp).start)).decodeMask
        (getSlot env.chips chip (bandElem cb b d n)) (1#32 <<< (n % b)) := by
    intro n hn
    have := r2.inside n (by omega)
    simpa using this
  have hidx : ∀ a, (w'.spaces sp).idx? a = (w.spaces sp).idx? a := idx?_congr r2.start r2.size
  refine ⟨w', r1, ?_, r2.bytes, r2.errors, ?_, ?_⟩
  · intro sp'
    by_cases hs : sp' = sp
    · subst hs
      refine ⟨by rw [r2.start, r2.size]; exact (hw sp').bound, ?_, by rw [r2.dummy]; exact (hw sp').dptr,
        by rw [r2.dummy]; exact (hw sp').dkind⟩
      intro i hi
      rw [r2.size] at hi
      have hwf := (hw sp').cells i hi
      by_cases hin : asb ≤ (w.spaces sp').start + i ∧ (w.spaces sp').start + i ≤ ase
      · have hc := hcell ((w.spaces sp').start + i - asb) (by omega)
        rw [show asb + ((w.spaces sp').start + i - asb) - (w.spaces sp').start = i by omega] at hc
        rw [hc]
        unfold getSlot
        split
        · exact ⟨hwf.w1, hwf.w2, hwf.kind, fun _ => rfl, fun h => by simp [Cell.decodeMask, Cell.decode] at h⟩
        · refine ⟨hwf.w1, hwf.w2, hwf.kind, fun h => by simp [Cell.decodeMask, Cell.decode] at h, fun _ => ?_⟩
          exact ⟨chip, _, rfl, by omega, .inl (hbits i hi).2⟩
      · rw [r2.outside i (by omega)]; exact hwf
    · rw [r2.other sp' hs]; exact hw sp'
  · intro n hn e he
    have hb' : bandElem cb b d n = e := by
      unfold bandElem
      have h : ((n : Int) / (b : Int)) = ((n / b : Nat) : Int) := (Int.natCast_ediv n b).symm
      rw [h]
      have : (2 : Int) ^ 32 = 4294967296 := by decide
      rw [this] at he
      rw [← he]; rfl
    have hi : (w'.spaces sp).idx? (asb + n) = some (asb + n - (w.spaces sp).start) := by
      rw [hidx, idx?_eq _ _ (by omega) (by omega), if_pos (by omega)]
    unfold wire
    rw [hi]
    simp only
    rw [hcell n hn, hb']
    unfold getSlot
    have hkind := (hbits (asb + n - (w.spaces sp).start) (by omega)).2
    have hwid := (hbits (asb + n - (w.spaces sp).start) (by omega)).1
    by_cases hsz : e < (env.chips chip).size
    · rw [if_neg (by omega), if_pos hsz]
      simp only [Cell.decodeMask, Cell.decode, hkind, hwid, if_true]
      rw [Nat.mul_div_cancel _ (bwidth_pos _), one_shl8 _ (by have := Nat.mod_lt n (show b > 0 by omega); omega)]
    · rw [if_pos (by omega), if_neg hsz]
      simp [Cell.decodeMask, Cell.decode]
  · intro sp' a ha h
    unfold wire
    by_cases hs : sp' = sp
    · subst hs
      rw [hidx]
      rw [idx?_eq _ _ (by omega) ha]
      split
      · rfl
      · rename_i i heq
        split at heq
        · cases heq
          rw [r2.outside _ (by omega)]
        · cases heq
    · rw [r2.other sp' hs]

/-- C09, behaviour.  Through a location wired to bit k of an element, reading
returns that bit, and writing leaves the element with just that bit changed and
every other element as it was. -/
theorem c09_bit_access (env : Env) (w : World) (hw : Wf env w) (sp a chip e k : Nat) (hk : k < 8)
    (ht : wire env w sp a = some ⟨chip, e, some (1#32 <<< k), 1⟩) :
    (w.get sp a).2 = (if (elemOf env.chips w.bytes chip e).getLsbD k then 1#32 else 0#32) ∧
    (a < 2 ^ 32 → Quiet w sp a → w.isRo sp a = false → ∀ v : W,
      (∀ j, (elemOf env.chips (w.write env sp a v).1.bytes chip e).getLsbD j =
        if j = k then v != 0#32 else (elemOf env.chips w.bytes chip e).getLsbD j) ∧
      ∀ chip' e', ¬(chip' = chip ∧ e' = e) →
        elemOf env.chips (w.write env sp a v).1.bytes chip' e' = elemOf env.chips w.bytes chip' e') := by
  have hbit : ∀ (x : W) , (x &&& 1#32 <<< k = 0#32) ↔ x.getLsbD k = false := by
    intro x
    constructor
    · intro h
      have h2 := congrArg (fun y => y.getLsbD k) h
      simp only [BitVec.getLsbD_and, BitVec.getLsbD_shiftLeft] at h2
      simpa [show k < 32 by omega] using h2
    · intro h
      ext j hj
      simp only [BitVec.getElem_and, BitVec.getElem_shiftLeft, BitVec.getElem_zero]
      by_cases hjk : j = k
      · subst hjk; simp [← BitVec.getLsbD_eq_getElem, h]
      · by_cases hlt : j < k
        · simp [hlt]
        · have : j - k ≠ 0 := by omega
          simp [BitVec.getLsbD_one, this, hlt, BitVec.getElem_one]
  have sh : ∀ j, (1#32 <<< k).getLsbD j = decide (j = k) := by
    intro j
    rw [BitVec.getLsbD_shiftLeft, BitVec.getLsbD_one]
    by_cases hjk : j = k
    · subst hjk; simp; omega
    · simp [hjk]
      intro h1 h2; omega
  constructor
  · have h := mem_history env w hw [] (by simp) sp a _ ht
    have h' : (w.get sp a).2 = Spec.readT (specOf env w).mem ⟨chip, e, some (1#32 <<< k), 1⟩ := h
    rw [h']
    show (if elemOf env.chips w.bytes chip e &&& 1#32 <<< k = 0#32 then 0#32 else 1#32) = _
    by_cases hz : elemOf env.chips w.bytes chip e &&& 1#32 <<< k = 0#32
    · rw [if_pos hz, (hbit _).1 hz]; rfl
    · rw [if_neg hz]
      have : (elemOf env.chips w.bytes chip e).getLsbD k = true := by
        cases hq : (elemOf env.chips w.bytes chip e).getLsbD k with
        | true => rfl
        | false => exact absurd ((hbit _).2 hq) hz
      rw [this]; rfl
  · intro ha hq hro v
    obtain ⟨_, h2⟩ := acts_rel [.write sp a v] hw (specOf_rel env w)
      (fun x hx => by rw [List.mem_singleton.1 hx]; exact ⟨ha, hq⟩)
    have hm : ∀ c x, elemOf env.chips (w.write env sp a v).1.bytes c x =
        (Spec.step (wire env w) (specOf env w) (.write sp a v)).mem c x := by
      intro c x
      have h3 := h2.mem
      have h3' : elemOf env.chips (w.write env sp a v).1.bytes =
        (Spec.step (wire env w) (specOf env w) (.write sp a v)).mem := h3.symm
      rw [h3']
    have hro' : (specOf env w).ro sp a = false := hro
    have hs : ∀ c x, (Spec.step (wire env w) (specOf env w) (.write sp a v)).mem c x =
        Spec.writeT (elemOf env.chips w.bytes) ⟨chip, e, some (1#32 <<< k), 1⟩ v c x := by
      intro c x
      simp only [Spec.step, ht, hro', Bool.false_eq_true, if_false]
      rfl
    constructor
    · intro j
      rw [hm, hs]
      simp only [Spec.writeT, and_self, if_true, Spec.newElem]
      by_cases hv : v = 0#32
      · rw [if_pos hv, BitVec.getLsbD_and, BitVec.getLsbD_not, sh]
        by_cases hjk : j = k
        · subst hjk; simp [hv]
        · simp [hjk]
          intro h
          have := BitVec.lt_of_getLsbD h
          omega
      · rw [if_neg hv, BitVec.getLsbD_or, sh]
        by_cases hjk : j = k
        · subst hjk; simp [hv]
        · simp [hjk]
    · intro c x hne
      rw [hm, hs]
      simp only [Spec.writeT]
      rw [if_neg hne]

/-- Below 9 bits per element both theorems apply: the bit space of the 8051,
256 bits, the first half on bytes 0x20.. of chip 0, the second half on every
8th byte of chip 1 (s51.src/uc51.cc). -/
def bandEnv : Env := { exEnv with chips := fun k => if k = 0 then ⟨256, 8⟩ else ⟨128, 8⟩ }
def bandWorld : World := { exWorld with spaces := fun sp => if sp = 0 then newSpace 0 256 1 true else newSpace 0 0 8 true }

theorem bandWorld_wf : Wf bandEnv bandWorld := by
  intro sp
  have : ∀ n m, n + 0 ≤ 4294967296 → 1 ≤ m → m ≤ 32 → WfSpace bandEnv.chips (newSpace 0 n m true) := fun n m h1 h2 h3 =>
    ⟨by show 0 + n ≤ _; omega, fun i _ => wfCell_new _ m h2 h3, rfl, rfl⟩
  show WfSpace bandEnv.chips (if sp = 0 then newSpace 0 256 1 true else newSpace 0 0 8 true)
  split
  · exact this _ _ (by decide) (by decide) (by decide)
  · exact this _ _ (by decide) (by decide) (by decide)

/-- Hypotheses of the wiring theorem hold for both halves. -/
theorem c09_session : ∃ w1 w2, bandWorld.bandActivate bandEnv 0 0 127 0 32 8 1 = some w1 ∧
    w1.bandActivate bandEnv 0 128 255 1 0 8 8 = some w2 ∧
    wire bandEnv w2 0 0x0f = some ⟨0, 0x21, some 0x80#32, 1⟩ ∧
    wire bandEnv w2 0 0xe2 = some ⟨1, 96, some 4#32, 1⟩ := by
  have hb0 : BitSpace (bandWorld.spaces 0) := fun i _ => ⟨rfl, rfl⟩
  obtain ⟨w1, a1, a2, _, _, a4, a5⟩ := c09_wiring_partial bandEnv bandWorld bandWorld_wf 0 0 127 0 32 8 1
    (by decide) (by decide) (by decide) hb0 (by decide) (by decide) (by decide) (by decide)
  obtain ⟨w1', b1, b2⟩ := bandActivate_run bandEnv bandWorld 0 0 127 0 32 8 1 (by decide) (by decide)
    (by decide) (by decide) (by decide) (by decide)
  have : w1' = w1 := by
    have h : some w1' = some w1 := b1.symm.trans a1
    exact Option.some.inj h
  subst this
  have e1 : (w1'.spaces 0).start = 0 := b2.start
  have e2 : (w1'.spaces 0).size = 256 := b2.size
  have hb1 : BitSpace (w1'.spaces 0) := by
    intro i hi
    by_cases hin : i < 128
    · have h : (w1'.spaces 0).cells i = ((bandWorld.spaces 0).cells i).decodeMask
        (getSlot bandEnv.chips 0 (bandElem 32 8 1 i)) (1#32 <<< (i % 8)) := by
        have h := b2.inside i (by omega)
        simpa [show (bandWorld.spaces 0).start = 0 from rfl] using h
      rw [h]
      cases getSlot bandEnv.chips 0 (bandElem 32 8 1 i) <;> exact ⟨rfl, rfl⟩
    · have h : (w1'.spaces 0).cells i = (bandWorld.spaces 0).cells i :=
        b2.outside i (by show 0 + i < 0 ∨ 0 + 128 ≤ 0 + i; omega)
      rw [h]; exact ⟨rfl, rfl⟩
  obtain ⟨w2, c1, _, _, _, c4, c5⟩ := c09_wiring_partial bandEnv w1' a2 0 128 255 1 0 8 8
    (by decide) (by decide) (by decide) hb1 (by omega) (by decide) (by omega) (by omega)
  refine ⟨w1', w2, b1, c1, ?_, ?_⟩
  · rw [c5 0 0x0f (by decide) (.inr (.inl (by decide)))]
    exact (a4 15 (by decide) 33 (by decide)).trans (by decide)
  · exact (c4 98 (by decide) 96 (by decide)).trans (by decide)

/-- With more than 8 bits per element the claim is false: 16 bits per element on
a chip of 16 bit elements, address 9 should be bit 9 of element 0, but a
non-zero write there changes nothing, and it reads 0 although the bit is 1. -/
def wideEnv : Env := { exEnv with chips := fun _ => ⟨8, 16⟩ }
def wideWorld : World :=
  { exWorld with
    bytes := fun _ o => if o = 1 then 2#8 else 0#8
    spaces := fun sp => if sp = 0 then newSpace 0 16 1 true else newSpace 0 0 8 true }
theorem c09_false_wide :
    ((wideWorld.bandActivate wideEnv 0 0 15 0 0 16 1).map fun w =>
      ((elemOf wideEnv.chips w.bytes 0 0).getLsbD 9, (w.get 0 9).2,
        elemOf wideEnv.chips (w.write wideEnv 0 10 1#32).1.bytes 0 0)) = some (true, 0#32, 0x200#32) := by
  decide +kernel

end Ucsim.Props
