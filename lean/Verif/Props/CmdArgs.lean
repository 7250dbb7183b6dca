import Verif.Props.Cmd
import Verif.Proof.CmdArgs
/-! Command lines: C95 (data, places and `set memory`). -/
namespace Ucsim.Cmd
open Ucsim Spec

/-- C95.  `set memory mem address data...`: the first value is stored at the address, every other
one at the next address, as far as the memory goes, modulo 2^width; nothing else changes.  The
values are the numbers and the characters of strings, in their order.
Missing: names as data, characters from 128 on in memories wider than a byte, peripherals on the
locations. -/
theorem c95_list_partial (env : Env) (nm : Names) (w : World) (hw : Wf env w) (mem : Text) (sp start width : Nat) (adr : Arg) (ds : List Datum)
    (hv : nm.vars mem = none) (hm : nm.mems mem = some sp) (ha : AddrOf nm adr start) (hd : ∀ d ∈ ds, d.Ok)
    (hne : ds.flatMap Datum.vals ≠ []) (hs : (w.spaces sp).start ≤ start) (hb : (w.spaces sp).start + (w.spaces sp).size < 2 ^ 32)
    (hk : width ≤ 32) (hasc : width ≤ 8 ∨ ∀ d ∈ ds, d.Ascii)
    (hsp : ∀ a t, wire env w sp a = some t → t.bits = none ∧ t.width = width)
    (hq : ∀ a, start ≤ a → Quiet w sp a)
    (hinj : ∀ a b t u, a < 2 ^ 32 → b < 2 ^ 32 → wire env w sp a = some t → wire env w sp b = some u → t.chip = u.chip → t.elem = u.elem → a = b) :
    ∃ w', setMem nm env w (.sym mem :: adr :: ds.map Datum.arg) = some (w', none) ∧
      (∀ j n t, (ds.flatMap Datum.vals)[j]? = some n → start + j < 2 ^ 32 → wire env w sp (start + j) = some t → w.isRo sp (start + j) = false →
        (w'.get sp (start + j)).2.toNat = (n % 2 ^ width).toNat) ∧
      (∀ sp' a' t', wire env w sp' a' = some t' →
        (∀ j t, j < (ds.flatMap Datum.vals).length → wire env w sp (start + j) = some t → ¬(t.chip = t'.chip ∧ t.elem = t'.elem)) →
        (w'.get sp' a').2 = (w.get sp' a').2) := by
  have hdv := data_vals nm width hk ds hd hasc
  have hlen : (dataList nm (ds.map Datum.arg)).length = (ds.flatMap Datum.vals).length := by
    have := congrArg List.length hdv
    simpa using this
  generalize hD : dataList nm (ds.map Datum.arg) = D at hdv hlen
  generalize hN : ds.flatMap Datum.vals = N at *
  have hDne : D ≠ [] := by
    intro h
    rw [h] at hlen
    exact hne (List.length_eq_zero_iff.1 hlen.symm)
  have hds : ds.map Datum.arg ≠ [] := by
    intro h
    rw [h] at hD
    exact hDne hD.symm
  let E := (w.spaces sp).start + (w.spaces sp).size
  have hrun : setMem nm env w (.sym mem :: adr :: ds.map Datum.arg) = some (w.acts env (listActs sp (D.take (E - start)) start), none) := by
    unfold setMem
    simp only [argBit, hv, Option.map_none, hm, addr_of ha]
    cases hmp : ds.map Datum.arg with
    | nil => exact absurd hmp hds
    | cons x y =>
      rw [← hmp, hD]
      cases hDc : D with
      | nil => exact absurd hDc hDne
      | cons v t =>
        unfold setPlace
        simp only
        rw [if_neg (by omega), if_neg (by omega)]
        rw [setLoop_acts env sp _ start w (by omega) hs hq]
  have hget : ∀ {j : Nat} {v : W}, (D.take (E - start))[j]? = some v → D[j]? = some v ∧ j < E - start := by
    intro j v h
    rw [List.getElem?_take] at h
    split at h
    · exact ⟨h, by assumption⟩
    · cases h
  have hl : ∀ x ∈ listActs sp (D.take (E - start)) start, x.loc.2 < 2 ^ 32 ∧ Quiet w x.loc.1 x.loc.2 := by
    intro x hx
    obtain ⟨j, v, hj, rfl⟩ := mem_listActs.1 hx
    have := (hget hj).2
    exact ⟨by show start + j < 2 ^ 32; omega, hq _ (by show start ≤ start + j; omega)⟩
  refine ⟨_, hrun, ?_, ?_⟩
  · intro j n t hj h32 ht hro
    have hin : start + j < E := by
      unfold wire at ht
      rw [idx?_eq _ _ (by omega) h32] at ht
      split at ht
      · cases ht
      · rename_i h
        split at h
        · omega
        · cases h
    obtain ⟨hbt, hwt⟩ := hsp _ t ht
    have hjn : j < N.length := by
      rcases Nat.lt_or_ge j N.length with h | h
      · exact h
      · simp [h] at hj
    obtain ⟨v, hv'⟩ : ∃ v, D[j]? = some v := ⟨D[j]'(by omega), List.getElem?_eq_getElem (by omega)⟩
    have hval : v.toNat % 2 ^ width = (n % 2 ^ width).toNat := by
      have := congrArg (fun l => l[j]?) hdv
      simpa [hv', hj] using this
    rw [Ucsim.Props.mem_history env w hw _ hl sp (start + j) t ht]
    have := spec_list (wire env w) sp t v hbt (D.take (E - start)) start j (specOf env w)
      (by rw [List.getElem?_take, if_pos (by omega)]; exact hv') ht hro
      (fun i u h1 h2 h3 hh => by
        have : i < E - start := by simp at h2; omega
        have := hinj (start + j) (start + i) t u h32 (by omega) ht h3 hh.1.symm hh.2.symm
        omega)
    unfold Ucsim.Spec.readT
    rw [hbt]
    simp only
    rw [this, BitVec.toNat_ofNat, hwt, hval]
    apply Nat.mod_eq_of_lt
    rw [← hval]
    exact Nat.lt_of_le_of_lt (Nat.mod_le _ _) v.isLt
  · intro sp' a' t' ht' hno
    rw [Ucsim.Props.mem_history env w hw _ hl sp' a' t' ht']
    have h0' : (w.get sp' a').2 = Ucsim.Spec.readT (specOf env w).mem t' := Ucsim.Props.mem_history env w hw [] (by simp) sp' a' t' ht'
    rw [h0']
    apply readT_congr
    apply spec_run_frame
    intro x hx t ht
    obtain ⟨j, v, hj, rfl⟩ := mem_listActs.1 hx
    have hjl : j < N.length := by
      rw [← hlen]
      rcases Nat.lt_or_ge j D.length with h | h
      · exact h
      · have := (hget hj).1; simp [h] at this
    exact hno j t hjl ht

theorem ofInt_bit (n : Int) {j : Nat} (hj : j < 32) : (BitVec.ofInt 32 n).getLsbD j = decide (n / 2 ^ j % 2 = 1) := by
  unfold BitVec.getLsbD
  rw [BitVec.toNat_ofInt, Nat.testBit_eq_decide_div_mod_eq, decide_eq_decide]
  have h3 : 0 ≤ n % ((2 ^ 32 : Nat) : Int) := Int.emod_nonneg _ (by simp)
  obtain ⟨m, hm⟩ := Int.eq_ofNat_of_zero_le h3
  have hn : n = (m : Int) + 2 ^ j * (2 ^ (32 - j) * (n / ((2 ^ 32 : Nat) : Int))) := by
    have := Int.emod_add_mul_ediv n ((2 ^ 32 : Nat) : Int)
    have e : (2 : Int) ^ j * 2 ^ (32 - j) = ((2 ^ 32 : Nat) : Int) := by
      rw [← Int.pow_add, show j + (32 - j) = 32 by omega]; rfl
    rw [← Int.mul_assoc, e, ← hm]
    exact this.symm
  obtain ⟨i, hi⟩ : ∃ i, 32 - j = i + 1 := ⟨31 - j, by omega⟩
  have hd : n / 2 ^ j = (m : Int) / 2 ^ j + 2 * (2 ^ i * (n / ((2 ^ 32 : Nat) : Int))) := by
    have h0 : (2 : Int) ^ j ≠ 0 := by
      have : (0 : Int) < 2 ^ j := Int.pow_pos (by omega)
      omega
    conv => lhs; rw [hn]
    rw [Int.add_mul_ediv_left _ _ h0, hi, Int.pow_succ, Int.mul_comm (2 ^ i) 2, Int.mul_assoc]
  rw [hm, hd]
  have e2 : (m : Int) / 2 ^ j = ((m / 2 ^ j : Nat) : Int) := by simp
  rw [e2]
  show (m / 2 ^ j % 2 = 1) ↔ _
  generalize m / 2 ^ j = x
  generalize 2 ^ i * (n / ((2 ^ 32 : Nat) : Int)) = y
  omega

theorem mask_bit {l h k : Nat} (h1 : l ≤ h) (h3 : h - l < 31) (hk : k < 32) :
    (((1#32 <<< ((h : Int) - (l : Int) + 1).toNat) - 1#32) <<< ((l : Int)).toNat).getLsbD k = decide (l ≤ k ∧ k ≤ h) := by
  have e : ((h : Int) - (l : Int) + 1).toNat = h - l + 1 := by omega
  have ht : ((1#32 <<< (h - l + 1)) - 1#32).toNat = 2 ^ (h - l + 1) - 1 := by
    have hp : 2 ^ (h - l + 1) ≤ 2 ^ 31 := Nat.pow_le_pow_right (by omega) (by omega)
    have hp1 : 1 ≤ 2 ^ (h - l + 1) := Nat.one_le_two_pow
    rw [BitVec.toNat_sub, BitVec.toNat_shiftLeft]
    simp only [BitVec.toNat_ofNat, Nat.shiftLeft_eq]
    rw [show 1 % 2 ^ 32 = 1 from rfl, Nat.one_mul, Nat.mod_eq_of_lt (by omega : 2 ^ (h - l + 1) < 2 ^ 32)]
    omega
  rw [e, Int.toNat_natCast, BitVec.getLsbD_shiftLeft]
  unfold BitVec.getLsbD
  rw [ht, Nat.testBit_two_pow_sub_one]
  by_cases c1 : l ≤ k <;> by_cases c2 : k ≤ h <;> simp [c1, c2, hk] <;> omega

/-- C95.  `set memory bit data`: the bits that the argument means - `x.b`, `x[h:l]`, a variable that
is some bits; x a variable or an element of a memory - become the low bits of the value; the other
bits of the location and all the other locations are unchanged.
Missing: all the 32 bits of a location, see `c95_bits_false`. -/
theorem c95_bits_partial (env : Env) (nm : Names) (w : World) (hw : Wf env w) (p : Arg) (m a l h : Nat) (n : Int) (t : Ucsim.Spec.Target)
    (hp : BitsOf nm (fun m a => (w.spaces m).start ≤ a ∧ a < (w.spaces m).start + (w.spaces m).size) p m a l h)
    (hb : ∀ m, (w.spaces m).start + (w.spaces m).size < 2 ^ 32) (hlh : h - l < 31) (ha : a < 2 ^ 32)
    (ht : wire env w m a = some t) (hbt : t.bits = none) (hwt : t.width ≤ 32) (hro : w.isRo m a = false) (hq : Quiet w m a) :
    ∃ w', setMem nm env w [p, .int n] = some (w', none) ∧
      (∀ k, k < t.width → (w'.get m a).2.getLsbD k =
        if l ≤ k ∧ k ≤ h then decide (n / 2 ^ (k - l) % 2 = 1) else (w.get m a).2.getLsbD k) ∧
      (∀ sp' a' t', wire env w sp' a' = some t' → ¬(t.chip = t'.chip ∧ t.elem = t'.elem) → (w'.get sp' a').2 = (w.get sp' a').2) := by
  obtain ⟨hbit, h1, h2⟩ := bits_of (w := w) hp (fun m a h => by
    unfold validAddr
    rw [show u32 ((w.spaces m).start + (w.spaces m).size) = (w.spaces m).start + (w.spaces m).size by have := hb m; unfold u32; omega]
    exact decide_eq_true h)
  have hstart : (w.spaces m).start ≤ a := by
    unfold wire at ht
    rw [idx?_eq _ _ (by have := hb m; omega) ha] at ht
    split at ht
    · cases ht
    · rename_i h
      split at h
      · omega
      · cases h
  obtain ⟨hg, hg1⟩ := get_wired hw ht
  generalize hnew : (((w.get m a).2 &&& ~~~(((1#32 <<< ((h : Int) - (l : Int) + 1).toNat) - 1#32) <<< ((l : Int)).toNat)) |||
      ((BitVec.ofInt 32 n <<< ((l : Int)).toNat) &&& (((1#32 <<< ((h : Int) - (l : Int) + 1).toNat) - 1#32) <<< ((l : Int)).toNat))) = new
  have hrun : setMem nm env w [p, .int n] = some (w.acts env [.write m a new], none) := by
    unfold setMem
    simp only [hbit, dataList, List.flatMap_cons, List.flatMap_nil, argData, List.append_nil]
    unfold setPlace
    simp only
    rw [if_neg (by omega), if_pos (by omega), if_neg (by simp), if_neg (by omega), hnew, hg1]
    rfl
  have hl : ∀ x ∈ [Ucsim.Spec.Act.write m a new], x.loc.2 < 2 ^ 32 ∧ Quiet w x.loc.1 x.loc.2 := by
    intro x hx
    simp only [List.mem_singleton] at hx
    subst hx
    exact ⟨ha, hq⟩
  refine ⟨_, hrun, ?_, ?_⟩
  · intro k hk
    rw [Ucsim.Props.mem_history env w hw _ hl m a t ht]
    have := spec_list (wire env w) m t new hbt [new] a 0 (specOf env w) rfl ht hro (fun i u h1 h2 => by simp at h2; omega)
    unfold Ucsim.Spec.readT
    rw [hbt]
    simp only
    rw [show (Ucsim.Spec.run (wire env w) (specOf env w) [.write m a new]).mem t.chip t.elem = _ from this]
    have e1 : (BitVec.ofNat 32 (new.toNat % 2 ^ t.width)).getLsbD k = new.getLsbD k := by
      simp only [BitVec.getLsbD_ofNat, Nat.testBit_mod_two_pow]
      rw [decide_eq_true (by omega : k < 32), decide_eq_true hk]
      simp [BitVec.getLsbD]
    rw [e1, ← hnew]
    simp only [BitVec.getLsbD_or, BitVec.getLsbD_and, BitVec.getLsbD_not, mask_bit h1 hlh (by omega : k < 32)]
    by_cases c : l ≤ k ∧ k ≤ h
    · rw [if_pos c]
      simp only [c, and_self, decide_true, Bool.not_true, Bool.and_false, Bool.false_or, Bool.and_true]
      rw [BitVec.getLsbD_shiftLeft, Int.toNat_natCast]
      simp only [show k < 32 by omega, show ¬ k < l by omega, decide_true, decide_false, Bool.not_false, Bool.true_and]
      exact ofInt_bit n (by omega)
    · rw [if_neg c]
      simp [c, show k < 32 by omega]
  · intro sp' a' t' ht' hno
    rw [Ucsim.Props.mem_history env w hw _ hl sp' a' t' ht']
    have h0' : (w.get sp' a').2 = Ucsim.Spec.readT (specOf env w).mem t' := Ucsim.Props.mem_history env w hw [] (by simp) sp' a' t' ht'
    rw [h0']
    apply readT_congr
    apply spec_run_frame
    intro x hx u hu
    simp only [List.mem_singleton] at hx
    subst hx
    have : u = t := Option.some.inj ((show wire env w m a = some u from hu).symm.trans ht)
    rw [this]
    exact hno

/-! ### a concrete case -/
open Ucsim.Props

/-- Every space has the 16 bytes 0x100-0x10f on chip 0; space 2 has 12 bits on chip 1. -/
def setEnv : Env := { exEnv with chips := fun k => if k = 0 then ⟨16, 8⟩ else ⟨16, 12⟩ }
def setCell (i : Nat) : Cell := (newCell 8).decode (some ⟨some 0, i⟩)
def setCell2 (i : Nat) : Cell := (newCell 12).decode (some ⟨some 1, 2 * i⟩)
def setWorld : World :=
  { exWorld with spaces := fun sp => if sp = 2 then ⟨0x100, 16, 12, true, setCell2, newDummy 12, []⟩ else ⟨0x100, 16, 8, true, setCell, newDummy 8, []⟩ }

/-- `xram` is space 0, `wide` is space 2; `P1` is a variable at 0x105 of space 0, `mode` the bits 6
to 4 of it. -/
def exNames (junk : Int) : Names :=
  { vars := fun s => if s = "P1".toList then some ⟨some 0, 0x105, -1, -1⟩ else if s = "mode".toList then some ⟨some 0, 0x105, 6, 4⟩ else none
    mems := fun s => if s = "xram".toList then some 0 else if s = "wide".toList then some 2 else none
    bit2mem := fun a => (0, a, -1, -1)
    junk := fun _ => junk }

theorem set_space (m : Nat) : (setWorld.spaces m).start = 0x100 ∧ (setWorld.spaces m).size = 16 := by
  unfold setWorld
  simp only
  split <;> exact ⟨rfl, rfl⟩

theorem set_wf : Wf setEnv setWorld := by
  intro m
  refine ⟨by have := set_space m; omega, ?_, ?_, ?_⟩
  · intro i hi
    rw [(set_space m).2] at hi
    unfold setWorld
    simp only
    split
    · exact ⟨(by decide : 1 ≤ 12), (by decide : 12 ≤ 32), rfl, fun h => (by cases h), fun _ => ⟨1, i, by simp [setCell2, Cell.decode, setEnv, Chip.bwidth]; omega, hi, by simp [setCell2, setEnv, Cell.decode, newCell, kindOf, Kind.bytes, Chip.bwidth]⟩⟩
    · exact ⟨(by decide : 1 ≤ 8), (by decide : 8 ≤ 32), rfl, fun h => (by cases h), fun _ => ⟨0, i, by simp [setCell, Cell.decode, setEnv, Chip.bwidth], hi, by simp [setCell, setEnv, Cell.decode, newCell, kindOf, Kind.bytes, Chip.bwidth]⟩⟩
  · unfold setWorld; simp only; split <;> rfl
  · unfold setWorld; simp only; split <;> rfl

theorem set_quiet (m a : Nat) : Quiet setWorld m a := by
  have h : ∀ m i, ((setWorld.spaces m).cells i).ops = [] ∧ (setWorld.spaces m).dummy.ops = [] := by
    intro m i
    unfold setWorld; simp only; split <;> exact ⟨rfl, rfl⟩
  unfold Quiet
  split
  · rw [(h m 0).2]; exact quiet_nil
  · rw [(h m _).1]; exact quiet_nil

theorem set_space0 : setWorld.spaces 0 = ⟨0x100, 16, 8, true, setCell, newDummy 8, []⟩ := by
  unfold setWorld
  simp

theorem wire_idx (env : Env) (w : World) (sp a i : Nat) (h : (w.spaces sp).idx? a = some i) (k e : Nat)
    (h1 : ((w.spaces sp).cells i).nonDec = false) (h2 : ((w.spaces sp).cells i).ptr = ⟨some k, e⟩) (h3 : ((w.spaces sp).cells i).kind = .c8) :
    wire env w sp a = some ⟨k, e / (env.chips k).bwidth, none, ((w.spaces sp).cells i).width⟩ := by
  unfold wire
  rw [h]
  simp only [h1, h2, h3]
  rfl

theorem wire_idx_none (env : Env) (w : World) (sp a : Nat) (h : (w.spaces sp).idx? a = none) : wire env w sp a = none := by
  unfold wire
  rw [h]

theorem set_wire (a : Nat) (ha : a < 2 ^ 32) : wire setEnv setWorld 0 a =
    if 0x100 ≤ a ∧ a < 0x110 then some ⟨0, a - 0x100, none, 8⟩ else none := by
  have h := idx?_eq (setWorld.spaces 0) a (by have := set_space 0; omega) ha
  rw [(set_space 0).1, (set_space 0).2] at h
  by_cases c : 256 ≤ a ∧ a < 272
  · rw [if_pos c] at h ⊢
    rw [wire_idx setEnv setWorld 0 a _ h 0 (a - 256) (by rw [set_space0]; rfl) (by rw [set_space0]; rfl) (by rw [set_space0]; rfl), set_space0]
    simp [setEnv, Chip.bwidth, setCell, Cell.decode, newCell]
  · rw [if_neg c] at h ⊢
    exact wire_idx_none _ _ _ _ h

theorem isRo_plain (w : World) (sp : Nat) (h : ∀ i, ((w.spaces sp).cells i).ro = false) (h2 : (w.spaces sp).dummy.ro = false) (a : Nat) : w.isRo sp a = false := by
  unfold World.isRo
  split
  · exact h2
  · exact h _

theorem set_ro (a : Nat) : setWorld.isRo 0 a = false :=
  isRo_plain setWorld 0 (fun i => by rw [set_space0]; rfl) (by rw [set_space0]; rfl) a

attribute [local irreducible] Quiet wire World.isRo

/-- `1 -1 "A\n"` -/
def exData : List Datum := [.num 1, .num (-1), .str [.plain 'A', .special 'n' 10]]

/-- `set memory xram 0x10d 1 -1 "A\n"`: the last value does not fit in the memory. -/
example : ∃ w', setMem (exNames 0) setEnv setWorld (.sym "xram".toList :: .int 0x10d :: exData.map Datum.arg) = some (w', none) ∧
    (w'.get 0 0x10d).2.toNat = 1 ∧ (w'.get 0 0x10e).2.toNat = 0xff ∧ (w'.get 0 0x10f).2.toNat = 65 := by
  have hq : ∀ a, 0x10d ≤ a → Quiet setWorld 0 a := by
    intro a _
    exact set_quiet 0 a
  obtain ⟨w', h1, h2, _⟩ := c95_list_partial setEnv (exNames 0) setWorld set_wf "xram".toList 0 0x10d 8 (.int 0x10d) exData
    (by decide) (by decide) (.num 0x10d (by decide)) (by
      intro d hd
      simp only [exData, List.mem_cons, List.not_mem_nil, or_false] at hd
      rcases hd with rfl | rfl | rfl
      · trivial
      · trivial
      · exact ⟨by decide, by decide, by decide, by decide, trivial⟩)
    (by simp [exData, Datum.vals]) (by rw [(set_space 0).1]; omega) (by have := set_space 0; omega) (by omega) (.inl (by omega))
    (wire_plain _ _ _ 8 (fun i => by rw [set_space0]; exact ⟨by simp [setCell, Cell.decode, newCell, kindOf], rfl⟩))
    hq
    (fun a b t u ha hb h1 h2 h3 h4 => by
      rw [set_wire a ha] at h1
      rw [set_wire b hb] at h2
      split at h1
      · split at h2
        · cases h1; cases h2
          have : a - 256 = b - 256 := h4
          omega
        · cases h2
      · cases h1)
  have hro := set_ro
  refine ⟨w', h1, ?_, ?_, ?_⟩
  · exact h2 0 1 _ rfl (by omega) (set_wire 0x10d (by omega)) (hro _)
  · exact h2 1 (-1) _ rfl (by omega) (set_wire 0x10e (by omega)) (hro _)
  · exact h2 2 65 _ rfl (by omega) (set_wire 0x10f (by omega)) (hro _)

/-- `set memory P1[6:4] 5` and `set memory mode 5`. -/
example (p : Arg) (hp : p = .bits (.sym "P1".toList) (.int 4) (.int 6) ∨ p = .sym "mode".toList) :
    ∃ w', setMem (exNames 0) setEnv setWorld [p, .int 5] = some (w', none) ∧ (w'.get 0 0x105).2.getLsbD 6 = true ∧
      (w'.get 0 0x105).2.getLsbD 5 = false := by
  have hb : BitsOf (exNames 0) (fun m a => (setWorld.spaces m).start ≤ a ∧ a < (setWorld.spaces m).start + (setWorld.spaces m).size) p 0 0x105 4 6 := by
    rcases hp with rfl | rfl
    · exact .bits _ 0 0x105 6 4 (.var _ ⟨some 0, 0x105, -1, -1⟩ 0 (by decide) rfl) (by omega) (by omega)
    · exact .var _ ⟨some 0, 0x105, 6, 4⟩ 0 4 6 (by decide) rfl rfl rfl (by omega) (by omega)
  obtain ⟨w', h1, h2, _⟩ := c95_bits_partial setEnv (exNames 0) setWorld set_wf p 0 0x105 4 6 5 ⟨0, 5, none, 8⟩ hb
    (fun m => by have := set_space m; omega) (by omega) (by omega) (set_wire 0x105 (by omega)) rfl (by decide) (set_ro _) (set_quiet _ _)
  exact ⟨w', h1, by rw [h2 6 (by decide)]; decide, by rw [h2 5 (by decide)]; decide⟩

/-- The same text, as it is entered. -/
example : (split "set memory P1[6:4] 5".toList).map (·.params) = some [.sym "memory".toList, .bits (.sym "P1".toList) (.int 4) (.int 6), .int 5] := by
  decide +kernel

/-- C95 is false of the program: a name that is no variable is taken as data; what is stored is
whatever was in the memory of the argument (here: any `n`), without a message. -/
theorem c95_name_false (n : Int) : ∃ w', setMem (exNames n) setEnv setWorld [.sym "xram".toList, .int 0x105, .sym "foo".toList] = some (w', none) ∧
    w' = (setWorld.write setEnv 0 0x105 (BitVec.ofInt 32 n)).1 := by
  refine ⟨_, ?_, rfl⟩
  have e : setMem (exNames n) setEnv setWorld [.sym "xram".toList, .int 0x105, .sym "foo".toList] =
    some (setLoop setEnv 0 [BitVec.ofInt 32 n] 0x105 setWorld, none) := rfl
  rw [e]
  have : validAddr (setWorld.spaces 0).start (setWorld.spaces 0).size 0x105 = true ∧
        0x105 ≤ subU (u32 ((setWorld.spaces 0).start + (setWorld.spaces 0).size)) 1 := by decide
  rw [setLoop, if_pos this, setLoop]

/-- C95 is false of the program: characters from 128 on are stored as negative numbers in memories
wider than a byte: 0xe9 becomes 0xfe9. -/
theorem c95_wide_false :
    (setMem (exNames 0) setEnv setWorld [.sym "wide".toList, .int 0x105, .str [Char.ofNat 0xe9]]).map (fun r => ((r.1.get 2 0x105).2, r.2)) =
      some (0xfe9#32, none) := by
  decide +kernel

/-- C95 is false of the program: data beyond the end of the memory are dropped without a message. -/
theorem c95_beyond_false (env : Env) (nm : Names) (hv : nm.vars "xram".toList = none) (hm : nm.mems "xram".toList = some 0) :
    setMem nm env setWorld [.sym "xram".toList, .int 0x110, .int 1] = some (setWorld, none) := by
  unfold setMem
  simp only [argBit, hv, hm, Option.map_none, argAddr]
  rfl

/-- C95 is false of the program: all the 32 bits of a location can not be set, the behaviour of
`1U << 32` is undefined. -/
theorem c95_bits_false : setMem (exNames 0) setEnv setWorld [.bits (.sym "P1".toList) (.int 0) (.int 31), .int 5] = none := by
  decide +kernel

/-- C95 is false of the program: if a variable has the name of a memory, the address is taken as
data: they are stored from the address of the variable on. -/
theorem c95_shadow_false :
    let nm : Names := { exNames 0 with vars := fun s => if s = "xram".toList then some ⟨some 0, 0x105, -1, -1⟩ else none }
    (setMem nm setEnv setWorld [.sym "xram".toList, .int 0x10a, .int 5]).map (fun r => ((r.1.get 0 0x105).2, (r.1.get 0 0x106).2, (r.1.get 0 0x10a).2, r.2)) =
      some (0x0a#32, 5#32, 0#32, none) := by
  decide +kernel

end Ucsim.Cmd
