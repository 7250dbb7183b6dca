import Verif.Proof.DumpMem
/-! Proofs about dumps with names. -/
namespace Ucsim.Dump
open Spec

/-- After the lines `l` the loop goes on in the state `s1`. -/
def Adv (m : DMem) (k : Ask) (s : DS) (l : List Line) (s1 : DS) : Prop :=
  ∀ t l', Runs m k s1 t l' → Runs m k s t (l ++ l')

theorem Adv.trans {m k s s1 s2 l l2} (h : Adv m k s l s1) (h2 : Adv m k s1 l2 s2) : Adv m k s (l ++ l2) s2 := by
  intro t l' hr
  rw [List.append_assoc]
  exact h _ _ (h2 _ _ hr)

theorem Adv.one {m k s s1 l} (h : Cond s) (hi : iter m k s = (s1, l, false)) : Adv m k s l s1 :=
  fun _ _ hr => Runs.go h hi hr

theorem iter_smart {m : DMem} (hm : m.rom = none) (s : DS) : iter m ⟨1, none⟩ s = smartIter m ⟨1, none⟩ s := by
  unfold iter
  simp [hm]

theorem field_eq {x hi lo : Nat} (h : lo ≤ hi) : field x hi lo = bitsOf x hi lo := by
  unfold field bitsOf
  rw [show 2 ^ (hi + 1) = 2 ^ lo * 2 ^ (hi - lo + 1) by rw [← Nat.pow_add]; congr 1; omega, Nat.mod_mul_right_div_self]

/-- The state at location `a`, to begin with. -/
structure At (m : DMem) (a : Nat) (s : DS) : Prop where
  start : s.start = a
  up : s.up = true
  lines : s.lines < 0
  lo : m.lva ≤ a
  lt : a < s.stop
  stop : s.stop ≤ m.hva + 1
  top : m.hva + 1 < 4294967296
  bpl : 0 < s.bpl

theorem At.cond {m a s} (h : At m a s) : Cond s := by
  unfold Cond; simp [h.up, h.start, h.lt]

/-- What does not change. -/
structure Same (s t : DS) : Prop where
  stop : t.stop = s.stop
  up : t.up = s.up
  bpl : t.bpl = s.bpl
  lines : t.lines = s.lines

theorem inReq_none (v : DVar) : inReq none v = true := by unfold inReq; rfl

theorem seek_cons (v : DVar) (t : List DVar) (bm : Bool) : seek none (v :: t) bm = (some v, t, bm || v.bits.isSome) := by
  simp [seek, inReq_none]

theorem bitNames_cons (x : Nat) (v u : DVar) (t : List DVar) : bitNames x (v :: u :: t) =
    (if u.bits = v.bits then Line.label none v.name
     else .bits none (some v.name) (v.bits.getD (0, 0)).1 (v.bits.getD (0, 0)).2
      (bitsOf x (v.bits.getD (0, 0)).1 (v.bits.getD (0, 0)).2)) :: bitNames x (u :: t) := rfl

/-- The lines of names of bits. -/
theorem adv_bits {m : DMem} (hm : m.rom = none) {a : Nat} : ∀ (t : List DVar) (v : DVar) (s : DS), At m a s →
    s.state = 2 → s.var = some v → s.rest = t → s.bitmode = true →
    (∀ x ∈ v :: t, ∃ h l, x.bits = some (h, l) ∧ l ≤ h ∧ (h, l) ≠ (m.width - 1, 0)) →
    ∃ s1, Adv m ⟨1, none⟩ s (bitNames (m.rd a) (v :: t)) s1 ∧ Same s s1 ∧ s1.start = a + 1 ∧ s1.df = a + 1 ∧
      s1.state = 0 ∧ s1.bitmode = false
  | [], v, s, ha, hst, hv, hr, hb, hx => by
    obtain ⟨h, l, hbits, hle, _⟩ := hx v List.mem_cons_self
    have hsh : shows none m.width 2 v = true := by simp [shows, inReq_none]
    have hn : nth true a 1 = a + 1 := by have := ha.lt; have := ha.stop; have := ha.top; simp [nth, u32]; omega
    have hl := ha.lines
    have e := iter_smart hm s
    unfold smartIter at e
    rw [if_neg (by omega)] at e
    unfold showVar at e
    simp only [hv, hst, hsh, hr, seek, hb, if_true] at e
    unfold bitRow at e
    simp only [bitsShown, hv, Option.bind_some, hbits, hst, if_true, ha.start, ha.up, hn] at e
    rw [if_neg (by omega), if_neg (by omega)] at e
    rw [field_eq hle] at e
    have eb : bitNames (m.rd a) [v] = [Line.bits none (some v.name) h l (bitsOf (m.rd a) h l)] := by simp [bitNames, hbits]
    rw [eb]
    exact ⟨_, Adv.one ha.cond e, ⟨rfl, ha.up.symm, rfl, rfl⟩, rfl, rfl, rfl, rfl⟩
  | u :: t, v, s, ha, hst, hv, hr, hb, hx => by
    obtain ⟨h, l, hbits, hle, _⟩ := hx v List.mem_cons_self
    have hsh : shows none m.width 2 v = true := by simp [shows, inReq_none]
    have hl := ha.lines
    have hal : aliases none m.width 2 v u = decide (u.bits = v.bits) := by simp [aliases]
    by_cases hq : u.bits = v.bits
    · have e := iter_smart hm s
      unfold smartIter at e
      rw [if_neg (by omega)] at e
      unfold showVar at e
      simp only [hv, hst, hsh, hr, seek_cons, hb, if_true, hal, hq, decide_true, Bool.true_or] at e
      rw [if_neg (by omega)] at e
      obtain ⟨s1, a1, a2, a3⟩ := adv_bits hm (a := a) t u
        { s with state := 2, var := some u, rest := t, bitmode := true }
        ⟨ha.start, ha.up, ha.lines, ha.lo, ha.lt, ha.stop, ha.top, ha.bpl⟩ rfl rfl rfl rfl
        (fun x hx' => hx x (List.mem_cons_of_mem _ hx'))
      refine ⟨s1, ?_, ⟨a2.1, a2.2, a2.3, a2.4⟩, a3⟩
      rw [bitNames_cons, if_pos hq]
      exact (Adv.one ha.cond e).trans a1
    · have e := iter_smart hm s
      unfold smartIter at e
      rw [if_neg (by omega)] at e
      unfold showVar at e
      simp only [hv, hst, hsh, hr, seek_cons, hb, if_true, hal, hq, decide_false, Bool.true_or, Bool.false_eq_true, if_false] at e
      unfold bitRow at e
      simp only [bitsShown, hv, Option.bind_some, hbits, hst, if_true, ha.start] at e
      rw [if_neg (by omega)] at e
      obtain ⟨s1, a1, a2, a3⟩ := adv_bits hm (a := a) t u
        { s with start := a, state := 2, var := some u, rest := t, bitmode := true }
        ⟨rfl, ha.up, ha.lines, ha.lo, ha.lt, ha.stop, ha.top, ha.bpl⟩ rfl rfl rfl rfl
        (fun x hx' => hx x (List.mem_cons_of_mem _ hx'))
      refine ⟨s1, ?_, ⟨a2.1, a2.2, a2.3, a2.4⟩, a3⟩
      rw [field_eq hle] at e
      rw [bitNames_cons, if_neg hq, hbits]
      exact (Adv.one ha.cond e).trans a1

/-- From the line of the whole location to the names of bits. -/
theorem adv_of_iter {m : DMem} (hm : m.rom = none) {a : Nat} {s0 s : DS} (ha0 : At m a s0) (ha : At m a s) (hs : Same s0 s)
    (adr : Option Nat) (lab : Option String)
    (fs : List DVar) (hf : ∀ x ∈ fs, ∃ h l, x.bits = some (h, l) ∧ l ≤ h ∧ (h, l) ≠ (m.width - 1, 0))
    (hst : s.state = 1)
    (e : iter m ⟨1, none⟩ s0 = bitRow m ⟨1, none⟩ { s with bitmode := true, rest := fs.tail } adr lab fs.head?) :
    ∃ s1, Adv m ⟨1, none⟩ s0 ([Line.bits adr lab (m.width - 1) 0 (bitsOf (m.rd a) (m.width - 1) 0)] ++ bitNames (m.rd a) fs) s1 ∧
      Same s0 s1 ∧ s1.start = a + 1 ∧ s1.df = a + 1 ∧ s1.state = 0 ∧ s1.bitmode = false := by
  have hl := ha.lines
  have hn : nth true a 1 = a + 1 := by have := ha.lt; have := ha.stop; have := ha.top; simp [nth, u32]; omega
  have hbb : bitsShown m.width 1 s.var none = (m.width - 1, 0) := by
    unfold bitsShown
    cases s.var.bind (fun v => v.bits) <;> rfl
  unfold bitRow at e
  simp only [hst, ha.start, ha.up, hn, hbb] at e
  rw [if_neg (by omega), field_eq (Nat.zero_le _)] at e
  cases fs with
  | nil =>
    simp only [List.head?_nil, List.tail_nil] at e
    rw [if_neg (by omega)] at e
    rw [show bitNames (m.rd a) [] = [] from rfl, List.append_nil]
    exact ⟨_, Adv.one ha0.cond e, ⟨hs.1, ha0.up.symm, hs.3, hs.4⟩, rfl, rfl, rfl, rfl⟩
  | cons u t =>
    simp only [List.head?_cons, List.tail_cons] at e
    obtain ⟨s1, a1, a2, a3⟩ := adv_bits hm (a := a) t u
      { s with start := a, up := true, state := 2, var := some u, rest := t, bitmode := true }
      ⟨rfl, rfl, ha.lines, ha.lo, ha.lt, ha.stop, ha.top, ha.bpl⟩ rfl rfl rfl rfl hf
    exact ⟨s1, (Adv.one ha0.cond e).trans a1, ⟨a2.1.trans hs.1, a2.2.trans ha0.up.symm, a2.3.trans hs.3, a2.4.trans hs.4⟩, a3⟩

theorem wholeNames_cons (adr : Option Nat) (w x : Nat) (v u : DVar) (t : List DVar) :
    wholeNames adr w x (v :: u :: t) = Line.label adr v.name :: wholeNames none w x (u :: t) := rfl

/-- A round of the loop that begins in the state 1 after the address was printed is like any
other. -/
structure First (m : DMem) (a : Nat) (s : DS) (adr : Option Nat) (s' : DS) : Prop where
  adr : (adr = some a ∧ s.state = 0 ∧ s' = { s with state := 1, var := (m.vars a).head?, rest := (m.vars a).tail, bitmode := s.bitmode || ((m.vars a).head?.bind fun v => v.bits).isSome }) ∨
    (adr = none ∧ s.state = 1 ∧ s' = s)

theorem First.iter {m : DMem} (hm : m.rom = none) {a s adr s'} (ha : At m a s) (h : First m a s adr s') :
    iter m ⟨1, none⟩ s = showVar m ⟨1, none⟩ adr s' := by
  rw [iter_smart hm]
  unfold smartIter
  rcases h.adr with ⟨rfl, h0, rfl⟩ | ⟨rfl, h0, rfl⟩
  · rw [if_pos h0, ha.start]
    cases m.vars a with
    | nil => simp [seek]
    | cons v t => simp [seek_cons]
  · rw [if_neg (by omega)]

theorem First.same {m a s adr s'} (ha : At m a s) (h : First m a s adr s') : At m a s' ∧ Same s s' ∧ s'.state = 1 := by
  rcases h.adr with ⟨_, h0, rfl⟩ | ⟨_, h0, rfl⟩
  · exact ⟨⟨ha.start, ha.up, ha.lines, ha.lo, ha.lt, ha.stop, ha.top, ha.bpl⟩, ⟨rfl, rfl, rfl, rfl⟩, rfl⟩
  · exact ⟨ha, ⟨rfl, rfl, rfl, rfl⟩, h0⟩

theorem shows_whole {w : Nat} {v : DVar} (h : v.bits = none ∨ v.bits = some (w - 1, 0)) : shows none w 1 v = true := by
  rcases h with h | h <;> simp [shows, h]

theorem alias_whole {w : Nat} {v u : DVar} (hv : v.bits = none ∨ v.bits = some (w - 1, 0))
    (hu : u.bits = none ∨ u.bits = some (w - 1, 0)) (ho : u.bits = none → v.bits = none) : aliases none w 1 v u = true := by
  rcases hv with h | h <;> rcases hu with h' | h' <;> simp [aliases, h, h']
  simp [h, h'] at ho

theorem alias_part {w : Nat} {v u : DVar} (hv : v.bits = none ∨ v.bits = some (w - 1, 0))
    (hu : ∃ h l, u.bits = some (h, l) ∧ l ≤ h ∧ (h, l) ≠ (w - 1, 0)) : aliases none w 1 v u = false := by
  obtain ⟨h, l, e, _, hn⟩ := hu
  have hn' : ¬ (h = w - 1 ∧ l = 0) := by simpa using hn
  rcases hv with h | h <;> simp [aliases, h, e] <;> omega

/-- The lines of a location that has names of bits. -/
theorem adv_whole {m : DMem} (hm : m.rom = none) {a : Nat} (fs : List DVar)
    (hf : ∀ x ∈ fs, ∃ h l, x.bits = some (h, l) ∧ l ≤ h ∧ (h, l) ≠ (m.width - 1, 0)) :
    ∀ (t : List DVar) (v : DVar) (s s' : DS) (adr : Option Nat), At m a s → First m a s adr s' →
    s'.var = some v → s'.rest = t ++ fs → (v.bits.isSome = true → s'.bitmode = true) →
    (∀ x ∈ v :: t, x.bits = none ∨ x.bits = some (m.width - 1, 0)) →
    (v :: t).Pairwise (fun v u => u.bits = none → v.bits = none) → (∃ x ∈ v :: t ++ fs, x.bits ≠ none) →
    ∃ s1, Adv m ⟨1, none⟩ s (wholeNames adr m.width (m.rd a) (v :: t) ++ bitNames (m.rd a) fs) s1 ∧
      Same s s1 ∧ s1.start = a + 1 ∧ s1.df = a + 1 ∧ s1.state = 0 ∧ s1.bitmode = false
  | [], v, s, s', adr, ha, hF, hv, hr, hb, hx, hp, hex => by
    obtain ⟨ha', hs', hst⟩ := hF.same ha
    have hsv := shows_whole (hx v List.mem_cons_self)
    have e := hF.iter hm ha
    unfold showVar at e
    cases fs with
    | nil =>
      have hbt : s'.bitmode = true := by
        obtain ⟨x, h1, h2⟩ := hex
        simp at h1
        subst h1
        exact hb (by cases hq : x.bits <;> simp_all)
      simp only [hv, hst, hsv, hr, List.nil_append, seek, hbt, if_true] at e
      obtain ⟨s1, k1, k2, k3⟩ := adv_of_iter hm ha ha' hs' adr (some v.name) [] hf hst (by
        rw [e]; simp [hst, hbt, hr, hv])
      exact ⟨s1, k1, k2, k3⟩
    | cons u r =>
      have hu := hf u List.mem_cons_self
      have hal := alias_part (hx v List.mem_cons_self) hu
      have hus : u.bits.isSome = true := by obtain ⟨h, l, e, _⟩ := hu; simp [e]
      simp only [hv, hst, hsv, hr, List.nil_append, seek_cons, hus, Bool.or_true, hal, Bool.false_eq_true, if_false, if_true] at e
      obtain ⟨s1, k1, k2, k3⟩ := adv_of_iter hm ha ha' hs' adr (some v.name) (u :: r) hf hst (by
        rw [e]; simp [hst, hv])
      exact ⟨s1, k1, k2, k3⟩
  | u :: t, v, s, s', adr, ha, hF, hv, hr, hb, hx, hp, hex => by
    obtain ⟨ha', hs', hst⟩ := hF.same ha
    have hsv := shows_whole (hx v List.mem_cons_self)
    have hxu := hx u (List.mem_cons_of_mem _ List.mem_cons_self)
    have ho := (List.pairwise_cons.1 hp).1 u List.mem_cons_self
    have hal := alias_whole (hx v List.mem_cons_self) hxu ho
    have e := hF.iter hm ha
    unfold showVar at e
    simp only [hv, hst, hsv, hr, List.cons_append, seek_cons, hal, if_true] at e
    rw [if_neg (by have := ha'.lines; omega)] at e
    obtain ⟨s1, k1, k2, k3⟩ := adv_whole hm fs hf t u
      { s' with state := 1, var := some u, rest := t ++ fs, bitmode := s'.bitmode || u.bits.isSome } _ none
      ⟨ha'.start, ha'.up, ha'.lines, ha'.lo, ha'.lt, ha'.stop, ha'.top, ha'.bpl⟩ ⟨Or.inr ⟨rfl, rfl, rfl⟩⟩ rfl rfl
      (by intro h; simp [h]) (fun x h => hx x (List.mem_cons_of_mem _ h)) (List.pairwise_cons.1 hp).2 (by
        obtain ⟨x, h1, h2⟩ := hex
        by_cases hvn : v.bits = none
        · rcases List.mem_cons.1 h1 with rfl | h1
          · exact absurd hvn h2
          · exact ⟨x, h1, h2⟩
        · exact ⟨u, by simp, fun h => hvn (ho h)⟩)
    refine ⟨s1, ?_, ⟨k2.1.trans hs'.1, k2.2.trans hs'.2, k2.3.trans hs'.3, k2.4.trans hs'.4⟩, k3⟩
    rw [wholeNames_cons]
    exact (Adv.one ha.cond e).trans k1

/-- The number of values of a line at `a`. -/
def lenAt (m : DMem) (s : DS) (a : Nat) : Nat := rowLen m true true a s.stop s.bpl.toNat 0

/-- The line of values. -/
theorem adv_data {m : DMem} {a : Nat} {s0 s : DS} (ha0 : At m a s0) (ha : At m a s) (hs : Same s0 s)
    (adr : Option Nat) (lab : Option String) (hb : s.bitmode = false)
    (e : iter m ⟨1, none⟩ s0 = dataRow m ⟨1, none⟩ s adr lab) :
    ∃ s1, Adv m ⟨1, none⟩ s0 [Line.row adr lab ((List.range' a (lenAt m s0 a)).map m.rd)] s1 ∧
      Same s0 s1 ∧ s1.start = a + lenAt m s0 a ∧ s1.df = a + lenAt m s0 a ∧ s1.state = 0 ∧ s1.bitmode = false := by
  have hl := ha.lines
  have hlt := ha0.lt; have hst := ha0.stop; have htop := ha0.top
  obtain ⟨_, _, b3, _, _⟩ := rowLen_up (m := m) (smart := true) (start := a) ha0.lo ha0.stop (by omega) s0.bpl.toNat 0 (by omega)
  unfold dataRow at e
  simp only [ne_eq, Nat.one_ne_zero, not_false_eq_true, decide_true, ha.start, ha.up, hs.stop, hs.bpl] at e
  rw [if_neg (by omega)] at e
  unfold lenAt
  generalize rowLen m true true a s0.stop s0.bpl.toNat 0 = n at *
  rw [map_range_up m.rd a n (by omega), show nth true a n = a + n by simp [nth, u32]; omega] at e
  exact ⟨_, Adv.one ha0.cond e, ⟨rfl, ha0.up.symm, rfl, hs.lines⟩, rfl, rfl, rfl, hb⟩

theorem named_cons (adr : Option Nat) (vs : List Nat) (v u : DVar) (t : List DVar) :
    named adr vs (v :: u :: t) = Line.label adr v.name :: named none vs (u :: t) := rfl

/-- The lines of a location without names of bits. -/
theorem adv_named {m : DMem} (hm : m.rom = none) {a : Nat} :
    ∀ (t : List DVar) (v : DVar) (s s' : DS) (adr : Option Nat), At m a s → First m a s adr s' →
    s'.var = some v → s'.rest = t → s'.bitmode = false → (∀ x ∈ v :: t, x.bits = none) →
    ∃ s1, Adv m ⟨1, none⟩ s (named adr ((List.range' a (lenAt m s a)).map m.rd) (v :: t)) s1 ∧
      Same s s1 ∧ s1.start = a + lenAt m s a ∧ s1.df = a + lenAt m s a ∧ s1.state = 0 ∧ s1.bitmode = false
  | [], v, s, s', adr, ha, hF, hv, hr, hb, hx => by
    obtain ⟨ha', hs', hst⟩ := hF.same ha
    have hsv := shows_whole (w := m.width) (Or.inl (hx v List.mem_cons_self))
    have e := hF.iter hm ha
    unfold showVar at e
    simp only [hv, hst, hsv, hr, seek, hb, if_true, Bool.false_eq_true, if_false] at e
    exact adv_data (s := { s' with rest := [], bitmode := false, state := 1, var := some v }) ha
      ⟨ha'.start, ha'.up, ha'.lines, ha'.lo, ha'.lt, ha'.stop, ha'.top, ha'.bpl⟩ ⟨hs'.1, hs'.2, hs'.3, hs'.4⟩ adr (some v.name) rfl e
  | u :: t, v, s, s', adr, ha, hF, hv, hr, hb, hx => by
    obtain ⟨ha', hs', hst⟩ := hF.same ha
    have hxu := hx u (List.mem_cons_of_mem _ List.mem_cons_self)
    have hxv := hx v List.mem_cons_self
    have hsv := shows_whole (w := m.width) (Or.inl hxv)
    have hal := alias_whole (w := m.width) (Or.inl hxv) (Or.inl hxu) (fun _ => hxv)
    have e := hF.iter hm ha
    unfold showVar at e
    simp only [hv, hst, hsv, hr, seek_cons, hal, if_true, hb, hxu, Option.isSome_none, Bool.or_false] at e
    rw [if_neg (by have := ha'.lines; omega)] at e
    obtain ⟨s1, k1, k2, k3⟩ := adv_named hm t u
      { s' with state := 1, var := some u, rest := t, bitmode := false } _ none
      ⟨ha'.start, ha'.up, ha'.lines, ha'.lo, ha'.lt, ha'.stop, ha'.top, ha'.bpl⟩ ⟨Or.inr ⟨rfl, rfl, rfl⟩⟩ rfl rfl
      rfl (fun x h => hx x (List.mem_cons_of_mem _ h))
    have hla : lenAt m { s' with state := 1, var := some u, rest := t, bitmode := false } a = lenAt m s a := by
      unfold lenAt; simp only [hs'.stop, hs'.bpl]
    rw [hla] at k1 k3
    refine ⟨s1, ?_, ⟨k2.1.trans hs'.1, k2.2.trans hs'.2, k2.3.trans hs'.3, k2.4.trans hs'.4⟩, k3⟩
    rw [named_cons]
    exact (Adv.one ha.cond e).trans k1

/-- Everything about a location. -/
theorem adv_at {m : DMem} (hm : m.rom = none) (hn : ∀ a, ∃ ws fs, m.vars a = ws ++ fs ∧ Names m.width ws fs) {a : Nat} {s : DS}
    (ha : At m a s) (h0 : s.state = 0) (hb : s.bitmode = false) :
    (∃ s1, (∀ v ∈ m.vars a, v.bits = none) ∧
      Adv m ⟨1, none⟩ s (named (some a) ((List.range' a (lenAt m s a)).map m.rd) (m.vars a)) s1 ∧
      Same s s1 ∧ s1.start = a + lenAt m s a ∧ s1.df = a + lenAt m s a ∧ s1.state = 0 ∧ s1.bitmode = false) ∨
    (∃ s1 ws fs, m.vars a = ws ++ fs ∧ Names m.width ws fs ∧ (∃ v ∈ m.vars a, v.bits ≠ none) ∧
      Adv m ⟨1, none⟩ s (wholeNames (some a) m.width (m.rd a) ws ++ bitNames (m.rd a) fs) s1 ∧
      Same s s1 ∧ s1.start = a + 1 ∧ s1.df = a + 1 ∧ s1.state = 0 ∧ s1.bitmode = false) := by
  have hF : First m a s (some a) _ := ⟨Or.inl ⟨rfl, h0, rfl⟩⟩
  by_cases hall : ∀ v ∈ m.vars a, v.bits = none
  · left
    cases hvs : m.vars a with
    | nil =>
      obtain ⟨ha', hs', hst⟩ := hF.same ha
      have e := hF.iter hm ha
      unfold showVar at e
      simp only [hvs, hb, List.head?_nil, Option.bind_none, Option.isSome_none, Bool.or_false, Bool.false_eq_true, if_false] at e
      obtain ⟨s1, k⟩ := adv_data (s := { s with state := 1, var := none, rest := ([] : List DVar).tail, bitmode := false }) ha
        ⟨ha.start, ha.up, ha.lines, ha.lo, ha.lt, ha.stop, ha.top, ha.bpl⟩ ⟨rfl, rfl, rfl, rfl⟩ (some a) none rfl e
      exact ⟨s1, by simp, k⟩
    | cons v t =>
      obtain ⟨s1, k⟩ := adv_named hm t v s _ (some a) ha hF (by simp [hvs]) (by simp [hvs])
        (by simp [hb, hvs, hall v (by simp [hvs])]) (fun x hx => hall x (by rw [hvs]; exact hx))
      exact ⟨s1, by rw [← hvs]; exact hall, k⟩
  · right
    have hex : ∃ v ∈ m.vars a, v.bits ≠ none := by
      apply Classical.byContradiction
      intro hc
      apply hall
      intro v hv
      apply Classical.byContradiction
      intro h; exact hc ⟨v, hv, h⟩
    obtain ⟨ws, fs, hvs, hN⟩ := hn a
    cases ws with
    | nil =>
      cases fs with
      | nil => rw [hvs] at hex; simp at hex
      | cons u r =>
        obtain ⟨ha', hs', hst⟩ := hF.same ha
        obtain ⟨h, l, hu, hle, hne⟩ := hN.part u List.mem_cons_self
        have hne' : ¬ (h = m.width - 1 ∧ l = 0) := by simpa using hne
        have hsh : shows none m.width 1 u = false := by simp [shows, hu]; omega
        have e := hF.iter hm ha
        unfold showVar at e
        simp only [hvs, List.nil_append, hb, hu, List.head?_cons, Option.bind_some, Option.isSome_some, Bool.or_true,
          Bool.false_eq_true, if_false, if_true, hsh, List.tail_cons] at e
        obtain ⟨s1, k⟩ := adv_of_iter hm (s := { s with state := 1, var := some u, rest := r, bitmode := true }) ha
          ⟨ha.start, ha.up, ha.lines, ha.lo, ha.lt, ha.stop, ha.top, ha.bpl⟩ ⟨rfl, rfl, rfl, rfl⟩ (some a) none (u :: r)
          hN.part rfl e
        exact ⟨s1, [], u :: r, hvs, hN, hex, k⟩
    | cons v t =>
      obtain ⟨s1, k⟩ := adv_whole hm fs hN.part t v s _ (some a) ha hF (by simp [hvs]) (by simp [hvs])
        (by simp [hvs]; intro h; exact Or.inr h) hN.whole hN.order (by rw [← hvs]; exact hex)
      exact ⟨s1, v :: t, fs, hvs, hN, hex, k⟩

theorem named_dump {m : DMem} (hm : m.rom = none) (hn : ∀ a, ∃ ws fs, m.vars a = ws ++ fs ∧ Names m.width ws fs)
    (htop : m.hva + 1 < 4294967296) (K : Nat) : ∀ (c : Nat) (s : DS),
    s.stop - s.start = c → s.up = true → m.lva ≤ s.start → s.start ≤ s.stop → s.stop ≤ m.hva + 1 → s.state = 0 →
    s.bitmode = false → 0 < s.bpl → (s.bpl = K ∨ s.bpl < K ∧ c ≤ s.bpl) → s.lines < 0 →
    ∃ t ls, Runs m ⟨1, none⟩ s t ls ∧ Labelled m K (List.range' s.start c) ls := by
  intro c
  induction c using Nat.strongRecOn with
  | ind c ih =>
    intro s hc hu h1 h2 h2' h0 hbm hb hK hl
    by_cases cd : s.start < s.stop
    · have ha : At m s.start s := ⟨rfl, hu, hl, h1, cd, h2', htop, hb⟩
      obtain ⟨c, rfl⟩ : ∃ d, c = d + 1 := ⟨c - 1, by omega⟩
      rcases adv_at hm hn ha h0 hbm with ⟨s1, hall, k1, k2, k3, k4, k5, k6⟩ | ⟨s1, ws, fs, hvs, hN, hex, k1, k2, k3, k4, k5, k6⟩
      · obtain ⟨_, b2, b3, b4, b5⟩ := rowLen_up (m := m) (smart := true) (start := s.start) h1 h2' (by omega) s.bpl.toNat 0 (by omega)
        have b6 := rowLen_pos (m := m) (smart := true) h1 h2' (by omega) cd (k := s.bpl.toNat) (by omega)
        unfold lenAt at k1 k3 k4
        generalize hnn : rowLen m true true s.start s.stop s.bpl.toNat 0 = n at *
        obtain ⟨n, rfl⟩ : ∃ d, n = d + 1 := ⟨n - 1, by omega⟩
        obtain ⟨t, ls, r1, r2⟩ := ih (c + 1 - (n + 1)) (by omega) s1 (by rw [k3, k2.stop]; omega) (by rw [k2.up, hu])
          (by omega) (by rw [k2.stop]; omega) (by rw [k2.stop]; exact h2') k5 k6 (by rw [k2.bpl]; exact hb)
          (by rw [k2.bpl]; omega) (by rw [k2.lines]; exact hl)
        refine ⟨t, _, k1 _ _ r1, ?_⟩
        have er : List.range' s.start (c + 1) = s.start :: List.range' (s.start + 1) n ++ List.range' s1.start (c + 1 - (n + 1)) := by
          rw [k3, ← List.range'_succ, List.range'_append_1]
          congr 1; omega
        rw [er, List.range'_succ]
        refine Labelled.row s.start _ _ ls hall ?_ ?_ r2
        · intro b hb
          rw [List.mem_range'_1] at hb
          have := b4 rfl (b - s.start) (by omega) (by omega) (by omega)
          rwa [show s.start + (b - s.start) = b by omega] at this
        · rw [List.length_range']
          rcases b5 with h | h | h
          · rcases hK with hK | hK
            · left; omega
            · by_cases hz : c + 1 - (n + 1) = 0
              · right; refine ⟨by omega, Or.inl ?_⟩; rw [hz]; rfl
              · exfalso; omega
          · have hz : c + 1 - (n + 1) = 0 := by omega
            rw [hz]
            by_cases hq : n + 1 = K
            · left; exact hq
            · right; exact ⟨by omega, Or.inl rfl⟩
          · by_cases hq : n + 1 = K
            · left; exact hq
            · right
              refine ⟨by omega, ?_⟩
              by_cases hz : c + 1 - (n + 1) = 0
              · left; rw [hz]; rfl
              · right
                obtain ⟨d, hd⟩ : ∃ d, c + 1 - (n + 1) = d + 1 := ⟨c + 1 - (n + 1) - 1, by omega⟩
                rw [hd, List.range'_succ]
                exact ⟨_, _, rfl, by rw [k3]; exact h.2.2⟩
      · obtain ⟨t, ls, r1, r2⟩ := ih c (by omega) s1 (by rw [k3, k2.stop]; omega) (by rw [k2.up, hu])
          (by omega) (by rw [k2.stop]; omega) (by rw [k2.stop]; exact h2') k5 k6 (by rw [k2.bpl]; exact hb)
          (by rw [k2.bpl]; omega) (by rw [k2.lines]; exact hl)
        refine ⟨t, _, k1 _ _ r1, ?_⟩
        rw [List.range'_succ]
        rw [k3] at r2
        exact Labelled.bits s.start ws fs _ ls hvs hN hex r2
    · have : c = 0 := by omega
      subst this
      exact ⟨s, [], Runs.stop (by unfold Cond; simp [hu]; omega), Labelled.done⟩

end Ucsim.Dump
