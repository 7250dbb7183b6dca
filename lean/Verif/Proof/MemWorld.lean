import Verif.Proof.Mem

/-! World level: well formed wirings and the refinement of accesses. -/
namespace Ucsim
open Spec (Target Act)

/-- Where address `a` of space `sp` leads.  The bit mask of a 1-bit location is
taken modulo 2^8 as cl_bit_cell8 does (mem.cc 938-955). -/
def wire (env : Env) (w : World) (sp a : Nat) : Option Target :=
  match (w.spaces sp).idx? a with
  | none => none
  | some i =>
    let c := (w.spaces sp).cells i
    match c.nonDec, c.ptr.blk with
    | false, some k =>
      some { chip := k, elem := c.ptr.off / (env.chips k).bwidth,
             bits := if c.kind = .bit8 then some ((c.mask.setWidth 8).setWidth 32) else none,
             width := c.width }
    | _, _ => none

/-- A cell built by cell_template and decoded (if at all) onto an existing
element of a chip of the same element size (or, for a 1-bit cell, any chip). -/
structure WfCell (chips : Nat → Chip) (c : Cell) : Prop where
  w1 : 1 ≤ c.width
  w2 : c.width ≤ 32
  kind : c.kind = kindOf c.width
  undec : c.nonDec = true → c.ptr = defPtr
  dec : c.nonDec = false → ∃ k e, c.ptr = ⟨some k, e * (chips k).bwidth⟩ ∧ e < (chips k).size ∧
    (c.kind = .bit8 ∨ (c.kind.bytes = (chips k).bwidth ∧ c.mask = maskOf c.width))

structure WfSpace (chips : Nat → Chip) (s : Space) : Prop where
  bound : s.start + s.size ≤ 4294967296
  cells : ∀ i, i < s.size → WfCell chips (s.cells i)
  dptr : s.dummy.ptr = defPtr
  dkind : s.dummy.kind = .dummy

def Wf (env : Env) (w : World) : Prop := ∀ sp, WfSpace env.chips (w.spaces sp)

/-- Only breakpoint operators (no peripheral, no bank switcher) on a cell. -/
def quietOps (l : List MOp) : Prop := ∀ o ∈ l, (∃ b, o = .wr b) ∨ (∃ b, o = .rd b)

/-- Only breakpoint operators on the location that an access of address `a` reaches. -/
def Quiet (w : World) (sp a : Nat) : Prop :=
  match (w.spaces sp).idx? a with
  | none => quietOps (w.spaces sp).dummy.ops
  | some i => quietOps ((w.spaces sp).cells i).ops

/-- An action as the program performs it. -/
def World.act (env : Env) (w : World) : Act → World
  | .write sp a v => (w.write env sp a v).1
  | .set sp a v => w.set env sp a v
  | .download sp a v => w.download sp a v
  | .read sp a => (w.read env sp a).1
  | .get sp a => (w.get sp a).1
  | .setRo sp a b => w.setRo sp a b

def World.acts (env : Env) (w : World) (l : List Act) : World := l.foldl (World.act env) w

/-! ### the range test -/

theorem idx?_eq (s : Space) (a : Nat) (hb : s.start + s.size ≤ 4294967296) (ha : a < 4294967296) :
    s.idx? a = if s.start ≤ a ∧ a < s.start + s.size then some (a - s.start) else none := by
  unfold Space.idx? subU
  by_cases h : s.start ≤ a
  · have e : (a + 4294967296 - s.start) % 4294967296 = a - s.start := by omega
    simp only [e]
    by_cases h2 : a < s.start + s.size
    · rw [if_neg (by omega), if_pos ⟨h, h2⟩]
    · rw [if_pos (by omega), if_neg (by omega)]
  · simp only
    rw [if_pos (by omega), if_neg (by omega)]

theorem idx?_lt {s : Space} {a i : Nat} (h : s.idx? a = some i) : i < s.size := by
  unfold Space.idx? at h
  simp only at h
  split at h
  · cases h
  · cases h; omega

/-! ### breakpoint operators do not touch memory -/

/-- `w'` has the memory of `w`: only breakpoint counters and events differ. -/
structure SameMem (w w' : World) : Prop where
  bytes : w'.bytes = w.bytes
  spaces : w'.spaces = w.spaces
  bankers : w'.bankers = w.bankers
  errors : w'.errors = w.errors
  nrnd : w'.nrnd = w.nrnd
  ub : w'.ub = w.ub

theorem SameMem.refl (w : World) : SameMem w w := ⟨rfl, rfl, rfl, rfl, rfl, rfl⟩
theorem SameMem.trans {a b c : World} (h : SameMem a b) (g : SameMem b c) : SameMem a c :=
  ⟨g.1.trans h.1, g.2.trans h.2, g.3.trans h.3, g.4.trans h.4, g.5.trans h.5, g.6.trans h.6⟩

theorem SameMem.cell {w w' : World} (h : SameMem w w') (r : CRef) : w'.cell r = w.cell r := by
  cases r <;> simp [World.cell, h.spaces]

theorem SameMem.cget {w w' : World} (h : SameMem w w') (r : CRef) : w'.cget r = w.cget r := by
  simp [World.cget, h.cell, h.bytes]

theorem doHit_same (env : Env) (w : World) (bp : Nat) : SameMem w (w.doHit env bp).1 := by
  unfold World.doHit; simp only; split <;> exact ⟨rfl, rfl, rfl, rfl, rfl, rfl⟩

theorem event_same (env : Env) (w : World) (bp : Nat) : SameMem w (w.event env bp) := by
  unfold World.event
  have := doHit_same env w bp
  rcases h : w.doHit env bp with ⟨w', hit⟩
  rw [h] at this
  simp only
  split
  · exact ⟨this.1, this.2, this.3, this.4, this.5, this.6⟩
  · exact this

theorem readOps_quiet (env : Env) (r : CRef) (l : List MOp) (hl : quietOps l) (w : World) (x : W)
    (hx : l = [] → x = w.cget r) :
    SameMem w (World.readOps env r l w x).1 ∧ (World.readOps env r l w x).2 = w.cget r := by
  induction l generalizing w x with
  | nil => exact ⟨SameMem.refl w, hx rfl⟩
  | cons o os ih =>
    have hos : quietOps os := fun o' h => hl o' (List.mem_cons_of_mem _ h)
    rcases hl o List.mem_cons_self with ⟨b, rfl⟩ | ⟨b, rfl⟩
    · exact ih hos w (w.cget r) (fun _ => rfl)
    · have hs := event_same env w b
      have := ih hos (w.event env b) ((w.event env b).cget r) (fun _ => rfl)
      simp only [World.readOps, World.opRead]
      exact ⟨hs.trans this.1, this.2.trans (hs.cget r)⟩

theorem cread_quiet (env : Env) (w : World) (r : CRef) (h : quietOps (w.cell r).ops) :
    SameMem w (w.cread env r).1 ∧ (w.cread env r).2 = w.cget r := by
  unfold World.cread
  rcases hc : (w.cell r).ops with _ | ⟨o, os⟩
  · exact ⟨SameMem.refl w, rfl⟩
  · rw [hc] at h
    exact readOps_quiet env r (o :: os) h w 0#32 (by simp)

theorem writeOps_quiet (env : Env) (r : CRef) (l : List MOp) (hl : quietOps l) (w : World) (v : W) :
    SameMem w (World.writeOps env r l w v).1 ∧ (World.writeOps env r l w v).2 = v := by
  induction l generalizing w with
  | nil => exact ⟨SameMem.refl w, rfl⟩
  | cons o os ih =>
    have hos : quietOps os := fun o' h => hl o' (List.mem_cons_of_mem _ h)
    rcases hl o List.mem_cons_self with ⟨b, rfl⟩ | ⟨b, rfl⟩
    · have hs := event_same env w b
      have := ih hos (w.event env b)
      simp only [World.writeOps, World.opWrite]
      exact ⟨hs.trans this.1, this.2⟩
    · exact ih hos w

/-! ### cells and elements -/

/-- Specification view of a cell: (chip, element, target). -/
theorem onElem_of {chips} {c : Cell} {k e : Nat}
    (hp : c.ptr = ⟨some k, e * (chips k).bwidth⟩)
    (hd : c.kind = .bit8 ∨ (c.kind.bytes = (chips k).bwidth ∧ c.mask = maskOf c.width)) :
    OnElem chips c k e := by
  refine ⟨hp, ?_⟩
  rcases hd with hb | hb
  · rw [hb]; exact bwidth_pos _
  · exact Nat.le_of_eq hb.1

theorem kindOf_ne_dummy (n : Nat) : kindOf n ≠ .dummy := by
  unfold kindOf; repeat' split
  all_goals simp

theorem kindOf_bit8 (n : Nat) : kindOf n = .bit8 ↔ n = 1 := by
  unfold kindOf
  constructor
  · intro h; by_cases h1 : n = 1
    · exact h1
    · rw [if_neg h1] at h; repeat' split at h
      all_goals cases h
  · intro h; rw [if_pos h]

/-- Target of a decoded cell. -/
def targetOf (k e : Nat) (c : Cell) : Target :=
  { chip := k, elem := e,
    bits := if c.kind = .bit8 then some ((c.mask.setWidth 8).setWidth 32) else none,
    width := c.width }

theorem put_spec {chips} {c : Cell} (h : WfCell chips c) {k e : Nat}
    (hp : c.ptr = ⟨some k, e * (chips k).bwidth⟩)
    (hd : c.kind = .bit8 ∨ (c.kind.bytes = (chips k).bwidth ∧ c.mask = maskOf c.width))
    (m : Bytes) (v : W) :
    elemOf chips (c.put m v) = Spec.writeT (elemOf chips m) (targetOf k e c) v := by
  funext k' e'
  unfold Spec.writeT targetOf
  simp only
  by_cases hke : k' = k ∧ e' = e
  · rw [if_pos hke]
    obtain ⟨rfl, rfl⟩ := hke
    unfold Spec.newElem
    by_cases hb : c.kind = .bit8
    · simp only [hb, if_true]
      have h1 : c.width = 1 := (kindOf_bit8 _).1 (h.kind ▸ hb)
      exact elemOf_put_bit chips m c v k' e' hp hb h1
    · simp only [hb, if_false]
      have hd' := hd.resolve_left hb
      exact elemOf_put_plain chips m c v k' e' hp hb (h.kind ▸ kindOf_ne_dummy _) hd'.1 h.kind
        h.w1 h.w2 hd'.2
  · rw [if_neg hke]
    exact elemOf_put_other chips m c v k e k' e' (onElem_of hp hd) hke

theorem read_spec {chips} {c : Cell} (h : WfCell chips c) {k e : Nat}
    (hp : c.ptr = ⟨some k, e * (chips k).bwidth⟩)
    (hd : c.kind = .bit8 ∨ (c.kind.bytes = (chips k).bwidth ∧ c.mask = maskOf c.width))
    (m : Bytes) : c.d m = Spec.readT (elemOf chips m) (targetOf k e c) := by
  unfold Spec.readT targetOf
  by_cases hb : c.kind = .bit8
  · simp only [hb, if_true]
    exact bit_read chips m c k e hp hb
  · simp only [hb, if_false]
    exact plain_read chips m c k e hp hb (h.kind ▸ kindOf_ne_dummy _) (hd.resolve_left hb).1

/-- Stores at `def_data` change no element. -/
theorem put_def (chips) (c : Cell) (m : Bytes) (v : W) (hp : c.ptr = defPtr) :
    elemOf chips (c.put m v) = elemOf chips m := by
  funext k e
  apply elemOf_congr
  intro o _ _
  apply put_off'; left; rw [hp]; simp [defPtr]

theorem wire_some {env : Env} {w : World} (hw : Wf env w) {sp a i : Nat}
    (hi : (w.spaces sp).idx? a = some i) {t : Target} (ht : wire env w sp a = some t) :
    ∃ k e, ((w.spaces sp).cells i).nonDec = false ∧
      ((w.spaces sp).cells i).ptr = ⟨some k, e * (env.chips k).bwidth⟩ ∧ e < (env.chips k).size ∧
      (((w.spaces sp).cells i).kind = .bit8 ∨
        (((w.spaces sp).cells i).kind.bytes = (env.chips k).bwidth ∧
         ((w.spaces sp).cells i).mask = maskOf ((w.spaces sp).cells i).width)) ∧
      t = targetOf k e ((w.spaces sp).cells i) := by
  have hc := (hw sp).cells i (idx?_lt hi)
  unfold wire at ht
  rw [hi] at ht
  simp only at ht
  generalize (w.spaces sp).cells i = c at *
  cases hn : c.nonDec with
  | true => rw [hn] at ht; simp at ht
  | false =>
    obtain ⟨k, e, hp, he, hd⟩ := hc.dec hn
    refine ⟨k, e, rfl, hp, he, hd, ?_⟩
    rw [hn, hp] at ht
    simp only [Option.some.injEq] at ht
    rw [← ht, Nat.mul_div_cancel _ (bwidth_pos _)]
    rfl

theorem wire_none {env : Env} {w : World} (hw : Wf env w) {sp a i : Nat}
    (hi : (w.spaces sp).idx? a = some i) (ht : wire env w sp a = none) :
    ((w.spaces sp).cells i).ptr = defPtr := by
  have hc := (hw sp).cells i (idx?_lt hi)
  unfold wire at ht
  rw [hi] at ht
  simp only at ht
  generalize (w.spaces sp).cells i = c at *
  cases hn : c.nonDec with
  | true => exact hc.undec hn
  | false =>
    obtain ⟨k, e, hp, _⟩ := hc.dec hn
    rw [hn, hp] at ht; simp at ht

/-- Reading an address whose location is wired. -/
theorem get_wired {env : Env} {w : World} (hw : Wf env w) {sp a : Nat} {t : Target}
    (ht : wire env w sp a = some t) :
    (w.get sp a).2 = Spec.readT (elemOf env.chips w.bytes) t ∧ (w.get sp a).1 = w := by
  have : ∃ i, (w.spaces sp).idx? a = some i := by
    unfold wire at ht
    cases h : (w.spaces sp).idx? a with
    | none => rw [h] at ht; cases ht
    | some i => exact ⟨i, rfl⟩
  obtain ⟨i, hi⟩ := this
  obtain ⟨k, e, hn, hp, he, hd, rfl⟩ := wire_some hw hi ht
  unfold World.get
  rw [hi]
  exact ⟨read_spec ((hw sp).cells i (idx?_lt hi)) hp hd w.bytes, rfl⟩

theorem read_quiet {env : Env} {w : World} {sp a : Nat} (hq : Quiet w sp a) :
    SameMem (w.get sp a).1 (w.read env sp a).1 ∧ (w.read env sp a).2 = (w.get sp a).2 := by
  unfold World.read World.get
  unfold Quiet at hq
  cases h : (w.spaces sp).idx? a with
  | none =>
    rw [h] at hq
    simp only at hq ⊢
    apply cread_quiet
    have : (w.err sp a).cell (.dummy sp) = (w.spaces sp).dummy := by
      simp only [World.cell]; unfold World.err; split <;> rfl
    rw [this]; exact hq
  | some i =>
    rw [h] at hq
    exact cread_quiet env w (.cell sp i) hq

/-- Worlds with the same spaces have the same wiring. -/
theorem wire_congr {env : Env} {w w' : World} (h : w'.spaces = w.spaces) :
    wire env w' = wire env w := by
  funext sp a; unfold wire; rw [h]

theorem Wf.congr {env : Env} {w w' : World} (hw : Wf env w) (h : w'.spaces = w.spaces) : Wf env w' := by
  intro sp; rw [h]; exact hw sp

theorem err_spaces (w : World) (sp a : Nat) : (w.err sp a).spaces = w.spaces := by
  unfold World.err; split <;> rfl
theorem err_bytes (w : World) (sp a : Nat) : (w.err sp a).bytes = w.bytes := by
  unfold World.err; split <;> rfl

theorem dummy_elem {env : Env} {w : World} (hw : Wf env w) (sp : Nat) :
    elemOf env.chips (w.dummyStore env sp).bytes = elemOf env.chips w.bytes := by
  funext k e
  apply elemOf_congr
  intro o _ _
  unfold World.dummyStore
  simp only
  apply store32_off; left; rw [(hw sp).dptr]; simp [defPtr]

/-- Effect of the writing part of `write` and `set` on the elements. -/
theorem cellset_elem {env : Env} {w : World} (hw : Wf env w) {sp a i : Nat}
    (hi : (w.spaces sp).idx? a = some i) (v : W) :
    elemOf env.chips (((w.spaces sp).cells i).set w.bytes v) =
      match wire env w sp a with
      | none => elemOf env.chips w.bytes
      | some t => if ((w.spaces sp).cells i).ro then elemOf env.chips w.bytes
                  else Spec.writeT (elemOf env.chips w.bytes) t v := by
  unfold Cell.set
  cases ht : wire env w sp a with
  | none =>
    simp only
    split
    · rfl
    · exact put_def _ _ _ _ (wire_none hw hi ht)
  | some t =>
    obtain ⟨k, e, hn, hp, he, hd, rfl⟩ := wire_some hw hi ht
    simp only
    split
    · rfl
    · exact put_spec ((hw sp).cells i (idx?_lt hi)) hp hd _ _

/-- Spaces after setting a read-only flag. -/
theorem setRo_cells (w : World) (sp a : Nat) (b : Bool) (sp' i : Nat) :
    ∃ r, ((w.setRo sp a b).spaces sp').cells i = { (w.spaces sp').cells i with ro := r } ∧
      ((w.setRo sp a b).spaces sp').start = (w.spaces sp').start ∧
      ((w.setRo sp a b).spaces sp').size = (w.spaces sp').size ∧
      ((w.setRo sp a b).spaces sp').dummy.ptr = (w.spaces sp').dummy.ptr ∧
      ((w.setRo sp a b).spaces sp').dummy.kind = (w.spaces sp').dummy.kind ∧
      ((w.setRo sp a b).spaces sp').dummy.ops = (w.spaces sp').dummy.ops ∧
      r = if sp' = sp ∧ (w.spaces sp).idx? a = some i then b else ((w.spaces sp').cells i).ro := by
  unfold World.setRo
  cases h : (w.spaces sp).idx? a with
  | none =>
    simp only [World.setCell, World.setSpace]
    by_cases hs : sp' = sp
    · subst hs; simp
    · simp [upd_other _ _ _ _ hs]
  | some j =>
    simp only [World.setCell, World.setSpace]
    by_cases hs : sp' = sp
    · subst hs
      simp only [upd_same, true_and]
      by_cases hj : i = j
      · subst hj; exact ⟨b, by simp⟩
      · refine ⟨((w.spaces sp').cells i).ro, ?_⟩
        rw [upd_other _ _ _ _ hj]
        refine ⟨rfl, ?_⟩
        simp only [Option.some.injEq]
        rw [if_neg]; exact fun h => hj h.symm
    · simp [upd_other _ _ _ _ hs, hs]

theorem idx?_congr {s s' : Space} (h1 : s'.start = s.start) (h2 : s'.size = s.size) (a : Nat) :
    s'.idx? a = s.idx? a := by
  unfold Space.idx?; rw [h1, h2]

/-- The wiring, flags and operators that accesses may change: only `ro`. -/
structure SameWiring (w w' : World) : Prop where
  start : ∀ sp, (w'.spaces sp).start = (w.spaces sp).start
  size : ∀ sp, (w'.spaces sp).size = (w.spaces sp).size
  dptr : ∀ sp, (w'.spaces sp).dummy.ptr = (w.spaces sp).dummy.ptr
  dkind : ∀ sp, (w'.spaces sp).dummy.kind = (w.spaces sp).dummy.kind
  dops : ∀ sp, (w'.spaces sp).dummy.ops = (w.spaces sp).dummy.ops
  cells : ∀ sp i, ∃ r, (w'.spaces sp).cells i = { (w.spaces sp).cells i with ro := r }

theorem SameWiring.of_spaces {w w' : World} (h : w'.spaces = w.spaces) : SameWiring w w' := by
  constructor <;> intro sp <;> (try rw [h])
  intro i; exact ⟨_, rfl⟩

theorem SameWiring.trans {a b c : World} (h : SameWiring a b) (g : SameWiring b c) :
    SameWiring a c := by
  constructor <;> intro sp
  · rw [g.start, h.start]
  · rw [g.size, h.size]
  · rw [g.dptr, h.dptr]
  · rw [g.dkind, h.dkind]
  · rw [g.dops, h.dops]
  · intro i
    obtain ⟨r, hr⟩ := g.cells sp i
    obtain ⟨r', hr'⟩ := h.cells sp i
    exact ⟨r, by rw [hr, hr']⟩

theorem SameWiring.idx {w w' : World} (h : SameWiring w w') (sp a : Nat) :
    (w'.spaces sp).idx? a = (w.spaces sp).idx? a := idx?_congr (h.start sp) (h.size sp) a

theorem SameWiring.wire {env : Env} {w w' : World} (h : SameWiring w w') :
    wire env w' = wire env w := by
  funext sp a
  unfold Ucsim.wire
  rw [h.idx]
  cases (w.spaces sp).idx? a with
  | none => rfl
  | some i =>
    obtain ⟨r, hr⟩ := h.cells sp i
    simp only [hr]

theorem SameWiring.wf {env : Env} {w w' : World} (h : SameWiring w w') (hw : Wf env w) : Wf env w' := by
  intro sp
  refine ⟨?_, ?_, ?_, ?_⟩
  · rw [h.start, h.size]; exact (hw sp).bound
  · intro i hi
    rw [h.size] at hi
    obtain ⟨r, hr⟩ := h.cells sp i
    have := (hw sp).cells i hi
    rw [hr]
    exact ⟨this.w1, this.w2, this.kind, this.undec, this.dec⟩
  · rw [h.dptr]; exact (hw sp).dptr
  · rw [h.dkind]; exact (hw sp).dkind

theorem SameWiring.quiet {w w' : World} (h : SameWiring w w') {sp a : Nat} (hq : Quiet w sp a) :
    Quiet w' sp a := by
  unfold Quiet at *
  rw [h.idx]
  cases hi : (w.spaces sp).idx? a with
  | none => rw [hi] at hq; simp only at hq ⊢; rw [h.dops]; exact hq
  | some i =>
    rw [hi] at hq
    obtain ⟨r, hr⟩ := h.cells sp i
    simp only at hq ⊢
    rw [hr]; exact hq

/-- The program state `w` represents the specification state `s`. -/
structure Rel (env : Env) (w : World) (s : Spec.St) : Prop where
  mem : s.mem = elemOf env.chips w.bytes
  ro : ∀ sp a t, a < 4294967296 → wire env w sp a = some t → s.ro sp a = w.isRo sp a

theorem Rel.of_same {env : Env} {w w' : World} {s : Spec.St} (h : Rel env w s)
    (hs : w'.spaces = w.spaces) (hb : elemOf env.chips w'.bytes = elemOf env.chips w.bytes) :
    Rel env w' s := by
  refine ⟨by rw [hb]; exact h.mem, ?_⟩
  intro sp a t ha ht
  rw [wire_congr hs] at ht
  rw [h.ro sp a t ha ht]; unfold World.isRo; rw [hs]

theorem Rel.of_mem {env : Env} {w w' : World} {s s' : Spec.St} (h : Rel env w s)
    (hs : w'.spaces = w.spaces) (hm : s'.mem = elemOf env.chips w'.bytes) (hr : s'.ro = s.ro) :
    Rel env w' s' := by
  refine ⟨hm, ?_⟩
  intro sp a t ha ht
  rw [wire_congr hs] at ht
  rw [hr, h.ro sp a t ha ht]; unfold World.isRo; rw [hs]

/-- Address and operator condition of an action. -/
def ActOk (w : World) (x : Act) : Prop := x.loc.2 < 4294967296 ∧ Quiet w x.loc.1 x.loc.2

theorem write_world {env : Env} {w : World} {sp a : Nat} (hq : Quiet w sp a) (v : W) :
    (w.write env sp a v).1.spaces = w.spaces ∧
    (w.write env sp a v).1.bytes = (w.set env sp a v).bytes ∧
    (w.write env sp a v).1.errors = (w.set env sp a v).errors ∧
    (w.write env sp a v).2 = ((w.write env sp a v).1.get sp a).2 := by
  unfold World.write World.set
  unfold Quiet at hq
  cases h : (w.spaces sp).idx? a with
  | none =>
    refine ⟨?_, rfl, rfl, ?_⟩
    · simp only [World.cwrite, World.dummyStore, err_spaces]
    · simp only [World.cwrite]
      have hs : ((w.err sp a).dummyStore env sp).spaces = w.spaces := by
        simp only [World.dummyStore, err_spaces]
      unfold World.get
      rw [hs, h]
      simp only [World.cget, World.cell, err_spaces, err_bytes]
  | some i =>
    rw [h] at hq
    simp only [World.cwrite, World.cset]
    have hws := writeOps_quiet env (.cell sp i) ((w.cell (.cell sp i)).ops) hq w v
    rcases hwo : World.writeOps env (.cell sp i) (w.cell (.cell sp i)).ops w v with ⟨w', v'⟩
    rw [hwo] at hws
    obtain ⟨h1, h2⟩ := hws
    simp only at h1 h2
    subst h2
    refine ⟨h1.spaces, ?_, ?_, ?_⟩
    · show ((w'.spaces sp).cells i).set w'.bytes v' = _
      rw [h1.spaces, h1.bytes]
    · exact h1.errors
    · unfold World.get
      simp only [h1.spaces, h]

theorem set_spaces {env : Env} {w : World} (sp a : Nat) (v : W) :
    (w.set env sp a v).spaces = w.spaces := by
  unfold World.set
  cases (w.spaces sp).idx? a with
  | none => simp only [World.cset, World.dummyStore, err_spaces]
  | some i => rfl

theorem set_rel {env : Env} {w : World} {s : Spec.St} (hw : Wf env w) (hR : Rel env w s)
    (sp a : Nat) (v : W) (ha : a < 4294967296) :
    Rel env (w.set env sp a v) (Spec.step (wire env w) s (.set sp a v)) := by
  unfold World.set
  cases hi : (w.spaces sp).idx? a with
  | none =>
    have hn : wire env w sp a = none := by unfold wire; rw [hi]
    simp only [World.cset, Spec.step, hn]
    refine hR.of_same ?_ ?_
    · simp only [World.dummyStore, err_spaces]
    · rw [dummy_elem (hw.congr (err_spaces w sp a)), err_bytes]
  | some i =>
    simp only [World.cset, Spec.step]
    have he := cellset_elem hw hi v
    cases ht : wire env w sp a with
    | none => rw [ht] at he; exact hR.of_same rfl he
    | some t =>
      rw [ht] at he
      simp only at he ⊢
      have hro := hR.ro sp a t ha ht
      have hro' : w.isRo sp a = ((w.spaces sp).cells i).ro := by unfold World.isRo; rw [hi]
      rw [hro, hro']
      by_cases hr : ((w.spaces sp).cells i).ro = true
      · rw [if_pos hr] at he ⊢
        exact hR.of_same rfl he
      · rw [if_neg hr] at he ⊢
        exact hR.of_mem rfl (by simp only [hR.mem]; exact he.symm) rfl

/-- One action: program and specification stay related, wiring is kept. -/
theorem act_rel {env : Env} {w : World} {s : Spec.St} (hw : Wf env w) (hR : Rel env w s)
    (x : Act) (hx : ActOk w x) :
    SameWiring w (w.act env x) ∧ Rel env (w.act env x) (Spec.step (wire env w) s x) := by
  cases x with
  | write sp a v =>
    have hwr := write_world (env := env) (sp := sp) (a := a) hx.2 v
    have hset := set_rel hw hR sp a v hx.1
    refine ⟨SameWiring.of_spaces hwr.1, ?_⟩
    show Rel env (w.write env sp a v).1 (Spec.step (wire env w) s (.set sp a v))
    exact hset.of_same (by rw [hwr.1, set_spaces]) (by simp only [hwr.2.1])
  | set sp a v =>
    exact ⟨SameWiring.of_spaces (set_spaces sp a v), set_rel hw hR sp a v hx.1⟩
  | download sp a v =>
    simp only [World.act, World.download]
    cases hi : (w.spaces sp).idx? a with
    | none =>
      have hn : wire env w sp a = none := by unfold wire; rw [hi]
      simp only [World.cdownload, Spec.step, hn]
      refine ⟨SameWiring.of_spaces (err_spaces w sp a), hR.of_same (err_spaces w sp a) ?_⟩
      show elemOf env.chips (((w.err sp a).cell (.dummy sp)).put (w.err sp a).bytes v) = _
      rw [put_def, err_bytes]
      simp only [World.cell, err_spaces]; exact (hw sp).dptr
    | some i =>
      simp only [World.cdownload, Spec.step, World.cell]
      refine ⟨SameWiring.of_spaces rfl, ?_⟩
      cases ht : wire env w sp a with
      | none =>
        refine hR.of_same rfl ?_
        exact put_def _ _ _ _ (wire_none hw hi ht)
      | some t =>
        obtain ⟨k, e, hn, hp, he, hd, rfl⟩ := wire_some hw hi ht
        refine hR.of_mem rfl ?_ rfl
        simp only [hR.mem]
        exact (put_spec ((hw sp).cells i (idx?_lt hi)) hp hd _ _).symm
  | read sp a =>
    have h := (read_quiet (env := env) (sp := sp) (a := a) hx.2).1
    have hg : (w.get sp a).1.spaces = w.spaces ∧ (w.get sp a).1.bytes = w.bytes := by
      unfold World.get; split
      · exact ⟨err_spaces _ _ _, err_bytes _ _ _⟩
      · exact ⟨rfl, rfl⟩
    exact ⟨SameWiring.of_spaces (h.spaces.trans hg.1),
      hR.of_same (h.spaces.trans hg.1) (by
        show elemOf env.chips (w.read env sp a).1.bytes = _; rw [h.bytes, hg.2])⟩
  | get sp a =>
    have hg : (w.get sp a).1.spaces = w.spaces ∧ (w.get sp a).1.bytes = w.bytes := by
      unfold World.get; split
      · exact ⟨err_spaces _ _ _, err_bytes _ _ _⟩
      · exact ⟨rfl, rfl⟩
    exact ⟨SameWiring.of_spaces hg.1, hR.of_same hg.1 (by
        show elemOf env.chips (w.get sp a).1.bytes = _; rw [hg.2])⟩
  | setRo sp a b =>
    have hsw : SameWiring w (w.act env (.setRo sp a b)) := by
      refine ⟨?_, ?_, ?_, ?_, ?_, ?_⟩ <;> intro sp'
      · obtain ⟨r, h⟩ := setRo_cells w sp a b sp' 0; exact h.2.1
      · obtain ⟨r, h⟩ := setRo_cells w sp a b sp' 0; exact h.2.2.1
      · obtain ⟨r, h⟩ := setRo_cells w sp a b sp' 0; exact h.2.2.2.1
      · obtain ⟨r, h⟩ := setRo_cells w sp a b sp' 0; exact h.2.2.2.2.1
      · obtain ⟨r, h⟩ := setRo_cells w sp a b sp' 0; exact h.2.2.2.2.2.1
      · intro i; obtain ⟨r, h⟩ := setRo_cells w sp a b sp' i; exact ⟨r, h.1⟩
    refine ⟨hsw, ?_, ?_⟩
    · have : (w.act env (.setRo sp a b)).bytes = w.bytes := by
        simp only [World.act, World.setRo]; split <;> rfl
      rw [this]; exact hR.mem
    · intro sp' a' t ha' ht'
      rw [hsw.wire] at ht'
      have hold := hR.ro sp' a' t ha' ht'
      have hi' : ∃ i, (w.spaces sp').idx? a' = some i := by
        unfold wire at ht'
        cases h : (w.spaces sp').idx? a' with
        | none => rw [h] at ht'; cases ht'
        | some i => exact ⟨i, rfl⟩
      obtain ⟨i, hi⟩ := hi'
      obtain ⟨r, h⟩ := setRo_cells w sp a b sp' i
      have hnew : (w.act env (.setRo sp a b)).isRo sp' a' = r := by
        unfold World.isRo; rw [hsw.idx, hi]
        show (((w.setRo sp a b).spaces sp').cells i).ro = r
        rw [h.1]
      have hold' : w.isRo sp' a' = ((w.spaces sp').cells i).ro := by
        unfold World.isRo; rw [hi]
      rw [hnew, h.2.2.2.2.2.2]
      simp only [Spec.step]
      by_cases hc : sp' = sp ∧ a' = a
      · obtain ⟨rfl, rfl⟩ := hc
        rw [if_pos ⟨rfl, rfl⟩, if_pos ⟨rfl, hi⟩]
      · rw [if_neg hc, if_neg, hold, hold']
        rintro ⟨rfl, hia⟩
        apply hc
        refine ⟨rfl, ?_⟩
        rw [idx?_eq _ a (hw sp').bound hx.1] at hia
        rw [idx?_eq _ _ (hw sp').bound ha'] at hi
        simp only at *
        split at hia <;> split at hi
        · simp only [Option.some.injEq] at hia hi; omega
        all_goals cases hia
        all_goals cases hi

theorem acts_rel {env : Env} (l : List Act) {w : World} {s : Spec.St} (hw : Wf env w)
    (hR : Rel env w s) (hl : ∀ x ∈ l, ActOk w x) :
    SameWiring w (w.acts env l) ∧ Rel env (w.acts env l) (Spec.run (wire env w) s l) := by
  induction l generalizing w s with
  | nil => exact ⟨SameWiring.of_spaces rfl, hR⟩
  | cons x xs ih =>
    obtain ⟨h1, h2⟩ := act_rel hw hR x (hl x List.mem_cons_self)
    have hq : ∀ y ∈ xs, ActOk (w.act env x) y := fun y hy =>
      ⟨(hl y (List.mem_cons_of_mem _ hy)).1, h1.quiet (hl y (List.mem_cons_of_mem _ hy)).2⟩
    obtain ⟨h3, h4⟩ := ih (h1.wf hw) h2 hq
    rw [h1.wire] at h4
    exact ⟨h1.trans h3, h4⟩

end Ucsim
