import Verif.Proof.BrkRun
import Verif.Props.Banker

/-! # C19 - C23, C45: breakpoints

`NoBrk w`        : memory system `w` before any breakpoint is made
`OpOk w o`       : addresses of the step are 32 bit numbers, event breakpoints
                   are of the event kinds, memory accesses of the running
                   program go to locations without peripherals or bank
                   switchers
`InRom w rom o`  : a breakpoint at a code address is made inside of the code memory
`toBrk b`        : the program's object of the breakpoint `b` of the specification
-/
namespace Ucsim.Props
open Ucsim
open Ucsim.Spec (Bp BpSt BOp BKind bpRun bpStep due accKind)

/-- Whatever the history (trying to make at most 8192 breakpoints, the limit of the lists) of
commands, arrivals of the execution at addresses, and memory accesses: no
failure, the listed breakpoints, the stops of the execution and the event
reports are those of the specification. -/
theorem brk_history_partial (env : Env) (w : World) (hw : NoBrk w) (rom : Nat) (ops : List BOp)
    (ho : ∀ o ∈ ops, OpOk w o) (hi : ∀ o ∈ ops, InRom w rom o) (hl : makes ops ≤ 8192) :
    ∃ s' xs, (BSt.new w rom).run env ops = .ok (s', xs) ∧
      s'.fbrk.items = (bpRun rom (insideOf w) BpSt.init ops).1.fetch.map toBrk ∧
      s'.ebrk.items = (bpRun rom (insideOf w) BpSt.init ops).1.event.map toBrk ∧
      s'.w.events = (bpRun rom (insideOf w) BpSt.init ops).1.log ∧
      xs = (bpRun rom (insideOf w) BpSt.init ops).2 := by
  obtain ⟨s', xs, h1, h2, h3⟩ := run_sim (env := env) ops (new_inv hw rom) (new_rel hw rom) (SameRest.refl w) ho hi
    ⟨by simp [BpSt.init]; omega, by simp [BpSt.init]; omega⟩
  exact ⟨s', xs, h1, h2.fi, h2.ei, h2.log, h3⟩

/-! ### C19 -/

/-- C19.  After any history that ends normally, for every address `a` inside of
the code memory: the cell of `a` is marked iff a fetch breakpoint for `a` is on
the list. -/
theorem c19_flag (env : Env) (w : World) (hw : NoBrk w) (rom : Nat) (ops : List BOp) (ho : ∀ o ∈ ops, OpOk w o)
    (s : BSt) (xs : List Bool) (hr : (BSt.new w rom).run env ops = .ok (s, xs)) (a : Nat) (ha : a < 2 ^ 32)
    (hin : insideOf w rom a = true) :
    s.w.fetchFlag rom a = true ↔ ∃ b ∈ s.fbrk.items, b.addr = a := by
  obtain ⟨h1, h2, h3⟩ := run_inv ops (new_inv hw rom) (SameRest.refl w) ho hr
  have h3 : s.rom = rom := h3
  obtain ⟨i, hi⟩ : ∃ i, (s.w.spaces s.rom).idx? a = some i := by
    rw [h3, h2.geo.idx]; exact Option.isSome_iff_exists.1 hin
  have hlt : i < (s.w.spaces s.rom).size := idx?_lt hi
  unfold World.fetchFlag
  rw [← h3, hi]
  simp only
  rw [h1.flag i hlt]
  constructor
  · rintro ⟨b, hb, hbi⟩; exact ⟨b, hb, idx_inj (h1.geo _) ((h1.fk b hb).2.2) ha hbi hi⟩
  · rintro ⟨b, hb, rfl⟩; exact ⟨b, hb, hi⟩

/-- C19, in terms of the commands: for histories whose code breakpoints are inside of
the code memory, the cell of `a` is marked iff, by the specification, a fetch
breakpoint for `a` was made and not removed yet. -/
theorem c19_commands (env : Env) (w : World) (hw : NoBrk w) (rom : Nat) (ops : List BOp)
    (ho : ∀ o ∈ ops, OpOk w o) (hi : ∀ o ∈ ops, InRom w rom o) (hl : makes ops ≤ 8192) :
    ∃ s' xs, (BSt.new w rom).run env ops = .ok (s', xs) ∧ ∀ a, a < 2 ^ 32 → insideOf w rom a = true →
      (s'.w.fetchFlag rom a = true ↔ ∃ b ∈ (bpRun rom (insideOf w) BpSt.init ops).1.fetch, b.addr = a) := by
  obtain ⟨s', xs, h1, h2, h3⟩ := run_sim (env := env) ops (new_inv hw rom) (new_rel hw rom) (SameRest.refl w) ho hi
    ⟨by simp [BpSt.init]; omega, by simp [BpSt.init]; omega⟩
  refine ⟨s', xs, h1, fun a ha hin => ?_⟩
  rw [c19_flag env w hw rom ops ho s' xs h1 a ha hin]
  exact (any_addr h2 a).symm

/-! ### C20 -/

/-- C20.  After any history that ends normally, all the numbers on the listing (fetch
and event breakpoints together) are different and positive. -/
theorem c20_unique (env : Env) (w : World) (hw : NoBrk w) (rom : Nat) (ops : List BOp) (ho : ∀ o ∈ ops, OpOk w o)
    (s : BSt) (xs : List Bool) (hr : (BSt.new w rom).run env ops = .ok (s, xs)) :
    ((s.fbrk.items ++ s.ebrk.items).map Brk.nr).Nodup ∧ ∀ b ∈ s.fbrk.items ++ s.ebrk.items, 1 ≤ b.nr := by
  obtain ⟨h1, _, _⟩ := run_inv ops (new_inv hw rom) (SameRest.refl w) ho hr
  refine ⟨?_, ?_⟩
  · unfold List.Nodup
    rw [List.pairwise_map, List.pairwise_append]
    refine ⟨h1.fsort.imp (fun h => by omega), h1.esort.imp (fun h => by omega), h1.cross⟩
  · intro b hb
    rcases List.mem_append.1 hb with h | h
    · exact (h1.fnr b h).1
    · exact (h1.enr b h).1

/-! ### C21 -/

/-- The k-th hit (k = 1, 2, ...) is due for a hit count n ≥ 1 iff n divides k. -/
theorem due_iff (n k : Nat) (hn : 1 ≤ n) : due n k = true ↔ n ∣ k := by
  unfold due
  simp only [Int.toNat_natCast, decide_eq_true_eq, Nat.dvd_iff_mod_eq_zero]
  constructor
  · rintro (h | h)
    · have : n = 1 := by omega
      subst this; omega
    · exact h
  · exact Or.inr

/-- Specification level: arrivals at the address of the only breakpoint. -/
theorem spec_arrivals (rom : Nat) (inside : Nat → Nat → Bool) (a : Nat) (cs : List (Nat → Bool)) (t : BpSt) (b : Bp)
    (hb : t.fetch = [b]) (ha : b.addr = a) (ht : b.temp = false) :
    (bpRun rom inside t (cs.map (BOp.arrive a))).2 =
      cs.mapIdx (fun k c => due b.hit (b.seen + k + 1) && (!b.cond || c b.uid)) := by
  induction cs generalizing t b with
  | nil => rfl
  | cons c cs ih =>
    simp only [List.map_cons, bpRun, bpStep, hb, ht, Bool.and_false, Bool.false_and, Bool.not_false,
      List.filter_cons, List.filter_nil, if_true, List.map_nil, ha, List.any_cons, List.any_nil, Bool.or_false,
      decide_true, Bool.true_and, List.mapIdx_cons]
    congr 1
    rw [ih _ b.tick rfl ha ht]
    simp only [Bp.tick]
    congr 1
    funext k c
    congr 2
    omega

theorem makes_arrive (a : Nat) (cs : List (Nat → Bool)) : makes (cs.map (BOp.arrive a)) = 0 := by
  induction cs with
  | nil => rfl
  | cons c cs ih => simpa [makes] using ih

/-- C21.  A breakpoint with hit count `n` made at any code address `a`, in any
memory system; then execution arrives at `a` any number of times, with any
values `cs` of the condition.  It stops exactly at the arrivals number k = n,
2n, 3n... (at every one for n ≤ 1) at which the condition, if there is one,
holds. -/
theorem c21_hits (env : Env) (w : World) (hw : NoBrk w) (rom a : Nat) (ha : a < 2 ^ 32) (hin : insideOf w rom a = true)
    (n : Int) (hn : n ≤ 99999) (cond : Bool) (cs : List (Nat → Bool)) :
    ∃ s', (BSt.new w rom).run env (.brk a n cond false :: cs.map (BOp.arrive a)) =
      .ok (s', false :: cs.mapIdx (fun k c => due n (k + 1) && (!cond || c 0))) := by
  have ho : ∀ o ∈ BOp.brk a n cond false :: cs.map (BOp.arrive a), OpOk w o ∧ InRom w rom o := by
    intro o h
    rcases List.mem_cons.1 h with rfl | h
    · exact ⟨ha, Option.isSome_iff_exists.1 hin⟩
    · obtain ⟨c, _, rfl⟩ := List.mem_map.1 h
      exact ⟨ha, trivial⟩
  obtain ⟨s', xs, h1, _, _, _, h2⟩ := brk_history_partial env w hw rom _ (fun o h => (ho o h).1) (fun o h => (ho o h).2)
    (by rw [makes, makes_arrive]; omega)
  refine ⟨s', ?_⟩
  rw [h1, h2]
  simp only [bpRun]
  congr 2
  have e : bpStep rom (insideOf w) BpSt.init (.brk a n cond false) = (BpSt.init.addFetch rom a n cond false, false) := by
    simp only [bpStep]
    rw [if_neg]
    rintro (h | ⟨b, hb, _⟩)
    · omega
    · cases hb
  rw [e]
  simp only
  congr 1
  have := spec_arrivals rom (insideOf w) a cs (BpSt.init.addFetch rom a n cond false)
    ⟨0, 1, .fetch, rom, a, false, n, cond, 0⟩ rfl rfl rfl
  rw [this]
  congr 1
  funext k c
  congr 2
  show 0 + k + 1 = k + 1
  omega

/-- C21 for any counter, of fetch or event breakpoints: repeated do_hit calls,
from the state after `k` hits. -/
def hits (env : Env) (u : Nat) : World → List (Nat → Bool) → List Bool
  | _, [] => []
  | w, c :: cs =>
    let r := w.doHit { env with cond := fun i _ => c i } u
    r.2 :: hits env u r.1 cs

theorem hits_from (env : Env) (u : Nat) (n : Int) (cond : Bool) (cs : List (Nat → Bool)) (w : World) (k : Nat)
    (hb : w.brks u = ⟨n, left n k, cond⟩) :
    hits env u w cs = cs.mapIdx (fun j c => due n (k + j + 1) && (!cond || c u)) := by
  induction cs generalizing w k with
  | nil => rfl
  | cons c cs ih =>
    rw [hits, doHit_spec (env := env) (c := c) hb, List.mapIdx_cons]
    simp only
    congr 1
    rw [ih _ (k + 1) (upd_same _ _ _)]
    congr 1
    funext j c'
    congr 2
    omega

/-- C21, any kind of breakpoint: made with hit count n (cnt = n), then hit any number of
times (no limit). -/
theorem c21_do_hit (env : Env) (u : Nat) (n : Int) (cond : Bool) (cs : List (Nat → Bool)) (w : World)
    (hb : w.brks u = ⟨n, n, cond⟩) :
    hits env u w cs = cs.mapIdx (fun j c => due n (j + 1) && (!cond || c u)) := by
  rw [hits_from env u n cond cs w 0 (by rw [hb]; congr 1; unfold left; simp)]
  congr 1
  funext j c
  congr 2
  omega

/-! ### C22 -/

/-- C22, breakpoints inside of the code memory: after any history, delete removes exactly
the breakpoint of the number, delete without argument removes all. -/
theorem c22_delete_partial (env : Env) (w : World) (hw : NoBrk w) (rom : Nat) (ops : List BOp)
    (ho : ∀ o ∈ ops, OpOk w o) (hi : ∀ o ∈ ops, InRom w rom o) (hl : makes ops ≤ 8192) :
    ∃ s xs, (BSt.new w rom).run env ops = .ok (s, xs) ∧
      (∀ nr, ∃ s', s.rmBrk nr = .ok s' ∧ s'.fbrk.items = s.fbrk.items.filter (fun b => b.nr ≠ nr) ∧
        s'.ebrk.items = s.ebrk.items.filter (fun b => b.nr ≠ nr)) ∧
      ∃ s', s.removeAll = .ok s' ∧ s'.fbrk.items = [] ∧ s'.ebrk.items = [] := by
  obtain ⟨s, xs, h1, h2, h3⟩ := run_sim (env := env) ops (new_inv hw rom) (new_rel hw rom) (SameRest.refl w) ho hi
    ⟨by simp [BpSt.init]; omega, by simp [BpSt.init]; omega⟩
  obtain ⟨g1, g2, g3⟩ := run_inv ops (new_inv hw rom) (SameRest.refl w) ho h1
  have hin : ∀ b ∈ s.fbrk.items, ∃ i, (s.w.spaces s.rom).idx? b.addr = some i := by
    intro b hb
    rw [h2.fi] at hb
    obtain ⟨b', hb', rfl⟩ := List.mem_map.1 hb
    exact h2.inr b' hb'
  refine ⟨s, xs, h1, ?_, ?_⟩
  · intro nr
    obtain ⟨s', k1, _, _, _, _, _, _, _, k10, k11⟩ := rmBrk_spec g1 nr
    refine ⟨s', k1, ?_, k10⟩
    rw [k11]
    apply List.filter_congr
    intro b hb
    obtain ⟨i, hi'⟩ := hin b hb
    simp [hi']
  · obtain ⟨s1, k1, k2, k3, k4, k5, k6, k7, k8, k9, k10⟩ := removeF_spec s.fbrk.count g1 (Nat.le_refl _) hin
    obtain ⟨s2, j1, j2, j3, j4, j5, j6, j7, j8, j9, j10⟩ := removeE_spec s1.ebrk.count k2 (Nat.le_refl _)
    refine ⟨s2, ?_, by rw [j4, k10], j10⟩
    unfold BSt.removeAll
    rw [k1]; exact j1

/-- C22, any history (also with code breakpoints outside of the memory): delete never
fails, removes nothing of another number, and misses only breakpoints of
addresses outside of the code memory. -/
theorem c22_delete_any_partial (env : Env) (w : World) (hw : NoBrk w) (rom : Nat) (ops : List BOp)
    (ho : ∀ o ∈ ops, OpOk w o) (s : BSt) (xs : List Bool) (hr : (BSt.new w rom).run env ops = .ok (s, xs)) (nr : Int) :
    ∃ s', s.rmBrk nr = .ok s' ∧ s'.ebrk.items = s.ebrk.items.filter (fun x => x.nr ≠ nr) ∧
      s'.fbrk.items = s.fbrk.items.filter (fun x => x.nr ≠ nr ∨ insideOf w rom x.addr = false) := by
  obtain ⟨g1, g2, g3⟩ := run_inv ops (new_inv hw rom) (SameRest.refl w) ho hr
  obtain ⟨s', k1, _, _, _, _, _, _, _, k10, k11⟩ := rmBrk_spec g1 nr
  have g3 : s.rom = rom := g3
  refine ⟨s', k1, k10, ?_⟩
  rw [k11]
  apply List.filter_congr
  intro b _
  unfold insideOf
  rw [g3, g2.geo.idx]
  simp

/-- What is not true, delete all: with a breakpoint outside of the code memory
first on the list, a turn of the loop of remove_all_breaks changes nothing, so
however many turns are made the list does not get empty. -/
theorem c22_false_hang (env : Env) (w : World) (hw : NoBrk w) (rom : Nat) (ops : List BOp)
    (ho : ∀ o ∈ ops, OpOk w o) (s : BSt) (xs : List Bool) (hr : (BSt.new w rom).run env ops = .ok (s, xs))
    (b : Brk) (l : List Brk) (hb : s.fbrk.items = b :: l) (hout : insideOf w rom b.addr = false) :
    s.removeTurn = .ok s ∧ s.removeAll = .hang := by
  obtain ⟨g1, g2, g3⟩ := run_inv ops (new_inv hw rom) (SameRest.refl w) ho hr
  have g3 : s.rom = rom := g3
  have hnone : (s.w.spaces s.rom).idx? b.addr = none := by
    rw [g3, g2.geo.idx]; exact Option.isNone_iff_eq_none.1 (by unfold insideOf at hout; simpa using hout)
  obtain ⟨s', h1, _, _, _, _, _, _, _, _, _, _, h12⟩ := removeTurn_spec g1 hb
  have hs := h12 hnone
  subst hs
  refine ⟨h1, ?_⟩
  unfold BSt.removeAll
  have hc : s'.fbrk.count = l.length + 1 := by unfold CList.count; rw [hb]; rfl
  rw [hc]
  have : BSt.removeF (l.length + 1) s' = .hang := by
    unfold BSt.removeF
    rw [if_neg (by rw [hb]; simp), h1]
    simp only
    rw [if_neg (by omega)]
  rw [this]

/-- A code memory of 16 bytes, nothing decoded. -/
def bkWorld : World := { exWorld with spaces := fun _ => newSpace 0 16 8 true }

theorem bkWorld_noBrk : NoBrk bkWorld := ⟨fun _ => show 0 + 16 < 2 ^ 32 by decide, fun _ _ => rfl, fun _ _ => rfl, rfl⟩

/-- The numbers and addresses on the listing after a history, and the stops. -/
def listing : BRes (BSt × List Bool) → Option (List (Int × Nat) × List (Int × Nat) × List Nat × List Bool)
  | .ok (s, xs) => some (s.fbrk.items.map (fun b => (b.nr, b.addr)), s.ebrk.items.map (fun b => (b.nr, b.addr)), s.w.events, xs)
  | _ => none

/-- What is not true, delete: `break 0x20` outside of the 16 byte code memory,
then `delete 1`: the breakpoint is still there. -/
theorem c22_false_delete :
    listing ((BSt.new bkWorld 0).run exEnv [.brk 32 1 false false, .delete 1]) = some ([(1, 32)], [], [], [false, false]) := by
  decide +kernel

/-- ... and `delete` never ends. -/
theorem c22_false_deleteAll :
    listing ((BSt.new bkWorld 0).run exEnv [.brk 32 1 false false, .deleteAll]) = none := by decide +kernel

/-- What is not true: outside of the code memory the same breakpoint can be made twice. -/
theorem c22_false_twice :
    listing ((BSt.new bkWorld 0).run exEnv [.brk 32 1 false false, .brk 32 1 false false]) =
      some ([(1, 32), (2, 32)], [], [], [false, false]) := by decide +kernel

/-! ### C23 -/

/-- C23, locations without peripherals and bank switchers: after any history the
next access `x` of the program (with condition values `c`) reports exactly the
read (write) event breakpoints on that location whose hit count is due and
condition holds, each once, in the order they were made, and counts them. -/
theorem c23_events_partial (env : Env) (w : World) (hw : NoBrk w) (rom : Nat) (ops : List BOp)
    (ho : ∀ o ∈ ops, OpOk w o) (hi : ∀ o ∈ ops, InRom w rom o) (hl : makes ops ≤ 8192)
    (x : Spec.Act) (c : Nat → Bool) (hx : OpOk w (.acc x c)) (hin : insideOf w x.loc.1 x.loc.2 = true) :
    ∃ s xs, (BSt.new w rom).run env ops = .ok (s, xs) ∧
      (s.acc env x c).w.events =
        (((bpRun rom (insideOf w) BpSt.init ops).1.event.filter (fun b =>
          (accKind x = some b.kind ∧ x.loc = (b.mem, b.addr)) && (due b.hit (b.seen + 1) && (!b.cond || c b.uid)))).map
            Bp.uid).reverse ++ s.w.events := by
  obtain ⟨s, xs, h1, h2, h3⟩ := run_sim (env := env) ops (new_inv hw rom) (new_rel hw rom) (SameRest.refl w) ho hi
    ⟨by simp [BpSt.init]; omega, by simp [BpSt.init]; omega⟩
  obtain ⟨g1, g2, g3⟩ := run_inv ops (new_inv hw rom) (SameRest.refl w) ho h1
  refine ⟨s, xs, h1, ?_⟩
  have hr := acc_sim (env := env) g1 h2 x hx.1 (hx.2.same g2) c
  rw [hr.log, h2.log]
  simp only [bpStep]
  rw [insideOf_same g2, if_pos hin]
  rfl

/-- C23: the report does not change the value: a read returns what get (the access without
reports) returns, a write stores what set stores and nothing else. -/
theorem c23_value (env : Env) (w : World) (hw : NoBrk w) (rom : Nat) (ops : List BOp) (ho : ∀ o ∈ ops, OpOk w o)
    (s : BSt) (xs : List Bool) (hr : (BSt.new w rom).run env ops = .ok (s, xs)) (sp a : Nat) (hp : Plain w sp a) (v : W) :
    (s.w.read env sp a).2 = (s.w.get sp a).2 ∧ (s.w.read env sp a).1.bytes = s.w.bytes ∧
    (s.w.write env sp a v).1.bytes = (s.w.set env sp a v).bytes ∧
    (s.w.write env sp a v).2 = ((s.w.write env sp a v).1.get sp a).2 := by
  obtain ⟨g1, g2, g3⟩ := run_inv ops (new_inv hw rom) (SameRest.refl w) ho hr
  have hq := (hp.same g2).quiet
  obtain ⟨r1, r2⟩ := read_quiet (env := env) hq
  obtain ⟨w1, w2, w3, w4⟩ := write_world (env := env) hq v
  refine ⟨r2, ?_, w2, w4⟩
  rw [r1.bytes]
  unfold World.get; split
  · simp only [err_bytes]
  · rfl

/-- Breakpoints on locations of a bank switcher. -/
def bkBank : Option (BSt × List Bool) :=
  match bankRun with
  | none => none
  | some w =>
    match (BSt.new w 0).run bankEnv [.ev .rd 0 208 1 false false, .acc (.write 0 208 16#32) (fun _ => true)] with
    | .ok r => some r
    | _ => none

/-- What is not true: a read event breakpoint on the selector of a banker is reported by a write. -/
theorem c23_false_selector : (bkBank.map fun r => r.1.w.events) = some [0] := by decide +kernel

/-- What is not true: a breakpoint whose kind is mistyped (`break xram x 5`) is accepted,
numbered and listed, and no access of any kind is ever reported by it. -/
theorem c23_false_other :
    listing ((BSt.new bkWorld 0).run exEnv
      [.ev .other 1 5 1 false false, .acc (.read 1 5) (fun _ => true), .acc (.write 1 5 1#32) (fun _ => true)]) =
      some ([], [(1, 5)], [], [false, false, false]) := by decide +kernel

/-! ### C45 -/

/-- C45, breakpoints on fetch: whatever the history, when execution stops at a
temporary breakpoint at `a`, it is gone: no breakpoint at `a` on the listing,
the cell is not marked, and the next arrival at `a` does not stop. -/
theorem c45_temp_partial (env : Env) (w : World) (hw : NoBrk w) (rom : Nat) (ops : List BOp)
    (ho : ∀ o ∈ ops, OpOk w o) (s : BSt) (xs : List Bool) (hr : (BSt.new w rom).run env ops = .ok (s, xs))
    (b : Brk) (hb : b ∈ s.fbrk.items) (hd : b.dyn = true) (c : Nat → Bool) (s' : BSt)
    (hs : s.doBrk env b.addr c = .ok (s', true)) :
    (∀ b' ∈ s'.fbrk.items, b'.addr ≠ b.addr) ∧ s'.fbrk.items = s.fbrk.items.filter (fun x => x.addr ≠ b.addr) ∧
    ∀ c', s'.doBrk env b.addr c' = .ok (s', false) := by
  obtain ⟨g1, g2, g3⟩ := run_inv ops (new_inv hw rom) (SameRest.refl w) ho hr
  have ha := (g1.fk b hb).2.2
  unfold BSt.doBrk at hs
  split at hs
  · split at hs
    · cases hs
    · rename_i i b' hg
      obtain ⟨j1, j2, j3⟩ := g1.getBp_some ha hg
      have hin : ∃ i, (s.w.spaces s.rom).idx? b.addr = some i := by
        cases hq : (s.w.spaces s.rom).idx? b.addr with
        | some i => exact ⟨i, rfl⟩
        | none =>
          have : s.bpAt b.addr = true := by
            unfold BSt.getBp at hg
            split at hg
            · assumption
            · cases hg
          have := ((g1.bpAt ha).1 this).1
          rw [hq] at this
          exact this
      have hbb : b' = b := by
        obtain ⟨i', hi'⟩ := hin
        exact (g1.fuq b hb b' (List.mem_of_getElem? j1) i' j2.symm hi').symm
      have hm := doHit_same { env with cond := fun i _ => c i } s.w b'.id
      split at hs
      · rename_i w1 hh
        rw [hh] at hm
        rw [hbb, hd] at hs
        simp only [if_true] at hs
        have hI := g1.of_brks (w' := w1) hm.spaces
        have hsp : w1.spaces = s.w.spaces := hm.spaces
        obtain ⟨s2, k1, k2, k3, k4, k5, k6, k7, k8, k9, k10, k11⟩ := delAddr_spec hI (a := b.addr) ha
        rw [k1] at hs
        simp only [BRes.ok.injEq, Prod.mk.injEq, and_true] at hs
        subst hs
        have hf := k11 (by simp only [hsp]; exact hin)
        simp only at hf
        have hno : ∀ b' ∈ s2.fbrk.items, b'.addr ≠ b.addr := by
          intro x hx
          rw [hf] at hx
          simpa using (List.mem_filter.1 hx).2
        refine ⟨hno, hf, fun c' => ?_⟩
        have hnone : s2.getBp b.addr = none := by
          cases hg2 : s2.getBp b.addr with
          | none => rfl
          | some kx =>
            obtain ⟨k, y⟩ := kx
            obtain ⟨q1, q2, _⟩ := k2.getBp_some ha hg2
            exact absurd q2 (hno y (List.mem_of_getElem? q1))
        unfold BSt.doBrk
        split
        · rw [hnone]
        · rfl
      · cases hs
  · cases hs

/-- C45, before it stops a temporary breakpoint stays: an arrival that does not
stop removes nothing. -/
theorem c45_stays_partial (env : Env) (s s' : BSt) (pc : Nat) (c : Nat → Bool)
    (hs : s.doBrk env pc c = .ok (s', false)) : s'.fbrk = s.fbrk ∧ s'.ebrk = s.ebrk := by
  unfold BSt.doBrk at hs
  split at hs
  · split at hs
    · cases hs; exact ⟨rfl, rfl⟩
    · split at hs
      · split at hs
        · split at hs <;> cases hs
        · cases hs
      · cases hs; exact ⟨rfl, rfl⟩
  · cases hs; exact ⟨rfl, rfl⟩

/-- What is not true: `tbreak` on an event makes a breakpoint that is never removed. -/
theorem c45_false_event :
    listing ((BSt.new bkWorld 0).run exEnv
      [.ev .wr 1 5 1 false true, .acc (.write 1 5 1#32) (fun _ => true), .acc (.write 1 5 2#32) (fun _ => true)]) =
      some ([], [(1, 5)], [0, 0], [false, false, false]) := by decide +kernel

/-! ### the hypotheses are met -/

/-- A session: two code breakpoints, one temporary; an event one; some are
deleted, the execution and accesses go on. -/
def bkSession : List BOp :=
  [.brk 3 2 false false, .brk 7 1 false true, .ev .wr 1 5 1 false false, .brk 3 1 false false, .arrive 3 (fun _ => true),
   .arrive 7 (fun _ => true), .arrive 3 (fun _ => true), .acc (.write 1 5 1#32) (fun _ => true), .until_ 9, .clear 3,
   .delete 3]

theorem bkSession_ok : ∀ o ∈ bkSession, OpOk bkWorld o ∧ InRom bkWorld 0 o := by
  intro o h
  simp only [bkSession, List.mem_cons, List.not_mem_nil, or_false] at h
  rcases h with rfl | rfl | rfl | rfl | rfl | rfl | rfl | rfl | rfl | rfl | rfl
  · exact ⟨(show 3 < 2 ^ 32 by decide), 3, by decide⟩
  · exact ⟨(show 7 < 2 ^ 32 by decide), 7, by decide⟩
  · exact ⟨⟨by decide, by decide⟩, trivial⟩
  · exact ⟨(show 3 < 2 ^ 32 by decide), 3, by decide⟩
  · exact ⟨(show 3 < 2 ^ 32 by decide), trivial⟩
  · exact ⟨(show 7 < 2 ^ 32 by decide), trivial⟩
  · exact ⟨(show 3 < 2 ^ 32 by decide), trivial⟩
  · refine ⟨⟨by decide, ?_⟩, trivial⟩
    show Plain bkWorld 1 5
    unfold Plain
    rw [show ((bkWorld.spaces 1).idx? 5) = some 5 from by decide]
    rfl
  · exact ⟨(show 9 < 2 ^ 32 by decide), 9, by decide⟩
  · exact ⟨(show 3 < 2 ^ 32 by decide), trivial⟩
  · exact ⟨trivial, trivial⟩

example : listing ((BSt.new bkWorld 0).run exEnv bkSession) =
    some ([(4, 9)], [], [2], [false, false, false, false, false, true, true, false, false, false, false]) := by decide +kernel

example : ∃ s' xs, (BSt.new bkWorld 0).run exEnv bkSession = .ok (s', xs) ∧ ∀ a, a < 2 ^ 32 → insideOf bkWorld 0 a = true →
      (s'.w.fetchFlag 0 a = true ↔ ∃ b ∈ (bpRun 0 (insideOf bkWorld) BpSt.init bkSession).1.fetch, b.addr = a) :=
  c19_commands exEnv bkWorld bkWorld_noBrk 0 bkSession (fun o h => (bkSession_ok o h).1) (fun o h => (bkSession_ok o h).2)
    (by decide)

/-- Hit count 3, seven arrivals, condition true at the even ones: stops at the 6th. -/
example : ∃ s', (BSt.new bkWorld 0).run exEnv
      (.brk 3 3 true false :: ([false, true, false, true, false, true, false].map (fun v (_ : Nat) => v)).map (BOp.arrive 3)) =
    .ok (s', [false, false, false, false, false, false, true, false]) :=
  c21_hits exEnv bkWorld bkWorld_noBrk 0 3 (by decide) (by decide) 3 (by decide) true _

example : insideOf bkWorld 0 32 = false ∧
    (match (BSt.new bkWorld 0).run exEnv [.brk 32 1 false false] with
      | .ok (s, _) => s.fbrk.items | _ => []) = [⟨0, 1, .fetch, 0, 32, false⟩] := by decide +kernel

end Ucsim.Props
