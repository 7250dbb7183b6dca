import Verif.Spec.Em
import Verif.Oisc.Misc16
/-
The Extended MISC16: /repo/src/sims/oisc.src/em.cc, on top of misc16.cc.

Simplification: as in Oisc/Misc16. An indirect access whose pointer is again one of the addresses of
indirect accesses is followed 32 times, more than the pointers, which move every time, allow.
-/
namespace Ucsim.Em
open Ucsim.Misc (Word Src Dst srcOf dstOf val put upd special)

/-- cl_em: cl_misc16 and rP, emcl.h -/
structure E where
  m : Misc.M
  P : Word

/-- cl_memory_cell::read, mem.cc 1203-1217, with cl_em::read, em.cc 130-140, and cl_misc16::read,
misc16.cc 225-238 -/
def rdF : Nat → E → Word → Word × E
  | 0, e, a => (e.m.mem a, e)
  | n + 1, e, a =>
    if a = 5 then (e.P, e)
    else if a = 6 then rdF n { e with P := e.P + 1 } e.P
    else if a = 10 then rdF n { e with m := { e.m with A := e.m.A + 1 } } e.m.A
    else if a = 7 then (if e.m.A = 7 then (e.m.A, e) else rdF n e e.m.A)
    else (Misc.rd1 e.m a, e)

def rd (e : E) (a : Word) : Word × E := rdF 32 e a

/-- the store that ends cl_memory_cell::write, mem.cc 1250-1258 -/
def store (e : E) (a v : Word) : E := { e with m := { e.m with mem := upd e.m.mem a v } }

/-- cl_memory_cell::write, mem.cc 1241-1259, with cl_em::write, em.cc 142-152, and cl_misc16::write,
misc16.cc 240-259 -/
def wrF : Nat → E → Word → Word → E
  | 0, e, a, v => store e a v
  | n + 1, e, a, v =>
    if a = 5 then store { e with P := v } 5 v
    else if a = 6 then store (wrF n { e with P := e.P - 1 } (e.P - 1) v) 6 v
    else if a = 10 then store (wrF n { e with m := { e.m with A := e.m.A + 1 } } e.m.A v) 10 v
    else if a = 7 then store (if e.m.A = 7 then e else wrF n e e.m.A v) 7 v
    else { e with m := Misc.wr1 e.m a v }

def wr (e : E) (a v : Word) : E := wrF 32 e a v

/-- cl_oisc::exec_inst, oisc.cc 224-239 -/
def step (e : E) : E :=
  let (src, e) := rd e e.m.PC
  let (dst, e) := rd e (e.m.PC + 1)
  let (tmp, e) := rd e src
  let e := { e with m := { e.m with PC := e.m.PC + 2 } }
  let e := wr e dst tmp
  { e with m := { e.m with clocks := e.m.clocks + 4 } }

def run : Nat → E → E
  | 0, e => e
  | n + 1, e => run n (step e)

/-- cl_oisc::disassc, oisc.cc 125-201, with cl_em::dis_comment, em.cc 88-117, and cl_misc16::dis_comment,
misc16.cc 184-212: what the reads that make the text of the instruction at `a` leave behind -/
def disState (e : E) (a : Word) : E :=
  let (src, e) := rd e a
  let (_, e) := rd e (a + 1)
  (rd e (if src = 7 then e.m.A else src)).2

/-- cl_em::print_regs, em.cc 56-66, with cl_oisc::print_acc, oisc.cc 242-250 -/
def showRegs (e : E) : E :=
  let (_, e) := rd e e.P
  let (_, e) := rd e e.m.A
  disState e e.m.PC

def view (e : E) : S := ⟨Misc.view e.m, e.P⟩

/-! ### C156: the table -/

theorem mem_ne {a : Word} (h : 16 ≤ a.toNat) : a ≠ 5 ∧ a ≠ 6 ∧ a ≠ 10 ∧ a ≠ 7 :=
  ⟨Misc.ne_low h 5 (by omega), Misc.ne_low h 6 (by omega), Misc.ne_low h 10 (by omega), Misc.ne_low h 7 (by omega)⟩

theorem rdF_mem {n : Nat} {e : E} {a : Word} (h : 16 ≤ a.toNat) : rdF n e a = (e.m.mem a, e) := by
  cases n with
  | zero => rfl
  | succ n =>
    obtain ⟨h5, h6, h10, h7⟩ := mem_ne h
    unfold rdF
    rw [if_neg h5, if_neg h6, if_neg h10, if_neg h7, Misc.rd1_mem h]

theorem wrF_mem {n : Nat} {e : E} {a v : Word} (h : 16 ≤ a.toNat) : wrF n e a v = store e a v := by
  cases n with
  | zero => rfl
  | succ n =>
    obtain ⟨h5, h6, h10, h7⟩ := mem_ne h
    unfold wrF
    rw [if_neg h5, if_neg h6, if_neg h10, if_neg h7]
    unfold Misc.wr1
    rw [Misc.special_low h]
    rfl

theorem view_store_low (e : E) (a v : Word) (h : a.toNat < 16) : view (store e a v) = view e := by
  show S.mk (Misc.view { e.m with mem := upd e.m.mem a v }) e.P = _
  rw [Misc.view_low _ _ _ h]; rfl

theorem view_store (e : E) (a v : Word) (h : 16 ≤ a.toNat) : view (store e a v) = { view e with s := { (view e).s with ram := upd (view e).s.ram a v } } := by
  show S.mk (Misc.view { e.m with mem := upd e.m.mem a v }) e.P = _
  rw [Misc.view_upd _ _ _ h]; rfl

theorem rd_src {e : E} {a : Word} {x : ESrc} {r : Word × S} (h1 : esrcOf a = some x) (h2 : eval (view e) x = some r) :
    (rd e a).1 = r.1 ∧ view (rd e a).2 = r.2 ∧ (rd e a).2.m.clocks = e.m.clocks := by
  unfold esrcOf at h1
  unfold rd
  by_cases h5 : a = 5
  · subst h5; cases h1; cases h2; exact ⟨rfl, rfl, rfl⟩
  rw [if_neg h5] at h1
  by_cases h6 : a = 6
  · subst h6; cases h1
    simp only [eval] at h2
    split at h2
    · rename_i hp
      have hp : 16 ≤ e.P.toNat := hp
      cases h2
      have : rdF 32 e 6 = rdF 31 { e with P := e.P + 1 } e.P := rfl
      rw [this, rdF_mem hp]
      exact ⟨(Misc.view_ram hp).symm, rfl, rfl⟩
    · cases h2
  rw [if_neg h6] at h1
  by_cases h10 : a = 10
  · subst h10; cases h1
    simp only [eval] at h2
    split at h2
    · rename_i hp
      have hp : 16 ≤ e.m.A.toNat := hp
      cases h2
      have : rdF 32 e 10 = rdF 31 { e with m := { e.m with A := e.m.A + 1 } } e.m.A := rfl
      rw [this, rdF_mem hp]
      exact ⟨(Misc.view_ram hp).symm, rfl, rfl⟩
    · cases h2
  rw [if_neg h10] at h1
  obtain ⟨y, hy, rfl⟩ := Option.map_eq_some_iff.1 h1
  simp only [eval] at h2
  obtain ⟨v, hv, rfl⟩ := Option.map_eq_some_iff.1 h2
  have hr := Misc.rd_src (m := e.m) hy hv
  by_cases h7 : a = 7
  · subst h7
    have : srcOf 7 = some .ind := by decide
    rw [this] at hy; cases hy
    simp only [val] at hv
    split at hv
    · rename_i hA
      have hA : 16 ≤ e.m.A.toNat := hA
      cases hv
      have hne : e.m.A ≠ 7 := (mem_ne hA).2.2.2
      have : rdF 32 e 7 = if e.m.A = 7 then (e.m.A, e) else rdF 31 e e.m.A := rfl
      rw [this, if_neg hne, rdF_mem hA]
      exact ⟨(Misc.view_ram hA).symm, rfl, rfl⟩
    · cases hv
  · have : rdF 32 e a = (Misc.rd1 e.m a, e) := by
      unfold rdF; rw [if_neg h5, if_neg h6, if_neg h10, if_neg h7]
    rw [this]
    refine ⟨?_, rfl, rfl⟩
    unfold Misc.rd at hr
    rw [if_neg h7] at hr
    exact hr

theorem wr_dst {e : E} {a v : Word} {d : EDst} {s' : S} (h1 : edstOf a = some d) (h2 : eput (view e) v d = some s') :
    view (wr e a v) = s' ∧ (wr e a v).m.clocks = e.m.clocks := by
  unfold edstOf at h1
  unfold wr
  by_cases h5 : a = 5
  · subst h5; cases h1; cases h2
    exact ⟨view_store_low { e with P := v } 5 v (by decide), rfl⟩
  rw [if_neg h5] at h1
  by_cases h6 : a = 6
  · subst h6; cases h1
    simp only [eput] at h2
    split at h2
    · rename_i hp
      have hp : 16 ≤ (e.P - 1).toNat := hp
      cases h2
      have : wrF 32 e 6 v = store (wrF 31 { e with P := e.P - 1 } (e.P - 1) v) 6 v := rfl
      rw [this, wrF_mem hp]
      refine ⟨?_, rfl⟩
      rw [view_store_low _ _ _ (by decide), view_store _ _ _ hp]; rfl
    · cases h2
  rw [if_neg h6] at h1
  by_cases h10 : a = 10
  · subst h10; cases h1
    simp only [eput] at h2
    split at h2
    · rename_i hp
      have hp : 16 ≤ e.m.A.toNat := hp
      cases h2
      have : wrF 32 e 10 v = store (wrF 31 { e with m := { e.m with A := e.m.A + 1 } } e.m.A v) 10 v := rfl
      rw [this, wrF_mem hp]
      refine ⟨?_, rfl⟩
      rw [view_store_low _ _ _ (by decide), view_store _ _ _ hp]; rfl
    · cases h2
  rw [if_neg h10] at h1
  obtain ⟨y, hy, rfl⟩ := Option.map_eq_some_iff.1 h1
  simp only [eput] at h2
  obtain ⟨s1, hs, rfl⟩ := Option.map_eq_some_iff.1 h2
  have hw := Misc.wr_dst (m := e.m) hy hs
  have hc := Misc.wr_clocks e.m a v
  have key : wrF 32 e a v = { e with m := Misc.wr e.m a v } := by
    by_cases h7 : a = 7
    · subst h7
      have : dstOf 7 = some .ind := by decide
      rw [this] at hy; cases hy
      simp only [put] at hs
      split at hs
      · rename_i hA
        have hA : 16 ≤ e.m.A.toNat := hA
        have hne : e.m.A ≠ 7 := (mem_ne hA).2.2.2
        have : wrF 32 e 7 v = store (if e.m.A = 7 then e else wrF 31 e e.m.A v) 7 v := rfl
        rw [this, if_neg hne, wrF_mem hA]
        unfold Misc.wr
        simp only []
        rw [if_pos trivial, if_pos hne]
        unfold Misc.wr1
        rw [Misc.special_low hA]
        rfl
      · cases hs
    · unfold wrF; rw [if_neg h5, if_neg h6, if_neg h10, if_neg h7]
      unfold Misc.wr; rw [if_neg h7]
  rw [key]
  refine ⟨?_, hc⟩
  show S.mk (Misc.view (Misc.wr e.m a v)) e.P = _
  rw [hw]; rfl

/-- C156: every instruction that the table describes does to A, C, P, PC and memory what the table says,
in four clocks -/
theorem c156_step {e : E} {s' : S} (h : estep (view e) = some s') : view (step e) = s' ∧ (step e).m.clocks = e.m.clocks + 4 := by
  unfold estep at h
  split at h
  · rename_i hpc
    obtain ⟨hp1, hp2⟩ := hpc
    have hp1 : 16 ≤ e.m.PC.toNat := hp1
    have hp2 : e.m.PC.toNat + 1 < 65536 := hp2
    have hq : 16 ≤ (e.m.PC + 1).toNat := by
      rw [BitVec.toNat_add]; show 16 ≤ (e.m.PC.toNat + 1) % 65536; omega
    rw [show (view e).s.PC = e.m.PC from rfl, show (view e).s.ram e.m.PC = e.m.mem e.m.PC from Misc.view_ram hp1,
      show (view e).s.ram (e.m.PC + 1) = e.m.mem (e.m.PC + 1) from Misc.view_ram hq] at h
    obtain ⟨x, hx, h⟩ := Option.bind_eq_some_iff.1 h
    obtain ⟨d, hd, h⟩ := Option.bind_eq_some_iff.1 h
    obtain ⟨r, hv, h⟩ := Option.bind_eq_some_iff.1 h
    have e1 : rd e e.m.PC = (e.m.mem e.m.PC, e) := rdF_mem hp1
    have e2 : rd e (e.m.PC + 1) = (e.m.mem (e.m.PC + 1), e) := rdF_mem hq
    obtain ⟨r1, r2, r3⟩ := rd_src hx hv
    have hstep : step e = (fun e' : E => { e' with m := { e'.m with clocks := e'.m.clocks + 4 } })
        (wr { (rd e (e.m.mem e.m.PC)).2 with m := { (rd e (e.m.mem e.m.PC)).2.m with PC := (rd e (e.m.mem e.m.PC)).2.m.PC + 2 } }
          (e.m.mem (e.m.PC + 1)) (rd e (e.m.mem e.m.PC)).1) := by
      unfold step; rw [e1]; simp only []; rw [e2]
    rw [hstep]
    generalize hE : (rd e (e.m.mem e.m.PC)).2 = e' at *
    rw [r1]
    have hview : view { e' with m := { e'.m with PC := e'.m.PC + 2 } } = { r.2 with s := { r.2.s with PC := r.2.s.PC + 2 } } := by
      rw [← r2]; rfl
    rw [← hview] at h
    obtain ⟨w1, w2⟩ := wr_dst hd h
    refine ⟨w1, ?_⟩
    show (wr _ _ _).m.clocks + 4 = _
    rw [w2]; show e'.m.clocks + 4 = _; rw [r3]
  · cases h

theorem c156_programs (n : Nat) {e : E} {s' : S} (h : erun n (view e) = some s') :
    view (run n e) = s' ∧ (run n e).m.clocks = e.m.clocks + 4 * n := by
  induction n generalizing e with
  | zero => cases h; exact ⟨rfl, rfl⟩
  | succ n ih =>
    obtain ⟨s1, h1, h2⟩ := Option.bind_eq_some_iff.1 h
    obtain ⟨e1, e2⟩ := c156_step h1
    rw [← e1] at h2
    obtain ⟨r1, r2⟩ := ih h2
    exact ⟨r1, by show (run n (step e)).m.clocks = _; rw [r2, e2]; omega⟩

/-! ### C157: the stack -/

theorem estep_eq {s : S} {a d : Word} {x : ESrc} {y : EDst} {r : Word × S} {s' : S} (h1 : 16 ≤ s.s.PC.toNat) (h2 : s.s.PC.toNat + 1 < 65536)
    (ha : s.s.ram s.s.PC = a) (hd : s.s.ram (s.s.PC + 1) = d) (hx : esrcOf a = some x) (hy : edstOf d = some y) (hv : eval s x = some r)
    (hp : eput { r.2 with s := { r.2.s with PC := r.2.s.PC + 2 } } r.1 y = some s') : estep s = some s' := by
  subst ha hd
  unfold estep
  rw [if_pos ⟨h1, h2⟩, hx, Option.bind_some, hy, Option.bind_some, hv, Option.bind_some, hp]

theorem esrc_mem {a : Word} (h : 16 ≤ a.toNat) : esrcOf a = some (.base (.mem a)) := by
  obtain ⟨h5, h6, h10, h7⟩ := mem_ne h
  unfold esrcOf; rw [if_neg h5, if_neg h6, if_neg h10, Misc.srcOf_mem h]; rfl

theorem edst_mem {a : Word} (h : 16 ≤ a.toNat) : edstOf a = some (.base (.mem a)) := by
  obtain ⟨h5, h6, h10, h7⟩ := mem_ne h
  unfold edstOf; rw [if_neg h5, if_neg h6, if_neg h10, Misc.dstOf_mem h]; rfl

theorem ofs (p : Nat) (hp : 1 ≤ p) : (BitVec.ofNat 16 p : Word) - 1 = BitVec.ofNat 16 (p - 1) := by
  apply BitVec.eq_of_toNat_eq
  rw [BitVec.toNat_sub]
  simp only [BitVec.toNat_ofNat]
  show (65536 - 1 % 65536 + p % 65536) % 65536 = (p - 1) % 65536
  omega

open Misc (toNat_of of_add of_ne)

/-- pushing: n instructions `mov [--P],x+i` put the n words from x on below P, the last one lowest -/
theorem push_spec (n : Nat) {s : S} {p x b : Nat} (hp : 16 ≤ p) (hpe : p + 2 * n ≤ 65536) (hx : 16 ≤ x) (hxe : x + n ≤ 65536)
    (hb : 16 + n ≤ b) (hbe : b < 65536) (hpb : b ≤ p ∨ p + 2 * n ≤ b - n) (hxb : b ≤ x ∨ x + n ≤ b - n)
    (hpc : s.s.PC = BitVec.ofNat 16 p) (hP : s.P = BitVec.ofNat 16 b)
    (hc : ∀ i, i < n → s.s.ram (BitVec.ofNat 16 (p + 2 * i)) = BitVec.ofNat 16 (x + i) ∧ s.s.ram (BitVec.ofNat 16 (p + 2 * i + 1)) = 6) :
    ∃ s', erun n s = some s' ∧ s'.s.PC = BitVec.ofNat 16 (p + 2 * n) ∧ s'.P = BitVec.ofNat 16 (b - n) ∧ s'.s.A = s.s.A ∧ s'.s.C = s.s.C ∧
      (∀ i, i < n → s'.s.ram (BitVec.ofNat 16 (b - 1 - i)) = s.s.ram (BitVec.ofNat 16 (x + i))) ∧
      ∀ a, a < 65536 → (a < b - n ∨ b ≤ a) → s'.s.ram (BitVec.ofNat 16 a) = s.s.ram (BitVec.ofNat 16 a) := by
  induction n generalizing s p x b with
  | zero => exact ⟨s, rfl, hpc, hP, rfl, rfl, fun i hi => (Nat.not_lt_zero _ hi).elim, fun _ _ _ => rfl⟩
  | succ n ih =>
    obtain ⟨c0, c1⟩ := hc 0 (by omega)
    rw [Nat.mul_zero, Nat.add_zero] at c0 c1
    rw [Nat.add_zero] at c0
    have hpn := toNat_of (p := p) (by omega)
    have hxn := toNat_of (p := x) (by omega)
    have hbn := toNat_of (p := b - 1) (by omega)
    have hb1 : s.P - 1 = BitVec.ofNat 16 (b - 1) := by rw [hP]; exact ofs b (by omega)
    have hs1 : ∃ s1, s1 = ({ s := { s.s with PC := s.s.PC + 2, ram := upd s.s.ram (BitVec.ofNat 16 (b - 1)) (s.s.ram (BitVec.ofNat 16 x)) }, P := BitVec.ofNat 16 (b - 1) } : S) := ⟨_, rfl⟩
    obtain ⟨s1, hs1⟩ := hs1
    have e1 : estep s = some s1 := by
      refine estep_eq (s := s) (a := BitVec.ofNat 16 x) (d := 6) (x := .base (.mem (BitVec.ofNat 16 x))) (y := .push)
        (r := (s.s.ram (BitVec.ofNat 16 x), s)) (by rw [hpc, hpn]; exact hp) (by rw [hpc, hpn]; omega) (by rw [hpc]; exact c0)
        (by rw [hpc]; exact (congrArg s.s.ram (of_add p 1)).trans c1) (esrc_mem (by omega)) (by decide) rfl ?_
      show (if 16 ≤ (s.P - 1).toNat then some _ else none) = _
      rw [hb1, if_pos (by omega), hs1]
    have keep : ∀ a, a < 65536 → a ≠ b - 1 → s1.s.ram (BitVec.ofNat 16 a) = s.s.ram (BitVec.ofNat 16 a) := by
      intro a ha hne
      rw [hs1]; simp only [upd]; rw [if_neg (of_ne ha (by omega) hne)]
    have hpc1 : s1.s.PC = BitVec.ofNat 16 (p + 2) := by rw [hs1]; show s.s.PC + 2 = _; rw [hpc]; exact of_add p 2
    obtain ⟨s', r1, r2, r3, rA, rC, r4, r5⟩ := ih (s := s1) (p := p + 2) (x := x + 1) (b := b - 1) (by omega) (by omega) (by omega) (by omega) (by omega)
      (by omega) (by omega) (by omega) hpc1 (by rw [hs1])
      (by
        intro i hi
        have hh := hc (i + 1) (by omega)
        rw [show p + 2 * (i + 1) = p + 2 + 2 * i by omega, show x + (i + 1) = x + 1 + i by omega] at hh
        rw [keep _ (by omega) (by omega), keep _ (by omega) (by omega)]
        exact hh)
    refine ⟨s', ?_, ?_, ?_, by rw [rA, hs1], by rw [rC, hs1], ?_, ?_⟩
    · show (estep s).bind (erun n) = _
      rw [e1, Option.bind_some]; exact r1
    · rw [r2]; congr 1; omega
    · rw [r3]; congr 1; omega
    · intro i hi
      cases i with
      | zero =>
        rw [Nat.sub_zero, Nat.add_zero, r5 (b - 1) (by omega) (by omega), hs1]
        simp [upd]
      | succ i =>
        rw [show b - 1 - (i + 1) = b - 1 - 1 - i by omega, r4 i (by omega), keep _ (by omega) (by omega), show x + (i + 1) = x + 1 + i by omega]
    · intro a ha h
      rw [r5 a ha (by omega), keep a ha (by omega)]

/-- popping: n instructions `mov y+i,[P++]` take the n words from P on -/
theorem pop_spec (n : Nat) {s : S} {p y b : Nat} (hp : 16 ≤ p) (hpe : p + 2 * n ≤ 65536) (hy : 16 ≤ y) (hye : y + n ≤ 65536)
    (hb : 16 ≤ b) (hbe : b + n < 65536) (hpy : y + n ≤ p ∨ p + 2 * n ≤ y) (hyb : b + n ≤ y ∨ y + n ≤ b)
    (hpc : s.s.PC = BitVec.ofNat 16 p) (hP : s.P = BitVec.ofNat 16 b)
    (hc : ∀ i, i < n → s.s.ram (BitVec.ofNat 16 (p + 2 * i)) = 6 ∧ s.s.ram (BitVec.ofNat 16 (p + 2 * i + 1)) = BitVec.ofNat 16 (y + i)) :
    ∃ s', erun n s = some s' ∧ s'.s.PC = BitVec.ofNat 16 (p + 2 * n) ∧ s'.P = BitVec.ofNat 16 (b + n) ∧ s'.s.A = s.s.A ∧ s'.s.C = s.s.C ∧
      (∀ i, i < n → s'.s.ram (BitVec.ofNat 16 (y + i)) = s.s.ram (BitVec.ofNat 16 (b + i))) ∧
      ∀ a, a < 65536 → (a < y ∨ y + n ≤ a) → s'.s.ram (BitVec.ofNat 16 a) = s.s.ram (BitVec.ofNat 16 a) := by
  induction n generalizing s p y b with
  | zero => exact ⟨s, rfl, hpc, hP, rfl, rfl, fun i hi => (Nat.not_lt_zero _ hi).elim, fun _ _ _ => rfl⟩
  | succ n ih =>
    obtain ⟨c0, c1⟩ := hc 0 (by omega)
    rw [Nat.mul_zero, Nat.add_zero] at c0 c1
    rw [Nat.add_zero] at c1
    have hpn := toNat_of (p := p) (by omega)
    have hyn := toNat_of (p := y) (by omega)
    have hbn := toNat_of (p := b) (by omega)
    have hs1 : ∃ s1, s1 = ({ s := { s.s with PC := s.s.PC + 2, ram := upd s.s.ram (BitVec.ofNat 16 y) (s.s.ram (BitVec.ofNat 16 b)) }, P := BitVec.ofNat 16 (b + 1) } : S) := ⟨_, rfl⟩
    obtain ⟨s1, hs1⟩ := hs1
    have e1 : estep s = some s1 := by
      refine estep_eq (s := s) (a := 6) (d := BitVec.ofNat 16 y) (x := .pop) (y := .base (.mem (BitVec.ofNat 16 y)))
        (r := (s.s.ram (BitVec.ofNat 16 b), { s with P := BitVec.ofNat 16 (b + 1) })) (by rw [hpc, hpn]; exact hp) (by rw [hpc, hpn]; omega) (by rw [hpc]; exact c0)
        (by rw [hpc]; exact (congrArg s.s.ram (of_add p 1)).trans c1) (by decide) (edst_mem (by omega)) ?_ (by rw [hs1]; rfl)
      show (if 16 ≤ s.P.toNat then some (s.s.ram s.P, ({ s with P := s.P + 1 } : S)) else none) = _
      rw [hP, if_pos (by omega), show (BitVec.ofNat 16 b : Word) + 1 = BitVec.ofNat 16 (b + 1) from of_add b 1]
    have keep : ∀ a, a < 65536 → a ≠ y → s1.s.ram (BitVec.ofNat 16 a) = s.s.ram (BitVec.ofNat 16 a) := by
      intro a ha hne
      rw [hs1]; simp only [upd]; rw [if_neg (of_ne ha (by omega) hne)]
    have hpc1 : s1.s.PC = BitVec.ofNat 16 (p + 2) := by rw [hs1]; show s.s.PC + 2 = _; rw [hpc]; exact of_add p 2
    obtain ⟨s', r1, r2, r3, rA, rC, r4, r5⟩ := ih (s := s1) (p := p + 2) (y := y + 1) (b := b + 1) (by omega) (by omega) (by omega) (by omega) (by omega)
      (by omega) (by omega) (by omega) hpc1 (by rw [hs1])
      (by
        intro i hi
        have hh := hc (i + 1) (by omega)
        rw [show p + 2 * (i + 1) = p + 2 + 2 * i by omega, show y + (i + 1) = y + 1 + i by omega] at hh
        rw [keep _ (by omega) (by omega), keep _ (by omega) (by omega)]
        exact hh)
    refine ⟨s', ?_, ?_, ?_, by rw [rA, hs1], by rw [rC, hs1], ?_, ?_⟩
    · show (estep s).bind (erun n) = _
      rw [e1, Option.bind_some]; exact r1
    · rw [r2]; congr 1; omega
    · rw [r3]; congr 1; omega
    · intro i hi
      cases i with
      | zero =>
        rw [Nat.add_zero, Nat.add_zero, r5 y (by omega) (by omega), hs1]
        simp [upd]
      | succ i =>
        rw [show y + (i + 1) = y + 1 + i by omega, r4 i (by omega), keep _ (by omega) (by omega), show b + (i + 1) = b + 1 + i by omega]
    · intro a ha h
      rw [r5 a ha (by omega), keep a ha (by omega)]

theorem erun_add {a b : Nat} {s s1 : S} (h : erun a s = some s1) : erun (a + b) s = erun b s1 := by
  induction a generalizing s with
  | zero => cases h; rw [Nat.zero_add]
  | succ a ih =>
    rw [Nat.add_right_comm]
    obtain ⟨u, hu, h⟩ := Option.bind_eq_some_iff.1 h
    show (estep s).bind (erun (a + b)) = _
    rw [hu, Option.bind_some]; exact ih h

/-- C157: n pushes and n pops of the simulator: the words come back in the opposite order, P is where it
was, and nothing but the n words below P and the n targets has changed -/
theorem c157_stack (n : Nat) {e : E} {p x y b : Nat} (hp : 16 ≤ p) (hpe : p + 4 * n ≤ 65536) (hx : 16 ≤ x) (hxe : x + n ≤ 65536)
    (hy : 16 ≤ y) (hye : y + n ≤ 65536) (hb : 16 + n ≤ b) (hbe : b < 65536)
    (hpb : b ≤ p ∨ p + 4 * n ≤ b - n) (hxb : b ≤ x ∨ x + n ≤ b - n) (hyb : b ≤ y ∨ y + n ≤ b - n) (hpy : y + n ≤ p ∨ p + 4 * n ≤ y)
    (hpc : (view e).s.PC = BitVec.ofNat 16 p) (hP : (view e).P = BitVec.ofNat 16 b)
    (hpush : ∀ i, i < n → (view e).s.ram (BitVec.ofNat 16 (p + 2 * i)) = BitVec.ofNat 16 (x + i) ∧ (view e).s.ram (BitVec.ofNat 16 (p + 2 * i + 1)) = 6)
    (hpop : ∀ i, i < n → (view e).s.ram (BitVec.ofNat 16 (p + 2 * n + 2 * i)) = 6 ∧
      (view e).s.ram (BitVec.ofNat 16 (p + 2 * n + 2 * i + 1)) = BitVec.ofNat 16 (y + i)) :
    (∀ i, i < n → (view (run (2 * n) e)).s.ram (BitVec.ofNat 16 (y + i)) = (view e).s.ram (BitVec.ofNat 16 (x + (n - 1 - i)))) ∧
      (view (run (2 * n) e)).P = BitVec.ofNat 16 b ∧ (view (run (2 * n) e)).s.PC = BitVec.ofNat 16 (p + 4 * n) ∧
      (view (run (2 * n) e)).s.A = (view e).s.A ∧ (view (run (2 * n) e)).s.C = (view e).s.C ∧
      ∀ a, a < 65536 → (a < b - n ∨ b ≤ a) → (a < y ∨ y + n ≤ a) → (view (run (2 * n) e)).s.ram (BitVec.ofNat 16 a) = (view e).s.ram (BitVec.ofNat 16 a) := by
  obtain ⟨s1, q1, q2, q3, qA, qC, q4, q5⟩ := push_spec n hp (by omega) hx hxe hb hbe (by omega) hxb hpc hP hpush
  obtain ⟨s2, r1, r2, r3, rA, rC, r4, r5⟩ := pop_spec n (s := s1) (p := p + 2 * n) (y := y) (b := b - n) (by omega) (by omega) hy hye
    (by omega) (by omega) (by omega) (by omega) q2 q3
    (by
      intro i hi
      rw [q5 _ (by omega) (by omega), q5 _ (by omega) (by omega)]
      exact hpop i hi)
  have hr : erun (2 * n) (view e) = some s2 := by
    rw [Nat.two_mul, erun_add q1]; exact r1
  rw [(c156_programs _ hr).1]
  refine ⟨?_, ?_, ?_, rA.trans qA, rC.trans qC, ?_⟩
  · intro i hi
    rw [r4 i hi, show b - n + i = b - 1 - (n - 1 - i) by omega, q4 (n - 1 - i) (by omega)]
  · rw [r3]; congr 1; omega
  · rw [r2]; congr 1; omega
  · intro a ha h1 h2
    rw [r5 a ha h2, q5 a ha h1]

/-! ### C158: looking at the machine -/

theorem rd_same {e : E} {a : Word} (h6 : a ≠ 6) (h10 : a ≠ 10) (h7 : a = 7 → e.m.A ≠ 6 ∧ e.m.A ≠ 10) : (rd e a).2 = e := by
  unfold rd rdF
  by_cases h5 : a = 5
  · rw [if_pos h5]
  rw [if_neg h5, if_neg h6, if_neg h10]
  by_cases h : a = 7
  · rw [if_pos h]
    obtain ⟨g6, g10⟩ := h7 h
    split
    · rfl
    · rename_i g7
      unfold rdF
      rw [if_neg g6, if_neg g10, if_neg g7]
      split <;> rfl
  · rw [if_neg h]

/-- C158: the text of an instruction whose source is not `[P++]` or `[A++]` can be shown without harm
(partial: with these it is not so) -/
theorem c158_dis_partial {e : E} {a : Word} (h1 : 16 ≤ a.toNat) (h2 : a.toNat + 1 < 65536) (h6 : (view e).s.ram a ≠ 6) (h10 : (view e).s.ram a ≠ 10)
    (h7 : (view e).s.ram a = 7 → (view e).s.A ≠ 6 ∧ (view e).s.A ≠ 10 ∧ (view e).s.A ≠ 7) : disState e a = e := by
  have hq : 16 ≤ (a + 1).toNat := by
    rw [BitVec.toNat_add]; show 16 ≤ (a.toNat + 1) % 65536; omega
  have hv : (view e).s.ram a = e.m.mem a := Misc.view_ram h1
  rw [hv] at h6 h10 h7
  unfold disState
  rw [show rd e a = (e.m.mem a, e) from rdF_mem h1]
  simp only []
  rw [show rd e (a + 1) = (e.m.mem (a + 1), e) from rdF_mem hq]
  simp only []
  by_cases h : e.m.mem a = 7
  · rw [if_pos h]
    obtain ⟨g6, g10, g7⟩ := h7 h
    exact rd_same g6 g10 (fun he => (g7 he).elim)
  · rw [if_neg h]
    exact rd_same h6 h10 (fun he => (h he).elim)

/-- C158: so registers can be shown while P and A point to memory -/
theorem c158_regs_partial {e : E} (h1 : 16 ≤ e.m.PC.toNat) (h2 : e.m.PC.toNat + 1 < 65536) (h6 : (view e).s.ram e.m.PC ≠ 6) (h10 : (view e).s.ram e.m.PC ≠ 10)
    (hP : 16 ≤ e.P.toNat) (hA : 16 ≤ e.m.A.toNat) : showRegs e = e := by
  unfold showRegs
  rw [show rd e e.P = (e.m.mem e.P, e) from rdF_mem hP]
  simp only []
  rw [show rd e e.m.A = (e.m.mem e.m.A, e) from rdF_mem hA]
  simp only []
  obtain ⟨g5, g6, g10, g7⟩ := mem_ne hA
  exact c158_dis_partial h1 h2 h6 h10 (fun _ => ⟨g6, g10, g7⟩)

/-- C158 is false in general: showing the text of an instruction that reads `[P++]` moves P, wherever P
points to in memory, so that the instruction then takes the wrong word -/
theorem c158_false_dis {e : E} {a : Word} (h1 : 16 ≤ a.toNat) (h2 : a.toNat + 1 < 65536) (h6 : (view e).s.ram a = 6) (hP : 16 ≤ (view e).P.toNat) :
    (view (disState e a)).P = (view e).P + 1 := by
  have hq : 16 ≤ (a + 1).toNat := by
    rw [BitVec.toNat_add]; show 16 ≤ (a.toNat + 1) % 65536; omega
  have hv : (view e).s.ram a = e.m.mem a := Misc.view_ram h1
  rw [hv] at h6
  unfold disState
  rw [show rd e a = (e.m.mem a, e) from rdF_mem h1]
  simp only []
  rw [show rd e (a + 1) = (e.m.mem (a + 1), e) from rdF_mem hq]
  simp only []
  rw [h6, if_neg (by decide)]
  have : rd e 6 = rdF 31 { e with P := e.P + 1 } e.P := rfl
  rw [this, rdF_mem (show 16 ≤ e.P.toNat from hP)]
  rfl

/-- and the one of an instruction that reads `[A++]` moves A -/
theorem c158_false_acc {e : E} {a : Word} (h1 : 16 ≤ a.toNat) (h2 : a.toNat + 1 < 65536) (h10 : (view e).s.ram a = 10) (hA : 16 ≤ (view e).s.A.toNat) :
    (view (disState e a)).s.A = (view e).s.A + 1 := by
  have hq : 16 ≤ (a + 1).toNat := by
    rw [BitVec.toNat_add]; show 16 ≤ (a.toNat + 1) % 65536; omega
  have hv : (view e).s.ram a = e.m.mem a := Misc.view_ram h1
  rw [hv] at h10
  unfold disState
  rw [show rd e a = (e.m.mem a, e) from rdF_mem h1]
  simp only []
  rw [show rd e (a + 1) = (e.m.mem (a + 1), e) from rdF_mem hq]
  simp only []
  rw [h10, if_neg (by decide)]
  have : rd e 10 = rdF 31 { e with m := { e.m with A := e.m.A + 1 } } e.m.A := rfl
  rw [this, rdF_mem (show 16 ≤ e.m.A.toNat from hA)]
  rfl

/-! ### Cases that meet the hypotheses -/

def demo (l : List Word) (P : Word) : E := ⟨Misc.demo l, P⟩

example : (estep (view (demo [6, 8, 0, 0, 7] 20))).map (fun s => (s.s.A, s.P)) = some (7, 21) := by decide +kernel
example : (erun 2 (view (demo [6, 10, 8, 6, 7] 20))).isSome = false := by decide +kernel
-- two words pushed from 24 and popped to 26
example : (view (run 4 (demo [24, 6, 25, 6, 6, 26, 6, 27, 7, 9] 100))).s.ram 26 = 9 :=
  ((c157_stack 2 (e := demo [24, 6, 25, 6, 6, 26, 6, 27, 7, 9] 100) (p := 16) (x := 24) (y := 26) (b := 100) (by decide) (by decide) (by decide) (by decide) (by decide) (by decide)
    (by decide) (by decide) (by decide) (by decide) (by decide) (by decide) (by decide) (by decide) (by decide +kernel) (by decide +kernel)).1 0 (by decide)).trans (by decide +kernel)
example : disState (demo [20, 8] 100) 16 = demo [20, 8] 100 :=
  c158_dis_partial (by decide) (by decide) (by decide +kernel) (by decide +kernel) (fun h => absurd h (by decide +kernel))
example : (view (disState (demo [6, 8] 100) 16)).P = 101 := c158_false_dis (e := demo [6, 8] 100) (by decide) (by decide) (by decide +kernel) (by decide)

end Ucsim.Em
