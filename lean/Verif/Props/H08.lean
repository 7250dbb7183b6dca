import Verif.Proof.H08More

/-
C100: the M68HC08 / HCS08 executes programs as the manual says.
C101: decimal arithmetic.
C102: clock cycles.
C103: reset.
-/
namespace Ucsim.H08

/-! ### C100 -/

/-- **C100**, one instruction. -/
theorem c100_step_partial (s : St) (h : Live s) (hd : ¬ Isa.Differs (abs s) (opnd s) (here s)) :
    (step s).1 = .go ∧ (∃ u, abs (step s).2 = Isa.step s.s08 u (abs s)) ∧ Live (step s).2 ∧ (step s).2.s08 = s.s08 := step_ok s h hd

/-- **C100**, programs of any length. -/
theorem c100_run_partial (n : Nat) (s : St) (h : Live s) (hf : ∀ k, k < n → ¬ Isa.Differs (abs (steps k s)) (opnd (steps k s)) (here (steps k s))) :
    ∃ us : List Isa.Undef, us.length = n ∧ abs (steps n s) = Isa.run s.s08 us (abs s) := by
  induction n generalizing s with
  | zero => exact ⟨[], rfl, rfl⟩
  | succ n ih =>
    obtain ⟨_, ⟨u, h2⟩, h3, h4⟩ := c100_step_partial s h (hf 0 (by omega))
    obtain ⟨us, g1, g2⟩ := ih (step s).2 h3 (fun k hk => hf (k + 1) (by omega))
    refine ⟨u :: us, by simp [g1], ?_⟩
    show abs (steps n (step s).2) = Isa.run s.s08 us (Isa.step s.s08 u (abs s))
    rw [← h2, ← h4]; exact g2

/-- Only DIV (when it overflows) and DAA leave anything open. -/
theorem c100_open (s08 : Bool) (u u' : Isa.Undef) (m : Isa.Mach) (h1 : (m.fetch s08).1 ≠ .div) (h2 : (m.fetch s08).1 ≠ .daa) :
    Isa.step s08 u m = Isa.step s08 u' m := by
  unfold Isa.step
  split
  · rfl
  · exact exec_u u u' m _ _ h1 h2

/-- An opcode the manual does not define stops the simulation; nothing but the clock changes. -/
theorem c100_undefined (s : St) (h : Live s) (hi : here s = .other) : (step s).1 = .inv ∧ abs (step s).2 = abs s ∧ (step s).2.pc = s.pc := other_inv s h hi

/-- SWI does all the manual says but sets I to 0. -/
theorem c100_swi_partial (s : St) (h : Live s) (hi : here s = .swi) (u : Isa.Undef) :
    (step s).1 = .go ∧ abs (step s).2 = { Isa.step s.s08 u (abs s) with i := false } ∧ Live (step s).2 := swi_upto s h hi u

/-- STOP and WAIT clear I but do not wait. -/
theorem c100_wait_partial (s : St) (h : Live s) (hi : here s = .stop ∨ here s = .wait) (u : Isa.Undef) :
    (step s).1 = .go ∧ abs (step s).2 = { Isa.step s.s08 u (abs s) with waiting := false } ∧ Live (step s).2 := stop_upto s h hi u

/-- RSP sets the whole of SP. -/
theorem c100_rsp_partial (s : St) (h : Live s) (hi : here s = .rsp) (u : Isa.Undef) :
    (step s).1 = .go ∧ abs (step s).2 = { Isa.step s.s08 u (abs s) with sp := 0x00ff#16 } ∧ Live (step s).2 := rsp_upto s h hi u

/-- DBNZ counts and branches as it should, but changes N, Z and V like DEC. -/
theorem c100_dbnz_partial (s : St) (h : Live s) (k : Isa.Mode) (hi : here s = .dbnz k) (u : Isa.Undef)
    (h1 : ¬ (abs s).over (opnd s) k) (h2 : ¬ (abs s).leaves (opnd s + BitVec.ofNat 16 k.bytes) ((abs s).operand (opnd s) k - 1 != 0)) (h3 : ¬ (abs s).ownOffset (opnd s) k) :
    (step s).1 = .go ∧ abs (step s).2 = { Isa.step s.s08 u (abs s) with n := ((abs s).operand (opnd s) k - 1).msb, z := (abs s).operand (opnd s) k - 1 == 0, v := (abs s).operand (opnd s) k - 1 == 0x7f#8 } ∧
      Live (step s).2 := dbnz_upto s h k hi u h1 h2 h3

/-! Examples -/

/-- A machine with a program at 0x200 and some bytes elsewhere. -/
def demo (s08 : Bool) (a h x p : Byte) (m : Nat → Option Byte) : St where
  s08 := s08
  a := a
  h := h
  x := x
  p := 0x60 ||| p
  sp := 0xff
  vector := false
  pc := 0x200
  mem := fun w => (m w.toNat).getD 0
  dummy := 0
  rnd := fun _ => 0
  ticks := 0

def bytes (at_ : Nat) (l : List Byte) (rest : Nat → Option Byte := fun _ => none) : Nat → Option Byte :=
  fun n => if at_ ≤ n ∧ n < at_ + l.length then l[n - at_]? else rest n

def lst (s : St) : List Nat := [s.a.toNat, s.h.toNat, s.x.toNat, s.sp.toNat, s.p.toNat, s.pc, s.ticks]

instance (s : St) : Decidable (Live s) := decidable_of_iff (s.pc < 0x10000 ∧ s.p &&& 0x60#8 = 0x60#8 ∧ s.vector = false)
  ⟨fun ⟨a, b, c⟩ => ⟨a, b, c⟩, fun ⟨a, b, c⟩ => ⟨a, b, c⟩⟩
instance (m : Isa.Mach) (q : Word) (k : Isa.Mode) : Decidable (m.over q k) := inferInstanceAs (Decidable (_ ≤ _))
instance (m : Isa.Mach) (q : Word) (t : Bool) : Decidable (m.leaves q t) := inferInstanceAs (Decidable (_ ∧ _))
instance (m : Isa.Mach) (q : Word) (k : Isa.Mode) : Decidable (m.ownOffset q k) := inferInstanceAs (Decidable (_ ∧ _))
instance (m : Isa.Mach) (q : Word) (i : Isa.Ins) : Decidable (Isa.Differs m q i) := by
  cases i <;> unfold Isa.Differs <;> infer_instance

/-- CLRA; LDX #3; loop: ADD #7; DECX; BNE loop; STA 40; BSR sub; ... ; sub: LDHX #1234; STHX 50; RTS -/
def prog : St := demo false 0x55 0 0 0 (bytes 0x200 [0x4f, 0xae, 3, 0xab, 7, 0x5a, 0x26, 0xfb, 0xb7, 0x40, 0xad, 0x02, 0x9d, 0x9d, 0x45, 0x12, 0x34, 0x35, 0x50, 0x81])

example : lst (steps 16 prog) = [21, 0x12, 0x34, 0xff, 0x70, 0x20c, 1 + 2 + 3 * 6 + 3 + 4 + 3 + 4 + 6] ∧
    (steps 16 prog).mem 0x40 = 21 ∧ (steps 16 prog).mem 0x50 = 0x12 ∧ (steps 16 prog).mem 0x51 = 0x34 := by decide +kernel
example : Live prog ∧ ∀ k, k < 16 → ¬ Isa.Differs (abs (steps k prog)) (opnd (steps k prog)) (here (steps k prog)) := by decide +kernel

/-- The hypotheses of the `upto` theorems. -/
example : here (demo false 0 0 0 0 (bytes 0x200 [0x83])) = .swi := by decide +kernel
example : here (demo true 0 0 0 0 (bytes 0x200 [0x8e])) = .stop := by decide +kernel
example : here (demo true 0 0 0 0 (bytes 0x200 [0x9c])) = .rsp := by decide +kernel
example : here (demo false 0 0 0 0 (bytes 0x200 [0x32])) = .other ∧ here (demo true 0 0 0 0 (bytes 0x200 [0x32])) = .ldhx .ext := by decide +kernel
example : let s := demo false 0 0 0 0 (bytes 0x200 [0x3b, 0x40, 0xfd])
    here s = .dbnz .dir ∧ ¬ (abs s).over (opnd s) .dir ∧ ¬ (abs s).leaves (opnd s + BitVec.ofNat 16 1) ((abs s).operand (opnd s) .dir - 1 != 0) ∧ ¬ (abs s).ownOffset (opnd s) .dir := by decide +kernel

/-! What is false. -/

theorem isaU (s : St) (P : Isa.Mach → Prop) (h1 : here s ≠ .div) (h2 : here s ≠ .daa) (h : P (Isa.step s.s08 u0 (abs s))) (u : Isa.Undef) :
    P (Isa.step s.s08 u (abs s)) := by rw [c100_open s.s08 u u0 (abs s) h1 h2]; exact h

/-- SWI leaves interrupts enabled. -/
theorem c100_false_swi : ∃ s : St, Live s ∧ here s = .swi ∧ (abs (step s).2).i = false ∧ ∀ u, (Isa.step s.s08 u (abs s)).i = true :=
  ⟨demo false 0 0 0 8 (bytes 0x200 [0x83]), by decide +kernel, by decide +kernel, by decide +kernel,
    isaU _ (fun m => m.i = true) (by decide +kernel) (by decide +kernel) (by decide +kernel)⟩

/-- WAIT does not wait: the instruction behind it is executed although no interrupt came. -/
theorem c100_false_wait : ∃ s : St, Live s ∧ here s = .wait ∧ (step (step s).2).2.a = 7 ∧
    ∀ u u', (Isa.step s.s08 u (Isa.step s.s08 u' (abs s))).a = 0 := by
  refine ⟨demo false 0 0 0 8 (bytes 0x200 [0x8f, 0xa6, 0x07]), by decide +kernel, by decide +kernel, by decide +kernel, ?_⟩
  intro u u'
  have h1 := isaU (demo false 0 0 0 8 (bytes 0x200 [0x8f, 0xa6, 0x07])) (fun m => m.waiting = true ∧ m.a = 0) (by decide +kernel) (by decide +kernel) (by decide +kernel) u'
  generalize Isa.step (demo false 0 0 0 8 (bytes 0x200 [0x8f, 0xa6, 0x07])).s08 u' (abs (demo false 0 0 0 8 (bytes 0x200 [0x8f, 0xa6, 0x07]))) = m at h1 ⊢
  unfold Isa.step
  rw [if_pos h1.1]; exact h1.2

/-- STOP does not stop either. -/
theorem c100_false_stop : ∃ s : St, Live s ∧ here s = .stop ∧ (abs (step s).2).waiting = false ∧ ∀ u, (Isa.step s.s08 u (abs s)).waiting = true :=
  ⟨demo true 0 0 0 8 (bytes 0x200 [0x8e]), by decide +kernel, by decide +kernel, by decide +kernel,
    isaU _ (fun m => m.waiting = true) (by decide +kernel) (by decide +kernel) (by decide +kernel)⟩

/-- RSP moves a stack that was above the first page. -/
theorem c100_false_rsp : ∃ s : St, Live s ∧ here s = .rsp ∧ (step s).2.sp = 0x00ff ∧ ∀ u, (Isa.step s.s08 u (abs s)).sp = 0x02ff :=
  ⟨{ demo false 0 0 0 0 (bytes 0x200 [0x9c]) with sp := 0x0234 }, by decide +kernel, by decide +kernel, by decide +kernel,
    isaU _ (fun m => m.sp = 0x02ff) (by decide +kernel) (by decide +kernel) (by decide +kernel)⟩

/-- DBNZA at 1 sets Z; no flag should change. -/
theorem c100_false_dbnz : ∃ s : St, Live s ∧ here s = .dbnz .A ∧ (abs (step s).2).z = true ∧ ∀ u, (Isa.step s.s08 u (abs s)).z = false :=
  ⟨demo false 1 0 0 0 (bytes 0x200 [0x4b, 0x10]), by decide +kernel, by decide +kernel, by decide +kernel,
    isaU _ (fun m => m.z = false) (by decide +kernel) (by decide +kernel) (by decide +kernel)⟩

/-- DBNZ that counts in its own offset byte branches by the new offset. -/
theorem c100_false_own : ∃ s : St, Live s ∧ here s = .dbnz .dir ∧ (step s).2.pc = 0x12 ∧ ∀ u, (Isa.step s.s08 u (abs s)).pc = 0x13 :=
  ⟨{ demo false 0 0 0 0 (bytes 0x10 [0x3b, 0x12, 0x00]) with pc := 0x10 }, by decide +kernel, by decide +kernel, by decide +kernel,
    isaU _ (fun m => m.pc = 0x13) (by decide +kernel) (by decide +kernel) (by decide +kernel)⟩

/-- STA 10,X with H:X near the end of the memory is lost; it should reach the first page. -/
theorem c100_false_store : ∃ s : St, Live s ∧ here s = .sta .ix1 ∧ (step s).2.mem = s.mem ∧ s.mem 0x0f = 0 ∧ ∀ u, (Isa.step s.s08 u (abs s)).mem 0x0f = 0x77 := by
  refine ⟨demo false 0x77 0xff 0xff 0 (bytes 0x200 [0xe7, 0x10]), by decide +kernel, by decide +kernel, rfl, by decide +kernel,
    isaU _ (fun m => m.mem 0x0f = 0x77) (by decide +kernel) (by decide +kernel) (by decide +kernel)⟩

/-- JMP 10,X with H:X near the end leaves the memory: the next opcode is not the one at 000F. -/
theorem c100_false_jmp : ∃ s : St, Live s ∧ here s = .jmp .ix1 ∧ (step s).2.pc = 0x1000f ∧ (step (step s).2).2.a = 1 ∧
    ∀ u u', (Isa.step s.s08 u (Isa.step s.s08 u' (abs s))).a = 2 := by
  refine ⟨{ demo false 1 0xff 0xff 0 (bytes 0x200 [0xec, 0x10] (bytes 0x0f [0x4c])) with dummy := 0x9d }, by decide +kernel, by decide +kernel, by decide +kernel, by decide +kernel, ?_⟩
  intro u u'
  rw [c100_open _ u' u0 _ (by decide +kernel) (by decide +kernel), c100_open _ u u0 _ (by decide +kernel) (by decide +kernel)]
  decide +kernel

/-- A branch at the beginning of the memory to an address below 0 should come to the end. -/
theorem c100_false_branch : ∃ s : St, Live s ∧ here s = .br .always true ∧ (step s).2.pc = 0xfffffff2 ∧ ∀ u, (Isa.step s.s08 u (abs s)).pc = 0xfff2 :=
  ⟨{ demo false 0 0 0 0 (bytes 0 [0x20, 0xf0]) with pc := 0 }, by decide +kernel, by decide +kernel, by decide +kernel,
    isaU _ (fun m => m.pc = 0xfff2) (by decide +kernel) (by decide +kernel) (by decide +kernel)⟩

/-! ### C101 -/

/-- Two decimal digits. -/
def bcd (n : Nat) : Byte := BitVec.ofNat 8 (n / 10 * 16 + n % 10)

/-- All sums of two decimal numbers and a carry: `hi` tens and `lo` ones. -/
theorem daa_sums : ∀ (hi : Fin 19) (lo : Fin 20),
    let t := 16 * hi.val + lo.val
    let r : Byte := BitVec.ofNat 8 t
    ((Isa.daaTable (decide (256 ≤ t)) (decide (16 ≤ lo.val)) r).map fun k => (r + k.1, k.2)) =
      some (bcd ((10 * hi.val + lo.val) % 100), decide (100 ≤ 10 * hi.val + lo.val)) ∧
    (decide (256 ≤ t) = true ∨ decide (16 ≤ lo.val) = false ∨ 16 ≤ r.toNat) := by decide +kernel

theorem bcd_toNat (x : Nat) (h : x < 100) : (bcd x).toNat = 16 * (x / 10) + x % 10 := by
  unfold bcd; rw [BitVec.toNat_ofNat]; omega

theorem daa_add (x y : Nat) (c : Bool) (hx : x < 100) (hy : y < 100) :
    let t := (bcd x).toNat + (bcd y).toNat + c.toNat
    let r : Byte := BitVec.ofNat 8 t
    let hc := decide (16 ≤ (bcd x).toNat % 16 + (bcd y).toNat % 16 + c.toNat)
    ((Isa.daaTable (decide (256 ≤ t)) hc r).map fun k => (r + k.1, k.2)) =
      some (bcd ((x + y + c.toNat) % 100), decide (100 ≤ x + y + c.toNat)) ∧
    (decide (256 ≤ t) = true ∨ hc = false ∨ 16 ≤ r.toNat) := by
  have hc1 : c.toNat ≤ 1 := by cases c <;> decide
  have e1 := bcd_toNat x hx
  have e2 := bcd_toNat y hy
  have m1 : (bcd x).toNat % 16 = x % 10 := by omega
  have m2 : (bcd y).toNat % 16 = y % 10 := by omega
  have h := daa_sums ⟨x / 10 + y / 10, by omega⟩ ⟨x % 10 + y % 10 + c.toNat, by omega⟩
  simp only at h ⊢
  rw [m1, m2, e1, e2]
  have q1 : 16 * (x / 10) + x % 10 + (16 * (y / 10) + y % 10) + c.toNat = 16 * (x / 10 + y / 10) + (x % 10 + y % 10 + c.toNat) := by omega
  have q2 : x + y + c.toNat = 10 * (x / 10 + y / 10) + (x % 10 + y % 10 + c.toNat) := by omega
  rw [q1, q2]
  exact h

/-- The manual's DAA does it: for ADD or ADC of any two decimal numbers. -/
theorem c101_manual (m : Isa.Mach) (x y : Nat) (c : Bool) (u : Isa.Undef) (hx : x < 100) (hy : y < 100) (ha : m.a = bcd x) :
    (Isa.Mach.daa u (m.addc (bcd y) c)).a = bcd ((x + y + c.toNat) % 100) ∧
    (Isa.Mach.daa u (m.addc (bcd y) c)).c = decide (100 ≤ x + y + c.toNat) := by
  have h := (daa_add x y c hx hy).1
  unfold Isa.Mach.addc Isa.Mach.daa
  simp only [Isa.Mach.nz] at h ⊢
  rw [ha]
  revert h
  generalize Isa.daaTable _ _ _ = o
  cases o with
  | none => intro h; cases h
  | some k => intro h; injection h with h; exact ⟨congrArg Prod.fst h, congrArg Prod.snd h⟩

/-- **C101**: in the simulator the carry after DAA is right, so that numbers of several digits
carry to the next; the digits in A are not corrected, nor N and Z. -/
theorem c101_daa_partial (s : St) (h : Live s) (hi : here s = .daa) (m : Isa.Mach) (x y : Nat) (c : Bool) (hx : x < 100) (hy : y < 100)
    (ha : m.a = bcd x) (hs : (abs s).a = (m.addc (bcd y) c).a ∧ (abs s).c = (m.addc (bcd y) c).c ∧ (abs s).hc = (m.addc (bcd y) c).hc) :
    (step s).1 = .go ∧ abs (step s).2 = { abs s with c := decide (100 ≤ x + y + c.toNat), pc := opnd s } ∧ Live (step s).2 := by
  obtain ⟨m1, m2⟩ := daa_add x y c hx hy
  obtain ⟨a1, a2, a3⟩ := hs
  have e1 : (m.addc (bcd y) c).a = BitVec.ofNat 8 ((bcd x).toNat + (bcd y).toNat + c.toNat) := by rw [← ha]; rfl
  have e2 : (m.addc (bcd y) c).c = decide (256 ≤ (bcd x).toNat + (bcd y).toNat + c.toNat) := by rw [← ha]; rfl
  have e3 : (m.addc (bcd y) c).hc = decide (16 ≤ (bcd x).toNat % 16 + (bcd y).toNat % 16 + c.toNat) := by rw [← ha]; rfl
  rw [e1] at a1
  rw [e2] at a2
  rw [e3] at a3
  rw [← a1, ← a2, ← a3] at m1 m2
  cases hk : Isa.daaTable (abs s).c (abs s).hc (abs s).a with
  | none => rw [hk] at m1; cases m1
  | some k =>
    rw [hk] at m1
    have m3 : k.2 = decide (100 ≤ x + y + c.toNat) := by injection m1 with m1; exact congrArg Prod.snd m1
    have := daa_upto s h hi k hk m2
    rw [m3] at this
    exact this

/-- 15 + 27: LDA #15; ADD #27; DAA leaves 3C. -/
theorem c101_false_digits : ∃ s : St, Live s ∧ (step (step s).2).1 = .go ∧ here (steps 2 s) = .daa ∧
    (steps 3 s).a = 0x3c ∧ bcd (15 + 27) = 0x42 :=
  ⟨demo false 0 0 0 0 (bytes 0x200 [0xa6, 0x15, 0xab, 0x27, 0x72]), by decide +kernel, by decide +kernel, by decide +kernel, by decide +kernel, by decide⟩

/-- The hypotheses of c101_daa_partial hold after that ADD. -/
example : let s := steps 2 (demo false 0 0 0 0 (bytes 0x200 [0xa6, 0x95, 0xab, 0x27, 0x72]))
    Live s ∧ here s = .daa ∧ (abs s).a = ((abs { s with a := bcd 95 }).addc (bcd 27) false).a ∧
    (abs s).c = ((abs { s with a := bcd 95 }).addc (bcd 27) false).c ∧ (abs s).hc = ((abs { s with a := bcd 95 }).addc (bcd 27) false).hc ∧ (abs (step s).2).c = true := by decide +kernel

/-! ### C102 -/

/-- Instructions that do not take the time of the HCS08 manual. -/
def OffS08 : Isa.Ins → Bool
  | .rmw .neg k | .rmw .com k | .rmw .clr k => k ≠ .A ∧ k ≠ .X
  | .ldhx k => k = .ext ∨ k = .ix2
  | .sthx k => k = .ext
  | .cphx k => k = .ext ∨ k = .imm
  | .dbnz k => k = .A ∨ k = .X
  | .stop | .wait | .txs | .tsx | .ais | .bsr => true
  | .sta k | .stx k => k = .ix
  | _ => false

/-- Instructions that do not take the time of the CPU08 manual. -/
def Off08 : Isa.Ins → Bool
  | .setbit .. | .div | .nsa | .daa | .rti | .rts | .swi | .tap | .pul _ | .txs | .tsx | .cli | .sei | .ais | .cphx _ => true
  | .rmw .neg _ | .rmw .com _ => false
  | .rmw _ k => k ≠ .A ∧ k ≠ .X
  | .dbnz k => k ≠ .A ∧ k ≠ .X
  | .mov k => k = .dix ∨ k = .ixd
  | .cbeq k => k = .ix
  | .jmp k | .jsr k => k = .dir ∨ k = .ext ∨ k = .ix
  | .alu _ k | .sta k | .stx k => k = .ix
  | _ => false

theorem step_ticks (s : St) (h : Live s) (hg : (step s).1 = .go) :
    (step s).2.ticks = s.ticks + ((fetched s).2.2.2 + fnC (fetched s).1 (fetched s).2.1) := by
  have hg' : (execInst s).1 = .go := hg
  obtain ⟨-, e⟩ := step_go s hg'
  rw [e, execInst_fr s h, exec_ticks]
  · show s.ticks + _ + _ = _; rw [Nat.add_assoc]
  · rw [execInst_fr s h] at hg'; exact hg'

theorem costS08 : ∀ c : Byte, (Isa.decode true c ≠ .other → ((1 + fnC (select c) c = Isa.cyclesS08 (Isa.decode true c)) ↔ OffS08 (Isa.decode true c) = false)) ∧
    (Isa.decode9e true c ≠ .other → ((2 + fnC (select9e c) c = Isa.cyclesS08 (Isa.decode9e true c)) ↔ OffS08 (Isa.decode9e true c) = false)) := by decide +kernel
theorem cost08 : ∀ c : Byte, (Isa.decode false c ≠ .other → ((1 + fnC (select c) c = Isa.cycles08 (Isa.decode false c)) ↔ Off08 (Isa.decode false c) = false)) ∧
    (Isa.decode9e false c ≠ .other → ((2 + fnC (select9e c) c = Isa.cycles08 (Isa.decode9e false c)) ↔ Off08 (Isa.decode9e false c) = false)) := by decide +kernel

/-- **C102**, HCS08: the clock advances by the cycles of the manual, exactly for the instructions
not in the list; the same whether a branch is taken or not. -/
theorem c102_hcs08_partial (s : St) (h : Live s) (h8 : s.s08 = true) (hg : (step s).1 = .go) (ho : here s ≠ .other) :
    (step s).2.ticks = s.ticks + Isa.cyclesS08 (here s) ↔ OffS08 (here s) = false := by
  rw [step_ticks s h hg]
  have k : (s.ticks + ((fetched s).2.2.2 + fnC (fetched s).1 (fetched s).2.1) = s.ticks + Isa.cyclesS08 (here s)) ↔
      (fetched s).2.2.2 + fnC (fetched s).1 (fetched s).2.1 = Isa.cyclesS08 (here s) := by omega
  rw [k]
  unfold here Isa.Mach.fetch at ho ⊢
  unfold fetched
  rw [h8] at ho ⊢
  by_cases hp : (abs s).mem (abs s).pc = 0x9e#8
  · simp only [if_pos hp] at ho ⊢; exact (costS08 _).2 ho
  · simp only [if_neg hp] at ho ⊢; exact (costS08 _).1 ho

/-- **C102**, M68HC08. -/
theorem c102_hc08_partial (s : St) (h : Live s) (h8 : s.s08 = false) (hg : (step s).1 = .go) (ho : here s ≠ .other) :
    (step s).2.ticks = s.ticks + Isa.cycles08 (here s) ↔ Off08 (here s) = false := by
  rw [step_ticks s h hg]
  have k : (s.ticks + ((fetched s).2.2.2 + fnC (fetched s).1 (fetched s).2.1) = s.ticks + Isa.cycles08 (here s)) ↔
      (fetched s).2.2.2 + fnC (fetched s).1 (fetched s).2.1 = Isa.cycles08 (here s) := by omega
  rw [k]
  unfold here Isa.Mach.fetch at ho ⊢
  unfold fetched
  rw [h8] at ho ⊢
  by_cases hp : (abs s).mem (abs s).pc = 0x9e#8
  · simp only [if_pos hp] at ho ⊢; exact (cost08 _).2 ho
  · simp only [if_neg hp] at ho ⊢; exact (cost08 _).1 ho

/-- LDA ,X: 2 cycles on the M68HC08, the simulator counts 3 (the HCS08's). -/
theorem c102_false_hc08 : ∃ s : St, Live s ∧ s.s08 = false ∧ (step s).1 = .go ∧ here s = .alu .lda .ix ∧ Isa.cycles08 (here s) = 2 ∧ (step s).2.ticks = s.ticks + 3 :=
  ⟨demo false 0 0 0 0 (bytes 0x200 [0xf6]), by decide +kernel, rfl, by decide +kernel, by decide +kernel, by decide +kernel, by decide +kernel⟩

/-- CPHX #: 3 cycles on the HCS08, the simulator counts 5. -/
theorem c102_false_hcs08 : ∃ s : St, Live s ∧ s.s08 = true ∧ (step s).1 = .go ∧ here s = .cphx .imm ∧ Isa.cyclesS08 (here s) = 3 ∧ (step s).2.ticks = s.ticks + 5 :=
  ⟨demo true 0 0 0 0 (bytes 0x200 [0x65, 0, 0]), by decide +kernel, rfl, by decide +kernel, by decide +kernel, by decide +kernel, by decide +kernel⟩

/-- The theorems apply to each instruction of the sample program. -/
example : ∀ k, k < 16 → Live (steps k prog) ∧ (step (steps k prog)).1 = .go ∧ here (steps k prog) ≠ .other := by decide +kernel

/-! ### C103 -/

/-- **C103**: reset clears A, H, X and the flags, sets SP to 00FF and the clock to 0 and keeps the memory; the
next step takes no time and only loads PC from the vector at FFFE as it is then, whatever PC was
set to in between. -/
theorem c103_reset_partial (s : St) (p : Nat) (m : Word → Byte) :
    let r := reset s
    (r.a = 0 ∧ r.h = 0 ∧ r.x = 0 ∧ r.p = 0x60 ∧ r.sp = 0x00ff ∧ r.mem = s.mem ∧ r.ticks = 0) ∧
    step { r with pc := p, mem := m } = (.go, { r with mem := m, pc := (m 0xfffe ++ m 0xffff).toNat, vector := false }) ∧
    Live (step { r with pc := p, mem := m }).2 := by
  have e : step { reset s with pc := p, mem := m } = (.go, { reset s with mem := m, pc := (m 0xfffe ++ m 0xffff).toNat, vector := false }) := by
    have g : get2 { reset s with pc := p, mem := m } 0xfffe = (m 0xfffe ++ m 0xffff).toNat := by
      rw [show (0xfffe : Nat) = (0xfffe#16 : Word).toNat from rfl, get2_eq]
      rfl
    have ex : ∀ X : St, X.vector = true → step X = (.go, { X with pc := get2 X 0xfffe, vector := false }) := by
      intro X hX
      unfold step execInst
      rw [if_pos hX]; rfl
    rw [ex _ rfl, g]
  refine ⟨⟨rfl, rfl, rfl, rfl, rfl, rfl, rfl⟩, e, ?_⟩
  rw [e]
  exact ⟨(m 0xfffe ++ m 0xffff).isLt, by show (0x60#8 : Byte) &&& 0x60#8 = 0x60#8; decide, rfl⟩

/-- Interrupts are enabled after reset; the manual says I is set. -/
theorem c103_false_mask (s : St) : (abs (reset s)).i = false := by
  have h : ∀ X : St, X.p = 0x60#8 → (abs X).i = false := by intro X h; show X.p.getLsbD 3 = false; rw [h]; decide
  exact h _ rfl

/-- A PC set by the user after reset is lost: the first step goes to the vector. -/
theorem c103_false_pc : ∃ s : St, (step { reset s with pc := 0x200 }).2.pc = 0x1234 ∧ (step { reset s with pc := 0x200 }).2.a = 0 ∧ s.mem 0x200 = 0x4c :=
  ⟨demo false 0 0 0 0 (bytes 0x200 [0x4c] (bytes 0xfffe [0x12, 0x34])), by decide +kernel, by decide +kernel, by decide +kernel⟩

end Ucsim.H08
