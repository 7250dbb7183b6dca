import Verif.Pb.Proofs
set_option linter.constructorNameAsVariable false
/-
C160, C161: cases that meet the hypotheses, and where the simulator does not do as the guides say.
-/
namespace Ucsim.Pb

/-- a program from a list of address and instruction -/
def progOf (l : List (Nat × I)) (a : Nat) : Option I := (l.find? fun p => p.1 == a).map (·.2)
def romOf (e : Env) (l : List (Nat × I)) (a : Nat) : BitVec 18 :=
  match (progOf l a).bind (encE e) with
  | some (o, r) => o ++ r
  | none => 0

theorem progOf_mem (l : List (Nat × I)) (a : Nat) (i : I) (h : progOf l a = some i) : (a, i) ∈ l := by
  unfold progOf at h
  simp only [Option.map_eq_some_iff] at h
  obtain ⟨⟨b, j⟩, h1, h2⟩ := h
  have h3 := List.mem_of_find?_eq_some h1
  have h4 := List.find?_some h1
  simp at h4 h2
  subst h4 h2; exact h3

theorem loaded_of (e : Env) (m : M) (l : List (Nat × I)) (hl : (l.all fun p => (encE e p.2).isSome) = true) (hm : m.rom = romOf e l) :
    Loaded e m (progOf l) := by
  intro a i h
  have h1 := List.all_eq_true.mp hl _ (progOf_mem l a i h)
  obtain ⟨⟨o, r⟩, ho⟩ := Option.isSome_iff_exists.mp h1
  refine ⟨o, r, ho, ?_⟩
  rw [hm]; simp [romOf, h, ho]

/-- KCPSM6 and KCPSM3 with a scratch pad of 64 places; port p gives p + 1 -/
def ex6 : Env := { six := true, ramSize := 64, hwc := 0x41, inp := fun p _ => p + 1 }
def ex3 : Env := { ex6 with six := false }

def mach (e : Env) (l : List (Nat × I)) (pc : Nat) : M where
  reg := fun b x => if b then 0 else x.setWidth 8
  bank := false
  C := false
  Z := true
  IE := true
  sC := false
  sZ := false
  irq := true
  sp := 0
  stk := fun _ => 0
  ram := fun a => a
  PC := pc
  rom := romOf e l
  out := []
  clocks := 0
  dummy := 0xAA

/-- a subroutine that doubles s1 and goes on with the carry -/
def exProg : List (Nat × I) := [(0, .alu .load 1 (.k 0x92)), (1, .call .always 0x20), (2, .output 1 (.k 7)), (3, .jump .c 0),
  (0x20, .shf .sl0 1), (0x21, .alu .addcy 1 (.r 2)), (0x22, .ret .nz), (0x23, .ret .always)]

theorem ex_plain (e : Env) (s : S) (a : Nat) (i : I) (h : progOf exProg a = some i) : Plain e s i := by
  have h1 := progOf_mem exProg a i h
  simp [exProg] at h1
  rcases h1 with ⟨_, rfl⟩ | ⟨_, rfl⟩ | ⟨_, rfl⟩ | ⟨_, rfl⟩ | ⟨_, rfl⟩ | ⟨_, rfl⟩ | ⟨_, rfl⟩ | ⟨_, rfl⟩ <;> trivial

theorem ex_pc (e : Env) (m : M) (n : Nat) (h : ((List.range n).all fun k => (srun e (progOf exProg) k (view m)).all fun s => decide (s.PC < 1023)) = true)
    (k : Nat) (hk : k < n) (s : S) (hs : srun e (progOf exProg) k (view m) = some s) : s.PC < 1023 := by
  have := List.all_eq_true.mp h k (by simpa using hk)
  rw [hs] at this; simpa using this

example : ∃ s', srun ex6 (progOf exProg) 7 (view (mach ex6 exProg 0)) = some s' ∧ view (run ex6 7 (mach ex6 exProg 0)) = s' ∧
    s'.out = [(7, 0x27)] ∧ s'.PC = 4 := by
  have h : (srun ex6 (progOf exProg) 7 (view (mach ex6 exProg 0))).isSome = true := by decide +kernel
  obtain ⟨s', hs⟩ := Option.isSome_iff_exists.mp h
  refine ⟨s', hs, ?_, ?_, ?_⟩
  · refine c160_program_partial ex6 (progOf exProg) 7 _ (loaded_of ex6 _ exProg (by decide +kernel) rfl) (by decide) ?_ s' hs
    intro k hk s hks
    exact ⟨ex_pc ex6 _ 7 (by decide +kernel) k hk s hks, fun i hi => ex_plain ex6 s _ i hi⟩
  · have : (srun ex6 (progOf exProg) 7 (view (mach ex6 exProg 0))).map S.out = some [(7, 0x27)] := by decide +kernel
    rw [hs] at this; simpa using this
  · have : (srun ex6 (progOf exProg) 7 (view (mach ex6 exProg 0))).map S.PC = some 4 := by decide +kernel
    rw [hs] at this; simpa using this

example : ∃ s', srun ex3 (progOf exProg) 7 (view (mach ex3 exProg 0)) = some s' ∧ view (run ex3 7 (mach ex3 exProg 0)) = s' := by
  have h : (srun ex3 (progOf exProg) 7 (view (mach ex3 exProg 0))).isSome = true := by decide +kernel
  obtain ⟨s', hs⟩ := Option.isSome_iff_exists.mp h
  refine ⟨s', hs, ?_⟩
  refine c160_program_partial ex3 (progOf exProg) 7 _ (loaded_of ex3 _ exProg (by decide +kernel) rfl) (by decide) ?_ s' hs
  intro k hk s hks
  exact ⟨ex_pc ex3 _ 7 (by decide +kernel) k hk s hks, fun i hi => ex_plain ex3 s _ i hi⟩

/-- "the simulator does this instruction as the guide says", looked at through f -/
def Differs {α : Type} (e : Env) (m : M) (l : List (Nat × I)) (f : S → α) : Prop :=
  Loaded e m (progOf l) ∧ ∃ s', sstep e (progOf l) (view m) = some s' ∧ f (view (step e m)) ≠ f s'

theorem differs_of {α : Type} [DecidableEq α] (e : Env) (l : List (Nat × I)) (pc : Nat) (g : M → M) (hg : (g (mach e l pc)).rom = (mach e l pc).rom) (f : S → α)
    (hl : (l.all fun p => (encE e p.2).isSome) = true)
    (h : ((sstep e (progOf l) (view (g (mach e l pc)))).any fun s => decide (f (view (step e (g (mach e l pc)))) ≠ f s)) = true) :
    Differs e (g (mach e l pc)) l f := by
  refine ⟨loaded_of e _ l hl (by rw [hg]; rfl), ?_⟩
  cases hs : sstep e (progOf l) (view (g (mach e l pc))) with
  | none => simp [hs] at h
  | some s => exact ⟨s, rfl, by simpa [hs] using h⟩

/-- C160: a program of KCPSM6 does not run on from one place to the next above 0x3FF -/
theorem c160_above_false : ∃ m l, m.PC = 0x400 ∧ Differs ex6 m l S.PC :=
  ⟨_, [(0x400, .alu .load 0 (.k 1))], rfl, differs_of ex6 _ 0x400 id rfl S.PC (by decide +kernel) (by decide +kernel)⟩
/-- C160: STAR s1,s2 leaves s1 of the other bank as it was -/
theorem c160_star_false : ∃ m, Differs ex6 m [(0, .star 1 2)] (fun s => s.reg true 1) :=
  ⟨_, differs_of ex6 _ 0 id rfl _ (by decide +kernel) (by decide +kernel)⟩
/-- C160: OUTPUTK puts out the upper four bits of its constant only -/
theorem c160_outputk_false : ∃ m, Differs ex6 m [(0, .outputk 0x12 3)] S.out :=
  ⟨_, differs_of ex6 _ 0 id rfl _ (by decide +kernel) (by decide +kernel)⟩
/-- C160: an address beyond the scratch pad does not wrap -/
theorem c160_scratch_false : ∃ m, Differs ex6 m [(0, .fetch 1 (.k 0x41))] (fun s => s.reg false 1) :=
  ⟨_, differs_of ex6 _ 0 id rfl _ (by decide +kernel) (by decide +kernel)⟩
/-- C160: COMPARECY of 0 and 0xFF with the carry is not taken for equal -/
theorem c160_comparecy_false : ∃ m, Differs ex6 m [(0, .tst .comparecy 0 (.k 0xFF))] S.Z :=
  ⟨_, differs_of ex6 _ 0 (fun m => { m with C := true }) rfl _ (by decide +kernel) (by decide +kernel)⟩
/-- C160: RETURN from a subroutine that has been called at 0x3FF goes to 0x1000 -/
theorem c160_last_false : ∃ m, Differs ex3 m [(0x3FF, .call .always 0x20)] S.stack :=
  ⟨_, differs_of ex3 _ 0x3FF id rfl _ (by decide +kernel) (by decide +kernel)⟩

/-- C161: an interrupt before the instruction at 0 comes back to 0x1000 -/
theorem c161_zero_false : ∃ m : M, m.PC = 0 ∧ m.IE = true ∧ m.irq = true ∧ (view (interrupt ex6 m)).stack = [0x1000] ∧
    (accept (view m)).map S.stack = some [0] :=
  ⟨mach ex6 [] 0, by decide +kernel⟩

/-- an interrupt after the first instruction, and a routine that counts in s3 and comes back -/
def exInt : List (Nat × I) := [(0x3FE, .reti true), (0x3FF, .jump .always 0x3FE)]

example : let m := mach ex6 exInt 5
    (∃ s', accept (view m) = some s' ∧ view (interrupt ex6 m) = s') ∧
    (step ex6 (step ex6 (interrupt ex6 m))).PC = 5 := by
  intro m
  have h : (accept (view m)).isSome = true := by decide +kernel
  obtain ⟨s', hs⟩ := Option.isSome_iff_exists.mp h
  refine ⟨⟨s', hs, (c161_accept_partial ex6 m (by decide) (by decide) (by decide) s' hs).1⟩, ?_⟩
  exact (c161_back_partial ex6 m (step ex6 (interrupt ex6 m)) (by decide) (by decide) (by decide) s' hs (progOf exInt) true
    (loaded_of ex6 _ exInt (by decide +kernel) ((rom_step _ _).trans (rom_interrupt _ _))) (by decide +kernel) (by decide +kernel) (by decide +kernel) (by decide +kernel)
    (by decide +kernel)).1

end Ucsim.Pb
