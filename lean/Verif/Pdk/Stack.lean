import Verif.Pdk.Logic
/-
Calls, returns, push and pop of the PDK processors to any depth; the cycles; jumps.
-/
namespace Ucsim.Pdk

section
variable {v : Var} {id : Nat} {c : Cpu} {s : Sh} {k m : Nat}

/-- one instruction -/
def stepOf (v : Var) (id : Nat) (p : Cpu × Sh) : Cpu × Sh := ((step v id p.1 p.2).cpu, (step v id p.1 p.2).sh)

/-- the instruction the program counter is at -/
def At (v : Var) (p : Cpu × Sh) (f : Form) (args : List Nat) : Prop := Enc v (p.2.rom p.1.PC) f args

theorem jump_lt (h : Enc v (s.rom c.PC) .call [k] ∨ Enc v (s.rom c.PC) .goto [k]) : k < 4096 := by
  have : (s.rom c.PC &&& jMask v).toNat = k := by
    rcases h with h | h <;> exact arg1 h rfl
  rw [← this]
  have h2 : (s.rom c.PC).toNat &&& (jMask v).toNat ≤ (jMask v).toNat := Nat.and_le_right
  cases v <;> simp [jMask] at h2 ⊢ <;> omega

theorem call_step (h : Enc v (s.rom c.PC) .call [k]) :
    step v id c s = ⟨{ c with SP := c.SP + 2, PC := k },
      { s with ram := upd (upd s.ram c.SP.toNat (BitVec.ofNat 8 (nextPC c.PC))) (c.SP.toNat + 1) (BitVec.ofNat 8 (nextPC c.PC / 256)) }, 2, true⟩ := by
  have hk := arg1 (w := jMask v) h rfl
  rw [step_enc h]; simp only [run, hk, wr8]

/-- ret, and ret k -/
def isRet (f : Form) (args : List Nat) : Prop := (f = .ret ∧ args = []) ∨ (f = .retk ∧ ∃ k, args = [k])

/-- A after a return with these operands -/
def retVal : List Nat → Byte → Byte
  | [k], _ => BitVec.ofNat 8 k
  | _, a => a

theorem ret_step {f : Form} {args : List Nat} (hf : isRet f args) (h : Enc v (s.rom c.PC) f args) :
    (step v id c s).cpu.SP = c.SP - 2 ∧ (step v id c s).sh = s ∧ (step v id c s).cpu.F = c.F ∧
    (step v id c s).cpu.PC = (s.ram (c.SP - 2).toNat).toNat + 256 * (s.ram ((c.SP - 2).toNat + 1)).toNat ∧
    (step v id c s).cpu.A = retVal args c.A := by
  rcases hf with ⟨rfl, rfl⟩ | ⟨rfl, k, rfl⟩
  · rw [step_enc h]; simp only [run, retVal, and_self]
  · have hk := argk h rfl
    rw [step_enc h]; simp only [run, hk, retVal, and_self]

theorem push_step (h : Enc v (s.rom c.PC) .pushaf []) :
    step v id c s = ⟨{ c with SP := c.SP + 2, PC := nextPC c.PC },
      { s with ram := upd (upd s.ram c.SP.toNat c.A) (c.SP.toNat + 1) c.F }, 1, true⟩ := by
  rw [step_enc h]; simp only [run, wr8]

theorem pop_step (hsp : 2 ≤ c.SP.toNat) (h : Enc v (s.rom c.PC) .popaf []) :
    step v id c s = ⟨{ A := s.ram (c.SP.toNat - 2), F := s.ram (c.SP.toNat - 1), SP := c.SP - 2, PC := nextPC c.PC }, s, 1, true⟩ := by
  have hlt := c.SP.isLt
  have e1 : (c.SP - 1).toNat = c.SP.toNat - 1 := by simp [BitVec.toNat_sub]; omega
  have e2 : c.SP - 1 - 1 = c.SP - 2 := by
    apply BitVec.eq_of_toNat_eq; simp [BitVec.toNat_sub]; omega
  have e3 : (c.SP - 2).toNat = c.SP.toNat - 2 := by simp [BitVec.toNat_sub]; omega
  rw [step_enc h]
  cases v
  · have f1 : (c.SP.toNat + (2 ^ 32 - 1)) % 2 ^ 32 = c.SP.toNat - 1 := by omega
    have f2 : (c.SP.toNat + (2 ^ 32 - 2)) % 2 ^ 32 = c.SP.toNat - 2 := by omega
    simp only [run, f1, f2, if_true]
  · simp only [run, e2, e1, e3]; rfl
  · simp only [run, e2, e1, e3]; rfl

/-- A balanced piece of an execution, from one state to another: plain instructions that keep SP and
write no memory below it, subroutines (call, a balanced body, ret or ret k), and pushaf, a balanced
body, popaf. There is room on the stack: SP does not wrap around. -/
inductive Bal (v : Var) (id : Nat) : Cpu × Sh → Cpu × Sh → Prop
  | done (p) : Bal v id p p
  | plain (p q) (hsp : (stepOf v id p).1.SP = p.1.SP) (hram : ∀ a, a < p.1.SP.toNat → (stepOf v id p).2.ram a = p.2.ram a)
      (hb : Bal v id (stepOf v id p) q) : Bal v id p q
  | sub (p q r) (k f args) (hroom : p.1.SP.toNat ≤ 253) (hc : At v p .call [k]) (hb : Bal v id (stepOf v id p) q)
      (hf : isRet f args) (hr : At v q f args) (hrest : Bal v id (stepOf v id q) r) : Bal v id p r
  | push (p q r) (hroom : p.1.SP.toNat ≤ 253) (hc : At v p .pushaf []) (hb : Bal v id (stepOf v id p) q)
      (hr : At v q .popaf []) (hrest : Bal v id (stepOf v id q) r) : Bal v id p r

theorem sp_add (x : Byte) (h : x.toNat ≤ 253) : (x + 2).toNat = x.toNat + 2 := by
  simp [BitVec.toNat_add]; omega

theorem sp_back (x : Byte) : x + 2 - 2 = x := by
  apply BitVec.eq_of_toNat_eq; have := x.isLt; simp [BitVec.toNat_sub, BitVec.toNat_add]; omega

/-- C141, the invariant: a balanced piece gives SP back and leaves the memory below it alone -/
theorem c141_balanced {p q : Cpu × Sh} (h : Bal v id p q) :
    q.1.SP = p.1.SP ∧ ∀ a, a < p.1.SP.toNat → q.2.ram a = p.2.ram a := by
  induction h with
  | done p => exact ⟨rfl, fun _ _ => rfl⟩
  | plain p q hsp hram _ ih =>
    exact ⟨ih.1.trans hsp, fun a ha => (ih.2 a (by rw [hsp]; exact ha)).trans (hram a ha)⟩
  | sub p q r k f args hroom hc _ hf hr _ ih1 ih2 =>
    have e := call_step (v := v) (id := id) hc
    obtain ⟨r1, r2, _, _, _⟩ := ret_step (id := id) hf hr
    have q1 : q.1.SP = p.1.SP + 2 := by rw [ih1.1]; simp only [stepOf, e]
    have q2 : (stepOf v id q).1.SP = p.1.SP := by
      simp only [stepOf, r1, q1, sp_back]
    refine ⟨ih2.1.trans q2, fun a ha => ?_⟩
    rw [ih2.2 a (by rw [q2]; exact ha)]
    show (step v id q.1 q.2).sh.ram a = _
    rw [r2, ih1.2 a (by simp only [stepOf, e, sp_add _ hroom]; omega)]
    simp only [stepOf, e, upd]
    rw [if_neg (by omega), if_neg (by omega)]
  | push p q r hroom hc _ hr _ ih1 ih2 =>
    have e := push_step (v := v) (id := id) hc
    have q1 : q.1.SP = p.1.SP + 2 := by rw [ih1.1]; simp only [stepOf, e]
    have r1 := pop_step (v := v) (id := id) (by rw [q1, sp_add _ hroom]; omega) hr
    have q2 : (stepOf v id q).1.SP = p.1.SP := by
      simp only [stepOf, r1, q1, sp_back]
    refine ⟨ih2.1.trans q2, fun a ha => ?_⟩
    rw [ih2.2 a (by rw [q2]; exact ha)]
    show (step v id q.1 q.2).sh.ram a = _
    rw [r1]
    show q.2.ram a = _
    rw [ih1.2 a (by simp only [stepOf, e, sp_add _ hroom]; omega)]
    simp only [stepOf, e, upd]
    rw [if_neg (by omega), if_neg (by omega)]

/-- C141: a subroutine with any balanced body, calls in it to any depth, comes back to the instruction
after the call, with SP as before; ret keeps A, ret k gives k in A. What is missing: a stack that wraps
around, see c141_false. -/
theorem c141_call_ret_partial {p q : Cpu × Sh} {f : Form} {args : List Nat} (hroom : p.1.SP.toNat ≤ 253)
    (hc : At v p .call [k]) (hb : Bal v id (stepOf v id p) q) (hf : isRet f args) (hr : At v q f args) :
    (stepOf v id p).1.PC = k ∧ (stepOf v id q).1.PC = nextPC p.1.PC ∧ (stepOf v id q).1.SP = p.1.SP ∧
    (stepOf v id q).1.A = retVal args q.1.A ∧ (stepOf v id q).1.F = q.1.F := by
  have e := call_step (v := v) (id := id) hc
  obtain ⟨r1, r2, r3, r4, r5⟩ := ret_step (id := id) hf hr
  have ih := c141_balanced hb
  have q1 : q.1.SP = p.1.SP + 2 := by rw [ih.1]; simp only [stepOf, e]
  refine ⟨by simp only [stepOf, e], ?_, by simp only [stepOf, r1, q1, sp_back], r5, r3⟩
  show (step v id q.1 q.2).cpu.PC = _
  rw [r4, q1, sp_back, ih.2 _ (by simp only [stepOf, e, sp_add _ hroom]; omega), ih.2 _ (by simp only [stepOf, e, sp_add _ hroom]; omega)]
  simp only [stepOf, e, upd]
  rw [if_neg (by omega)]
  simp only [if_true]
  have : nextPC p.1.PC < 4096 := Nat.mod_lt _ (by decide)
  generalize nextPC p.1.PC = x at *
  simp
  omega

/-- C141: popaf after a balanced body gives back A and F as pushaf found them -/
theorem c141_push_pop_partial {p q : Cpu × Sh} (hroom : p.1.SP.toNat ≤ 253) (hc : At v p .pushaf [])
    (hb : Bal v id (stepOf v id p) q) (hr : At v q .popaf []) :
    (stepOf v id q).1.A = p.1.A ∧ (stepOf v id q).1.F = p.1.F ∧ (stepOf v id q).1.SP = p.1.SP ∧
    (stepOf v id q).1.PC = nextPC q.1.PC := by
  have e := push_step (v := v) (id := id) hc
  have ih := c141_balanced hb
  have q1 : q.1.SP = p.1.SP + 2 := by rw [ih.1]; simp only [stepOf, e]
  have q3 : q.1.SP.toNat = p.1.SP.toNat + 2 := by rw [q1, sp_add _ hroom]
  have r1 := pop_step (v := v) (id := id) (by omega) hr
  have m1 := ih.2 p.1.SP.toNat (by simp only [stepOf, e, sp_add _ hroom]; omega)
  have m2 := ih.2 (p.1.SP.toNat + 1) (by simp only [stepOf, e, sp_add _ hroom]; omega)
  simp only [stepOf, e, upd, if_true] at m1 m2
  rw [if_neg (by omega)] at m1
  refine ⟨?_, ?_, by simp only [stepOf, r1, q1, sp_back], by simp only [stepOf, r1]⟩
  · simp only [stepOf, r1]
    rw [show q.1.SP.toNat - 2 = p.1.SP.toNat by omega]; exact m1
  · simp only [stepOf, r1]
    rw [show q.1.SP.toNat - 1 = p.1.SP.toNat + 1 by omega]; exact m2

end

/-- C141 is false where SP is 255: pushaf and popaf, one after the other, lose F -/
theorem c141_false :
    Enc .p15 0x0072 .pushaf [] ∧ Enc .p15 0x0073 .popaf [] ∧
    (let s := { exSh 0x0072 0 with rom := fun a => if a = 8 then 0x0073 else 0x0072 }
     (stepN .p15 0 2 (exCpu 3 2 255, s)).1.SP = 255 ∧ (stepN .p15 0 2 (exCpu 3 2 255, s)).1.F = 0) := by decide +kernel

/-- a call at 7 to a subroutine at 0x20 that pushes and pops and returns 9 in A -/
def exCall : Sh :=
  { exSh 0 0 with rom := fun a => if a = 7 then 0x3820 else if a = 0x20 then 0x0072 else if a = 0x21 then 0x0073 else if a = 0x22 then 0x0209 else 0 }

example : ∃ q, Bal .p14 0 (stepOf .p14 0 (exCpu 1 2 0x30, exCall)) q ∧ At .p14 (exCpu 1 2 0x30, exCall) .call [0x20] ∧
    At .p14 q .retk [9] ∧ (stepOf .p14 0 q).1.PC = 8 ∧ (stepOf .p14 0 q).1.A = 9 := by
  refine ⟨stepN .p14 0 3 (exCpu 1 2 0x30, exCall), ?_, ?_, ?_, by decide +kernel, by decide +kernel⟩
  · refine Bal.push _ (stepN .p14 0 2 (exCpu 1 2 0x30, exCall)) _ ?_ ?_ ?_ ?_ (Bal.done _)
    · decide +kernel
    · show Enc _ _ _ _; decide +kernel
    · exact Bal.done _
    · show Enc _ _ _ _; decide +kernel
  · show Enc _ _ _ _; decide +kernel
  · show Enc _ _ _ _; decide +kernel

/-! ### Cycles and jumps -/

section
variable {v : Var} {id : Nat} {c : Cpu} {s : Sh} {k : Nat}

/-- C143: goto goes where it says, in two cycles -/
theorem c143_goto_partial (h : Enc v (s.rom c.PC) .goto [k]) :
    step v id c s = ⟨{ c with PC := k }, s, 2, true⟩ := by
  have hk := arg1 (w := jMask v) h rfl
  rw [step_enc h]; simp only [run, hk]

/-- C143: pcadd goes A words on from itself, if that is in the memory of 4096 words -/
theorem c143_pcadd_partial (hfit : c.PC + 1 < 4096) (h : Enc v (s.rom c.PC) .pcadd []) :
    step v id c s = ⟨{ c with PC := c.PC + c.A.toNat }, s, 1, true⟩ := by
  have := c.A.isLt
  have hn : nextPC c.PC = c.PC + 1 := Nat.mod_eq_of_lt hfit
  have : (c.PC + 1 + c.A.toNat + (2 ^ 32 - 1)) % 2 ^ 32 = c.PC + c.A.toNat := by omega
  rw [step_enc h]; simp only [run, hn, this]

/-- C143: call and goto take two cycles, idxm two of the PDK14 and PDK15, everything else one. What is
missing: what the data sheets say of ret, of the skips that skip and of idxm of the PDK13. -/
theorem c143_cycles_partial (f : Form) (args : List Nat) (h : Enc v (s.rom c.PC) f args) :
    (step v id c s).cycles =
      (if f = .call ∨ f = .goto then 2 else if f = .idxmAM ∨ f = .idxmMA then (if v = .p13 then 1 else 2) else 1) ∧
    (step v id c s).ok = true := by
  rw [step_enc h]
  refine ⟨?_, rfl⟩
  cases f <;> try rfl
  all_goals first
    | (cases v <;> rfl)
    | (rename_i b; cases b <;> rfl)
    | (rename_i b; rename_i b'; cases b <;> rfl)
    | (simp only [run]; split <;> rfl)

/-- C143: a word that is no instruction is refused, and nothing but the program counter moves -/
theorem c143_invalid (h : ∀ f args, ¬ Enc v (s.rom c.PC) f args) :
    step v id c s = ⟨{ c with PC := nextPC c.PC }, s, 1, false⟩ := by
  cases hp : pick (chain v) (s.rom c.PC) with
  | none => simp only [step, hp, nextPC]
  | some f => obtain ⟨args, ha⟩ := pick_enc hp; exact absurd ha (h f args)

end

/-- C143 is false: ret, and a skip that skips, take one cycle; the data sheet says two -/
theorem c143_false :
    Enc .p14 0x007a .ret [] ∧ (step .p14 0 (exCpu 0 0 0) (exSh 0x007a 0)).cycles = 1 ∧
    Enc .p14 0x2a07 (.ceq false true) [7] ∧ (step .p14 0 (exCpu 7 0 0) (exSh 0x2a07 0)).cycles = 1 ∧
    (step .p14 0 (exCpu 7 0 0) (exSh 0x2a07 0)).cpu.PC = 9 := by decide +kernel

example : Enc .p14 0x3123 .goto [0x123] ∧ Enc .p15 0x0067 .pcadd [] ∧ (∀ d ∈ docs .p14, (0x0001 : Word) &&& ~~~d.opbits ≠ d.op) := by decide +kernel

end Ucsim.Pdk
