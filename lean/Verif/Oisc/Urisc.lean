import Verif.Spec.Urisc
/-
The Ultimate RISC simulator: /repo/src/sims/oisc.src/urisc.cc and oisc.cc.

Simplifications: words of rom are 16 bits; breakpoints and statistics are left out; a display is counted
only by what it does to the operators of the cells.
-/
namespace Ucsim.Urisc

/-- rA, the bits of rF, PC, the words stored in rom; and how many times the registers have been shown,
because it is cl_urisc::print_regs, urisc.cc 74-94, that gives the cells 0xfff0-0xfff7 an operator, each
time one more -/
structure M where
  A : Word
  N : Bool
  Z : Bool
  O : Bool
  C : Bool
  PC : Word
  mem : Word → Word
  shown : Nat
  clocks : Nat

/-- the cells that cl_urisc::print_regs gives operators, urisc.cc 85-93 -/
def special (a : Word) : Bool := decide (0xFFF0 ≤ a.toNat) && decide (a.toNat ≤ 0xFFF7)

/-- cl_urisc::print_regs, urisc.cc 74-94 -/
def showRegs (m : M) : M := { m with shown := m.shown + 1 }

/-- cl_urisc::read, urisc.cc 148-174 -/
def readOp (m : M) (a : Word) : Word :=
  let w (b : Bool) : Word := if b then 2 else 0
  if a = 0xFFF0 then m.A else if a = 0xFFF1 then w m.N else if a = 0xFFF2 then w m.Z else if a = 0xFFF3 then w m.O
  else if a = 0xFFF4 then w m.C else if a = 0xFFF5 then w m.N ^^^ w m.O else if a = 0xFFF6 then (w m.N ^^^ w m.O) ||| w m.Z
  else if a = 0xFFF7 then w m.C ^^^ (if m.Z then 0 else 2) else if a = 0xFFFF then m.PC else m.mem a

/-- cl_memory_cell::read, mem.cc 1203-1217 -/
def rd (m : M) (a : Word) : Word := if special a && m.shown != 0 then readOp m a else m.mem a

/-- cl_urisc::add, urisc.cc 50-65 -/
def add (m : M) (a b : Word) (c : Nat) : M :=
  let sf := a.toNat + b.toNat + c
  let ss := a.toNat % 32768 + (b.toNat + 0x7FFF) + c
  let c1 := decide (0xFFFF < sf)
  let c2 := decide (0x7FFF < ss)
  { m with A := BitVec.ofNat 16 sf, C := c1, O := c1 != c2, Z := decide (sf % 65536 = 0), N := (BitVec.ofNat 16 sf : Word).getLsbD 15 }

/-- cl_urisc::write, urisc.cc 176-192 -/
def writeOp (m : M) (a v : Word) : M :=
  if a = 0xFFF0 then { m with A := v } else if a = 0xFFF1 then add m m.A (~~~v) 1 else if a = 0xFFF2 then add m v (~~~m.A) 1
  else if a = 0xFFF3 then add m m.A v 0 else if a = 0xFFF4 then { m with A := m.A ^^^ v } else if a = 0xFFF5 then { m with A := m.A &&& v }
  else if a = 0xFFF6 then { m with A := m.A ||| v } else if a = 0xFFF7 then { m with A := v >>> 1 } else if a = 0xFFFF then { m with PC := v } else m

/-- the loop over the operators in cl_memory_cell::write, mem.cc 1246-1249; cl_urisc::write returns the
value it was given -/
def ops : Nat → M → Word → Word → M
  | 0, m, _, _ => m
  | n + 1, m, a, v => ops n (writeOp m a v) a v

/-- cl_memory_cell::write, mem.cc 1241-1259 -/
def wr (m : M) (a v : Word) : M :=
  let m := if special a then ops m.shown m a v else m
  { m with mem := upd m.mem a v }

/-- cl_oisc::exec_inst, oisc.cc 224-239 -/
def step (m : M) : M :=
  let src := rd m m.PC
  let dst := rd m (m.PC + 1)
  let tmp := rd m src
  let m := { m with PC := m.PC + 2 }
  let m := wr m dst tmp
  { m with clocks := m.clocks + 4 }

def run : Nat → M → M
  | 0, m => m
  | n + 1, m => run n (step m)

def view (m : M) : S := ⟨m.A, m.N, m.Z, m.O, m.C, m.PC, fun a => if a.toNat < 0xFFF0 then m.mem a else 0⟩

/-! ### C159 -/

theorem special_low {a : Word} (h : a.toNat < 0xFFF0) : special a = false := by
  unfold special; rw [decide_eq_false (by omega)]; rfl

theorem rd_mem {m : M} {a : Word} (h : a.toNat < 0xFFF0) : rd m a = m.mem a := by
  unfold rd; rw [special_low h]; rfl

theorem view_ram {m : M} {a : Word} (h : a.toNat < 0xFFF0) : (view m).ram a = m.mem a := by simp [view, h]

theorem view_high (m : M) (a v : Word) (h : 0xFFF0 ≤ a.toNat) : view { m with mem := upd m.mem a v } = view m := by
  unfold view
  congr 1
  funext x
  by_cases hx : x.toNat < 0xFFF0
  · rw [if_pos hx, if_pos hx]
    simp only [upd]; rw [if_neg (by intro e; subst e; omega)]
  · rw [if_neg hx, if_neg hx]

theorem view_upd (m : M) (a v : Word) (h : a.toNat < 0xFFF0) : view { m with mem := upd m.mem a v } = { view m with ram := upd (view m).ram a v } := by
  unfold view
  congr 1
  funext x
  simp only [upd]
  by_cases hx : x = a
  · subst hx; rw [if_pos rfl, if_pos rfl, if_pos h]
  · rw [if_neg hx, if_neg hx]

theorem getLsbD15 (x : Word) : x.getLsbD 15 = decide (32768 ≤ x.toNat) := by
  have := BitVec.msb_eq_decide x
  simpa [BitVec.msb_eq_getLsbD_last] using this

theorem add_view (m : M) (a b : Word) (c : Nat) : view (add m a b c) = { sum (view m) a b c with O := (add m a b c).O } := by
  simp only [add, view, sum]
  congr 1
  · rw [getLsbD15, BitVec.toNat_ofNat]

theorem rd_src {m : M} {a : Word} {x : Src} (hk : m.shown = 1) (h : srcOf a = some x) (hx : plainSrc x) : rd m a = val (view m) x := by
  have sp : ∀ a : Word, special a = true → rd m a = readOp m a := by
    intro a h; unfold rd; rw [h, hk]; rfl
  unfold srcOf at h
  by_cases h0 : a = 0xFFF0
  · subst h0; cases h; rw [sp _ (by decide)]; rfl
  by_cases h1 : a = 0xFFF1
  · subst h1; cases h; rw [sp _ (by decide)]; rfl
  by_cases h2 : a = 0xFFF2
  · subst h2; cases h; rw [sp _ (by decide)]; rfl
  by_cases h3 : a = 0xFFF3
  · subst h3; cases h; exact hx.elim
  by_cases h4 : a = 0xFFF4
  · subst h4; cases h; rw [sp _ (by decide)]; rfl
  by_cases h5 : a = 0xFFF5
  · subst h5; cases h; exact hx.elim
  by_cases h6 : a = 0xFFF6
  · subst h6; cases h; exact hx.elim
  by_cases h7 : a = 0xFFF7
  · subst h7; cases h; rw [sp _ (by decide)]
    show (if m.C then (2 : Word) else 0) ^^^ (if m.Z then 0 else 2) = cond (m.C != !m.Z)
    cases m.C <;> cases m.Z <;> decide
  by_cases h8 : a = 0xFFFF
  · subst h8; cases h; exact hx.elim
  rw [if_neg h0, if_neg h1, if_neg h2, if_neg h3, if_neg h4, if_neg h5, if_neg h6, if_neg h7, if_neg h8] at h
  split at h
  · rename_i hl
    cases h
    rw [rd_mem hl]; exact (view_ram hl).symm
  · cases h

theorem wr_dst {m : M} {a v : Word} {y : Dst} (hk : m.shown = 1) (h : dstOf a = some y) (hy : y ≠ .pc) :
    ∃ o, view (wr m a v) = { put (view m) v y with O := o } := by
  have sp : ∀ a : Word, special a = true → view (wr m a v) = view (writeOp m a v) := by
    intro a h
    have h' := h
    simp only [special, Bool.and_eq_true, decide_eq_true_eq] at h'
    unfold wr
    rw [h, hk]
    exact view_high (writeOp m a v) a v h'.1
  have hshr : v >>> 1 = BitVec.ofNat 16 (v.toNat / 2) := by
    apply BitVec.eq_of_toNat_eq
    rw [BitVec.toNat_ushiftRight, BitVec.toNat_ofNat, Nat.shiftRight_eq_div_pow]
    have := v.isLt; omega
  unfold dstOf at h
  by_cases h0 : a = 0xFFF0
  · subst h0; cases h; exact ⟨m.O, sp _ (by decide)⟩
  by_cases h1 : a = 0xFFF1
  · subst h1; cases h; exact ⟨_, (sp _ (by decide)).trans (add_view _ _ _ _)⟩
  by_cases h2 : a = 0xFFF2
  · subst h2; cases h; exact ⟨_, (sp _ (by decide)).trans (add_view _ _ _ _)⟩
  by_cases h3 : a = 0xFFF3
  · subst h3; cases h; exact ⟨_, (sp _ (by decide)).trans (add_view _ _ _ _)⟩
  by_cases h4 : a = 0xFFF4
  · subst h4; cases h; exact ⟨m.O, sp _ (by decide)⟩
  by_cases h5 : a = 0xFFF5
  · subst h5; cases h; exact ⟨m.O, sp _ (by decide)⟩
  by_cases h6 : a = 0xFFF6
  · subst h6; cases h; exact ⟨m.O, sp _ (by decide)⟩
  by_cases h7 : a = 0xFFF7
  · subst h7; cases h
    refine ⟨m.O, (sp _ (by decide)).trans ?_⟩
    show view { m with A := v >>> 1 } = _
    rw [hshr]; rfl
  by_cases h8 : a = 0xFFFF
  · subst h8; cases h; exact (hy rfl).elim
  rw [if_neg h0, if_neg h1, if_neg h2, if_neg h3, if_neg h4, if_neg h5, if_neg h6, if_neg h7, if_neg h8] at h
  split at h
  · rename_i hl
    cases h
    refine ⟨m.O, ?_⟩
    unfold wr
    rw [special_low hl]
    exact view_upd m a v hl
  · cases h

theorem ops_shown (n : Nat) (m : M) (a v : Word) : (ops n m a v).shown = m.shown ∧ (ops n m a v).clocks = m.clocks := by
  induction n generalizing m with
  | zero => exact ⟨rfl, rfl⟩
  | succ n ih =>
    have h : (writeOp m a v).shown = m.shown ∧ (writeOp m a v).clocks = m.clocks := by
      constructor <;> simp only [writeOp, add, apply_ite M.shown, apply_ite M.clocks, ite_self]
    obtain ⟨i1, i2⟩ := ih (writeOp m a v)
    exact ⟨i1.trans h.1, i2.trans h.2⟩

/-- C159: when the registers have been shown exactly once, an instruction that has nothing to do with PC
as an operand and does not read the overflow flag does to A, N, Z, C, PC and memory what the table says
(partial: see the theorems below) -/
theorem c159_step_partial {m : M} (hk : m.shown = 1) {x : Src} {y : Dst} {s' : S} (hx : srcOf ((view m).ram m.PC) = some x)
    (hy : dstOf ((view m).ram (m.PC + 1)) = some y) (hx' : plainSrc x) (hy' : y ≠ .pc) (h : sstep (view m) = some s') :
    (∃ o, view (step m) = { s' with O := o }) ∧ (step m).clocks = m.clocks + 4 ∧ (step m).shown = 1 := by
  unfold sstep at h
  split at h
  · rename_i hp
    have hp : m.PC.toNat + 1 < 0xFFF0 := hp
    have hq : (m.PC + 1).toNat < 0xFFF0 := by
      rw [BitVec.toNat_add]; show (m.PC.toNat + 1) % 65536 < _; omega
    have hp' : m.PC.toNat < 0xFFF0 := by omega
    rw [show (view m).PC = m.PC from rfl, hx, Option.bind_some, hy] at h
    cases h
    rw [view_ram hp'] at hx
    rw [view_ram hq] at hy
    have hstep : step m = (fun m' : M => { m' with clocks := m'.clocks + 4 })
        (wr { m with PC := m.PC + 2 } (m.mem (m.PC + 1)) (val (view m) x)) := by
      unfold step; simp only []; rw [rd_mem hp', rd_mem hq, rd_src hk hx hx']
    rw [hstep]
    obtain ⟨o, ho⟩ := wr_dst (m := { m with PC := m.PC + 2 }) (v := val (view m) x) hk hy hy'
    refine ⟨⟨o, ho⟩, ?_, ?_⟩
    · show (wr _ _ _).clocks + 4 = _
      unfold wr
      simp only []
      split
      · rw [(ops_shown _ _ _ _).2]
      · rfl
    · show (wr _ _ _).shown = _
      unfold wr
      simp only []
      split
      · rw [(ops_shown _ _ _ _).1]; exact hk
      · exact hk
  · cases h

/-- C159 is false in general: as long as nobody has had the registers shown there is no arithmetic unit at
all. Whatever the program, A and the flags never change and no jump is ever made. -/
theorem c159_false_not_shown (n : Nat) {m : M} (h : m.shown = 0) :
    (run n m).A = m.A ∧ (run n m).C = m.C ∧ (run n m).Z = m.Z ∧ (run n m).N = m.N ∧ (run n m).PC = m.PC + BitVec.ofNat 16 (2 * n) := by
  induction n generalizing m with
  | zero => exact ⟨rfl, rfl, rfl, rfl, (BitVec.add_zero _).symm⟩
  | succ n ih =>
    have hs : ∃ f, step m = { m with PC := m.PC + 2, mem := f, clocks := m.clocks + 4 } := by
      unfold step wr
      simp only [h]
      refine ⟨upd m.mem (rd m (m.PC + 1)) (rd m (rd m m.PC)), ?_⟩
      split <;> rfl
    obtain ⟨f, hf⟩ := hs
    obtain ⟨i1, i2, i3, i4, i5⟩ := ih (m := step m) (by rw [hf]; exact h)
    refine ⟨?_, ?_, ?_, ?_, ?_⟩
    · show (run n (step m)).A = _; rw [i1, hf]
    · show (run n (step m)).C = _; rw [i2, hf]
    · show (run n (step m)).Z = _; rw [i3, hf]
    · show (run n (step m)).N = _; rw [i4, hf]
    · show (run n (step m)).PC = _; rw [i5, hf]
      show m.PC + 2 + _ = _
      rw [BitVec.add_assoc]
      congr 1
      rw [show (2 : Word) = BitVec.ofNat 16 2 from rfl, ← BitVec.ofNat_add]
      congr 1; omega

theorem ops_add (n : Nat) (m : M) (v : Word) : (ops n m 0xFFF3 v).A = m.A + BitVec.ofNat 16 n * v := by
  induction n generalizing m with
  | zero => simp [ops]
  | succ n ih =>
    show (ops n (writeOp m 0xFFF3 v) 0xFFF3 v).A = _
    rw [ih]
    show BitVec.ofNat 16 (m.A.toNat + v.toNat + 0) + _ = _
    rw [show BitVec.ofNat 16 (m.A.toNat + v.toNat + 0) = m.A + v by apply BitVec.eq_of_toNat_eq; simp [BitVec.toNat_add]]
    rw [BitVec.ofNat_add n 1, BitVec.add_mul, BitVec.add_assoc]
    congr 1
    rw [BitVec.add_comm]
    congr 1
    exact (BitVec.one_mul v).symm

/-- and each display adds one more: the destination `acc+` adds as many times as the registers have been shown -/
theorem c159_false_shown_often {m : M} (x : Word) (hp : m.PC.toNat + 1 < 0xFFF0) (hx : x.toNat < 0xFFF0)
    (h0 : (view m).ram m.PC = x) (h1 : (view m).ram (m.PC + 1) = 0xFFF3) :
    (view (step m)).A = (view m).A + BitVec.ofNat 16 m.shown * (view m).ram x := by
  have hq : (m.PC + 1).toNat < 0xFFF0 := by
    rw [BitVec.toNat_add]; show (m.PC.toNat + 1) % 65536 < _; omega
  have hp' : m.PC.toNat < 0xFFF0 := by omega
  rw [view_ram hp'] at h0
  rw [view_ram hq] at h1
  rw [view_ram hx]
  show (step m).A = m.A + _
  unfold step
  simp only []
  rw [rd_mem hp', rd_mem hq, h0, h1, rd_mem hx]
  show (ops m.shown { m with PC := m.PC + 2 } 0xFFF3 (m.mem x)).A = _
  rw [ops_add]

/-- and a move to PC is never a jump -/
theorem c159_false_jump {m : M} (hp : m.PC.toNat + 1 < 0xFFF0) (h1 : (view m).ram (m.PC + 1) = 0xFFFF) : (view (step m)).PC = (view m).PC + 2 := by
  have hq : (m.PC + 1).toNat < 0xFFF0 := by
    rw [BitVec.toNat_add]; show (m.PC.toNat + 1) % 65536 < _; omega
  rw [view_ram hq] at h1
  show (step m).PC = _
  unfold step
  simp only []
  rw [rd_mem hq, h1]
  rfl

/-- and 1 + 1 overflows -/
theorem c159_false_overflow (m : M) : (writeOp { m with A := 1 } 0xFFF3 1).O = true ∧ (put (view { m with A := 1 }) 1 .add).O = false := by
  constructor
  · simp [writeOp, add]
  · simp [put, sum, view]

/-- the flags of a comparison `acc - v` are right but for O: C says that there is no borrow, Z that they are equal -/
theorem c159_compare_partial (m : M) (v : Word) :
    (writeOp m 0xFFF1 v).A = m.A - v ∧ (writeOp m 0xFFF1 v).C = decide (v.toNat ≤ m.A.toNat) ∧ (writeOp m 0xFFF1 v).Z = decide (m.A = v) := by
  have ha := m.A.isLt
  have hv := v.isLt
  have hn : (~~~v).toNat = 65535 - v.toNat := by rw [BitVec.toNat_not]
  have he : writeOp m 0xFFF1 v = add m m.A (~~~v) 1 := by
    unfold writeOp; rw [if_neg (by decide), if_pos rfl]
  have key : ∀ s : Nat, s = m.A.toNat + (65535 - v.toNat) + 1 → BitVec.ofNat 16 s = m.A - v ∧ decide (65535 < s) = decide (v.toNat ≤ m.A.toNat) ∧ decide (s % 65536 = 0) = decide (m.A = v) := by
    intro s hs
    refine ⟨?_, ?_, ?_⟩
    · apply BitVec.eq_of_toNat_eq
      rw [BitVec.toNat_sub, BitVec.toNat_ofNat]
      congr 1; omega
    · rw [decide_eq_decide]; omega
    · rw [decide_eq_decide, ← BitVec.toNat_inj]; omega
  rw [he, ← hn] at *
  exact key _ rfl

/-! ### Cases that meet the hypotheses -/

def demo (l : List Word) (k : Nat) : M := ⟨5, false, false, false, false, 0, fun a => l.getD a.toNat 0, k, 0⟩

example : (∃ o, view (step (demo [4, 0xFFF3, 0, 0, 7] 1)) = { put { view (demo [4, 0xFFF3, 0, 0, 7] 1) with PC := 2 } 7 .add with O := o }) :=
  (c159_step_partial (m := demo [4, 0xFFF3, 0, 0, 7] 1) (x := .mem 4) (y := .add) rfl (by decide +kernel) (by decide +kernel) trivial (by decide) (by
    unfold sstep
    rw [if_pos (by decide), show (srcOf ((view (demo [4, 0xFFF3, 0, 0, 7] 1)).ram (view (demo [4, 0xFFF3, 0, 0, 7] 1)).PC)) = some (.mem 4) by decide +kernel,
      Option.bind_some, show dstOf ((view (demo [4, 0xFFF3, 0, 0, 7] 1)).ram ((view (demo [4, 0xFFF3, 0, 0, 7] 1)).PC + 1)) = some .add by decide +kernel]
    rfl)).1
example : (view (step (demo [4, 0xFFF3, 0, 0, 7] 2))).A = 19 :=
  (c159_false_shown_often (m := demo [4, 0xFFF3, 0, 0, 7] 2) 4 (by decide) (by decide) (by decide +kernel) (by decide +kernel)).trans (by decide +kernel)
example : (run 100 (demo [4, 0xFFF3, 0, 0, 7] 0)).A = 5 := (c159_false_not_shown 100 rfl).1
example : (view (step (demo [4, 0xFFFF, 0, 0, 7] 1))).PC = 2 := c159_false_jump (m := demo [4, 0xFFFF, 0, 0, 7] 1) (by decide) (by decide +kernel)

end Ucsim.Urisc
