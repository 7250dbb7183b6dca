import Verif.Proof.H08Mmu
import Verif.Props.H08
import Verif.Spec.H08Asm

/-
C105: the memory management unit of the 9S08: linear address pointer and program pages.
C106: CALL and RTC.
C107: the 9S08 executes and lists the instructions of the HCS08.
-/
namespace Ucsim.H08

/-! ### C105 -/

/-- **C105** Every sequence of reads and writes sees the memory the manual describes. -/
theorem c105_accesses (m : Mmu) (h : m.lin < 0x20000) (l : List Acc) :
    (accs m l).1 = ((absM m).run l).1 ∧ absM (accs m l).2 = ((absM m).run l).2 ∧ (accs m l).2.lin < 0x20000 := by
  induction l generalizing m with
  | nil => exact ⟨rfl, rfl, h⟩
  | cons x l ih =>
    cases x with
    | rd a =>
      obtain ⟨h1, h2, h3⟩ := read_eq m a h
      obtain ⟨g1, g2, g3⟩ := ih _ h3
      simp only [accs, Mm.Chip.run, ← h2, ← h1]
      exact ⟨by rw [g1], g2, g3⟩
    | wr a v =>
      obtain ⟨h2, h3⟩ := write_eq m a v h
      obtain ⟨g1, g2, g3⟩ := ih _ h3
      simp only [accs, Mm.Chip.run, ← h2]
      exact ⟨g1, g2, g3⟩

theorem run_append (l k : List Acc) : ∀ c : Mm.Chip, c.run (l ++ k) = ((c.run l).1 ++ ((c.run l).2.run k).1, ((c.run l).2.run k).2) := by
  induction l with
  | nil => intro c; rfl
  | cons x l ih => intro c; cases x <;> simp [Mm.Chip.run, ih]

/-- The three writes that set the pointer. -/
def setLap (e : BitVec 17) : List Acc :=
  [.wr 0x79#16 ((e.extractLsb' 16 1).zeroExtend 8), .wr 0x7a#16 (e.extractLsb' 8 8), .wr 0x7b#16 (e.extractLsb' 0 8)]
def getLap : List Acc := [.rd 0x79#16, .rd 0x7a#16, .rd 0x7b#16]

theorem run_setLap (c : Mm.Chip) (e : BitVec 17) : c.run (setLap e) = ([], { c with lap := e }) := by
  have : ∀ l e : BitVec 17, ((BitVec.extractLsb' 8 9 ((BitVec.extractLsb' 16 1 (BitVec.extractLsb' 0 1 ((e.extractLsb' 16 1).zeroExtend 8) ++ l.extractLsb' 0 16 : BitVec 17) ++
      e.extractLsb' 8 8 ++ BitVec.extractLsb' 0 8 (BitVec.extractLsb' 0 1 ((e.extractLsb' 16 1).zeroExtend 8) ++ l.extractLsb' 0 16 : BitVec 17)) : BitVec 17)) ++ e.extractLsb' 0 8 : BitVec 17) = e := by
    intro l e
    apply BitVec.eq_of_toNat_eq
    refine (toNat_two _ _).trans ?_
    rw [BitVec.extractLsb'_toNat]
    erw [toNat_two, toNat_two]
    rw [BitVec.extractLsb'_toNat]
    erw [toNat_two]
    rw [BitVec.extractLsb'_toNat 0 8]
    erw [toNat_two]
    simp only [BitVec.extractLsb'_toNat, BitVec.zeroExtend, BitVec.toNat_setWidth, Nat.shiftRight_eq_div_pow]
    have := e.isLt
    have := l.isLt
    omega
  show ([], _) = _
  rw [show (((c.write 0x79#16 ((e.extractLsb' 16 1).zeroExtend 8)).write 0x7a#16 (e.extractLsb' 8 8)).write 0x7b#16 (e.extractLsb' 0 8)) = _ from
    congrArg (fun l => ({ c with lap := l } : Mm.Chip)) (this c.lap e)]

/-- What the three registers show. -/
def lapBytes (e : BitVec 17) : List Byte := [(e.extractLsb' 16 1).zeroExtend 8, e.extractLsb' 8 8, e.extractLsb' 0 8]

/-- **C105** The pointer reads back as written; adding a byte moves it by that signed amount. -/
theorem c105_pointer (m : Mmu) (h : m.lin < 0x20000) (e : BitVec 17) (v : Byte) :
    (accs m (setLap e ++ getLap)).1 = lapBytes e ∧ (accs m (setLap e ++ [.wr 0x7f#16 v] ++ getLap)).1 = lapBytes (e + v.signExtend 17) := by
  constructor
  · rw [(c105_accesses m h _).1, run_append, run_setLap]; rfl
  · rw [(c105_accesses m h _).1, run_append, run_append, run_setLap]; rfl

/-- Writing a block through the post increment registers: LWP where the flag is set, else LBP. -/
def post (w : Bool) : Word := if w then 0x7c#16 else 0x7d#16
def putBlock (bs : List (Bool × Byte)) : List Acc := bs.map (fun b => .wr (post b.1) b.2)
def getBlock (ws : List Bool) : List Acc := ws.map (fun w => .rd (post w))

theorem write_post (c : Mm.Chip) (w : Bool) (v : Byte) : c.write (post w) v = { c.putExt c.lap v with lap := c.lap + 1 } := by
  cases w <;> rfl
theorem read_post (c : Mm.Chip) (w : Bool) : c.read (post w) = (c.ext c.lap, { c with lap := c.lap + 1 }) := by
  cases w <;> rfl

theorem run_put (bs : List (Bool × Byte)) : ∀ c : Mm.Chip, bs.length ≤ 0x20000 → (c.run (putBlock bs)).1 = [] ∧
    (∀ i, i < bs.length → (c.run (putBlock bs)).2.ext (c.lap + BitVec.ofNat 17 i) = (bs.getD i (false, 0#8)).2) ∧
    (∀ e : BitVec 17, bs.length ≤ (e - c.lap).toNat → (c.run (putBlock bs)).2.ext e = c.ext e) ∧
    (c.run (putBlock bs)).2.ram = c.ram ∧ (c.run (putBlock bs)).2.ppage = c.ppage := by
  induction bs with
  | nil => intro c _; exact ⟨rfl, fun i hi => absurd hi (by simp), fun _ _ => rfl, rfl, rfl⟩
  | cons b bs ih =>
    intro c hl
    simp only [List.length_cons] at hl
    show (((c.write (post b.1) b.2).run (putBlock bs)).1 = [] ∧ _)
    rw [show c.run (putBlock (b :: bs)) = (c.write (post b.1) b.2).run (putBlock bs) from rfl, write_post]
    obtain ⟨h1, h2, h3, h4, h5⟩ := ih { c.putExt c.lap b.2 with lap := c.lap + 1 } (by omega)
    refine ⟨h1, ?_, ?_, h4, h5⟩
    · intro i hi
      cases i with
      | zero =>
        rw [show c.lap + BitVec.ofNat 17 0 = c.lap from BitVec.add_zero _]
        refine (h3 c.lap ?_).trans (if_pos rfl)
        · have : c.lap - (c.lap + 1) = 0x1ffff#17 := by
            rw [BitVec.sub_eq_iff_eq_add]
            apply BitVec.eq_of_toNat_eq
            simp [BitVec.toNat_add]; omega
          show bs.length ≤ (c.lap - (c.lap + 1)).toNat
          rw [this]; simp; omega
      | succ i =>
        have := h2 i (by simpa using hi)
        simp only [List.getD_cons_succ]
        rw [← this]
        congr 1
        show c.lap + BitVec.ofNat 17 (i + 1) = c.lap + 1 + BitVec.ofNat 17 i
        rw [BitVec.add_assoc, Nat.add_comm, BitVec.ofNat_add]; rfl
    · intro e he
      simp only [List.length_cons] at he
      have h0 : e ≠ c.lap := by
        intro h; subst h; rw [BitVec.sub_self] at he; simp at he
      refine (h3 e ?_).trans (if_neg h0)
      show bs.length ≤ (e - (c.lap + 1)).toNat
      have hd : e - (c.lap + 1) = e - c.lap - 1 := by
        apply BitVec.eq_of_toNat_eq
        have := e.isLt
        have := c.lap.isLt
        simp only [BitVec.toNat_sub, BitVec.toNat_add]
        simp
        omega
      rw [hd]
      generalize e - c.lap = d at he
      have := d.isLt
      rw [BitVec.toNat_sub]
      simp
      omega

theorem run_get (ws : List Bool) : ∀ c : Mm.Chip, (c.run (getBlock ws)).1 = (List.range ws.length).map (fun i => c.ext (c.lap + BitVec.ofNat 17 i)) ∧
    (c.run (getBlock ws)).2 = { c with lap := c.lap + BitVec.ofNat 17 ws.length } := by
  induction ws with
  | nil => intro c; exact ⟨rfl, by show c = _; simp⟩
  | cons w ws ih =>
    intro c
    rw [show c.run (getBlock (w :: ws)) = ((c.read (post w)).1 :: ((c.read (post w)).2.run (getBlock ws)).1, ((c.read (post w)).2.run (getBlock ws)).2) from rfl, read_post]
    obtain ⟨h1, h2⟩ := ih { c with lap := c.lap + 1 }
    have e : ∀ i, c.lap + 1 + BitVec.ofNat 17 i = c.lap + BitVec.ofNat 17 (i + 1) := by
      intro i; rw [BitVec.add_assoc, Nat.add_comm, BitVec.ofNat_add]; rfl
    constructor
    · simp only [h1, List.length_cons, List.range_succ_eq_map, List.map_cons, List.map_map]
      congr 1
      · simp
      · apply List.map_congr_left
        intro i _
        simp only [Function.comp, e]
    · simp only [h2, List.length_cons, e]

/-- **C105** A block of any length up to the whole memory, written through the data registers from any
extended address on, is read back from there; nothing else changes. -/
theorem c105_block (m : Mmu) (h : m.lin < 0x20000) (e : BitVec 17) (bs : List (Bool × Byte)) (ws : List Bool)
    (hl : bs.length ≤ 0x20000) (hw : ws.length = bs.length) :
    (accs m (setLap e ++ putBlock bs ++ setLap e ++ getBlock ws)).1 = bs.map (·.2) ∧
    (∀ x : BitVec 17, bs.length ≤ (x - e).toNat → (accs m (setLap e ++ putBlock bs ++ setLap e ++ getBlock ws)).2.las x.toNat = m.las x.toNat) ∧
    ∀ a : Word, a < 0x78#16 ∨ 0x7f#16 < a → (accs m (setLap e ++ putBlock bs ++ setLap e ++ getBlock ws)).2.low a.toNat = m.low a.toNat := by
  obtain ⟨g1, g2, _⟩ := c105_accesses m h (setLap e ++ putBlock bs ++ setLap e ++ getBlock ws)
  rw [run_append, run_append, run_append, run_setLap, run_setLap] at g1 g2
  simp only at g1 g2
  obtain ⟨p1, p2, p3, p4, p5⟩ := run_put bs { absM m with lap := e } hl
  obtain ⟨q1, q2⟩ := run_get ws { ({ absM m with lap := e } : Mm.Chip).run (putBlock bs) |>.2 with lap := e }
  rw [q1, p1] at g1
  rw [q2] at g2
  refine ⟨?_, ?_, ?_⟩
  · rw [g1, hw]
    simp only [List.nil_append]
    apply List.ext_getElem (by simp)
    intro i h1 h2
    simp only [List.getElem_map, List.getElem_range]
    simp only [List.length_map] at h2
    rw [p2 i h2, List.getD_eq_getElem?_getD, List.getElem?_eq_getElem h2]; rfl
  · intro x hx
    have := congrArg (fun c => Mm.Chip.ext c x) g2
    simp only [absM] at this
    rw [this]
    exact p3 x hx
  · intro a ha
    have := congrArg (fun c => Mm.Chip.ram c a) g2
    have hn : ¬ (0x78#16 ≤ a ∧ a ≤ 0x7f#16) := by
      rw [BitVec.le_def, BitVec.le_def]; rw [BitVec.lt_def, BitVec.lt_def] at ha; omega
    simp only [p4] at this
    simp only [absM, if_neg hn] at this
    exact this

/-- The address of the program window where a page shows its byte `o`. -/
def window (o : BitVec 14) : Word := 0b10#2 ++ o
/-- The extended address of byte `o` of page `p`. -/
def extended (p : BitVec 3) (o : BitVec 14) : BitVec 17 := p ++ o

theorem extOf_window (c : Mm.Chip) (o : BitVec 14) : c.extOf (window o) = extended (c.ppage.extractLsb' 0 3) o := by
  unfold Mm.Chip.extOf window extended
  have ho := o.isLt
  have hn : (0b10#2 ++ o : Word).toNat = 0x8000 + o.toNat := (toNat_two _ _).trans (by simp)
  have h : 0x8000#16 ≤ (0b10#2 ++ o : Word) ∧ (0b10#2 ++ o : Word) < 0xc000#16 := by
    rw [BitVec.le_def, BitVec.lt_def, hn]; simp; omega
  rw [if_pos h]
  have : (0b10#2 ++ o : Word).extractLsb' 0 14 = o := by
    apply BitVec.eq_of_toNat_eq
    rw [BitVec.extractLsb'_toNat, hn]; simp; omega
  rw [this]

theorem window_plain (o : BitVec 14) : 0x8000 ≤ (window o).toNat := by
  have hn : (window o).toNat = 0x8000 + o.toNat := (toNat_two _ _).trans (by simp)
  omega

theorem read_high (c : Mm.Chip) (a : Word) (h : 0x2080 ≤ a.toNat) : c.read a = (c.ext (c.extOf a), c) := by
  unfold Mm.Chip.read
  have hk : ∀ k : Nat, k < 0x2080 → a ≠ BitVec.ofNat 16 k := fun k hk e => by
    have := (eq_nat a k (by omega)).mp e; omega
  have h2 : ¬ a < 0x2080#16 := by rw [BitVec.lt_def]; simp; omega
  rw [if_neg (hk 0x78 (by decide)), if_neg (hk 0x79 (by decide)), if_neg (hk 0x7a (by decide)), if_neg (hk 0x7b (by decide)),
    if_neg (fun e => e.elim (hk 0x7c (by decide)) (hk 0x7d (by decide))), if_neg (hk 0x7e (by decide)), if_neg (hk 0x7f (by decide)), if_neg h2]

theorem write_high (c : Mm.Chip) (a : Word) (v : Byte) (h : 0x2080 ≤ a.toNat) : c.write a v = c.putExt (c.extOf a) v := by
  unfold Mm.Chip.write
  have hk : ∀ k : Nat, k < 0x2080 → a ≠ BitVec.ofNat 16 k := fun k hk e => by
    have := (eq_nat a k (by omega)).mp e; omega
  have h2 : ¬ a < 0x2080#16 := by rw [BitVec.lt_def]; simp; omega
  rw [if_neg (hk 0x78 (by decide)), if_neg (hk 0x79 (by decide)), if_neg (hk 0x7a (by decide)), if_neg (hk 0x7b (by decide)),
    if_neg (fun e => e.elim (hk 0x7c (by decide)) (hk 0x7d (by decide))), if_neg (hk 0x7e (by decide)), if_neg (hk 0x7f (by decide)), if_neg h2]

/-- **C105** A byte written in page `p` through the window is at its extended address (and so is
read through the pointer), and is still there after other pages were selected and written. -/
theorem c105_window (m : Mmu) (h : m.lin < 0x20000) (p q : Byte) (o o' : BitVec 14) (v w : Byte)
    (hpq : p.extractLsb' 0 3 ≠ q.extractLsb' 0 3) :
    (accs m ([.wr 0x78#16 p, .wr (window o) v, .wr 0x78#16 q, .wr (window o') w, .rd (window o'), .wr 0x78#16 p, .rd (window o)] ++
      setLap (extended (p.extractLsb' 0 3) o) ++ [.rd 0x7e#16])).1 = [w, v, v] := by
  rw [(c105_accesses m h _).1, run_append, run_append, run_setLap]
  have hw : ∀ (c : Mm.Chip) (p : Byte), c.write 0x78#16 p = { c with ppage := p } := fun _ _ => rfl
  have hne : extended (p.extractLsb' 0 3) o ≠ extended (q.extractLsb' 0 3) o' := by
    intro e
    apply hpq
    have := congrArg BitVec.toNat e
    have h1 : ∀ (p : BitVec 3) (o : BitVec 14), (extended p o).toNat = p.toNat * 16384 + o.toNat := fun p o => toNat_two _ _
    rw [h1, h1] at this
    apply BitVec.eq_of_toNat_eq
    have := o.isLt
    have := o'.isLt
    omega
  have wp := fun o => Nat.le_trans (show 0x2080 ≤ 0x8000 by decide) (window_plain o)
  simp only [Mm.Chip.run, hw, write_high _ _ _ (wp _), read_high _ _ (wp _), extOf_window, Mm.Chip.putExt]
  have r7e : ∀ c : Mm.Chip, c.read 0x7e#16 = (c.ext c.lap, c) := fun _ => rfl
  simp only [r7e]
  simp [hne]

/-- **C105** The pages that are also at a fixed place: page 0 at 0-3fff (from 2080 on), page 1 at 4000, page 3 at c000. -/
theorem c105_fixed (m : Mmu) (h : m.lin < 0x20000) (p : Byte) (o : BitVec 14) (v : Byte) (f : BitVec 2)
    (hf : p.extractLsb' 0 3 = 0#1 ++ f) (h2 : f ≠ 2#2) (h0 : f = 0#2 → 0x2080 ≤ o.toNat) :
    (accs m [.wr 0x78#16 p, .wr (window o) v, .rd (f ++ o)]).1 = [v] ∧ (accs m [.wr 0x78#16 p, .wr (f ++ o) v, .rd (window o)]).1 = [v] := by
  have hn : (f ++ o : Word).toNat = f.toNat * 16384 + o.toNat := toNat_two _ _
  have ho := o.isLt
  have h2' : f.toNat ≠ 2 := fun e => h2 (BitVec.eq_of_toNat_eq e)
  have hfl := f.isLt
  have hi : 0x2080 ≤ (f ++ o : Word).toNat := by
    rw [hn]
    by_cases hz : f.toNat = 0
    · have := h0 (BitVec.eq_of_toNat_eq hz); omega
    · omega
  have he : ∀ c : Mm.Chip, c.extOf (f ++ o : Word) = extended (p.extractLsb' 0 3) o := by
    intro c
    unfold Mm.Chip.extOf
    rw [if_neg]
    · apply BitVec.eq_of_toNat_eq
      have h1 : (extended (p.extractLsb' 0 3) o).toNat = (p.extractLsb' 0 3).toNat * 16384 + o.toNat := toNat_two _ _
      have h3 : (p.extractLsb' 0 3).toNat = f.toNat := by rw [hf]; exact (toNat_two _ _).trans (by simp)
      rw [h1, h3]
      simp only [BitVec.zeroExtend, BitVec.toNat_setWidth, hn]
      omega
    · rw [BitVec.le_def, BitVec.lt_def, hn]; simp; omega
  have hw : ∀ (c : Mm.Chip) (p : Byte), c.write 0x78#16 p = { c with ppage := p } := fun _ _ => rfl
  have wp := Nat.le_trans (show 0x2080 ≤ 0x8000 by decide) (window_plain o)
  constructor
  all_goals
    rw [(c105_accesses m h _).1]
    simp only [Mm.Chip.run, hw, write_high _ _ _ wp, read_high _ _ wp, write_high _ _ _ hi, read_high _ _ hi, extOf_window, he, Mm.Chip.putExt, if_true]

/-- After a reset page 2 is selected, so 0-ffff but the RAM and registers show the first 64K. -/
theorem c105_reset (m : Mmu) (a : Word) (h : 0x2080 ≤ a.toNat) : (busRead (reset9 m) a.toNat).1 = m.las a.toNat := by
  have ha := a.isLt
  have e : slot (reset9 m) a.toNat = a.toNat := by
    unfold slot
    split
    · have h78 : (reset9 m).low 0x78 = 2#8 := rfl
      have : ((reset9 m).low 0x78 &&& 7#8).toNat = 2 := by rw [h78]; decide
      rw [this]; omega
    · rfl
  unfold busRead
  rw [if_neg (by omega), if_pos (by omega), e]; rfl

/-! Examples -/

def mmu0 : Mmu := ⟨fun _ => 0#8, fun i => BitVec.ofNat 8 (i / 0x4000), 0, 0#8⟩

/-- Three bytes across the end of the extended memory, the first two as a word (STHX to LWP). -/
example : (accs mmu0 (setLap 0x1fffe#17 ++ putBlock [(true, 0x12#8), (false, 0x34#8), (false, 0x56#8)] ++ setLap 0x1fffe#17 ++ getBlock [true, false, false] ++ getLap)).1 =
    [0x12#8, 0x34#8, 0x56#8, 0#8, 0#8, 1#8] := by decide +kernel
example : (accs mmu0 [.wr 0x78#16 5#8, .rd 0x8000#16, .wr 0x78#16 6#8, .rd 0xbfff#16, .rd 0x4000#16, .rd 0xc000#16]).1 = [5#8, 6#8, 1#8, 3#8] := by decide +kernel
example : (5#8).extractLsb' 0 3 ≠ (6#8 : Byte).extractLsb' 0 3 := by decide
example : (accs mmu0 (setLap 3#17 ++ [.wr 0x7f#16 0xfb#8] ++ getLap)).1 = [1#8, 0xff#8, 0xfe#8] := by decide +kernel

/-! ### C106 -/

/-- RAM, not a register of the MMU. -/
def Plain (a : Word) : Prop := a < 0x78#16 ∨ (0x7f#16 < a ∧ a < 0x2080#16)
instance (a : Word) : Decidable (Plain a) := by unfold Plain; infer_instance
/-- Reading it changes nothing. -/
def Quiet (a : Nat) : Prop := a < 0x79 ∨ 0x7f < a
instance (a : Nat) : Decidable (Quiet a) := by unfold Quiet; infer_instance

theorem busRead_quiet (m : Mmu) (a : Nat) (h : Quiet a) : (busRead m a).2 = m := by
  unfold busRead mmuRead
  unfold Quiet at h
  split
  · simp only
    rw [if_neg (by omega), if_neg (by omega), if_neg (by omega), if_neg (by omega), if_neg (by omega), if_neg (by omega), if_neg (by omega)]
  · split <;> rfl

theorem plain_nat {a : Word} (h : Plain a) : (a.toNat < 0x78 ∨ 0x7f < a.toNat) ∧ a.toNat < 0x2080 := by
  unfold Plain at h
  rw [BitVec.lt_def, BitVec.lt_def, BitVec.lt_def] at h
  simp at h
  omega

theorem busRead_low (m : Mmu) (a : Nat) (h : Quiet a) (h2 : a < 0x2080) : busRead m a = (m.low a, m) := by
  have := busRead_quiet m a h
  unfold busRead mmuRead at *
  unfold Quiet at h
  rw [if_pos h2] at *
  simp only at *
  rw [if_neg (by omega), if_neg (by omega), if_neg (by omega), if_neg (by omega), if_neg (by omega), if_neg (by omega), if_neg (by omega)]

theorem busWrite_low (m : Mmu) (a : Nat) (v : Byte) (h : Quiet a) (h2 : a < 0x2080) : busWrite m a v = setLow m a v := by
  unfold busWrite mmuWrite
  unfold Quiet at h
  rw [if_pos h2]
  simp only
  rw [if_neg (by omega), if_neg (by omega), if_neg (by omega), if_neg (by omega), if_neg (by omega), if_neg (by omega), if_neg (by omega)]

theorem poke_eq (f : Nat → Byte) (a : Nat) (v : Byte) : poke f a v a = v := if_pos rfl
theorem poke_ne {f : Nat → Byte} {a x : Nat} {v : Byte} (h : x ≠ a) : poke f a v x = f x := if_neg h

/-- CALL `p`, `a` is at PC. -/
def CallAt (s : Cpu9) (p : Byte) (a : Word) : Prop :=
  s.pc + 3 < 0x10000 ∧ (∀ i, i < 4 → Quiet (s.pc + i)) ∧ (busRead s.m s.pc).1 = 0xac#8 ∧ (busRead s.m (s.pc + 1)).1 = p ∧
  (busRead s.m (s.pc + 2)).1 ++ (busRead s.m (s.pc + 3)).1 = a

/-- The page selected and the byte of the RAM at an address. -/
def Cpu9.page (s : Cpu9) : Byte := s.m.low 0x78
def Cpu9.ram (s : Cpu9) (a : Word) : Byte := s.m.low a.toNat

theorem page_set {t : Cpu9} (m : Mmu) (p : Byte) (h : t.m = setLow m 0x78 p) : t.page = p := by
  unfold Cpu9.page; rw [h]; exact poke_eq m.low 0x78 p

/-- **C106** CALL saves the address after it and the page, and goes to its target in its page. -/
theorem c106_call (s : Cpu9) (p : Byte) (a : Word) (h : CallAt s p a) (h0 : Plain s.sp) (h1 : Plain (s.sp - 1)) (h2 : Plain (s.sp - 2)) :
    ∃ t, step9 s = some t ∧ t.pc = a.toNat ∧ t.page = p ∧ t.sp = s.sp - 3 ∧ t.ticks = s.ticks + 8 ∧
      t.ram s.sp = BitVec.ofNat 8 (s.pc + 4) ∧ t.ram (s.sp - 1) = BitVec.ofNat 8 ((s.pc + 4) % 0x10000 / 256) ∧ t.ram (s.sp - 2) = s.page ∧
      (∀ x, Plain x → x ≠ s.sp → x ≠ s.sp - 1 → x ≠ s.sp - 2 → t.ram x = s.ram x) ∧ t.m.las = s.m.las ∧ t.m.lin = s.m.lin ∧
      t.a = s.a ∧ t.h = s.h ∧ t.x = s.x ∧ t.p = s.p := by
  obtain ⟨hp, hq, c0, c1, c2⟩ := h
  have q0 := busRead_quiet s.m s.pc (hq 0 (by decide))
  have q1 := busRead_quiet s.m (s.pc + 1) (hq 1 (by decide))
  have q2 := busRead_quiet s.m (s.pc + 2) (hq 2 (by decide))
  have q3 := busRead_quiet s.m (s.pc + 3) (hq 3 (by decide))
  have e1 : (s.pc + 1) % 0x10000 = s.pc + 1 := Nat.mod_eq_of_lt (by omega)
  have e2 : (s.pc + 1 + 1) % 0x10000 = s.pc + 2 := Nat.mod_eq_of_lt (by omega)
  have e3 : (s.pc + 2 + 1) % 0x10000 = s.pc + 3 := Nat.mod_eq_of_lt (by omega)
  have n0 := plain_nat h0
  have n1 := plain_nat h1
  have n2 := plain_nat h2
  have w0 : ∀ m v, busWrite m s.sp.toNat v = setLow m s.sp.toNat v := fun m v => busWrite_low m _ v (by unfold Quiet; omega) n0.2
  have w1 : ∀ m v, busWrite m (s.sp - 1).toNat v = setLow m (s.sp - 1).toNat v := fun m v => busWrite_low m _ v (by unfold Quiet; omega) n1.2
  have w2 : ∀ m v, busWrite m (s.sp - 2).toNat v = setLow m (s.sp - 2).toNat v := fun m v => busWrite_low m _ v (by unfold Quiet; omega) n2.2
  have w78 : ∀ m v, busWrite m 0x78 v = setLow m 0x78 v := fun m v => busWrite_low m _ v (by decide) (by decide)
  have r78 : ∀ m, busRead m 0x78 = (m.low 0x78, m) := fun m => busRead_low m _ (by decide) (by decide)
  have d01 : (s.sp - 1).toNat ≠ s.sp.toNat := by
    rw [BitVec.toNat_sub]; have := s.sp.isLt; simp; omega
  have d02 : (s.sp - 2).toNat ≠ s.sp.toNat := by
    rw [BitVec.toNat_sub]; have := s.sp.isLt; simp; omega
  have d12 : (s.sp - 2).toNat ≠ (s.sp - 1).toNat := by
    rw [BitVec.toNat_sub, BitVec.toNat_sub]; have := s.sp.isLt; simp; omega
  have ha : (busRead s.m (s.pc + 2)).1.toNat * 256 + (busRead s.m (s.pc + 3)).1.toNat = a.toNat := by
    rw [← c2]; exact (toNat_two (busRead s.m (s.pc + 2)).1 (busRead s.m (s.pc + 3)).1).symm
  have e4 : (s.pc + 3 + 1) % 0x10000 = (s.pc + 4) % 0x10000 := rfl
  have s2 : s.sp - 2 - 1 = s.sp - 3 := by
    apply BitVec.eq_of_toNat_eq
    simp only [BitVec.toNat_sub]; simp; omega
  refine ⟨{ s with pc := a.toNat, sp := s.sp - 3, ticks := s.ticks + 1 + 2 + 5, m := setLow (setLow (setLow (setLow s.m (s.sp - 1).toNat (BitVec.ofNat 8 ((s.pc + 4) % 0x10000 / 256))) s.sp.toNat (BitVec.ofNat 8 ((s.pc + 4) % 0x10000))) (s.sp - 2).toNat (setLow (setLow s.m (s.sp - 1).toNat (BitVec.ofNat 8 ((s.pc + 4) % 0x10000 / 256))) s.sp.toNat (BitVec.ofNat 8 ((s.pc + 4) % 0x10000)) |>.low 0x78)) 0x78 p }, ?_, ?_⟩
  · unfold step9 call9 fetch29 fetch9 tick9 push29 push19 store9
    simp only [q0, e1, q1, e2, q2, e3, q3, e4, c0, c1, ha, if_true, w0, w1, w2, w78, r78, s2]
  · refine ⟨rfl, page_set _ _ rfl, rfl, rfl, ?_, ?_, ?_, ?_, rfl, rfl, rfl, rfl, rfl, rfl⟩
    · show poke _ _ _ _ = _
      rw [poke_ne (by omega)]
      show poke _ _ _ _ = _
      rw [poke_ne d02.symm]
      show poke _ _ _ _ = _
      rw [poke_eq]
      apply BitVec.eq_of_toNat_eq; simp
    · show poke _ _ _ _ = _
      rw [poke_ne (by omega)]
      show poke _ _ _ _ = _
      rw [poke_ne d12.symm]
      show poke _ _ _ _ = _
      rw [poke_ne d01]
      exact poke_eq _ _ _
    · show poke _ _ _ _ = _
      rw [poke_ne (by omega)]
      show poke _ _ _ _ = _
      rw [poke_eq]
      show poke _ _ _ _ = _
      rw [poke_ne (by omega)]
      exact poke_ne (by omega)
    · intro x hx x0 x1 x2
      have := plain_nat hx
      have i0 : x.toNat ≠ s.sp.toNat := fun e => x0 (BitVec.eq_of_toNat_eq e)
      have i1 : x.toNat ≠ (s.sp - 1).toNat := fun e => x1 (BitVec.eq_of_toNat_eq e)
      have i2 : x.toNat ≠ (s.sp - 2).toNat := fun e => x2 (BitVec.eq_of_toNat_eq e)
      show poke _ _ _ _ = _
      rw [poke_ne (by omega)]
      show poke _ _ _ _ = _
      rw [poke_ne i2]
      show poke _ _ _ _ = _
      rw [poke_ne i0]
      exact poke_ne i1

/-- **C106** RTC takes the page and the address from the stack. -/
theorem c106_rtc (u : Cpu9) (hq : Quiet u.pc) (hc : (busRead u.m u.pc).1 = 0x8d#8) (h1 : Plain (u.sp + 1)) (h2 : Plain (u.sp + 2)) (h3 : Plain (u.sp + 3)) :
    ∃ r, step9 u = some r ∧ r.page = u.ram (u.sp + 1) ∧ r.pc = (u.ram (u.sp + 2)).toNat * 256 + (u.ram (u.sp + 3)).toNat ∧
      r.sp = u.sp + 3 ∧ r.ticks = u.ticks + 7 ∧ (∀ x, Plain x → r.ram x = u.ram x) ∧ r.m.las = u.m.las ∧ r.m.lin = u.m.lin ∧
      r.a = u.a ∧ r.h = u.h ∧ r.x = u.x ∧ r.p = u.p := by
  have n1 := plain_nat h1
  have n2 := plain_nat h2
  have n3 := plain_nat h3
  have r1 : ∀ m, busRead m (u.sp + 1).toNat = (m.low (u.sp + 1).toNat, m) := fun m => busRead_low m _ (by unfold Quiet; omega) n1.2
  have s2 : u.sp + 1 + 1 = u.sp + 2 := by rw [BitVec.add_assoc]; rfl
  have s3 : u.sp + 1 + 2 = u.sp + 3 := by rw [BitVec.add_assoc]; rfl
  have r2 : ∀ m, busRead m (u.sp + 2).toNat = (m.low (u.sp + 2).toNat, m) := fun m => busRead_low m _ (by unfold Quiet; omega) n2.2
  have r3 : ∀ m, busRead m (u.sp + 3).toNat = (m.low (u.sp + 3).toNat, m) := fun m => busRead_low m _ (by unfold Quiet; omega) n3.2
  have w78 : ∀ m v, busWrite m 0x78 v = setLow m 0x78 v := fun m v => busWrite_low m _ v (by decide) (by decide)
  refine ⟨{ u with pc := (u.m.low (u.sp + 2).toNat).toNat * 256 + (u.m.low (u.sp + 3).toNat).toNat, sp := u.sp + 3, ticks := u.ticks + 1 + 6, m := setLow u.m 0x78 (u.m.low (u.sp + 1).toNat) }, ?_, ?_⟩
  · unfold step9 rtc9 pop19 pop29 fetch9 tick9
    simp only [busRead_quiet u.m u.pc hq, hc, r1, s2, s3, r2, r3, w78]
    rfl
  · refine ⟨page_set _ _ rfl, rfl, rfl, rfl, ?_, rfl, rfl, rfl, rfl, rfl, rfl⟩
    intro x hx
    have := plain_nat hx
    exact poke_ne (by omega)

/-- **C106** A subroutine entered with CALL and left with RTC returns to the instruction after the CALL, in
the caller's page and with the caller's stack pointer, whatever it did, if it kept the three bytes on the stack. -/
theorem c106_round (s t u : Cpu9) (p : Byte) (a : Word) (h : CallAt s p a) (h0 : Plain s.sp) (h1 : Plain (s.sp - 1)) (h2 : Plain (s.sp - 2))
    (ht : step9 s = some t) (hsp : u.sp = t.sp) (k0 : u.ram s.sp = t.ram s.sp) (k1 : u.ram (s.sp - 1) = t.ram (s.sp - 1))
    (k2 : u.ram (s.sp - 2) = t.ram (s.sp - 2)) (hq : Quiet u.pc) (hc : (busRead u.m u.pc).1 = 0x8d#8) :
    ∃ r, step9 u = some r ∧ r.pc = (s.pc + 4) % 0x10000 ∧ r.page = s.page ∧ r.sp = s.sp := by
  obtain ⟨t', g0, g1, g2, g3, g4, g5, g6, g7, g8⟩ := c106_call s p a h h0 h1 h2
  rw [g0] at ht; injection ht with ht; subst ht
  rw [g3] at hsp
  have e1 : u.sp + 1 = s.sp - 2 := by
    rw [hsp]; apply BitVec.eq_of_toNat_eq; simp only [BitVec.toNat_add, BitVec.toNat_sub]; simp; omega
  have e2 : u.sp + 2 = s.sp - 1 := by
    rw [hsp]; apply BitVec.eq_of_toNat_eq; simp only [BitVec.toNat_add, BitVec.toNat_sub]; simp; omega
  have e3 : u.sp + 3 = s.sp := by rw [hsp, BitVec.sub_add_cancel]
  obtain ⟨r, q0, q1, q2, q3, _⟩ := c106_rtc u hq hc (by rw [e1]; exact h2) (by rw [e2]; exact h1) (by rw [e3]; exact h0)
  refine ⟨r, q0, ?_, ?_, by rw [q3, e3]⟩
  · rw [q2, e2, e3, k0, k1, g5, g6]
    simp only [BitVec.toNat_ofNat]
    omega
  · rw [q1, e1, k2, g7]

/-! Example: CALL 6,9123 at 8010 in page 4; there INCX (not CALL or RTC) is skipped by hand. -/
def mmu1 : Mmu :=
  ⟨fun i => if i = 0x78 then 4#8 else 0#8,
   fun i => if i = 0x10010 then 0xac#8 else if i = 0x10011 then 6#8 else if i = 0x10012 then 0x91#8 else if i = 0x10013 then 0x23#8 else
     if i = 0x19123 then 0x8d#8 else 0x9d#8, 0, 0#8⟩
def cpu1 : Cpu9 := ⟨1#8, 0x60#8, 2#8, 3#8, 0x17f#16, 0x8010, 0, mmu1⟩
example : CallAt cpu1 6#8 0x9123#16 ∧ Plain cpu1.sp ∧ Plain (cpu1.sp - 1) ∧ Plain (cpu1.sp - 2) := by
  refine ⟨⟨by decide, ?_, by decide +kernel, by decide +kernel, by decide +kernel⟩, by decide, by decide, by decide⟩
  decide
example : ((step9 cpu1).map fun t => (t.pc, t.page, t.sp)) = some (0x9123, 6#8, 0x17c#16) := by decide +kernel
example : (((step9 cpu1).bind step9).map fun t => (t.pc, t.page, t.sp, t.ticks)) = some (0x8014, 4#8, 0x17f#16, 15) := by decide +kernel

/-! ### C107 -/

/-- The instructions of the 9S08 that are not in the HCS08 have the right length in listings. -/
theorem c107_own_partial (s : St) (addr : Nat) : (rd s addr = 0xac#8 → instLength9 s addr = 4) ∧ (rd s addr = 0x8d#8 → instLength9 s addr = 1) := by
  constructor
  all_goals
    intro h
    unfold instLength9
    rw [h]; rfl

/-- Everything else has the length of the instruction that would begin one byte later. -/
theorem c107_others_partial (s : St) (addr : Nat) (h1 : rd s addr ≠ 0xac#8) (h2 : rd s addr ≠ 0x8d#8) : instLength9 s addr = instLength s (addr + 1) := by
  unfold instLength9 dis9s08
  rw [List.find?_cons_of_neg (by simpa using fun e => h1 e.symm), List.find?_cons_of_neg (by simpa using fun e => h2 e.symm)]; rfl

/-- **C107 is false**: LDA #$4a is listed as one byte long (it has two). -/
theorem c107_false_length : ∃ s : St, Live s ∧ (abs s).len true = 2 ∧ instLength9 s s.pc = 1 :=
  ⟨demo false 0 0 0 0 (bytes 0x200 [0xa6#8, 0x4a#8]), by decide +kernel, by decide +kernel, by decide +kernel⟩

/-- **C107 is false**: the instructions the HCS08 has and the M68HC08 has not are refused by the 9S08. -/
theorem c107_false_hcs08 (s : St) (h8 : s.s08 = s08of9) (hv : s.vector = false) (hc : rd s s.pc = 0x32#8 ∨ rd s s.pc = 0x96#8 ∨ rd s s.pc = 0x3e#8) :
    (step s).1 = .inv ∧ Isa.decode true (rd s s.pc) ≠ .other := by
  have e : ∀ c, rd s s.pc = c → (execInst s).1 = (if select c = .pre then exec (select9e (fetch (tick 1 (fetch s).2)).1) (fetch (tick 1 (fetch s).2)).1 true (tick 1 (fetch (tick 1 (fetch s).2)).2) else exec (select c) c false (tick 1 (fetch s).2)).1 := by
    intro c hc
    unfold execInst
    rw [hv, if_neg (by decide)]
    rw [← hc]; rfl
  have h8' : (tick 1 (fetch s).2).s08 = false := h8
  unfold step
  rcases hc with hc | hc | hc
  · rw [e _ hc, hc]; refine ⟨?_, by decide⟩
    rw [if_neg (by decide)]
    show (orInv _ (ldhx _ _ _)).1 = _
    simp [ldhx, h8', orInv]
  · rw [e _ hc, hc]; refine ⟨?_, by decide⟩
    rw [if_neg (by decide)]
    show (orInv _ (sthx _ _ _)).1 = _
    simp [sthx, h8', orInv]
  · rw [e _ hc, hc]; refine ⟨?_, by decide⟩
    rw [if_neg (by decide)]
    show (orInv _ (cphx _ _ _)).1 = _
    simp [cphx, h8', orInv]

end Ucsim.H08
