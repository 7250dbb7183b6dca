import Verif.Proof.BankerInit
import Verif.Props.Decoder

/-! # C08: bank switching -/
namespace Ucsim.Props
open Ucsim

/-- Events of a session: memory accesses and definitions of banks. -/
inductive BEv
  | act (x : Spec.Act)
  | addBank (k nr chip cb : Nat)

/-- An event, as the program performs it. -/
def runEv (env : Env) (w : World) : BEv → Option World
  | .act x => some (w.act env x)
  | .addBank k nr chip cb => w.addBank env k nr chip cb

def runEvs (env : Env) : List BEv → World → Option World
  | [], w => some w
  | e :: es, w => (runEv env w e).bind (runEvs env es)

/-- Events of the claim: any write, read or flag change anywhere (selectors
included); debugger-like set and download anywhere but on selectors; the
definition of a bank that is not defined yet and shows no selector. -/
def EvOk (env : Env) (K : Nat → Prop) (w : World) : BEv → Prop
  | .act x => ActFits K w x
  | .addBank k nr chip cb => K k ∧ (w.bankers k).banks nr = none ∧ BankFits env K w k chip cb

/-- Every event of the list is allowed when it happens. -/
def Fine (env : Env) (K : Nat → Prop) : List BEv → World → Prop
  | [], _ => True
  | e :: es, w => EvOk env K w e ∧ ∀ w', runEv env w e = some w' → Fine env K es w'

/-- Selector addresses are 32 bit numbers. -/
def Sel32 (K : Nat → Prop) (w : World) : Prop :=
  ∀ k, K k → ∀ sp a, (w.bankers k).selAt sp a → a < 4294967296

theorem evs_inStep {env : Env} {K : Nat → Prop} (es : List BEv) : ∀ w, InStep env K w → Sel32 K w → Fine env K es w →
    ∃ w', runEvs env es w = some w' ∧ InStep env K w' := by
  induction es with
  | nil => intro w H _ _; exact ⟨w, rfl, H⟩
  | cons e es ih =>
    intro w H h32 hf
    obtain ⟨hok, hrest⟩ := hf
    cases e with
    | act x =>
      obtain ⟨h1, h2, _⟩ := act_inStep H x hok h32
      have h32' : Sel32 K (w.act env x) := by
        intro k hk sp a hs; rw [h2.selAt] at hs; exact h32 k hk sp a hs
      obtain ⟨w', r1, r2⟩ := ih _ h1 h32' (hrest _ rfl)
      exact ⟨w', by simp only [runEvs, runEv, Option.bind_some, r1], r2⟩
    | addBank k nr chip cb =>
      obtain ⟨hk, hfree, hfit⟩ := hok
      obtain ⟨w1, q1, q2, _, _, q5⟩ := addBank_inStep H (nr := nr) hk hfree hfit
      have h32' : Sel32 K w1 := by
        intro j hj sp a hs
        obtain ⟨x, hx⟩ := q5 j
        rw [hx] at hs; exact h32 j hj sp a hs
      obtain ⟨w', r1, r2⟩ := ih _ q2 h32' (hrest _ q1)
      exact ⟨w', by simp only [runEvs, runEv, q1, Option.bind_some, r1], r2⟩

/-- C08, any number of bankers.  Bankers K in step with their selectors, any
history of accesses and bank definitions: nothing is accessed out of the bank
tables, and afterwards, for every banker whose wanted bank (computed from the
contents of the selectors, see `c08_number_one` and `c08_number_two`) is
defined as chip m from element cb, every address of the banked area leads to
the corresponding element of m (or nowhere if the chip has no such element). -/
theorem c08_follows_partial (env : Env) (K : Nat → Prop) (w : World) (H : InStep env K w) (h32 : Sel32 K w)
    (es : List BEv) (hes : Fine env K es w) :
    ∃ w', runEvs env es w = some w' ∧ w'.ub = false ∧ InStep env K w' ∧
      ∀ k, K k → wanted w' k < (w'.bankers k).nuof ∧
        ∀ m cb, (w'.bankers k).banks (wanted w' k) = some (m, cb) →
          ∀ a, (w'.bankers k).asb ≤ a → a ≤ (w'.bankers k).ase → ∀ m' e,
            DecodedTo env.chips (w'.spaces (w'.bankers k).sp) a m' e ↔
              m' = m ∧ e = (cb + (a - (w'.bankers k).asb)) % 2 ^ 32 ∧ e < (env.chips m).size := by
  obtain ⟨w', r1, r2⟩ := evs_inStep es w H h32 hes
  refine ⟨w', r1, r2.base.ub, r2, ?_⟩
  intro k hk
  refine ⟨r2.base.geo.index k hk _ _, ?_⟩
  intro m cb hb a h1 h2 m' e
  have hs := r2.sync k hk (by rw [hb]; simp)
  obtain ⟨m2, cb2, hb2, har⟩ := (r2.base.placed k hk).placed _ hs
  rw [hb] at hb2; cases hb2
  obtain ⟨a1, a2, a3⟩ := r2.base.geo.area k hk
  have hbd := r2.base.geo.bound (w'.bankers k).sp
  have hc := har (a - (w'.spaces (w'.bankers k).sp).start) ⟨rfl, by omega, by omega, by omega⟩
  rw [show (w'.spaces (w'.bankers k).sp).start + (a - (w'.spaces (w'.bankers k).sp).start) = a by omega] at hc
  have hi : (w'.spaces (w'.bankers k).sp).idx? a = some (a - (w'.spaces (w'.bankers k).sp).start) := by
    rw [idx?_eq _ _ (by omega) (by omega), if_pos (by omega)]
  rw [decodedTo_iff hi hc]
  unfold u32
  constructor
  · rintro ⟨rfl, rfl, h⟩; exact ⟨rfl, rfl, h⟩
  · rintro ⟨rfl, rfl, h⟩; exact ⟨rfl, rfl, h⟩

/-- The wanted bank of a banker with one selector: bits p..p+r-1 of it. -/
theorem c08_number_one (w : World) (k selSp selAddr p r sp asb ase : Nat) {x : Option Nat}
    {y : Nat → Option (Nat × Nat)}
    (h : w.bankers k = { mkBanker1 selSp selAddr p r sp asb ase with bank := x, banks := y }) :
    wanted w k = (w.get selSp selAddr).2.toNat / 2 ^ p % 2 ^ r := by
  unfold wanted selVal
  rw [h]
  exact index1 selSp selAddr p r sp asb ase _ 0#32

/-- The wanted bank of a banker with two selectors. -/
theorem c08_number_two (w : World) (k selSp selAddr p r sp2 a2 p2 r2 s sp asb ase : Nat) {x : Option Nat}
    {y : Nat → Option (Nat × Nat)} (h3 : 1 ≤ r2) (h4 : p2 + r2 ≤ 31) (hs : s + r2 ≤ 32)
    (h : w.bankers k = { mkBanker2 selSp selAddr p r sp2 a2 p2 r2 s sp asb ase with bank := x, banks := y }) :
    wanted w k = ((w.get selSp selAddr).2.toNat / 2 ^ p % 2 ^ r) |||
      (((w.get sp2 a2).2.toNat / 2 ^ p2 % 2 ^ r2) * 2 ^ s) := by
  unfold wanted selVal
  rw [h]
  exact index2 selSp selAddr p r sp2 a2 p2 r2 s sp asb ase h3 h4 hs _ _

/-- Without bankers everything is in step. -/
theorem c08_start (env : Env) (w : World) (hb : ∀ sp, (w.spaces sp).start + (w.spaces sp).size < 2 ^ 32)
    (hd : ∀ sp, (w.spaces sp).dummy.ptr = defPtr ∧ quietOps (w.spaces sp).dummy.ops)
    (hq : ∀ sp i, i < (w.spaces sp).size → quietOps ((w.spaces sp).cells i).ops) (hu : w.ub = false) :
    InStep env (fun _ => False) w := by
  refine ⟨⟨?_, hu, fun _ h => h.elim⟩, fun _ h => h.elim⟩
  constructor
  case bound => exact hb
  case dptr => exact fun sp => (hd sp).1
  case dops => exact fun sp => (hd sp).2
  case ops =>
    intro sp i hi o ho
    rcases hq sp i hi o ho with h | h
    · exact .inl h
    · exact .inr (.inl h)
  all_goals (intro _ h; exact h.elim)

/-- Creating a banker with one selector whose mask is a run of ones. -/
theorem c08_init_one (env : Env) (K : Nat → Prop) (w : World) (H : InStep env K w)
    (k selSp selAddr p r sp asb ase : Nat) (hk : ¬ K k) (h1 : 1 ≤ r) (h2 : p + r ≤ 31) (h3 : r ≤ 30)
    (F : BankerFits env.chips K w.spaces w.bankers (mkBanker1 selSp selAddr p r sp asb ase)) :
    ∃ w', w.bankerInit k selSp selAddr (fieldMask p r) none 0#32 0 sp asb ase = some w' ∧
      InStep env (fun j => K j ∨ j = k) w' ∧ w'.bankers = upd w.bankers k (mkBanker1 selSp selAddr p r sp asb ase) := by
  obtain ⟨i, hi⟩ := F.idx selSp selAddr (.inl ⟨rfl, rfl⟩)
  obtain ⟨w', r1, r2⟩ := init1 w k selSp selAddr p r sp asb ase h1 h2 h3 hi
  exact ⟨w', r1, inited_inStep H hk F r2, r2.bankers⟩

/-- Creating a banker with two selectors. -/
theorem c08_init_two (env : Env) (K : Nat → Prop) (w : World) (H : InStep env K w)
    (k selSp selAddr p r sp2 a2 p2 r2 s sp asb ase : Nat) (hk : ¬ K k) (h1 : 1 ≤ r) (h2 : p + r ≤ 31)
    (h3 : 1 ≤ r2) (h4 : p2 + r2 ≤ 31) (h5 : r + r2 ≤ 30)
    (F : BankerFits env.chips K w.spaces w.bankers (mkBanker2 selSp selAddr p r sp2 a2 p2 r2 s sp asb ase)) :
    ∃ w', w.bankerInit k selSp selAddr (fieldMask p r) (some (sp2, a2)) (fieldMask p2 r2) s sp asb ase = some w' ∧
      InStep env (fun j => K j ∨ j = k) w' ∧
      w'.bankers = upd w.bankers k (mkBanker2 selSp selAddr p r sp2 a2 p2 r2 s sp asb ase) := by
  have hne := (maskScan_field p2 r2 h3 h4).2
  obtain ⟨i, hi⟩ := F.idx selSp selAddr (.inl ⟨rfl, rfl⟩)
  obtain ⟨i2, hi2⟩ := F.idx sp2 a2 (.inr ⟨rfl, hne⟩)
  obtain ⟨w', r1, r2⟩ := init2 w k selSp selAddr p r sp2 a2 p2 r2 s sp asb ase h1 h2 h3 h4 h5 hi hi2
  exact ⟨w', r1, inited_inStep H hk F r2, r2.bankers⟩

/-- The table of a banker with two selectors is large enough if the second
number is not shifted farther than the width of the first. -/
theorem c08_two_in_table (v1 v2 p r p2 r2 s : Nat) (hs : s ≤ r) :
    (v1 / 2 ^ p % 2 ^ r) ||| ((v2 / 2 ^ p2 % 2 ^ r2) * 2 ^ s) < 2 ^ (r + r2) := by
  apply Nat.or_lt_two_pow
  · exact Nat.lt_of_lt_of_le (Nat.mod_lt _ (Nat.two_pow_pos _)) (Nat.pow_le_pow_right (by omega) (by omega))
  · calc v2 / 2 ^ p2 % 2 ^ r2 * 2 ^ s < 2 ^ r2 * 2 ^ s :=
        Nat.mul_lt_mul_of_pos_right (Nat.mod_lt _ (Nat.two_pow_pos _)) (Nat.two_pow_pos _)
      _ = 2 ^ (r2 + s) := by rw [← Nat.pow_add]
      _ ≤ 2 ^ (r + r2) := Nat.pow_le_pow_right (by omega) (by omega)

/-! ### A concrete session: the register banks of an 8051-like machine -/

/-- Chip 0: 256 bytes (registers of the machine), chip 1: 32 bytes. -/
def bankEnv : Env :=
  { chips := fun k => if k = 0 then ⟨256, 8⟩ else ⟨32, 8⟩
    hwRead := fun _ r w => (w, w.cget r)
    hwWrite := fun _ _ w v => (w, v)
    cond := fun _ _ => true
    rnd := fun _ => 0#32 }

/-- Space 0: 256 cells decoded to chip 0; space 1: 8 cells, not decoded. -/
def bankWorld : World :=
  { bytes := fun _ _ => 0#8
    spaces := fun sp =>
      if sp = 0 then
        ⟨0, 256, 8, true, fun i => (newCell 8).decode (some ⟨some 0, i⟩), newDummy 8, []⟩
      else if sp = 1 then newSpace 0 8 8 true
      else newSpace 0 0 8 true
    bankers := fun _ => ⟨0, 0, 0#32, none, 0#32, 0, 0, 0, 0, 0, 0, 0, fun _ => none, none⟩
    brks := fun _ => ⟨1, 1, false⟩
    events := []
    errors := []
    nrnd := 0
    ub := false }

theorem bankWorld_start : InStep bankEnv (fun _ => False) bankWorld := by
  apply c08_start
  · intro sp; simp only [bankWorld]; split
    · decide
    · split <;> decide
  · intro sp; simp only [bankWorld]; split
    · exact ⟨rfl, by intro o h; cases h⟩
    · split <;> exact ⟨rfl, by intro o h; cases h⟩
  · intro sp i _ o; simp only [bankWorld]; split
    · intro h; cases h
    · split <;> (intro h; cases h)
  · rfl

theorem bankWorld_fits :
    BankerFits bankEnv.chips (fun _ => False) bankWorld.spaces bankWorld.bankers (mkBanker1 0 208 3 2 1 0 7) := by
  have hsel : ∀ sp i, IsSel bankWorld.spaces (mkBanker1 0 208 3 2 1 0 7) sp i → sp = 0 ∧ i = 208 := by
    rintro sp i ⟨a, h | h, hi⟩
    · obtain ⟨rfl, rfl⟩ := h
      have h2 : (bankWorld.spaces 0).idx? 208 = some 208 := by decide
      have h3 : (bankWorld.spaces 0).idx? 208 = some i := hi
      rw [h2] at h3
      exact ⟨rfl, (Option.some.inj h3).symm⟩
    · exact absurd h.2 (by simp [mkBanker1])
  constructor
  case idx =>
    rintro sp a (h | h)
    · obtain ⟨rfl, rfl⟩ := h; exact ⟨208, by decide⟩
    · exact absurd h.2 (by simp [mkBanker1])
  case blk => intro sp i h; obtain ⟨rfl, rfl⟩ := hsel sp i h; decide
  case plain => intro sp i h; obtain ⟨rfl, rfl⟩ := hsel sp i h; exact ⟨by decide, by decide, by decide, by decide⟩
  case apart =>
    intro sp i h sp' i' hi' hne
    obtain ⟨rfl, rfl⟩ := hsel sp i h
    unfold Apart2
    by_cases h0 : sp' = 0
    · subst h0
      have hne' : i' ≠ 208 := fun h => hne (by rw [h])
      right
      show i' + 1 ≤ 208 ∨ 208 + 1 ≤ i'
      omega
    · left
      simp only [bankWorld, h0, if_false]
      split <;> simp [newSpace, newCell, defPtr, Cell.decode]
  case area => decide
  case areaSelf =>
    intro sp i h h'
    have h1 : sp = 1 := h.1
    have h0 := (hsel sp i h').1
    omega
  case index =>
    intro v1 v2
    rw [index1]
    exact Nat.mod_lt _ (by decide)
  case banks => intro b; rfl
  case bank => rfl
  all_goals (intro j h; exact h.elim)

/-- After set-up, the four banks are defined, then 0x08 is written to the
selector at 0xd0 of space 0: address 3 of the banked space is element 11. -/
def bankRun : Option World :=
  (bankWorld.bankerInit 0 0 208 (fieldMask 3 2) none 0#32 0 1 0 7).bind
    (runEvs bankEnv [.addBank 0 0 1 0, .addBank 0 1 1 8, .addBank 0 2 1 16, .addBank 0 3 1 24,
      .act (.write 0 208 8#32)])

def cellAt (w : World) (sp i : Nat) : Option Nat × Nat × Bool :=
  (((w.spaces sp).cells i).ptr.blk, ((w.spaces sp).cells i).ptr.off, ((w.spaces sp).cells i).nonDec)

example : (bankRun.map fun w => (cellAt w 1 3, w.ub)) = some ((some 1, 11, false), false) := by decide +kernel
/-- ... and the hypotheses of `c08_follows_partial` hold for that session. -/
theorem c08_session : ∃ w, bankWorld.bankerInit 0 0 208 (fieldMask 3 2) none 0#32 0 1 0 7 = some w ∧
    InStep bankEnv (fun j => False ∨ j = 0) w ∧ Sel32 (fun j => False ∨ j = 0) w ∧
    Fine bankEnv (fun j => False ∨ j = 0) [.addBank 0 1 1 8, .act (.write 0 208 8#32)] w := by
  obtain ⟨w, h1, h2, h3⟩ := c08_init_one bankEnv (fun _ => False) bankWorld bankWorld_start 0 0 208 3 2 1 0 7
    (fun h => h) (by decide) (by decide) (by decide) bankWorld_fits
  refine ⟨w, h1, h2, ?_, ?_⟩
  · rintro k (h | rfl) sp a hs
    · exact h.elim
    · rw [h3, upd_same] at hs
      rcases hs with ⟨_, rfl⟩ | ⟨_, h⟩
      · decide
      · exact absurd h (by simp [mkBanker1])
  · refine ⟨⟨.inr rfl, by rw [h3, upd_same]; rfl, ?_⟩, fun w' _ => ⟨(show (208 : Nat) < 4294967296 by decide), fun _ _ => trivial⟩⟩
    intro j hj sp i ha sp' i' hs
    have hj : j = 0 := by rcases hj with h | h; exact h.elim; exact h
    subst hj
    rw [h3, upd_same] at ha
    obtain ⟨w1, r1, r2⟩ := init1 bankWorld 0 0 208 3 2 1 0 7 (by decide) (by decide) (by decide)
      (i := 208) (by decide)
    have hw : w1 = w := by rw [h1] at r1; exact (Option.some.inj r1).symm
    subst hw
    have ho := r2.ops
    rw [h3, upd_same, ho.isSel] at hs
    rw [ho.apart']
    obtain ⟨a, h | h, hi⟩ := hs
    · obtain ⟨rfl, rfl⟩ := h
      have e2 : (bankWorld.spaces 0).idx? 208 = some 208 := by decide
      have e3 : (bankWorld.spaces 0).idx? 208 = some i' := hi
      rw [e2] at e3
      cases e3
      left
      rw [decode_ptr]
      unfold getSlot
      split
      · decide
      · show (some 1 : Option Nat) ≠ some 0; decide
    · exact absurd h.2 (by simp [mkBanker1])

/-! ### What is not true of the code -/

/-- Replacing the bank in use undecodes the area, and the new bank gets in force
only when the selector asks for another one first: after the bank 1 (in use) is
redefined, address 3 is undecoded although the selector still asks for bank 1. -/
theorem c08_false_redefine :
    ((bankRun.bind fun w => w.addBank bankEnv 0 1 1 0).map fun w => (cellAt w 1 3, wanted w 0)) =
      some ((none, 0, true), 1) := by decide +kernel

/-- A mask with a hole: bits 0 and 2.  The table has two members, value 5 of the
selector asks for number 5, an access out of the table. -/
theorem c08_false_hole :
    ((bankWorld.bankerInit 0 0 208 5#32 none 0#32 0 1 0 7).map fun w =>
      ((w.bankers 0).nuof, ((w.write bankEnv 0 208 5#32).1.ub))) = some (2, true) := by decide +kernel

/-- A mask that contains bit 31: creating the banker never ends. -/
theorem c08_false_bit31 (selSp selAddr sp asb ase k : Nat) (w : World) :
    w.bankerInit k selSp selAddr 0x80000000#32 none 0#32 0 sp asb ase = none := by
  have h : maskScan 0x80000000#32 = none := by decide
  have h0 : (0x80000000#32 : W) ≠ 0#32 := by decide
  unfold World.bankerInit
  rw [if_neg h0, h]; rfl

/-- A selector changed from the debugger (`set`, `download`) does not switch. -/
theorem c08_false_set :
    (bankRun.map fun w =>
      let w' := w.set bankEnv 0 208 16#32
      (wanted w' 0, cellAt w' 1 3)) = some (2, (some 1, 11, false)) := by decide +kernel

/-- A write to the selector is also a read of it: the read event break number 7
on the selector cell is reported by a write. -/
theorem c08_write_reads_selector :
    (bankRun.map fun w =>
      (((w.setCell (.cell 0 208) { w.cell (.cell 0 208) with ops := .rd 7 :: (w.cell (.cell 0 208)).ops }).write
        bankEnv 0 208 16#32).1.events)) = some [7] := by decide +kernel

end Ucsim.Props
