import Verif.Proof.MemMisc
import Verif.Props.Mem

/-! # C10 - C13: slots, address normalisation, search, operators; C43, C44 -/
namespace Ucsim.Props
open Ucsim

/-! ### C10 -/

/-- C10, exact range of truth: for an element e of a chip, is_slot of its
get_slot address gives e back iff the elements are wider than 16 bits or e = 0.
(For 8 bit chips it returns e div 8, for 16 bit chips e div 4.) -/
theorem c10_partial (chips : Nat → Chip) (k e : Nat) (p : Ptr) (hw : (chips k).width ≤ 32)
    (h : getSlot chips k e = some p) :
    (chips k).isSlot p.off = some (if (chips k).width ≤ 8 then e / 8 else if (chips k).width ≤ 16 then e / 4 else e) ∧
    ((chips k).isSlot p.off = some e ↔ (16 < (chips k).width ∨ e = 0)) := by
  unfold getSlot at h
  split at h
  · cases h
  rename_i hsz
  cases h
  have key : (chips k).isSlot (e * (chips k).bwidth) =
      some (if (chips k).width ≤ 8 then e / 8 else if (chips k).width ≤ 16 then e / 4 else e) := by
    unfold Chip.isSlot Chip.allocSize Chip.bwidth
    by_cases h8 : (chips k).width ≤ 8
    · simp only [h8, if_true, show (chips k).width ≤ 16 by omega, hw]
      rw [if_neg (by omega)]
      congr 1; omega
    · by_cases h16 : (chips k).width ≤ 16
      · simp only [h8, if_false, if_true, h16, hw]
        rw [if_neg (by omega)]
        congr 1; omega
      · simp only [h8, if_false, if_true, h16, hw]
        rw [if_neg (by omega)]
        congr 1; omega
  refine ⟨key, ?_⟩
  show (chips k).isSlot (e * (chips k).bwidth) = some e ↔ _
  rw [key, Option.some.injEq]
  split
  · constructor
    · intro h; right; omega
    · rintro (h | h) <;> omega
  · split
    · constructor
      · intro h; right; omega
      · rintro (h | h) <;> omega
    · constructor
      · intro _; left; omega
      · intro _; rfl

/-- Witness: element 9 of an 8 bit chip is reported as element 1. -/
theorem c10_false : ((getSlot (fun _ => ⟨16, 8⟩) 0 9).bind fun p => (⟨16, 8⟩ : Chip).isSlot p.off) = some 1 := by decide

/-! ### C11 -/

/-- C11, inc_address is always valid. -/
theorem c11_inc_valid (start size addr : Nat) (val : Int) (hs : 1 ≤ size) (hb : start + size < 2 ^ 32) :
    ∃ r, incAddr start size addr val = some r ∧ start ≤ r ∧ r < start + size ∧ validAddr start size r = true := by
  unfold incAddr
  rw [if_neg (by omega)]
  have hv : ∀ r, start ≤ r → r < start + size → validAddr start size r = true := by
    intro r h1 h2; unfold validAddr u32; simp; omega
  split
  · rename_i h0
    have := Nat.mod_lt ((addr + val) % 4294967296).toNat (show size > 0 by omega)
    exact ⟨_, rfl, by omega, by omega, hv _ (by omega) (by omega)⟩
  · have := Nat.mod_lt ((subU addr start + val) % 4294967296).toNat (show size > 0 by omega)
    have hu : ∀ x, x < size → u32 (x + start) = x + start := by intro x hx; unfold u32; omega
    rw [hu _ this]
    exact ⟨_, rfl, by omega, by omega, hv _ (by omega) (by omega)⟩

/-- C11, the part of congruence that holds: when address + value is not below
the beginning of the memory nor reaches 2^32. -/
theorem c11_inc_congr_partial (start size addr r : Nat) (val : Int) (hs : 1 ≤ size) (hb : start + size < 2 ^ 32)
    (ha : start ≤ addr) (ha2 : addr < 2 ^ 32) (hlo : (start : Int) ≤ addr + val) (hhi : (addr : Int) + val < 2 ^ 32)
    (h : incAddr start size addr val = some r) :
    (r : Int) % size = ((addr : Int) + val - start + start) % size ∧ ((r : Int) - start) % size = (addr + val - start) % size := by
  obtain ⟨n, hn⟩ : ∃ n : Nat, (addr : Int) + val = n := ⟨((addr : Int) + val).toNat, by omega⟩
  have key : r = start + (n - start) % size := by
    unfold incAddr at h
    rw [if_neg (by omega)] at h
    split at h
    · rename_i h0
      cases h
      rw [hn, show ((n : Int) % 4294967296).toNat = n by omega]
      simp [h0]
    · cases h
      have hsub : subU addr start = addr - start := by unfold subU; omega
      rw [hsub, show (((addr - start : Nat) : Int) + val) % 4294967296 = ((n - start : Nat) : Int) by omega]
      simp only [Int.toNat_natCast]
      have := Nat.mod_lt (n - start) (show size > 0 by omega)
      unfold u32; omega
  have hle : start ≤ n := by omega
  have e2 : ((r : Int) - start) = ((n - start : Nat) : Int) % size := by
    rw [key]; push_cast; omega
  have e3 : ((r : Int) - start) % size = (addr + val - start) % size := by
    rw [e2, Int.emod_emod, hn]; congr 1; omega
  refine ⟨?_, e3⟩
  have : (r : Int) % size = (((r : Int) - start) + start) % size := by congr 1; omega
  rw [this, Int.add_emod, e3, ← Int.add_emod]

/-- Counter examples: one below 0 in a memory of 3 cells should be address 2,
but is 0; in a memory of 3 cells from 5, one below 5 should be 7, but is 5. -/
theorem c11_false_inc : incAddr 0 3 0 (-1) = some 0 ∧ incAddr 5 3 5 (-1) = some 5 := by decide

/-- C11, validate_address: always ends; except for the address just after the
end of the memory the result is a valid address congruent to the argument. -/
theorem c11_validate_partial (start size addr : Nat) (hs : 1 ≤ size) (hb : start + size < 2 ^ 32) (ha : addr < 2 ^ 32)
    (hne : addr ≠ start + size) :
    ∃ r, validateAddr start size addr = some r ∧ start ≤ r ∧ r < start + size ∧ r % size = addr % size := by
  obtain ⟨a, k, r1, r2, r3, r4⟩ := raiseLoop_run start size hs (by omega) (start + 1) addr (by omega) (by omega)
  unfold validateAddr
  rw [r1]
  simp only [Option.bind_some]
  have hu : u32 (start + size) = start + size := by unfold u32; omega
  rw [hu]
  have hcong : a % size = addr % size := by rw [r3, Nat.add_mul_mod_self_right]
  by_cases hlt : addr < start
  · have := r4 hlt
    rw [if_neg (by omega)]
    exact ⟨a, rfl, r2, this, hcong⟩
  · have hk : a = addr := by
      have : raiseLoop start size (start + 1) addr = some addr := by unfold raiseLoop; rw [if_neg hlt]
      rw [this] at r1; cases r1; rfl
    by_cases hgt : a > start + size
    · rw [if_pos hgt, if_neg (by omega)]
      have hm := Nat.mod_lt (a - start) (show size > 0 by omega)
      have hsub : subU a start = a - start := by unfold subU; omega
      rw [hsub]
      have hu2 : u32 ((a - start) % size + start) = (a - start) % size + start := by unfold u32; omega
      rw [hu2]
      refine ⟨_, rfl, by omega, by omega, ?_⟩
      rw [Nat.mod_add_mod, ← hcong]; congr 1; omega
    · rw [if_neg hgt]
      exact ⟨a, rfl, r2, by omega, hcong⟩

/-- ... and for that address the result is invalid, for every memory. -/
theorem c11_false_validate (start size : Nat) (hs : 1 ≤ size) (hb : start + size < 2 ^ 32) :
    validateAddr start size (start + size) = some (start + size) ∧ validAddr start size (start + size) = false := by
  have h1 : raiseLoop start size (start + 1) (start + size) = some (start + size) := by
    unfold raiseLoop; rw [if_neg (by omega)]
  have hu : u32 (start + size) = start + size := by unfold u32; omega
  refine ⟨?_, ?_⟩
  · unfold validateAddr
    rw [h1, hu]
    simp
  · unfold validAddr; rw [hu]; simp

/-! ### C12 -/

/-- Upper case of a character code, ASCII. -/
def upper (d : W) : W := if 97 ≤ d.toNat ∧ d.toNat ≤ 122 then BitVec.ofNat 32 (d.toNat - 32) else d

/-- The pattern occurs at address a of a memory whose addresses are 0..size-1. -/
def Occurs (cs : Bool) (get : Nat → W) (size : Nat) (pat : List W) (a : Nat) : Prop :=
  a + pat.length ≤ size ∧
  ∀ i, (h : i < pat.length) → if cs then get (a + i) = pat[i] else upper (get (a + i)) = upper pat[i]

/-- Characters, if case is ignored. -/
def Chars (cs : Bool) (get : Nat → W) (size : Nat) (pat : List W) : Prop :=
  cs = true ∨ ((∀ a, a < size → (get a).toNat < 256) ∧ ∀ p ∈ pat, p.toNat < 256)

theorem upB_upper (d : W) : upB d = upper d := by
  unfold upB upper
  split
  · rename_i h
    apply BitVec.eq_of_toNat_eq
    rw [BitVec.toNat_sub, BitVec.toNat_ofNat]
    simp only [BitVec.toNat_ofNat]
    omega
  · rfl

theorem matchFrom_occurs {cs : Bool} {get : Nat → W} {size : Nat} {pat : List W} (hsz : size + 1 < 2 ^ 32)
    (hc : Chars cs get size pat) (a : Nat) (h : a + pat.length ≤ size) :
    ∃ b, matchFrom cs get pat a = some b ∧ (b = true ↔ Occurs cs get size pat a) := by
  have hu : ∀ P : Prop, (P ↔ (a + pat.length ≤ size ∧ P)) := fun P => ⟨fun p => ⟨h, p⟩, fun p => p.2⟩
  cases cs with
  | true =>
    obtain ⟨b, h1, h2⟩ := matchFrom_cs get pat a (by omega)
    exact ⟨b, h1, h2.trans (by unfold Occurs; simpa using fun _ => h)⟩
  | false =>
    rcases hc with hc | ⟨hg, hp⟩
    · cases hc
    · obtain ⟨b, h1, h2⟩ := matchFrom_ci get pat a (by omega) (fun i hi => hg _ (by omega)) hp
      refine ⟨b, h1, h2.trans ?_⟩
      unfold Occurs
      simp only [upB_upper]
      simpa using fun _ => h

/-- C12 for memories that begin at address 0, non-empty patterns, start
addresses in the memory: the search ends; true with the first occurrence at or
after the start, false iff there is none. -/
theorem c12_search_partial (cs : Bool) (get : Nat → W) (size : Nat) (pat : List W) (a : Nat)
    (hsz : size + 1 < 2 ^ 32) (hp : pat ≠ []) (ha : a + pat.length < 2 ^ 32) (hc : Chars cs get size pat) :
    ∃ found r, searchNext cs get size pat a = some (found, r) ∧
      (found = true → a ≤ r ∧ Occurs cs get size pat r ∧ ∀ x, a ≤ x → x < r → ¬ Occurs cs get size pat x) ∧
      (found = false → ∀ x, a ≤ x → ¬ Occurs cs get size pat x) := by
  have hlen : 1 ≤ pat.length := List.length_pos_iff.2 hp
  unfold searchNext
  have hu : u32 (a + pat.length) = a + pat.length := by unfold u32; omega
  rw [hu]
  by_cases hgt : a + pat.length > size
  · rw [if_pos hgt]
    refine ⟨false, a, rfl, (by simp), fun _ x hx ho => ?_⟩
    have := ho.1; omega
  · rw [if_neg hgt]
    rcases searchLoop_run (M := Occurs cs get size pat) (by omega) hlen
      (fun x hx => matchFrom_occurs hsz hc x hx) (size + 1) a (by omega) (by omega) (by omega)
      with ⟨r, r1, r2, r3, r4, r5⟩ | ⟨r, r1, r2⟩
    · exact ⟨true, r, r5, fun _ => ⟨r1, r3, r4⟩, by simp⟩
    · exact ⟨false, r, r2, by simp, fun _ x hx ho => r1 x hx ho.1 ho⟩

/-- The `where` command lists exactly the occurrences, in ascending order. -/
theorem c12_where_partial (cs : Bool) (get : Nat → W) (size : Nat) (pat : List W)
    (hsz : size + 1 < 2 ^ 32) (hp : pat ≠ []) (hl : size + pat.length < 2 ^ 32) (hc : Chars cs get size pat) :
    ∃ l, whereCmd cs get size pat = some l ∧ l.Pairwise (· < ·) ∧ ∀ x, x ∈ l ↔ Occurs cs get size pat x := by
  have hlen : 1 ≤ pat.length := List.length_pos_iff.2 hp
  have key : ∀ f a, size < a + f → a ≤ size → ∃ l, whereLoop cs get size pat f a = some l ∧ l.Pairwise (· < ·) ∧
      ∀ x, x ∈ l ↔ a ≤ x ∧ Occurs cs get size pat x := by
    intro f
    induction f with
    | zero => intro a h1 h2; omega
    | succ f ih =>
      intro a h1 h2
      obtain ⟨found, r, e1, e2, e3⟩ := c12_search_partial cs get size pat a hsz hp (by omega) hc
      unfold whereLoop
      rw [e1]
      simp only [Option.bind_some]
      cases found with
      | false =>
        refine ⟨[], rfl, List.Pairwise.nil, fun x => ?_⟩
        constructor
        · intro h; cases h
        · rintro ⟨h, ho⟩; exact absurd ho (e3 rfl x h)
      | true =>
        obtain ⟨g1, g2, g3⟩ := e2 rfl
        have := g2.1
        have hu : u32 (r + 1) = r + 1 := by unfold u32; omega
        obtain ⟨l, k1, k2, k3⟩ := ih (r + 1) (by omega) (by omega)
        rw [if_pos rfl, hu, k1]
        refine ⟨r :: l, rfl, List.pairwise_cons.2 ⟨fun x hx => ((k3 x).1 hx).1, k2⟩, fun x => ?_⟩
        rw [List.mem_cons, k3]
        constructor
        · rintro (rfl | ⟨h1, h2⟩)
          · exact ⟨g1, g2⟩
          · exact ⟨by omega, h2⟩
        · rintro ⟨h1, h2⟩
          by_cases hxr : x = r
          · exact .inl hxr
          · right
            refine ⟨?_, h2⟩
            have : ¬ x < r := fun h => g3 x h1 h h2
            omega
  obtain ⟨l, k1, k2, k3⟩ := key (size + 1) 0 (by omega) (by omega)
  refine ⟨l, ?_, k2, fun x => by rw [k3]; simp⟩
  unfold whereCmd
  rw [if_neg (by omega)]; exact k1

/-- "aB" in "xAbaB": positions 1 and 3 if case is ignored, only 3 otherwise. -/
def exText : Nat → W := fun a => [120#32, 65#32, 98#32, 97#32, 66#32].getD a 0#32
example : whereCmd false exText 5 [97#32, 66#32] = some [1, 3] ∧ whereCmd true exText 5 [97#32, 66#32] = some [3] := by
  decide
example : Chars false exText 5 [97#32, 66#32] :=
  .inr ⟨fun a ha => by
    have : a = 0 ∨ a = 1 ∨ a = 2 ∨ a = 3 ∨ a = 4 := by omega
    rcases this with rfl | rfl | rfl | rfl | rfl <;> (show _ < 256; simp [exText]), by simp⟩

/-- False of memories that do not begin at 0: a memory of 4 cells from address 8
holding 1 2 3 4 contains 3, but the addresses 0..3 are searched.  `get` outside
of the memory reads the dummy cell (here 0). -/
theorem c12_false_start : searchNext true (fun a => if 8 ≤ a ∧ a < 12 then BitVec.ofNat 32 (a - 7) else 0#32) 4 [3#32] 8 =
    some (false, 8) ∧
    searchNext true (fun a => if 8 ≤ a ∧ a < 12 then BitVec.ofNat 32 (a - 7) else 0#32) 4 [3#32] 0 = some (false, 4) := by
  decide

/-- A 16 bit word above 0xff in a search that ignores case is an out of range
argument of isalpha. -/
theorem c12_false_wide (p : W) : searchNext false (fun _ => 0x1234#32) 4 [p] 0 = none := by
  have h : upperC 0x1234#32 = none := by decide
  simp [searchNext, searchLoop, matchFrom, h, u32]

/-! ### C13 -/

/-- What a user does with operators of a cell. -/
inductive OpAct
  | append (o : OpObj) | prepend (o : OpObj) | remove (id : Nat) | delBrk (bp : Nat) | delHw (h : Nat)

/-- As the program does it; `none` is undefined behaviour. -/
def opStep (a : OpArr) : OpAct → Option OpArr
  | .append o => some (a.append o)
  | .prepend o => some (a.prepend o)
  | .remove id => some (a.remove id)
  | .delBrk bp => a.del fun o => o.matchBrk bp
  | .delHw h => a.del fun o => o.matchHw h

def opRun (a : OpArr) : List OpAct → Option OpArr
  | [] => some a
  | x :: xs => (opStep a x).bind fun a' => opRun a' xs

/-- Specification: a sequence of operators.  Removals take out exactly the
operators meant, and keep the order of the rest. -/
def opSpec (l : List OpObj) : OpAct → List OpObj
  | .append o => l ++ [o]
  | .prepend o => o :: l
  | .remove id => l.filter fun o => o.id ≠ id
  | .delBrk bp => l.filter fun o => ¬ (o.op = .wr bp ∨ o.op = .rd bp)
  | .delHw h => l.filter fun o => o.op ≠ .hw h

/-- No deletion by breakpoint or peripheral from a cell that has no operators. -/
def opFine (l : List OpObj) : List OpAct → Prop
  | [] => True
  | x :: xs => (match x with
      | .delBrk _ | .delHw _ => l ≠ []
      | _ => True) ∧ opFine (opSpec l x) xs

/-- A NULL-terminated array is never left empty. -/
def opOk (a : OpArr) : Prop := a ≠ some []

theorem matchBrk_iff (o : MOp) (bp : Nat) : o.matchBrk bp = true ↔ (o = .wr bp ∨ o = .rd bp) := by
  cases o <;> simp [MOp.matchBrk]
theorem matchHw_iff (o : MOp) (h : Nat) : o.matchHw h = true ↔ o = .hw h := by
  cases o <;> simp [MOp.matchHw]

/-- C13, the operator array.  For any history of additions and removals (not
deleting from a cell without operators) the operators that accesses walk through
are those of the specification, in its order. -/
theorem c13_history_partial (xs : List OpAct) : ∀ a : OpArr, opOk a → opFine a.list xs →
    ∃ a', opRun a xs = some a' ∧ opOk a' ∧ a'.list = xs.foldl opSpec a.list := by
  induction xs with
  | nil => intro a h _; exact ⟨a, rfl, h, rfl⟩
  | cons x xs ih =>
    intro a h hf
    have step : ∃ a1, opStep a x = some a1 ∧ opOk a1 ∧ a1.list = opSpec a.list x := by
      have fin : ∀ l : List OpObj, opOk (if l = [] then none else some l) ∧
          OpArr.list (if l = [] then none else some l) = l := by
        intro l
        by_cases hl : l = []
        · subst hl; exact ⟨by simp [opOk], rfl⟩
        · rw [if_neg hl]; exact ⟨by simp [opOk, hl], rfl⟩
      cases x with
      | append o =>
        refine ⟨_, rfl, ?_, ?_⟩ <;> cases a <;> simp [OpArr.append, opOk, OpArr.list, opSpec]
      | prepend o =>
        refine ⟨_, rfl, ?_, ?_⟩ <;> cases a <;> simp [OpArr.prepend, opOk, OpArr.list, opSpec]
      | remove id =>
        cases a with
        | none => exact ⟨none, rfl, by simp [opOk], rfl⟩
        | some l =>
          refine ⟨_, rfl, ?_, ?_⟩
          · simp only [OpArr.remove]; exact (fin _).1
          · simp only [OpArr.remove]
            rw [(fin _).2, keepLoop_eq]
            show _ = l.filter _
            congr 1; funext o; simp [bne]; rfl
      | delBrk bp =>
        cases a with
        | none => exact absurd rfl hf.1
        | some l =>
          refine ⟨_, rfl, (fin _).1, ?_⟩
          rw [(fin _).2, keepLoop_eq]
          show _ = l.filter _
          congr 1; funext o
          rw [Bool.eq_iff_iff]; simp [← matchBrk_iff]
      | delHw hw =>
        cases a with
        | none => exact absurd rfl hf.1
        | some l =>
          refine ⟨_, rfl, (fin _).1, ?_⟩
          rw [(fin _).2, keepLoop_eq]
          show _ = l.filter _
          congr 1; funext o
          rw [Bool.eq_iff_iff]; simp [← matchHw_iff]
    obtain ⟨a1, s1, s2, s3⟩ := step
    obtain ⟨a', t1, t2, t3⟩ := ih a1 s2 (by rw [s3]; exact hf.2)
    refine ⟨a', ?_, t2, ?_⟩
    · simp [opRun, s1, t1]
    · rw [t3, s3]; rfl

/-- C13, adding and removing an operator object that was not there before. -/
theorem c13_add_remove (a : OpArr) (o : OpObj) (hok : opOk a) (hnew : ∀ x ∈ a.list, x.id ≠ o.id) :
    (a.append o).remove o.id = a ∧ (a.prepend o).remove o.id = a := by
  have hf : ∀ l : List OpObj, (∀ x ∈ l, x.id ≠ o.id) → l.filter (fun x => x.id != o.id) = l := by
    intro l hl
    exact List.filter_eq_self.2 fun x hx => by simp [hl x hx]
  cases a with
  | none => simp [OpArr.append, OpArr.prepend, OpArr.remove, keepLoop]
  | some l =>
    have hl : l ≠ [] := fun h => hok (by rw [h])
    have h1 := hf l hnew
    constructor
    · simp [OpArr.append, OpArr.remove, keepLoop_eq, List.filter_append, h1, hl]
    · simp [OpArr.prepend, OpArr.remove, keepLoop_eq, h1, hl]

/-- C13, deleting by breakpoint or peripheral from a cell without operators
writes through a null pointer; unregistering a peripheral does that for every
cell of the space the peripheral is not on (mem.cc 1928-1937). -/
theorem c13_false_null (m : MOp → Bool) : OpArr.del none m = none := rfl

/-- C13, writes: the value goes through the operators in order, the last result
is stored (unless the cell is read only). -/
theorem c13_write (env : Env) (w : World) (sp i : Nat) (v : W) :
    ∀ w1 v1, (w.cell (.cell sp i)).ops.foldl (fun (s : World × W) o => s.1.opWrite env (.cell sp i) s.2 o) (w, v) =
        (w1, v1) →
      (w.cwrite env (.cell sp i) v).1 =
        { w1 with bytes := if (w1.cell (.cell sp i)).ro then w1.bytes else (w1.cell (.cell sp i)).put w1.bytes v1 } := by
  intro w1 v1 h
  have key : ∀ l w v, World.writeOps env (.cell sp i) l w v =
      l.foldl (fun (s : World × W) o => s.1.opWrite env (.cell sp i) s.2 o) (w, v) := by
    intro l
    induction l with
    | nil => intro w v; rfl
    | cons o os ih => intro w v; simp only [World.writeOps, List.foldl_cons]; rw [ih]
  unfold World.cwrite
  simp only [key, h]
  unfold Cell.set
  rfl

/-- A chain: read break 1, peripheral 5, write break 2; removals. -/
example : (opRun none [.append ⟨10, .rd 1⟩, .append ⟨11, .hw 5⟩, .append ⟨12, .wr 2⟩, .prepend ⟨13, .bank 0⟩,
    .delHw 5, .remove 10]).map OpArr.list = some [⟨13, .bank 0⟩, ⟨12, .wr 2⟩] := by decide
example : opFine [] [.append ⟨10, .rd 1⟩, .append ⟨11, .hw 5⟩, .delHw 5, .remove 10] := by
  simp [opFine, opSpec]

/-! ### C43: event breakpoints are transparent -/

/-- C43, writing: on cells without peripherals and bank switchers, breakpoint
operators change neither the memory after a write nor the value read. -/
theorem c43_transparent_partial (env : Env) (w : World) (sp i : Nat) (ops : List MOp) (v : W)
    (hq : quietOps ops) (h0 : ((w.spaces sp).cells i).ops = []) :
    let wb := w.setCell (.cell sp i) { (w.spaces sp).cells i with ops := ops }
    (wb.cwrite env (.cell sp i) v).1.bytes = (w.cwrite env (.cell sp i) v).1.bytes ∧
    (wb.cwrite env (.cell sp i) v).2 = (w.cwrite env (.cell sp i) v).2 ∧
    (wb.cread env (.cell sp i)).1.bytes = (w.cread env (.cell sp i)).1.bytes ∧
    (wb.cread env (.cell sp i)).2 = (w.cread env (.cell sp i)).2 := by
  intro wb
  have hcell : (wb.spaces sp).cells i = { (w.spaces sp).cells i with ops := ops } := by
    show ((upd w.spaces sp _) sp).cells i = _
    simp [upd_same]
  have hbytes : wb.bytes = w.bytes := rfl
  have hops : (wb.cell (.cell sp i)).ops = ops := by show ((wb.spaces sp).cells i).ops = _; rw [hcell]
  have hops0 : (w.cell (.cell sp i)).ops = [] := h0
  have hd : ∀ m, ((wb.spaces sp).cells i).d m = ((w.spaces sp).cells i).d m := by
    intro m; rw [hcell]; rfl
  have hs : ∀ m v, ((wb.spaces sp).cells i).set m v = ((w.spaces sp).cells i).set m v := by
    intro m v; rw [hcell]; rfl
  obtain ⟨r1, r2⟩ := cread_quiet env wb (.cell sp i) (by rw [hops]; exact hq)
  obtain ⟨q1, q2⟩ := cread_quiet env w (.cell sp i) (by rw [hops0]; exact quiet_nil)
  obtain ⟨u1, u2⟩ := writeOps_quiet env (.cell sp i) ops hq wb v
  have e1 : (wb.cwrite env (.cell sp i) v).1.bytes = ((w.spaces sp).cells i).set w.bytes v := by
    unfold World.cwrite
    rw [hops]
    show (((World.writeOps env (.cell sp i) ops wb v).1.spaces sp).cells i).set
      (World.writeOps env (.cell sp i) ops wb v).1.bytes (World.writeOps env (.cell sp i) ops wb v).2 = _
    rw [u2, u1.bytes, u1.spaces, hs, hbytes]
  have e2 : (w.cwrite env (.cell sp i) v).1.bytes = ((w.spaces sp).cells i).set w.bytes v := by
    unfold World.cwrite
    rw [hops0]
    rfl
  have e3 : (wb.cwrite env (.cell sp i) v).2 = ((w.spaces sp).cells i).d (((w.spaces sp).cells i).set w.bytes v) := by
    unfold World.cwrite
    rw [hops]
    show (((World.writeOps env (.cell sp i) ops wb v).1.spaces sp).cells i).d
      ((((World.writeOps env (.cell sp i) ops wb v).1.spaces sp).cells i).set
        (World.writeOps env (.cell sp i) ops wb v).1.bytes (World.writeOps env (.cell sp i) ops wb v).2) = _
    rw [u2, u1.bytes, u1.spaces, hs, hd, hbytes]
  have e4 : (w.cwrite env (.cell sp i) v).2 = ((w.spaces sp).cells i).d (((w.spaces sp).cells i).set w.bytes v) := by
    unfold World.cwrite
    rw [hops0]
    rfl
  refine ⟨e1.trans e2.symm, e3.trans e4.symm, ?_, ?_⟩
  · exact r1.bytes.trans (hbytes.trans q1.bytes.symm)
  · refine r2.trans (Eq.trans ?_ q2.symm)
    exact hd w.bytes

/-- C43 is false for a cell with a peripheral: the peripheral answers 0x55 to a
read, the cell holds 0; with a read breakpoint (appended as set_brk does) the
program reads 0. -/
def hwEnv : Env := { exEnv with hwRead := fun _ _ w => (w, 0x55#32) }
theorem c43_false_hw :
    let w := exWorld.setCell (.cell 0 3) { exWorld.cell (.cell 0 3) with ops := [.hw 1] }
    let wb := exWorld.setCell (.cell 0 3) { exWorld.cell (.cell 0 3) with ops := [.hw 1, .rd 2] }
    (w.read hwEnv 0 0x103).2 = 0x55#32 ∧ (wb.read hwEnv 0 0x103).2 = 0#32 := by decide

/-! ### C44: the fill command -/

/-- The writes of `fill`. -/
def fillActs (sp : Nat) (v : W) : Nat → Nat → List Spec.Act
  | 0, _ => []
  | n + 1, a => .write sp a v :: fillActs sp v n (a + 1)

theorem fillLoop_acts (env : Env) (sp : Nat) (v : W) (n : Nat) : ∀ (a : Nat) (w : World), a + n ≤ 4294967296 →
    w.fillLoop env sp v n a = w.acts env (fillActs sp v n a) := by
  induction n with
  | zero => intro a w _; rfl
  | succ n ih =>
    intro a w h
    simp only [World.fillLoop]
    by_cases hn : n = 0
    · subst hn; rfl
    · have hu : u32 (a + 1) = a + 1 := by unfold u32; omega
      rw [hu, ih _ _ (by omega)]
      rfl

theorem mem_fillActs {sp v n} : ∀ {a x}, x ∈ fillActs sp v n a ↔ ∃ j, j < n ∧ x = .write sp (a + j) v := by
  induction n with
  | zero => intro a x; simp [fillActs]
  | succ n ih =>
    intro a x
    simp only [fillActs, List.mem_cons, ih]
    constructor
    · rintro (h | ⟨j, hj, h⟩)
      · exact ⟨0, by omega, h⟩
      · exact ⟨j + 1, by omega, by rw [h]; congr 1; omega⟩
    · rintro ⟨j, hj, h⟩
      cases j with
      | zero => exact .inl h
      | succ j => exact .inr ⟨j, by omega, by rw [h]; congr 1; omega⟩

theorem spec_fill (wire : Nat → Nat → Option Spec.Target) (sp : Nat) (v V : W) (k e : Nat) (n : Nat) :
    ∀ (a : Nat) (s : Spec.St),
      (∀ j t, j < n → wire sp (a + j) = some t → t.chip = k → t.elem = e → t.bits = none ∧
        BitVec.ofNat 32 (v.toNat % 2 ^ t.width) = V) →
      ((∃ j t, j < n ∧ wire sp (a + j) = some t ∧ t.chip = k ∧ t.elem = e ∧ s.ro sp (a + j) = false) ∨ s.mem k e = V →
        (Spec.run wire s (fillActs sp v n a)).mem k e = V) := by
  induction n with
  | zero =>
    rintro a s _ (⟨j, t, hj, _⟩ | h)
    · omega
    · exact h
  | succ n ih =>
    intro a s hall h
    show (Spec.run wire (Spec.step wire s (.write sp a v)) (fillActs sp v n (a + 1))).mem k e = V
    have hro : ∀ sp' a', (Spec.step wire s (.write sp a v)).ro sp' a' = s.ro sp' a' := by
      intro sp' a'
      simp only [Spec.step]
      split
      · rfl
      · split <;> rfl
    have hmem : ∀ t, wire sp a = some t → t.chip = k → t.elem = e → s.ro sp a = false →
        (Spec.step wire s (.write sp a v)).mem k e = V := by
      intro t ht h1 h2 h3
      obtain ⟨b1, b2⟩ := hall 0 t (by omega) ht h1 h2
      simp only [Spec.step, ht, h3, Bool.false_eq_true, if_false, Spec.writeT]
      rw [if_pos ⟨h1.symm, h2.symm⟩]
      simp only [Spec.newElem, b1]
      exact b2
    have hkeep : s.mem k e = V → (Spec.step wire s (.write sp a v)).mem k e = V := by
      intro hV
      cases ht : wire sp a with
      | none => simp only [Spec.step, ht]; exact hV
      | some t =>
        by_cases hr : s.ro sp a = true
        · simp only [Spec.step, ht, hr, if_true]; exact hV
        · by_cases hke : t.chip = k ∧ t.elem = e
          · exact hmem t ht hke.1 hke.2 (by simpa using hr)
          · have hr' : s.ro sp a = false := by simpa using hr
            simp only [Spec.step, ht, hr', Bool.false_eq_true, if_false, Spec.writeT]
            rw [if_neg (fun hh => hke ⟨hh.1.symm, hh.2.symm⟩)]
            exact hV
    apply ih
    · intro j t hj ht h1 h2
      exact hall (j + 1) t (by omega) (by rw [← ht]; congr 1; omega) h1 h2
    · rcases h with ⟨j, t, hj, ht, h1, h2, h3⟩ | h
      · cases j with
        | zero => exact .inr (hmem t ht h1 h2 h3)
        | succ j => exact .inl ⟨j, t, by omega, by rw [← ht]; congr 1; omega, h1, h2, by rw [hro, ← h3]; congr 1; omega⟩
      · exact .inr (hkeep h)

/-- C44.  `fill sp b e v` with e below 0xffffffff ends; every writable location
of the area of a space wider than 1 bit reads v modulo 2^width afterwards, and
every location whose element belongs to no address of the area is unchanged. -/
theorem c44_fill_partial (env : Env) (w : World) (hw : Wf env w) (sp b e : Nat) (v : W) (he : e < 2 ^ 32 - 1)
    (hq : ∀ a, b ≤ a → a ≤ e → Quiet w sp a) (width : Nat)
    (hsp : ∀ a t, wire env w sp a = some t → t.bits = none ∧ t.width = width) :
    ∃ w', w.fillCmd env sp b e v = some w' ∧
      (∀ a t, b ≤ a → a ≤ e → wire env w sp a = some t → w.isRo sp a = false →
        (w'.get sp a).2.toNat = v.toNat % 2 ^ width) ∧
      (∀ sp' a' t', wire env w sp' a' = some t' →
        (∀ a t, b ≤ a → a ≤ e → wire env w sp a = some t → ¬(t.chip = t'.chip ∧ t.elem = t'.elem)) →
        (w'.get sp' a').2 = (w.get sp' a').2) := by
  have hn : ∃ n, rangeLen b e = some n ∧ (n = 0 ∨ b + n ≤ 4294967296) ∧ ∀ j, j < n ↔ b + j ≤ e := by
    unfold rangeLen
    by_cases h : e < b
    · exact ⟨0, by rw [if_pos h], .inl rfl, fun j => by omega⟩
    · exact ⟨e + 1 - b, by rw [if_neg h, if_neg (by omega)], .inr (by omega), fun j => by omega⟩
  obtain ⟨n, n1, n2, n3⟩ := hn
  have hrun : w.fillLoop env sp v n b = w.acts env (fillActs sp v n b) := by
    rcases n2 with h | h
    · subst h; rfl
    · exact fillLoop_acts env sp v n b w h
  refine ⟨w.acts env (fillActs sp v n b), ?_, ?_, ?_⟩
  · unfold World.fillCmd; rw [n1, ← hrun]; rfl
  all_goals
    have hl : ∀ x ∈ fillActs sp v n b, x.loc.2 < 2 ^ 32 ∧ Quiet w x.loc.1 x.loc.2 := by
      intro x hx
      obtain ⟨j, hj, rfl⟩ := mem_fillActs.1 hx
      have := (n3 j).1 hj
      exact ⟨by show b + j < 2 ^ 32; omega, hq (b + j) (by omega) this⟩
  · intro a t h1 h2 ht hro
    rw [mem_history env w hw _ hl sp a t ht]
    obtain ⟨hb, hwd⟩ := hsp a t ht
    have := spec_fill (wire env w) sp v (BitVec.ofNat 32 (v.toNat % 2 ^ width)) t.chip t.elem n b (specOf env w)
      (fun j t' hj ht' _ _ => by obtain ⟨c1, c2⟩ := hsp _ t' ht'; exact ⟨c1, by rw [c2]⟩)
      (.inl ⟨a - b, t, (n3 _).2 (by omega), by rw [← ht]; congr 1; omega, rfl, rfl, by
        show w.isRo sp (b + (a - b)) = false
        rw [← hro]; congr 1; omega⟩)
    unfold Spec.readT
    rw [hb]
    simp only
    rw [this, BitVec.toNat_ofNat]
    apply Nat.mod_eq_of_lt
    exact Nat.lt_of_le_of_lt (Nat.mod_le _ _) v.isLt
  · intro sp' a' t' ht' hne
    rw [mem_history env w hw _ hl sp' a' t' ht']
    have h0 := mem_history env w hw [] (by simp) sp' a' t' ht'
    have h0' : (w.get sp' a').2 = Spec.readT (specOf env w).mem t' := h0
    rw [h0']
    apply readT_congr
    apply spec_run_frame
    intro x hx t ht
    obtain ⟨j, hj, rfl⟩ := mem_fillActs.1 hx
    exact hne (b + j) t (by omega) ((n3 j).1 hj) ht

/-- Filling up to the last address of a 2^32 address range never ends. -/
theorem c44_false_last (env : Env) (w : World) (sp b : Nat) (v : W) (hb : b < 2 ^ 32) :
    w.fillCmd env sp b 0xffffffff v = none := by
  unfold World.fillCmd rangeLen
  rw [if_neg (by omega), if_pos rfl]; rfl


/-- A concrete memory: every space is 4 bytes on chip 0; 1-2 filled. -/
def fillEnv : Env := { exEnv with chips := fun _ => ⟨4, 8⟩ }
def fillCell (i : Nat) : Cell := (newCell 8).decode (some ⟨some 0, i⟩)
def fillWorld : World := { exWorld with spaces := fun _ => ⟨0, 4, 8, true, fillCell, newDummy 8, []⟩ }

example : (fillWorld.fillCmd fillEnv 0 1 2 0x1ab#32).map (fun w => [(w.get 0 0).2, (w.get 0 1).2, (w.get 0 2).2, (w.get 0 3).2]) =
    some [0#32, 0xab#32, 0xab#32, 0#32] := by decide +kernel

theorem ex_cell0 (i : Nat) : ((exWorld.spaces 0).cells i).kind ≠ .bit8 ∧ ((exWorld.spaces 0).cells i).width = 8 := by
  show ((newCell 8).decode (getSlot exChips 0 i)).kind ≠ .bit8 ∧ ((newCell 8).decode (getSlot exChips 0 i)).width = _
  unfold Cell.decode
  split <;> exact ⟨nofun, rfl⟩

theorem wire_plain (env : Env) (w : World) (sp width : Nat)
    (hc : ∀ i, ((w.spaces sp).cells i).kind ≠ .bit8 ∧ ((w.spaces sp).cells i).width = width) (a : Nat) (t)
    (ht : wire env w sp a = some t) : t.bits = none ∧ t.width = width := by
  unfold wire at ht
  generalize (w.spaces sp).idx? a = o at ht
  cases o with
  | none => cases ht
  | some i =>
    simp only [hc i, if_false] at ht
    split at ht
    · cases ht; exact ⟨rfl, rfl⟩
    · cases ht

/-- The hypotheses are met by space 0 of the example system (with breakpoints on every location). -/
example : ∃ w', exWorld.fillCmd exEnv 0 0x102 0x10e 0x1ab#32 = some w' := by
  have h : ∀ sp, sp = 0 → ∃ w', exWorld.fillCmd exEnv sp 0x102 0x10e 0x1ab#32 = some w' := by
    intro sp hsp
    obtain ⟨w', h, _⟩ := c44_fill_partial exEnv exWorld exWorld_wf sp 0x102 0x10e 0x1ab#32 (by omega)
      (fun a _ _ => exWorld_quiet sp a) 8
      (wire_plain _ _ _ _ (fun i => by subst hsp; exact ex_cell0 i))
    exact ⟨w', h⟩
  exact h 0 rfl
end Ucsim.Props
