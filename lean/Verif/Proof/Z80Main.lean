import Verif.Proof.Z80All

namespace Ucsim.Z80
open Isa (Flags Differs)

/-- The state when the first byte has been fetched, at its own PC. -/
def begun (s : St) : St := { s with ticks := s.ticks + 1, r := incR s.r, cond := false }

theorem base_begun (s : St) (h : s.pc < 0x10000) : base (BitVec.ofNat 16 s.pc) (begun s) = abs s := rfl

theorem fetch_begin (s : St) (h : s.pc < 0x10000) :
    ({ (fetch s).2 with ticks := (fetch s).2.ticks + 1, r := incR (fetch s).2.r, cond := false } : St) =
      adv (BitVec.ofNat 16 s.pc) 1 (begun s) ∧ (fetch s).1 = s.mem (BitVec.ofNat 16 s.pc) := by
  have e : (BitVec.ofNat 16 s.pc : Word).toNat = s.pc := by rw [BitVec.toNat_ofNat, Nat.mod_eq_of_lt h]
  have k := fetch_adv (BitVec.ofNat 16 s.pc) 0 s
  have e0 : adv (BitVec.ofNat 16 s.pc) 0 s = s := by
    unfold adv
    rw [show (BitVec.ofNat 16 s.pc + BitVec.ofNat 16 0 : Word) = BitVec.ofNat 16 s.pc from by simp, e]
  rw [e0] at k
  rw [k]
  exact ⟨rfl, congrArg s.mem (by simp)⟩

theorem toIdx_ix : toIdx .ix = .ix := rfl
theorem toIdx_iy : toIdx .iy = .iy := rfl

def HaltOk (i : Inst) (ins : Isa.Ins) : Prop := i = .halt ↔ ins = .halt
instance (i : Inst) (ins : Isa.Ins) : Decidable (HaltOk i ins) := by unfold HaltOk; infer_instance
theorem halt00 : ∀ op : Byte, HaltOk (at_ tab00 op) (Isa.decode1 op).1 := by decide +kernel
theorem haltCB : ∀ op : Byte, HaltOk (at_ tabCB op) (Isa.decodeCB op).1 := by decide +kernel
theorem haltED : ∀ op : Byte, HaltOk (at_ tabED op) (Isa.decodeED op).1 := by decide +kernel
theorem haltXD (x : Ix) : ∀ op : Byte, HaltOk (at_ tabXD op) (Isa.decodeX (toIdx x) op).1 := by cases x <;> decide +kernel
theorem haltXC (x : Ix) : ∀ op : Byte, HaltOk (at_ tabXC op) (Isa.decodeXCB (toIdx x) op).1 := by cases x <;> decide +kernel

/-- What `find` finds is what the manual says stands there. -/
theorem find_ok (w : Word) (s : St) (ho : (base w s).ins.1 ≠ .other) :
    ∃ k, (find (s.mem w) (adv w 1 s)).st = adv w k s ∧
      (k = 4 → (find (s.mem w) (adv w 1 s)).off = s.mem (w + 2)) ∧
      means (find (s.mem w) (adv w 1 s)).x k (find (s.mem w) (adv w 1 s)).inst (base w s).ins.1 = true ∧
      (base w s).ins.2 = k + ilen (find (s.mem w) (adv w 1 s)).inst ∧
      HaltOk (find (s.mem w) (adv w 1 s)).inst (base w s).ins.1 := by
  have hi : (base w s).ins = Isa.decode (s.mem w) (s.mem (w + 1)) (s.mem (w + 3)) := rfl
  rw [hi] at ho ⊢
  have f1 : fetch (adv w 1 s) = (s.mem (w + 1), adv w 2 s) := fetch_adv w 1 s
  have f2 : fetch (adv w 2 s) = (s.mem (w + 2), adv w 3 s) := fetch_adv w 2 s
  have f3 : fetch (adv w 3 s) = (s.mem (w + 3), adv w 4 s) := fetch_adv w 3 s
  unfold Isa.decode at ho ⊢
  unfold find
  by_cases c1 : s.mem w = 0xcb#8
  · simp only [if_pos c1, f1] at ho ⊢
    exact ⟨2, rfl, (fun e => absurd e (by decide)), ((tabCB_ok _).resolve_left ho).1, ((tabCB_ok _).resolve_left ho).2, haltCB _⟩
  · simp only [if_neg c1] at ho ⊢
    by_cases c2 : s.mem w = 0xed#8
    · simp only [if_pos c2, f1] at ho ⊢
      exact ⟨2, rfl, (fun e => absurd e (by decide)), ((tabED_ok _).resolve_left ho).1, ((tabED_ok _).resolve_left ho).2, haltED _⟩
    · simp only [if_neg c2] at ho ⊢
      by_cases c3 : s.mem w = 0xdd#8
      · simp only [if_pos c3, f1, if_pos (Or.inl c3 : s.mem w = 0xdd#8 ∨ s.mem w = 0xfd#8)] at ho ⊢
        by_cases c5 : s.mem (w + 1) = 0xcb#8
        · simp only [if_pos c5, f2, f3] at ho ⊢
          exact ⟨4, rfl, (fun _ => trivial), ((tabXC_ok .ix _).resolve_left ho).1, ((tabXC_ok .ix _).resolve_left ho).2, haltXC .ix _⟩
        · simp only [if_neg c5] at ho ⊢
          exact ⟨2, rfl, (fun e => absurd e (by decide)), ((tabXD_ok .ix _).resolve_left ho).1, ((tabXD_ok .ix _).resolve_left ho).2, haltXD .ix _⟩
      · simp only [if_neg c3] at ho ⊢
        by_cases c4 : s.mem w = 0xfd#8
        · simp only [if_pos c4, f1, if_pos (Or.inr c4 : s.mem w = 0xdd#8 ∨ s.mem w = 0xfd#8)] at ho ⊢
          by_cases c5 : s.mem (w + 1) = 0xcb#8
          · simp only [if_pos c5, f2, f3] at ho ⊢
            exact ⟨4, rfl, (fun _ => trivial), ((tabXC_ok .iy _).resolve_left ho).1, ((tabXC_ok .iy _).resolve_left ho).2, haltXC .iy _⟩
          · simp only [if_neg c5] at ho ⊢
            exact ⟨2, rfl, (fun e => absurd e (by decide)), ((tabXD_ok .iy _).resolve_left ho).1, ((tabXD_ok .iy _).resolve_left ho).2, haltXD .iy _⟩
        · simp only [if_neg c4, if_neg (not_or.mpr ⟨c3, c4⟩ : ¬ (s.mem w = 0xdd#8 ∨ s.mem w = 0xfd#8))] at ho ⊢
          exact ⟨1, rfl, (fun e => absurd e (by decide)), ((tab00_ok _).resolve_left ho).1, ((tab00_ok _).resolve_left ho).2, halt00 _⟩

theorem means_inv (x : Ix) (k : Nat) (ins : Isa.Ins) : means x k .inv ins = false := by
  unfold means
  have : conv x k .inv = none := rfl
  rw [this]; rfl

/-- The state after the body, before the clocks are counted. -/
def done (s : St) : St :=
  exec s.pc (find (s.mem (BitVec.ofNat 16 s.pc)) (adv (BitVec.ofNat 16 s.pc) 1 (begun s))).x
    (find (s.mem (BitVec.ofNat 16 s.pc)) (adv (BitVec.ofNat 16 s.pc) 1 (begun s))).off
    (find (s.mem (BitVec.ofNat 16 s.pc)) (adv (BitVec.ofNat 16 s.pc) 1 (begun s))).inst
    (find (s.mem (BitVec.ofNat 16 s.pc)) (adv (BitVec.ofNat 16 s.pc) 1 (begun s))).st

/-- Clock periods of an instruction. -/
def clocks (s : St) : Nat :=
  if (done s).cond then tEntry (s.mem (BitVec.ofNat 16 s.pc)) s.pc (done s) / 256 else tEntry (s.mem (BitVec.ofNat 16 s.pc)) s.pc (done s) % 256

def found (s : St) : Inst := (find (s.mem (BitVec.ofNat 16 s.pc)) (adv (BitVec.ofNat 16 s.pc) 1 (begun s))).inst

theorem step_eq (s : St) (h : s.pc < 0x10000) : step s =
    (match found s with
     | .halt => (.halt, { done s with ticks := (done s).ticks + ((clocks s : Int) - 1) })
     | .inv => (.inv, { done s with ticks := (done s).ticks + ((clocks s : Int) - 1), pc := s.pc })
     | _ => (.go, { done s with ticks := (done s).ticks + ((clocks s : Int) - 1) })) := by
  obtain ⟨e1, e2⟩ := fetch_begin s h
  have : step s = finish s.pc (fetch s).1 (find (fetch s).1 { (fetch s).2 with ticks := (fetch s).2.ticks + 1, r := incR (fetch s).2.r, cond := false }) := rfl
  rw [this, e1, e2]
  unfold finish found clocks done
  rfl

theorem step_done (s : St) (h : s.pc < 0x10000) (hi : found s ≠ .inv) :
    (step s).2 = { done s with ticks := (done s).ticks + ((clocks s : Int) - 1) } ∧ ((step s).1 = .halt ↔ found s = .halt) ∧ (step s).1 ≠ .inv := by
  rw [step_eq s h]
  split
  · rename_i e; exact ⟨rfl, by simp [e], by simp⟩
  · rename_i e; exact absurd e hi
  · rename_i e1 e2; exact ⟨rfl, ⟨fun k => (by cases k), fun k => absurd k e1⟩, by simp⟩

theorem ins_abs (s : St) (h : s.pc < 0x10000) : (base (BitVec.ofNat 16 s.pc) (begun s)).ins = (abs s).ins := rfl

/-- One instruction. -/
theorem step_ok (s : St) (h : s.pc < 0x10000) (hd : ¬ Differs (abs s) (abs s).ins.2 (abs s).ins.1) :
    abs (step s).2 = Isa.step { fl := (step s).2.f, x35 := s.f, r := incR s.r } (abs s) ∧ (step s).2.pc < 0x10000 ∧
      (step s).1 ≠ .inv ∧ ((step s).1 = .halt ↔ (abs s).ins.1 = .halt) := by
  have ho : (abs s).ins.1 ≠ .other := by intro e; rw [e] at hd; exact hd trivial
  have hw : (BitVec.ofNat 16 s.pc : Word).toNat = s.pc := by rw [BitVec.toNat_ofNat, Nat.mod_eq_of_lt h]
  obtain ⟨k, k1, k2, k3, k4, k5⟩ := find_ok (BitVec.ofNat 16 s.pc) (begun s) ho
  have hf : found s ≠ .inv := by
    intro e
    have k3 : means _ k (found s) _ = true := k3
    rw [e, means_inv] at k3; cases k3
  obtain ⟨d1, d2, d3⟩ := step_done s h hf
  have ed : done s = exec (BitVec.ofNat 16 s.pc : Word).toNat (find (s.mem (BitVec.ofNat 16 s.pc)) (adv (BitVec.ofNat 16 s.pc) 1 (begun s))).x
      (find (s.mem (BitVec.ofNat 16 s.pc)) (adv (BitVec.ofNat 16 s.pc) 1 (begun s))).off (found s) (adv (BitVec.ofNat 16 s.pc) k (begun s)) := by
    unfold done
    rw [hw]
    exact congrArg _ k1
  have hd' : ¬ Differs (base (BitVec.ofNat 16 s.pc) (begun s)) (k + ilen (found s)) (abs s).ins.1 := by
    have : (abs s).ins.2 = k + ilen (found s) := k4
    rw [← this]; exact hd
  have g := good_of_means _ k (find (s.mem (BitVec.ofNat 16 s.pc)) (adv (BitVec.ofNat 16 s.pc) 1 (begun s))).off _ _ k3
    (begun s) (BitVec.ofNat 16 s.pc) { fl := (step s).2.f, x35 := s.f, r := incR s.r } k2 (by rw [d1]; show (done s).f = _; rw [ed]; rfl) rfl rfl hd'
  have p := pc_of_means _ k (find (s.mem (BitVec.ofNat 16 s.pc)) (adv (BitVec.ofNat 16 s.pc) 1 (begun s))).off _ _ k3
    (begun s) (BitVec.ofNat 16 s.pc) hd'
  refine ⟨?_, ?_, d3, ?_⟩
  · have e1 : abs (step s).2 = abs (done s) := by rw [d1]; rfl
    rw [e1, ed]
    refine g.trans ?_
    unfold Isa.step
    rw [show (abs s).ins.2 = k + ilen (found s) from k4]; rfl
  · rw [d1]; show (done s).pc < _; rw [ed]; exact p
  · exact d2.trans k5

end Ucsim.Z80
