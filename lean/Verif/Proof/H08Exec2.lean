import Verif.Proof.H08Exec

namespace Ucsim.H08

/-- `u`: what the manual leaves open. -/
def Refines (s : St) (r : Res × St) (n : Nat) (i : Isa.Ins) : Prop :=
  r.1 = .go ∧ (∃ u, abs r.2 = Isa.exec u (abs s) ((abs s).pc + BitVec.ofNat 16 n) i) ∧ Ok s r.2

theorem mod_pc (s : St) (n t : Nat) : (fr s n t).pc < 0x10000 := Nat.mod_lt _ (by decide)

/-- Nothing the manual leaves open is used. -/
def u0 : Isa.Undef := ⟨0, 0, false, false⟩

/-! ### Branches -/

def condBits (p : Byte) : Isa.Cond → Bool
  | .always => true
  | .hi => !(p.getLsbD 0 || p.getLsbD 1)
  | .cc => !p.getLsbD 0
  | .ne => !p.getLsbD 1
  | .hcc => !p.getLsbD 4
  | .pl => !p.getLsbD 2
  | .mc => !p.getLsbD 3
  | .il => false
  | .ge => !(p.getLsbD 2 != p.getLsbD 7)
  | .gt => !(p.getLsbD 1 || (p.getLsbD 2 != p.getLsbD 7))

theorem cond_abs (s : St) (c : Isa.Cond) : (abs s).cond c = condBits s.p c := by cases c <;> rfl

def condIns (code : Byte) : Isa.Cond :=
  if code.toNat / 16 = 2 then Isa.condOf (code.toNat / 2 % 8) else if code.toNat / 2 % 8 = 0 then .ge else .gt

theorem taken_ok : ∀ code : Byte, select code = .condbranch → ∀ p : Byte,
    taken code p = some (condBits p (condIns code) == (code.toNat % 2 == 0)) := by decide +kernel

theorem br_ok (s : St) (code : Byte) (pre : Bool) (n t : Nat) (hc : CcOk s) (hf : select code = .condbranch)
    (hd : ¬ Isa.Differs (abs s) ((abs s).pc + BitVec.ofNat 16 n) (.br (condIns code) (code.toNat % 2 == 0))) :
    Refines s (exec .condbranch code pre (fr s n t)) n (.br (condIns code) (code.toNat % 2 == 0)) := by
  simp only [exec, taken_ok code hf, Option.map_some, orHalt]
  have hl : ¬ (abs (fr s n t)).leaves (abs (fr s n t)).pc (condBits s.p (condIns code) == (code.toNat % 2 == 0)) := by
    rw [abs_fr]
    rw [← cond_abs]; exact hd
  obtain ⟨k1, k2, k3, k4, k5⟩ := jrel_ok (fr s n t) (condBits s.p (condIns code) == (code.toNat % 2 == 0)) (mod_pc _ _ _) hl
  have kc : (jrel (condBits s.p (condIns code) == (code.toNat % 2 == 0)) (fr s n t)).p &&& 0x60#8 = 0x60#8 := by rw [k3]; exact hc
  refine ⟨rfl, ⟨u0, ?_⟩, ⟨k2, kc, k4, k5⟩⟩
  refine k1.trans ?_
  simp only [Isa.exec, cond_abs]
  rw [abs_fr]; rfl

/-! ### Bits -/

theorem dir_fr (s : St) (nib : Nat) (pre : Bool) (n t : Nat) (h : nib = 0 ∨ nib = 1 ∨ nib = 3) :
    fetchea nib pre (fr s n t) = ((abs s).sum ((abs s).pc + BitVec.ofNat 16 n) .dir, fr s (n + 1) (t + 1)) := by
  rcases h with rfl | rfl | rfl <;> exact fetchea_ok s _ pre n t (by simp)

theorem not_over_dir (m : Isa.Mach) (q : Word) : ¬ m.over q .dir := by
  have := (m.mem q).isLt
  show ¬ 0x10000 ≤ (m.mem q).toNat
  omega

theorem bitset_ok (s : St) (code : Byte) (pre : Bool) (n t : Nat) (hc : CcOk s) (hf : code.toNat / 16 = 1) :
    Refines s (exec .bitset code pre (fr s n t)) n (.setbit (code.toNat % 2 == 0) (code.toNat / 2 % 8)) := by
  simp only [exec, bitset, dir_fr s _ false n t (.inr (.inl hf)), get1_sum, tick_fr, store1_sum _ _ _ _ (not_over_dir _ _)]
  refine ⟨rfl, ⟨u0, ?_⟩, ⟨mod_pc s (n + 1) t, hc, rfl, rfl⟩⟩
  simp only [Isa.exec, Isa.Mach.operand, Isa.Mach.put]
  have e : (if code.toNat % 2 = 1 then (abs s).mem ((abs s).ea ((abs s).pc + BitVec.ofNat 16 n) .dir) &&& ~~~(1#8 <<< (code.toNat / 2 % 8))
        else (abs s).mem ((abs s).ea ((abs s).pc + BitVec.ofNat 16 n) .dir) ||| (1#8 <<< (code.toNat / 2 % 8))) =
      (if (code.toNat % 2 == 0) = true then (abs s).mem ((abs s).ea ((abs s).pc + BitVec.ofNat 16 n) .dir) ||| (1#8 <<< (code.toNat / 2 % 8))
        else (abs s).mem ((abs s).ea ((abs s).pc + BitVec.ofNat 16 n) .dir) &&& ~~~(1#8 <<< (code.toNat / 2 % 8))) := by
    by_cases h : code.toNat % 2 = 1
    · rw [if_pos h, if_neg (by simp; omega)]
    · rw [if_neg h, if_pos (by simp; omega)]
  rw [e]
  show (abs (fr s (n + 1) t)).store _ _ = _
  rw [abs_fr, pc_succ]; rfl

theorem bit_test : ∀ v : Byte, ∀ i : Fin 8, (v &&& (1#8 <<< i.val) != 0#8) = v.getLsbD i.val := by decide +kernel

theorem bittest_ok (s : St) (code : Byte) (pre : Bool) (n t : Nat) (hc : CcOk s) (hf : code.toNat / 16 = 0)
    (hd : ¬ Isa.Differs (abs s) ((abs s).pc + BitVec.ofNat 16 n) (.brbit (code.toNat % 2 == 0) (code.toNat / 2 % 8))) :
    Refines s (exec .bittest code pre (fr s n t)) n (.brbit (code.toNat % 2 == 0) (code.toNat / 2 % 8)) := by
  simp only [exec, bittest, dir_fr s _ false n t (.inl hf), get1_sum, tick_fr]
  have hb : ∀ v : Byte, (v &&& (1#8 <<< (code.toNat / 2 % 8)) != 0#8) = v.getLsbD (code.toNat / 2 % 8) :=
    fun v => bit_test v ⟨code.toNat / 2 % 8, Nat.mod_lt _ (by decide)⟩
  rw [hb]
  generalize hv : (abs s).mem ((abs s).ea ((abs s).pc + BitVec.ofNat 16 n) .dir) = v
  have e : (if code.toNat % 2 = 1 then !v.getLsbD (code.toNat / 2 % 8) else v.getLsbD (code.toNat / 2 % 8)) =
      (v.getLsbD (code.toNat / 2 % 8) == (code.toNat % 2 == 0)) := by
    by_cases h : code.toNat % 2 = 1
    · rw [if_pos h, show (code.toNat % 2 == 0) = false by simp; omega]; cases v.getLsbD _ <;> rfl
    · rw [if_neg h, show (code.toNat % 2 == 0) = true by simp; omega]; cases v.getLsbD _ <;> rfl
  rw [e]
  have hl : ¬ (abs (fr s (n + 1) (t + 1 + 1))).leaves (abs (fr s (n + 1) (t + 1 + 1))).pc (v.getLsbD (code.toNat / 2 % 8) == (code.toNat % 2 == 0)) := by
    rw [abs_fr, pc_succ]
    simp only [Isa.Differs, Isa.Mach.operand, hv] at hd
    exact hd
  obtain ⟨k1, k2, k3, k4, k5⟩ := jrel_ok _ _ (mod_pc s (n + 1) (t + 1 + 1)) hl
  refine ⟨rfl, ⟨u0, ?_⟩, ⟨k2, ?_, k4, k5⟩⟩
  · rw [abs_p, ccr_C, setCcr_self, k1]
    simp only [Isa.exec, Isa.Mach.operand, hv]
    rw [abs_fr, pc_succ]; rfl
  · unfold CcOk
    rw [cc_C, k3]; exact hc

/-! ### Counting -/

def Rests (s r : St) : Prop := r.p = s.p ∧ r.pc = s.pc ∧ r.vector = s.vector ∧ r.s08 = s.s08

theorem ofNat_succ (w : Word) : BitVec.ofNat 16 (w.toNat + 1) = w + 1 := by
  apply BitVec.eq_of_toNat_eq
  simp [BitVec.toNat_add]

theorem incx_abs (s : St) : abs (incx s) = (abs s).setHX ((abs s).hx + 1) := by
  unfold incx
  rw [abs_setHX, hx_eq, ofNat_succ]

def cbMode (nib : Nat) (pre : Bool) : Isa.CbMode :=
  match nib with
  | 4 => .a | 5 => .x | 6 => if pre then .sp1 else .ix1 | 7 => .ix | _ => .dir

/-- The operand bytes of a CBEQ before the offset. -/
def cbLen : Isa.CbMode → Nat
  | .ix => 0 | _ => 1

def cbClk : Isa.CbMode → Nat
  | .a | .x => 1 | _ => 2

/-- cl_hc08::inst_cbeq as a branch followed by the increment. -/
theorem cbeq_eq (s : St) (code : Byte) (pre : Bool) (n t : Nat) (hn : code.toNat / 16 ∈ [3, 4, 5, 6, 7]) (hcol : code.toNat % 16 = 1) :
    cbeq code pre (fr s n t) =
      let X := jrel ((abs s).cb ((abs s).pc + BitVec.ofNat 16 n) (cbMode (code.toNat / 16) pre)).2
        (fr s (n + cbLen (cbMode (code.toNat / 16) pre)) (t + cbClk (cbMode (code.toNat / 16) pre)))
      if cbMode (code.toNat / 16) pre = .ix ∨ cbMode (code.toNat / 16) pre = .ix1 then incx X else X := by
  have key : ∀ (v1 v2 : Byte) (X : St) (b : Bool) (P Q : Prop) [Decidable P] [Decidable Q], b = (v1 == v2) → (P ↔ Q) →
      (let (o, s) := fetch X
       let s := tick 1 s
       let s := if v1 = v2 then addPC o s else s
       let s := if P then incx s else s
       tick 1 s) = (if Q then incx (jrel b X) else jrel b X) := by
    intro v1 v2 X b P Q _ _ hb hPQ
    subst hb
    unfold jrel
    by_cases hv : v1 = v2
    · subst hv
      by_cases hP : P
      · simp only [if_pos hP, if_pos (hPQ.mp hP), beq_self_eq_true, if_true]; rfl
      · simp only [if_neg hP, if_neg (fun h => hP (hPQ.mpr h)), beq_self_eq_true, if_true]
    · have : (v1 == v2) = false := by simp [hv]
      by_cases hP : P
      · simp only [if_pos hP, if_pos (hPQ.mp hP), this, if_neg hv]; rfl
      · simp only [if_neg hP, if_neg (fun h => hP (hPQ.mpr h)), this, if_neg hv]; rfl
  have hcode : code = BitVec.ofNat 8 (16 * (code.toNat / 16) + 1) := by
    apply BitVec.eq_of_toNat_eq
    have := code.isLt
    simp; omega
  have hs : ∀ n t, (fr s n t).a = (abs s).a ∧ (fr s n t).x = (abs s).x := fun _ _ => ⟨rfl, rfl⟩
  unfold cbeq
  simp only [List.mem_cons, List.not_mem_nil, or_false] at hn
  have fin : ∀ nib : Nat, code.toNat / 16 = nib → nib = 3 ∨ nib = 4 ∨ nib = 5 ∨ nib = 6 ∨ nib = 7 → True := fun _ _ _ => trivial
  rcases hn with h | h | h | h | h
  · rw [h] at hcode ⊢
    have hc1 : code = 0x31#8 := hcode
    simp only [if_neg (show ¬ (3 : Nat) = 4 by decide), if_neg (show ¬ (3 : Nat) = 5 by decide), dir_fr s 3 pre n t (by simp), get1_sum, tick_fr]
    refine (key _ _ _ ((abs s).mem ((abs s).ea ((abs s).pc + BitVec.ofNat 16 n) .dir) == (abs s).a) _ False rfl ?_).trans ?_
    · subst hc1; simp
    · simp only [if_false]; rfl
  · rw [h] at hcode ⊢
    have hc1 : code = 0x41#8 := hcode
    simp only [if_pos (show (4 : Nat) = 4 from rfl), fetch_fr, tick_fr]
    refine (key _ _ _ ((abs s).mem ((abs s).pc + BitVec.ofNat 16 n) == (abs s).a) _ False ?_ ?_).trans ?_
    · exact Bool.beq_comm
    · subst hc1; simp
    · simp only [if_false]; rfl
  · rw [h] at hcode ⊢
    have hc1 : code = 0x51#8 := hcode
    simp only [if_neg (show ¬ (5 : Nat) = 4 by decide), if_pos (show (5 : Nat) = 5 from rfl), fetch_fr, tick_fr]
    refine (key _ _ _ ((abs s).mem ((abs s).pc + BitVec.ofNat 16 n) == (abs s).x) _ False ?_ ?_).trans ?_
    · exact Bool.beq_comm
    · subst hc1; simp
    · simp only [if_false]; rfl
  · rw [h] at hcode ⊢
    have hc1 : code = 0x61#8 := hcode
    simp only [if_neg (show ¬ (6 : Nat) = 4 by decide), if_neg (show ¬ (6 : Nat) = 5 by decide), fetchea_ok s 6 pre n t (by simp), get1_sum, tick_fr]
    refine (key _ _ _ ((abs s).mem ((abs s).ea ((abs s).pc + BitVec.ofNat 16 n) (modeOf 6 pre)) == (abs s).a) _ (pre = false) rfl ?_).trans ?_
    · subst hc1; cases pre <;> simp
    · cases pre <;> simp only [if_true, if_false, Bool.true_eq_false] <;> rfl
  · rw [h] at hcode ⊢
    have hc1 : code = 0x71#8 := hcode
    simp only [if_neg (show ¬ (7 : Nat) = 4 by decide), if_neg (show ¬ (7 : Nat) = 5 by decide), fetchea_ok s 7 pre n t (by simp), get1_sum, tick_fr]
    refine (key _ _ _ ((abs s).mem ((abs s).ea ((abs s).pc + BitVec.ofNat 16 n) .ix) == (abs s).a) _ True rfl ?_).trans ?_
    · subst hc1; simp
    · simp only [if_true]; rfl

theorem cbeq_ok (s : St) (code : Byte) (pre : Bool) (n t : Nat) (hc : CcOk s) (hn : code.toNat / 16 ∈ [3, 4, 5, 6, 7]) (hcol : code.toNat % 16 = 1)
    (hd : ¬ Isa.Differs (abs s) ((abs s).pc + BitVec.ofNat 16 n) (.cbeq (cbMode (code.toNat / 16) pre))) :
    Refines s (exec .cbeq code pre (fr s n t)) n (.cbeq (cbMode (code.toNat / 16) pre)) := by
  simp only [exec, cbeq_eq s code pre n t hn hcol]
  generalize cbMode (code.toNat / 16) pre = k at hd ⊢
  generalize hq : (abs s).pc + BitVec.ofNat 16 n = q at hd ⊢
  have ho : ((abs s).cb q k).1 = (abs s).pc + BitVec.ofNat 16 (n + cbLen k) := by
    rw [← hq]; cases k <;> simp only [Isa.Mach.cb, cbLen, pc_succ, Nat.add_zero]
  have hl : ¬ (abs (fr s (n + cbLen k) (t + cbClk k))).leaves (abs (fr s (n + cbLen k) (t + cbClk k))).pc ((abs s).cb q k).2 := by
    rw [abs_fr, ← ho]
    exact hd
  obtain ⟨k1, k2, k3, k4, k5⟩ := jrel_ok _ _ (mod_pc s (n + cbLen k) (t + cbClk k)) hl
  rw [abs_fr, ← ho] at k1
  have ec : CcOk (jrel ((abs s).cb q k).2 (fr s (n + cbLen k) (t + cbClk k))) := by unfold CcOk; rw [k3]; exact hc
  refine ⟨rfl, ⟨u0, ?_⟩, ?_⟩
  · rw [hq]
    by_cases hk : k = .ix ∨ k = .ix1
    · rw [if_pos hk, incx_abs, k1]
      rcases hk with rfl | rfl <;> rfl
    · rw [if_neg hk, k1]
      cases k <;> first | rfl | exact absurd (Or.inl rfl) hk | exact absurd (Or.inr rfl) hk
  · split
    · exact ⟨k2, ec, k4, k5⟩
    · exact ⟨k2, ec, k4, k5⟩

/-- DBNZ does what the manual says, and sets N, Z and V as DEC does. -/
theorem dbnz_gen (s : St) (code : Byte) (pre : Bool) (n t : Nat) (hc : CcOk s) (hn : code.toNat / 16 ∈ [3, 4, 5, 6, 7])
    (q : Word) (hq : q = (abs s).pc + BitVec.ofNat 16 n) (k : Isa.Mode) (hk : k = modeOf (code.toNat / 16) pre)
    (h1 : ¬ (abs s).over q k) (h2 : ¬ (abs s).leaves (q + BitVec.ofNat 16 k.bytes) ((abs s).operand q k - 1 != 0)) (h3 : ¬ (abs s).ownOffset q k) :
    let r := dbnz (code.toNat / 16) pre (fr s n t)
    abs r = ({ Isa.exec u0 (abs s) q (.dbnz k) with v := (abs s).operand q k - 1 == 0x7f#8 } : Isa.Mach).nz ((abs s).operand q k - 1) ∧ Ok s r := by
  intro r
  have hr : r = dbnz (code.toNat / 16) pre (fr s n t) := rfl
  unfold dbnz at hr
  rw [rmwGet_ok s _ pre n t hn, ← hq, ← hk] at hr
  simp only at hr
  have b1 := rmwBody s .dec (code.toNat / 16) pre n (t + getClk (code.toNat / 16) k) 1 hc hn (by decide) q hq (hk ▸ h1) u0
  simp only at b1
  rw [← hk] at b1
  generalize hv : (abs s).operand q k = v at hr b1 h2 ⊢
  have hw : (rmwOp .dec v s.p).1 = v - 1 := rfl
  have hp : (fr s (n + k.bytes) (t + getClk (code.toNat / 16) k)).p = s.p := rfl
  rw [hp] at hr
  generalize hY : rmwPut (code.toNat / 16) 1 (if code.toNat / 16 = 4 ∨ code.toNat / 16 = 5 then 65535 else (abs s).sum q k) (rmwOp .dec v s.p).1
      { fr s (n + k.bytes) (t + getClk (code.toNat / 16) k) with p := (rmwOp .dec v s.p).2 } = Y at hr b1
  rw [hw] at hr
  obtain ⟨b1, b2⟩ := b1
  have eY : abs Y = { ((abs s).put q k (v - 1)).rmwFlags .dec v with pc := q + BitVec.ofNat 16 k.bytes } := by
    rw [b1, show convR .dec = .dec from rfl, exec_rmw _ _ _ _ _ (by decide), hv]; rfl
  have epc : (abs Y).pc = q + BitVec.ofNat 16 k.bytes := by rw [eY]
  have emem : (abs Y).mem (q + BitVec.ofNat 16 k.bytes) = (abs s).mem (q + BitVec.ofNat 16 k.bytes) := by
    rw [eY]
    show ((abs s).put q k (v - 1)).mem _ = _
    by_cases hA : k = .A
    · subst hA; rfl
    by_cases hX : k = .X
    · subst hX; rfl
    rw [put_mem _ _ _ hA hX]
    show (if q + BitVec.ofNat 16 k.bytes = (abs s).ea q k then v - 1 else (abs s).mem (q + BitVec.ofNat 16 k.bytes)) = _
    rw [if_neg (fun e => h3 ⟨hA, hX, e.symm⟩)]
  have hl : ¬ (abs Y).leaves (abs Y).pc (v - 1 != 0) := by
    unfold Isa.Mach.leaves at h2 ⊢
    rw [epc, emem]; exact h2
  obtain ⟨k1, k2, k3, k4, k5⟩ := jrel_ok Y (v - 1 != 0) b2.pc hl
  have e0 : (v - 1 != 0#8) = (v - 1 != 0) := rfl
  rw [e0] at hr
  constructor
  · rw [hr, k1]
    unfold Isa.Mach.rel
    rw [epc, emem, eY]
    simp only [Isa.exec, hv, Isa.Mach.rel]
    have e7 : ∀ v : Byte, (v == 0x80#8) = (v - 1 == 0x7f#8) := by decide +kernel
    have ef : ∀ m : Isa.Mach, m.rmwFlags .dec v = { m with v := v - 1 == 0x7f#8 }.nz (v - 1) := by
      intro m
      simp only [Isa.Mach.rmwFlags, Isa.Rmw.val, e7]
    rw [ef]; rfl
  · rw [hr]
    exact ⟨k2, by unfold CcOk; rw [k3]; exact b2.cc, k4.trans b2.vec, k5.trans b2.s08⟩

theorem dbnz_ok (s : St) (code : Byte) (pre : Bool) (n t : Nat) (hc : CcOk s) (hn : code.toNat / 16 ∈ [3, 4, 5, 6, 7])
    (hd : ¬ Isa.Differs (abs s) ((abs s).pc + BitVec.ofNat 16 n) (.dbnz (modeOf (code.toNat / 16) pre))) :
    Refines s (exec .dbnz code pre (fr s n t)) n (.dbnz (modeOf (code.toNat / 16) pre)) := by
  simp only [Isa.Differs, not_or] at hd
  obtain ⟨h1, h2, h3, h4⟩ := hd
  obtain ⟨g1, g2⟩ := dbnz_gen s code pre n t hc hn _ rfl _ rfl h1 h2 h3
  obtain ⟨hN, hZ, hV⟩ := Classical.not_not.mp h4
  refine ⟨rfl, ⟨u0, ?_⟩, g2⟩
  refine g1.trans ?_
  have e : ∀ (M : Isa.Mach) (r : Byte), M.n = r.msb → M.z = (r == 0) → M.v = (r == 0x7f#8) → ({ M with v := r == 0x7f#8 } : Isa.Mach).nz r = M := by
    intro M r a1 a2 a3
    unfold Isa.Mach.nz
    rw [← a1, ← a2, ← a3]
  have k : ∀ (k : Isa.Mode) (q : Word), (Isa.exec u0 (abs s) q (.dbnz k)).n = (abs s).n ∧ (Isa.exec u0 (abs s) q (.dbnz k)).z = (abs s).z ∧
      (Isa.exec u0 (abs s) q (.dbnz k)).v = (abs s).v := by
    intro k q
    cases k <;> exact ⟨rfl, rfl, rfl⟩
  exact e _ _ ((k _ _).1.trans hN) ((k _ _).2.1.trans hZ) ((k _ _).2.2.trans hV)

end Ucsim.H08
