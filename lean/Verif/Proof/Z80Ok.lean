import Verif.Proof.Z80Exec

namespace Ucsim.Z80
open Isa (Flags Differs)

/-! ### Stack -/

theorem sub21 (w : Word) : w - 2 + 1 = w - 1 := by
  apply BitVec.eq_of_toNat_eq
  have := w.isLt
  simp only [BitVec.toNat_sub, BitVec.toNat_add]; simp; omega

theorem sub11 (w : Word) : w - 1 - 1 = w - 2 := by
  apply BitVec.eq_of_toNat_eq; have := w.isLt; simp only [BitVec.toNat_sub]; simp; omega

theorem sub_ne (w : Word) : w - 2 ≠ w - 1 := by
  intro e
  have := congrArg BitVec.toNat e
  have := w.isLt
  simp only [BitVec.toNat_sub] at *
  simp at *

theorem sp_ne (w : Word) (h : w ≠ 1#16) : w - 2 ≠ 0xffff#16 := by
  intro e
  apply h
  apply BitVec.eq_of_toNat_eq
  have := congrArg BitVec.toNat e
  have := w.isLt
  simp only [BitVec.toNat_sub] at *
  simp at *
  omega

theorem abs_push2 (v : Word) (s : St) (h : s.sp ≠ 1#16) : abs (push2 v s) = (abs s).push v := by
  unfold push2
  rw [abs_store2 _ _ _ (sp_ne _ h)]
  unfold Isa.Mach.store16 Isa.Mach.push Isa.Mach.store
  simp only [sub21]
  have e : ∀ (m m' : Isa.Mach), m.mem = m'.mem → m = { m' with mem := m.mem } → m = m' := by
    intro m m' h1 h2; rw [h2, h1]
  apply e
  · funext a
    show (if a = s.sp - 1 then Isa.hiByte v else if a = s.sp - 2 then Isa.loByte v else s.mem a) =
      (if a = s.sp - 2 then Isa.loByte v else if a = s.sp - 1 then Isa.hiByte v else s.mem a)
    by_cases h1 : a = s.sp - 2
    · rw [if_pos h1, if_neg (h1 ▸ sub_ne _), if_pos h1]
    · rw [if_neg h1, if_neg h1]
  · rfl

theorem abs_pushAF (s : St) (x35 : Byte) (hx : x35 = s.f) :
    abs (push1 s.f (push1 s.a s)) = (abs s).push (Isa.word s.a ((Flags.ofByte s.f).byte x35)) := by
  have e : ∀ f : Byte, (Flags.ofByte f).byte f = f := by decide +kernel
  subst hx
  unfold push1 store1
  simp only [wr_word, sub11]
  unfold Isa.Mach.push Isa.Mach.store
  simp only [hi_pair, lo_pair, e]; rfl

theorem pop2_eq (s : St) (h : s.sp ≠ 0xffff#16) : pop2 s = ((abs s).top, { s with sp := s.sp + 2 }) := by
  unfold pop2; rw [get2_eq s _ h]; rfl

/-! ### Branches -/

theorem test_ok (s : St) (g : Byte) (v : Bool) (c : BitVec 3) (h : cc g v = some c) : test s g v = (abs s).cond c := by
  have f : ∀ f : Byte, (f &&& bitZ != 0#8) = (Flags.ofByte f).z ∧ (f &&& bitC != 0#8) = (Flags.ofByte f).cy ∧
    (f &&& bitP != 0#8) = (Flags.ofByte f).pv ∧ (f &&& bitS != 0#8) = (Flags.ofByte f).s := by decide +kernel
  obtain ⟨f1, f2, f3, f4⟩ := f s.f
  unfold cc at h
  unfold test
  split at h
  · rename_i e; subst e; rw [f1]; cases v <;> cases h <;> simp [Isa.Mach.cond, abs]
  · split at h
    · rename_i e; subst e; rw [f2]; cases v <;> cases h <;> simp [Isa.Mach.cond, abs]
    · split at h
      · rename_i e; subst e; rw [f3]; cases v <;> cases h <;> simp [Isa.Mach.cond, abs]
      · split at h
        · rename_i e; subst e; rw [f4]; cases v <;> cases h <;> simp [Isa.Mach.cond, abs]
        · exact absurd h (by simp)

theorem jump_val (w : Word) (j : Byte) (h : 0 ≤ ((w + 2).toNat : Int) + j.toInt ∧ ((w + 2).toNat : Int) + j.toInt < 0x10000) :
    ((((w + 2).toNat : Int) + j.toInt) % 0x100000000).toNat = (w + 2 + j.signExtend 16).toNat := by
  have e : (w + 2 + j.signExtend 16).toNat = ((((w + 2).toNat : Int) + j.toInt) % 0x10000).toNat := by
    have h1 : w + 2 + j.signExtend 16 = BitVec.ofInt 16 (((w + 2).toNat : Int) + j.toInt) := by
      rw [BitVec.ofInt_add]
      congr 1
      rw [BitVec.ofInt_natCast, ofNat_toNat16]
    rw [h1, BitVec.toNat_ofInt]; rfl
  rw [e]; omega

/-- A relative jump inside of the memory. -/
theorem abs_jump (w : Word) (s : St) (j : Byte) (hj : j = s.mem (w + 1)) (h : ¬ Isa.relDiffers (base w s)) :
    abs (jump j (adv w 2 s)) = { base w s with pc := (base w s).rel } ∧ (jump j (adv w 2 s)).pc < 0x10000 := by
  subst hj
  have h : 0 ≤ ((w + 2).toNat : Int) + (s.mem (w + 1)).toInt ∧ ((w + 2).toNat : Int) + (s.mem (w + 1)).toInt < 0x10000 :=
    Classical.not_not.mp h
  have k := jump_val w _ h
  have k' : (jump (s.mem (w + 1)) (adv w 2 s)).pc = (w + 2 + (s.mem (w + 1)).signExtend 16).toNat := k
  refine ⟨?_, by rw [k']; exact BitVec.isLt _⟩
  have e : jump (s.mem (w + 1)) (adv w 2 s) = { s with pc := (w + 2 + (s.mem (w + 1)).signExtend 16).toNat } := by
    unfold jump
    show { s with pc := _ } = _
    rw [← k]; rfl
  rw [e]
  unfold abs base Isa.Mach.rel
  simp only [ofNat_toNat16]
  rfl

theorem abs_pc (s : St) (w : Word) : abs { s with pc := w.toNat } = { abs s with pc := w } := by
  unfold abs; simp only [ofNat_toNat16]

theorem abs_pcc (s : St) (w : Word) (b : Bool) : abs { s with pc := w.toNat, cond := b } = { abs s with pc := w } := by
  unfold abs; simp only [ofNat_toNat16]

theorem abs_call (w : Word) (s : St) (h : ¬ Isa.callDiffers (base w s)) :
    abs (doCall (adv w 1 s)) = { (base w s).push (w + 3) with pc := (base w s).imm16 3 } := by
  unfold Isa.callDiffers at h
  simp only [not_or] at h
  obtain ⟨h0, h1, h2, h3, h4⟩ := h
  have h0 : s.sp ≠ 1#16 := h0
  have h1 : ¬ s.sp - 1 = w + 1 := h1
  have h2 : ¬ s.sp - 1 = w + 2 := h2
  have h3 : ¬ s.sp - 2 = w + 1 := h3
  have h4 : ¬ s.sp - 2 = w + 2 := h4
  have e3 : (BitVec.ofNat 16 ((w + BitVec.ofNat 16 1).toNat + 2) : Word) = w + 3 := by
    apply BitVec.eq_of_toNat_eq
    have := w.isLt
    simp only [BitVec.toNat_ofNat, BitVec.toNat_add]; simp
  have hp : ∀ v, push2 v (adv w 1 s) = adv w 1 (push2 v s) := by
    intro v
    unfold push2 store2 wr adv
    simp only
    split <;> split <;> rfl
  unfold doCall
  rw [show (adv w 1 s).pc = (w + BitVec.ofNat 16 1).toNat from rfl, e3, hp]
  simp only [fetch2_adv]
  rw [abs_pc, abs_adv]
  have k := abs_push2 (w + 3) s h0
  have km : (push2 (w + 3) s).mem = ((abs s).push (w + 3)).mem := congrArg Isa.Mach.mem k
  have kv : ∀ a : Word, a ≠ s.sp - 1 → a ≠ s.sp - 2 → (push2 (w + 3) s).mem a = s.mem a := by
    intro a ha1 ha2
    rw [km]
    show (if a = s.sp - 2 then _ else if a = s.sp - 1 then _ else s.mem a) = _
    rw [if_neg ha2, if_neg ha1]
  have v1 := kv (w + 1) (fun e => h1 e.symm) (fun e => h3 e.symm)
  have v2 := kv (w + 2) (fun e => h2 e.symm) (fun e => h4 e.symm)
  simp only
  rw [show (BitVec.ofNat 16 1 : Word) = 1 from rfl, show (BitVec.ofNat 16 (1 + 1) : Word) = 2 from rfl, v1, v2]
  unfold base
  rw [k]; rfl

/-! ### DAA -/

theorem abs_daa (s : St) (u : Isa.Und) (hu : u.fl = (daa s).f)
    (h : Isa.daaTable (abs s).f.n (abs s).f.cy (abs s).f.h ((abs s).a.toNat / 16) ((abs s).a.toNat % 16) ≠ none) :
    abs (daa s) = (abs s).daa u := by
  have hb : ∀ f : Byte, (f &&& bitA != 0#8) = (Flags.ofByte f).h ∧ (f &&& bitC != 0#8) = (Flags.ofByte f).cy ∧
    (f &&& bitN != 0#8) = (Flags.ofByte f).n := by decide +kernel
  have ho : ∀ g : Byte, ∀ f : Byte, Flags.ofByte (g ||| (f &&& bitN)) = { Flags.ofByte g with n := (Flags.ofByte g).n || (Flags.ofByte f).n } := by
    intro g f
    have h1 : f &&& bitN = if (Flags.ofByte f).n then bitN else 0#8 := by revert f; decide +kernel
    rw [h1]; cases (Flags.ofByte f).n
    · simp
    · simp [fl_orN]
  have hq : ∀ g : Byte, ∀ f : Byte, Flags.ofByte (g ||| (f &&& bitC)) = { Flags.ofByte g with cy := (Flags.ofByte g).cy || (Flags.ofByte f).cy } := by
    intro g f
    have h1 : f &&& bitC = if (Flags.ofByte f).cy then bitC else 0#8 := by revert f; decide +kernel
    rw [h1]; cases (Flags.ofByte f).cy
    · simp
    · simp [fl_orC]
  -- the correction by A and the three flags
  let incr (a : Byte) (n c h : Bool) : Byte :=
    let i : Byte := if h || decide ((a &&& 0x0f#8).toNat > 9) then 6#8 else 0#8
    if c || decide ((a &&& 0xf0#8).toNat > 0x90) || decide (a.toNat > 0x99) then i ||| 0x60#8 else i
  have tabl : ∀ (n c h : Bool) (a : Byte), (Isa.daaTable n c h (a.toNat / 16) (a.toNat % 16)).all (fun q => decide ((if n then BitVec.ofInt 8 ((a.toNat : Int) - (incr a n c h).toNat - (0 : Nat)) else BitVec.ofNat 8 (a.toNat + (incr a n c h).toNat + 0)) = a + q.1 ∧
          (c || (if n then decide (a.toNat < (incr a n c h).toNat + 0) else decide (256 ≤ a.toNat + (incr a n c h).toNat + 0))) = q.2)) = true := by
    decide +kernel
  have hin : daaIncr s.a s.f = incr s.a (abs s).f.n (abs s).f.cy (abs s).f.h := by
    unfold daaIncr
    simp only [hb]; rfl
  have tb := tabl (abs s).f.n (abs s).f.cy (abs s).f.h s.a
  have hf : ∀ t : St, abs t = { abs s with a := t.a, f := .ofByte t.f } →
      abs { t with f := orIf (parity t.a) bitP (t.f &&& ~~~(bitP ||| bitN)) ||| s.f &&& bitN ||| s.f &&& bitC } =
      { abs s with a := t.a, f := { Flags.ofByte t.f with pv := Isa.evenOnes t.a, n := (abs s).f.n, cy := (Flags.ofByte t.f).cy || (abs s).f.cy } } := by
    intro t ht
    simp only [abs_f, ht, hq, ho, fl_P, fl_noPN, parity_ok, Bool.false_or]; rfl
  cases e : Isa.daaTable (abs s).f.n (abs s).f.cy (abs s).f.h ((abs s).a.toNat / 16) ((abs s).a.toNat % 16) with
  | none => exact absurd e h
  | some q =>
    obtain ⟨v, c'⟩ := q
    have e' : Isa.daaTable (abs s).f.n (abs s).f.cy (abs s).f.h (s.a.toNat / 16) (s.a.toNat % 16) = some (v, c') := e
    rw [e'] at tb
    simp only [Option.all_some, decide_eq_true_eq] at tb
    unfold Isa.Mach.daa
    rw [e, hu]
    have hres : ∀ t : St, abs t = { abs s with a := t.a, f := .ofByte t.f } → t.a = s.a + v → (Flags.ofByte t.f).s = Isa.neg8 t.a →
        (Flags.ofByte t.f).z = (t.a.toNat == 0) → ((Flags.ofByte t.f).cy || (abs s).f.cy) = c' →
        daa s = { t with f := orIf (parity t.a) bitP (t.f &&& ~~~(bitP ||| bitN)) ||| s.f &&& bitN ||| s.f &&& bitC } →
        abs (daa s) = { abs s with a := (abs s).a + v, f := { (abs s).f with s := Isa.neg8 ((abs s).a + v), z := ((abs s).a + v).toNat == 0, h := (daa s).f.getLsbD 4, pv := Isa.evenOnes ((abs s).a + v), cy := c' } } := by
      intro t ht ha hs hz hc hd
      have hh : (daa s).f.getLsbD 4 = (abs (daa s)).f.h := rfl
      rw [hh, hd, hf t ht]
      simp only [hs, hz, hc, ha]; rfl
    by_cases hn : (abs s).f.n = true
    · have hb3 : (s.f &&& bitN != 0#8) = true := by rw [(hb s.f).2.2]; exact hn
      have k := abs_subA false (daaIncr s.a s.f) s (by simp)
      simp only [hn, if_true] at tb
      have ka : (subA 0 (daaIncr s.a s.f) s).a = s.a + v := by
        have := congrArg Isa.Mach.a k
        rw [← tb.1]
        refine this.trans ?_
        rw [hin, hn]; rfl
      have kf := congrArg Isa.Mach.f k
      refine hres (subA 0 (daaIncr s.a s.f) s) rfl ka ?_ ?_ ?_ ?_
      · exact (congrArg Flags.s kf).trans (congrArg Isa.neg8 (congrArg Isa.Mach.a k).symm)
      · exact (congrArg Flags.z kf).trans (congrArg (fun r : Byte => r.toNat == 0) (congrArg Isa.Mach.a k).symm)
      · rw [← tb.2, Bool.or_comm]
        congr 1
        refine (congrArg Flags.cy kf).trans ?_
        rw [hin, hn]; rfl
      · unfold daa; simp only [hb3, if_true]
    · have hn : (abs s).f.n = false := by simpa using hn
      have hb3 : (s.f &&& bitN != 0#8) = false := by rw [(hb s.f).2.2]; exact hn
      have k := abs_addA false (daaIncr s.a s.f) s (by simp)
      simp only [hn, Bool.false_eq_true, if_false] at tb
      have ka : (addA 0 (daaIncr s.a s.f) s).a = s.a + v := by
        have := congrArg Isa.Mach.a k
        rw [← tb.1]
        refine this.trans ?_
        rw [hin, hn]; rfl
      have kf := congrArg Isa.Mach.f k
      refine hres (addA 0 (daaIncr s.a s.f) s) rfl ka ?_ ?_ ?_ ?_
      · exact (congrArg Flags.s kf).trans (congrArg Isa.neg8 (congrArg Isa.Mach.a k).symm)
      · exact (congrArg Flags.z kf).trans (congrArg (fun r : Byte => r.toNat == 0) (congrArg Isa.Mach.a k).symm)
      · rw [← tb.2, Bool.or_comm]
        congr 1
        refine (congrArg Flags.cy kf).trans ?_
        rw [hin, hn]; rfl
      · unfold daa; simp only [hb3, Bool.false_eq_true, if_false]

end Ucsim.Z80
