import Verif.Proof.Z80Step

namespace Ucsim.Z80
open Isa (Flags Differs)

section
variable (x : Ix) (k : Nat) (off : Byte)

theorem locO_a (a : Isa.Loc) (o : Opd) (h1 : locO x k o = some a) : o = .r .a ↔ a = .reg 7 := by
  cases o with
  | r r => cases r <;> simp [locO, numR] at h1 <;> subst h1 <;> decide
  | m => simp [locO] at h1; subst h1; decide
  | xd =>
    simp only [locO] at h1
    split at h1
    · cases h1; cases x <;> decide
    · cases h1
  | imm => simp [locO] at h1

theorem g_rot (r : Rot) (n : BitVec 3) (hn : numRot r = some n) (o : Opd) (a : Isa.Loc) (h1 : locO x k o = some a) :
    Good x k off (.rot r o) (.rot n a) := by
  intro s w u _ _ _ _ hd
  have hd : ¬ (a ≠ .reg 7 ∧ Isa.evenOnes s.a ≠ Isa.evenOnes (Isa.rotate n (base w s).f.cy ((base w s).get a)).1) := hd
  obtain ⟨L, l1, l2⟩ := loc_ok x k o a w s h1
  have hc : ∀ n, isC (adv w n s) = (base w s).f.cy := fun n => isC_ok _
  simp only [exec, l1, getL_ok x (base w s) _ _ _ (abs_adv w _ s) L a l2, rotV_ok r n hn, hc]
  generalize hq : Isa.rotate n (base w s).f.cy ((base w s).get a) = q at hd ⊢
  have hev : Isa.evenOnes (if o = .r .a then q.1 else s.a) = Isa.evenOnes q.1 := by
    split
    · rfl
    · rename_i ho
      have : a ≠ .reg 7 := fun e => ho ((locO_a x k a o h1).mpr e)
      exact Classical.not_not.mp (fun e => hd ⟨this, e⟩)
  have hF := rotF_ok (if o = .r .a then q.1 else s.a) q.1 q.2 s.f hev
  have ht := setL_ok x (base w s) { adv w (k + olen o) s with f := rotF (if o = .r .a then q.1 else s.a) q.1 q.2 s.f } (Isa.rotFlags q.1 q.2)
    ((base w s).next (k + olen o)).pc
    ((abs_f (adv w (k + olen o) s) _).trans (by rw [hF, abs_adv]; rfl)) L a l2 q.1
  refine Eq.trans ht ?_
  rw [put_next]
  subst hq; rfl

theorem g_bit (n : Nat) (b : BitVec 3) (hb : bnum n = some b) (o : Opd) (a : Isa.Loc) (h1 : locO x k o = some a) :
    Good x k off (.bit n o) (.bit b a) := by
  intro s w u _ hfl _ _ _
  obtain ⟨hn, hb⟩ := bnum_some hb
  obtain ⟨L, l1, l2⟩ := loc_ok x k o a w s h1
  simp only [exec, l1, getL_ok x (base w s) _ _ _ (abs_adv w _ s) L a l2] at hfl ⊢
  simp only [Isa.exec, hfl, hb]
  rw [abs_f, abs_adv, bitF_ok n hn]; rfl

theorem g_res (n : Nat) (b : BitVec 3) (hb : bnum n = some b) (o : Opd) (a : Isa.Loc) (h1 : locO x k o = some a) :
    Good x k off (.res n o) (.res b a) := by
  intro s w u _ _ _ _ _
  obtain ⟨hn, hb⟩ := bnum_some hb
  obtain ⟨L, l1, l2⟩ := loc_ok x k o a w s h1
  simp only [exec, l1, getL_ok x (base w s) _ _ _ (abs_adv w _ s) L a l2, bitmask n hn, Isa.exec, hb]
  rw [setL_ok x (base w s) _ _ _ (abs_adv w _ s) L a l2]
  exact put_next' _ _ _ _
theorem g_set (n : Nat) (b : BitVec 3) (hb : bnum n = some b) (o : Opd) (a : Isa.Loc) (h1 : locO x k o = some a) :
    Good x k off (.set n o) (.set b a) := by
  intro s w u _ _ _ _ _
  obtain ⟨hn, hb⟩ := bnum_some hb
  obtain ⟨L, l1, l2⟩ := loc_ok x k o a w s h1
  simp only [exec, l1, getL_ok x (base w s) _ _ _ (abs_adv w _ s) L a l2, bitmask n hn, Isa.exec, hb]
  rw [setL_ok x (base w s) _ _ _ (abs_adv w _ s) L a l2]
  exact put_next' _ _ _ _

theorem g_xrot (r : Rot) (n : BitVec 3) (hn : numRot r = some n) : Good x 4 off (.xrot r none) (.rot n (.ind (toIdx x))) := by
  intro s w u hoff _ _ _ hd
  have hoff := hoff rfl
  subst hoff
  have hd : ¬ (Isa.Loc.ind (toIdx x) ≠ .reg 7 ∧ Isa.evenOnes s.a ≠ Isa.evenOnes (Isa.rotate n (base w s).f.cy ((base w s).get (.ind (toIdx x)))).1) := hd
  have hc : isC (adv w 4 s) = (base w s).f.cy := isC_ok _
  have hg : get1 (adv w 4 s) ((base w s).ea (toIdx x)) = (base w s).get (.ind (toIdx x)) := get1_eq _ _
  simp only [exec, disp_ea, hg, hc, rotV_ok r n hn, setOpt, abs_store1]
  generalize hq : Isa.rotate n (base w s).f.cy ((base w s).get (.ind (toIdx x))) = q at hd ⊢
  have hev : Isa.evenOnes s.a = Isa.evenOnes q.1 := Classical.not_not.mp (fun e => hd ⟨by simp, e⟩)
  have hF := rotF_ok s.a q.1 q.2 s.f hev
  rw [abs_f, show (adv w 4 s).a = s.a from rfl, show (adv w 4 s).f = s.f from rfl, hF, abs_adv]
  subst hq; rfl

theorem store_self (m : Isa.Mach) (a : Word) : m.store a (m.mem a) = m := by
  unfold Isa.Mach.store
  have : (fun y => if y = a then m.mem a else m.mem y) = m.mem := by
    funext y; split
    · rename_i e; rw [e]
    · rfl
  rw [this]

theorem g_xbit (n : Nat) (b : BitVec 3) (hb : bnum n = some b) : Good x 4 off (.xbit n) (.bit b (.ind (toIdx x))) := by
  intro s w u hoff hfl _ _ _
  have hoff := hoff rfl
  subst hoff
  obtain ⟨hn, hb⟩ := bnum_some hb
  have hg : get1 (adv w 4 s) ((base w s).ea (toIdx x)) = (base w s).get (.ind (toIdx x)) := get1_eq _ _
  have hs : ∀ (a : Word) (v : Byte) (t : St), (store1 a v t).f = t.f := by
    intro a v t; unfold store1 wr; split <;> rfl
  simp only [exec, disp_ea, hg, hs] at hfl ⊢
  simp only [Isa.exec, hfl, hb, abs_store1]
  rw [abs_f, abs_adv, bitF_ok n hn]
  exact store_self ({ base w s with f := _ }.next 4) _

theorem g_xres (n : Nat) (b : BitVec 3) (hb : bnum n = some b) : Good x 4 off (.xres n none) (.res b (.ind (toIdx x))) := by
  intro s w u hoff _ _ _ _
  have hoff := hoff rfl
  subst hoff
  obtain ⟨hn, hb⟩ := bnum_some hb
  have hg : get1 (adv w 4 s) ((base w s).ea (toIdx x)) = (base w s).get (.ind (toIdx x)) := get1_eq _ _
  simp only [exec, disp_ea, hg, setOpt, abs_store1, bitmask n hn, Isa.exec, hb]
  rw [abs_adv]; rfl
theorem g_xset (n : Nat) (b : BitVec 3) (hb : bnum n = some b) : Good x 4 off (.xset n none) (.set b (.ind (toIdx x))) := by
  intro s w u hoff _ _ _ _
  have hoff := hoff rfl
  subst hoff
  obtain ⟨hn, hb⟩ := bnum_some hb
  have hg : get1 (adv w 4 s) ((base w s).ea (toIdx x)) = (base w s).get (.ind (toIdx x)) := get1_eq _ _
  simp only [exec, disp_ea, hg, setOpt, abs_store1, bitmask n hn, Isa.exec, hb]
  rw [abs_adv]; rfl

theorem g_inC (r : R8) (n : BitVec 3) (hn : numR r = some n) : Good x k off (.inC r) (.inR n) := by
  intro s w u _ _ _ _ hd
  have hd := Classical.not_not.mp hd
  obtain ⟨d1, d2, d3⟩ := hd
  have e := setL_ok x (base w s) (adv w k s) _ _ (abs_adv w k s) (.reg r) (.reg n) hn (s.inp s.c)
  have e' : abs (set8 x r (s.inp s.c) (adv w k s)) = ((base w s).put (.reg n) (s.inp s.c)).next k := e.trans (put_next' _ _ _ _)
  simp only [exec, Isa.exec, abs_f, inFlags, fl_P, fl_noNP, parity_ok, Bool.false_or]
  rw [show (adv w k s).c = s.c from rfl, show (adv w k s).inp = s.inp from rfl, e']
  unfold Isa.Mach.ioFlags
  rw [show (base w s).inp (base w s).c = s.inp s.c from rfl] at d1 d2 ⊢
  rw [← d1, ← d2, ← d3]; rfl
theorem g_outC (r : R8) (n : BitVec 3) (hn : numR r = some n) : Good x k off (.outC r) (.outR n) := by
  intro s w u _ _ _ _ _
  simp only [exec, Isa.exec]
  rw [get8_ok x (base w s) (adv w k s) _ _ (abs_adv w k s) r n hn]
  exact congrArg (fun m : Isa.Mach => { m with out := fun q => if q = s.c then (base w s).get (.reg n) else m.out q }) (abs_adv w k s)
theorem g_im (n : Nat) : Good x k off (.im n) (.im n) := fun s w _ _ _ _ _ _ =>
  congrArg (fun m : Isa.Mach => { m with im := n }) (abs_adv w k s)
theorem g_ldIA : Good x k off .ldIA .ldia := fun s w _ _ _ _ _ _ =>
  congrArg (fun m : Isa.Mach => { m with i := m.a }) (abs_adv w k s)
theorem g_ldRA : Good x k off .ldRA .ldra := fun s w _ _ _ _ _ _ => abs_adv w k s

theorem ldAF_ok (v : Byte) (b : Bool) (f : Byte) : Flags.ofByte (ldAFlags v b f) = Isa.Mach.irFlags (.ofByte f) v b := by
  have eZ : ∀ (c : Bool) (f : Byte), Flags.ofByte ((f &&& ~~~bitZ) ||| (if c = true then bitZ else 0#8)) = { Flags.ofByte f with z := c } := by decide +kernel
  have eS : ∀ (c : Bool) (f : Byte), Flags.ofByte ((f &&& ~~~bitS) ||| (if c = true then 0#8 else bitS)) = { Flags.ofByte f with s := !c } := by decide +kernel
  have hz : setZ v (setS v f) = ((setS v f &&& ~~~bitZ) ||| (if (v.toNat == 0) = true then bitZ else 0#8)) := by
    unfold setZ
    congr 1
    rw [← zero_ok]
    simp
  have hs : setS v f = ((f &&& ~~~bitS) ||| (if (!Isa.neg8 v) = true then 0#8 else bitS)) := by
    unfold setS
    congr 1
    rw [← bit7_ok]
    unfold bit7
    simp
  simp only [ldAFlags, fl_P, fl_noANP]
  rw [hz, hs, eZ, eS]
  simp [Isa.Mach.irFlags]

theorem g_ldAI : Good x k off .ldAI .ldai := by
  intro s w u _ _ _ _ _
  simp only [exec, Isa.exec, abs_af, ldAF_ok, abs_adv]; rfl
theorem g_ldAR : Good x k off .ldAR .ldar := by
  intro s w u _ _ _ hr _
  simp only [exec, Isa.exec, abs_af, ldAF_ok, abs_adv, hr]; rfl

theorem abs_retn (s : St) (h : s.sp ≠ 0xffff#16) (p q : Bool) :
    abs { (pop2 s).2 with pc := (pop2 s).1.toNat, iff1 := p, iff2 := q } = { (abs s).drop with pc := (abs s).top, iff1 := p, iff2 := q } := by
  rw [pop2_eq s h]
  unfold abs Isa.Mach.drop
  simp only [ofNat_toNat16]

theorem g_retN : Good x k off .retN .retn := by
  intro s w u _ _ _ _ hd
  have hd : ¬ (s.iff2 = true ∨ s.sp = 0xffff#16) := hd
  simp only [not_or, Bool.not_eq_true] at hd
  simp only [exec, Isa.exec]
  rw [abs_retn (adv w k s) hd.2, abs_adv, ← hd.1]; rfl
theorem g_reti : Good x k off .retN .reti := by
  intro s w u _ _ _ _ hd
  have hd : ¬ (s.iff1 = true ∨ s.iff2 = true ∨ s.sp = 0xffff#16) := hd
  simp only [not_or, Bool.not_eq_true] at hd
  simp only [exec, Isa.exec]
  rw [abs_retn (adv w k s) hd.2.2, abs_adv, show (adv w k s).iff2 = s.iff1 from hd.2.1.trans hd.1.symm]
  rw [show false = s.iff2 from hd.2.1.symm]; rfl

theorem shl4 : ∀ a : Byte, a <<< 4 = BitVec.ofNat 8 (a.toNat % 16 * 16) := by decide +kernel
theorem shr4 : ∀ a : Byte, a >>> 4 = BitVec.ofNat 8 (a.toNat / 16) := by decide +kernel
theorem low4 : ∀ a : Byte, a &&& 0x0f#8 = BitVec.ofNat 8 (a.toNat % 16) := by decide +kernel
theorem high4 : ∀ a : Byte, a &&& 0xf0#8 = BitVec.ofNat 8 (a.toNat / 16 * 16) := by decide +kernel

/-- Two digits. -/
theorem digits : ∀ p, p < 16 → ∀ q, q < 16 → (BitVec.ofNat 8 (p * 16) ||| BitVec.ofNat 8 q : Byte) = BitVec.ofNat 8 (p * 16 + q) := by
  decide +kernel

theorem g_rrd : Good x k off .rrd .rrd := by
  intro s w u _ _ _ _ hd
  have hd := Classical.not_not.mp hd
  have ha := s.a.isLt
  have hv := ((base w s).mem (base w s).HL).isLt
  have hh : hl (adv w k s) = (base w s).HL := hl_eq _
  have hg : get1 (adv w k s) (base w s).HL = (base w s).mem (base w s).HL := get1_eq _ _
  have e1 : ((base w s).mem (base w s).HL) >>> 4 ||| s.a <<< 4 =
      BitVec.ofNat 8 (s.a.toNat % 16 * 16 + ((base w s).mem (base w s).HL).toNat / 16) := by
    rw [BitVec.or_comm, shl4, shr4, digits _ (by omega) _ (by omega)]
  have e2 : (s.a &&& 0xf0#8) ||| ((base w s).mem (base w s).HL &&& 0x0f#8) =
      BitVec.ofNat 8 (s.a.toNat / 16 * 16 + ((base w s).mem (base w s).HL).toNat % 16) := by
    rw [high4, low4, digits _ (by omega) _ (by omega)]
  simp only [exec, Isa.exec, hh, hg]
  rw [← hd]
  rw [show (adv w k s).a = s.a from rfl, e1, e2]
  have := congrArg (fun m : Isa.Mach => { m.store (base w s).HL (BitVec.ofNat 8 (s.a.toNat % 16 * 16 + ((base w s).mem (base w s).HL).toNat / 16)) with
    a := BitVec.ofNat 8 (s.a.toNat / 16 * 16 + ((base w s).mem (base w s).HL).toNat % 16) }) (abs_adv w k s)
  refine Eq.trans ?_ this
  simp only [← abs_store1]; rfl
theorem g_rld : Good x k off .rld .rld := by
  intro s w u _ _ _ _ hd
  have hd := Classical.not_not.mp hd
  have ha := s.a.isLt
  have hv := ((base w s).mem (base w s).HL).isLt
  have hh : hl (adv w k s) = (base w s).HL := hl_eq _
  have hg : get1 (adv w k s) (base w s).HL = (base w s).mem (base w s).HL := get1_eq _ _
  have e1 : ((base w s).mem (base w s).HL) <<< 4 ||| s.a &&& 0x0f#8 =
      BitVec.ofNat 8 (((base w s).mem (base w s).HL).toNat % 16 * 16 + s.a.toNat % 16) := by
    rw [shl4, low4, digits _ (by omega) _ (by omega)]
  have e2 : (s.a &&& 0xf0#8) ||| (base w s).mem (base w s).HL >>> 4 =
      BitVec.ofNat 8 (s.a.toNat / 16 * 16 + ((base w s).mem (base w s).HL).toNat / 16) := by
    rw [high4, shr4, digits _ (by omega) _ (by omega)]
  simp only [exec, Isa.exec, hh, hg]
  rw [← hd]
  rw [show (adv w k s).a = s.a from rfl, e1, e2]
  have := congrArg (fun m : Isa.Mach => { m.store (base w s).HL (BitVec.ofNat 8 (((base w s).mem (base w s).HL).toNat % 16 * 16 + s.a.toNat % 16)) with
    a := BitVec.ofNat 8 (s.a.toNat / 16 * 16 + ((base w s).mem (base w s).HL).toNat / 16) }) (abs_adv w k s)
  refine Eq.trans ?_ this
  simp only [← abs_store1]; rfl

end

end Ucsim.Z80
