import Verif.Proof.I48Exec
/- Every instruction of the MCS-48. -/
namespace Ucsim.I48

open Isa (next inPage)

/-- `Differs` seen from after the opcode. -/
def DQ (m : Isa.Mach) : Isa.Ins → Prop
  | .alu .adc (.ir _) => True
  | .alu _ (.ir r) | .incIr r | .xchIr r | .xchd r | .movIrA r | .movIrI r => m.ramSize ≤ (m.at' r).toNat
  | .jmp _ | .call _ => m.dbf = true ∧ m.isr = true
  | .jcc k => m.pc.extractLsb' 0 8 = 0xff#8 ∧ m.cond k = true
  | .djnz n => n ≠ 7 ∨ m.reg 7 = 1#8 ∨ m.pc.extractLsb' 0 8 = 0xff#8
  | .movp3 => m.pc.getLsbD 11 = true
  | .movdA _ | .movdP _ | .orld _ | .anld _ => m.p2 &&& 0xf0#8 ≠ 0#8
  | _ => False

theorem low_next : ∀ pc : Addr, (next pc).extractLsb' 0 8 = 0xff#8 → pc.extractLsb' 0 8 = 0xfe#8 := by decide +kernel

theorem same_page' : ∀ q : Addr, q.extractLsb' 0 8 ≠ 0xff#8 → (next q).extractLsb' 8 4 = q.extractLsb' 8 4 := by decide +kernel

theorem inPage_same' {q : Addr} (h : q.extractLsb' 0 8 ≠ 0xff#8) (l : Byte) : inPage (next q) l = inPage q l := by
  unfold inPage; rw [same_page' q h]

theorem DQ_of {m : Isa.Mach} {i : Isa.Ins} (h : DQ { m with pc := next m.pc } i) : Differs m i := by
  cases i with
  | alu o k => cases k <;> cases o <;> exact h
  | jcc k =>
    obtain ⟨h1, h2⟩ := h
    refine ⟨low_next _ h1, ?_⟩
    rw [← h2]; cases k <;> rfl
  | djnz n =>
    rcases h with h | h | h
    · exact .inl h
    · exact .inr (.inl h)
    · exact .inr (.inr (low_next _ h))
  | _ => exact h

/-- The machine after the whole instruction has been fetched. -/
def past (m : Isa.Mach) (i : Isa.Ins) : Isa.Mach := { m with pc := if i.length = 2 then next m.pc else m.pc }

/-- The claim for one instruction. -/
def Ok (f : Fn) (i : Isa.Ins) (s : St) : Prop :=
  (abs (exec f s)).blur i.expander true = ((past (abs s) i).exec s.pc i).blur i.expander true

theorem past1 {i : Isa.Ins} (h : i.length = 1) (m : Isa.Mach) : past m i = m := by
  unfold past
  rw [if_neg (by omega)]

/-- An instruction of one byte that does what the manual says, BUS included. -/
theorem Ok.one {f : Fn} {i : Isa.Ins} {s : St} (h1 : i.length = 1) (h : abs (exec f s) = (abs s).exec s.pc i) : Ok f i s := by
  unfold Ok; rw [h, past1 h1]

theorem blur_adv (s : St) : (abs (adv s)).blur false true = ({ abs s with pc := next s.pc } : Isa.Mach).blur false true := rfl

theorem jif_eq (c : Bool) (s : St) : jif c s =
    if c then { adv s with pc := inPage (next s.pc) (romRd s s.pc) } else adv s := by
  unfold jif
  rw [fetch_eq]
  simp only [page_or, adv_pc]

theorem jif_ok {c : Bool} {s : St} (h : ¬ (s.pc.extractLsb' 0 8 = 0xff#8 ∧ c = true)) :
    (abs (jif c s)).blur false true = (({ abs s with pc := next s.pc } : Isa.Mach).jump s.pc c).blur false true := by
  rw [jif_eq]
  cases c
  · rfl
  · rw [if_pos rfl, inPage_same' (fun e => h ⟨e, rfl⟩)]
    rfl

theorem target_eq (p : BitVec 3) (s : St) : target p s = ((BitVec.ofBool s.mb ++ p) ++ romRd s s.pc, adv s) := by
  unfold target
  rw [fetch_eq]
  have hm : (adv s).mb = s.mb := rfl
  simp only [hm]
  cases s.mb
  · rw [if_neg (by simp), long0]
  · rw [if_pos rfl, long1]

theorem adv_wf {s : St} (hw : Wf s) : Wf (adv s) := ⟨hw.one, hw.ram, hw.x⟩

theorem cond_ok (k : Cond) (s : St) : cond k s = (abs s).cond (toCond k) := by
  cases k <;> simp only [cond, toCond, Isa.Mach.cond, has7, has5] <;> rfl

theorem and_f0 : ∀ v : Byte, (v &&& 0xf#8) &&& 0xf0#8 = 0#8 := by decide +kernel
theorem trunc_and : ∀ v : Byte, (v &&& 0xf#8).setWidth 4 = v.extractLsb' 0 4 := by decide +kernel
theorem trunc_lt : ∀ v : Byte, v.toNat < 16 → v = (v.setWidth 4).zeroExtend 8 := by decide +kernel

theorem setX_abs (n : Fin 4) (v w : Byte) (s : St) :
    abs (setLow w (setX n v s)) = { (abs s).setX n (v.extractLsb' 0 4) with p2 := w &&& 0xf#8 } := by
  unfold setLow setX Isa.Mach.setX abs
  simp only
  congr 1
  funext k
  by_cases h : k = n
  · subst h; simp only [if_true]; exact trunc_and v
  · rw [if_neg h, if_neg h]

theorem or_low (v w : Byte) : ((v &&& 0xf#8) ||| w).extractLsb' 0 4 = w.setWidth 4 ||| v.extractLsb' 0 4 := by
  apply BitVec.eq_of_getLsbD_eq
  intro i hi
  have h : i = 0 ∨ i = 1 ∨ i = 2 ∨ i = 3 := by omega
  simp only [BitVec.getLsbD_extractLsb', BitVec.getLsbD_or, BitVec.getLsbD_and, BitVec.getLsbD_setWidth]
  rcases h with h | h | h | h <;> subst h <;> simp [Bool.or_comm]

theorem and_low (v w : Byte) : ((v &&& 0xf#8) &&& w).extractLsb' 0 4 = w.setWidth 4 &&& v.extractLsb' 0 4 := by
  apply BitVec.eq_of_getLsbD_eq
  intro i hi
  have h : i = 0 ∨ i = 1 ∨ i = 2 ∨ i = 3 := by omega
  simp only [BitVec.getLsbD_extractLsb', BitVec.getLsbD_and, BitVec.getLsbD_setWidth]
  rcases h with h | h | h | h <;> subst h <;> simp [Bool.and_comm]

theorem blur_p2 {m : Isa.Mach} {v : Byte} (h : m.p2 &&& 0xf0#8 = 0#8) : ({ m with p2 := v &&& 0xf#8 } : Isa.Mach).blur true true = m.blur true true := by
  unfold Isa.Mach.blur
  simp only [if_true]
  rw [show (0xf0 : Byte) = 0xf0#8 from rfl, h, and_f0]

theorem bs_psw (b : Bool) (s : St) : abs (setPsw (if b then s.psw ||| flagBS else s.psw &&& ~~~flagBS) s) = { abs s with bs := b } := by
  obtain ⟨h1, h2, h3, h4, h5⟩ := psw_BS s.psw b
  unfold setPsw abs
  simp only [h1, h2, h3, h4, h5]
  rfl

theorem movp3_eq {s : St} (h : s.pc.getLsbD 11 = false) : (s.pc &&& 0x800#12) ||| (0x300#12 + s.a.setWidth 12) = 0x3#4 ++ s.a := by
  rw [and800 _ h, movp3_addr]

theorem movpAt_abs (a : Addr) (s : St) : nobus (abs (movpAt a s)) = nobus { abs s with a := romRd s a } := by
  unfold movpAt
  simp only
  by_cases h : a.toNat ≥ s.inner
  · rw [if_pos h]; rfl
  · rw [if_neg h]; rfl

theorem blur_nobus {m m' : Isa.Mach} (h : nobus m = nobus m') (l : Bool) : m.blur l true = m'.blur l true := by
  have : ∀ k : Isa.Mach, k.blur l true = (nobus k).blur l true := fun k => rfl
  rw [this m, this m', h]

theorem dec_ne : ∀ v : Byte, v ≠ 1#8 → (v != 1) = true := by
  intro v h
  simpa using h

theorem djnz_ok {s : St} (h1 : (abs s).reg 7 ≠ 1#8) (h2 : s.pc.extractLsb' 0 8 ≠ 0xff#8) :
    Ok (.djnz 7#3) (.djnz 7) s := by
  unfold Ok
  show (abs (djnz 7#3 s)).blur false true = _
  have hj : (({ abs s with pc := next s.pc } : Isa.Mach).setReg 7 ((abs s).reg 7 - 1)).jump s.pc true =
      { ({ abs s with pc := next s.pc } : Isa.Mach).setReg 7 ((abs s).reg 7 - 1) with pc := inPage s.pc (romRd s s.pc) } := rfl
  show _ = Isa.Mach.blur ((({ abs s with pc := next s.pc } : Isa.Mach).setReg 7 ((abs s).reg 7 - 1)).jump s.pc ((abs s).reg 7 != 1)) false true
  rw [dec_ne _ h1, hj]
  unfold djnz
  rw [fetch_eq]
  simp only
  rw [page_add]
  show (abs { regWr (adv s) 7 (regRd (adv s) 7 - 1#8) with pc := inPage (next s.pc) (romRd s s.pc) }).blur false true = _
  rw [inPage_same' h2, abs_pc, regWr_eq, regRd_adv, regRd_eq]
  rfl

/-- The instructions for which what is after the opcode fixes the result. -/
theorem exec_ok (code : Byte) (f : Fn) (i : Isa.Ins) (s : St) (hi : toIns code f = some i) (hw : Wf s) (hp : Pins s)
    (hd : ¬ DQ (abs s) i) (hf : ∀ p, f = .djnz p → p = 7#3) : Ok f i s := by
  cases f with
  | nop =>
    by_cases hc : code = 0x75#8 <;> simp only [toIns, hc, if_true, if_false, Option.some.injEq] at hi <;> subst hi <;> rfl
  | alu o k =>
    simp only [toIns, Option.some.injEq] at hi; subst hi
    cases k with
    | imm =>
      unfold Ok
      show (abs (let (v, s) := fetch s; aluOp o v s)).blur false true = _
      rw [fetch_eq]
      simp only
      rw [aluOp_ok]
      cases o <;> rfl
    | ir r =>
      refine Ok.one (by cases o <;> rfl) ?_
      show abs (aluOp o (ramRd s (ptr s r)) s) = _
      have h : ¬ s.ramSize ≤ (ptr s r).toNat := by
        rw [ptr_eq]
        cases o <;> first | exact hd | exact absurd trivial hd
      rw [aluOp_ok, ramRd_eq h, ptr_eq]
      rfl
    | r n =>
      refine Ok.one (by cases o <;> rfl) ?_
      show abs (aluOp o (regRd s n) s) = _
      rw [aluOp_ok, regRd_eq]
      rfl
  | jmp p =>
    simp only [toIns, Option.some.injEq] at hi; subst hi
    unfold Ok
    show (abs (let (a, s) := target p s; { s with pc := a })).blur false true = _
    rw [target_eq]
    have hb : (s.mb && !s.inIsr) = s.mb := by
      have : ¬ (s.mb = true ∧ s.inIsr = true) := hd
      revert this; cases s.mb <;> cases s.inIsr <;> simp
    show Isa.Mach.blur _ false true = Isa.Mach.blur { abs s with pc := (BitVec.ofBool (s.mb && !s.inIsr) ++ p) ++ romRd s s.pc } false true
    rw [hb]
    rfl
  | call p =>
    simp only [toIns, Option.some.injEq] at hi; subst hi
    unfold Ok
    show (abs (let (a, s) := target p s; { push s with pc := a })).blur false true = _
    rw [target_eq]
    simp only
    have hb : (s.mb && !s.inIsr) = s.mb := by
      have : ¬ (s.mb = true ∧ s.inIsr = true) := hd
      revert this; cases s.mb <;> cases s.inIsr <;> simp
    rw [abs_pc, push_ok (adv_wf hw)]
    show _ = Isa.Mach.blur { ({ abs s with pc := next s.pc } : Isa.Mach).push with pc := (BitVec.ofBool (s.mb && !s.inIsr) ++ p) ++ romRd s s.pc } false true
    rw [hb]
    rfl
  | swapa => simp only [toIns, Option.some.injEq] at hi; subst hi; exact Ok.one rfl (by show abs { s with a := _ } = _; rw [swap_val]; rfl)
  | daa => simp only [toIns, Option.some.injEq] at hi; subst hi; exact Ok.one rfl (daa_ok s)
  | rr => simp only [toIns, Option.some.injEq] at hi; subst hi; exact Ok.one rfl (by show abs { s with a := _ } = _; rw [rr_val]; rfl)
  | rl => simp only [toIns, Option.some.injEq] at hi; subst hi; exact Ok.one rfl (by show abs { s with a := _ } = _; rw [rl_val]; rfl)
  | rrc => simp only [toIns, Option.some.injEq] at hi; subst hi; exact Ok.one rfl (rrc_ok s)
  | rlc => simp only [toIns, Option.some.injEq] at hi; subst hi; exact Ok.one rfl (rlc_ok s)
  | inP t => simp only [toIns, Option.some.injEq] at hi; subst hi; cases t <;> exact Ok.one rfl rfl
  | outlP t => simp only [toIns, Option.some.injEq] at hi; subst hi; cases t <;> exact Ok.one rfl rfl
  | orlP t =>
    simp only [toIns, Option.some.injEq] at hi; subst hi
    unfold Ok
    show (abs (let (v, s) := fetch s; outPort t (odr t s ||| v) s)).blur false true = _
    rw [fetch_eq]
    cases t <;> rfl
  | anlP t =>
    simp only [toIns, Option.some.injEq] at hi; subst hi
    unfold Ok
    show (abs (let (v, s) := fetch s; outPort t (odr t s &&& v) s)).blur false true = _
    rw [fetch_eq]
    cases t <;> rfl
  | orlBus =>
    simp only [toIns, Option.some.injEq] at hi; subst hi
    unfold Ok
    show (abs (let (v, s) := fetch s; latch (s.bus ||| v) s)).blur false true = _
    rw [fetch_eq]; rfl
  | anlBus =>
    simp only [toIns, Option.some.injEq] at hi; subst hi
    unfold Ok
    show (abs (let (v, s) := fetch s; latch (s.bus &&& v) s)).blur false true = _
    rw [fetch_eq]; rfl
  | movdA n =>
    simp only [toIns, Option.some.injEq] at hi; subst hi
    have hd : s.p2 &&& 0xf0#8 = 0#8 := Decidable.byContradiction hd
    show (abs { setLow (s.xpin n) s with a := s.xpin n }).blur true true = Isa.Mach.blur { abs s with a := ((s.xpin n).setWidth 4).zeroExtend 8 } true true
    rw [← trunc_lt _ (hp n)]
    exact blur_p2 (m := { abs s with a := s.xpin n }) hd
  | movdP n =>
    simp only [toIns, Option.some.injEq] at hi; subst hi
    have hd : s.p2 &&& 0xf0#8 = 0#8 := Decidable.byContradiction hd
    show (abs (setLow s.a (setX n s.a s))).blur true true = _
    rw [setX_abs]
    exact blur_p2 (m := (abs s).setX n (s.a.extractLsb' 0 4)) hd
  | orld n =>
    simp only [toIns, Option.some.injEq] at hi; subst hi
    have hd : s.p2 &&& 0xf0#8 = 0#8 := Decidable.byContradiction hd
    show (abs (setLow ((s.a &&& 0xf#8) ||| s.x n) (setX n ((s.a &&& 0xf#8) ||| s.x n) s))).blur true true = _
    rw [setX_abs, or_low]
    exact blur_p2 (m := (abs s).setX n _) hd
  | anld n =>
    simp only [toIns, Option.some.injEq] at hi; subst hi
    have hd : s.p2 &&& 0xf0#8 = 0#8 := Decidable.byContradiction hd
    show (abs (setLow ((s.a &&& 0xf#8) &&& s.x n) (setX n ((s.a &&& 0xf#8) &&& s.x n) s))).blur true true = _
    rw [setX_abs, and_low]
    exact blur_p2 (m := (abs s).setX n _) hd
  | incIr r =>
    simp only [toIns, Option.some.injEq] at hi; subst hi
    have h : ¬ s.ramSize ≤ ((abs s).at' r).toNat := hd
    refine Ok.one rfl ?_
    show abs (ramWr s (ptr s r) (ramRd s (ptr s r) + 1#8)) = _
    rw [ptr_eq, ramWr_eq h, ramRd_eq h]; rfl
  | incR n =>
    simp only [toIns, Option.some.injEq] at hi; subst hi
    refine Ok.one rfl ?_
    show abs (regWr s n (regRd s n + 1#8)) = _
    rw [regWr_eq, regRd_eq]; rfl
  | decR n =>
    simp only [toIns, Option.some.injEq] at hi; subst hi
    refine Ok.one rfl ?_
    show abs (regWr s n (regRd s n - 1#8)) = _
    rw [regWr_eq, regRd_eq]; rfl
  | xchIr r =>
    simp only [toIns, Option.some.injEq] at hi; subst hi
    have h : ¬ s.ramSize ≤ ((abs s).at' r).toNat := hd
    refine Ok.one rfl ?_
    show abs (ramWr { s with a := ramRd s (ptr s r) } (ptr s r) s.a) = _
    rw [ptr_eq, ramWr_eq (s := { s with a := ramRd s ((abs s).at' r) }) h, ramRd_eq h]; rfl
  | xchR n =>
    simp only [toIns, Option.some.injEq] at hi; subst hi
    refine Ok.one rfl ?_
    show abs (regWr { s with a := regRd s n } n s.a) = _
    rw [regWr_eq, regRd_eq]; rfl
  | xchdIr r =>
    simp only [toIns, Option.some.injEq] at hi; subst hi
    have h : ¬ s.ramSize ≤ ((abs s).at' r).toNat := hd
    refine Ok.one rfl ?_
    show abs (ramWr { s with a := (s.a &&& 0xf0#8) ||| (ramRd s (ptr s r) &&& 0xf#8) } (ptr s r)
      ((ramRd s (ptr s r) &&& 0xf0#8) ||| (s.a &&& 0xf#8))) = _
    rw [ptr_eq, ramWr_eq (s := { s with a := (s.a &&& 0xf0#8) ||| (ramRd s ((abs s).at' r) &&& 0xf#8) }) h, ramRd_eq h, nib_val, nib_val]; rfl
  | movIrA r =>
    simp only [toIns, Option.some.injEq] at hi; subst hi
    have h : ¬ s.ramSize ≤ ((abs s).at' r).toNat := hd
    refine Ok.one rfl ?_
    show abs (ramWr s (ptr s r) s.a) = _
    rw [ptr_eq, ramWr_eq h]; rfl
  | movRA n =>
    simp only [toIns, Option.some.injEq] at hi; subst hi
    refine Ok.one rfl ?_
    show abs (regWr s n s.a) = _
    rw [regWr_eq]; rfl
  | movIrI r =>
    simp only [toIns, Option.some.injEq] at hi; subst hi
    have h : ¬ s.ramSize ≤ ((abs s).at' r).toNat := hd
    unfold Ok
    show (abs (let (v, s) := fetch s; ramWr s (ptr s r) v)).blur false true = _
    rw [fetch_eq]
    simp only [ptr_adv]
    rw [ptr_eq, ramWr_eq (s := adv s) h]; rfl
  | movRI n =>
    simp only [toIns, Option.some.injEq] at hi; subst hi
    unfold Ok
    show (abs (let (v, s) := fetch s; regWr s n v)).blur false true = _
    rw [fetch_eq]
    simp only
    rw [regWr_eq]; rfl
  | movxA r =>
    simp only [toIns, Option.some.injEq] at hi; subst hi
    unfold Ok
    show (abs { latch (ptr s r) s with a := s.xram (ptr s r) }).blur false true = _
    rw [ptr_eq]; rfl
  | movxR r =>
    simp only [toIns, Option.some.injEq] at hi; subst hi
    unfold Ok
    show (abs (latch s.a { s with xram := fun b => if b = ptr s r then s.a else s.xram b })).blur false true = _
    rw [ptr_eq]; rfl
  | movp =>
    simp only [toIns, Option.some.injEq] at hi; subst hi
    unfold Ok
    show (abs (movpAt ((s.pc &&& 0xf00#12) ||| s.a.setWidth 12) s)).blur false true = _
    rw [page_or]
    exact blur_nobus (movpAt_abs _ _) false
  | movp3 =>
    simp only [toIns, Option.some.injEq] at hi; subst hi
    have h : s.pc.getLsbD 11 = false := by simpa [DQ, abs] using hd
    unfold Ok
    show (abs (movpAt ((s.pc &&& 0x800#12) ||| (0x300#12 + s.a.setWidth 12)) s)).blur false true = _
    rw [movp3_eq h]
    exact blur_nobus (movpAt_abs _ _) false
  | jb b =>
    simp only [toIns, Option.some.injEq] at hi; subst hi
    unfold Ok
    show (abs (jif (has s.a (1#8 <<< b.toNat)) s)).blur false true = _
    rw [has_bit]
    exact jif_ok hd
  | jif k =>
    simp only [toIns, Option.some.injEq] at hi; subst hi
    unfold Ok
    show (abs (jif (cond k s) s)).blur false true = _
    rw [cond_ok]
    have h : ¬ (s.pc.extractLsb' 0 8 = 0xff#8 ∧ (abs s).cond (toCond k) = true) := hd
    rw [jif_ok h]
    cases k <;> rfl
  | jtf =>
    simp only [toIns, Option.some.injEq] at hi; subst hi
    have h : ¬ (s.pc.extractLsb' 0 8 = 0xff#8 ∧ s.tflag = true) := hd
    have e := congrArg (fun m : Isa.Mach => { m with tf := false }) (jif_ok h)
    exact e
  | jmpp =>
    simp only [toIns, Option.some.injEq] at hi; subst hi
    refine Ok.one rfl ?_
    show abs (jmpp s) = _
    unfold jmpp
    simp only
    have e : (s.pc &&& 0xf00#12 ||| s.a.setWidth 12) = inPage s.pc s.a := page_or _ _
    rw [e, page_or]; rfl
  | djnz p =>
    simp only [toIns, Option.some.injEq] at hi
    have hp7 := hf p rfl
    subst hp7
    rw [← hi] at hd
    have hn : (code.extractLsb' 0 3).toFin = 7 := Decidable.byContradiction fun h => hd (.inl h)
    rw [← hi, hn]
    exact djnz_ok (fun h => hd (.inr (.inl h))) (fun h => hd (.inr (.inr h)))
  | ret => simp only [toIns, Option.some.injEq] at hi; subst hi; exact Ok.one rfl (pop_ok hw)
  | retr => simp only [toIns, Option.some.injEq] at hi; subst hi; exact Ok.one rfl (popr_ok hw)
  | clrC =>
    simp only [toIns, Option.some.injEq] at hi; subst hi
    refine Ok.one rfl ?_
    obtain ⟨h1, h2, h3, h4, h5, _⟩ := psw_ops s.psw
    show abs { s with psw := (s.psw &&& ~~~flagC) ||| 8#8 } = _
    unfold abs; simp only [h1, h2, h3, h4, h5]; rfl
  | cplC =>
    simp only [toIns, Option.some.injEq] at hi; subst hi
    refine Ok.one rfl ?_
    obtain ⟨_, _, _, _, _, h1, h2, h3, h4, h5⟩ := psw_ops s.psw
    show abs { s with psw := (s.psw ^^^ flagC) ||| 8#8 } = _
    unfold abs; simp only [h1, h2, h3, h4, h5]; rfl
  | clrF0 =>
    simp only [toIns, Option.some.injEq] at hi; subst hi
    refine Ok.one rfl ?_
    obtain ⟨h1, h2, h3, h4, h5, _⟩ := psw_F0 s.psw
    show abs { s with psw := (s.psw &&& ~~~flagF0) ||| 8#8 } = _
    unfold abs; simp only [h1, h2, h3, h4, h5]; rfl
  | cplF0 =>
    simp only [toIns, Option.some.injEq] at hi; subst hi
    refine Ok.one rfl ?_
    obtain ⟨_, _, _, _, _, h1, h2, h3, h4, h5⟩ := psw_F0 s.psw
    show abs { s with psw := (s.psw ^^^ flagF0) ||| 8#8 } = _
    unfold abs; simp only [h1, h2, h3, h4, h5]; rfl
  | selrb b => simp only [toIns, Option.some.injEq] at hi; subst hi; exact Ok.one rfl (bs_psw b s)
  | movAF =>
    simp only [toIns, Option.some.injEq] at hi; subst hi
    refine Ok.one rfl ?_
    show { abs s with a := s.psw } = { abs s with a := (abs s).psw }
    have e : (abs s).psw = s.psw := psw_read _ hw.one
    rw [e]
  | movFA => simp only [toIns, Option.some.injEq] at hi; subst hi; exact Ok.one rfl (abs_setPsw s.a s)
  | missing => simp only [toIns, Option.some.injEq] at hi; subst hi; exact absurd trivial hd
  | inv => simp [toIns] at hi
  | _ => simp only [toIns, Option.some.injEq] at hi; subst hi; exact Ok.one rfl rfl

end Ucsim.I48
