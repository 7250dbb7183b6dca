import Verif.Proof.I48Step
/- The BUS latch, and the instruction from its opcode on. -/
namespace Ucsim.I48

open Isa (next inPage)

/-! ### Who writes the BUS latch -/

theorem bus_ramWr (s : St) (p v : Byte) : (ramWr s p v).bus = s.bus := by
  unfold ramWr; split <;> rfl
theorem bus_push (s : St) : (push s).bus = s.bus := by
  unfold push setPsw; simp only [bus_ramWr]
theorem bus_aluOp (o : Op) (v : Byte) (s : St) : (aluOp o v s).bus = s.bus := by cases o <;> rfl
theorem bus_jump (m : Isa.Mach) (q : Addr) (t : Bool) : (m.jump q t).bus = m.bus := by
  unfold Isa.Mach.jump; split <;> rfl
theorem bus_adv {s : St} (h : (next s.pc).toNat < s.inner) : (adv s).bus = s.bus := by
  show (if _ then _ else _) = _
  rw [if_neg (by omega)]
theorem bus_jif {c : Bool} {s : St} (h : (next s.pc).toNat < s.inner) : (jif c s).bus = s.bus := by
  rw [jif_eq]; cases c
  · exact bus_adv h
  · exact bus_adv h
theorem bus_movpAt {a : Addr} {s : St} (h : a.toNat < s.inner) : (movpAt a s).bus = s.bus := by
  unfold movpAt
  show (if a.toNat ≥ s.inner then _ else _ : St).bus = _
  rw [if_neg (by omega)]
theorem bus_alu (m : Isa.Mach) (v : Byte) (o : Isa.Op) : (m.alu v o).bus = m.bus := by cases o <;> rfl

theorem bus_daa (s : St) : (daa s).bus = s.bus := by
  obtain ⟨p, _, e⟩ := daa_parts s
  rw [e]; rfl

/-- From after the opcode: no external memory is used. -/
def Quiet (s : St) : Isa.Ins → Prop
  | .movxA _ | .movxR _ => False
  | .movp => (inPage s.pc s.a).toNat < s.inner
  | .movp3 => 0x300 + s.a.toNat < s.inner
  | i => i.length = 2 → (next s.pc).toNat < s.inner

theorem p3_lt : ∀ a : Byte, ((0x3#4 ++ a : Addr)).toNat = 0x300 + a.toNat := by decide +kernel

theorem bus_ok (code : Byte) (f : Fn) (i : Isa.Ins) (s : St) (hi : toIns code f = some i)
    (hd : ¬ DQ (abs s) i) (hq : Quiet s i) : (exec f s).bus = ((past (abs s) i).exec s.pc i).bus := by
  cases f with
  | nop =>
    by_cases hc : code = 0x75#8 <;> simp only [toIns, hc, if_true, if_false, Option.some.injEq] at hi <;> subst hi <;> rfl
  | alu o k =>
    simp only [toIns, Option.some.injEq] at hi; subst hi
    cases k with
    | imm =>
      show (let (v, s) := fetch s; aluOp o v s).bus = _
      rw [fetch_eq]
      simp only
      rw [bus_aluOp, bus_adv (by cases o <;> exact hq rfl)]
      exact (bus_alu (past (abs s) _) _ _).symm
    | ir r => exact (bus_aluOp _ _ _).trans (bus_alu (past (abs s) _) _ _).symm
    | r n => exact (bus_aluOp _ _ _).trans (bus_alu (past (abs s) _) _ _).symm
  | jmp p =>
    simp only [toIns, Option.some.injEq] at hi; subst hi
    show (let (a, s) := target p s; ({ s with pc := a } : St)).bus = _
    rw [target_eq]
    exact bus_adv (hq rfl)
  | call p =>
    simp only [toIns, Option.some.injEq] at hi; subst hi
    show (let (a, s) := target p s; ({ push s with pc := a } : St)).bus = _
    rw [target_eq]
    exact (bus_push _).trans (bus_adv (hq rfl))
  | daa => simp only [toIns, Option.some.injEq] at hi; subst hi; exact bus_daa s
  | outlP t => simp only [toIns, Option.some.injEq] at hi; subst hi; cases t <;> rfl
  | orlP t =>
    simp only [toIns, Option.some.injEq] at hi; subst hi
    show (let (v, s) := fetch s; outPort t (odr t s ||| v) s).bus = _
    rw [fetch_eq]
    cases t <;> exact bus_adv (hq rfl)
  | anlP t =>
    simp only [toIns, Option.some.injEq] at hi; subst hi
    show (let (v, s) := fetch s; outPort t (odr t s &&& v) s).bus = _
    rw [fetch_eq]
    cases t <;> exact bus_adv (hq rfl)
  | orlBus =>
    simp only [toIns, Option.some.injEq] at hi; subst hi
    show (let (v, s) := fetch s; latch (s.bus ||| v) s).bus = _
    rw [fetch_eq]
    show (adv s).bus ||| _ = _
    rw [bus_adv (hq rfl)]; rfl
  | anlBus =>
    simp only [toIns, Option.some.injEq] at hi; subst hi
    show (let (v, s) := fetch s; latch (s.bus &&& v) s).bus = _
    rw [fetch_eq]
    show (adv s).bus &&& _ = _
    rw [bus_adv (hq rfl)]; rfl
  | incIr r => simp only [toIns, Option.some.injEq] at hi; subst hi; exact bus_ramWr _ _ _
  | xchIr r => simp only [toIns, Option.some.injEq] at hi; subst hi; exact bus_ramWr _ _ _
  | xchdIr r => simp only [toIns, Option.some.injEq] at hi; subst hi; exact bus_ramWr _ _ _
  | movIrA r => simp only [toIns, Option.some.injEq] at hi; subst hi; exact bus_ramWr _ _ _
  | movIrI r =>
    simp only [toIns, Option.some.injEq] at hi; subst hi
    show (let (v, s) := fetch s; ramWr s (ptr s r) v).bus = _
    rw [fetch_eq]
    exact (bus_ramWr _ _ _).trans (bus_adv (hq rfl))
  | movRI n =>
    simp only [toIns, Option.some.injEq] at hi; subst hi
    show (let (v, s) := fetch s; regWr s n v).bus = _
    rw [fetch_eq]
    exact bus_adv (hq rfl)
  | movxA r => simp only [toIns, Option.some.injEq] at hi; subst hi; exact hq.elim
  | movxR r => simp only [toIns, Option.some.injEq] at hi; subst hi; exact hq.elim
  | movp =>
    simp only [toIns, Option.some.injEq] at hi; subst hi
    refine bus_movpAt (a := (s.pc &&& 0xf00#12) ||| s.a.setWidth 12) ?_
    rw [page_or]; exact hq
  | movp3 =>
    simp only [toIns, Option.some.injEq] at hi; subst hi
    refine bus_movpAt (a := (s.pc &&& 0x800#12) ||| (0x300#12 + s.a.setWidth 12)) ?_
    have h : s.pc.getLsbD 11 = false := by
      have : ¬ s.pc.getLsbD 11 = true := hd
      simpa using this
    rw [movp3_eq h, p3_lt]; exact hq
  | jb b =>
    simp only [toIns, Option.some.injEq] at hi; subst hi
    refine (bus_jif (hq rfl)).trans ?_
    exact (bus_jump (past (abs s) _) _ _).symm
  | jif k =>
    simp only [toIns, Option.some.injEq] at hi; subst hi
    refine (bus_jif (hq rfl)).trans ?_
    cases k <;> exact (bus_jump (past (abs s) _) _ _).symm
  | jtf =>
    simp only [toIns, Option.some.injEq] at hi; subst hi
    refine (bus_jif (hq rfl)).trans ?_
    exact (bus_jump (past (abs s) _) _ _).symm
  | djnz p =>
    simp only [toIns, Option.some.injEq] at hi; subst hi
    show (djnz p s).bus = _
    unfold djnz
    rw [fetch_eq]
    refine (bus_adv (hq rfl)).trans ?_
    exact (bus_jump ((past (abs s) _).setReg _ _) _ _).symm
  | missing => simp only [toIns, Option.some.injEq] at hi; subst hi; exact absurd trivial hd
  | inv => simp [toIns] at hi
  | _ => simp only [toIns, Option.some.injEq] at hi; subst hi; rfl

/-! ### From the opcode on -/

theorem tick_abs (n : Nat) (s : St) : abs (tick n s) = abs s := rfl
theorem adv_tick (n : Nat) (s : St) : tick n (adv s) = adv (tick n s) := rfl

theorem execInst_eq (s : St) : execInst s =
    match select (romRd s s.pc) with
    | .inv => (.inv, { tick (cyclesOf (romRd s s.pc) * 5) (adv s) with pc := s.pc })
    | .missing => (.notDone, { tick (cyclesOf (romRd s s.pc) * 5) (adv s) with pc := s.pc })
    | f => (.go, exec f (tick (cyclesOf (romRd s s.pc) * 5) (adv s))) := by
  unfold execInst
  rw [fetch_eq]
  simp only
  cases select (romRd s s.pc) <;> rfl

theorem execInst_go (s : St) (h1 : select (romRd s s.pc) ≠ .inv) (h2 : select (romRd s s.pc) ≠ .missing) :
    execInst s = (.go, exec (select (romRd s s.pc)) (tick (cyclesOf (romRd s s.pc) * 5) (adv s))) := by
  rw [execInst_eq]
  split
  · rename_i h; exact absurd h h1
  · rename_i h; exact absurd h h2
  · rfl

theorem sel_defined {code : Byte} {i : Isa.Ins} (h : Isa.decode code = some i) : select code ≠ .inv := by
  intro e
  rw [decode_select, e] at h
  cases h

theorem sel_missing {code : Byte} {i : Isa.Ins} (h : Isa.decode code = some i) (e : select code = .missing) :
    ∃ r, i = .alu .adc (.ir r) := by
  rw [decode_select, e] at h
  exact ⟨_, (Option.some.inj h).symm⟩

theorem blur_bus {m m' : Isa.Mach} {l : Bool} (h : m.blur l true = m'.blur l true) (hb : m.bus = m'.bus) : m.blur l false = m'.blur l false := by
  have e : ∀ k : Isa.Mach, k.blur l true = nobus (k.blur l false) := fun k => rfl
  rw [e m, e m'] at h
  exact nobus_ext h hb

theorem past_eq (m : Isa.Mach) (i : Isa.Ins) (p : Addr) (h : p = next m.pc) :
    past { m with pc := p } i = { m with pc := if i.length = 2 then next p else p } := rfl

theorem quiet_of {s : St} {i : Isa.Ins} (n : Nat) (h : (abs s).usesBus s.inner i = false) :
    Quiet (tick n (adv s)) i ∧ (next s.pc).toNat < s.inner := by
  have key : ∀ b c : Bool, (decide (s.inner ≤ s.pc.toNat ∨ s.inner ≤ (next s.pc).toNat ∨ (i.length = 2 ∧ s.inner ≤ (next (next s.pc)).toNat)) || b || c) = false →
      (next s.pc).toNat < s.inner ∧ (i.length = 2 → (next (next s.pc)).toNat < s.inner) := by
    intro b c h
    simp only [Bool.or_eq_false_iff, decide_eq_false_iff_not] at h
    obtain ⟨⟨h, _⟩, _⟩ := h
    constructor
    · have : ¬ s.inner ≤ (next s.pc).toNat := fun e => h (.inr (.inl e))
      omega
    · intro hl
      have : ¬ s.inner ≤ (next (next s.pc)).toNat := fun e => h (.inr (.inr ⟨hl, e⟩))
      omega
  cases i with
  | movxA r => cases h
  | movxR r => cases h
  | movp =>
    refine ⟨?_, (key _ _ h).1⟩
    have h' := h
    unfold Isa.Mach.usesBus at h'
    simp only [Bool.or_eq_false_iff] at h'
    have h2 := h'.1.2
    simp only [beq_self_eq_true, Bool.true_and, decide_eq_false_iff_not] at h2
    show (inPage (next s.pc) s.a).toNat < s.inner
    have : ¬ s.inner ≤ (inPage (next s.pc) s.a).toNat := h2
    omega
  | movp3 =>
    refine ⟨?_, (key _ _ h).1⟩
    have h' := h
    unfold Isa.Mach.usesBus at h'
    simp only [Bool.or_eq_false_iff] at h'
    have h2 := h'.2
    simp only [beq_self_eq_true, Bool.true_and, decide_eq_false_iff_not] at h2
    show 0x300 + s.a.toNat < s.inner
    have : ¬ s.inner ≤ 0x300 + s.a.toNat := h2
    omega
  | _ => exact ⟨(key _ _ h).2, (key _ _ h).1⟩

/-- No instruction shows the BUS latch anywhere else. -/
theorem exec_bus (m : Isa.Mach) (b : Byte) (q : Addr) (i : Isa.Ins) (l : Bool) :
    (({ m with bus := b } : Isa.Mach).exec q i).blur l true = (m.exec q i).blur l true := by
  have hj : ∀ (m : Isa.Mach) (t : Bool), ({ m with bus := b } : Isa.Mach).jump q t = { m.jump q t with bus := b } := by
    intro m t; cases t <;> rfl
  cases i with
  | alu o k => cases o <;> cases k <;> rfl
  | jcc k =>
    have h : ∀ t, (({ m with bus := b } : Isa.Mach).jump q t).blur l true = (m.jump q t).blur l true := by intro t; cases t <;> rfl
    have h' : ∀ t, ({ ({ m with bus := b } : Isa.Mach).jump q t with tf := false } : Isa.Mach).blur l true =
        ({ m.jump q t with tf := false } : Isa.Mach).blur l true := by intro t; cases t <;> rfl
    cases k with
    | tf => exact h' _
    | _ => exact h _
  | djnz n =>
    show Isa.Mach.blur (Isa.Mach.jump { m.setReg n (m.reg n - 1) with bus := b } q (m.reg n != 1)) l true = _
    rw [hj]; rfl
  | inP p => cases p <;> rfl
  | outl p => cases p <;> rfl
  | orlP p => cases p <;> rfl
  | anlP p => cases p <;> rfl
  | _ => rfl

/-- One instruction, against the manual. -/
theorem inst_ok (s : St) (i : Isa.Ins) (hw : Wf s) (hp : Pins s) (hi : Isa.decode (romRd s s.pc) = some i)
    (hd : ¬ Differs (abs s) i) :
    (execInst s).1 = .go ∧ ∃ m, (abs s).step = some m ∧
      (abs (execInst s).2).blur i.expander ((abs s).usesBus s.inner i) = m.blur i.expander ((abs s).usesBus s.inner i) := by
  have h1 := sel_defined hi
  have h2 : select (romRd s s.pc) ≠ .missing := by
    intro e
    obtain ⟨r, e⟩ := sel_missing hi e
    subst e
    exact hd trivial
  rw [execInst_go s h1 h2]
  have hs : (abs s).step = some ((past { abs s with pc := next s.pc } i).exec (next s.pc) i) := by
    unfold Isa.Mach.step
    rw [show (abs s).prog (abs s).pc = romRd s s.pc from rfl, hi]; rfl
  refine ⟨rfl, _, hs, ?_⟩
  have hi' : toIns (romRd s s.pc) (select (romRd s s.pc)) = some i := by rw [← decode_select]; exact hi
  have hdq : ¬ DQ (abs (tick (cyclesOf (romRd s s.pc) * 5) (adv s))) i := by
    intro h
    apply hd
    apply DQ_of
    revert h
    cases i with
    | alu o k => cases k <;> cases o <;> exact id
    | jcc k => cases k <;> exact id
    | _ => exact id
  have hok : Ok _ _ _ := exec_ok (romRd s s.pc) (select (romRd s s.pc)) i (tick (cyclesOf (romRd s s.pc) * 5) (adv s)) hi'
    ⟨hw.one, hw.ram, hw.x⟩ hp hdq (fun p hp => djnz_seven _ p hp)
  have hB : ∀ l, ((past (abs (tick (cyclesOf (romRd s s.pc) * 5) (adv s))) i).exec (next s.pc) i).blur l true =
      ((past { abs s with pc := next s.pc } i).exec (next s.pc) i).blur l true := by
    intro l
    exact exec_bus (past { abs s with pc := next s.pc } i) (adv s).bus (next s.pc) i l
  cases hu : (abs s).usesBus s.inner i
  · obtain ⟨hq, hn⟩ := quiet_of (cyclesOf (romRd s s.pc) * 5) hu
    have hb := bus_ok (romRd s s.pc) (select (romRd s s.pc)) i (tick (cyclesOf (romRd s s.pc) * 5) (adv s)) hi' hdq hq
    have ha : abs (tick (cyclesOf (romRd s s.pc) * 5) (adv s)) = { abs s with pc := next s.pc } := by
      refine nobus_ext ?_ (bus_adv hn)
      rfl
    rw [ha] at hb
    refine blur_bus (hok.trans (hB _)) ?_
    exact hb
  · exact hok.trans (hB _)

/-! ### Wf is kept -/

theorem or8 : ∀ v : Byte, (v ||| 0x08#8).getLsbD 3 = true := by decide +kernel
theorem and_lt : ∀ v : Byte, (v &&& 0xf#8).toNat < 16 := by decide +kernel

theorem wf_setPsw {s : St} (hw : Wf s) (v : Byte) : Wf (setPsw v s) := ⟨or8 v, hw.ram, hw.x⟩
theorem wf_ramWr {s : St} (hw : Wf s) (p v : Byte) : Wf (ramWr s p v) := by
  unfold ramWr; split <;> exact ⟨hw.one, hw.ram, hw.x⟩
theorem wf_push {s : St} (hw : Wf s) : Wf (push s) := wf_setPsw (wf_ramWr (wf_ramWr hw _ _) _ _) _
theorem wf_pop {s : St} (hw : Wf s) (b : Bool) : Wf (pop b s) := ⟨or8 _, hw.ram, hw.x⟩
theorem wf_setX {s : St} (hw : Wf s) (n : Fin 4) (v : Byte) : Wf (setX n v s) := by
  refine ⟨hw.one, hw.ram, ?_⟩
  intro k
  show (if k = n then v &&& 0xf#8 else s.x k).toNat < 16
  split
  · exact and_lt v
  · exact hw.x k
theorem wf_setLow {s : St} (hw : Wf s) (v : Byte) : Wf (setLow v s) := ⟨hw.one, hw.ram, hw.x⟩
theorem wf_jif {s : St} (hw : Wf s) (c : Bool) : Wf (jif c s) := by
  rw [jif_eq]; cases c <;> exact ⟨hw.one, hw.ram, hw.x⟩
theorem wf_aluOp {s : St} (hw : Wf s) (o : Op) (v : Byte) : Wf (aluOp o v s) := by
  cases o <;> first | exact ⟨hw.one, hw.ram, hw.x⟩ | exact ⟨or8 _, hw.ram, hw.x⟩
theorem wf_movpAt {s : St} (hw : Wf s) (a : Addr) : Wf (movpAt a s) := by
  unfold movpAt
  simp only
  split <;> exact ⟨hw.one, hw.ram, hw.x⟩

theorem wf_exec {s : St} (hw : Wf s) (f : Fn) : Wf (exec f s) := by
  have ha := adv_wf hw
  cases f with
  | alu o k =>
    cases k with
    | imm => show Wf (let (v, s) := fetch s; aluOp o v s); rw [fetch_eq]; exact wf_aluOp ha _ _
    | ir r => exact wf_aluOp hw _ _
    | r n => exact wf_aluOp hw _ _
  | jmp p => show Wf (let (a, s) := target p s; { s with pc := a }); rw [target_eq]; exact ⟨hw.one, hw.ram, hw.x⟩
  | call p =>
    show Wf (let (a, s) := target p s; { push s with pc := a })
    rw [target_eq]
    have := wf_push ha
    exact ⟨this.one, this.ram, this.x⟩
  | daa => obtain ⟨p, _, e⟩ := daa_parts s; show Wf (daa s); rw [e]; exact ⟨or8 _, hw.ram, hw.x⟩
  | rrc => exact ⟨or8 _, hw.ram, hw.x⟩
  | rlc => exact ⟨or8 _, hw.ram, hw.x⟩
  | outlP t => cases t <;> exact ⟨hw.one, hw.ram, hw.x⟩
  | orlP t =>
    show Wf (let (v, s) := fetch s; outPort t (odr t s ||| v) s)
    rw [fetch_eq]; cases t <;> exact ⟨hw.one, hw.ram, hw.x⟩
  | anlP t =>
    show Wf (let (v, s) := fetch s; outPort t (odr t s &&& v) s)
    rw [fetch_eq]; cases t <;> exact ⟨hw.one, hw.ram, hw.x⟩
  | orlBus => show Wf (let (v, s) := fetch s; latch (s.bus ||| v) s); rw [fetch_eq]; exact ⟨hw.one, hw.ram, hw.x⟩
  | anlBus => show Wf (let (v, s) := fetch s; latch (s.bus &&& v) s); rw [fetch_eq]; exact ⟨hw.one, hw.ram, hw.x⟩
  | movdP n => exact wf_setLow (wf_setX hw _ _) _
  | orld n => exact wf_setLow (wf_setX hw _ _) _
  | anld n => exact wf_setLow (wf_setX hw _ _) _
  | incIr r => exact wf_ramWr hw _ _
  | xchIr r => exact wf_ramWr (s := { s with a := ramRd s (ptr s r) }) ⟨hw.one, hw.ram, hw.x⟩ _ _
  | xchdIr r => exact wf_ramWr (s := { s with a := (s.a &&& 0xf0#8) ||| (ramRd s (ptr s r) &&& 0xf#8) }) ⟨hw.one, hw.ram, hw.x⟩ _ _
  | movIrA r => exact wf_ramWr hw _ _
  | movIrI r => show Wf (let (v, s) := fetch s; ramWr s (ptr s r) v); rw [fetch_eq]; exact wf_ramWr ha _ _
  | movRI n => show Wf (let (v, s) := fetch s; regWr s n v); rw [fetch_eq]; exact ⟨hw.one, hw.ram, hw.x⟩
  | movp => exact wf_movpAt hw _
  | movp3 => exact wf_movpAt hw _
  | jb b => exact wf_jif hw _
  | jif k => exact wf_jif hw _
  | jtf => have := wf_jif hw s.tflag; exact ⟨this.one, this.ram, this.x⟩
  | djnz p => show Wf (djnz p s); unfold djnz; rw [fetch_eq]; exact ⟨hw.one, hw.ram, hw.x⟩
  | ret => exact wf_pop hw _
  | retr => exact wf_pop (s := { s with inIsr := false }) ⟨hw.one, hw.ram, hw.x⟩ _
  | clrC => exact wf_setPsw hw _
  | cplC => exact wf_setPsw hw _
  | clrF0 => exact wf_setPsw hw _
  | cplF0 => exact wf_setPsw hw _
  | selrb b => exact wf_setPsw hw _
  | movFA => exact wf_setPsw hw _
  | _ => exact ⟨hw.one, hw.ram, hw.x⟩

theorem wf_execInst {s : St} (hw : Wf s) : Wf (execInst s).2 := by
  have ha : Wf (tick (cyclesOf (romRd s s.pc) * 5) (adv s)) := ⟨hw.one, hw.ram, hw.x⟩
  rw [execInst_eq]
  split
  · exact ⟨hw.one, hw.ram, hw.x⟩
  · exact ⟨hw.one, hw.ram, hw.x⟩
  · exact wf_exec ha _

theorem doTimer_eq (c : Nat) (s : St) : doTimer c s =
    { s with tmr := BitVec.ofNat 8 (s.tmr.toNat + c), tflag := s.tflag || decide (255 < s.tmr.toNat + c),
             ovf := s.ovf || (s.ien && decide (255 < s.tmr.toNat + c)) } := by
  unfold doTimer
  simp only
  by_cases h : s.tmr.toNat + c > 255
  · rw [if_pos h]
    unfold overflow
    cases hi : s.ien <;> simp [h]
  · rw [if_neg h]
    have : ¬ 255 < s.tmr.toNat + c := h
    simp [this]

/-- Both prescalers and what comes out of them. -/
def chain (s : St) : Nat × Nat × Nat :=
  if (s.pre16 + 1) / 16 ≠ 0 then
    ((s.pre16 + 1) % 16, if (s.pre + (s.pre16 + 1) / 16) / 32 ≠ 0 then (s.pre + (s.pre16 + 1) / 16) % 32 else s.pre + (s.pre16 + 1) / 16,
      (s.pre + (s.pre16 + 1) / 16) / 32)
  else (s.pre16 + 1, s.pre, (s.pre16 + 1) / 16)

theorem hwTick_form (s : St) : hwTick s =
    if s.mode = .timer then doTimer (chain s).2.2 { s with pre16 := (chain s).1, pre := (chain s).2.1 }
    else { s with pre16 := (chain s).1, pre := (chain s).2.1 } := by
  unfold hwTick chain
  by_cases h : (s.pre16 + 1) / 16 ≠ 0
  · simp only [if_pos h]
    cases s.mode <;> rfl
  · simp only [if_neg h]
    cases s.mode <;> rfl

/-- The timer's clock changes the timer only. -/
theorem hwTick_eq (s : St) : ∃ p q t tf o, hwTick s = { s with pre16 := p, pre := q, tmr := t, tflag := tf, ovf := o } := by
  rw [hwTick_form]
  split
  · rw [doTimer_eq]; exact ⟨_, _, _, _, _, rfl⟩
  · exact ⟨_, _, _, _, _, rfl⟩

/-- The prescalers hold what they can hold. -/
def Pre (s : St) : Prop := s.pre16 < 16 ∧ s.pre < 32

theorem chain_eq {s : St} (h : Pre s) : chain s =
    ((s.pre * 16 + s.pre16 + 1) % 16, (s.pre * 16 + s.pre16 + 1) / 16 % 32, (s.pre * 16 + s.pre16 + 1) / 512) := by
  obtain ⟨h1, h2⟩ := h
  unfold chain
  by_cases h15 : s.pre16 = 15
  · rw [h15]
    by_cases h31 : s.pre = 31
    · rw [h31]; rfl
    · have : s.pre + 1 < 32 := by omega
      have e : (s.pre + (15 + 1) / 16) / 32 = 0 := by omega
      simp only [e]
      refine Prod.ext (by simp; omega) (Prod.ext ?_ ?_)
      · simp; omega
      · simp; omega
  · have e : (s.pre16 + 1) / 16 = 0 := by omega
    simp only [e]
    refine Prod.ext (by simp; omega) (Prod.ext ?_ ?_)
    · simp; omega
    · simp; omega

theorem ofNat_self (t : Byte) : BitVec.ofNat 8 (t.toNat + 0) = t := by simp

theorem pre_hwTick {s : St} (h : Pre s) : Pre (hwTick s) := by
  rw [hwTick_form]
  split
  · rw [doTimer_eq]
    show (chain s).1 < 16 ∧ (chain s).2.1 < 32
    rw [chain_eq h]
    constructor
    · show _ % 16 < 16; omega
    · show _ % 32 < 32; omega
  · show (chain s).1 < 16 ∧ (chain s).2.1 < 32
    rw [chain_eq h]
    constructor
    · show _ % 16 < 16; omega
    · show _ % 32 < 32; omega

/-- Timer and prescalers as one number. -/
def count (s : St) : Nat := s.tmr.toNat * 512 + s.pre * 16 + s.pre16

theorem hwTick_timer {s : St} (h : Pre s) (hm : s.mode = .timer) :
    count (hwTick s) = (count s + 1) % 131072 ∧ (hwTick s).tflag = (s.tflag || decide (131072 ≤ count s + 1)) ∧
    (hwTick s).ovf = (s.ovf || (s.ien && decide (131072 ≤ count s + 1))) ∧ (hwTick s).mode = .timer ∧ (hwTick s).ien = s.ien := by
  rw [hwTick_form, if_pos hm, doTimer_eq]
  have ht := s.tmr.isLt
  obtain ⟨h1, h2⟩ := h
  have hb : decide (255 < s.tmr.toNat + (s.pre * 16 + s.pre16 + 1) / 512) = decide (131072 ≤ count s + 1) := by
    congr 1
    unfold count
    apply propext
    constructor <;> intro h <;> omega
  refine ⟨?_, ?_, ?_, hm, rfl⟩
  · show (BitVec.ofNat 8 (s.tmr.toNat + (chain s).2.2)).toNat * 512 + (chain s).2.1 * 16 + (chain s).1 = _
    rw [chain_eq ⟨h1, h2⟩, BitVec.toNat_ofNat]
    unfold count
    show (s.tmr.toNat + (s.pre * 16 + s.pre16 + 1) / 512) % 256 * 512 + (s.pre * 16 + s.pre16 + 1) / 16 % 32 * 16 + (s.pre * 16 + s.pre16 + 1) % 16 = _
    generalize hx : s.pre * 16 + s.pre16 = x
    have hx' : x < 512 := by omega
    have : s.tmr.toNat * 512 + s.pre * 16 + s.pre16 = s.tmr.toNat * 512 + x := by omega
    rw [this]
    clear this hx hb
    by_cases h5 : x = 511
    · subst h5; omega
    · have e : (x + 1) / 512 = 0 := by omega
      rw [e]; omega
  · show (s.tflag || decide (255 < s.tmr.toNat + (chain s).2.2)) = _
    rw [chain_eq ⟨h1, h2⟩, hb]
  · show (s.ovf || (s.ien && decide (255 < s.tmr.toNat + (chain s).2.2))) = _
    rw [chain_eq ⟨h1, h2⟩, hb]

theorem hwTick_stopped {s : St} (hm : s.mode ≠ .timer) : ∃ p q, hwTick s = { s with pre16 := p, pre := q } := by
  rw [hwTick_form, if_neg hm]
  exact ⟨_, _, rfl⟩

theorem tickHw_stopped (n : Nat) {s : St} (hm : s.mode ≠ .timer) : ∃ p q, tickHw n s = { s with pre16 := p, pre := q } := by
  induction n generalizing s with
  | zero => exact ⟨_, _, rfl⟩
  | succ n ih =>
    obtain ⟨p, q, e⟩ := hwTick_stopped hm
    show ∃ p q, tickHw n (hwTick s) = _
    obtain ⟨p', q', e'⟩ := ih (s := hwTick s) (by rw [e]; exact hm)
    exact ⟨p', q', by rw [e', e]⟩

theorem tickHw_timer (n : Nat) {s : St} (h : Pre s) (hm : s.mode = .timer) :
    count (tickHw n s) = (count s + n) % 131072 ∧ (tickHw n s).tflag = (s.tflag || decide (131072 ≤ count s + n)) ∧
    (tickHw n s).ovf = (s.ovf || (s.ien && decide (131072 ≤ count s + n))) ∧ Pre (tickHw n s) := by
  have hc : ∀ {s : St}, Pre s → count s < 131072 := by
    intro s h
    have := s.tmr.isLt
    obtain ⟨h1, h2⟩ := h
    unfold count; omega
  induction n generalizing s with
  | zero =>
    have := hc h
    have e : decide (131072 ≤ count s + 0) = false := by simp; omega
    rw [e]
    refine ⟨?_, by simp [tickHw], by simp [tickHw], h⟩
    show count s = _
    omega
  | succ n ih =>
    obtain ⟨h1, h2, h3, h4, h5⟩ := hwTick_timer h hm
    obtain ⟨g1, g2, g3, g4⟩ := ih (pre_hwTick h) h4
    have hlt := hc h
    have hor : ∀ a : Bool, (a || decide (131072 ≤ count s + 1) || decide (131072 ≤ count (hwTick s) + n)) = (a || decide (131072 ≤ count s + (n + 1))) := by
      intro a
      rw [h1]
      by_cases hw : 131072 ≤ count s + 1
      · have : 131072 ≤ count s + (n + 1) := by omega
        simp [hw, this]
      · rw [Nat.mod_eq_of_lt (by omega)]
        have e : count s + 1 + n = count s + (n + 1) := by omega
        simp [hw, e]
    refine ⟨?_, ?_, ?_, g4⟩
    · show count (tickHw n (hwTick s)) = _
      rw [g1, h1]; omega
    · show (tickHw n (hwTick s)).tflag = _
      rw [g2, h2, hor]
    · show (tickHw n (hwTick s)).ovf = _
      rw [g3, h3, h5]
      cases s.ien
      · simp
      · simp only [Bool.true_and]; rw [hor]

theorem tickHw_eq (n : Nat) (s : St) : ∃ p q t tf o, tickHw n s = { s with pre16 := p, pre := q, tmr := t, tflag := tf, ovf := o } := by
  induction n generalizing s with
  | zero => exact ⟨_, _, _, _, _, rfl⟩
  | succ n ih =>
    obtain ⟨p, q, t, tf, o, e⟩ := hwTick_eq s
    show ∃ p q t tf o, tickHw n (hwTick s) = _
    obtain ⟨p', q', t', tf', o', e'⟩ := ih (hwTick s)
    exact ⟨p', q', t', tf', o', by rw [e', e]⟩

theorem wf_tickHw {s : St} (hw : Wf s) (n : Nat) : Wf (tickHw n s) := by
  obtain ⟨p, q, t, tf, o, e⟩ := tickHw_eq n s
  rw [e]; exact ⟨hw.one, hw.ram, hw.x⟩

theorem wf_accept {s : St} (hw : Wf s) (a : Addr) : Wf (accept a s) := by
  have := wf_push (s := { s with inIsr := true }) ⟨hw.one, hw.ram, hw.x⟩
  exact ⟨this.one, this.ram, this.x⟩

theorem wf_interrupt {s : St} (hw : Wf s) : Wf (interrupt s) := by
  unfold interrupt
  split
  · exact hw
  · split
    · exact wf_accept hw _
    · split
      · exact wf_accept (s := { s with ireq := false }) ⟨hw.one, hw.ram, hw.x⟩ _
      · exact hw

theorem wf_step {s : St} (hw : Wf s) : Wf (step s).2 := by
  unfold step
  simp only
  split
  · exact wf_tickHw (wf_execInst hw) _
  · exact wf_interrupt (wf_tickHw (wf_execInst hw) _)

theorem wf_steps {s : St} (hw : Wf s) (n : Nat) : Wf (steps n s) := by
  induction n generalizing s with
  | zero => exact hw
  | succ n ih => exact ih (wf_step hw)

end Ucsim.I48
