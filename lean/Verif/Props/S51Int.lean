import Verif.Proof.S51Keep
import Verif.Props.S51Flow

/-
C32: interrupts.  The statements use Spec (Nested, MayInterrupt) and the steps of the
machine; `runPart` is the part of a step that executes an instruction (or idles), the
interrupt logic looks at the machine it leaves.
-/
namespace Ucsim.S51
open Spec

variable {H : Type} (P : Hw H)

theorem levels_of {α : Type} {m : M H α} (h : Keep m) (s : St H) : (m s).2.levels = s.levels :=
  congrArg (·.1) (h s)
theorem state_of {α : Type} {m : M H α} (h : Keep m) (s : St H) : (m s).2.state = s.state :=
  congrArg (·.2.1) (h s)

theorem reti_iff : ∀ c : Byte, decode c = .reti ↔ c = 0x32#8 := by decide +kernel

theorem popLevel_levels (s : St H) :
    (popLevel s).2.levels = if 0 ≤ current s then s.levels.tail else s.levels := by
  unfold popLevel current
  cases h : s.levels with
  | nil => simp [h]
  | cons l r => simp only [List.tail_cons, ge_iff_le]; split <;> simp [h]

theorem exec_reti_levels (c : Byte) (s : St H) :
    (exec P .reti c s).2.levels = if 0 ≤ current s then s.levels.tail else s.levels := by
  show (popLevel (setReti (retBody P s).2).2).2.levels = _
  rw [popLevel_levels]
  have e : (setReti (retBody P s).2).2.levels = s.levels := levels_of (retBody_kp P) s
  rw [e, show current (setReti (retBody P s).2).2 = current s by unfold current; rw [e]]

/-- What an executed instruction does with the interrupt levels: only RETI changes them. -/
theorem execInst_levels (s : St H) (hp : s.pc < 0x10000) :
    (execInst P s).2.levels = if code s 0 = 0x32#8 ∧ 0 ≤ current s then s.levels.tail else s.levels := by
  rw [execInst_after P s hp]
  by_cases hr : code s 0 = 0x32#8
  · rw [hr, show decode 0x32#8 = .reti by decide, exec_reti_levels]
    simp only [true_and]; rfl
  · have : decode (code s 0) ≠ .reti := fun h => hr ((reti_iff _).mp h)
    rw [levels_of (exec_kp P _ _ this), if_neg (fun h => hr h.1)]; rfl

theorem execInst_any_levels (s : St H) :
    (execInst P s).2.levels = s.levels ∨ (0 ≤ current s ∧ (execInst P s).2.levels = s.levels.tail) := by
  have key : ∀ (o : Op) (c : Byte) (u : St H), (exec P o c u).2.levels = u.levels ∨
      (0 ≤ current u ∧ (exec P o c u).2.levels = u.levels.tail) := by
    intro o c u
    by_cases ho : o = .reti
    · subst ho
      rw [exec_reti_levels]
      split
      · exact Or.inr ⟨by assumption, rfl⟩
      · exact Or.inl rfl
    · exact Or.inl (levels_of (exec_kp P o c ho) u)
  unfold execInst
  exact key _ _ _

theorem runPart_levels (s : St H) : (runPart P s).2.levels = s.levels ∨
    (0 ≤ current s ∧ (runPart P s).2.levels = s.levels.tail) := by
  unfold runPart
  split
  · rw [show (postInst P (execInst P { s with wasReti := false, cyc := 0 }).2).2.levels
        = (execInst P { s with wasReti := false, cyc := 0 }).2.levels from levels_of (tickHw_kp P _) _]
    exact execInst_any_levels P _
  · exact Or.inl rfl

theorem acceptable_iff (s : St H) (i : ItSrc) (hea : (s.sfr 0xa8).getLsbD 7 = true) :
    acceptable s i = true ↔ MayInterrupt s i := by
  have et : topLevel s = current s := rfl
  have ep : priorityOf s i = if s.sfr 0xb8 &&& i.ieMask = 0#8 then 0 else 1 := by
    show (if (s.sfr 0xb8 &&& i.ieMask != 0#8) = true then (1 : Int) else 0) = _
    by_cases h : s.sfr 0xb8 &&& i.ieMask = 0#8
    · simp [h]
    · simp [h]
  have range : 0 ≤ priorityOf s i := by rw [ep]; split <;> decide
  constructor
  · intro h
    simp only [acceptable, ItSrc.enabled, ItSrc.pending, Bool.and_eq_true, beq_iff_eq] at h
    obtain ⟨⟨⟨h1, h2⟩, h3⟩, h4⟩ := h
    refine ⟨h1, hea, h2, h3, ?_⟩
    rw [← ep, ← et]
    simp only [Bool.not_eq_true', Bool.and_eq_false_iff, decide_eq_false_iff_not] at h4
    omega
  · intro h
    simp only [acceptable, ItSrc.enabled, ItSrc.pending, Bool.and_eq_true, beq_iff_eq]
    refine ⟨⟨⟨h.active, h.enabled⟩, h.pending⟩, ?_⟩
    simp only [Bool.not_eq_true', Bool.and_eq_false_iff, decide_eq_false_iff_not]
    have := h.prio
    rw [← ep, ← et] at this
    omega

theorem ea_iff : ∀ b : Byte, (b &&& 0x80#8 == 0#8) = !b.getLsbD 7 := by decide +kernel

/-- The priority of a source. -/
def Spec.prio (s : St H) (i : ItSrc) : Int := if s.sfr 0xb8 &&& i.ieMask = 0#8 then 0 else 1

theorem priorityOf_eq (s : St H) (i : ItSrc) : priorityOf s i = prio s i := by
  show (if (s.sfr 0xb8 &&& i.ieMask != 0#8) = true then (1 : Int) else 0) = _
  unfold prio
  by_cases h : s.sfr 0xb8 &&& i.ieMask = 0#8
  · simp [h]
  · simp [h]

theorem idlePd_levels (s : St H) : (idlePd P s).2.levels = s.levels := by unfold idlePd; split <;> rfl
theorem idlePd_pc (s : St H) : (idlePd P s).2.pc = s.pc := by unfold idlePd; split <;> rfl

theorem acceptIt_levels (l : ItLevel) (s : St H) : (acceptIt P l s).2.levels = l :: s.levels := by
  show (lcallTo P l.addr _).2.levels = _
  rw [levels_of (lcallTo_kp P l.addr)]; rfl

theorem takeIt_levels (i : ItSrc) (s : St H) : (takeIt P i s).1 = .interrupt →
    (takeIt P i s).2.levels = ⟨prio s i, i.addr, s.pc⟩ :: s.levels := by
  unfold takeIt
  split
  · intro h; exact absurd h (by simp)
  · intro _
    show (acceptIt P _ _).2.levels = _
    rw [acceptIt_levels, levels_of (clear_kp P i), priorityOf_eq]

theorem doInterrupt_cases (s : St H) :
    ((doInterrupt P s).1 = .go ∧ (doInterrupt P s).2.levels = s.levels ∧ (doInterrupt P s).2.pc = s.pc) ∨
    (s.wasReti = false ∧ s.state ≠ .idle ∧ ∃ i, i ∈ P.sources s.hw ∧ MayInterrupt s i ∧ doInterrupt P s = takeIt P i s ∧
      (doInterrupt P s).1 = .interrupt ∧ (doInterrupt P s).2.levels = ⟨prio s i, i.addr, s.pc⟩ :: s.levels) := by
  cases hw : s.wasReti with
  | true =>
    have e : doInterrupt P s = (.go, { s with wasReti := false }) := by unfold doInterrupt; rw [if_pos hw]
    rw [e]; exact Or.inl ⟨rfl, rfl, rfl⟩
  | false =>
    by_cases hea : (s.sfr 0xa8 &&& 0x80#8 == 0#8) = true
    · have e : doInterrupt P s = (.go, s) := by
        unfold doInterrupt; rw [if_neg (by simp [hw])]; exact if_pos hea
      rw [e]; exact Or.inl ⟨rfl, rfl, rfl⟩
    · have ea : (s.sfr 0xa8).getLsbD 7 = true := by rw [ea_iff] at hea; simpa using hea
      cases hf : (P.sources s.hw).find? (acceptable s) with
      | none =>
        have e : doInterrupt P s = (.go, s) := by
          unfold doInterrupt; rw [if_neg (by simp [hw])]
          refine (if_neg hea).trans ?_
          rw [hf]
        rw [e]; exact Or.inl ⟨rfl, rfl, rfl⟩
      | some i =>
        have e : doInterrupt P s = takeIt P i s := by
          unfold doInterrupt; rw [if_neg (by simp [hw])]
          refine (if_neg hea).trans ?_
          rw [hf]
        have ha := List.find?_some hf
        have hm := List.mem_of_find?_eq_some hf
        by_cases hi : s.state = .idle
        · left
          have e2 : takeIt P i s = (.go, { (wake s).2 with wasReti := true }) := by unfold takeIt; rw [if_pos hi]
          rw [e, e2]; exact ⟨rfl, rfl, rfl⟩
        · right
          have e1 : (takeIt P i s).1 = .interrupt := by unfold takeIt; rw [if_neg hi]
          refine ⟨rfl, hi, i, hm, (acceptable_iff s i ea).mp ha, e, by rw [e]; exact e1, ?_⟩
          rw [e]; exact takeIt_levels P i s e1

/-- C32: an interrupt is accepted only for a source that is active, enabled and pending
and of higher priority than the running code; the new level records its priority and the
interrupted address, and the handler starts.  A step that accepts none leaves the levels
(and the program counter) as the instruction left them. -/
theorem c32_accept (s : St H) :
    let m := (runPart P s).2
    let s' := (doInst P s).2
    ((doInst P s).1 = .interrupt ∧ m.wasReti = false ∧
      ∃ i, i ∈ P.sources m.hw ∧ MayInterrupt m i ∧ s'.levels = ⟨prio m i, i.addr, m.pc⟩ :: m.levels) ∨
    ((doInst P s).1 ≠ .interrupt ∧ s'.levels = m.levels ∧ s'.pc = m.pc) := by
  intro m s'
  by_cases hs : m.pc = s.pc ∧ P.stopSelfjump
  · have e : doInst P s = (.selfjump, m) := by unfold doInst; exact if_pos hs
    right
    show (doInst P s).1 ≠ _ ∧ (doInst P s).2.levels = _ ∧ (doInst P s).2.pc = _
    rw [e]; exact ⟨by simp, rfl, rfl⟩
  · have e : doInst P s = if (doInterrupt P m).1 = .go then (.go, (idlePd P (doInterrupt P m).2).2) else doInterrupt P m := by
      unfold doInst; exact if_neg hs
    rcases doInterrupt_cases P m with ⟨h1, h2, h3⟩ | ⟨hw, _, i, hi, hm, _, h1, h2⟩
    · right
      show (doInst P s).1 ≠ _ ∧ (doInst P s).2.levels = _ ∧ (doInst P s).2.pc = _
      rw [e, if_pos h1]
      exact ⟨by simp, (idlePd_levels P _).trans h2, (idlePd_pc P _).trans h3⟩
    · left
      show (doInst P s).1 = _ ∧ _ ∧ ∃ i, _ ∧ _ ∧ (doInst P s).2.levels = _
      rw [e, if_neg (by rw [h1]; simp)]
      exact ⟨h1, hw, i, hi, hm, h2⟩

/-- C32: requests that may interrupt are not ignored: unless the instruction was RETI or
wrote IE, the CPU was idle (it wakes up first) or the step stopped on a jump to itself,
an interrupt is taken. -/
theorem c32_taken (s : St H) (i : ItSrc) (hi : i ∈ P.sources (runPart P s).2.hw)
    (hm : MayInterrupt (runPart P s).2 i) (hw : (runPart P s).2.wasReti = false) (hs : (runPart P s).2.state ≠ .idle)
    (hj : ¬((runPart P s).2.pc = s.pc ∧ P.stopSelfjump)) : (doInst P s).1 = .interrupt := by
  have e : doInst P s = if (doInterrupt P (runPart P s).2).1 = .go then
      (.go, (idlePd P (doInterrupt P (runPart P s).2).2).2) else doInterrupt P (runPart P s).2 := by
    unfold doInst; exact if_neg hj
  have key : (doInterrupt P (runPart P s).2).1 = .interrupt := by
    generalize runPart P s = r at *
    unfold doInterrupt
    rw [if_neg (by simp [hw])]
    have hea : ¬ (r.2.sfr IE &&& 0x80#8 == 0#8) = true := by
      rw [ea_iff]; have := hm.ea; simp only [IE]; simp [this]
    rw [if_neg hea]
    have hacc : acceptable r.2 i = true := (acceptable_iff _ _ hm.ea).mpr hm
    cases hf : (P.sources r.2.hw).find? (acceptable r.2) with
    | none => exact absurd hacc (by simpa using (List.find?_eq_none.mp hf) i hi)
    | some j => simp only [takeIt, if_neg hs]
  rw [e, if_neg (by rw [key]; simp)]; exact key

/-- The instruction part of a step changes the levels by RETI only. -/
theorem c32_only_reti (s : St H) (hp : s.pc < 0x10000) (h : (runPart P s).2.levels ≠ s.levels) :
    code s 0 = 0x32#8 ∧ 0 ≤ current s ∧ (runPart P s).2.levels = s.levels.tail := by
  unfold runPart at h ⊢
  split
  · rename_i hgo
    rw [if_pos hgo] at h
    have e : (postInst P (execInst P { s with wasReti := false, cyc := 0 }).2).2.levels
        = (execInst P { s with wasReti := false, cyc := 0 }).2.levels := levels_of (tickHw_kp P _) _
    have e3 := execInst_levels P ({ s with wasReti := false, cyc := 0 } : St H) hp
    rw [e, e3] at h
    rw [e, e3]
    by_cases hc : code s 0 = 0x32#8 ∧ 0 ≤ current s
    · exact ⟨hc.1, hc.2, if_pos hc⟩
    · exact absurd (if_neg hc) h
  · rename_i hgo
    rw [if_neg hgo] at h
    exact absurd rfl h

/-! Nesting -/

theorem nested_cons (s : St H) (l : ItLevel) (h : Nested s.levels) (hl : current s < l.level) : Nested (l :: s.levels) := by
  unfold Nested at *
  refine List.pairwise_cons.mpr ⟨?_, h⟩
  intro x hx
  cases hs : s.levels with
  | nil => rw [hs] at hx; cases hx
  | cons a r =>
    rw [hs] at hx h
    have hc : current s = a.level := by unfold current; rw [hs]
    rcases List.mem_cons.mp hx with rfl | hx
    · omega
    · have := (List.pairwise_cons.mp h).1 x hx; omega

/-- What is kept: handlers above the main program. -/
structure LevelsOk (base : ItLevel) (l : List ItLevel) : Prop where
  nested : Nested l
  main : ∃ hs, l = hs ++ [base] ∧ ∀ x ∈ hs, x.level = 0 ∨ x.level = 1

theorem levelsOk_tail (base : ItLevel) (hb : base.level < 0) (s : St H) (h : LevelsOk base s.levels) (hc : 0 ≤ current s) :
    LevelsOk base s.levels.tail := by
  obtain ⟨hn, hs, e, hl⟩ := h
  cases hs with
  | nil =>
    have : current s = base.level := by unfold current; rw [e]; rfl
    omega
  | cons a r =>
    refine ⟨?_, r, by rw [e]; rfl, fun x hx => hl x (List.mem_cons_of_mem _ hx)⟩
    rw [e] at hn ⊢
    exact (List.pairwise_cons.mp hn).2

theorem levelsOk_runPart (base : ItLevel) (hb : base.level < 0) (s : St H) (h : LevelsOk base s.levels) :
    LevelsOk base (runPart P s).2.levels := by
  rcases runPart_levels P s with e | ⟨hc, e⟩
  · rw [e]; exact h
  · rw [e]; exact levelsOk_tail base hb s h hc

theorem levelsOk_doInst (base : ItLevel) (hb : base.level < 0) (s : St H) (h : LevelsOk base s.levels) :
    LevelsOk base (doInst P s).2.levels := by
  have hm := levelsOk_runPart P base hb s h
  rcases c32_accept P s with ⟨_, _, i, _, hmay, e⟩ | ⟨_, e, _⟩
  · rw [e]
    obtain ⟨hn, hs, eh, hl⟩ := hm
    refine ⟨nested_cons _ _ hn hmay.prio, _ :: hs, by rw [eh]; rfl, ?_⟩
    intro x hx
    rcases List.mem_cons.mp hx with rfl | hx
    · show prio _ i = 0 ∨ prio _ i = 1
      unfold prio; split <;> simp
    · exact hl x hx
  · rw [e]; exact hm

theorem levelsOk_act (base : ItLevel) (hb : base.level < 0) (s : St H) (a : Act) (h : LevelsOk base s.levels) :
    LevelsOk base (act P s a).levels := by
  cases a with
  | step => exact levelsOk_doInst P base hb s h
  | sfr a v => show LevelsOk base (sfrWrite P a v s).2.levels; rw [levels_of (sfrWrite_kp P a v)]; exact h
  | bit b v => show LevelsOk base (bitWrite P b v s).2.levels; rw [levels_of (bitWrite_kp P b v)]; exact h
  | iram a v => show LevelsOk base (iramWrite P a v s).2.levels; rw [levels_of (iramWrite_kp P a v)]; exact h

/-- C32: after every history the priorities strictly increase from the main program to
the innermost handler; the main program's level is never lost; at most one handler of
each of the two priorities is active. -/
theorem c32_nested (s : St H) (base : ItLevel) (hb : base.level < 0) (h0 : s.levels = [base]) (l : List Act) :
    Nested (play P s l).levels ∧ (∃ hs, (play P s l).levels = hs ++ [base] ∧ ∀ x ∈ hs, x.level = 0 ∨ x.level = 1) ∧
    (play P s l).levels.length ≤ 3 := by
  have key : LevelsOk base (play P s l).levels := by
    have start : LevelsOk base s.levels := by
      rw [h0]; exact ⟨by unfold Nested; simp, [], rfl, by simp⟩
    unfold play
    induction l generalizing s with
    | nil => exact start
    | cons a l ih =>
      have gen : ∀ (l : List Act) (u : St H), LevelsOk base u.levels → LevelsOk base (l.foldl (act P) u).levels := by
        intro l
        induction l with
        | nil => exact fun _ h => h
        | cons b l ih2 => exact fun u h => ih2 _ (levelsOk_act P base hb u b h)
      exact gen (a :: l) s start
  refine ⟨key.nested, key.main, ?_⟩
  obtain ⟨hn, hs, e, hl⟩ := key
  rw [e] at hn ⊢
  match hs, hl, hn with
  | [], _, _ => simp
  | [_], _, _ => simp
  | [_, _], _, _ => simp
  | a :: b :: c :: r, hl, hn =>
    have h1 := hl a (by simp)
    have h2 := hl b (by simp)
    have h3 := hl c (by simp)
    have hn' : (a :: b :: c :: (r ++ [base])).Pairwise (fun inner outer => outer.level < inner.level) := hn
    rw [List.pairwise_cons, List.pairwise_cons] at hn'
    have g1 := hn'.1 b (by simp)
    have g2 := hn'.2.1 c (by simp)
    omega

/-! Entering and leaving a handler -/

theorem clear_core (i : ItSrc) (hi : isCore i.srcAddr = false) (s : St H) :
    (∀ a, isCore a = true → (i.clear P s).2.sfr a = s.sfr a) ∧ (i.clear P s).2.iram = s.iram ∧
    (i.clear P s).2.bank = s.bank := by
  unfold ItSrc.clear
  split
  · simp only [bind_def]
    rw [show (sfrGet i.srcAddr s).2 = s from rfl]
    have n1 : i.srcAddr ≠ ACC := by intro h; rw [h] at hi; revert hi; decide
    have n2 : i.srcAddr ≠ PSW := by intro h; rw [h] at hi; revert hi; decide
    show (∀ a, isCore a = true → (sfrWrite P i.srcAddr _ s).2.sfr a = _) ∧ _
    unfold sfrWrite
    simp only [if_neg n1, if_neg n2, hi, Bool.false_eq_true, if_false]
    refine ⟨?_, rfl, rfl⟩
    intro a ha
    have : a ≠ i.srcAddr := by intro h; rw [h, hi] at ha; cases ha
    simp only [upd, if_neg this, protect, ha, if_true]
  · exact ⟨fun _ _ => rfl, rfl, rfl⟩

theorem accept_called (i : ItSrc) (s : St H) (hst : s.state ≠ .idle) (hi : isCore i.srcAddr = false)
    (hp : s.pc < 0x10000) (hr : StackRoom P s 2) :
    let s' := (takeIt P i s).2
    s'.pc = i.addr ∧ sp s' = (sp s + 2) % 256 ∧ (s'.iram ((sp s + 1) % 256)).toNat = s.pc % 256 ∧
    (s'.iram ((sp s + 2) % 256)).toNat = s.pc / 256 ∧
    (∀ a, a ≠ (sp s + 1) % 256 → a ≠ (sp s + 2) % 256 → s'.iram a = s.iram a) ∧
    (∀ a, isCore a = true → a ≠ 0x81 → s'.sfr a = s.sfr a) ∧ s'.bank = s.bank ∧ s'.state = .go := by
  intro s'
  obtain ⟨hc, hir, hbk⟩ := clear_core P i hi s
  have hpc := clear_pc P i s
  generalize hl : (⟨priorityOf s i, i.addr, s.pc⟩ : ItLevel) = l
  have ladr : l.addr = i.addr := by rw [← hl]
  have e : s' = (acceptIt P l (i.clear P s).2).2 := by
    show (takeIt P i s).2 = _
    unfold takeIt; rw [if_neg hst, hl]
  generalize (i.clear P s).2 = c at *
  generalize hw : (tick 1 (pushLevel l (wake c).2).2).2 = w at *
  have e' : s' = (lcallTo P l.addr w).2 := by rw [e, ← hw]; rfl
  have wpc : w.pc = s.pc := by rw [← hw, ← hpc]; rfl
  have wir : w.iram = s.iram := by rw [← hw, ← hir]; rfl
  have wbk : w.bank = s.bank := by rw [← hw, ← hbk]; rfl
  have wst : w.state = .go := by rw [← hw]; rfl
  have wsfr : ∀ a, isCore a = true → w.sfr a = s.sfr a := by
    intro a ha
    rw [← hw, ← hc a ha]
    have : a ≠ PCON := by intro h; rw [h] at ha; revert ha; decide
    show upd c.sfr PCON _ a = _
    simp only [upd, if_neg this]
  have wsp : sp w = sp s := by unfold sp; rw [wsfr 0x81 (by decide)]
  have hsp : sp s < 256 := (s.sfr SP).isLt
  simp only [lcallTo, bind_def, getPC_val, getPC_pc] at e'
  have r1 : (sp w + 1) % 256 < P.iramSize := by rw [wsp]; exact hr 1 (by decide) (by decide)
  rw [pushByte_eq P _ w r1] at e'
  generalize hx : ({ w with sfr := upd w.sfr SP (w.sfr SP + 1#8), iram := upd w.iram ((sp w + 1) % 256) (byte w.pc) } : St H) = x at e'
  have xsp : sp x = (sp s + 1) % 256 := by
    rw [← hx, ← wsp]
    show (upd w.sfr SP (w.sfr SP + 1#8) SP).toNat = _
    simp only [upd, if_true]; simp [sp, SP]
  have ee : ((sp s + 1) % 256 + 1) % 256 = (sp s + 2) % 256 := by omega
  have r2 : (sp x + 1) % 256 < P.iramSize := by rw [xsp, ee]; exact hr 2 (by decide) (by decide)
  rw [pushByte_eq P _ x r2, xsp, ee] at e'
  have xir : x.iram = upd s.iram ((sp s + 1) % 256) (byte s.pc) := by rw [← hx, ← wir, ← wsp, ← wpc]
  have ne : (sp s + 1) % 256 ≠ (sp s + 2) % 256 := by omega
  have sir : s'.iram = upd x.iram ((sp s + 2) % 256) (byte (w.pc / 256)) := by rw [e']; rfl
  refine ⟨by rw [e', ← ladr]; rfl, ?_, ?_, ?_, ?_, ?_, by rw [e', ← wbk, ← hx]; rfl, by rw [e', ← wst, ← hx]; rfl⟩
  · rw [e']
    show (upd x.sfr SP (x.sfr SP + 1#8) SP).toNat = _
    simp only [upd, if_true]
    rw [BitVec.toNat_add]
    show (sp x + 1) % 256 = _
    rw [xsp, ee]
  · rw [sir, xir]; simp only [upd, if_neg ne, if_true, byte_toNat]
  · rw [sir]; simp only [upd, if_true, byte_toNat, wpc]; omega
  · intro a h1 h2
    rw [sir, xir]; simp only [upd, if_neg h1, if_neg h2]
  · intro a ha hn
    have hn' : ¬ a = SP := hn
    rw [e', ← wsfr a ha, ← hx]
    show upd (upd w.sfr SP _) SP _ a = _
    simp only [upd, if_neg hn']

/-- C32: entering a handler: like a call of the handler from the interrupted address. -/
theorem c32_enter (s : St H) (hsrc : ∀ h, ∀ i ∈ P.sources h, isCore i.srcAddr = false)
    (h : (doInst P s).1 = .interrupt) (hp : (runPart P s).2.pc < 0x10000) (hr : StackRoom P (runPart P s).2 2) :
    let m := (runPart P s).2
    let s' := (doInst P s).2
    ∃ i, i ∈ P.sources m.hw ∧ s'.levels = ⟨prio m i, i.addr, m.pc⟩ :: m.levels ∧ s'.pc = i.addr ∧ sp s' = (sp m + 2) % 256 ∧
      (s'.iram ((sp m + 1) % 256)).toNat = m.pc % 256 ∧ (s'.iram ((sp m + 2) % 256)).toNat = m.pc / 256 ∧
      (∀ a, a ≠ (sp m + 1) % 256 → a ≠ (sp m + 2) % 256 → s'.iram a = m.iram a) ∧
      (∀ a, isCore a = true → a ≠ 0x81 → s'.sfr a = m.sfr a) := by
  intro m s'
  have hs : ¬(m.pc = s.pc ∧ P.stopSelfjump) := by
    intro hs
    have e : doInst P s = (.selfjump, m) := by unfold doInst; exact if_pos hs
    rw [e] at h; cases h
  have e : doInst P s = if (doInterrupt P m).1 = .go then (.go, (idlePd P (doInterrupt P m).2).2) else doInterrupt P m := by
    unfold doInst; exact if_neg hs
  rcases doInterrupt_cases P m with ⟨h1, h2, h3⟩ | ⟨hw, hst, i, hi, hm, ht, h1, h2⟩
  · rw [e, if_pos h1] at h; cases h
  · have e2 : s' = (takeIt P i m).2 := by
      show (doInst P s).2 = _
      rw [e, if_neg (by rw [h1]; simp), ht]
    obtain ⟨g1, g2, g3, g4, g5, g6, _, _⟩ := accept_called P i m hst (hsrc _ i hi) hp hr
    refine ⟨i, hi, ?_, ?_⟩
    · rw [e2, ← ht]; exact h2
    · rw [e2]; exact ⟨g1, g2, g3, g4, g5, g6⟩

/-- C32: leaving a handler.  `s'` is the machine just after an interrupt was accepted
in state `m` (conclusion of `c32_enter`), `t` any later state with the same levels, the
same SP and the return address still on the stack, about to execute RETI: the interrupted
program continues where it was interrupted, at its level and with its stack. -/
theorem c32_leave (m s' t : St H) (i : ItSrc)
    (hl : s'.levels = ⟨prio m i, i.addr, m.pc⟩ :: m.levels) (hsp : sp s' = (sp m + 2) % 256)
    (hlo : (s'.iram ((sp m + 1) % 256)).toNat = m.pc % 256) (hhi : (s'.iram ((sp m + 2) % 256)).toNat = m.pc / 256)
    (hr : StackRoom P m 2) (ht : Ok P t) (tl : t.levels = s'.levels) (tsp : sp t = sp s')
    (tm : ∀ k, 1 ≤ k → k ≤ 2 → t.iram ((sp m + k) % 256) = s'.iram ((sp m + k) % 256)) (hop : code t 0 = 0x32#8) :
    let u := (execInst P t).2
    u.pc = m.pc ∧ sp u = sp m ∧ u.levels = m.levels ∧ current u = current m ∧ u.iram = t.iram ∧
    (∀ a, a ≠ 0x81 → u.sfr a = t.sfr a) := by
  intro u
  have lsp : sp m < 256 := (m.sfr SP).isLt
  have a1 := hr 1 (by decide) (by decide)
  have a2 := hr 2 (by decide) (by decide)
  have e : sp t = (sp m + 2) % 256 := by rw [tsp, hsp]
  have e' : (sp t + 255) % 256 = (sp m + 1) % 256 := by rw [e]; omega
  have r : Returned t (retBody P (after t 1 1)).2 :=
    ret_common P t _ 1 1 rfl (by rw [e]; exact a2) (by rw [e']; exact a1)
  have eu : u = (popLevel (setReti (retBody P (after t 1 1)).2).2).2 := by
    show (execInst P t).2 = _
    rw [execInst_after P t ht.pc, hop, show decode 0x32#8 = .reti by decide]; rfl
  have lv : u.levels = m.levels := by
    show (execInst P t).2.levels = _
    rw [execInst_levels P t ht.pc]
    have hc : current t = prio m i := by unfold current; rw [tl, hl]
    have : 0 ≤ current t := by rw [hc]; unfold prio; split <;> decide
    rw [if_pos ⟨hop, this⟩, tl, hl]; rfl
  have hsame : ∀ x : St H, (popLevel x).2.pc = x.pc ∧ (popLevel x).2.sfr = x.sfr ∧ (popLevel x).2.iram = x.iram := by
    intro x; unfold popLevel; split
    · split <;> exact ⟨rfl, rfl, rfl⟩
    · exact ⟨rfl, rfl, rfl⟩
  obtain ⟨p1, p2, p3⟩ := hsame (setReti (retBody P (after t 1 1)).2).2
  refine ⟨?_, ?_, lv, by unfold current; rw [lv], ?_, ?_⟩
  · rw [eu, p1]
    show (retBody P (after t 1 1)).2.pc = _
    rw [r.pc, e', e, tm 2 (by decide) (by decide), tm 1 (by decide) (by decide), hlo, hhi]; omega
  · unfold sp; rw [eu, p2]
    show sp (retBody P (after t 1 1)).2 = _
    rw [r.sp, e]; show _ = sp m; omega
  · rw [eu, p3]; exact r.iram
  · intro a ha; rw [eu, p2]; exact r.sfr a ha

/-- C32: at least one instruction of the interrupted program runs between two handlers:
the step that executes RETI accepts no interrupt. -/
theorem c32_after_reti (s : St H) (hp : s.pc < 0x10000) (hgo : s.state = .go) (hop : code s 0 = 0x32#8) :
    (doInst P s).1 ≠ .interrupt := by
  have hw : (runPart P s).2.wasReti = true := by
    unfold runPart
    rw [if_pos hgo]
    have tw : ∀ (n : Nat) (x : St H), (tickHw P n x).2.wasReti = x.wasReti := by
      intro n
      induction n with
      | zero => intro x; rfl
      | succ n ih => intro x; exact (ih _).trans rfl
    have : (postInst P (execInst P { s with wasReti := false, cyc := 0 }).2).2.wasReti
        = (execInst P { s with wasReti := false, cyc := 0 }).2.wasReti := tw _ _
    rw [this, execInst_after P ({ s with wasReti := false, cyc := 0 } : St H) hp]
    have hop' : code ({ s with wasReti := false, cyc := 0 } : St H) 0 = 0x32#8 := hop
    rw [hop', show decode 0x32#8 = .reti by decide]
    have pw : ∀ x : St H, (popLevel x).2.wasReti = x.wasReti := by
      intro x; unfold popLevel; split
      · split <;> rfl
      · rfl
    exact (pw _).trans rfl
  rcases c32_accept P s with ⟨_, h, _⟩ | ⟨h, _, _⟩
  · rw [hw] at h; cases h
  · exact h

/-! ### Non-vacuity: a timer 0 interrupt is taken in the middle of a program -/

namespace Demo

/-- NOP; timer 0 requests, enabled (IE = 0x82, TCON = 0x20); `more` adds timer 1 with high priority. -/
def it (more : Bool) : St Unit :=
  { st [] 0#8 0#8 0#8 7#8 with
    levels := [⟨-1, 0, 0⟩]
    sfr := fun x => if x = IE then (if more then 0x8a#8 else 0x82#8) else if x = TCON then (if more then 0xa0#8 else 0x20#8)
      else if x = IP then (if more then 0x08#8 else 0#8) else if x = SP then 7#8 else 0#8 }

example : (doInst hw (it false)).1 = .interrupt ∧ (doInst hw (it false)).2.pc = 0x0b ∧
    (doInst hw (it false)).2.levels = [⟨0, 0x0b, 1⟩, ⟨-1, 0, 0⟩] := by decide +kernel
example : ∀ h, ∀ i ∈ hw.sources h, isCore i.srcAddr = false := by
  intro u; cases u; decide
example : (runPart hw (it false)).2.pc < 0x10000 ∧ StackRoom hw (runPart hw (it false)).2 2 :=
  ⟨by decide +kernel, room256 hw rfl _ 2⟩

/-- The handler (RETI at 0x0b) is about to return; then the main program goes on at 1. -/
def inHandler : St Unit := { (doInst hw (it false)).2 with rom := fun a => if a = 0x0b then 0x32#8 else 0#8 }
example : code inHandler 0 = 0x32#8 ∧ Ok hw inHandler := by
  refine ⟨by decide +kernel, ⟨by decide +kernel, by decide +kernel, by decide⟩⟩
example : (doInst hw inHandler).1 = .go ∧ (doInst hw inHandler).2.pc = 1 ∧ (doInst hw inHandler).2.levels = [⟨-1, 0, 0⟩] := by
  decide +kernel

end Demo

/-! ### C46: simultaneous requests -/

/-- C46, what holds: the accepted source is the first one in polling order that may
interrupt, so no source that precedes it may. -/
theorem c46_first_partial (s : St H) (h : (doInst P s).1 = .interrupt) :
    let m := (runPart P s).2
    ∃ before i after, P.sources m.hw = before ++ i :: after ∧ MayInterrupt m i ∧ (∀ j ∈ before, ¬ MayInterrupt m j) ∧
      (doInst P s).2.levels = ⟨prio m i, i.addr, m.pc⟩ :: m.levels := by
  intro m
  have hs : ¬(m.pc = s.pc ∧ P.stopSelfjump) := by
    intro hs
    have e : doInst P s = (.selfjump, m) := by unfold doInst; exact if_pos hs
    rw [e] at h; cases h
  have e : doInst P s = if (doInterrupt P m).1 = .go then (.go, (idlePd P (doInterrupt P m).2).2) else doInterrupt P m := by
    unfold doInst; exact if_neg hs
  have hne : (doInterrupt P m).1 ≠ .go := by intro hg; rw [e, if_pos hg] at h; cases h
  rw [e, if_neg hne]
  unfold doInterrupt at hne ⊢
  by_cases hw : m.wasReti = true
  · rw [if_pos hw] at hne; exact absurd rfl hne
  · rw [if_neg hw] at hne ⊢
    by_cases hea : (m.sfr IE &&& 0x80#8 == 0#8) = true
    · rw [if_pos hea] at hne; exact absurd rfl hne
    · have ea : (m.sfr 0xa8).getLsbD 7 = true := by
        have hea' : ¬ (m.sfr 0xa8 &&& 0x80#8 == 0#8) = true := hea
        rw [ea_iff] at hea'; simpa using hea'
      rw [if_neg hea] at hne ⊢
      cases hf : (P.sources m.hw).find? (acceptable m) with
      | none => rw [hf] at hne; exact absurd rfl hne
      | some i =>
        rw [hf] at hne
        obtain ⟨ha, b, a, hl, hb⟩ := List.find?_eq_some_iff_append.mp hf
        refine ⟨b, i, a, hl, (acceptable_iff m i ea).mp ha, ?_, ?_⟩
        · intro j hj hm
          have := hb j hj
          rw [(acceptable_iff m j ea).mpr hm] at this
          cases this
        · have ht : (takeIt P i m).1 = .interrupt := by
            have hne' : (takeIt P i m).1 ≠ .go := hne
            unfold takeIt at hne' ⊢
            split
            · rename_i hi; rw [if_pos hi] at hne'; exact absurd rfl hne'
            · rfl
          exact takeIt_levels P i m ht

/-- C46, consequence: if no other source that may interrupt has a higher priority than the
earlier ones, then the accepted one has the highest priority. -/
theorem c46_highest_partial (s : St H) (h : (doInst P s).1 = .interrupt)
    (hsort : (P.sources (runPart P s).2.hw).Pairwise (fun a b => MayInterrupt (runPart P s).2 a →
      MayInterrupt (runPart P s).2 b → prio (runPart P s).2 b ≤ prio (runPart P s).2 a)) :
    let m := (runPart P s).2
    ∃ i ∈ P.sources m.hw, (∀ j ∈ P.sources m.hw, MayInterrupt m j → prio m j ≤ prio m i) ∧
      (doInst P s).2.levels = ⟨prio m i, i.addr, m.pc⟩ :: m.levels := by
  intro m
  obtain ⟨b, i, a, e, hm, hb, hl⟩ := c46_first_partial P s h
  rw [e] at hsort
  have e' : P.sources m.hw = b ++ i :: a := e
  refine ⟨i, by rw [e']; simp, ?_, hl⟩
  intro j hj hmj
  rw [e'] at hj
  rcases List.mem_append.mp hj with hj | hj
  · exact absurd hmj (hb j hj)
  · rcases List.mem_cons.mp hj with rfl | hj
    · exact Int.le_refl _
    · have := (List.pairwise_append.mp hsort).2.1
      exact (List.pairwise_cons.mp this).1 j hj hm hmj

/-- C46 fails in general: timer 0 (low priority) and timer 1 (high priority) request at
the same time; the low priority handler is entered. -/
theorem c46_false :
    let s := Demo.it true
    let m := (runPart Demo.hw s).2
    (∃ i ∈ Demo.hw.sources m.hw, MayInterrupt m i ∧ prio m i = 1) ∧
    (doInst Demo.hw s).1 = .interrupt ∧ (doInst Demo.hw s).2.levels = [⟨0, 0x0b, 1⟩, ⟨-1, 0, 0⟩] := by
  refine ⟨⟨⟨0x88#8, 0x88, 0x80#8, 0x1b, true, true⟩, by decide +kernel, ⟨rfl, ?_, ?_, ?_, ?_⟩, ?_⟩, ?_⟩ <;> decide +kernel

example : (Demo.hw.sources ()).Pairwise (fun a b => MayInterrupt (runPart Demo.hw (Demo.it false)).2 a →
    MayInterrupt (runPart Demo.hw (Demo.it false)).2 b →
    prio (runPart Demo.hw (Demo.it false)).2 b ≤ prio (runPart Demo.hw (Demo.it false)).2 a) := by
  have h : ∀ i, prio (runPart Demo.hw (Demo.it false)).2 i = 0 := by
    intro i; unfold prio
    rw [show (runPart Demo.hw (Demo.it false)).2.sfr 0xb8 = 0#8 by decide +kernel]; simp
  refine List.pairwise_of_forall ?_
  intro a b _ _; rw [h, h]; exact Int.le_refl _

end Ucsim.S51
