import Verif.Proof.S51Stack
import Verif.S51.Demo

/- 8051 arithmetic: C33, C34, C35. -/
namespace Ucsim.S51
open Spec

variable {H : Type} (P : Hw H)



theorem addPsw_rest (p r : Byte) (cy ov ac : Bool) (s s' : St H)
    (hs : psw s = p) (hs' : psw s' = addPsw p r cy ov ac) :
    F0 s' = F0 s ∧ RS1 s' = RS1 s ∧ RS0 s' = RS0 s ∧ F1 s' = F1 s := by
  obtain ⟨-, -, h5, h4, h3, -, h1, -⟩ := addPsw_bits p r cy ov ac
  simp only [F0, RS1, RS0, F1, hs, hs', h5, h4, h3, h1, and_self]

theorem add_common (s : St H) (h : Ok P s) (hn : 4 ≤ (code s 0).toNat % 16) (c : Nat) (hc : c ≤ 1)
    (he : (execInst P s).2 =
      (addBody P (A s) (ld P (code s 0) (fetched s)).1 c (ld P (code s 0) (fetched s)).2).2) :
    Added s (execInst P s).2 (operand P s) c := by
  obtain ⟨e1, ⟨k, hw, e2⟩⟩ := ld_ok P s h hn
  rw [he, e1, e2, addBody_eq _ _ _ _ hc]
  obtain ⟨b7, b6, b5, b4, b3, b2, b1, b0⟩ := addPsw_bits (psw s) (byte ((A s).toNat + (operand P s).toNat + c))
    (decide (256 ≤ (A s).toNat + (operand P s).toNat + c)) (overflow ((A s).toInt + (operand P s).toInt + c))
    (decide (16 ≤ (A s).toNat % 16 + (operand P s).toNat % 16 + c))
  refine ⟨?_, b7, b6, b2, b0, rfl, ⟨rfl, rfl, rfl, ?_, rfl, rfl, rfl, b5, b4, b3, b1⟩⟩
  · show (byte _).toNat = _
    rw [byte_toNat]
  · intro a ha hp
    show (if a = ACC then _ else if a = PSW then _ else _) = _
    rw [if_neg (show ¬ a = ACC from ha), if_neg (show ¬ a = PSW from hp)]

/-- C33: ADD A,src adds modulo 256 and sets CY, AC, OV and P; nothing else changes. -/
theorem C33_add (s : St H) (h : Ok P s) (hop : 0x24 ≤ (code s 0).toNat ∧ (code s 0).toNat ≤ 0x2f) :
    Added s (execInst P s).2 (operand P s) 0 := by
  have hn : 4 ≤ (code s 0).toNat % 16 := by omega
  refine add_common P s h hn 0 (by decide) ?_
  rw [execInst_eq P s h.pc, exec_add P _ hn (by omega)]
  rfl

/-- C33: ADDC A,src adds the operand and the carry. -/
theorem C33_addc (s : St H) (h : Ok P s) (hop : 0x34 ≤ (code s 0).toNat ∧ (code s 0).toNat ≤ 0x3f) :
    Added s (execInst P s).2 (operand P s) (CY s).toNat := by
  have hn : 4 ≤ (code s 0).toNat % 16 := by omega
  refine add_common P s h hn _ (by cases CY s <;> decide) ?_
  rw [execInst_eq P s h.pc, exec_addc P _ hn (by omega)]
  rfl

/-- C33: SUBB A,src subtracts the operand and the borrow. -/
theorem C33_subb (s : St H) (h : Ok P s) (hop : 0x94 ≤ (code s 0).toNat ∧ (code s 0).toNat ≤ 0x9f) :
    Subtracted s (execInst P s).2 (operand P s) (CY s).toNat := by
  have hn : 4 ≤ (code s 0).toNat % 16 := by omega
  obtain ⟨e1, ⟨k, hw, e2⟩⟩ := ld_ok P s h hn
  obtain ⟨v, e3⟩ := exec_subb P (code s 0) hn (by omega) (fetched s)
  have hc : (CY s).toNat ≤ 1 := by cases CY s <;> decide
  have hx := (operand P s).isLt
  rw [execInst_eq P s h.pc, e3, e1, e2, subbBody_eq]
  obtain ⟨b7, b6, b5, b4, b3, b2, b1, b0⟩ := addPsw_bits (psw s)
    (byte ((A s).toNat + 512 - (operand P s).toNat - (CY s).toNat))
    (decide ((A s).toNat < (operand P s).toNat + (CY s).toNat))
    (overflow ((A s).toInt - (operand P s).toInt - (CY s).toNat))
    (decide ((A s).toNat % 16 < (operand P s).toNat % 16 + (CY s).toNat))
  refine ⟨?_, b7, b6, b2, b0, rfl, ⟨rfl, rfl, rfl, ?_, rfl, rfl, ?_, b5, b4, b3, b1⟩⟩
  · show ((byte ((A s).toNat + 512 - (operand P s).toNat - (CY s).toNat)).toNat : Int) = _
    rw [byte_toNat]; omega
  · intro a ha hp
    show (if a = ACC then _ else if a = PSW then _ else _) = _
    rw [if_neg (show ¬ a = ACC from ha), if_neg (show ¬ a = PSW from hp)]
  · show (if v = true then rs s else s.bank) = s.bank
    rw [h.bank]; split <;> rfl

/-! ### C34 -/

theorem hi90 : ∀ a : Byte, ((a.toNat &&& 0xf0) > 0x90) ↔ 9 < a.toNat / 16 := by decide +kernel

/-- The corrections of DA A, on numbers. -/
theorem da_num (a pw : Byte) (u v : Byte) (c : Nat) (hc : c ≤ 1) (hu : isBcd u) (hv : isBcd v)
    (ha : a.toNat = (u.toNat + v.toNat + c) % 256)
    (hcy : pw.getLsbD 7 = decide (256 ≤ u.toNat + v.toNat + c))
    (hac : pw.getLsbD 6 = decide (16 ≤ u.toNat % 16 + v.toNat % 16 + c)) :
    let r := daHigh (daLow a pw).1 (daLow a pw).2
    isBcd r.1 ∧ bcd r.1 = (bcd u + bcd v + c) % 100 ∧ r.2.getLsbD 7 = decide (100 ≤ bcd u + bcd v + c) ∧
    (∀ i, i ≠ 7 → r.2.getLsbD i = pw.getLsbD i) := by
  have o7 : ∀ p : Byte, (p ||| 0x80#8).getLsbD 7 = true := by decide +kernel
  have oi : ∀ p : Byte, ∀ i, i ≠ 7 → (p ||| 0x80#8).getLsbD i = p.getLsbD i := by
    intro p i hi
    by_cases h8 : i < 8
    · have : ∀ p : Byte, ∀ i : Fin 8, i.val ≠ 7 → (p ||| 0x80#8).getLsbD i.val = p.getLsbD i.val := by decide +kernel
      exact this p ⟨i, h8⟩ hi
    · rw [BitVec.getLsbD_of_ge _ _ (by omega), BitVec.getLsbD_of_ge _ _ (by omega)]
  have e1 : a.toNat &&& 15 = a.toNat % 16 := Nat.and_two_pow_sub_one_eq_mod _ 4
  have la := a.isLt
  obtain ⟨hu1, hu2⟩ := hu
  obtain ⟨hv1, hv2⟩ := hv
  unfold bcd isBcd
  -- digits
  obtain ⟨ul, hul⟩ : ∃ x, x = u.toNat % 16 := ⟨_, rfl⟩
  obtain ⟨uh, huh⟩ : ∃ x, x = u.toNat / 16 := ⟨_, rfl⟩
  obtain ⟨vl, hvl⟩ : ∃ x, x = v.toNat % 16 := ⟨_, rfl⟩
  obtain ⟨vh, hvh⟩ : ∃ x, x = v.toNat / 16 := ⟨_, rfl⟩
  have du : u.toNat = 16 * uh + ul := by omega
  have dv : v.toNat = 16 * vh + vl := by omega
  rw [← hul] at hu1 hac ⊢
  rw [← huh] at hu2 ⊢
  rw [← hvl] at hv1 hac ⊢
  rw [← hvh] at hv2 ⊢
  rw [du, dv] at ha hcy
  clear hul huh hvl hvh du dv
  -- the first correction
  obtain ⟨s1, hs1⟩ : ∃ x, x = ul + vl + c := ⟨_, rfl⟩
  obtain ⟨h1, hh1⟩ : ∃ x, x = uh + vh := ⟨_, rfl⟩
  have ha' : a.toNat = (16 * h1 + s1) % 256 := by rw [ha]; congr 1; omega
  have hcy' : pw.getLsbD 7 = decide (256 ≤ 16 * h1 + s1) := by rw [hcy]; congr 1; rw [hs1, hh1]; apply propext; omega
  have hac' : pw.getLsbD 6 = decide (16 ≤ s1) := by rw [hac, hs1]
  have gsum : 10 * uh + ul + (10 * vh + vl) + c = 10 * h1 + s1 := by omega
  rw [gsum]
  have b1 : s1 ≤ 19 := by omega
  have b2 : h1 ≤ 18 := by omega
  clear ha hcy hac hu1 hu2 hv1 hv2 gsum hs1 hh1 hc
  -- what the first correction gives
  have st1 : ∃ (l k : Nat) (p : Byte), (daLow a pw).2 = p ∧ (daLow a pw).1.toNat = (16 * k + l) % 256 ∧
      l ≤ 9 ∧ k ≤ 19 ∧ 10 * h1 + s1 = 10 * k + l ∧ p.getLsbD 7 = decide (16 ≤ k) ∧
      (∀ i, i ≠ 7 → p.getLsbD i = pw.getLsbD i) := by
    by_cases hlow : 9 < s1
    · have hL : (a.toNat &&& 0x0f) > 9 ∨ ((pw &&& 0x40#8) != 0#8) = true := by
        rw [e1, mask40, hac', decide_eq_true_eq]; omega
      have hl : daLow a pw = (a + 6#8, if a.toNat + 6 > 255 then pw ||| 0x80#8 else pw) := by
        unfold daLow; rw [if_pos hL]
      have n1 : (a + 6#8).toNat = (a.toNat + 6) % 256 := by simp
      have hl1 : (daLow a pw).1 = a + 6#8 := by rw [hl]
      have hl2 : (daLow a pw).2 = if a.toNat + 6 > 255 then pw ||| 0x80#8 else pw := by rw [hl]
      clear hl hL
      rw [hl1, n1]
      by_cases hq : a.toNat + 6 > 255
      · rw [if_pos hq] at hl2
        refine ⟨s1 - 10, h1 + 1, pw ||| 0x80#8, hl2, by omega, by omega, by omega, by omega, ?_, fun i hi => oi _ _ hi⟩
        rw [o7]; symm; rw [decide_eq_true_eq]; omega
      · rw [if_neg hq] at hl2
        refine ⟨s1 - 10, h1 + 1, pw, hl2, by omega, by omega, by omega, by omega, ?_, fun i hi => rfl⟩
        rw [hcy', decide_eq_decide]; omega
    · have hL : ¬ ((a.toNat &&& 0x0f) > 9 ∨ ((pw &&& 0x40#8) != 0#8) = true) := by
        rw [e1, mask40, hac', decide_eq_true_eq]; omega
      have hl : daLow a pw = (a, pw) := by unfold daLow; rw [if_neg hL]
      rw [hl]
      refine ⟨s1, h1, _, rfl, ?_, by omega, by omega, by omega, ?_, fun _ _ => rfl⟩
      · exact ha'
      · rw [hcy', decide_eq_decide]; omega
  obtain ⟨l, k, p, hp, hx, hl9, hk, hsum, hp7, hpi⟩ := st1
  rw [hp, hsum]
  generalize (daLow a pw).1 = x at hx ⊢
  have lx := x.isLt
  simp only [daHigh, hi90, mask80, hp7, decide_eq_true_eq]
  have n2 : (x + 0x60#8).toNat = (x.toNat + 96) % 256 := by simp
  have d1 : x.toNat / 16 = k % 16 := by omega
  have d2 : x.toNat % 16 = l := by omega
  have d3 : (x.toNat + 96) % 256 / 16 = (k + 6) % 16 := by omega
  have d4 : (x.toNat + 96) % 256 % 16 = l := by omega
  have d5 : x.toNat + 96 > 255 ↔ 10 ≤ k % 16 := by omega
  rw [d1]
  simp only [d5]
  clear hx la lx ha' hcy' hac' b1 b2 hsum
  have rng : k < 10 ∨ (10 ≤ k ∧ k < 16) ∨ 16 ≤ k := by omega
  rcases rng with r | r | r
  · have f1 : k % 16 = k := by omega
    rw [if_neg (by omega)]
    simp only [d1, d2, f1]
    refine ⟨by omega, by omega, ?_, hpi⟩
    rw [hp7, decide_eq_decide]; omega
  · have f1 : (k + 6) % 16 = k - 10 := by omega
    rw [if_pos (by omega), if_pos (by omega)]
    simp only [n2, d3, d4, f1]
    refine ⟨by omega, by omega, ?_, fun i hi => by rw [oi _ _ hi, hpi i hi]⟩
    rw [o7]; symm; rw [decide_eq_true_eq]; omega
  · have f1 : (k + 6) % 16 = k - 10 := by omega
    rw [if_pos (by omega), if_neg (by omega)]
    simp only [n2, d3, d4, f1]
    refine ⟨by omega, by omega, ?_, hpi⟩
    rw [hp7, decide_eq_decide]; omega

theorem da_exec (s : St H) (h : Ok P s) (hop : code s 0 = 0xd4#8) :
    let r := daHigh (daLow (A s) (psw s)).1 (daLow (A s) (psw s)).2
    (execInst P s).2 = { fetched s with
      bank := ((r.2 &&& 0x18#8) >>> 3).toNat
      sfr := fun x => if x = ACC then r.1 else if x = PSW then (r.2 &&& ~~~(1#8)) ||| parityMask r.1 else s.sfr x } := by
  intro r
  rw [execInst_eq P s h.pc, hop, show decode 0xd4#8 = .da by decide]
  simp only [exec, bind_def, accRead, sfrGet, sfrWrite, accWrite, pswWrite, pure_def, show PSW ≠ ACC by decide,
    if_true, if_false]
  refine St.ext rfl rfl rfl ?_ rfl rfl rfl rfl rfl rfl rfl rfl rfl
  funext x
  by_cases hx : x = ACC
  · subst hx; simp only [upd, if_true]; rfl
  · by_cases hy : x = PSW
    · subst hy; simp only [upd, show PSW ≠ ACC by decide, ↓reduceIte]; rfl
    · simp only [upd, hx, hy, if_false]; rfl

/-- C34: DA A turns the binary sum (with the carry and half carry ADD or ADDC left) of
two packed BCD bytes into the packed BCD of the decimal sum, CY its carry.  The other
flags but P stay, nothing else but A changes. -/
theorem C34_da (t : St H) (h : Ok P t) (hop : code t 0 = 0xd4#8) (u v : Byte) (c : Nat) (hc : c ≤ 1)
    (hu : isBcd u) (hv : isBcd v) (ha : (A t).toNat = (u.toNat + v.toNat + c) % 256)
    (hcy : CY t = decide (256 ≤ u.toNat + v.toNat + c))
    (hac : AC t = decide (16 ≤ u.toNat % 16 + v.toNat % 16 + c)) :
    let t' := (execInst P t).2
    isBcd (A t') ∧ bcd (A t') = (bcd u + bcd v + c) % 100 ∧ CY t' = decide (100 ≤ bcd u + bcd v + c) ∧
    AC t' = AC t ∧ OV t' = OV t ∧ Pf t' = oddOnes (A t') ∧ t'.pc = (t.pc + 1) % 0x10000 ∧ OnlyAPsw t t' := by
  intro t'
  obtain ⟨k1, k2, k3, k4⟩ := da_num (A t) (psw t) u v c hc hu hv ha hcy hac
  have e := da_exec P t h hop
  simp only at e
  generalize hr : daHigh (daLow (A t) (psw t)).1 (daLow (A t) (psw t)).2 = r at *
  have pb : ∀ (p : Byte) (o : Bool),
      ((p &&& ~~~(1#8)) ||| (if o then 1#8 else 0#8)).getLsbD 0 = o ∧
      ∀ i : Fin 8, i.val ≠ 0 → ((p &&& ~~~(1#8)) ||| (if o then 1#8 else 0#8)).getLsbD i.val = p.getLsbD i.val := by
    decide +kernel
  have ep : psw t' = (r.2 &&& ~~~(1#8)) ||| parityMask r.1 := by
    show (execInst P t).2.sfr PSW = _
    rw [e]; simp only [show PSW ≠ ACC by decide, ↓reduceIte]
  have ea : A t' = r.1 := by
    show (execInst P t).2.sfr ACC = _
    rw [e]; simp only [↓reduceIte]
  rw [parity_ok] at ep
  have pi : ∀ i : Nat, i < 8 → i ≠ 0 → (psw t').getLsbD i = r.2.getLsbD i := by
    intro i h8 hi; rw [ep]; exact (pb _ _).2 ⟨i, h8⟩ hi
  have q : ∀ i : Nat, i < 8 → i ≠ 0 → i ≠ 7 → (psw t').getLsbD i = (psw t).getLsbD i := fun i a b c => by
    rw [pi i a b, k4 i c]
  refine ⟨by rw [ea]; exact k1, by rw [ea]; exact k2, by rw [← k3]; exact pi 7 (by decide) (by decide),
    q 6 (by decide) (by decide) (by decide), q 2 (by decide) (by decide) (by decide), ?_, ?_,
    ⟨?_, ?_, ?_, ?_, ?_, ?_, ?_, q 5 (by decide) (by decide) (by decide), q 4 (by decide) (by decide) (by decide),
      q 3 (by decide) (by decide) (by decide), q 1 (by decide) (by decide) (by decide)⟩⟩
  · rw [ea]; show (psw t').getLsbD 0 = _; rw [ep]; exact (pb _ _).1
  · show (execInst P t).2.pc = _; rw [e]; rfl
  · show (execInst P t).2.iram = _; rw [e]; rfl
  · show (execInst P t).2.xram = _; rw [e]; rfl
  · show (execInst P t).2.rom = _; rw [e]; rfl
  · intro a ha hp
    show (execInst P t).2.sfr a = _; rw [e]
    simp only [if_neg (show ¬ a = ACC from ha), if_neg (show ¬ a = PSW from hp)]
  · show (execInst P t).2.levels = _; rw [e]; rfl
  · show (execInst P t).2.state = _; rw [e]; rfl
  · show (execInst P t).2.bank = _; rw [e]
    show ((r.2 &&& 0x18#8) >>> 3).toNat = _
    rw [rsBits, k4 4 (by decide), k4 3 (by decide), h.bank]; rfl

/-- ADD/ADDC keep a machine fit for the next instruction. -/
theorem Spec.Added.ok {s s' : St H} {x : Byte} {c : Nat} (h : Ok P s) (a : Added s s' x c) : Ok P s' :=
  ⟨by rw [a.pc]; exact Nat.mod_lt _ (by decide),
   by rw [a.rest.bank, h.bank]; simp only [rs, a.rest.rs1, a.rest.rs0], h.size⟩

/-- C34: ADD A,src; DA A on BCD operands is decimal addition. -/
theorem C34_add_da (s : St H) (h : Ok P s) (hop : 0x24 ≤ (code s 0).toNat ∧ (code s 0).toNat ≤ 0x2f)
    (hu : isBcd (A s)) (hv : isBcd (operand P s)) (hd : code (execInst P s).2 0 = 0xd4#8) :
    let s2 := (execInst P (execInst P s).2).2
    isBcd (A s2) ∧ bcd (A s2) = (bcd (A s) + bcd (operand P s)) % 100 ∧
    CY s2 = decide (100 ≤ bcd (A s) + bcd (operand P s)) := by
  have a := C33_add P s h hop
  have := C34_da P _ (a.ok P h) hd (A s) (operand P s) 0 (by decide) hu hv a.a a.cy a.ac
  exact ⟨this.1, this.2.1, this.2.2.1⟩

/-- C34: ADDC A,src; DA A on BCD operands is decimal addition with carry. -/
theorem C34_addc_da (s : St H) (h : Ok P s) (hop : 0x34 ≤ (code s 0).toNat ∧ (code s 0).toNat ≤ 0x3f)
    (hu : isBcd (A s)) (hv : isBcd (operand P s)) (hd : code (execInst P s).2 0 = 0xd4#8) :
    let s2 := (execInst P (execInst P s).2).2
    isBcd (A s2) ∧ bcd (A s2) = (bcd (A s) + bcd (operand P s) + (CY s).toNat) % 100 ∧
    CY s2 = decide (100 ≤ bcd (A s) + bcd (operand P s) + (CY s).toNat) := by
  have a := C33_addc P s h hop
  have := C34_da P _ (a.ok P h) hd (A s) (operand P s) _ (by cases CY s <;> decide) hu hv a.a a.cy a.ac
  exact ⟨this.1, this.2.1, this.2.2.1⟩

/-! ### C35 -/

theorem mulFlags : ∀ (p : Byte) (o v : Bool),
    let q := putBits (putBits ((p &&& ~~~(1#8)) ||| (if o then 1#8 else 0#8)) 0x04#8 v) 0x80#8 false
    q.getLsbD 7 = false ∧ q.getLsbD 2 = v ∧ q.getLsbD 0 = o ∧ q.getLsbD 6 = p.getLsbD 6 ∧ q.getLsbD 5 = p.getLsbD 5 ∧
    q.getLsbD 4 = p.getLsbD 4 ∧ q.getLsbD 3 = p.getLsbD 3 ∧ q.getLsbD 1 = p.getLsbD 1 := by decide +kernel

/-- C35: MUL AB leaves the product in B:A, OV tells that it does not fit in A, CY is
cleared. -/
theorem C35_mul (s : St H) (h : Ok P s) (hop : code s 0 = 0xa4#8) :
    let s' := (execInst P s).2
    256 * (B s').toNat + (A s').toNat = (A s).toNat * (B s).toNat ∧
    OV s' = decide (255 < (A s).toNat * (B s).toNat) ∧ CY s' = false ∧ Pf s' = oddOnes (A s') ∧
    s'.pc = (s.pc + 1) % 0x10000 ∧ OnlyABPsw s s' := by
  intro s'
  have la := (A s).isLt
  have lb := (B s).isLt
  have lp : (A s).toNat * (B s).toNat < 65536 := by
    have : (A s).toNat * (B s).toNat ≤ 255 * 255 := Nat.mul_le_mul (by omega) (by omega)
    omega
  have e : s' = { fetched s with
      cyc := s.cyc + 4, total := s.total + 4,
      sfr := fun x => if x = ACC then byte ((A s).toNat * (B s).toNat)
        else if x = SFRB then byte ((A s).toNat * (B s).toNat / 256)
        else if x = PSW then putBits (putBits ((psw s &&& ~~~(1#8)) |||
            parityMask (byte ((A s).toNat * (B s).toNat))) 0x04#8
              (byte ((A s).toNat * (B s).toNat / 256) != 0#8)) 0x80#8 false
        else s.sfr x } := by
    show (execInst P s).2 = _
    rw [execInst_eq P s h.pc, hop, show decode 0xa4#8 = .mul by decide]
    simp only [exec, mulAB, bind_def, accRead, sfrGet, sfrSet, sfrSetBit, sfrWrite, accWrite, pure_def, tick,
      show SFRB ≠ ACC by decide, show SFRB ≠ PSW by decide, show isCore SFRB = true by decide, if_true, if_false]
    refine St.ext rfl rfl rfl ?_ rfl rfl rfl rfl rfl rfl rfl rfl rfl
    funext x
    by_cases hx : x = ACC
    · subst hx; simp [upd, ACC, SFRB, PSW, A, B, fetched]
    · by_cases hy : x = PSW
      · subst hy; simp only [upd, show PSW ≠ ACC by decide, show PSW ≠ SFRB by decide, ↓reduceIte]; rfl
      · by_cases hz : x = SFRB
        · subst hz; simp [upd, ACC, SFRB, PSW, A, B, fetched]
        · simp [upd, hx, hy, hz, fetched]
  have ea : A s' = byte ((A s).toNat * (B s).toNat) := by
    rw [e]; rfl
  have eb : B s' = byte ((A s).toNat * (B s).toNat / 256) := by
    rw [e]; rfl
  have ep : psw s' = putBits (putBits ((psw s &&& ~~~(1#8)) |||
            parityMask (byte ((A s).toNat * (B s).toNat))) 0x04#8
              (byte ((A s).toNat * (B s).toNat / 256) != 0#8)) 0x80#8 false := by
    rw [e]; rfl
  have eo : (byte ((A s).toNat * (B s).toNat / 256) != 0#8) = decide (255 < (A s).toNat * (B s).toNat) := by
    generalize (A s).toNat * (B s).toNat = n at lp ⊢
    by_cases hn : 255 < n
    · rw [decide_eq_true hn]
      simp only [bne_iff_ne, ne_eq]
      intro hz
      have := congrArg BitVec.toNat hz
      rw [byte_toNat] at this
      simp at this; omega
    · rw [decide_eq_false hn]
      have : n / 256 = 0 := by omega
      rw [this]; decide
  rw [parity_ok, eo] at ep
  obtain ⟨m7, m2, m0, m6, m5, m4, m3, m1⟩ := mulFlags (psw s) (oddOnes (byte ((A s).toNat * (B s).toNat)))
    (decide (255 < (A s).toNat * (B s).toNat))
  rw [← ep] at m7 m2 m0 m6 m5 m4 m3 m1
  refine ⟨?_, m2, m7, by rw [ea]; exact m0, by rw [e]; rfl,
    ⟨by rw [e]; rfl, by rw [e]; rfl, by rw [e]; rfl, ?_, by rw [e]; rfl, by rw [e]; rfl, by rw [e]; exact h.bank,
     m6, m5, m4, m3, m1⟩⟩
  · rw [ea, eb, byte_toNat, byte_toNat]; omega
  · intro a h1 h2 h3
    rw [e]
    simp only [if_neg (show ¬ a = ACC from h1), if_neg (show ¬ a = PSW from h2), if_neg (show ¬ a = SFRB from h3)]

theorem divFlags : ∀ (p : Byte) (o v : Bool),
    let q := (((if v then (p &&& ~~~(0x80#8)) ||| 0x04#8 else (p &&& ~~~(0x80#8)) &&& ~~~(0x04#8)) &&& ~~~(1#8)) |||
      (if o then 1#8 else 0#8))
    q.getLsbD 7 = false ∧ q.getLsbD 2 = v ∧ q.getLsbD 0 = o ∧ q.getLsbD 6 = p.getLsbD 6 ∧ q.getLsbD 5 = p.getLsbD 5 ∧
    q.getLsbD 4 = p.getLsbD 4 ∧ q.getLsbD 3 = p.getLsbD 3 ∧ q.getLsbD 1 = p.getLsbD 1 := by decide +kernel

theorem divBank : ∀ (p : Byte) (v : Bool),
    ((if v then (p &&& ~~~(0x80#8)) ||| 0x04#8 else (p &&& ~~~(0x80#8)) &&& ~~~(0x04#8)) &&& 0x18#8) =
      p &&& 0x18#8 := by decide +kernel

theorem div_exec (s : St H) (h : Ok P s) (hop : code s 0 = 0x84#8) :
    let z := decide (B s = 0#8)
    let q := if z then A s else byte ((A s).toNat / (B s).toNat)
    (execInst P s).2 = { fetched s with
      cyc := s.cyc + 4, total := s.total + 4, bank := rs s,
      sfr := fun x => if x = ACC then q
        else if x = SFRB then (if z then B s else byte ((A s).toNat % (B s).toNat))
        else if x = PSW then
          (((if z then (psw s &&& ~~~(0x80#8)) ||| 0x04#8 else (psw s &&& ~~~(0x80#8)) &&& ~~~(0x04#8)) &&& ~~~(1#8)) |||
           parityMask q)
        else s.sfr x } := by
  intro z q
  have hbk : ∀ v : Bool, (((if v then (psw s &&& ~~~(0x80#8)) ||| 0x04#8
      else (psw s &&& ~~~(0x80#8)) &&& ~~~(0x04#8)) &&& 0x18#8) >>> 3).toNat = rs s := by
    intro v; rw [divBank, rsBits]; rfl
  rw [execInst_eq P s h.pc, hop, show decode 0x84#8 = .div by decide]
  by_cases hz : B s = 0#8
  · have hz' : z = true := by simp [z, hz]
    have hq : q = A s := by simp [q, hz']
    have hzz : (fetched s).sfr SFRB = 0#8 := hz
    have hb := hbk true
    simp only [if_true] at hb
    simp only [exec, divAB, bind_def, accRead, sfrGet, hzz, if_true, if_false, sfrWrite, accWrite, pswWrite, pure_def,
      tick, show PSW ≠ ACC by decide, hz', hq]
    refine St.ext rfl rfl rfl ?_ rfl rfl hb rfl rfl rfl rfl rfl rfl
    funext x
    by_cases hx : x = ACC
    · subst hx; simp only [upd, if_true]; rfl
    · by_cases hy : x = PSW
      · subst hy; simp only [upd, show PSW ≠ ACC by decide, show PSW ≠ SFRB by decide, ↓reduceIte]; rfl
      · by_cases hw : x = SFRB
        · subst hw; simp only [upd, show SFRB ≠ ACC by decide, show SFRB ≠ PSW by decide, ↓reduceIte]; rfl
        · simp only [upd, hx, hy, hw, ↓reduceIte]; rfl
  · have hz' : z = false := by simp [z, hz]
    have hq : q = byte ((A s).toNat / (B s).toNat) := by simp [q, hz']
    have hzz : ¬ (fetched s).sfr SFRB = 0#8 := hz
    have hb := hbk false
    simp only [if_false, Bool.false_eq_true] at hb
    simp only [exec, divAB, bind_def, accRead, sfrGet]
    refine Eq.trans (congrArg (fun m : M H Unit => (m (fetched s)).2) (if_neg hzz)) ?_
    simp only [bind_def, if_true, if_false, sfrWrite, accWrite, pswWrite, pure_def,
      tick, show PSW ≠ ACC by decide, show SFRB ≠ ACC by decide, show SFRB ≠ PSW by decide,
      show isCore SFRB = true by decide, hz', hq]
    refine St.ext rfl rfl rfl ?_ rfl rfl hb rfl rfl rfl rfl rfl rfl
    funext x
    by_cases hx : x = ACC
    · subst hx; simp only [upd, if_true]; rfl
    · by_cases hy : x = PSW
      · subst hy; simp only [upd, show PSW ≠ ACC by decide, show PSW ≠ SFRB by decide, ↓reduceIte]; rfl
      · by_cases hw : x = SFRB
        · subst hw; simp only [upd, show SFRB ≠ ACC by decide, show SFRB ≠ PSW by decide, ↓reduceIte]; rfl
        · simp only [upd, hx, hy, hw, ↓reduceIte]; rfl

/-- C35: DIV AB leaves quotient and remainder in A and B and clears OV; a division by 0
sets OV and keeps A and B.  CY is cleared. -/
theorem C35_div (s : St H) (h : Ok P s) (hop : code s 0 = 0x84#8) :
    let s' := (execInst P s).2
    (B s ≠ 0#8 → (A s').toNat * (B s).toNat + (B s').toNat = (A s).toNat ∧ (B s').toNat < (B s).toNat ∧
      OV s' = false) ∧
    (B s = 0#8 → A s' = A s ∧ B s' = B s ∧ OV s' = true) ∧
    CY s' = false ∧ Pf s' = oddOnes (A s') ∧ s'.pc = (s.pc + 1) % 0x10000 ∧ OnlyABPsw s s' := by
  intro s'
  have e := div_exec P s h hop
  simp only at e
  generalize hz : decide (B s = 0#8) = z at e
  generalize hq : (if z = true then A s else byte ((A s).toNat / (B s).toNat)) = q at e
  have ea : A s' = q := by show (execInst P s).2.sfr ACC = _; rw [e]; rfl
  have eb : B s' = if z = true then B s else byte ((A s).toNat % (B s).toNat) := by
    show (execInst P s).2.sfr SFRB = _; rw [e]; rfl
  have ep : psw s' = (((if z then (psw s &&& ~~~(0x80#8)) ||| 0x04#8 else (psw s &&& ~~~(0x80#8)) &&& ~~~(0x04#8))
      &&& ~~~(1#8)) ||| parityMask q) := by show (execInst P s).2.sfr PSW = _; rw [e]; rfl
  rw [parity_ok] at ep
  obtain ⟨m7, m2, m0, m6, m5, m4, m3, m1⟩ := divFlags (psw s) (oddOnes q) z
  rw [← ep] at m7 m2 m0 m6 m5 m4 m3 m1
  have rest : ∀ {α : Type} (f : St H → α), f s' = f (execInst P s).2 := fun _ => rfl
  refine ⟨?_, ?_, m7, by rw [ea]; exact m0, by rw [rest St.pc, e]; rfl,
    ⟨by rw [rest St.iram, e]; rfl, by rw [rest St.xram, e]; rfl, by rw [rest St.rom, e]; rfl, ?_,
     by rw [rest St.levels, e]; rfl, by rw [rest St.state, e]; rfl, by rw [rest St.bank, e], m6, m5, m4, m3, m1⟩⟩
  · intro hb
    have hz' : z = false := by rw [← hz]; simp [hb]
    have hpos : 0 < (B s).toNat := by
      rcases Nat.eq_zero_or_pos (B s).toNat with h0 | h0
      · exact absurd (BitVec.eq_of_toNat_eq (by simpa using h0)) hb
      · exact h0
    subst hq
    rw [hz'] at ea eb m2
    simp only [Bool.false_eq_true, if_false] at ea eb
    have lt := Nat.mod_lt (A s).toNat hpos
    have l1 := (A s).isLt
    have l2 := Nat.div_le_self (A s).toNat (B s).toNat
    have l3 := Nat.mod_le (A s).toNat (B s).toNat
    have r1 : (A s').toNat = (A s).toNat / (B s).toNat := by rw [ea, byte_toNat]; exact Nat.mod_eq_of_lt (by omega)
    have r2 : (B s').toNat = (A s).toNat % (B s).toNat := by rw [eb, byte_toNat]; exact Nat.mod_eq_of_lt (by omega)
    refine ⟨?_, by rw [r2]; exact lt, m2⟩
    rw [r1, r2]; exact Nat.div_add_mod' _ _
  · intro hb
    have hz' : z = true := by rw [← hz]; simp [hb]
    subst hq
    rw [hz'] at ea eb m2
    simp only [if_true] at ea eb
    exact ⟨ea, eb, m2⟩
  · intro a h1 h2 h3
    rw [rest St.sfr, e]
    simp only [if_neg (show ¬ a = ACC from h1), if_neg (show ¬ a = PSW from h2), if_neg (show ¬ a = SFRB from h3)]

/-! ### The hypotheses are met -/

/-- ADD A,R1 in bank 2 with A = 0x38 and R1 = 0x7a. -/
example : let s := Demo.st [0x29#8] 0x38#8 0#8 0x10#8 7#8
    Ok Demo.hw s ∧ (0x24 ≤ (code s 0).toNat ∧ (code s 0).toNat ≤ 0x2f) ∧ operand Demo.hw s = 0x7a#8 :=
  ⟨Demo.ok _ _ _ _ _, by decide, by decide⟩

/-- ADDC A,@R0 and SUBB A,direct with a carry. -/
example : let s := Demo.st [0x36#8] 0x38#8 0#8 0x80#8 7#8
    Ok Demo.hw s ∧ (0x34 ≤ (code s 0).toNat ∧ (code s 0).toNat ≤ 0x3f) ∧ CY s = true ∧ R s 0 = 3#8 :=
  ⟨Demo.ok _ _ _ _ _, by decide, by decide, by decide⟩
example : let s := Demo.st [0x95#8, 0x20#8] 0x38#8 0#8 0x80#8 7#8
    Ok Demo.hw s ∧ (0x94 ≤ (code s 0).toNat ∧ (code s 0).toNat ≤ 0x9f) ∧ operand Demo.hw s = 0xe3#8 :=
  ⟨Demo.ok _ _ _ _ _, by decide, by decide⟩

/-- ADD A,#0x58; DA A with A = 0x67: 125, BCD 0x25 and carry. -/
example : let s := Demo.st [0x24#8, 0x58#8, 0xd4#8] 0x67#8 0#8 0#8 7#8
    Ok Demo.hw s ∧ (0x24 ≤ (code s 0).toNat ∧ (code s 0).toNat ≤ 0x2f) ∧ isBcd (A s) ∧ isBcd (operand Demo.hw s) ∧
    code (execInst Demo.hw s).2 0 = 0xd4#8 :=
  ⟨Demo.ok _ _ _ _ _, by decide, by unfold isBcd; decide, by unfold isBcd; decide, by decide⟩

example : let s := Demo.st [0xa4#8] 0x67#8 0x33#8 0#8 7#8
    Ok Demo.hw s ∧ code s 0 = 0xa4#8 ∧ 255 < (A s).toNat * (B s).toNat := ⟨Demo.ok _ _ _ _ _, by decide, by decide⟩
example : let s := Demo.st [0x84#8] 0x67#8 0x33#8 0#8 7#8
    Ok Demo.hw s ∧ code s 0 = 0x84#8 ∧ B s ≠ 0#8 := ⟨Demo.ok _ _ _ _ _, by decide, by decide⟩

end Ucsim.S51
