import Verif.Proof.P15Mem
/-
Byte access, direct load and store, special registers and moves of the P2223; numbers of several
words.
-/
set_option linter.constructorNameAsVariable false
namespace Ucsim.P15
open Spec

theorem body22_ext (ver : Wd) (t : St) (code : Wd) (hcc : code.toNat / 2 ^ 28 ≠ 15) (hg : code.toNat / 2 ^ 25 % 8 = 3) :
    body22 ver t code = ({ (ext22 ver t code).1 with PC := (ext22 ver t code).1.R 15 }, (ext22 ver t code).2) := by
  have hl := lt_wd code
  have h28 : (fld code 28 4).toNat ≠ 15 := by rw [fld_toNat]; omega
  have h25 : (fld code 25 3).toNat = 3 := by rw [fld_toNat]; exact hg
  unfold body22
  rw [if_neg h28, h25]; rfl

theorem lit8 (j : Nat) : (0xff#32).getLsbD j = decide (j < 8) := by
  have e : (0xff#32) = (BitVec.allOnes 8).setWidth 32 := rfl
  rw [e, BitVec.getLsbD_setWidth, BitVec.getLsbD_allOnes]
  by_cases h : j < 8
  · simp [h]; omega
  · simp [h]

theorem lit8h (j : Nat) : (0xffffff00#32).getLsbD j = (decide (8 ≤ j) && decide (j < 32)) := by
  have e : (0xffffff00#32) = ~~~0xff#32 := rfl
  rw [e, BitVec.getLsbD_not, lit8]
  by_cases h : j < 8
  · have : ¬8 ≤ j := by omega
    simp [h, this]
  · have : 8 ≤ j := by omega
    simp [h, this]

/-- The bits of the word that PUTB makes. -/
theorem putb_bit (x y : Wd) (i j : Nat) (hi : i < 4) (hj : j < 32) :
    ((x &&& ~~~(0xff#32 <<< (i * 8))) ||| ((y &&& 0xff#32) <<< (i * 8))).getLsbD j =
      if i * 8 ≤ j ∧ j < i * 8 + 8 then y.getLsbD (j - i * 8) else x.getLsbD j := by
  rw [BitVec.getLsbD_or, BitVec.getLsbD_and, BitVec.getLsbD_not, BitVec.getLsbD_shiftLeft, BitVec.getLsbD_shiftLeft, BitVec.getLsbD_and, lit8]
  by_cases h1 : j < i * 8
  · have : ¬(i * 8 ≤ j ∧ j < i * 8 + 8) := by omega
    simp [h1, this, hj]
  · by_cases h2 : j < i * 8 + 8
    · have h3 : i * 8 ≤ j ∧ j < i * 8 + 8 := by omega
      have h4 : j - i * 8 < 8 := by omega
      simp [h1, h3, hj, h4]
    · have h3 : ¬(i * 8 ≤ j ∧ j < i * 8 + 8) := by omega
      have h4 : ¬j - i * 8 < 8 := by omega
      simp [h1, h3, hj, h4]

theorem putb_byte (x y : Wd) (i k : Nat) (hi : i < 4) (hk : k < 4) :
    byte ((x &&& ~~~(0xff#32 <<< (i * 8))) ||| ((y &&& 0xff#32) <<< (i * 8))) k = if k = i then byte y 0 else byte x k := by
  apply BitVec.eq_of_getLsbD_eq
  intro j hj
  unfold byte
  rw [BitVec.getLsbD_extractLsb', putb_bit x y i _ hi (by omega)]
  by_cases h : k = i
  · subst h
    rw [if_pos rfl, if_pos (by omega), BitVec.getLsbD_extractLsb']
    congr 2; omega
  · rw [if_neg h, if_neg (by omega), BitVec.getLsbD_extractLsb']

theorem getb_bit (y : Wd) (i j : Nat) : ((y >>> (i * 8)) &&& 0xff#32).getLsbD j = (decide (j < 8) && (byte y i).getLsbD j) := by
  rw [BitVec.getLsbD_and, BitVec.getLsbD_ushiftRight, lit8, byte, BitVec.getLsbD_extractLsb']
  have e : i * 8 + j = 8 * i + j := by omega
  rw [e]
  by_cases h : j < 8 <;> simp [h]

theorem getbz_val (y : Wd) (i : Nat) : (y >>> (i * 8)) &&& 0xff#32 = (byte y i).zeroExtend 32 := by
  apply BitVec.eq_of_getLsbD_eq
  intro j hj
  rw [getb_bit, BitVec.zeroExtend, BitVec.getLsbD_setWidth]
  by_cases h : j < 8
  · simp [h, hj]
  · have := BitVec.getLsbD_of_ge (byte y i) j (by omega)
    simp [h, this]

theorem getbs_val (y : Wd) (i : Nat) :
    ((if ((y >>> (i * 8)) &&& 0xff#32).getLsbD 7 then 0xffffff00#32 else 0#32) ||| ((y >>> (i * 8)) &&& 0xff#32)) = (byte y i).signExtend 32 := by
  have hm : ((y >>> (i * 8)) &&& 0xff#32).getLsbD 7 = (byte y i).msb := by
    rw [getb_bit, BitVec.msb_eq_getLsbD_last]; rfl
  rw [hm]
  apply BitVec.eq_of_getLsbD_eq
  intro j hj
  rw [BitVec.getLsbD_or, getb_bit, BitVec.getLsbD_signExtend]
  by_cases h : j < 8
  · have h2 : ¬8 ≤ j := by omega
    have h3 := lit8h j
    rw [decide_eq_false h2, Bool.false_and] at h3
    cases (byte y i).msb
    · simp [h, hj]
    · simp only [if_true, h3]; simp [h, hj]
  · have h2 : 8 ≤ j := by omega
    have h3 := lit8h j
    rw [decide_eq_true h2, decide_eq_true hj] at h3
    cases (byte y i).msb
    · simp [h, hj]
    · simp only [if_true, h3]; simp [h, hj]

theorem getb_val (x y : Wd) (i : Nat) : (x &&& 0xffffff00#32) ||| ((y >>> (i * 8)) &&& 0xff#32) = x.extractLsb' 8 24 ++ byte y i := by
  apply BitVec.eq_of_getLsbD_eq
  intro j hj
  rw [BitVec.getLsbD_or, getb_bit, BitVec.getLsbD_and, lit8h, BitVec.getLsbD_append, BitVec.getLsbD_extractLsb']
  by_cases h : j < 8
  · have h2 : ¬8 ≤ j := by omega
    simp [h, h2]
  · have h2 : 8 ≤ j := by omega
    have h3 : j - 8 < 24 := by omega
    have h4 : 8 + (j - 8) = j := by omega
    simp [h, h2, hj, h3, h4]

theorem byteNo_eq (s : St) (code : Wd) : (if code.getLsbD 15 then code else (fetched 4 s).R (fld code 0 4)).toNat % 4 = byteNo s code := by
  unfold byteNo
  rw [fld_reg]
  split <;> rfl

theorem byteNo_lt (s : St) (code : Wd) : byteNo s code < 4 := by unfold byteNo; split <;> omega

/-- PUTB -/
theorem exec22_putb (ver : Wd) (s : St) (code : Wd) (cc : Cc) (d b : Rn) (h : Enc22 code cc.num 7 d 1) (hb : reg code 8 = b)
    (hat : at15 s code) (hc : cc.holds (flags s.F)) :
    ∃ v : Wd, Next 4 s (exec22 ver false s).1 (to d v) ∧ (exec22 ver false s).1.F = s.F ∧ (exec22 ver false s).2 = .go ∧
      ∀ k, k < 4 → byte v k = if k = byteNo s code then byte (src s b) 0 else byte (src s d) k := by
  have h24 : code.getLsbD 24 = true := by rw [bit_of, decide_eq_true_eq]; have := h.grp; omega
  have ho : (fld code 16 4).toNat = 1 := by rw [fld_toNat]; exact h.op
  rw [exec22_go ver s code cc h.cc hat hc, body22_ext ver _ code (by rw [h.cc]; exact ccnum_ne cc) (by have := h.grp; omega)]
  refine ⟨((src s d) &&& ~~~(0xff#32 <<< (byteNo s code * 8))) ||| (((src s b) &&& 0xff#32) <<< (byteNo s code * 8)), ?_⟩
  have e : ext22 ver (fetched 4 s) code = (setR (fetched 4 s) d (((src s d) &&& ~~~(0xff#32 <<< (byteNo s code * 8))) ||| (((src s b) &&& 0xff#32) <<< (byteNo s code * 8))), .go) := by
    unfold ext22
    rw [fld_rn code 20 d h.d, ho]
    simp only [byteNo_eq, h24, if_true]
    rw [fld_reg, hb]; rfl
  rw [e]
  exact ⟨next_one 4 s d _, rfl, rfl, fun k hk => putb_byte _ _ _ k (byteNo_lt s code) hk⟩

/-- GETB, GETBZ, GETBS -/
theorem exec22_getb (ver : Wd) (s : St) (code : Wd) (cc : Cc) (d b : Rn) (h : Enc22 code cc.num 6 d 1) (hb : reg code 8 = b)
    (hat : at15 s code) (hc : cc.holds (flags s.F)) :
    Next 4 s (exec22 ver false s).1 (to d (if code.getLsbD 14 then
      (if code.getLsbD 13 then (byte (src s b) (byteNo s code)).signExtend 32 else (byte (src s b) (byteNo s code)).zeroExtend 32)
      else (src s d).extractLsb' 8 24 ++ byte (src s b) (byteNo s code))) ∧ (exec22 ver false s).1.F = s.F ∧ (exec22 ver false s).2 = .go := by
  have h24 : code.getLsbD 24 = false := by rw [bit_of, decide_eq_false_iff_not]; have := h.grp; omega
  have ho : (fld code 16 4).toNat = 1 := by rw [fld_toNat]; exact h.op
  rw [exec22_go ver s code cc h.cc hat hc, body22_ext ver _ code (by rw [h.cc]; exact ccnum_ne cc) (by have := h.grp; omega)]
  have e : ext22 ver (fetched 4 s) code = (setR (fetched 4 s) d (if code.getLsbD 14 then
      (if code.getLsbD 13 then (byte (src s b) (byteNo s code)).signExtend 32 else (byte (src s b) (byteNo s code)).zeroExtend 32)
      else (src s d).extractLsb' 8 24 ++ byte (src s b) (byteNo s code)), .go) := by
    unfold ext22
    rw [fld_rn code 20 d h.d, ho]
    simp only [byteNo_eq, h24, Bool.false_eq_true, if_false]
    rw [fld_reg, hb, ← getbz_val, ← getbs_val, ← getb_val]; rfl
  rw [e]
  exact ⟨next_one 4 s d _, rfl, rfl⟩

/-- LD and ST of an address in the word. -/
theorem exec22_ldd (ver : Wd) (s : St) (code : Wd) (cc : Cc) (d : Rn) (i : BitVec 16) (h : Enc22 code cc.num 7 d 0) (hi : code.toNat % 2 ^ 16 = i.toNat)
    (hat : at15 s code) (hc : cc.holds (flags s.F)) :
    Next 4 s (exec22 ver false s).1 (to d (s.mem (i.zeroExtend 32))) ∧ (exec22 ver false s).1.F = s.F ∧ (exec22 ver false s).2 = .go := by
  have h24 : code.getLsbD 24 = true := by rw [bit_of, decide_eq_true_eq]; have := h.grp; omega
  have ho : (fld code 16 4).toNat = 0 := by rw [fld_toNat]; exact h.op
  have hlt : (i.zeroExtend 32).toNat < 0x20000 := by rw [BitVec.zeroExtend, BitVec.toNat_setWidth]; have := i.isLt; omega
  rw [exec22_go ver s code cc h.cc hat hc, body22_ext ver _ code (by rw [h.cc]; exact ccnum_ne cc) (by have := h.grp; omega)]
  have hr : rd (fetched 4 s) (i.zeroExtend 32) = s.mem (i.zeroExtend 32) := if_pos hlt
  have e : ext22 ver (fetched 4 s) code = (setR (fetched 4 s) d (s.mem (i.zeroExtend 32)), .go) := by
    unfold ext22
    rw [fld_rn code 20 d h.d, ho]
    simp only [h24, if_true]
    rw [low16 code i hi, hr]
  rw [e]
  exact ⟨next_one 4 s d _, rfl, rfl⟩

theorem exec22_std (ver : Wd) (s : St) (code : Wd) (cc : Cc) (d : Rn) (i : BitVec 16) (h : Enc22 code cc.num 6 d 0) (hi : code.toNat % 2 ^ 16 = i.toNat)
    (hat : at15 s code) (hc : cc.holds (flags s.F)) :
    Store 4 s (exec22 ver false s).1 keep (i.zeroExtend 32) (src s d) ∧ (exec22 ver false s).2 = .go := by
  have h24 : code.getLsbD 24 = false := by rw [bit_of, decide_eq_false_iff_not]; have := h.grp; omega
  have ho : (fld code 16 4).toNat = 0 := by rw [fld_toNat]; exact h.op
  have hlt : (i.zeroExtend 32).toNat < 0x20000 := by rw [BitVec.zeroExtend, BitVec.toNat_setWidth]; have := i.isLt; omega
  rw [exec22_go ver s code cc h.cc hat hc, body22_ext ver _ code (by rw [h.cc]; exact ccnum_ne cc) (by have := h.grp; omega)]
  have hr : wr (fetched 4 s) (i.zeroExtend 32) (src s d) = { fetched 4 s with mem := fun x => if x = i.zeroExtend 32 then src s d else s.mem x } := if_pos hlt
  have e : ext22 ver (fetched 4 s) code = ({ fetched 4 s with mem := fun x => if x = i.zeroExtend 32 then src s d else s.mem x }, .go) := by
    unfold ext22
    rw [fld_rn code 20 d h.d, ho]
    simp only [h24, Bool.false_eq_true, if_false]
    rw [low16 code i hi]
    show (wr (fetched 4 s) (i.zeroExtend 32) (src s d), Res.go) = _
    rw [hr]
  rw [e]
  exact ⟨⟨fun r => rfl, rfl, if_pos rfl, fun x hx => if_neg hx, rfl, rfl, rfl⟩, rfl⟩

/-- MOV of registers, and the moves of immediates. -/
theorem exec22_mov (ver : Wd) (s : St) (code : Wd) (cc : Cc) (d : Rn) (h : Enc22 code cc.num 0 d 0) (hat : at15 s code) (hc : cc.holds (flags s.F)) :
    Next 4 s (exec22 ver false s).1 (to d (src s (reg code 8))) ∧ (exec22 ver false s).1.F = s.F ∧ (exec22 ver false s).2 = .go := by
  have hd := fld_rn code 20 d h.d
  have ho : (fld code 16 4).toNat = 0 := by rw [fld_toNat]; exact h.op
  have h25 : (fld code 25 3).toNat = 0 := by rw [fld_toNat]; have := h.grp; omega
  have h24 : code.getLsbD 24 = false := by rw [bit_of, decide_eq_false_iff_not]; have := h.grp; omega
  have e : alu22 (fetched 4 s) code = (setR (fetched 4 s) d (src s (reg code 8)), .go) := by
    unfold alu22
    rw [hd, ho, h25, h24, if_neg (by decide), fld_reg]; rfl
  rw [exec22_go ver s code cc h.cc hat hc, body22_alu ver _ _ code .go (by rw [h.cc]; exact ccnum_ne cc) (by rw [h.grp]; decide) e]
  exact ⟨next_one 4 s d _, rfl, rfl⟩

theorem exec22_mvi (ver : Wd) (s : St) (code : Wd) (cc : Cc) (d : Rn) (i : BitVec 16) (o : Nat) (h : Enc22 code cc.num 1 d o) (hi : code.toNat % 2 ^ 16 = i.toNat)
    (ho4 : o < 4) (hat : at15 s code) (hc : cc.holds (flags s.F)) :
    Next 4 s (exec22 ver false s).1 (to d (match o with
      | 0 => (src s d).extractLsb' 16 16 ++ i
      | 1 => i ++ (src s d).setWidth 16
      | 2 => i.zeroExtend 32
      | _ => i.signExtend 32)) ∧ (exec22 ver false s).1.F = s.F ∧ (exec22 ver false s).2 = .go := by
  have hd := fld_rn code 20 d h.d
  have ho : (fld code 16 4).toNat = o := by rw [fld_toNat]; exact h.op
  have h25 : (fld code 25 3).toNat = 0 := by rw [fld_toNat]; have := h.grp; omega
  have h24 : code.getLsbD 24 = true := by rw [bit_of, decide_eq_true_eq]; have := h.grp; omega
  have e1 := ldl_val (src s d) code i hi
  have e2 := mvh_val (src s d) code i hi
  have e3 := low16 code i hi
  have e4 := imS_eq code i hi
  have fin : ∀ v, alu22 (fetched 4 s) code = (setR (fetched 4 s) d v, .go) →
      Next 4 s (exec22 ver false s).1 (to d v) ∧ (exec22 ver false s).1.F = s.F ∧ (exec22 ver false s).2 = .go := by
    intro v e
    rw [exec22_go ver s code cc h.cc hat hc, body22_alu ver _ _ code .go (by rw [h.cc]; exact ccnum_ne cc) (by rw [h.grp]; decide) e]
    exact ⟨next_one 4 s d _, rfl, rfl⟩
  have hq : o = 0 ∨ o = 1 ∨ o = 2 ∨ o = 3 := by omega
  clear ho4
  rcases hq with q | q | q | q <;> subst q <;> apply fin <;> unfold alu22 <;> rw [hd, ho, h25, h24, if_neg (by decide)] <;> simp only [if_true]
  · rw [← e1]; rfl
  · rw [← e2]; rfl
  · rw [← e3]
  · rw [e4]

/-! ### numbers of several words -/

/-- One step of an addition with carry: `d` gets a + b + C, the carry is the new C. -/
structure AddStep (s s' : St) (d a b : Rn) : Prop where
  dst : s'.R d = s.R a + s.R b + (if (flags s.F).c then 1 else 0)
  others : ∀ r, r ≠ d → r ≠ 15 → s'.R r = s.R r
  carry : (flags s'.F).c = (addFlags (s.R a) (s.R b) (flags s.F).c).c

structure SubStep (s s' : St) (d a b : Rn) : Prop where
  dst : s'.R d = s.R a - s.R b - (if (flags s.F).c then 0 else 1)
  others : ∀ r, r ≠ d → r ≠ 15 → s'.R r = s.R r
  carry : (flags s'.F).c = (subFlags (s.R a) (s.R b) (flags s.F).c).c

inductive Chain (step : St → St → Rn → Rn → Rn → Prop) : List (Rn × Rn × Rn) → St → St → Prop
  | nil (s : St) : Chain step [] s s
  | cons {s s1 s' : St} {d a b : Rn} {l : List (Rn × Rn × Rn)} : step s s1 d a b → Chain step l s1 s' → Chain step ((d, a, b) :: l) s s'

theorem chain_others {step : St → St → Rn → Rn → Rn → Prop} (hs : ∀ s s' d a b, step s s' d a b → ∀ r, r ≠ d → r ≠ 15 → s'.R r = s.R r)
    {l : List (Rn × Rn × Rn)} {s s' : St} (h : Chain step l s s') (r : Rn) (hr : r ≠ 15) (hl : ∀ e ∈ l, e.1 ≠ r) : s'.R r = s.R r := by
  induction h with
  | nil s => rfl
  | @cons s s1 s' d a b l h1 h2 ih =>
    rw [ih (fun e he => hl e (List.mem_cons_of_mem _ he))]
    exact hs _ _ _ _ _ h1 r (fun e => hl (d, a, b) (List.mem_cons_self) e.symm) hr

theorem number_congr {R R' : Rn → Wd} {l : List Rn} (h : ∀ r ∈ l, R r = R' r) : number R l = number R' l := by
  induction l with
  | nil => rfl
  | cons r l ih =>
    unfold number
    rw [h r (List.mem_cons_self), ih (fun x hx => h x (List.mem_cons_of_mem _ hx))]

theorem toNat_add_c (a b : Wd) (c : Bool) : (a + b + (if c then 1 else 0)).toNat + 2 ^ 32 * (addFlags a b c).c.toNat = a.toNat + b.toNat + c.toNat := by
  have ha := lt_wd a
  have hb := lt_wd b
  have e : (addFlags a b c).c = decide (2 ^ 32 ≤ a.toNat + b.toNat + c.toNat) := rfl
  rw [e]
  have e1 : (a + b + (if c then 1 else 0)).toNat = (a.toNat + b.toNat + c.toNat) % 2 ^ 32 := by
    cases c <;> simp [BitVec.toNat_add]
  rw [e1]
  have hc := Bool.toNat_le c
  by_cases h : 2 ^ 32 ≤ a.toNat + b.toNat + c.toNat
  · rw [decide_eq_true h, Bool.toNat_true]; omega
  · rw [decide_eq_false h, Bool.toNat_false]; omega

theorem toNat_sub_c (a b : Wd) (c : Bool) : (a - b - (if c then 0 else 1)).toNat + b.toNat + (!c).toNat = a.toNat + 2 ^ 32 * (!(subFlags a b c).c).toNat := by
  have ha := lt_wd a
  have hb := lt_wd b
  have e : (subFlags a b c).c = decide (b.toNat + (!c).toNat ≤ a.toNat) := rfl
  rw [e]
  have e0 : (a - b).toNat = (2 ^ 32 - b.toNat + a.toNat) % 2 ^ 32 := BitVec.toNat_sub a b
  have e1 : (a - b - (if c then 0 else 1)).toNat = (2 ^ 32 - (!c).toNat + (a - b).toNat) % 2 ^ 32 := by
    rw [BitVec.toNat_sub]
    cases c <;> rfl
  rw [e1, e0]
  have hc := Bool.toNat_le (!c)
  by_cases h : b.toNat + (!c).toNat ≤ a.toNat
  · rw [decide_eq_true h]; show _ = a.toNat + 2 ^ 32 * 0; omega
  · rw [decide_eq_false h]; show _ = a.toNat + 2 ^ 32 * 1; omega

theorem clean_ne15 {l : List (Rn × Rn × Rn)} (h : Clean l) : ∀ e ∈ l, e.2.1 ≠ 15 ∧ e.2.2 ≠ 15 := by
  induction l with
  | nil => intro e he; cases he
  | cons x l ih =>
    obtain ⟨x1, x2, x3⟩ := x
    obtain ⟨q1, q2, q3, q4, q5⟩ := h
    intro e he
    rcases List.mem_cons.1 he with h | h
    · subst h; exact ⟨q2, q3⟩
    · exact ih q5 e h

theorem chain_add {l : List (Rn × Rn × Rn)} {s s' : St} (h : Chain AddStep l s s') (hcl : Clean l) :
    number s'.R (l.map (·.1)) + 2 ^ (32 * l.length) * (flags s'.F).c.toNat =
      number s.R (l.map (·.2.1)) + number s.R (l.map (·.2.2)) + (flags s.F).c.toNat := by
  induction h with
  | nil s => simp [number]
  | @cons s s1 s' d a b l h1 h2 ih =>
    obtain ⟨hd, ha, hb, hl, hcl'⟩ := hcl
    have ih := ih hcl'
    have hdv : s'.R d = s1.R d := chain_others (fun _ _ _ _ _ h => h.others) h2 d hd (fun e he => (hl e he).1)
    have hna : number s1.R (l.map (·.2.1)) = number s.R (l.map (·.2.1)) := by
      apply number_congr
      intro r hr
      obtain ⟨e, he, rfl⟩ := List.mem_map.1 hr
      exact h1.others _ (hl e he).2.1 (clean_ne15 hcl' e he).1
    have hnb : number s1.R (l.map (·.2.2)) = number s.R (l.map (·.2.2)) := by
      apply number_congr
      intro r hr
      obtain ⟨e, he, rfl⟩ := List.mem_map.1 hr
      exact h1.others _ (hl e he).2.2 (clean_ne15 hcl' e he).2
    rw [hna, hnb] at ih
    have hst := toNat_add_c (s.R a) (s.R b) (flags s.F).c
    rw [← h1.carry, ← h1.dst, ← hdv] at hst
    simp only [List.map_cons, number, List.length_cons]
    have hp : 2 ^ (32 * (l.length + 1)) = 2 ^ 32 * 2 ^ (32 * l.length) := by rw [← Nat.pow_add]; congr 1; omega
    rw [hp, Nat.mul_assoc]
    generalize 2 ^ (32 * l.length) * (flags s'.F).c.toNat = k at ih ⊢
    omega

theorem chain_sub {l : List (Rn × Rn × Rn)} {s s' : St} (h : Chain SubStep l s s') (hcl : Clean l) :
    number s'.R (l.map (·.1)) + number s.R (l.map (·.2.2)) + (!(flags s.F).c).toNat =
      number s.R (l.map (·.2.1)) + 2 ^ (32 * l.length) * (!(flags s'.F).c).toNat := by
  induction h with
  | nil s => simp [number]
  | @cons s s1 s' d a b l h1 h2 ih =>
    obtain ⟨hd, ha, hb, hl, hcl'⟩ := hcl
    have ih := ih hcl'
    have hdv : s'.R d = s1.R d := chain_others (fun _ _ _ _ _ h => h.others) h2 d hd (fun e he => (hl e he).1)
    have hne15 := clean_ne15 hcl'
    have hna : number s1.R (l.map (·.2.1)) = number s.R (l.map (·.2.1)) := by
      apply number_congr
      intro r hr
      obtain ⟨e, he, rfl⟩ := List.mem_map.1 hr
      exact h1.others _ (hl e he).2.1 (hne15 e he).1
    have hnb : number s1.R (l.map (·.2.2)) = number s.R (l.map (·.2.2)) := by
      apply number_congr
      intro r hr
      obtain ⟨e, he, rfl⟩ := List.mem_map.1 hr
      exact h1.others _ (hl e he).2.2 (hne15 e he).2
    rw [hna, hnb] at ih
    have hst := toNat_sub_c (s.R a) (s.R b) (flags s.F).c
    rw [← h1.carry, ← h1.dst, ← hdv] at hst
    simp only [List.map_cons, number, List.length_cons]
    have hp : 2 ^ (32 * (l.length + 1)) = 2 ^ 32 * 2 ^ (32 * l.length) := by rw [← Nat.pow_add]; congr 1; omega
    rw [hp, Nat.mul_assoc]
    generalize 2 ^ (32 * l.length) * (!(flags s'.F).c).toNat = k at ih ⊢
    omega

end Ucsim.P15
