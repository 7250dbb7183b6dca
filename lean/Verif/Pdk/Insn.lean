import Verif.Pdk.Step
/-
The instructions of the PDK processors: arithmetic, logic, shifts, moves, stack, skips, cycles.
-/
namespace Ucsim.Pdk

/-! ### Decoding -/

/-- no word can hit both rows -/
def Row.apart (a b : Row) : Bool := (a.op &&& ~~~b.m) != (b.op &&& ~~~a.m)

theorem not_both {a b : Row} {code : Word} (h : a.apart b = true) (ha : a.hit code = true) :
    b.hit code = false := by
  cases hb : b.hit code with
  | false => rfl
  | true =>
    exfalso
    simp only [Row.hit, beq_iff_eq] at ha hb
    simp only [Row.apart, bne_iff_ne] at h
    apply h
    rw [← ha, ← hb, BitVec.and_assoc, BitVec.and_assoc, BitVec.and_comm (~~~a.m)]

theorem pick_of_mem {rows : List Row} (hp : rows.Pairwise (fun a b => a.apart b = true)) {r : Row}
    (hr : r ∈ rows) {code : Word} (hh : r.hit code = true) : pick rows code = some r.form := by
  induction rows with
  | nil => cases hr
  | cons a as ih =>
    rw [List.pairwise_cons] at hp
    rcases List.mem_cons.1 hr with h | h
    · subst h; simp [pick, hh]
    · have : a.hit code = false := by
        cases ha : a.hit code with
        | false => rfl
        | true => rw [not_both (hp.1 r h) ha] at hh; cases hh
      simp [pick, this, ih hp.2 h]

theorem chains_apart (v : Var) : (chain v).Pairwise (fun a b => a.apart b = true) := by
  cases v <;> decide +kernel

theorem docs_in_chain (v : Var) : ∀ d ∈ docs v, (⟨d.op, d.opbits, d.form⟩ : Row) ∈ chain v := by
  cases v <;> decide +kernel

/-- the fields of the operands of an instruction -/
def fieldsOf (v : Var) : Form → List Field
  | .retk | .movAK | .alu _ .ak | .ceq _ true => [⟨0xff, 0⟩]
  | .movIA | .movAI | .xorIA => [⟨ioMask v, 0⟩]
  | .ldt16 | .stt16 | .idxmAM | .idxmMA => [⟨wMask v, 0⟩]
  | .bit _ true | .tsn _ true | .swapc => [⟨ioMask v, 0⟩, ⟨nMask v, nShift v⟩]
  | .bit _ false | .tsn _ false => [⟨bMask v, 0⟩, ⟨nMask v, nShift v⟩]
  | .call | .goto => [⟨jMask v, 0⟩]
  | .movMA | .movAM | .xch | .alu _ _ | .alc _ .am | .alc _ .ma | .alc _ .m | .inc | .dec | .clear => [⟨mMask v, 0⟩]
  | .sh _ false | .un _ false | .ceq _ false | .izs _ false | .comp _ | .nadd _ => [⟨mMask v, 0⟩]
  | _ => []

theorem docs_fields (v : Var) : ∀ d ∈ docs v, d.fields = fieldsOf v d.form := by
  cases v <;> decide +kernel

theorem enc_pick {v : Var} {code : Word} {f : Form} {args : List Nat} (h : Enc v code f args) :
    pick (chain v) code = some f ∧ args = (fieldsOf v f).map (·.of code) := by
  obtain ⟨d, hd, rfl, hc, ha⟩ := h
  refine ⟨pick_of_mem (chains_apart v) (docs_in_chain v d hd) (by simp [Row.hit, hc]), ?_⟩
  rw [ha, docs_fields v d hd]

/-- the address of the next instruction -/
def nextPC (pc : Nat) : Nat := (pc + 1) % 4096

theorem step_enc {v : Var} {id : Nat} {c : Cpu} {s : Sh} {f : Form} {args : List Nat}
    (h : Enc v (s.rom c.PC) f args) :
    step v id c s =
      ⟨(run v id f (s.rom c.PC) { c with PC := nextPC c.PC } s).1,
       (run v id f (s.rom c.PC) { c with PC := nextPC c.PC } s).2.1,
       1 + (run v id f (s.rom c.PC) { c with PC := nextPC c.PC } s).2.2, true⟩ := by
  simp only [step, (enc_pick h).1, nextPC]

/-- every word that is no instruction of the data sheet is refused -/
theorem chain_in_docs (v : Var) : ∀ r ∈ chain v, ∃ d ∈ docs v, r.op = d.op ∧ r.m = d.opbits ∧ r.form = d.form := by
  cases v <;> decide +kernel

theorem pick_mem {rows : List Row} {code : Word} {f : Form} (h : pick rows code = some f) :
    ∃ r ∈ rows, r.hit code = true ∧ r.form = f := by
  induction rows with
  | nil => cases h
  | cons a as ih =>
    simp only [pick] at h
    split at h
    · rename_i ha; exact ⟨a, List.mem_cons_self, ha, Option.some.inj h⟩
    · obtain ⟨r, hr, h1⟩ := ih h; exact ⟨r, List.mem_cons_of_mem _ hr, h1⟩

theorem pick_enc {v : Var} {code : Word} {f : Form} (h : pick (chain v) code = some f) :
    ∃ args, Enc v code f args := by
  obtain ⟨r, hr, hh, hf⟩ := pick_mem h
  obtain ⟨d, hd, h1, h2, h3⟩ := chain_in_docs v r hr
  refine ⟨_, d, hd, by rw [← h3, hf], ?_, rfl⟩
  simp only [Row.hit, beq_iff_eq] at hh
  rw [← h2, hh, h1]

/-! ### Arithmetic -/

theorem compose_flags (z c ac hi : Bool) :
    (if (!hi && c) = true then
        (if (hi && !c) = true then (if ac = true then (if c = true then (if z = true then (1 : Byte) else 0) ||| 2 else (if z = true then (1 : Byte) else 0)) ||| 4
          else (if c = true then (if z = true then (1 : Byte) else 0) ||| 2 else (if z = true then (1 : Byte) else 0))) ||| 8
         else (if ac = true then (if c = true then (if z = true then (1 : Byte) else 0) ||| 2 else (if z = true then (1 : Byte) else 0)) ||| 4
          else (if c = true then (if z = true then (1 : Byte) else 0) ||| 2 else (if z = true then (1 : Byte) else 0)))) ||| 8
      else
        (if (hi && !c) = true then (if ac = true then (if c = true then (if z = true then (1 : Byte) else 0) ||| 2 else (if z = true then (1 : Byte) else 0)) ||| 4
          else (if c = true then (if z = true then (1 : Byte) else 0) ||| 2 else (if z = true then (1 : Byte) else 0))) ||| 8
         else (if ac = true then (if c = true then (if z = true then (1 : Byte) else 0) ||| 2 else (if z = true then (1 : Byte) else 0)) ||| 4
          else (if c = true then (if z = true then (1 : Byte) else 0) ||| 2 else (if z = true then (1 : Byte) else 0))))) =
    flags z c ac (hi ^^ c) := by
  cases z <;> cases c <;> cases ac <;> cases hi <;> rfl

theorem compose_flags' (z c ac ov : Bool) :
    (if ov = true then
        (if ac = true then (if c = true then (if z = true then (1 : Byte) else 0) ||| 2 else (if z = true then (1 : Byte) else 0)) ||| 4
          else (if c = true then (if z = true then (1 : Byte) else 0) ||| 2 else (if z = true then (1 : Byte) else 0))) ||| 8
      else
        (if ac = true then (if c = true then (if z = true then (1 : Byte) else 0) ||| 2 else (if z = true then (1 : Byte) else 0)) ||| 4
          else (if c = true then (if z = true then (1 : Byte) else 0) ||| 2 else (if z = true then (1 : Byte) else 0)))) =
    flags z c ac ov := by
  cases z <;> cases c <;> cases ac <;> cases ov <;> rfl

theorem toInt_byte (x : Byte) : x.toInt = if x.toNat < 128 then (x.toNat : Int) else x.toNat - 256 := by
  rw [BitVec.toInt_eq_toNat_cond]
  have := x.isLt
  split <;> split <;> omega

theorem ofInt_add (x y : Byte) (c : Nat) : BitVec.ofInt 8 ((x.toNat : Int) + y.toNat + c) = addVal x y c := by
  apply BitVec.eq_of_toNat_eq
  have := x.isLt; have := y.isLt
  simp [addVal, BitVec.toNat_ofInt, BitVec.toNat_add]
  omega

theorem ofInt_sub (x y : Byte) (c : Nat) (hc : c ≤ 1) : BitVec.ofInt 8 ((x.toNat : Int) - y.toNat - c) = subVal x y c := by
  apply BitVec.eq_of_toNat_eq
  have := x.isLt; have := y.isLt
  simp [subVal, BitVec.toNat_ofInt, BitVec.toNat_sub]
  omega

theorem xor_iff (p q : Prop) [Decidable p] [Decidable q] : ((decide p ^^ decide q) = true) ↔ ¬(p ↔ q) := by
  by_cases hp : p <;> by_cases hq : q <;> simp [hp, hq]

theorem addTo_eq (x y : Byte) (c : Nat) (hc : c ≤ 1) :
    addTo x y.toNat c = (addVal x y c, addFlags x y c) := by
  have hx := x.isLt; have hy := y.isLt
  unfold addTo
  refine Prod.ext (ofInt_add x y c) ?_
  have hz : decide (((x.toNat : Int) + y.toNat + c) % 256 = 0) = decide ((x.toNat + y.toNat + c) % 256 = 0) :=
    decide_eq_decide.2 (by omega)
  have hac : decide (((x.toNat : Int) % 16 + (y.toNat : Int) % 16 + c) > 0xf) = decide (15 < x.toNat % 16 + y.toNat % 16 + c) :=
    decide_eq_decide.2 (by omega)
  have hC : decide (((x.toNat : Int) + y.toNat + c) > 0xff) = decide (255 < x.toNat + y.toNat + c) :=
    decide_eq_decide.2 (by omega)
  have hov : (decide (128 ≤ ((x.toNat : Int) % 128 + (y.toNat : Int) % 128 + c) % 256) ^^ decide (255 < x.toNat + y.toNat + c)) =
      outOfSigned (x.toInt + y.toInt + c) := by
    rw [toInt_byte, toInt_byte, outOfSigned]
    rw [Bool.eq_iff_iff]
    simp only [xor_iff, Bool.or_eq_true, decide_eq_true_eq]
    split <;> split <;> omega
  have := compose_flags (decide (((x.toNat : Int) + y.toNat + c) % 256 = 0)) (decide (((x.toNat : Int) + y.toNat + c) > 0xff))
    (decide (((x.toNat : Int) % 16 + (y.toNat : Int) % 16 + c) > 0xf)) (decide (128 ≤ ((x.toNat : Int) % 128 + (y.toNat : Int) % 128 + c) % 256))
  simp only [decide_eq_true_eq] at this ⊢
  rw [this, hz, hac, hC, hov]
  rfl

theorem subTo_eq (x y : Byte) (c : Nat) (hc : c ≤ 1) :
    subTo x y.toNat c = (subVal x y c, subFlags x y c) := by
  have hx := x.isLt; have hy := y.isLt
  unfold subTo
  refine Prod.ext (ofInt_sub x y c hc) ?_
  have hz : decide (((x.toNat : Int) - y.toNat - c) % 256 = 0) = decide ((x.toNat : Int) - y.toNat - c = 0 ∨ (x.toNat : Int) - y.toNat - c = -256) :=
    decide_eq_decide.2 (by omega)
  have hac : decide ((y.toNat : Int) % 16 > (x.toNat : Int) % 16 - c) = decide (x.toNat % 16 < y.toNat % 16 + c) :=
    decide_eq_decide.2 (by omega)
  have hC : decide ((x.toNat : Int) < (y.toNat : Int) + c) = decide (x.toNat < y.toNat + c) :=
    decide_eq_decide.2 (by omega)
  have hov : (decide (x.toNat < y.toNat + c) ^^ decide ((x.toNat : Int) % 128 - (y.toNat : Int) % 128 - c < 0)) =
      outOfSigned (x.toInt - y.toInt - c) := by
    rw [toInt_byte, toInt_byte, outOfSigned]
    rw [Bool.eq_iff_iff]
    simp only [xor_iff, Bool.or_eq_true, decide_eq_true_eq]
    split <;> split <;> omega
  have := compose_flags' (decide (((x.toNat : Int) - y.toNat - c) % 256 = 0)) (decide ((x.toNat : Int) < (y.toNat : Int) + c))
    (decide ((y.toNat : Int) % 16 > (x.toNat : Int) % 16 - c)) (decide ((x.toNat : Int) < (y.toNat : Int) + c) ^^ decide ((x.toNat : Int) % 128 - (y.toNat : Int) % 128 - c < 0))
  simp only [decide_eq_true_eq] at this ⊢
  rw [this, hz, hac, hC, hov]
  rfl

theorem addTo0 (x y : Byte) : addTo x y.toNat 0 = (addVal x y 0, addFlags x y 0) := addTo_eq x y 0 (by omega)
theorem subTo0 (x y : Byte) : subTo x y.toNat 0 = (subVal x y 0, subFlags x y 0) := subTo_eq x y 0 (by omega)

theorem fC_eq (F : Byte) : fC F = cy F := by revert F; decide +kernel
theorem addToC (x y F : Byte) : addTo x y.toNat (cy F) = (addVal x y (cy F), addFlags x y (cy F)) :=
  addTo_eq x y _ (by unfold cy; split <;> omega)
theorem subToC (x y F : Byte) : subTo x y.toNat (cy F) = (subVal x y (cy F), subFlags x y (cy F)) :=
  subTo_eq x y _ (by unfold cy; split <;> omega)
theorem cy_le (F : Byte) : cy F ≤ 1 := by unfold cy; split <;> omega


theorem cy_flags (z c ac ov : Bool) : cy (flags z c ac ov) = if c then 1 else 0 := by
  cases z <;> cases c <;> cases ac <;> cases ov <;> rfl

/-- memory operand -/
theorem arg1 {v : Var} {code : Word} {f : Form} {a : Nat} {w : Word} (h : Enc v code f [a]) (hf : fieldsOf v f = [⟨w, 0⟩]) :
    (code &&& w).toNat = a := by
  have := (enc_pick h).2
  rw [hf] at this
  simp [Field.of] at this
  exact this.symm

theorem argk {v : Var} {code : Word} {f : Form} {a : Nat} (h : Enc v code f [a]) (hf : fieldsOf v f = [⟨0xff, 0⟩]) :
    code.setWidth 8 = BitVec.ofNat 8 a := by
  rw [← arg1 h hf]
  apply BitVec.eq_of_toNat_eq
  have : code.toNat &&& 255 = code.toNat % 256 := Nat.and_two_pow_sub_one_eq_mod (n := 8) code.toNat
  simp [this]

theorem arg2 {v : Var} {code : Word} {f : Form} {a b : Nat} {w w' : Word} {n : Nat} (h : Enc v code f [a, b]) (hf : fieldsOf v f = [⟨w, 0⟩, ⟨w', n⟩]) :
    (code &&& w).toNat = a ∧ ((code &&& w') >>> n).toNat = b := by
  have := (enc_pick h).2
  rw [hf] at this
  simp [Field.of] at this
  exact ⟨this.1.symm, by rw [this.2]; simp⟩

/-- sum or difference of two bytes and the carry, and the flags -/
def arith (sub : Bool) (x y : Byte) (cin : Nat) : Byte × Byte :=
  if sub then (subVal x y cin, subFlags x y cin) else (addVal x y cin, addFlags x y cin)

def opOf (sub : Bool) : Op := if sub then .sub else .add

section
variable {v : Var} {id : Nat} {c : Cpu} {s : Sh} {m k : Nat}


theorem addVal_comm (x y : Byte) (n : Nat) : addVal x y n = addVal y x n := by
  unfold addVal; rw [BitVec.add_comm x y]

theorem addFlags_comm (x y : Byte) (n : Nat) : addFlags x y n = addFlags y x n := by
  unfold addFlags; rw [Nat.add_comm x.toNat, Nat.add_comm (x.toNat % 16), Int.add_comm x.toInt]

/-- the operand C of `addc a` as in x + 0 + C -/
theorem addTo1 (x F : Byte) : addTo x (cy F) 0 = (addVal x 0 (cy F), addFlags x 0 (cy F)) := by
  have := addTo_eq x 0 (cy F) (cy_le F)
  rw [← this]
  have h := cy_le F
  have h1 : ((cy F : Nat) : Int) % 128 = cy F := by omega
  have h2 : ((cy F : Nat) : Int) % 16 = cy F := by omega
  simp [addTo, h1, h2]

theorem subTo1 (x F : Byte) : subTo x (cy F) 0 = (subVal x 0 (cy F), subFlags x 0 (cy F)) := by
  have := subTo_eq x 0 (cy F) (cy_le F)
  rw [← this]
  have h := cy_le F
  have hx := x.isLt
  have h1 : ((cy F : Nat) : Int) % 128 = cy F := by omega
  have h2 : ((cy F : Nat) : Int) % 16 = cy F := by omega
  have h3 : ((cy F : Int) > (x.toNat : Int) % 16) ↔ (0 > (x.toNat : Int) % 16 - cy F) := by omega
  simp [subTo, h1, h2, h3]

theorem addOne (x : Byte) : addTo x 1 0 = (addVal x 1 0, addFlags x 1 0) := addTo0 x 1
theorem subOne (x : Byte) : subTo x 1 0 = (subVal x 1 0, subFlags x 1 0) := subTo0 x 1

/-- C138: add a,k and sub a,k -/
theorem c138_ak_partial (sub : Bool) (h : Enc v (s.rom c.PC) (.alu (opOf sub) .ak) [k]) :
    step v id c s =
      ⟨{ c with A := (arith sub c.A (BitVec.ofNat 8 k) 0).1, F := (arith sub c.A (BitVec.ofNat 8 k) 0).2, PC := nextPC c.PC },
        s, 1, true⟩ := by
  have hk := argk h (by cases sub <;> rfl)
  rw [step_enc h]
  cases sub <;> simp only [run, runAlu, hk, opOf, arith, addTo0, subTo0] <;> rfl

/-- C138: add a,m and sub a,m -/
theorem c138_am_partial (sub : Bool) (h : Enc v (s.rom c.PC) (.alu (opOf sub) .am) [m]) :
    step v id c s =
      ⟨{ c with A := (arith sub c.A (s.ram m) 0).1, F := (arith sub c.A (s.ram m) 0).2, PC := nextPC c.PC }, s, 1, true⟩ := by
  have hk := arg1 (w := mMask v) h (by cases sub <;> rfl)
  rw [step_enc h]
  cases sub <;> simp only [run, runAlu, hk, opOf, arith, addTo0, subTo0] <;> rfl

/-- C138: add m,a and sub m,a -/
theorem c138_ma_partial (sub : Bool) (h : Enc v (s.rom c.PC) (.alu (opOf sub) .ma) [m]) :
    step v id c s =
      ⟨{ c with F := (arith sub (s.ram m) c.A 0).2, PC := nextPC c.PC },
        { s with ram := upd s.ram m (arith sub (s.ram m) c.A 0).1 }, 1, true⟩ := by
  have hk := arg1 (w := mMask v) h (by cases sub <;> rfl)
  rw [step_enc h]
  cases sub <;> simp only [run, runAlu, hk, opOf, arith, addTo0, subTo0, addVal_comm c.A, addFlags_comm c.A] <;> rfl

/-- C138: addc a,m and subc a,m -/
theorem c138_c_am_partial (sub : Bool) (h : Enc v (s.rom c.PC) (.alc sub .am) [m]) :
    step v id c s =
      ⟨{ c with A := (arith sub c.A (s.ram m) (cy c.F)).1, F := (arith sub c.A (s.ram m) (cy c.F)).2, PC := nextPC c.PC },
        s, 1, true⟩ := by
  have hk := arg1 (w := mMask v) h (by cases sub <;> rfl)
  rw [step_enc h]
  cases sub <;> simp only [run, runAlc, hk, arith, fC_eq, addToC, subToC] <;> rfl

/-- C138: addc m,a and subc m,a -/
theorem c138_c_ma_partial (sub : Bool) (h : Enc v (s.rom c.PC) (.alc sub .ma) [m]) :
    step v id c s =
      ⟨{ c with F := (arith sub (s.ram m) c.A (cy c.F)).2, PC := nextPC c.PC },
        { s with ram := upd s.ram m (arith sub (s.ram m) c.A (cy c.F)).1 }, 1, true⟩ := by
  have hk := arg1 (w := mMask v) h (by cases sub <;> rfl)
  rw [step_enc h]
  cases sub <;> simp only [run, runAlc, hk, arith, fC_eq, addToC, subToC, addVal_comm c.A, addFlags_comm c.A] <;> rfl

/-- C138: addc a and subc a add and subtract the carry alone -/
theorem c138_c_a_partial (sub : Bool) (h : Enc v (s.rom c.PC) (.alc sub .a) []) :
    step v id c s =
      ⟨{ c with A := (arith sub c.A 0 (cy c.F)).1, F := (arith sub c.A 0 (cy c.F)).2, PC := nextPC c.PC }, s, 1, true⟩ := by
  rw [step_enc h]
  cases sub <;> simp only [run, runAlc, arith, fC_eq, addTo1, subTo1] <;> rfl

/-- C138: addc m and subc m -/
theorem c138_c_m_partial (sub : Bool) (h : Enc v (s.rom c.PC) (.alc sub .m) [m]) :
    step v id c s =
      ⟨{ c with F := (arith sub (s.ram m) 0 (cy c.F)).2, PC := nextPC c.PC },
        { s with ram := upd s.ram m (arith sub (s.ram m) 0 (cy c.F)).1 }, 1, true⟩ := by
  have hk := arg1 (w := mMask v) h (by cases sub <;> rfl)
  rw [step_enc h]
  cases sub <;> simp only [run, runAlc, hk, arith, fC_eq, addTo1, subTo1] <;> rfl

/-- C138: inc m and dec m -/
theorem c138_inc_partial (sub : Bool) (h : Enc v (s.rom c.PC) (if sub then .dec else .inc) [m]) :
    step v id c s =
      ⟨{ c with F := (arith sub (s.ram m) 1 0).2, PC := nextPC c.PC },
        { s with ram := upd s.ram m (arith sub (s.ram m) 1 0).1 }, 1, true⟩ := by
  have hk := arg1 (w := mMask v) h (by cases sub <;> rfl)
  rw [step_enc h]
  cases sub <;> simp only [run, hk, arith, addOne, subOne] <;> rfl

/-- C138: comp a,m and comp m,a change nothing but the flags -/
theorem c138_comp_partial (mem : Bool) (h : Enc v (s.rom c.PC) (.comp mem) [m]) :
    step v id c s =
      ⟨{ c with F := (if mem then subFlags (s.ram m) c.A 0 else subFlags c.A (s.ram m) 0), PC := nextPC c.PC }, s, 1, true⟩ := by
  have hk := arg1 (w := mMask v) h (by cases mem <;> rfl)
  rw [step_enc h]
  cases mem <;> simp only [run, hk, subTo0] <;> rfl

/-- C138: the value of nadd a,m is m - A, of nadd m,a it is A - m. What is missing: its flags. -/
theorem c138_nadd_value_partial (mem : Bool) (h : Enc v (s.rom c.PC) (.nadd mem) [m]) :
    ((step v id c s).cpu.A = if mem then c.A else subVal (s.ram m) c.A 0) ∧
    (step v id c s).sh = (if mem then { s with ram := upd s.ram m (subVal c.A (s.ram m) 0) } else s) ∧
    (step v id c s).cpu.SP = c.SP ∧ (step v id c s).cpu.PC = nextPC c.PC ∧ (step v id c s).ok = true := by
  have hk := arg1 (w := mMask v) h (by cases mem <;> rfl)
  rw [step_enc h]
  have h1 : (addTo (s.ram m) (-(c.A.toNat : Int)) 0).1 = subVal (s.ram m) c.A 0 := by
    have := ofInt_sub (s.ram m) c.A 0 (by omega)
    rw [← this]; simp [addTo, Int.sub_eq_add_neg]
  have h2 : (addTo (-(s.ram m)) c.A.toNat 0).1 = subVal c.A (s.ram m) 0 := by
    rw [addTo0]; simp [addVal, subVal]; rw [BitVec.add_comm, BitVec.sub_eq_add_neg]
  cases mem <;> simp [run, hk, h1, h2, wr8]

/-- C138 is false of nadd: nadd a,m never sets C, also where nadd m,a on the same two numbers does -/
theorem c138_false_nadd (h : Enc v (s.rom c.PC) (.nadd false) [m]) : cy (step v id c s).cpu.F = 0 := by
  have hk := arg1 (w := mMask v) h rfl
  rw [step_enc h]
  simp only [run, hk]
  have ha := c.A.isLt; have hm := (s.ram m).isLt
  have hC : ¬ (((s.ram m).toNat : Int) + (-(c.A.toNat : Int)) + (0 : Nat) > 0xff) := by omega
  have := compose_flags (decide ((((s.ram m).toNat : Int) + (-(c.A.toNat : Int)) + (0 : Nat)) % 256 = 0)) (decide ((((s.ram m).toNat : Int) + (-(c.A.toNat : Int)) + (0 : Nat)) > 0xff))
    (decide ((((s.ram m).toNat : Int) % 16 + (-(c.A.toNat : Int)) % 16 + (0 : Nat)) > 0xf)) (decide (128 ≤ (((s.ram m).toNat : Int) % 128 + (-(c.A.toNat : Int)) % 128 + (0 : Nat)) % 256))
  simp only [decide_eq_true_eq] at this
  simp only [addTo, decide_eq_true_eq]
  rw [this, decide_eq_false hC]
  exact cy_flags _ _ _ _

end

instance (v : Var) (code : Word) (f : Form) (args : List Nat) : Decidable (Enc v code f args) :=
  inferInstanceAs (Decidable (∃ d ∈ docs v, d.form = f ∧ code &&& ~~~d.opbits = d.op ∧ args = d.fields.map (·.of code)))

/-- a memory with the instruction `w` everywhere, and `x` in every cell of ram -/
def exSh (w : Word) (x : Byte) : Sh :=
  { ram := fun _ => x, sfr := fun _ => 0, rom := fun _ => w, fppen := 1, n := 1, mulrh := 0, t16 := 0, wdt := 0, mode := .run }

def exCpu (a f sp : Byte) : Cpu := { A := a, F := f, SP := sp, PC := 7 }

theorem c138_false_nadd_differs :
    Enc .p15 0x0e10 (.nadd false) [0x10] ∧ Enc .p15 0x0f10 (.nadd true) [0x10] ∧
    cy (step .p15 0 (exCpu 3 0 0) (exSh 0x0e10 5)).cpu.F = 0 ∧
    cy (step .p15 0 (exCpu 5 0 0) (exSh 0x0f10 3)).cpu.F = 1 := by decide +kernel

-- the hypotheses are met by add a,#0x34, sub a,m, addc m,a, subc a, inc m, comp m,a of the three families
example : Enc .p14 0x2834 (.alu .add .ak) [0x34] ∧ Enc .p13 0x0645 (.alu .sub .am) [5] ∧
    Enc .p15 0x12f0 (.alc false .ma) [0xf0] ∧ Enc .p14 0x0061 (.alc true .a) [] ∧
    Enc .p14 0x1205 .inc [5] ∧ Enc .p14 0x0685 (.comp true) [5] := by decide +kernel
example : (step .p14 0 (exCpu 0xf0 0 0) (exSh 0x2834 5)).cpu.A = 0x24 ∧
    (step .p14 0 (exCpu 0xf0 0 0) (exSh 0x2834 5)).cpu.F = 2 ∧
    (step .p14 0 (exCpu 0x7f 0 0) (exSh 0x2801 5)).cpu.F = 12 := by decide +kernel

end Ucsim.Pdk
