import Verif.Pb.Step
set_option linter.constructorNameAsVariable false
/-
Every instruction of the guides is found in the table of its processor.
-/
namespace Ucsim.Pb

def disj (t : List Ent) : Bool := t.all fun a => t.all fun b => a == b || a.code &&& b.mask != b.code &&& a.mask

theorem disj3 : disj t3 = true := by decide +kernel
theorem disj6 : disj t6 = true := by decide +kernel

theorem find_of (t : List Ent) (hd : disj t = true) (w : BitVec 18) (op : Op) (opr : Opr) (code mask : BitVec 18)
    (hm : (t.any fun e => e.op == op && e.opr == opr && e.code == code && e.mask == mask) = true)
    (hw : w &&& mask = code) : ∃ e, find t w = some e ∧ e.op = op ∧ e.opr = opr := by
  obtain ⟨e, he, h⟩ := List.any_eq_true.mp hm
  simp at h
  obtain ⟨⟨⟨h1, h2⟩, h3⟩, h4⟩ := h
  refine ⟨e, ?_, h1, h2⟩
  unfold find
  cases hf : t.find? fun e => w &&& e.mask == e.code with
  | none =>
    have := List.find?_eq_none.mp hf e he
    simp [h3, h4, hw] at this
  | some f =>
    have hf1 := List.find?_some hf
    have hf2 := List.mem_of_find?_eq_some hf
    simp at hf1
    have := (List.all_eq_true.mp (List.all_eq_true.mp hd e he)) f hf2
    simp at this
    rcases this with h | h
    · rw [h]
    · exfalso
      apply h
      rw [h3, ← hw, h4, ← hf1]
      rw [BitVec.and_assoc, BitVec.and_assoc, BitVec.and_comm mask]

theorem and63 (o : BitVec 6) : o &&& 63#6 = o := BitVec.and_allOnes
theorem and3 (o : BitVec 2) : o &&& 3#2 = o := BitVec.and_allOnes
theorem and255 (o : BitVec 8) : o &&& 255#8 = o := BitVec.and_allOnes

theorem and_k (o : BitVec 6) (r : BitVec 12) : (o ++ r) &&& 0x3f000#18 = o ++ 0#12 := by
  have : 0x3f000#18 = BitVec.allOnes 6 ++ 0#12 := by decide
  rw [this, BitVec.and_append]; simp [and63, and3, and255]

theorem and_r (o : BitVec 6) (x y : Reg) : (o ++ (x ++ (y ++ 0#4))) &&& 0x3f00f#18 = o ++ 0#12 := by
  have : 0x3f00f#18 = BitVec.allOnes 6 ++ ((0#4 : BitVec 4) ++ ((0#4 : BitVec 4) ++ BitVec.allOnes 4)) := by decide
  rw [this, BitVec.and_append, BitVec.and_append, BitVec.and_append]; simp [and63, and3, and255]

theorem and_a (o : BitVec 6) (c : BitVec 2) (a : BitVec 10) : (o ++ (c ++ a)) &&& 0x3fc00#18 = o ++ (c ++ 0#10) := by
  have : 0x3fc00#18 = BitVec.allOnes 6 ++ (BitVec.allOnes 2 ++ 0#10) := by decide
  rw [this, BitVec.and_append, BitVec.and_append]; simp [and63, and3, and255]

theorem and_s (o : BitVec 6) (x : Reg) (v : Byte) : (o ++ (x ++ v)) &&& 0x3f0ff#18 = o ++ (0#4 ++ v) := by
  have : 0x3f0ff#18 = BitVec.allOnes 6 ++ (0#4 ++ BitVec.allOnes 8) := by decide
  rw [this, BitVec.and_append, BitVec.and_append]; simp [and63, and3, and255]

theorem and_m (o : BitVec 6) (x : Reg) (v : Byte) (hv : v.toNat < 64) : (o ++ (x ++ v)) &&& 0x3f0c0#18 = o ++ 0#12 := by
  have : 0x3f0c0#18 = BitVec.allOnes 6 ++ (0#4 ++ 0xc0#8) := by decide
  rw [this, BitVec.and_append, BitVec.and_append]
  have : v &&& 0xc0#8 = 0#8 := by
    have := (by decide +kernel : ∀ v : BitVec 8, v.toNat < 64 → v &&& 0xc0#8 = 0#8)
    exact this v hv
  rw [this]; simp [and63]

theorem and_f (w : BitVec 18) : w &&& 0x3ffff#18 = w := by
  have : 0x3ffff#18 = BitVec.allOnes 18 := by decide
  rw [this, BitVec.and_allOnes]

section
variable {t : List Ent} {op : Op} {opr : Opr}

theorem findK (hd : disj t = true) (o : BitVec 6) (r : BitVec 12)
    (hm : (t.any fun e => e.op == op && e.opr == opr && e.code == (o ++ 0#12) && e.mask == 0x3f000#18) = true) :
    ∃ e, find t (o ++ r) = some e ∧ e.op = op ∧ e.opr = opr := find_of t hd _ op opr _ _ hm (and_k o r)
theorem findR (hd : disj t = true) (o : BitVec 6) (x y : Reg)
    (hm : (t.any fun e => e.op == op && e.opr == opr && e.code == (o ++ 0#12) && e.mask == 0x3f00f#18) = true) :
    ∃ e, find t (o ++ (x ++ (y ++ 0#4))) = some e ∧ e.op = op ∧ e.opr = opr := find_of t hd _ op opr _ _ hm (and_r o x y)
theorem findA (hd : disj t = true) (o : BitVec 6) (c : BitVec 2) (a : BitVec 10)
    (hm : (t.any fun e => e.op == op && e.opr == opr && e.code == (o ++ (c ++ 0#10)) && e.mask == 0x3fc00#18) = true) :
    ∃ e, find t (o ++ (c ++ a)) = some e ∧ e.op = op ∧ e.opr = opr := find_of t hd _ op opr _ _ hm (and_a o c a)
theorem findS (hd : disj t = true) (o : BitVec 6) (x : Reg) (v : Byte)
    (hm : (t.any fun e => e.op == op && e.opr == opr && e.code == (o ++ (0#4 ++ v)) && e.mask == 0x3f0ff#18) = true) :
    ∃ e, find t (o ++ (x ++ v)) = some e ∧ e.op = op ∧ e.opr = opr := find_of t hd _ op opr _ _ hm (and_s o x v)
theorem findM (hd : disj t = true) (o : BitVec 6) (x : Reg) (v : Byte) (hv : v.toNat < 64)
    (hm : (t.any fun e => e.op == op && e.opr == opr && e.code == (o ++ 0#12) && e.mask == 0x3f0c0#18) = true) :
    ∃ e, find t (o ++ (x ++ v)) = some e ∧ e.op = op ∧ e.opr = opr := find_of t hd _ op opr _ _ hm (and_m o x v hv)
theorem findF (hd : disj t = true) (w : BitVec 18)
    (hm : (t.any fun e => e.op == op && e.opr == opr && e.code == w && e.mask == 0x3ffff#18) = true) :
    ∃ e, find t w = some e ∧ e.op = op ∧ e.opr = opr := find_of t hd _ op opr _ _ hm (and_f w)
end

/-- the kind of the second operand in the tables -/
def oprOf (kk : Opr) : Opd → Opr
  | .k _ => kk
  | .r _ => .REG_REG

def aluOp : Alu → Op
  | .load => .LOAD | .and => .AND | .or => .OR | .xor => .XOR | .add => .ADD | .addcy => .ADDCY | .sub => .SUB | .subcy => .SUBCY
def tstOp : Tst → Op
  | .test => .TEST | .compare => .COMPARE | .testcy => .TESTCY | .comparecy => .COMPARECY
def shfOp : Shf → Op
  | .sl0 => .SL0 | .sl1 => .SL1 | .slx => .SLX | .sla => .SLA | .rl => .RL | .sr0 => .SR0 | .sr1 => .SR1 | .srx => .SRX | .sra => .SRA | .rr => .RR
def jmpOp : Cnd → Op
  | .always => .JUMP | .z => .JUMP_Z | .nz => .JUMP_NZ | .c => .JUMP_C | .nc => .JUMP_NC
def calOp : Cnd → Op
  | .always => .CALL | .z => .CALL_Z | .nz => .CALL_NZ | .c => .CALL_C | .nc => .CALL_NC
def retOp : Cnd → Op
  | .always => .RETURN | .z => .RETURN_Z | .nz => .RETURN_NZ | .c => .RETURN_C | .nc => .RETURN_NC

/-- what the tables call an instruction -/
def opOf (six : Bool) : I → Op × Opr
  | .alu f _ o => (aluOp f, oprOf .REG_CONSTANT o)
  | .tst f _ o => (tstOp f, oprOf .REG_CONSTANT o)
  | .shf f _ => (shfOp f, .REG)
  | .input _ o => (.IINPUT, oprOf .REG_PORT o)
  | .output _ o => (.OUTPUT, oprOf .REG_PORT o)
  | .outputk _ _ => (.OUTPUTK, .CONSTANT_PORT)
  | .fetch _ o => (.FETCH, oprOf (if six then .REG_ADDRESS8 else .REG_ADDRESS6) o)
  | .store _ o => (.STORE, oprOf (if six then .REG_ADDRESS8 else .REG_ADDRESS6) o)
  | .jump c _ => (jmpOp c, if six then .ADDRESS12 else .ADDRESS10)
  | .call c _ => (calOp c, if six then .ADDRESS12 else .ADDRESS10)
  | .ret c => (retOp c, .NO_OPERAND)
  | .jumpAt _ _ => (.JUMP_AT, .REG_REG)
  | .callAt _ _ => (.CALL_AT, .REG_REG)
  | .loadRet _ _ => (.LOAD_RETURN, .REG_CONSTANT)
  | .reti e => (if e then .RETURNI_ENABLE else .RETURNI_DISABLE, .NO_OPERAND)
  | .intr e => (if e then .ENABLE_INTERRUPT else .DISABLE_INTERRUPT, .NO_OPERAND)
  | .bank b => (if b then .REGBANK_B else .REGBANK_A, .NO_OPERAND)
  | .star _ _ => (.STAR, .REG_REG)
  | .hwbuild _ => (.HWBUILD, .REG)

/-- the names of the tables are worked out, the tables searched -/
local macro "opx" : tactic => `(tactic| (dsimp only [opOf, oprOf, aluOp, tstOp, shfOp, jmpOp, calOp, retOp]; decide +kernel))

set_option maxHeartbeats 2000000 in
theorem find6 (i : I) (o : BitVec 6) (r : BitVec 12) (h : enc6 i = some (o, r)) :
    ∃ e, find t6 (o ++ r) = some e ∧ e.op = (opOf true i).1 ∧ e.opr = (opOf true i).2 := by
  cases i with
  | alu f x op => cases op with
    | k v => cases f <;> (simp [enc6, isK, low] at h; obtain ⟨h1, h2⟩ := h; subst h1 h2) <;> exact findK disj6 _ _ (by opx)
    | r y => cases f <;> (simp [enc6, isK, low] at h; obtain ⟨h1, h2⟩ := h; subst h1 h2) <;> exact findR disj6 _ _ _ (by opx)
  | tst f x op => cases op with
    | k v => cases f <;> (simp [enc6, isK, low] at h; obtain ⟨h1, h2⟩ := h; subst h1 h2) <;> exact findK disj6 _ _ (by opx)
    | r y => cases f <;> (simp [enc6, isK, low] at h; obtain ⟨h1, h2⟩ := h; subst h1 h2) <;> exact findR disj6 _ _ _ (by opx)
  | shf f x => cases f <;> (simp [enc6, shfCode] at h; obtain ⟨h1, h2⟩ := h; subst h1 h2) <;> exact findS disj6 _ _ _ (by opx)
  | hwbuild x => (simp [enc6] at h; obtain ⟨h1, h2⟩ := h; subst h1 h2); exact findS disj6 _ _ _ (by opx)
  | input x op => cases op with
    | k v => (simp [enc6, isK, low] at h; obtain ⟨h1, h2⟩ := h; subst h1 h2); exact findK disj6 _ _ (by opx)
    | r y => (simp [enc6, isK, low] at h; obtain ⟨h1, h2⟩ := h; subst h1 h2); exact findR disj6 _ _ _ (by opx)
  | output x op => cases op with
    | k v => (simp [enc6, isK, low] at h; obtain ⟨h1, h2⟩ := h; subst h1 h2); exact findK disj6 _ _ (by opx)
    | r y => (simp [enc6, isK, low] at h; obtain ⟨h1, h2⟩ := h; subst h1 h2); exact findR disj6 _ _ _ (by opx)
  | fetch x op => cases op with
    | k v => (simp [enc6, isK, low] at h; obtain ⟨h1, h2⟩ := h; subst h1 h2); exact findK disj6 _ _ (by opx)
    | r y => (simp [enc6, isK, low] at h; obtain ⟨h1, h2⟩ := h; subst h1 h2); exact findR disj6 _ _ _ (by opx)
  | store x op => cases op with
    | k v => (simp [enc6, isK, low] at h; obtain ⟨h1, h2⟩ := h; subst h1 h2); exact findK disj6 _ _ (by opx)
    | r y => (simp [enc6, isK, low] at h; obtain ⟨h1, h2⟩ := h; subst h1 h2); exact findR disj6 _ _ _ (by opx)
  | outputk v p => (simp [enc6] at h; obtain ⟨h1, h2⟩ := h; subst h1 h2); exact findK disj6 _ _ (by opx)
  | jump c a => cases c <;> (simp [enc6] at h; obtain ⟨h1, h2⟩ := h; subst h1 h2) <;> exact findK disj6 _ _ (by opx)
  | call c a => cases c <;> (simp [enc6] at h; obtain ⟨h1, h2⟩ := h; subst h1 h2) <;> exact findK disj6 _ _ (by opx)
  | ret c => cases c <;> (simp [enc6] at h; obtain ⟨h1, h2⟩ := h; subst h1 h2) <;> exact findF disj6 _ (by opx)
  | jumpAt x y => (simp [enc6, low] at h; obtain ⟨h1, h2⟩ := h; subst h1 h2); exact findR disj6 _ _ _ (by opx)
  | callAt x y => (simp [enc6, low] at h; obtain ⟨h1, h2⟩ := h; subst h1 h2); exact findR disj6 _ _ _ (by opx)
  | star x y => (simp [enc6, low] at h; obtain ⟨h1, h2⟩ := h; subst h1 h2); exact findR disj6 _ _ _ (by opx)
  | loadRet x v => (simp [enc6, low] at h; obtain ⟨h1, h2⟩ := h; subst h1 h2); exact findK disj6 _ _ (by opx)
  | reti b => cases b <;> (simp [enc6] at h; obtain ⟨h1, h2⟩ := h; subst h1 h2) <;> exact findF disj6 _ (by opx)
  | intr b => cases b <;> (simp [enc6] at h; obtain ⟨h1, h2⟩ := h; subst h1 h2) <;> exact findF disj6 _ (by opx)
  | bank b => cases b <;> (simp [enc6] at h; obtain ⟨h1, h2⟩ := h; subst h1 h2) <;> exact findF disj6 _ (by opx)

set_option maxHeartbeats 2000000 in
theorem find3 (i : I) (o : BitVec 6) (r : BitVec 12) (h : enc3 i = some (o, r)) :
    ∃ e, find t3 (o ++ r) = some e ∧ e.op = (opOf false i).1 ∧ e.opr = (opOf false i).2 := by
  cases i with
  | alu f x op => cases op with
    | k v => cases f <;> (simp [enc3, isK, low] at h; obtain ⟨h1, h2⟩ := h; subst h1 h2) <;> exact findK disj3 _ _ (by opx)
    | r y => cases f <;> (simp [enc3, isK, low] at h; obtain ⟨h1, h2⟩ := h; subst h1 h2) <;> exact findR disj3 _ _ _ (by opx)
  | tst f x op => cases op with
    | k v => cases f <;> simp [enc3, isK, low] at h <;> (obtain ⟨h1, h2⟩ := h; subst h1 h2) <;> exact findK disj3 _ _ (by opx)
    | r y => cases f <;> simp [enc3, isK, low] at h <;> (obtain ⟨h1, h2⟩ := h; subst h1 h2) <;> exact findR disj3 _ _ _ (by opx)
  | shf f x => cases f <;> (simp [enc3, shfCode] at h; obtain ⟨h1, h2⟩ := h; subst h1 h2) <;> exact findS disj3 _ _ _ (by opx)
  | input x op => cases op with
    | k v => (simp [enc3, isK, low] at h; obtain ⟨h1, h2⟩ := h; subst h1 h2); exact findK disj3 _ _ (by opx)
    | r y => (simp [enc3, isK, low] at h; obtain ⟨h1, h2⟩ := h; subst h1 h2); exact findR disj3 _ _ _ (by opx)
  | output x op => cases op with
    | k v => (simp [enc3, isK, low] at h; obtain ⟨h1, h2⟩ := h; subst h1 h2); exact findK disj3 _ _ (by opx)
    | r y => (simp [enc3, isK, low] at h; obtain ⟨h1, h2⟩ := h; subst h1 h2); exact findR disj3 _ _ _ (by opx)
  | fetch x op => cases op with
    | k v => (simp [enc3, low] at h; obtain ⟨h0, h1, h2⟩ := h; subst h1 h2); exact findM disj3 _ _ _ h0 (by opx)
    | r y => (simp [enc3, low] at h; obtain ⟨h1, h2⟩ := h; subst h1 h2); exact findR disj3 _ _ _ (by opx)
  | store x op => cases op with
    | k v => (simp [enc3, low] at h; obtain ⟨h0, h1, h2⟩ := h; subst h1 h2); exact findM disj3 _ _ _ h0 (by opx)
    | r y => (simp [enc3, low] at h; obtain ⟨h1, h2⟩ := h; subst h1 h2); exact findR disj3 _ _ _ (by opx)
  | jump c a => cases c <;> (simp [enc3, cnd2] at h; obtain ⟨h0, h1, h2⟩ := h; subst h1 h2) <;> exact findA disj3 _ _ _ (by opx)
  | call c a => cases c <;> (simp [enc3, cnd2] at h; obtain ⟨h0, h1, h2⟩ := h; subst h1 h2) <;> exact findA disj3 _ _ _ (by opx)
  | ret c => cases c <;> (simp [enc3, cnd2] at h; obtain ⟨h1, h2⟩ := h; subst h1 h2) <;> exact findF disj3 _ (by opx)
  | reti b => cases b <;> (simp [enc3] at h; obtain ⟨h1, h2⟩ := h; subst h1 h2) <;> exact findF disj3 _ (by opx)
  | intr b => cases b <;> (simp [enc3] at h; obtain ⟨h1, h2⟩ := h; subst h1 h2) <;> exact findF disj3 _ (by opx)
  | _ => simp [enc3] at h

end Ucsim.Pb
