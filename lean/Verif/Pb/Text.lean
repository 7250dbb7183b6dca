import Verif.Pb.Examples
import Verif.Spec.PbText
set_option linter.constructorNameAsVariable false
/-
C162 (the text of an instruction): cl_pblaze::disass, /repo/src/sims/pblaze.src/pblaze.cc 406-482.
-/
namespace Ucsim.Pb

/-- characters that are copied, and % with a letter -/
inductive Tok | lit (s : List Char) | arg (c : Char) deriving DecidableEq

/-- the loop of disass, pblaze.cc 424-478, with what has been copied since the last operand; `n` is the
length of the line so far, until the first space -/
def toks : List Char → List Char → Option Nat → List Tok
  | [], acc, _ => if acc = [] then [] else [.lit acc]
  | '%' :: c :: t, acc, n => (if acc = [] then [] else [.lit acc]) ++ .arg c :: toks t [] n
  | ' ' :: t, acc, some n => toks t (acc ++ List.replicate (6 - n) ' ' ++ [' ']) none
  | c :: t, acc, n => toks t (acc ++ [c]) (n.map (· + 1))

/-- the operands, pblaze.cc 435-470 -/
def val (w : BitVec 18) : Tok → String
  | .lit s => String.ofList s
  | .arg c => partText <| match c with
    | 'a' => .hex (getA10 w)
    | 'A' => .hex (getA12 w)
    | 'k' | 'M' => .hex (getK w).toNat
    | 'K' => .hex (w.extractLsb' 4 8).toNat
    | 'm' => .hex (w.extractLsb' 0 6).toNat
    | 'p' => .dec (getK w).toNat
    | 'P' => .dec (w.extractLsb' 0 4).toNat
    | 'r' => .reg (getX w)
    | 's' => .reg (getY w)
    | _ => .w "?"

/-- cl_pblaze::disass, pblaze.cc 406-482 -/
def disass (e : Env) (w : BitVec 18) : String :=
  match find (table e) w with
  | some t => String.join ((toks t.text.toList [] (some 0)).map (val w))
  | none => "UNKNOWN/INVALID"

theorem toks_of (tb : List Ent) (w : BitVec 18) (t : Ent) (hf : find tb w = some t) (op : Op) (opr : Opr) (L : List Tok)
    (h : (tb.all fun a => !(a.op == op && a.opr == opr) || toks a.text.toList [] (some 0) == L) = true) (h1 : t.op = op) (h2 : t.opr = opr) :
    toks t.text.toList [] (some 0) = L := by
  have := List.all_eq_true.mp h t (List.mem_of_find?_eq_some hf)
  simp [h1, h2] at this
  exact this

def L (s : String) : Tok := .lit s.toList

def tm2 (n : String) : Opd → List Tok
  | .k _ => [L (name6 n ++ " "), .arg 'r', L ",", .arg 'k']
  | .r _ => [L (name6 n ++ " "), .arg 'r', L ",", .arg 's']

def tmI (n : String) (c : Char) (sp : String) : Opd → List Tok
  | .k _ => [L (name6 n ++ " "), .arg 'r', L ("," ++ sp), .arg c]
  | .r _ => [L (name6 n ++ " "), .arg 'r', L ",(", .arg 's', L ")"]

/-- the template of an instruction -/
def tm (six : Bool) : I → List Tok
  | .alu f _ o => tm2 (aluName f) o
  | .tst f _ o => tm2 (tstName f) o
  | .shf f _ => [L (name6 (shfName f) ++ " "), .arg 'r']
  | .input _ o => tmI "INPUT" 'p' "" o
  | .output _ o => tmI "OUTPUT" 'p' "" o
  | .outputk _ _ => [L "OUTPUTK ", .arg 'K', L ",", .arg 'P']
  | .fetch _ o => tmI "FETCH" (if six then 'M' else 'm') " " o
  | .store _ o => tmI "STORE" (if six then 'M' else 'm') "" o
  | .jump c _ => [L (name6 "JUMP" ++ cndName c ++ " "), .arg (if six then 'A' else 'a')]
  | .call c _ => [L (name6 "CALL" ++ cndName c ++ " "), .arg (if six then 'A' else 'a')]
  | .ret c => [L ("RETURN" ++ cndName c)]
  | .jumpAt _ _ => [L (name6 "JUMP@" ++ " ("), .arg 'r', L ", ", .arg 's', L ")"]
  | .callAt _ _ => [L (name6 "CALL@" ++ " ("), .arg 'r', L ", ", .arg 's', L ")"]
  | .loadRet _ _ => [L "LOAD&RETURN ", .arg 'r', L ",", .arg 'k']
  | .reti e => [L (if e then "RETURNI ENABLE" else "RETURNI DISABLE")]
  | .intr e => [L (if e then "ENABLE INTERRUPT" else "DISABLE INTERRUPT")]
  | .bank b => [L (if b then "REGBANK B" else "REGBANK A")]
  | .star _ _ => [L (name6 "STAR" ++ " "), .arg 'r', L ",", .arg 's']
  | .hwbuild _ => [L "HWBUILD ", .arg 'r']

/-- the instructions whose text is right: not CALL C and CALL Z of KCPSM6 -/
def TextOk (e : Env) : I → Prop
  | .call .c _ => e.six = false
  | .call .z _ => e.six = false
  | _ => True

local macro "opy" : tactic => `(tactic| (dsimp only [opOf, oprOf, aluOp, tstOp, shfOp, jmpOp, calOp, retOp, tm, tm2, tmI]; decide +kernel))

set_option maxHeartbeats 2000000 in
theorem toks6 (i : I) (t : Ent) (w : BitVec 18) (hf : find t6 w = some t) (h1 : t.op = (opOf true i).1) (h2 : t.opr = (opOf true i).2)
    (hk : TextOk ex6 i) : toks t.text.toList [] (some 0) = tm true i := by
  refine toks_of t6 w t hf _ _ _ ?_ h1 h2
  cases i with
  | alu f x op => cases op <;> cases f <;> opy
  | tst f x op => cases op <;> cases f <;> opy
  | shf f x => cases f <;> opy
  | hwbuild x => opy
  | input x op => cases op <;> opy
  | output x op => cases op <;> opy
  | fetch x op => cases op <;> opy
  | store x op => cases op <;> opy
  | outputk v p => opy
  | jump c a => cases c <;> opy
  | call c a => cases c <;> first | (exfalso; simp [TextOk, ex6] at hk; done) | opy
  | ret c => cases c <;> opy
  | jumpAt x y => opy
  | callAt x y => opy
  | star x y => opy
  | loadRet x v => opy
  | reti b => cases b <;> opy
  | intr b => cases b <;> opy
  | bank b => cases b <;> opy

set_option maxHeartbeats 2000000 in
theorem toks3 (i : I) (t : Ent) (w : BitVec 18) (hf : find t3 w = some t) (h1 : t.op = (opOf false i).1) (h2 : t.opr = (opOf false i).2) :
    toks t.text.toList [] (some 0) = tm false i := by
  refine toks_of t3 w t hf _ _ _ ?_ h1 h2
  cases i with
  | alu f x op => cases op <;> cases f <;> opy
  | tst f x op => cases op <;> cases f <;> opy
  | shf f x => cases f <;> opy
  | hwbuild x => opy
  | input x op => cases op <;> opy
  | output x op => cases op <;> opy
  | fetch x op => cases op <;> opy
  | store x op => cases op <;> opy
  | outputk v p => opy
  | jump c a => cases c <;> opy
  | call c a => cases c <;> opy
  | ret c => cases c <;> opy
  | jumpAt x y => opy
  | callAt x y => opy
  | star x y => opy
  | loadRet x v => opy
  | reti b => cases b <;> opy
  | intr b => cases b <;> opy
  | bank b => cases b <;> opy

theorem val_L (w : BitVec 18) (s : String) : val w (L s) = s := by simp [val, L]

theorem getM_eq (o : BitVec 6) (x : Reg) (v : Byte) (hv : v.toNat < 64) : ((o ++ (x ++ v : BitVec 12)).extractLsb' 0 6 : BitVec 6).toNat = v.toNat := by
  have h1 : ((o ++ (x ++ v : BitVec 12)).extractLsb' 0 6 : BitVec 6) = v.setWidth 6 := by
    apply BitVec.eq_of_getLsbD_eq; intro i hi
    rw [BitVec.getLsbD_extractLsb', bits18, bits12]
    have h1 : 0 + i < 12 := by omega
    have h2 : 0 + i < 8 := by omega
    simp [hi]
    split
    · split <;> first | rfl | omega
    · omega
  rw [h1]; simp; omega

theorem getKP_eq (o : BitVec 6) (v : Byte) (p : BitVec 4) :
    ((o ++ (v ++ p : BitVec 12)).extractLsb' 4 8 : BitVec 8) = v ∧ ((o ++ (v ++ p : BitVec 12)).extractLsb' 0 4 : BitVec 4) = p := by
  have bits : ∀ i, (v ++ p : BitVec 12).getLsbD i = if i < 4 then p.getLsbD i else v.getLsbD (i - 4) := fun i => BitVec.getLsbD_append
  constructor
  · apply BitVec.eq_of_getLsbD_eq; intro i hi
    rw [BitVec.getLsbD_extractLsb', bits18, bits]
    have h1 : 4 + i < 12 := by omega
    have h2 : ¬ 4 + i < 4 := by omega
    have h3 : 4 + i - 4 = i := by omega
    simp [h1, h2, h3, hi]
  · apply BitVec.eq_of_getLsbD_eq; intro i hi
    rw [BitVec.getLsbD_extractLsb', bits18, bits]
    have h1 : 0 + i < 12 := by omega
    have h2 : 0 + i < 4 := by omega
    simp [hi]; intro; omega

theorem v_a (w : BitVec 18) : val w (.arg 'a') = partText (.hex (getA10 w)) := rfl
theorem v_A (w : BitVec 18) : val w (.arg 'A') = partText (.hex (getA12 w)) := rfl
theorem v_k (w : BitVec 18) : val w (.arg 'k') = partText (.hex (getK w).toNat) := rfl
theorem v_M (w : BitVec 18) : val w (.arg 'M') = partText (.hex (getK w).toNat) := rfl
theorem v_K (w : BitVec 18) : val w (.arg 'K') = partText ((.hex (w.extractLsb' 4 8).toNat)) := rfl
theorem v_m (w : BitVec 18) : val w (.arg 'm') = partText ((.hex (w.extractLsb' 0 6).toNat)) := rfl
theorem v_p (w : BitVec 18) : val w (.arg 'p') = partText (.dec (getK w).toNat) := rfl
theorem v_P (w : BitVec 18) : val w (.arg 'P') = partText ((.dec (w.extractLsb' 0 4).toNat)) := rfl
theorem v_r (w : BitVec 18) : val w (.arg 'r') = partText (.reg (getX w)) := rfl
theorem v_s (w : BitVec 18) : val w (.arg 's') = partText (.reg (getY w)) := rfl

theorem vals (e : Env) (i : I) (o : BitVec 6) (r : BitVec 12) (h : encE e i = some (o, r)) :
    (tm e.six i).map (val (o ++ r)) = (text i).map partText := by
  have two_ : ∀ n x d, r = low x d → (tm2 n d).map (val (o ++ r)) = (two n x d).map partText := by
    intro n x d hr
    subst hr
    cases d with
    | k v => simp [tm2, two, val_L, v_a, v_A, v_k, v_M, v_K, v_m, v_p, v_P, v_r, v_s, getX_low, partText, show getK (o ++ low x (.k v)) = v from getK_eq o x v]
    | r y => simp [tm2, two, val_L, v_a, v_A, v_k, v_M, v_K, v_m, v_p, v_P, v_r, v_s, getX_low, partText, show getY (o ++ low x (.r y)) = y from getY_eq o x y 0#4]
  have low_of := enc_low e i
  cases i with
  | alu f x d => exact two_ _ x d (low_of x d o r h (Or.inl ⟨f, rfl⟩))
  | tst f x d => exact two_ _ x d (low_of x d o r h (Or.inr (Or.inl ⟨f, rfl⟩)))
  | shf f x =>
    have hr : r = x ++ shfCode f := by
      unfold encE at h; cases h6 : e.six <;> simp [h6, enc3, enc6] at h <;> exact h.2.symm
    simp [tm, text, val_L, v_a, v_A, v_k, v_M, v_K, v_m, v_p, v_P, v_r, v_s, partText, show getX (o ++ r) = x by rw [hr]; exact getX_eq o x _]
  | input x d =>
    have hr := low_of x d o r h (by simp)
    subst hr
    cases d with
    | k v => simp [tm, text, tmI, ind, val_L, v_a, v_A, v_k, v_M, v_K, v_m, v_p, v_P, v_r, v_s, getX_low, partText, show getK (o ++ low x (.k v)) = v from getK_eq o x v]
    | r y => simp [tm, text, tmI, ind, val_L, v_a, v_A, v_k, v_M, v_K, v_m, v_p, v_P, v_r, v_s, getX_low, partText, show getY (o ++ low x (.r y)) = y from getY_eq o x y 0#4]
  | output x d =>
    have hr := low_of x d o r h (by simp)
    subst hr
    cases d with
    | k v => simp [tm, text, tmI, ind, val_L, v_a, v_A, v_k, v_M, v_K, v_m, v_p, v_P, v_r, v_s, getX_low, partText, show getK (o ++ low x (.k v)) = v from getK_eq o x v]
    | r y => simp [tm, text, tmI, ind, val_L, v_a, v_A, v_k, v_M, v_K, v_m, v_p, v_P, v_r, v_s, getX_low, partText, show getY (o ++ low x (.r y)) = y from getY_eq o x y 0#4]
  | outputk v p =>
    have hr : r = v ++ p := by
      unfold encE at h; cases h6 : e.six <;> simp [h6, enc3, enc6] at h; exact h.2.symm
    have h2 := getKP_eq o v p
    rw [← hr] at h2
    simp [tm, text, val_L, v_a, v_A, v_k, v_M, v_K, v_m, v_p, v_P, v_r, v_s, partText, h2.1, h2.2]
  | fetch x d =>
    have hr := low_of x d o r h (by simp)
    subst hr
    cases d with
    | k v =>
      cases h6 : e.six
      · have hv : v.toNat < 64 := by simp [encE, h6, enc3] at h; exact h.1
        simp [tm, text, tmI, ind, val_L, v_a, v_A, v_k, v_M, v_K, v_m, v_p, v_P, v_r, v_s, getX_low, partText, show ((o ++ low x (.k v)).extractLsb' 0 6 : BitVec 6).toNat = v.toNat from getM_eq o x v hv]
      · simp [tm, text, tmI, ind, val_L, v_a, v_A, v_k, v_M, v_K, v_m, v_p, v_P, v_r, v_s, getX_low, partText, show getK (o ++ low x (.k v)) = v from getK_eq o x v]
    | r y => simp [tm, text, tmI, ind, val_L, v_a, v_A, v_k, v_M, v_K, v_m, v_p, v_P, v_r, v_s, getX_low, partText, show getY (o ++ low x (.r y)) = y from getY_eq o x y 0#4]
  | store x d =>
    have hr := low_of x d o r h (by simp)
    subst hr
    cases d with
    | k v =>
      cases h6 : e.six
      · have hv : v.toNat < 64 := by simp [encE, h6, enc3] at h; exact h.1
        simp [tm, text, tmI, ind, val_L, v_a, v_A, v_k, v_M, v_K, v_m, v_p, v_P, v_r, v_s, getX_low, partText, show ((o ++ low x (.k v)).extractLsb' 0 6 : BitVec 6).toNat = v.toNat from getM_eq o x v hv]
      · simp [tm, text, tmI, ind, val_L, v_a, v_A, v_k, v_M, v_K, v_m, v_p, v_P, v_r, v_s, getX_low, partText, show getK (o ++ low x (.k v)) = v from getK_eq o x v]
    | r y => simp [tm, text, tmI, ind, val_L, v_a, v_A, v_k, v_M, v_K, v_m, v_p, v_P, v_r, v_s, getX_low, partText, show getY (o ++ low x (.r y)) = y from getY_eq o x y 0#4]
  | jump c a =>
    cases h6 : e.six
    · simp [encE, h6, enc3] at h
      obtain ⟨h0, h1, h2⟩ := h
      have h3 : getA10 (o ++ r) = a.toNat := by
        subst h2; refine (getA10_eq o (cnd2 c) (a.setWidth 10)).trans ?_; simp; omega
      simp [tm, text, val_L, v_a, v_A, v_k, v_M, v_K, v_m, v_p, v_P, v_r, v_s, partText, h3]
    · simp [encE, h6, enc6] at h
      obtain ⟨h1, h2⟩ := h
      have h3 : getA12 (o ++ r) = a.toNat := by subst h2; exact getA12_eq o a
      simp [tm, text, val_L, v_a, v_A, v_k, v_M, v_K, v_m, v_p, v_P, v_r, v_s, partText, h3]
  | call c a =>
    cases h6 : e.six
    · simp [encE, h6, enc3] at h
      obtain ⟨h0, h1, h2⟩ := h
      have h3 : getA10 (o ++ r) = a.toNat := by
        subst h2; refine (getA10_eq o (cnd2 c) (a.setWidth 10)).trans ?_; simp; omega
      simp [tm, text, val_L, v_a, v_A, v_k, v_M, v_K, v_m, v_p, v_P, v_r, v_s, partText, h3]
    · simp [encE, h6, enc6] at h
      obtain ⟨h1, h2⟩ := h
      have h3 : getA12 (o ++ r) = a.toNat := by subst h2; exact getA12_eq o a
      simp [tm, text, val_L, v_a, v_A, v_k, v_M, v_K, v_m, v_p, v_P, v_r, v_s, partText, h3]
  | ret c => simp [tm, text, val_L, partText]
  | jumpAt x y =>
    have hr : r = low x (.r y) := by unfold encE at h; cases h6 : e.six <;> simp [h6, enc3, enc6] at h; exact h.2.symm
    subst hr
    simp [tm, text, val_L, v_a, v_A, v_k, v_M, v_K, v_m, v_p, v_P, v_r, v_s, getX_low, partText, show getY (o ++ low x (.r y)) = y from getY_eq o x y 0#4]
  | callAt x y =>
    have hr : r = low x (.r y) := by unfold encE at h; cases h6 : e.six <;> simp [h6, enc3, enc6] at h; exact h.2.symm
    subst hr
    simp [tm, text, val_L, v_a, v_A, v_k, v_M, v_K, v_m, v_p, v_P, v_r, v_s, getX_low, partText, show getY (o ++ low x (.r y)) = y from getY_eq o x y 0#4]
  | star x y =>
    have hr : r = low x (.r y) := by unfold encE at h; cases h6 : e.six <;> simp [h6, enc3, enc6] at h; exact h.2.symm
    subst hr
    simp [tm, text, val_L, v_a, v_A, v_k, v_M, v_K, v_m, v_p, v_P, v_r, v_s, getX_low, partText, show getY (o ++ low x (.r y)) = y from getY_eq o x y 0#4]
  | loadRet x v =>
    have hr : r = low x (.k v) := by unfold encE at h; cases h6 : e.six <;> simp [h6, enc3, enc6] at h; exact h.2.symm
    subst hr
    simp [tm, text, val_L, v_a, v_A, v_k, v_M, v_K, v_m, v_p, v_P, v_r, v_s, getX_low, partText, show getK (o ++ low x (.k v)) = v from getK_eq o x v]
  | reti b => simp [tm, text, val_L, partText]
  | intr b => simp [tm, text, val_L, partText]
  | bank b => simp [tm, text, val_L, partText]
  | hwbuild x =>
    have hr : r = x ++ 0x80#8 := by unfold encE at h; cases h6 : e.six <;> simp [h6, enc3, enc6] at h; exact h.2.symm
    simp [tm, text, val_L, v_a, v_A, v_k, v_M, v_K, v_m, v_p, v_P, v_r, v_s, partText, show getX (o ++ r) = x by rw [hr]; exact getX_eq o x _]

/-- C162: the text of a word is that of the instruction it is the code of -/
theorem c162_text_partial (e : Env) (i : I) (o : BitVec 6) (r : BitVec 12) (h : encE e i = some (o, r)) (hk : TextOk e i) :
    disass e (o ++ r) = shown i := by
  obtain ⟨t, ht, h1, h2⟩ := find_enc e i o r h
  have h3 : toks t.text.toList [] (some 0) = tm e.six i := by
    unfold table at ht
    cases h6 : e.six <;> rw [h6] at ht h1 h2
    · exact toks3 i t _ ht h1 h2
    · refine toks6 i t _ ht h1 h2 ?_
      cases i with
      | call c a => cases c <;> first | trivial | (simp [TextOk, h6] at hk)
      | _ => trivial
  unfold disass shown
  rw [ht]
  simp only [h3, vals e i o r h]

example : disass ex6 (0x19312) = "SUB    s3,0x12" ∧ encE ex6 (.alu .sub 3 (.k 0x12)) = some (0x19, 0x312) ∧ TextOk ex6 (.alu .sub 3 (.k 0x12)) :=
  ⟨by decide +kernel, by decide +kernel, trivial⟩
example : disass ex3 (0x31923) = "CALL   C 0x123" ∧ encE ex3 (.call .c 0x123) = some (0x31, 0x923) ∧ TextOk ex3 (.call .c 0x123) :=
  ⟨by decide +kernel, by decide +kernel, rfl⟩

/-- C162: CALL C and CALL Z of KCPSM6 are shown interchanged: 0x38123 is executed as CALL C -/
theorem c162_false : encE ex6 (.call .c 0x123) = some (0x38, 0x123) ∧ disass ex6 0x38123 = shown (.call .z 0x123) ∧
    encE ex6 (.call .z 0x123) = some (0x30, 0x123) ∧ disass ex6 0x30123 = shown (.call .c 0x123) ∧
    shown (.call .c 0x123) ≠ shown (.call .z 0x123) := by
  refine ⟨by decide +kernel, by decide +kernel, by decide +kernel, by decide +kernel, by decide +kernel⟩

end Ucsim.Pb
