import Verif.Proof.Z80
import Verif.Spec.Z80Diff

namespace Ucsim.Z80
open Isa (Flags Differs)

/-! ### Registers and places -/

def numR : R8 → Option (BitVec 3)
  | .b => some 0 | .c => some 1 | .d => some 2 | .e => some 3 | .h => some 4 | .l => some 5 | .a => some 7 | _ => none
def toIdx : Ix → Isa.Idx
  | .ix => .ix | .iy => .iy
def pairO (x : Ix) : RP → Isa.Pair
  | .bc => .bc | .de => .de | .hl => .idx .hl | .sp => .sp | .xx => .idx (toIdx x)
/-- The index register among them. -/
def idxO (x : Ix) : RP → Option Isa.Idx
  | .hl => some .hl | .xx => some (toIdx x) | _ => none

theorem get16_eq (x : Ix) (s : St) (p : RP) : get16 x s p = (abs s).pair (pairO x p) := by
  cases p <;> cases x <;> simp [get16, Isa.Mach.pair, pairO, Isa.Mach.idx, toIdx, xx, bc_eq, de_eq, hl_eq, Isa.Mach.HL] <;> rfl

theorem abs_set16 (x : Ix) (s : St) (p : RP) (v : Word) : abs (set16 x p v s) = (abs s).setPair (pairO x p) v := by
  cases p <;> cases x <;> simp only [set16, Isa.Mach.setPair, pairO, Isa.Mach.setIdx, toIdx, setXx, hi_eq, lo_eq] <;> rfl

theorem pair_idx (x : Ix) (p : RP) (i : Isa.Idx) (h : idxO x p = some i) : pairO x p = .idx i := by
  cases p <;> simp only [idxO, Option.some.injEq, reduceCtorEq] at h <;> subst h <;> rfl

section
variable (m : Isa.Mach) (n : Nat)
theorem nx_pair (p : Isa.Pair) : (m.next n).pair p = m.pair p := by
  rcases p with _ | _ | i | _ <;> first | rfl | (cases i <;> rfl)
theorem nx_setPair (p : Isa.Pair) (v : Word) : (m.next n).setPair p v = (m.setPair p v).next n := by
  rcases p with _ | _ | i | _ <;> first | rfl | (cases i <;> rfl)
theorem nx_setIdx (i : Isa.Idx) (v : Word) : (m.next n).setIdx i v = (m.setIdx i v).next n := by cases i <;> rfl
theorem nx_idx (i : Isa.Idx) : (m.next n).idx i = m.idx i := by cases i <;> rfl
theorem nx_alu (o : BitVec 3) (v : Byte) : (m.next n).alu o v = (m.alu o v).next n := by
  unfold Isa.Mach.alu; split <;> rfl
theorem nx_cond (c : BitVec 3) : (m.next n).cond c = m.cond c := rfl
theorem setPair_pc (p : Isa.Pair) (v : Word) : (m.setPair p v).pc = m.pc := by
  rcases p with _ | _ | i | _ <;> first | rfl | (cases i <;> rfl)
end

theorem bv3 (r : BitVec 3) : r = 0 ∨ r = 1 ∨ r = 2 ∨ r = 3 ∨ r = 4 ∨ r = 5 ∨ r = 6 ∨ r = 7 := by revert r; decide

theorem put_get_reg (m : Isa.Mach) (r : BitVec 3) : m.put (.reg r) (m.get (.reg r)) = m := by
  rcases bv3 r with h | h | h | h | h | h | h | h <;> subst h <;> rfl

theorem put_pc (m : Isa.Mach) (lo : Isa.Loc) (v : Byte) : (m.put lo v).pc = m.pc := by
  cases lo with
  | reg r => rcases bv3 r with h | h | h | h | h | h | h | h <;> subst h <;> rfl
  | ind i => rfl

/-- The simulator's place for the manual's. -/
def rloc (m : Isa.Mach) : Isa.Loc → Loc → Prop
  | .reg n, .reg r => numR r = some n
  | .ind i, .cell a => a = m.ea i
  | _, _ => False

theorem get8_ok (x : Ix) (m : Isa.Mach) (t : St) (F : Flags) (P : Word) (ht : abs t = { m with f := F, pc := P }) (r : R8) (n : BitVec 3)
    (h : numR r = some n) : get8 x t r = m.get (.reg n) := by
  cases r <;> simp only [numR, Option.some.injEq, reduceCtorEq] at h <;> subst h
  · exact congrArg Isa.Mach.a ht
  · exact congrArg Isa.Mach.b ht
  · exact congrArg Isa.Mach.c ht
  · exact congrArg Isa.Mach.d ht
  · exact congrArg Isa.Mach.e ht
  · exact congrArg Isa.Mach.h ht
  · exact congrArg Isa.Mach.l ht

theorem getL_ok (x : Ix) (m : Isa.Mach) (t : St) (F : Flags) (P : Word) (ht : abs t = { m with f := F, pc := P }) (L : Loc) (lo : Isa.Loc)
    (h : rloc m lo L) : getL x t L = m.get lo := by
  cases lo <;> cases L <;> simp only [rloc] at h
  case reg.reg n r => exact get8_ok x m t F P ht r n h
  case ind.cell i a =>
    subst h
    show get1 t _ = _
    rw [get1_eq, congrArg Isa.Mach.mem ht]; rfl

theorem setL_ok (x : Ix) (m : Isa.Mach) (t : St) (F : Flags) (P : Word) (ht : abs t = { m with f := F, pc := P }) (L : Loc) (lo : Isa.Loc)
    (h : rloc m lo L) (v : Byte) : abs (setL x L v t) = { m.put lo v with f := F, pc := P } := by
  cases lo <;> cases L <;> simp only [rloc] at h
  case reg.reg n r =>
    cases r <;> simp only [numR, Option.some.injEq, reduceCtorEq] at h <;> subst h
    · show { abs t with a := v } = _; rw [ht]; rfl
    · show { abs t with b := v } = _; rw [ht]; rfl
    · show { abs t with c := v } = _; rw [ht]; rfl
    · show { abs t with d := v } = _; rw [ht]; rfl
    · show { abs t with e := v } = _; rw [ht]; rfl
    · show { abs t with h := v } = _; rw [ht]; rfl
    · show { abs t with l := v } = _; rw [ht]; rfl
  case ind.cell i a =>
    subst h
    show abs (store1 _ v t) = _
    rw [abs_store1, ht]; rfl

def olen : Opd → Nat
  | .xd => 1 | .imm => 1 | _ => 0

/-- The manual's place for an operand, `k` bytes after the start of the instruction. -/
def locO (x : Ix) (k : Nat) : Opd → Option Isa.Loc
  | .r r => (numR r).map .reg
  | .m => some (.ind .hl)
  | .xd => if k = 2 then some (.ind (toIdx x)) else none
  | .imm => none

theorem xx_idx (x : Ix) (s : St) : xx x s = (abs s).idx (toIdx x) := by cases x <;> rfl

theorem disp_ea (x : Ix) (w : Word) (k : Nat) (s : St) :
    disp (xx x (adv w k s)) (s.mem (w + 2)) = (base w s).ea (toIdx x) := by
  cases x <;> rfl

theorem loc_ok (x : Ix) (k : Nat) (o : Opd) (lo : Isa.Loc) (w : Word) (s : St) (h : locO x k o = some lo) :
    ∃ L, loc x o (adv w k s) = (L, adv w (k + olen o) s) ∧ rloc (base w s) lo L := by
  cases o with
  | r r =>
    obtain ⟨n, h1, rfl⟩ := Option.map_eq_some_iff.mp h
    exact ⟨.reg r, rfl, h1⟩
  | m =>
    cases h
    exact ⟨.cell (hl (adv w k s)), rfl, hl_eq _⟩
  | xd =>
    simp only [locO] at h
    split at h
    · rename_i hk; cases h; subst hk
      refine ⟨.cell ((base w s).ea (toIdx x)), ?_, rfl⟩
      unfold loc
      simp only [fetch_adv]
      rw [show (BitVec.ofNat 16 2 : Word) = 2 from rfl, disp_ea]; rfl
    · cases h
  | imm => cases h

theorem src_ok (x : Ix) (k : Nat) (o : Opd) (lo : Isa.Loc) (w : Word) (s : St) (h : locO x k o = some lo) :
    src x o (adv w k s) = ((base w s).get lo, adv w (k + olen o) s) := by
  obtain ⟨L, h1, h2⟩ := loc_ok x k o lo w s h
  have e := getL_ok x (base w s) (adv w (k + olen o) s) _ _ (abs_adv w (k + olen o) s) L lo h2
  rw [← e]
  cases o with
  | r r => cases h1; rfl
  | m => cases h1; rfl
  | xd =>
    unfold loc at h1
    unfold src
    simp only [fetch_adv] at h1 ⊢
    cases h1; rfl
  | imm => cases h

/-! ### Instructions -/

/-- Operand bytes read by a body. -/
def ilen : Inst → Nat
  | .ld d s => olen d + olen s
  | .ld16 _ | .stRP _ | .ldRP _ | .stA | .ldA | .jp | .jpIf _ _ | .call | .callIf _ _ => 2
  | .inc8 o | .dec8 o | .alu _ o | .rot _ o | .bit _ o | .res _ o | .set _ o => olen o
  | .jr | .jrIf _ _ | .djnz | .inA | .outA => 1
  | _ => 0

/-- The number of a condition. -/
def cc (g : Byte) (v : Bool) : Option (BitVec 3) :=
  if g = bitZ then some (if v then 1 else 0)
  else if g = bitC then some (if v then 3 else 2)
  else if g = bitP then some (if v then 5 else 4)
  else if g = bitS then some (if v then 7 else 6)
  else none

def bnum (n : Nat) : Option (BitVec 3) := if n < 8 then some (BitVec.ofNat 3 n) else none
def onlyIf (c : Bool) (i : Isa.Ins) : Option Isa.Ins := if c then some i else none

/-- The instruction of the manual for a body of the simulator, found after `k` bytes. -/
def conv (x : Ix) (k : Nat) : Inst → Option Isa.Ins
  | .nop => some .nop | .halt => some .halt
  | .ld d s => if s = .imm then (locO x k d).map .ldn else (locO x k d).bind fun a => (locO x (k + olen d) s).map fun b => .ld a b
  | .ld16 p => some (.ldnn (pairO x p)) | .ldMA p => some (.staP (pairO x p)) | .ldAM p => some (.ldaP (pairO x p))
  | .stRP p => some (.stMP (pairO x p)) | .ldRP p => some (.ldPM (pairO x p)) | .stA => some .sta | .ldA => some .lda
  | .ldSP p => (idxO x p).map .ldsp
  | .inc16 p => some (.incP (pairO x p)) | .dec16 p => some (.decP (pairO x p))
  | .inc8 o => (locO x k o).map .inc | .dec8 o => (locO x k o).map .dec
  | .add16 d p => (idxO x d).map fun i => .addX i (pairO x p)
  | .adcHL p => some (.adcHL (pairO x p)) | .sbcHL p => some (.sbcHL (pairO x p))
  | .alu a o => if o = .imm then some (.alun (numAlu a)) else (locO x k o).map (.alu (numAlu a))
  | .jr => onlyIf (k == 1) .jr | .djnz => onlyIf (k == 1) .djnz
  | .jrIf g v => (cc g v).bind fun c => onlyIf (k == 1) (.jrc c)
  | .jp => some .jp | .jpIf g v => (cc g v).map .jpc | .jpRP p => (idxO x p).map .jpX
  | .call => onlyIf (k == 1) .call | .callIf g v => (cc g v).bind fun c => onlyIf (k == 1) (.callc c)
  | .ret => some .ret | .retIf g v => (cc g v).map .retc
  | .rst a => onlyIf (k == 1 && a == BitVec.ofNat 16 (8 * (BitVec.ofNat 3 (a.toNat / 8)).toNat)) (.rst (BitVec.ofNat 3 (a.toNat / 8)))
  | .push p => some (.push (pairO x p)) | .pushAF => some .pushAF | .pop p => some (.pop (pairO x p)) | .popAF => some .popAF
  | .exSP p => (idxO x p).map .exsp | .exDEHL => some .exdehl | .exAF => some .exaf | .exx => some .exx | .di => some .di | .ei => some .ei
  | .inA => some .inA | .outA => some .outA
  | .rlca => some .rlca | .rrca => some .rrca | .rla => some .rla | .rra => some .rra | .daa => some .daa | .cpl => some .cpl
  | .scf => some .scf | .ccf => some .ccf
  | .rot r o => (numRot r).bind fun n => (locO x k o).map (.rot n)
  | .bit n o => (bnum n).bind fun n => (locO x k o).map (.bit n)
  | .res n o => (bnum n).bind fun n => (locO x k o).map (.res n)
  | .set n o => (bnum n).bind fun n => (locO x k o).map (.set n)
  | .xrot r none => (numRot r).bind fun n => onlyIf (k == 4) (.rot n (.ind (toIdx x)))
  | .xbit n => (bnum n).bind fun n => onlyIf (k == 4) (.bit n (.ind (toIdx x)))
  | .xres n none => (bnum n).bind fun n => onlyIf (k == 4) (.res n (.ind (toIdx x)))
  | .xset n none => (bnum n).bind fun n => onlyIf (k == 4) (.set n (.ind (toIdx x)))
  | .inC r => (numR r).map .inR | .outC r => (numR r).map .outR | .im n => some (.im n)
  | .ldIA => some .ldia | .ldRA => some .ldra | .ldAI => some .ldai | .ldAR => some .ldar | .retN => some .retn | .neg => some .neg
  | .rrd => some .rrd | .rld => some .rld
  | .ldi => onlyIf (k == 2) (.bld false false) | .ldd => onlyIf (k == 2) (.bld true false)
  | .ldir => onlyIf (k == 2) (.bld false true) | .lddr => onlyIf (k == 2) (.bld true true)
  | .cpi => onlyIf (k == 2) (.bcp false false) | .cpd => onlyIf (k == 2) (.bcp true false)
  | .cpir => onlyIf (k == 2) (.bcp false true) | .cpdr => onlyIf (k == 2) (.bcp true true)
  | .ini => onlyIf (k == 2) (.bin false false) | .ind => onlyIf (k == 2) (.bin true false)
  | .inir => onlyIf (k == 2) (.bin false true) | .indr => onlyIf (k == 2) (.bin true true)
  | .outi => onlyIf (k == 2) (.bout false false) | .outd => onlyIf (k == 2) (.bout true false)
  | .otir => onlyIf (k == 2) (.bout false true) | .otdr => onlyIf (k == 2) (.bout true true)
  | _ => none

/-- `ins` is what the body means; LD r,r is done as NOP, RETI as RETN. -/
def means (x : Ix) (k : Nat) (i : Inst) (ins : Isa.Ins) : Bool :=
  (match i, ins with
   | .nop, .ld (.reg r) (.reg r') => r == r'
   | .retN, .reti => true
   | _, _ => false) || conv x k i == some ins

theorem tab00_ok : ∀ op : Byte, (Isa.decode1 op).1 = .other ∨
    (means .ix 1 (at_ tab00 op) (Isa.decode1 op).1 = true ∧ (Isa.decode1 op).2 = 1 + ilen (at_ tab00 op)) := by decide +kernel
theorem tabCB_ok : ∀ op : Byte, (Isa.decodeCB op).1 = .other ∨
    (means .ix 2 (at_ tabCB op) (Isa.decodeCB op).1 = true ∧ (Isa.decodeCB op).2 = 2 + ilen (at_ tabCB op)) := by decide +kernel
theorem tabED_ok : ∀ op : Byte, (Isa.decodeED op).1 = .other ∨
    (means .ix 2 (at_ tabED op) (Isa.decodeED op).1 = true ∧ (Isa.decodeED op).2 = 2 + ilen (at_ tabED op)) := by decide +kernel
theorem tabXD_ok (x : Ix) : ∀ op : Byte, (Isa.decodeX (toIdx x) op).1 = .other ∨
    (means x 2 (at_ tabXD op) (Isa.decodeX (toIdx x) op).1 = true ∧ (Isa.decodeX (toIdx x) op).2 = 2 + ilen (at_ tabXD op)) := by
  cases x <;> decide +kernel
theorem tabXC_ok (x : Ix) : ∀ op : Byte, (Isa.decodeXCB (toIdx x) op).1 = .other ∨
    (means x 4 (at_ tabXC op) (Isa.decodeXCB (toIdx x) op).1 = true ∧ (Isa.decodeXCB (toIdx x) op).2 = 4 + ilen (at_ tabXC op)) := by
  cases x <;> decide +kernel

end Ucsim.Z80
