import Verif.Proof.S51Isa
/-!
Refinement of the manual's instruction set: instructions on the accumulator, registers
and memory.
-/
namespace Ucsim.S51
open Isa (Cpu)
open Spec (code Ok)

variable {H : Type} {P : Hw H} {s : St H}

/-- What an instruction of the manual's machine asks of the simulated one. -/
structure Pre (P : Hw H) (s : St H) : Prop where
  ok : Ok P s
  bits : CoreBits P
  dir : ∀ a ∈ (toCpu s).touched, Tame P a.toNat
  ind : ∀ a ∈ (toCpu s).reached, a.toNat < P.iramSize

/-! ### Reading the opcode -/

theorem step_low {n : Nat} (h : (code s 0).toNat = n) (hn : n % 16 < 4) :
    (toCpu s).step = (toCpu s).low n (code s 1) (code s 2) := by
  have h' : ((toCpu s).code 0).toNat = n := h
  unfold Cpu.step
  simp only [h', if_pos hn]; rfl

theorem step_four {n k : Nat} (h : (code s 0).toNat = n) (hn : n = 16 * k + 4) :
    (toCpu s).step = (toCpu s).four k (code s 1) (code s 2) := by
  have h' : ((toCpu s).code 0).toNat = n := h
  unfold Cpu.step
  simp only [h']
  rw [if_neg (by omega), if_pos (by omega), show n / 16 = k by omega]; rfl

theorem step_high {lo k : Nat} (h : (code s 0).toNat = 16 * k + lo) (h5 : 5 ≤ lo) (h15 : lo ≤ 15) :
    (toCpu s).step = (toCpu s).high k lo (code s 1) (code s 2) := by
  have h' : ((toCpu s).code 0).toNat = 16 * k + lo := h
  unfold Cpu.step
  simp only [h']
  rw [if_neg (by omega), if_neg (by omega), show (16 * k + lo) / 16 = k by omega, show (16 * k + lo) % 16 = lo by omega]; rfl

/-! ### The state after the fetches -/

theorem rel0 (h : Ok P s) : s.bank = (toCpu s).bank := by rw [h.bank]; rfl

theorem Pre.base (h : Pre P s) (n k : Nat) : Rel s (after s n k) ((toCpu s).next n) :=
  ⟨Nat.mod_mod _ _, rfl, rfl, rfl, fun _ _ => rfl, fun _ _ => rfl, rel0 (s := s) h.ok, rfl, rfl, Nat.le_of_lt (Nat.mod_lt _ (by decide))⟩

theorem accRead_after (s : St H) (n k : Nat) : accRead (after s n k) = ((toCpu s).A, after s n k) := rfl
theorem Pre.reg (h : Pre P s) (i n k : Nat) : regRead i (after s n k) = ((toCpu s).R i, after s n k) := by
  show (s.iram (8 * s.bank + i), _) = (s.iram (8 * (toCpu s).bank + i), _)
  rw [rel0 h.ok]
theorem Pre.riA (h : Pre P s) (c : Byte) (n k : Nat) :
    riAddr c (after s n k) = (((toCpu s).R (ri c)).toNat, after s n k) := by
  unfold riAddr; simp only [bind_def, pure_def, h.reg]
theorem dptrRead_after (s : St H) (n k : Nat) : dptrRead (after s n k) = ((toCpu s).DPTR, after s n k) := by
  show (((s.sfr DPH).toNat * 256 + (s.sfr DPL).toNat), _) = (256 * (s.sfr 0x83).toNat + (s.sfr 0x82).toNat, _)
  rw [Nat.mul_comm]; rfl
theorem cyGet_after (s : St H) (n k : Nat) : bitGet CYbit (after s n k) = ((toCpu s).CY, after s n k) := cyGet_eq _
theorem bitGet_after (s : St H) (b : Byte) (n k : Nat) : bitGet b (after s n k) = ((toCpu s).bit b, after s n k) := bitGet_eq _ _
theorem cyBit (s : St H) : (toCpu s).bit CYbit = (toCpu s).CY := rfl
theorem orgC_after (s : St H) (n k : Nat) : orgC (after s n k) = ((toCpu s).CY.toNat, after s n k) := by
  unfold orgC; simp only [bind_def, pure_def, cyGet_after, ifNat]
theorem Pre.dirR (h : Pre P s) (a : Byte) (ha : Tame P a.toNat) (l : Bool) (n k : Nat) :
    dirRead P a l (after s n k) = ((toCpu s).dir a, after s n k) := dirRead_tame h.ok.size a ha l _
theorem iramRead_after (a : Nat) (ha : a < P.iramSize) (n k : Nat) : iramRead P a (after s n k) = (s.iram a, after s n k) :=
  iramRead_in a ha _
theorem bitR_after (b : Byte) (hb : b.toNat < 0x80 ∨ isCore (b.toNat / 8 * 8) = true ∨ PlainSfr P (b.toNat / 8 * 8)) (n k : Nat) :
    bitRead P b (after s n k) = ((toCpu s).bit b, after s n k) := bitRead_tame b hb _

/-- Reading everything that is read before the first store. -/
macro "isa" "[" ls:Lean.Parser.Tactic.simpLemma,* "]" : tactic =>
  `(tactic| simp only [exec, bind_def, pure_def, fetch_after, tick_after, accRead_after, dptrRead_after, cyGet_after,
    bitGet_after, cyBit, orgC_after, $ls,*])

/-! ### Operands -/

theorem Pre.tame1 (h : Pre P s) (hc : code s 1 ∈ (toCpu s).touched) : Tame P (code s 1).toNat := h.dir _ hc

theorem touch5 {k : Nat} (h : (code s 0).toNat = 16 * k + 5) : code s 1 ∈ (toCpu s).touched := by
  have h' : ((toCpu s).code 0).toNat = 16 * k + 5 := h
  unfold Cpu.touched
  simp only [h']
  split
  · exact List.mem_cons_self
  · rw [if_pos (by omega)]; exact List.mem_singleton.mpr rfl

theorem touchR {n : Nat} (h : (code s 0).toNat = n) (hn : (0x86 ≤ n ∧ n ≤ 0x8f) ∨ (0xa6 ≤ n ∧ n ≤ 0xaf)) :
    code s 1 ∈ (toCpu s).touched := by
  have h' : ((toCpu s).code 0).toNat = n := h
  unfold Cpu.touched
  simp only [h']
  rw [if_neg (by omega), if_pos (by omega)]; exact List.mem_singleton.mpr rfl

theorem touchD {n : Nat} (h : (code s 0).toNat = n)
    (hn : n = 0x42 ∨ n = 0x43 ∨ n = 0x52 ∨ n = 0x53 ∨ n = 0x62 ∨ n = 0x63 ∨ n = 0xc0 ∨ n = 0xd0) :
    code s 1 ∈ (toCpu s).touched := by
  have h' : ((toCpu s).code 0).toNat = n := h
  unfold Cpu.touched
  simp only [h']
  rw [if_neg (by omega), if_neg (by omega), if_pos hn]; exact List.mem_singleton.mpr rfl

theorem Pre.bit (h : Pre P s) {n : Nat} (h0 : (code s 0).toNat = n)
    (hn : n = 0x10 ∨ n = 0x20 ∨ n = 0x30 ∨ n = 0x72 ∨ n = 0x82 ∨ n = 0x92 ∨ n = 0xa0 ∨ n = 0xa2 ∨ n = 0xb0 ∨ n = 0xb2 ∨
      n = 0xc2 ∨ n = 0xd2) :
    (code s 1).toNat < 0x80 ∨ isCore ((code s 1).toNat / 8 * 8) = true ∨ PlainSfr P ((code s 1).toNat / 8 * 8) := by
  by_cases hb : (code s 1).toNat < 0x80
  · exact .inl hb
  · right
    have h' : ((toCpu s).code 0).toNat = n := h0
    have hlt := (code s 1).isLt
    have e : (BitVec.ofNat 8 ((code s 1).toNat / 8 * 8)).toNat = (code s 1).toNat / 8 * 8 := by
      rw [BitVec.toNat_ofNat]; omega
    have hm : BitVec.ofNat 8 ((code s 1).toNat / 8 * 8) ∈ (toCpu s).touched := by
      unfold Cpu.touched
      simp only [h']
      rw [if_neg (by omega), if_neg (by omega), if_neg (by omega), if_pos hn, if_neg (show ¬ ((toCpu s).code 1).toNat < 0x80 from hb)]
      exact List.mem_singleton.mpr rfl
    have := h.dir _ hm
    rw [e] at this
    exact this.resolve_left (by omega)

theorem Pre.riLt (h : Pre P s) {k lo : Nat} (h0 : (code s 0).toNat = 16 * k + lo) (hl : lo = 6 ∨ lo = 7) :
    ((toCpu s).R (ri (code s 0))).toNat < P.iramSize := by
  have h' : ((toCpu s).code 0).toNat = 16 * k + lo := h0
  apply h.ind
  unfold Cpu.reached
  simp only [h']
  rw [if_pos (by omega)]
  unfold ri
  rw [h0]; exact List.mem_singleton.mpr rfl

/-! ### Decoding -/

/-- Opcodes `16 k + lo` with `lo` in a range. -/
def rowOf (o : Op) : Nat × Nat × Nat :=
  match o with
  | .incDir => (0, 5, 5) | .incRi => (0, 6, 7) | .incRn => (0, 8, 15)
  | .decDir => (1, 5, 5) | .decRi => (1, 6, 7) | .decRn => (1, 8, 15)
  | .addDir => (2, 5, 5) | .addRi => (2, 6, 7) | .addRn => (2, 8, 15)
  | .addcDir => (3, 5, 5) | .addcRi => (3, 6, 7) | .addcRn => (3, 8, 15)
  | .orlDir => (4, 5, 5) | .orlRi => (4, 6, 7) | .orlRn => (4, 8, 15)
  | .anlDir => (5, 5, 5) | .anlRi => (5, 6, 7) | .anlRn => (5, 8, 15)
  | .xrlDir => (6, 5, 5) | .xrlRi => (6, 6, 7) | .xrlRn => (6, 8, 15)
  | .movDirImm => (7, 5, 5) | .movRiImm => (7, 6, 7) | .movRnImm => (7, 8, 15)
  | .movDirDir => (8, 5, 5) | .movDirRi => (8, 6, 7) | .movDirRn => (8, 8, 15)
  | .subbDir => (9, 5, 5) | .subbRi => (9, 6, 7) | .subbRn => (9, 8, 15)
  | .undef => (10, 5, 5) | .movRiDir => (10, 6, 7) | .movRnDir => (10, 8, 15)
  | .cjneADir => (11, 5, 5) | .cjneRi => (11, 6, 7) | .cjneRn => (11, 8, 15)
  | .xchDir => (12, 5, 5) | .xchRi => (12, 6, 7) | .xchRn => (12, 8, 15)
  | .djnzDir => (13, 5, 5) | .xchd => (13, 6, 7) | .djnzRn => (13, 8, 15)
  | .movADir => (14, 5, 5) | .movARi => (14, 6, 7) | .movARn => (14, 8, 15)
  | .movDirA => (15, 5, 5) | .movRiA => (15, 6, 7) | .movRnA => (15, 8, 15)
  | .nop => (0, 0, 0) | .ljmp => (0, 2, 2) | .rr => (0, 3, 3) | .incA => (0, 4, 4)
  | .jbc => (1, 0, 0) | .lcall => (1, 2, 2) | .rrc => (1, 3, 3) | .decA => (1, 4, 4)
  | .jb => (2, 0, 0) | .ret => (2, 2, 2) | .rl => (2, 3, 3) | .addImm => (2, 4, 4)
  | .jnb => (3, 0, 0) | .reti => (3, 2, 2) | .rlc => (3, 3, 3) | .addcImm => (3, 4, 4)
  | .jc => (4, 0, 0) | .orlDirA => (4, 2, 2) | .orlDirImm => (4, 3, 3) | .orlImm => (4, 4, 4)
  | .jnc => (5, 0, 0) | .anlDirA => (5, 2, 2) | .anlDirImm => (5, 3, 3) | .anlImm => (5, 4, 4)
  | .jz => (6, 0, 0) | .xrlDirA => (6, 2, 2) | .xrlDirImm => (6, 3, 3) | .xrlImm => (6, 4, 4)
  | .jnz => (7, 0, 0) | .orlC => (7, 2, 2) | .jmpADptr => (7, 3, 3) | .movAImm => (7, 4, 4)
  | .sjmp => (8, 0, 0) | .anlC => (8, 2, 2) | .movcPC => (8, 3, 3) | .div => (8, 4, 4)
  | .movDptr => (9, 0, 0) | .movBitC => (9, 2, 2) | .movcDptr => (9, 3, 3) | .subbImm => (9, 4, 4)
  | .orlCN => (10, 0, 0) | .movCBit => (10, 2, 2) | .incDptr => (10, 3, 3) | .mul => (10, 4, 4)
  | .anlCN => (11, 0, 0) | .cplBit => (11, 2, 2) | .cplC => (11, 3, 3) | .cjneAImm => (11, 4, 4)
  | .push => (12, 0, 0) | .clrBit => (12, 2, 2) | .clrC => (12, 3, 3) | .swap => (12, 4, 4)
  | .pop => (13, 0, 0) | .setbBit => (13, 2, 2) | .setbC => (13, 3, 3) | .da => (13, 4, 4)
  | .movxADptr => (14, 0, 0) | .movxARi => (14, 2, 3) | .clrA => (14, 4, 4)
  | .movxDptrA => (15, 0, 0) | .movxRiA => (15, 2, 3) | .cplA => (15, 4, 4)
  | .ajmp | .acall => (16, 1, 0)

theorem rows : ∀ c : Byte, c.toNat % 16 = 1 ∨ (c.toNat / 16 = (rowOf (decode c)).1 ∧ (rowOf (decode c)).2.1 ≤ c.toNat % 16 ∧
    c.toNat % 16 ≤ (rowOf (decode c)).2.2) := by decide +kernel

theorem jrows : ∀ c : Byte, c.toNat % 16 = 1 → decode c = if c.toNat / 16 % 2 = 0 then .ajmp else .acall := by decide +kernel

/-- The opcode of a decoded instruction. -/
theorem op_row {o : Op} {k lo hi : Nat} (hd : decode (code s 0) = o) (h : rowOf o = (k, lo, hi) := by rfl) (hk : k < 16 := by decide) :
    (code s 0).toNat = 16 * k + (code s 0).toNat % 16 ∧ lo ≤ (code s 0).toNat % 16 ∧ (code s 0).toNat % 16 ≤ hi := by
  rcases rows (code s 0) with h1 | h1
  · have := jrows _ h1
    rw [hd] at this
    subst this
    split at h <;> simp [rowOf] at h <;> omega
  · rw [hd, h] at h1
    simp only at h1
    omega

theorem op_one {o : Op} {k lo : Nat} (hd : decode (code s 0) = o) (h : rowOf o = (k, lo, lo) := by rfl) (hk : k < 16 := by decide) :
    (code s 0).toNat = 16 * k + lo := by
  have := op_row hd h hk; omega

/-! ### Accumulator and flags -/

theorem Rel.ac (h : Rel s0 s c) (b : Bool) : Rel s0 (sfrSetBit b PSW 0x40#8 s).2 (c.setAC b) := h.flag 6 (by decide) b

theorem Rel.addBody {s0 t : St H} {c : Cpu} (h : Rel s0 t c) (d : Byte) (cy : Nat) (hc : cy ≤ 1) :
    Rel s0 (addBody P c.A d cy t).2 (c.add d cy) := by
  have ha : c.A.toNat < 256 := c.A.isLt
  have key := addBody_eq P c.A d cy hc t
  have r := (((h.acc (P := P) (byte (c.A.toNat + d.toNat + cy))).cy (decide (256 ≤ c.A.toNat + d.toNat + cy))).ov
    (Spec.overflow (c.A.toInt + d.toInt + cy))).ac (decide (16 ≤ c.A.toNat % 16 + d.toNat % 16 + cy))
  rw [key]
  have e : ∀ {x y : St H}, x = y → Rel s0 x (c.add d cy) → Rel s0 y (c.add d cy) := fun h => h ▸ id
  refine e ?_ r
  refine St.ext rfl rfl rfl ?_ rfl rfl rfl rfl rfl rfl rfl rfl rfl
  funext x
  show upd _ PSW _ x = _
  by_cases hx : x = ACC
  · subst hx; rfl
  · by_cases hy : x = PSW
    · subst hy; rfl
    · simp only [if_neg hx, if_neg hy]
      unfold upd; rw [if_neg hy]
      show upd (upd (upd (upd t.sfr PSW _) ACC _) PSW _) PSW _ x = _
      unfold upd; rw [if_neg hy, if_neg hy, if_neg hx, if_neg hy]

theorem Rel.subbBody {s0 t : St H} {c : Cpu} (h : Rel s0 t c) (v : Bool) (d : Byte) (hp : t.sfr 0xd0 = c.sfr 0xd0) (hb : t.bank = Spec.rs t) :
    Rel s0 (subbBody P v d t).2 (c.sub d c.CY.toNat) := by
  have key := subbBody_eq P v d t
  have eA : Spec.A t = c.A := h.sfr 0xe0 (by decide)
  have eC : Spec.CY t = c.CY := by
    show (t.sfr 0xd0).getLsbD 7 = _
    rw [hp]; rfl
  rw [eA, eC] at key
  have hA : c.A.toNat < 256 := c.A.isLt
  have hd : d.toNat < 256 := d.isLt
  have hC : c.CY.toNat ≤ 1 := by cases c.CY <;> decide
  have e0 : BitVec.ofInt 8 ((c.A.toNat : Int) - d.toNat - c.CY.toNat) = byte (c.A.toNat + 512 - d.toNat - c.CY.toNat) := by
    apply BitVec.eq_of_toNat_eq
    rw [BitVec.toNat_ofInt, byte_toNat]
    generalize c.A.toNat = a at *
    generalize c.CY.toNat = b at *
    omega
  have r := (((h.acc (P := P) (byte (c.A.toNat + 512 - d.toNat - c.CY.toNat))).cy (decide (c.A.toNat < d.toNat + c.CY.toNat))).ov
    (Spec.overflow (c.A.toInt - d.toInt - c.CY.toNat))).ac (decide (c.A.toNat % 16 < d.toNat % 16 + c.CY.toNat))
  have ec : c.sub d c.CY.toNat = (((c.setA (byte (c.A.toNat + 512 - d.toNat - c.CY.toNat))).setCY (decide (c.A.toNat < d.toNat + c.CY.toNat))).setOV
    (Spec.overflow (c.A.toInt - d.toInt - c.CY.toNat))).setAC (decide (c.A.toNat % 16 < d.toNat % 16 + c.CY.toNat)) := by
    unfold Cpu.sub
    simp only [e0]; rfl
  rw [← ec] at r
  rw [key]
  have e : ∀ {x y : St H}, x = y → Rel s0 x (c.sub d c.CY.toNat) → Rel s0 y (c.sub d c.CY.toNat) := fun h => h ▸ id
  refine e ?_ r
  refine St.ext rfl rfl rfl ?_ rfl rfl ?_ rfl rfl rfl rfl rfl rfl
  · funext x
    show upd _ PSW _ x = _
    by_cases hx : x = ACC
    · subst hx; rfl
    · by_cases hy : x = PSW
      · subst hy; rfl
      · simp only [if_neg hx, if_neg hy]
        unfold upd; rw [if_neg hy]
        show upd (upd (upd (upd t.sfr PSW _) ACC _) PSW _) PSW _ x = _
        unfold upd; rw [if_neg hy, if_neg hy, if_neg hx, if_neg hy]
  · show t.bank = if v = true then Spec.rs t else t.bank
    rw [← hb]; split <;> rfl

/-! ### Instructions -/

theorem high_ri {c : Cpu} (x : Byte) (hx : 5 < x.toNat % 16 ∧ x.toNat % 16 < 8) {k : Nat} {b1 b2 : Byte} :
    c.high k (x.toNat % 16) b1 b2 = c.high k (6 + ri x) b1 b2 := by
  rw [show x.toNat % 16 = 6 + ri x by unfold ri; omega]

theorem high_rn {c : Cpu} (x : Byte) (hx : 7 < x.toNat % 16) {k : Nat} {b1 b2 : Byte} :
    c.high k (x.toNat % 16) b1 b2 = c.high k (8 + rn x) b1 b2 := by
  rw [show x.toNat % 16 = 8 + rn x by unfold rn; omega]

theorem ri5 (x : Byte) : (6 + ri x = 5) = False := by simp; omega
theorem ri8 (x : Byte) : (6 + ri x < 8) = True := by simp [ri]; omega
theorem ri6 (x : Byte) : 6 + ri x - 6 = ri x := by omega
theorem rn5 (x : Byte) : (8 + rn x = 5) = False := by simp; omega
theorem rn8 (x : Byte) : (8 + rn x < 8) = False := by simp
theorem rn6 (x : Byte) : 8 + rn x - 8 = rn x := by omega

theorem touch85 (h : (code s 0).toNat = 0x85) : code s 2 ∈ (toCpu s).touched := by
  have h' : ((toCpu s).code 0).toNat = 0x85 := h
  unfold Cpu.touched
  simp only [h']
  exact List.mem_cons_of_mem _ (List.mem_singleton.mpr rfl)

theorem isa_orlDir (h : Pre P s) (hd : decode (code s 0) = .orlDir) :
    Rel s (exec P .orlDir (code s 0) (after s 1 1)).2 (toCpu s).step := by
  have h0 := op_one hd
  have ht := h.tame1 (touch5 (k := 4) h0)
  rw [step_high (k := 4) (lo := 5) h0 (by decide) (by decide)]
  isa [h.dirR _ ht]
  exact (h.base 2 1).acc _

theorem isa_orlRi (h : Pre P s) (hd : decode (code s 0) = .orlRi) :
    Rel s (exec P .orlRi (code s 0) (after s 1 1)).2 (toCpu s).step := by
  obtain ⟨h0, h1, h2⟩ := op_row hd
  have hr := h.riLt (k := 4) h0 (by omega)
  rw [step_high (k := 4) h0 (by omega) (by omega), high_ri (code s 0) (by omega)]
  simp only [Cpu.high, Cpu.opnd, Cpu.store, ri5, ri8, ri6, ↓reduceIte]
  isa [h.riA, iramRead_after _ hr]
  exact (h.base 1 1).acc _

theorem isa_orlRn (h : Pre P s) (hd : decode (code s 0) = .orlRn) :
    Rel s (exec P .orlRn (code s 0) (after s 1 1)).2 (toCpu s).step := by
  obtain ⟨h0, h1, h2⟩ := op_row hd
  rw [step_high (k := 4) h0 (by omega) (by omega), high_rn (code s 0) (by omega)]
  simp only [Cpu.high, Cpu.opnd, Cpu.store, rn5, rn8, rn6, ↓reduceIte]
  isa [h.reg]
  exact (h.base 1 1).acc _

theorem isa_anlDir (h : Pre P s) (hd : decode (code s 0) = .anlDir) :
    Rel s (exec P .anlDir (code s 0) (after s 1 1)).2 (toCpu s).step := by
  have h0 := op_one hd
  have ht := h.tame1 (touch5 (k := 5) h0)
  rw [step_high (k := 5) (lo := 5) h0 (by decide) (by decide)]
  isa [h.dirR _ ht]
  exact (h.base 2 1).acc _

theorem isa_anlRi (h : Pre P s) (hd : decode (code s 0) = .anlRi) :
    Rel s (exec P .anlRi (code s 0) (after s 1 1)).2 (toCpu s).step := by
  obtain ⟨h0, h1, h2⟩ := op_row hd
  have hr := h.riLt (k := 5) h0 (by omega)
  rw [step_high (k := 5) h0 (by omega) (by omega), high_ri (code s 0) (by omega)]
  simp only [Cpu.high, Cpu.opnd, Cpu.store, ri5, ri8, ri6, ↓reduceIte]
  isa [h.riA, iramRead_after _ hr]
  exact (h.base 1 1).acc _

theorem isa_anlRn (h : Pre P s) (hd : decode (code s 0) = .anlRn) :
    Rel s (exec P .anlRn (code s 0) (after s 1 1)).2 (toCpu s).step := by
  obtain ⟨h0, h1, h2⟩ := op_row hd
  rw [step_high (k := 5) h0 (by omega) (by omega), high_rn (code s 0) (by omega)]
  simp only [Cpu.high, Cpu.opnd, Cpu.store, rn5, rn8, rn6, ↓reduceIte]
  isa [h.reg]
  exact (h.base 1 1).acc _

theorem isa_xrlDir (h : Pre P s) (hd : decode (code s 0) = .xrlDir) :
    Rel s (exec P .xrlDir (code s 0) (after s 1 1)).2 (toCpu s).step := by
  have h0 := op_one hd
  have ht := h.tame1 (touch5 (k := 6) h0)
  rw [step_high (k := 6) (lo := 5) h0 (by decide) (by decide)]
  isa [h.dirR _ ht]
  exact (h.base 2 1).acc _

theorem isa_xrlRi (h : Pre P s) (hd : decode (code s 0) = .xrlRi) :
    Rel s (exec P .xrlRi (code s 0) (after s 1 1)).2 (toCpu s).step := by
  obtain ⟨h0, h1, h2⟩ := op_row hd
  have hr := h.riLt (k := 6) h0 (by omega)
  rw [step_high (k := 6) h0 (by omega) (by omega), high_ri (code s 0) (by omega)]
  simp only [Cpu.high, Cpu.opnd, Cpu.store, ri5, ri8, ri6, ↓reduceIte]
  isa [h.riA, iramRead_after _ hr]
  exact (h.base 1 1).acc _

theorem isa_xrlRn (h : Pre P s) (hd : decode (code s 0) = .xrlRn) :
    Rel s (exec P .xrlRn (code s 0) (after s 1 1)).2 (toCpu s).step := by
  obtain ⟨h0, h1, h2⟩ := op_row hd
  rw [step_high (k := 6) h0 (by omega) (by omega), high_rn (code s 0) (by omega)]
  simp only [Cpu.high, Cpu.opnd, Cpu.store, rn5, rn8, rn6, ↓reduceIte]
  isa [h.reg]
  exact (h.base 1 1).acc _

theorem isa_addDir (h : Pre P s) (hd : decode (code s 0) = .addDir) :
    Rel s (exec P .addDir (code s 0) (after s 1 1)).2 (toCpu s).step := by
  have h0 := op_one hd
  have ht := h.tame1 (touch5 (k := 2) h0)
  rw [step_high (k := 2) (lo := 5) h0 (by decide) (by decide)]
  isa [h.dirR _ ht]
  exact (h.base 2 1).addBody _ 0 (by decide)

theorem isa_addRi (h : Pre P s) (hd : decode (code s 0) = .addRi) :
    Rel s (exec P .addRi (code s 0) (after s 1 1)).2 (toCpu s).step := by
  obtain ⟨h0, h1, h2⟩ := op_row hd
  have hr := h.riLt (k := 2) h0 (by omega)
  rw [step_high (k := 2) h0 (by omega) (by omega), high_ri (code s 0) (by omega)]
  simp only [Cpu.high, Cpu.opnd, Cpu.store, ri5, ri8, ri6, ↓reduceIte]
  isa [h.riA, iramRead_after _ hr]
  exact (h.base 1 1).addBody _ 0 (by decide)

theorem isa_addRn (h : Pre P s) (hd : decode (code s 0) = .addRn) :
    Rel s (exec P .addRn (code s 0) (after s 1 1)).2 (toCpu s).step := by
  obtain ⟨h0, h1, h2⟩ := op_row hd
  rw [step_high (k := 2) h0 (by omega) (by omega), high_rn (code s 0) (by omega)]
  simp only [Cpu.high, Cpu.opnd, Cpu.store, rn5, rn8, rn6, ↓reduceIte]
  isa [h.reg]
  exact (h.base 1 1).addBody _ 0 (by decide)

theorem isa_addcDir (h : Pre P s) (hd : decode (code s 0) = .addcDir) :
    Rel s (exec P .addcDir (code s 0) (after s 1 1)).2 (toCpu s).step := by
  have h0 := op_one hd
  have ht := h.tame1 (touch5 (k := 3) h0)
  rw [step_high (k := 3) (lo := 5) h0 (by decide) (by decide)]
  isa [h.dirR _ ht]
  exact (h.base 2 1).addBody _ _ (Bool.toNat_le _)

theorem isa_addcRi (h : Pre P s) (hd : decode (code s 0) = .addcRi) :
    Rel s (exec P .addcRi (code s 0) (after s 1 1)).2 (toCpu s).step := by
  obtain ⟨h0, h1, h2⟩ := op_row hd
  have hr := h.riLt (k := 3) h0 (by omega)
  rw [step_high (k := 3) h0 (by omega) (by omega), high_ri (code s 0) (by omega)]
  simp only [Cpu.high, Cpu.opnd, Cpu.store, ri5, ri8, ri6, ↓reduceIte]
  isa [h.riA, iramRead_after _ hr]
  exact (h.base 1 1).addBody _ _ (Bool.toNat_le _)

theorem isa_addcRn (h : Pre P s) (hd : decode (code s 0) = .addcRn) :
    Rel s (exec P .addcRn (code s 0) (after s 1 1)).2 (toCpu s).step := by
  obtain ⟨h0, h1, h2⟩ := op_row hd
  rw [step_high (k := 3) h0 (by omega) (by omega), high_rn (code s 0) (by omega)]
  simp only [Cpu.high, Cpu.opnd, Cpu.store, rn5, rn8, rn6, ↓reduceIte]
  isa [h.reg]
  exact (h.base 1 1).addBody _ _ (Bool.toNat_le _)

theorem isa_subbDir (h : Pre P s) (hd : decode (code s 0) = .subbDir) :
    Rel s (exec P .subbDir (code s 0) (after s 1 1)).2 (toCpu s).step := by
  have h0 := op_one hd
  have ht := h.tame1 (touch5 (k := 9) h0)
  rw [step_high (k := 9) (lo := 5) h0 (by decide) (by decide)]
  isa [h.dirR _ ht]
  exact (h.base 2 1).subbBody _ _ rfl h.ok.bank

theorem isa_subbRi (h : Pre P s) (hd : decode (code s 0) = .subbRi) :
    Rel s (exec P .subbRi (code s 0) (after s 1 1)).2 (toCpu s).step := by
  obtain ⟨h0, h1, h2⟩ := op_row hd
  have hr := h.riLt (k := 9) h0 (by omega)
  rw [step_high (k := 9) h0 (by omega) (by omega), high_ri (code s 0) (by omega)]
  simp only [Cpu.high, Cpu.opnd, Cpu.store, ri5, ri8, ri6, ↓reduceIte]
  isa [h.riA, iramRead_after _ hr]
  exact (h.base 1 1).subbBody _ _ rfl h.ok.bank

theorem isa_subbRn (h : Pre P s) (hd : decode (code s 0) = .subbRn) :
    Rel s (exec P .subbRn (code s 0) (after s 1 1)).2 (toCpu s).step := by
  obtain ⟨h0, h1, h2⟩ := op_row hd
  rw [step_high (k := 9) h0 (by omega) (by omega), high_rn (code s 0) (by omega)]
  simp only [Cpu.high, Cpu.opnd, Cpu.store, rn5, rn8, rn6, ↓reduceIte]
  isa [h.reg]
  exact (h.base 1 1).subbBody _ _ rfl h.ok.bank

theorem isa_incDir (h : Pre P s) (hd : decode (code s 0) = .incDir) :
    Rel s (exec P .incDir (code s 0) (after s 1 1)).2 (toCpu s).step := by
  have h0 := op_one hd
  have ht := h.tame1 (touch5 (k := 0) h0)
  rw [step_high (k := 0) (lo := 5) h0 (by decide) (by decide)]
  isa [h.dirR _ ht]
  exact (h.base 2 1).dirWrite h.ok.size _ ht _

theorem isa_incRi (h : Pre P s) (hd : decode (code s 0) = .incRi) :
    Rel s (exec P .incRi (code s 0) (after s 1 1)).2 (toCpu s).step := by
  obtain ⟨h0, h1, h2⟩ := op_row hd
  have hr := h.riLt (k := 0) h0 (by omega)
  rw [step_high (k := 0) h0 (by omega) (by omega), high_ri (code s 0) (by omega)]
  simp only [Cpu.high, Cpu.opnd, Cpu.store, ri5, ri8, ri6, ↓reduceIte]
  isa [h.riA, iramRead_after _ hr]
  exact (h.base 1 1).iramWrite _ hr _

theorem isa_incRn (h : Pre P s) (hd : decode (code s 0) = .incRn) :
    Rel s (exec P .incRn (code s 0) (after s 1 1)).2 (toCpu s).step := by
  obtain ⟨h0, h1, h2⟩ := op_row hd
  rw [step_high (k := 0) h0 (by omega) (by omega), high_rn (code s 0) (by omega)]
  simp only [Cpu.high, Cpu.opnd, Cpu.store, rn5, rn8, rn6, ↓reduceIte]
  isa [h.reg]
  exact (h.base 1 1).regWrite _ _

theorem isa_decDir (h : Pre P s) (hd : decode (code s 0) = .decDir) :
    Rel s (exec P .decDir (code s 0) (after s 1 1)).2 (toCpu s).step := by
  have h0 := op_one hd
  have ht := h.tame1 (touch5 (k := 1) h0)
  rw [step_high (k := 1) (lo := 5) h0 (by decide) (by decide)]
  isa [h.dirR _ ht]
  exact (h.base 2 1).dirWrite h.ok.size _ ht _

theorem isa_decRi (h : Pre P s) (hd : decode (code s 0) = .decRi) :
    Rel s (exec P .decRi (code s 0) (after s 1 1)).2 (toCpu s).step := by
  obtain ⟨h0, h1, h2⟩ := op_row hd
  have hr := h.riLt (k := 1) h0 (by omega)
  rw [step_high (k := 1) h0 (by omega) (by omega), high_ri (code s 0) (by omega)]
  simp only [Cpu.high, Cpu.opnd, Cpu.store, ri5, ri8, ri6, ↓reduceIte]
  isa [h.riA, iramRead_after _ hr]
  exact (h.base 1 1).iramWrite _ hr _

theorem isa_decRn (h : Pre P s) (hd : decode (code s 0) = .decRn) :
    Rel s (exec P .decRn (code s 0) (after s 1 1)).2 (toCpu s).step := by
  obtain ⟨h0, h1, h2⟩ := op_row hd
  rw [step_high (k := 1) h0 (by omega) (by omega), high_rn (code s 0) (by omega)]
  simp only [Cpu.high, Cpu.opnd, Cpu.store, rn5, rn8, rn6, ↓reduceIte]
  isa [h.reg]
  exact (h.base 1 1).regWrite _ _

theorem isa_movRiImm (h : Pre P s) (hd : decode (code s 0) = .movRiImm) :
    Rel s (exec P .movRiImm (code s 0) (after s 1 1)).2 (toCpu s).step := by
  obtain ⟨h0, h1, h2⟩ := op_row hd
  have hr := h.riLt (k := 7) h0 (by omega)
  rw [step_high (k := 7) h0 (by omega) (by omega), high_ri (code s 0) (by omega)]
  simp only [Cpu.high, Cpu.opnd, Cpu.store, ri5, ri8, ri6, ↓reduceIte]
  isa [h.riA, iramRead_after _ hr]
  exact (h.base 2 1).iramWrite _ hr _

theorem isa_movRnImm (h : Pre P s) (hd : decode (code s 0) = .movRnImm) :
    Rel s (exec P .movRnImm (code s 0) (after s 1 1)).2 (toCpu s).step := by
  obtain ⟨h0, h1, h2⟩ := op_row hd
  rw [step_high (k := 7) h0 (by omega) (by omega), high_rn (code s 0) (by omega)]
  simp only [Cpu.high, Cpu.opnd, Cpu.store, rn5, rn8, rn6, ↓reduceIte]
  isa [h.reg]
  exact (h.base 2 1).regWrite _ _

theorem isa_movDirImm (h : Pre P s) (hd : decode (code s 0) = .movDirImm) :
    Rel s (exec P .movDirImm (code s 0) (after s 1 1)).2 (toCpu s).step := by
  have h0 := op_one hd
  have ht := h.tame1 (touch5 (k := 7) h0)
  rw [step_high (k := 7) (lo := 5) h0 (by decide) (by decide)]
  isa [h.dirR _ ht]
  exact ((h.base 3 1).dirWrite h.ok.size _ ht _).tick 1

theorem isa_movRiDir (h : Pre P s) (hd : decode (code s 0) = .movRiDir) :
    Rel s (exec P .movRiDir (code s 0) (after s 1 1)).2 (toCpu s).step := by
  obtain ⟨h0, h1, h2⟩ := op_row hd
  have hr := h.riLt (k := 10) h0 (by omega)
  rw [step_high (k := 10) h0 (by omega) (by omega), high_ri (code s 0) (by omega)]
  simp only [Cpu.high, Cpu.opnd, Cpu.store, ri5, ri8, ri6, ↓reduceIte]
  have ht := h.tame1 (touchR h0 (by omega))
  isa [h.dirR _ ht, h.riA, iramRead_after _ hr]
  exact ((h.base 2 1).iramWrite _ hr _).tick 1

theorem isa_movRnDir (h : Pre P s) (hd : decode (code s 0) = .movRnDir) :
    Rel s (exec P .movRnDir (code s 0) (after s 1 1)).2 (toCpu s).step := by
  obtain ⟨h0, h1, h2⟩ := op_row hd
  rw [step_high (k := 10) h0 (by omega) (by omega), high_rn (code s 0) (by omega)]
  simp only [Cpu.high, Cpu.opnd, Cpu.store, rn5, rn8, rn6, ↓reduceIte]
  have ht := h.tame1 (touchR h0 (by omega))
  isa [h.dirR _ ht, h.reg]
  exact ((h.base 2 1).regWrite _ _).tick 1

theorem isa_movDirRi (h : Pre P s) (hd : decode (code s 0) = .movDirRi) :
    Rel s (exec P .movDirRi (code s 0) (after s 1 1)).2 (toCpu s).step := by
  obtain ⟨h0, h1, h2⟩ := op_row hd
  have hr := h.riLt (k := 8) h0 (by omega)
  rw [step_high (k := 8) h0 (by omega) (by omega), high_ri (code s 0) (by omega)]
  simp only [Cpu.high, Cpu.opnd, Cpu.store, ri5, ri8, ri6, ↓reduceIte]
  have ht := h.tame1 (touchR h0 (by omega))
  isa [h.riA, iramRead_after _ hr]
  exact ((h.base 2 1).dirWrite h.ok.size _ ht _).tick 1

theorem isa_movDirRn (h : Pre P s) (hd : decode (code s 0) = .movDirRn) :
    Rel s (exec P .movDirRn (code s 0) (after s 1 1)).2 (toCpu s).step := by
  obtain ⟨h0, h1, h2⟩ := op_row hd
  rw [step_high (k := 8) h0 (by omega) (by omega), high_rn (code s 0) (by omega)]
  simp only [Cpu.high, Cpu.opnd, Cpu.store, rn5, rn8, rn6, ↓reduceIte]
  have ht := h.tame1 (touchR h0 (by omega))
  isa [h.reg]
  exact ((h.base 2 1).dirWrite h.ok.size _ ht _).tick 1

theorem isa_movDirDir (h : Pre P s) (hd : decode (code s 0) = .movDirDir) :
    Rel s (exec P .movDirDir (code s 0) (after s 1 1)).2 (toCpu s).step := by
  have h0 := op_one hd
  have ht := h.tame1 (touch5 (k := 8) h0)
  rw [step_high (k := 8) (lo := 5) h0 (by decide) (by decide)]
  have ht2 := h.dir (code s 2) (touch85 h0)
  isa [h.dirR _ ht]
  exact ((h.base 3 1).dirWrite h.ok.size _ ht2 _).tick 1

theorem isa_xchRi (h : Pre P s) (hd : decode (code s 0) = .xchRi) :
    Rel s (exec P .xchRi (code s 0) (after s 1 1)).2 (toCpu s).step := by
  obtain ⟨h0, h1, h2⟩ := op_row hd
  have hr := h.riLt (k := 12) h0 (by omega)
  rw [step_high (k := 12) h0 (by omega) (by omega), high_ri (code s 0) (by omega)]
  simp only [Cpu.high, Cpu.opnd, Cpu.store, ri5, ri8, ri6, ↓reduceIte]
  isa [h.riA, iramRead_after _ hr]
  exact ((h.base 1 1).acc _).iramWrite _ hr _

theorem isa_xchRn (h : Pre P s) (hd : decode (code s 0) = .xchRn) :
    Rel s (exec P .xchRn (code s 0) (after s 1 1)).2 (toCpu s).step := by
  obtain ⟨h0, h1, h2⟩ := op_row hd
  rw [step_high (k := 12) h0 (by omega) (by omega), high_rn (code s 0) (by omega)]
  simp only [Cpu.high, Cpu.opnd, Cpu.store, rn5, rn8, rn6, ↓reduceIte]
  isa [h.reg]
  exact ((h.base 1 1).acc _).regWrite _ _

theorem isa_xchDir (h : Pre P s) (hd : decode (code s 0) = .xchDir) :
    Rel s (exec P .xchDir (code s 0) (after s 1 1)).2 (toCpu s).step := by
  have h0 := op_one hd
  have ht := h.tame1 (touch5 (k := 12) h0)
  rw [step_high (k := 12) (lo := 5) h0 (by decide) (by decide)]
  isa [h.dirR _ ht]
  exact ((h.base 2 1).acc _).dirWrite h.ok.size _ ht _

theorem isa_xchd (h : Pre P s) (hd : decode (code s 0) = .xchd) :
    Rel s (exec P .xchd (code s 0) (after s 1 1)).2 (toCpu s).step := by
  obtain ⟨h0, h1, h2⟩ := op_row hd
  have hr := h.riLt (k := 13) h0 (by omega)
  rw [step_high (k := 13) h0 (by omega) (by omega), high_ri (code s 0) (by omega)]
  simp only [Cpu.high, Cpu.opnd, Cpu.store, ri5, ri8, ri6, ↓reduceIte]
  isa [h.riA, iramRead_after _ hr]
  exact ((h.base 1 1).iramWrite _ hr _).acc _

theorem isa_movARi (h : Pre P s) (hd : decode (code s 0) = .movARi) :
    Rel s (exec P .movARi (code s 0) (after s 1 1)).2 (toCpu s).step := by
  obtain ⟨h0, h1, h2⟩ := op_row hd
  have hr := h.riLt (k := 14) h0 (by omega)
  rw [step_high (k := 14) h0 (by omega) (by omega), high_ri (code s 0) (by omega)]
  simp only [Cpu.high, Cpu.opnd, Cpu.store, ri5, ri8, ri6, ↓reduceIte]
  isa [h.riA, iramRead_after _ hr]
  exact (h.base 1 1).acc _

theorem isa_movARn (h : Pre P s) (hd : decode (code s 0) = .movARn) :
    Rel s (exec P .movARn (code s 0) (after s 1 1)).2 (toCpu s).step := by
  obtain ⟨h0, h1, h2⟩ := op_row hd
  rw [step_high (k := 14) h0 (by omega) (by omega), high_rn (code s 0) (by omega)]
  simp only [Cpu.high, Cpu.opnd, Cpu.store, rn5, rn8, rn6, ↓reduceIte]
  isa [h.reg]
  exact (h.base 1 1).acc _

theorem isa_movRiA (h : Pre P s) (hd : decode (code s 0) = .movRiA) :
    Rel s (exec P .movRiA (code s 0) (after s 1 1)).2 (toCpu s).step := by
  obtain ⟨h0, h1, h2⟩ := op_row hd
  have hr := h.riLt (k := 15) h0 (by omega)
  rw [step_high (k := 15) h0 (by omega) (by omega), high_ri (code s 0) (by omega)]
  simp only [Cpu.high, Cpu.opnd, Cpu.store, ri5, ri8, ri6, ↓reduceIte]
  isa [h.riA, iramRead_after _ hr]
  exact (h.base 1 1).iramWrite _ hr _

theorem isa_movRnA (h : Pre P s) (hd : decode (code s 0) = .movRnA) :
    Rel s (exec P .movRnA (code s 0) (after s 1 1)).2 (toCpu s).step := by
  obtain ⟨h0, h1, h2⟩ := op_row hd
  rw [step_high (k := 15) h0 (by omega) (by omega), high_rn (code s 0) (by omega)]
  simp only [Cpu.high, Cpu.opnd, Cpu.store, rn5, rn8, rn6, ↓reduceIte]
  isa [h.reg]
  exact (h.base 1 1).regWrite _ _

theorem isa_movDirA (h : Pre P s) (hd : decode (code s 0) = .movDirA) :
    Rel s (exec P .movDirA (code s 0) (after s 1 1)).2 (toCpu s).step := by
  have h0 := op_one hd
  have ht := h.tame1 (touch5 (k := 15) h0)
  rw [step_high (k := 15) (lo := 5) h0 (by decide) (by decide)]
  isa [h.dirR _ ht]
  exact (h.base 2 1).dirWrite h.ok.size _ ht _

theorem isa_movADir (h : Pre P s) (hd : decode (code s 0) = .movADir) :
    Rel s (exec P .movADir (code s 0) (after s 1 1)).2 (toCpu s).step := by
  have h0 := op_one hd
  have ht := h.tame1 (touch5 (k := 14) h0)
  rw [step_high (k := 14) (lo := 5) h0 (by decide) (by decide)]
  isa [h.dirR _ ht]
  by_cases ha : (code s 1).toNat = ACC
  · rw [if_pos ha]
    have e : (toCpu s).high 14 5 (code s 1) (code s 2) = (toCpu s).next 2 := by
      show ((toCpu s).next 2).setA ((toCpu s).dir (code s 1)) = _
      have ed : (toCpu s).dir (code s 1) = s.sfr 0xe0 := by
        unfold Cpu.dir
        rw [ha]; rfl
      rw [ed]
      refine Isa.Cpu.ext rfl rfl ?_ rfl rfl
      funext x
      show Isa.put s.sfr 0xe0 (s.sfr 0xe0) x = s.sfr x
      unfold Isa.put
      split
      · next e => rw [e]
      · rfl
    rw [e]; exact h.base 2 1
  · rw [if_neg ha]
    isa [h.dirR _ ht]
    exact (h.base 2 1).acc _

theorem isa_orlImm (h : Pre P s) (hd : decode (code s 0) = .orlImm) :
    Rel s (exec P .orlImm (code s 0) (after s 1 1)).2 (toCpu s).step := by
  rw [step_four (op_one hd) (k := 4) rfl]
  isa [Nat.add_zero]
  exact (h.base 2 1).acc _

theorem isa_anlImm (h : Pre P s) (hd : decode (code s 0) = .anlImm) :
    Rel s (exec P .anlImm (code s 0) (after s 1 1)).2 (toCpu s).step := by
  rw [step_four (op_one hd) (k := 5) rfl]
  isa [Nat.add_zero]
  exact (h.base 2 1).acc _

theorem isa_xrlImm (h : Pre P s) (hd : decode (code s 0) = .xrlImm) :
    Rel s (exec P .xrlImm (code s 0) (after s 1 1)).2 (toCpu s).step := by
  rw [step_four (op_one hd) (k := 6) rfl]
  isa [Nat.add_zero]
  exact (h.base 2 1).acc _

theorem isa_movAImm (h : Pre P s) (hd : decode (code s 0) = .movAImm) :
    Rel s (exec P .movAImm (code s 0) (after s 1 1)).2 (toCpu s).step := by
  rw [step_four (op_one hd) (k := 7) rfl]
  isa [Nat.add_zero]
  exact (h.base 2 1).acc _

theorem isa_incA (h : Pre P s) (hd : decode (code s 0) = .incA) :
    Rel s (exec P .incA (code s 0) (after s 1 1)).2 (toCpu s).step := by
  rw [step_four (op_one hd) (k := 0) rfl]
  isa [Nat.add_zero]
  exact (h.base 1 1).acc _

theorem isa_decA (h : Pre P s) (hd : decode (code s 0) = .decA) :
    Rel s (exec P .decA (code s 0) (after s 1 1)).2 (toCpu s).step := by
  rw [step_four (op_one hd) (k := 1) rfl]
  isa [Nat.add_zero]
  exact (h.base 1 1).acc _

theorem isa_clrA (h : Pre P s) (hd : decode (code s 0) = .clrA) :
    Rel s (exec P .clrA (code s 0) (after s 1 1)).2 (toCpu s).step := by
  rw [step_four (op_one hd) (k := 14) rfl]
  isa [Nat.add_zero]
  exact (h.base 1 1).acc _

theorem isa_cplA (h : Pre P s) (hd : decode (code s 0) = .cplA) :
    Rel s (exec P .cplA (code s 0) (after s 1 1)).2 (toCpu s).step := by
  rw [step_four (op_one hd) (k := 15) rfl]
  isa [Nat.add_zero]
  exact (h.base 1 1).acc _

theorem isa_addImm (h : Pre P s) (hd : decode (code s 0) = .addImm) :
    Rel s (exec P .addImm (code s 0) (after s 1 1)).2 (toCpu s).step := by
  rw [step_four (op_one hd) (k := 2) rfl]
  isa [Nat.add_zero]
  exact (h.base 2 1).addBody _ 0 (by decide)

theorem isa_addcImm (h : Pre P s) (hd : decode (code s 0) = .addcImm) :
    Rel s (exec P .addcImm (code s 0) (after s 1 1)).2 (toCpu s).step := by
  rw [step_four (op_one hd) (k := 3) rfl]
  isa [Nat.add_zero]
  exact (h.base 2 1).addBody _ _ (Bool.toNat_le _)

theorem isa_subbImm (h : Pre P s) (hd : decode (code s 0) = .subbImm) :
    Rel s (exec P .subbImm (code s 0) (after s 1 1)).2 (toCpu s).step := by
  rw [step_four (op_one hd) (k := 9) rfl]
  isa [Nat.add_zero]
  exact (h.base 2 1).subbBody _ _ rfl h.ok.bank

theorem isa_swap (h : Pre P s) (hd : decode (code s 0) = .swap) :
    Rel s (exec P .swap (code s 0) (after s 1 1)).2 (toCpu s).step := by
  rw [step_four (op_one hd) (k := 12) rfl]
  isa [show ∀ a : Byte, byte (a.toNat * 16 + a.toNat / 16) = a.rotateLeft 4 by decide +kernel]
  exact (h.base 1 1).acc _

theorem isa_orlDirA (h : Pre P s) (hd : decode (code s 0) = .orlDirA) :
    Rel s (exec P .orlDirA (code s 0) (after s 1 1)).2 (toCpu s).step := by
  have h0 := op_one hd
  have ht := h.tame1 (touchD h0 (by decide))
  rw [step_low h0 (by decide)]
  isa [h.dirR _ ht]
  exact (h.base 2 1).dirWrite h.ok.size _ ht _

theorem isa_orlDirImm (h : Pre P s) (hd : decode (code s 0) = .orlDirImm) :
    Rel s (exec P .orlDirImm (code s 0) (after s 1 1)).2 (toCpu s).step := by
  have h0 := op_one hd
  have ht := h.tame1 (touchD h0 (by decide))
  rw [step_low h0 (by decide)]
  isa [h.dirR _ ht]
  exact ((h.base 3 1).dirWrite h.ok.size _ ht _).tick 1

theorem isa_anlDirA (h : Pre P s) (hd : decode (code s 0) = .anlDirA) :
    Rel s (exec P .anlDirA (code s 0) (after s 1 1)).2 (toCpu s).step := by
  have h0 := op_one hd
  have ht := h.tame1 (touchD h0 (by decide))
  rw [step_low h0 (by decide)]
  isa [h.dirR _ ht]
  exact (h.base 2 1).dirWrite h.ok.size _ ht _

theorem isa_anlDirImm (h : Pre P s) (hd : decode (code s 0) = .anlDirImm) :
    Rel s (exec P .anlDirImm (code s 0) (after s 1 1)).2 (toCpu s).step := by
  have h0 := op_one hd
  have ht := h.tame1 (touchD h0 (by decide))
  rw [step_low h0 (by decide)]
  isa [h.dirR _ ht]
  exact ((h.base 3 1).dirWrite h.ok.size _ ht _).tick 1

theorem isa_xrlDirA (h : Pre P s) (hd : decode (code s 0) = .xrlDirA) :
    Rel s (exec P .xrlDirA (code s 0) (after s 1 1)).2 (toCpu s).step := by
  have h0 := op_one hd
  have ht := h.tame1 (touchD h0 (by decide))
  rw [step_low h0 (by decide)]
  isa [h.dirR _ ht]
  exact (h.base 2 1).dirWrite h.ok.size _ ht _

theorem isa_xrlDirImm (h : Pre P s) (hd : decode (code s 0) = .xrlDirImm) :
    Rel s (exec P .xrlDirImm (code s 0) (after s 1 1)).2 (toCpu s).step := by
  have h0 := op_one hd
  have ht := h.tame1 (touchD h0 (by decide))
  rw [step_low h0 (by decide)]
  isa [h.dirR _ ht]
  exact ((h.base 3 1).dirWrite h.ok.size _ ht _).tick 1

end Ucsim.S51
