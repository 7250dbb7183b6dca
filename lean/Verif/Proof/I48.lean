import Verif.Spec.I48Diff
/- Steps towards the theorems about the MCS-48. -/
namespace Ucsim.I48

open Isa (next inPage)

/-! ### Addresses -/

theorem setPC_next : ∀ pc : Addr, (pc &&& 0x800#12) ||| ((pc + 1) &&& 0x7ff#12) = next pc := by decide +kernel

theorem append_bit (h : BitVec 4) (l : Byte) (i : Nat) :
    (h ++ l : Addr).getLsbD i = if i < 8 then l.getLsbD i else h.getLsbD (i - 8) := by
  have := BitVec.getLsbD_append (x := h) (y := l) (i := i)
  rw [show (h ++ l : Addr).getLsbD i = (h ++ l).getLsbD i from rfl, this]

theorem page_or (pc : Addr) (l : Byte) : (pc &&& 0xf00#12) ||| l.setWidth 12 = inPage pc l := by
  apply BitVec.eq_of_getLsbD_eq
  intro i hi
  unfold inPage
  rw [append_bit, BitVec.getLsbD_or, BitVec.getLsbD_and, BitVec.getLsbD_setWidth, BitVec.getLsbD_extractLsb']
  have h : i = 0 ∨ i = 1 ∨ i = 2 ∨ i = 3 ∨ i = 4 ∨ i = 5 ∨ i = 6 ∨ i = 7 ∨ i = 8 ∨ i = 9 ∨ i = 10 ∨ i = 11 := by omega
  rcases h with h | h | h | h | h | h | h | h | h | h | h | h <;> subst h <;> simp

theorem page_add (pc : Addr) (l : Byte) : (pc &&& 0xf00#12) + l.setWidth 12 = inPage pc l := by
  rw [← page_or]
  apply BitVec.add_eq_or_of_and_eq_zero
  apply BitVec.eq_of_getLsbD_eq
  intro i hi
  have h : i = 0 ∨ i = 1 ∨ i = 2 ∨ i = 3 ∨ i = 4 ∨ i = 5 ∨ i = 6 ∨ i = 7 ∨ i = 8 ∨ i = 9 ∨ i = 10 ∨ i = 11 := by omega
  rcases h with h | h | h | h | h | h | h | h | h | h | h | h <;> subst h <;> simp

theorem inPage_page (pc : Addr) (l : Byte) : inPage (pc &&& 0xf00#12) l = inPage pc l := by
  rw [← page_or, ← page_or]
  congr 1
  apply BitVec.eq_of_getLsbD_eq
  intro i hi
  simp

theorem long0 : ∀ (p : BitVec 3) (l : Byte), ((0#1 ++ p) ++ l : Addr) = (BitVec.ofBool false ++ p) ++ l := by decide +kernel
theorem long1 : ∀ (p : BitVec 3) (l : Byte), ((0#1 ++ p) ++ l : Addr) ||| 0x800#12 = (BitVec.ofBool true ++ p) ++ l := by
  decide +kernel

/-- The page of the second byte is that of the next instruction unless the byte is the last. -/
theorem same_page : ∀ pc : Addr, pc.extractLsb' 0 8 ≠ 0xfe#8 →
    (next (next pc)).extractLsb' 8 4 = (next pc).extractLsb' 8 4 := by decide +kernel

theorem other_page : ∀ pc : Addr, pc.extractLsb' 0 8 = 0xfe#8 →
    (next (next pc)).extractLsb' 8 4 ≠ (next pc).extractLsb' 8 4 := by decide +kernel

theorem inPage_same {pc : Addr} (h : pc.extractLsb' 0 8 ≠ 0xfe#8) (l : Byte) :
    inPage (next (next pc)) l = inPage (next pc) l := by
  unfold inPage; rw [same_page pc h]

theorem movp3_addr : ∀ (a : Byte), (0#12 ||| (0x300#12 + a.setWidth 12) : Addr) = 0x3#4 ++ a := by decide +kernel

theorem and800 : ∀ pc : Addr, pc.getLsbD 11 = false → pc &&& 0x800#12 = 0#12 := by decide +kernel

/-! ### fetch -/

/-- The state after a fetch. -/
def adv (s : St) : St := { s with pc := next s.pc, bus := if (next s.pc).toNat ≥ s.inner then (next s.pc).setWidth 8 else s.bus }

theorem fetch_eq (s : St) : fetch s = (romRd s s.pc, adv s) := by
  unfold fetch setPC adv latch
  rw [setPC_next]
  show (romRd s s.pc, _) = _
  by_cases h : (next s.pc).toNat ≥ s.inner
  · rw [if_pos h, if_pos h]
  · rw [if_neg h, if_neg h]

@[simp] theorem romRd_adv (s : St) (a : Addr) : romRd (adv s) a = romRd s a := rfl
@[simp] theorem ramRd_adv (s : St) (a : Byte) : ramRd (adv s) a = ramRd s a := rfl
@[simp] theorem regRd_adv (s : St) (n : Fin 8) : regRd (adv s) n = regRd s n := rfl
@[simp] theorem ptr_adv (s : St) (r : Bool) : ptr (adv s) r = ptr s r := rfl
@[simp] theorem adv_pc (s : St) : (adv s).pc = next s.pc := rfl

/-! ### Forgetting the BUS latch -/

def nobus (m : Isa.Mach) : Isa.Mach := { m with bus := 0 }

theorem nobus_adv (s : St) : nobus (abs (adv s)) = nobus { abs s with pc := next s.pc } := rfl

theorem nobus_ext {m m' : Isa.Mach} (h : nobus m = nobus m') (hb : m.bus = m'.bus) : m = m' := by
  cases m; cases m'
  simp only [nobus, Isa.Mach.mk.injEq] at h
  simp only at hb
  simp [h, hb]

/-! ### PSW -/

theorem has7 : ∀ p : Byte, has p flagC = p.getLsbD 7 := by decide +kernel
theorem has6 : ∀ p : Byte, has p flagA = p.getLsbD 6 := by decide +kernel
theorem has5 : ∀ p : Byte, has p flagF0 = p.getLsbD 5 := by decide +kernel
theorem has4 : ∀ p : Byte, has p flagBS = p.getLsbD 4 := by decide +kernel
theorem has_a0 : ∀ p : Byte, has p 1#8 = p.getLsbD 0 := by decide +kernel
theorem has_a7 : ∀ p : Byte, has p 0x80#8 = p.getLsbD 7 := by decide +kernel
theorem has_bit : ∀ (p : Byte) (b : BitVec 3), has p (1#8 <<< b.toNat) = p.getLsbD b.toNat := by decide +kernel

/-- `psw'` differs from `psw` only in C and AC. -/
theorem psw_CA (p : Byte) (c a : Bool) :
    let q := (let p := p &&& ~~~(flagC ||| flagA)
      let p := if c then p ||| flagC else p
      (if a then p ||| flagA else p) ||| 0x08#8)
    q.getLsbD 7 = c ∧ q.getLsbD 6 = a ∧ q.getLsbD 5 = p.getLsbD 5 ∧ q.getLsbD 4 = p.getLsbD 4 ∧
    q.extractLsb' 0 3 = p.extractLsb' 0 3 ∧ q.getLsbD 3 = true := by
  revert p c a; decide +kernel

theorem psw_C (p : Byte) (c : Bool) :
    let q := (if c then (p &&& ~~~flagC) ||| flagC else p &&& ~~~flagC) ||| 0x08#8
    q.getLsbD 7 = c ∧ q.getLsbD 6 = p.getLsbD 6 ∧ q.getLsbD 5 = p.getLsbD 5 ∧ q.getLsbD 4 = p.getLsbD 4 ∧
    q.extractLsb' 0 3 = p.extractLsb' 0 3 ∧ q.getLsbD 3 = true := by
  revert p c; decide +kernel

/-- A flag cleared, set, complemented; nothing else. -/
theorem psw_ops : ∀ p : Byte,
    ((p &&& ~~~flagC) ||| 8#8).getLsbD 7 = false ∧ ((p &&& ~~~flagC) ||| 8#8).getLsbD 6 = p.getLsbD 6 ∧
    ((p &&& ~~~flagC) ||| 8#8).getLsbD 5 = p.getLsbD 5 ∧ ((p &&& ~~~flagC) ||| 8#8).getLsbD 4 = p.getLsbD 4 ∧
    ((p &&& ~~~flagC) ||| 8#8).extractLsb' 0 3 = p.extractLsb' 0 3 ∧
    ((p ^^^ flagC) ||| 8#8).getLsbD 7 = !p.getLsbD 7 ∧ ((p ^^^ flagC) ||| 8#8).getLsbD 6 = p.getLsbD 6 ∧
    ((p ^^^ flagC) ||| 8#8).getLsbD 5 = p.getLsbD 5 ∧ ((p ^^^ flagC) ||| 8#8).getLsbD 4 = p.getLsbD 4 ∧
    ((p ^^^ flagC) ||| 8#8).extractLsb' 0 3 = p.extractLsb' 0 3 := by decide +kernel

theorem psw_F0 : ∀ p : Byte,
    ((p &&& ~~~flagF0) ||| 8#8).getLsbD 7 = p.getLsbD 7 ∧ ((p &&& ~~~flagF0) ||| 8#8).getLsbD 6 = p.getLsbD 6 ∧
    ((p &&& ~~~flagF0) ||| 8#8).getLsbD 5 = false ∧ ((p &&& ~~~flagF0) ||| 8#8).getLsbD 4 = p.getLsbD 4 ∧
    ((p &&& ~~~flagF0) ||| 8#8).extractLsb' 0 3 = p.extractLsb' 0 3 ∧
    ((p ^^^ flagF0) ||| 8#8).getLsbD 7 = p.getLsbD 7 ∧ ((p ^^^ flagF0) ||| 8#8).getLsbD 6 = p.getLsbD 6 ∧
    ((p ^^^ flagF0) ||| 8#8).getLsbD 5 = !p.getLsbD 5 ∧ ((p ^^^ flagF0) ||| 8#8).getLsbD 4 = p.getLsbD 4 ∧
    ((p ^^^ flagF0) ||| 8#8).extractLsb' 0 3 = p.extractLsb' 0 3 := by decide +kernel

theorem psw_BS : ∀ (p : Byte) (b : Bool),
    let q := (if b then p ||| flagBS else p &&& ~~~flagBS) ||| 8#8
    q.getLsbD 7 = p.getLsbD 7 ∧ q.getLsbD 6 = p.getLsbD 6 ∧ q.getLsbD 5 = p.getLsbD 5 ∧ q.getLsbD 4 = b ∧
    q.extractLsb' 0 3 = p.extractLsb' 0 3 := by decide +kernel

theorem psw_all : ∀ a : Byte,
    (a ||| 8#8).getLsbD 7 = a.getLsbD 7 ∧ (a ||| 8#8).getLsbD 6 = a.getLsbD 6 ∧ (a ||| 8#8).getLsbD 5 = a.getLsbD 5 ∧
    (a ||| 8#8).getLsbD 4 = a.getLsbD 4 ∧ (a ||| 8#8).extractLsb' 0 3 = a.extractLsb' 0 3 ∧ (a ||| 8#8).getLsbD 3 = true := by
  decide +kernel

theorem psw_read : ∀ p : Byte, p.getLsbD 3 = true →
    (BitVec.ofBool (p.getLsbD 7) ++ BitVec.ofBool (p.getLsbD 6) ++ BitVec.ofBool (p.getLsbD 5) ++
      BitVec.ofBool (p.getLsbD 4) ++ 1#1 ++ p.extractLsb' 0 3 : Byte) = p := by decide +kernel

/-! ### Registers and pointers -/

theorem regAddr_eq (s : St) (n : Fin 8) : regAddr s n = (abs s).regAt n := by
  unfold regAddr Isa.Mach.regAt abs
  rw [has4]
  cases s.psw.getLsbD 4
  · show 0#8 + _ = _
    simp
  · show 24#8 + _ = _
    simp [BitVec.ofNat_add]

theorem regRd_eq (s : St) (n : Fin 8) : regRd s n = (abs s).reg n := by
  unfold regRd Isa.Mach.reg
  rw [regAddr_eq]; rfl

theorem regWr_eq (s : St) (n : Fin 8) (v : Byte) : abs (regWr s n v) = (abs s).setReg n v := by
  unfold regWr Isa.Mach.setReg
  simp only [regAddr_eq]; rfl

theorem ptr_eq (s : St) (r : Bool) : ptr s r = (abs s).at' r := by
  unfold ptr Isa.Mach.at'; exact regRd_eq s _

theorem cell_eq {s : St} {p : Byte} (h : ¬ s.ramSize ≤ p.toNat) : (abs s).cell p = p := by
  unfold Isa.Mach.cell
  show BitVec.ofNat 8 (p.toNat % s.ramSize) = p
  rw [Nat.mod_eq_of_lt (by omega)]
  simp

theorem ramRd_eq {s : St} {p : Byte} (h : ¬ s.ramSize ≤ p.toNat) : ramRd s p = (abs s).get p := by
  unfold ramRd Isa.Mach.get
  rw [cell_eq h, if_pos (by omega)]; rfl

theorem ramWr_in {s : St} {p : Byte} (h : ¬ s.ramSize ≤ p.toNat) (v : Byte) :
    ramWr s p v = { s with iram := fun b => if b = p then v else s.iram b } := by
  unfold ramWr; rw [if_pos (by omega)]

theorem ramWr_eq {s : St} {p : Byte} (h : ¬ s.ramSize ≤ p.toNat) (v : Byte) : abs (ramWr s p v) = (abs s).put p v := by
  rw [ramWr_in h]
  unfold Isa.Mach.put
  rw [cell_eq h]; rfl

end Ucsim.I48
