import Verif.Proof.S51Bank

/- Branches. -/
namespace Ucsim.S51
open Spec

variable {H : Type} (P : Hw H)

theorem validate_eq (n : Nat) (hn : n < 0x10000) (d : Byte) :
    validate ((n : Int) + d.toInt) = if (n : Int) + d.toInt = 0x10000 then 0x10000 else (((n : Int) + d.toInt) % 0x10000).toNat := by
  have h1 := d.isLt
  unfold validate
  rw [BitVec.toInt_eq_toNat_cond]
  simp only
  split <;> split <;> split <;> omega

theorem relJump_to (d : Byte) (s : St H) : (relJump d s).2.pc = validate ((s.pc : Int) + d.toInt) := rfl
theorem branchIf_to (b : Bool) (d : Byte) (s : St H) :
    (branchIf b d s).2.pc = if b then validate ((s.pc : Int) + d.toInt) else s.pc := by
  unfold branchIf; cases b <;> rfl

theorem bitTest : ∀ (x : Byte) (i : Fin 8), ((x &&& (1#8 <<< i.val)) != 0#8) = x.getLsbD i.val := by decide +kernel

theorem bitTest' (x b : Byte) : ((x &&& bitMask b) != 0#8) = x.getLsbD (b.toNat % 8) :=
  bitTest x ⟨b.toNat % 8, Nat.mod_lt _ (by decide)⟩

theorem bitBase : ∀ b : Byte, (b &&& 0xf8#8).toNat = b.toNat / 8 * 8 := by decide +kernel

theorem bitGet_val (b : Byte) (s : St H) : (bitGet b s).1 = bitStored s b := by
  unfold bitGet bitStored
  split <;> simp only [bitTest', bitBase]

theorem bitRead_val (b : Byte) (s : St H) : (bitRead P b s).1 = bitPin P s b := by
  unfold bitRead bitPin
  by_cases h : b.toNat < 0x80
  · rw [if_pos h, if_pos h, bitGet_val]; unfold bitStored; rw [if_pos h]
  · rw [if_neg h, if_neg h]
    have hb := b.isLt
    have e : (BitVec.ofNat 8 (b.toNat / 8 * 8)).toNat = b.toNat / 8 * 8 := by
      rw [BitVec.toNat_ofNat]; exact Nat.mod_eq_of_lt (by omega)
    simp only [bind_def, pure_def, bitTest', bitBase, direct, e]
    rw [if_neg (show ¬ b.toNat / 8 * 8 < 0x80 by omega)]
    unfold sfrRead
    split <;> rfl

/-- `n` bytes fetched, `k` cycles counted. -/
def after (s : St H) (n k : Nat) : St H :=
  { s with pc := (s.pc + n) % 0x10000, cyc := s.cyc + k, total := s.total + k }

theorem fetched_after (s : St H) : fetched s = after s 1 1 := rfl

theorem fetch_after (s : St H) (n k : Nat) : fetch P (after s n k) = (code s n, after s (n + 1) k) := by
  rw [fetch_eq P _ (Nat.mod_lt _ (by decide))]
  simp only [after, code, Prod.mk.injEq, true_and]
  refine St.ext ?_ rfl rfl rfl rfl rfl rfl rfl rfl rfl rfl rfl rfl
  show ((s.pc + n) % 0x10000 + 1) % 0x10000 = (s.pc + (n + 1)) % 0x10000
  omega

theorem tick_after (s : St H) (n k j : Nat) : tick j (after s n k) = ((), after s n (k + j)) := by
  simp only [tick, after, Nat.add_assoc]

theorem execInst_after (s : St H) (hp : s.pc < 0x10000) :
    execInst P s = exec P (decode (code s 0)) (code s 0) (after s 1 1) := execInst_eq P s hp

theorem after_pc (s : St H) (n k : Nat) : (after s n k).pc = (s.pc + n) % 0x10000 := rfl

theorem bitStored_after (s : St H) (n k : Nat) (b : Byte) : bitStored (after s n k) b = bitStored s b := rfl
theorem bitPin_after (s : St H) (n k : Nat) (b : Byte) : bitPin P (after s n k) b = bitPin P s b := rfl
theorem direct_after (s : St H) (n k : Nat) (b : Byte) : direct P (after s n k) b = direct P s b := rfl
theorem CYbit_get (s : St H) : (bitGet CYbit s).1 = CY s := bitGet_val CYbit s
theorem dirRead_val (s : St H) (hs : 0x80 ≤ P.iramSize) (a : Byte) : (dirRead P a false s).1 = direct P s a :=
  (dirRead_eq P s hs a).1
theorem bne_dec (a b : Byte) : (a != b) = decide (a ≠ b) := by by_cases h : a = b <;> simp [h]
theorem beq_dec (a b : Byte) : (a == b) = decide (a = b) := by by_cases h : a = b <;> simp [h]

theorem cjneBody_to (x d j : Byte) (s : St H) :
    (cjneBody x d j s).2.pc = if x ≠ d then validate ((s.pc : Int) + j.toInt) else s.pc := by
  simp only [cjneBody, bind_def, branchIf_to, bitSet_pc, bne_dec, decide_eq_true_eq]

theorem rel3 (s : St H) (o : Op) (hd : decode (code s 0) = o) (hl : relLen (code s 0) = 3) (h : Ok P s) (b : Bool)
    (hb : taken P s = b)
    (he : (exec P o (code s 0) (after s 1 1)).2.pc =
      if b then validate (((s.pc + 3) % 0x10000 : Nat) + (code s 2).toInt) else (s.pc + 3) % 0x10000) :
    (execInst P s).2.pc = if taken P s then validate (relTarget s) else (s.pc + relLen (code s 0)) % 0x10000 := by
  rw [execInst_after P s h.pc, hd, he, hb, hl]; unfold relTarget; rw [hl]

theorem rel2 (s : St H) (o : Op) (hd : decode (code s 0) = o) (hl : relLen (code s 0) = 2) (h : Ok P s) (b : Bool)
    (hb : taken P s = b)
    (he : (exec P o (code s 0) (after s 1 1)).2.pc =
      if b then validate (((s.pc + 2) % 0x10000 : Nat) + (code s 1).toInt) else (s.pc + 2) % 0x10000) :
    (execInst P s).2.pc = if taken P s then validate (relTarget s) else (s.pc + relLen (code s 0)) % 0x10000 := by
  rw [execInst_after P s h.pc, hd, he, hb, hl]; unfold relTarget; rw [hl]

theorem relReg : ∀ c : Byte, (0xb8 ≤ c.toNat → c.toNat ≤ 0xbf → decode c = .cjneRn ∧ relLen c = 3) ∧
    (0xd8 ≤ c.toNat → c.toNat ≤ 0xdf → decode c = .djnzRn ∧ relLen c = 2) ∧
    (0xb6 ≤ c.toNat → c.toNat ≤ 0xb7 → decode c = .cjneRi ∧ relLen c = 3) := by decide +kernel

theorem relCases : ∀ c : Byte, isRelative c = true → c = 0x10#8 ∨ c = 0x20#8 ∨ c = 0x30#8 ∨ c = 0x40#8 ∨ c = 0x50#8 ∨
    c = 0x60#8 ∨ c = 0x70#8 ∨ c = 0x80#8 ∨ c = 0xb4#8 ∨ c = 0xb5#8 ∨ (0xb6 ≤ c.toNat ∧ c.toNat ≤ 0xb7) ∨
    (0xb8 ≤ c.toNat ∧ c.toNat ≤ 0xbf) ∨ c = 0xd5#8 ∨ (0xd8 ≤ c.toNat ∧ c.toNat ≤ 0xdf) := by decide +kernel

theorem dec_ne : ∀ d : Byte, (d - 1#8 != 0#8) = decide (d ≠ 1#8) := by decide +kernel

/-- The decrement of DJNZ direct: what it leaves. -/
theorem djnzDir_to (ad j : Byte) (s : St H) (hs : 0x80 ≤ P.iramSize) :
    ((do
      let d ← dirRead P ad true
      let r ← (if ad.toNat < 0x80 then do
          iramWrite P ad.toNat (d - 1#8)
          pure (d - 1#8)
        else sfrWrite P ad.toNat (d - 1#8) : M H Byte)
      branchIf (r != 0#8) j : M H Unit) s).2.pc =
    if decremented P s ad ≠ 0#8 then validate ((s.pc : Int) + j.toInt) else s.pc := by
  simp only [bind_def, branchIf_to, bne_dec, decide_eq_true_eq]
  unfold decremented
  by_cases h : ad.toNat < 0x80
  · simp only [if_pos h, bind_def, pure_def, iramWrite_pc, dirRead_pc]
    simp only [dirRead, if_pos h, iramRead, if_pos (Nat.lt_of_lt_of_le h hs)]
  · simp only [if_neg h, dirRead, sfrWrite_pc, sfrRead_pc]
    have e : ∀ (v : Byte) (u : St H), isCore ad.toNat = true → (sfrWrite P ad.toNat v u).1 = v := by
      intro v u hc
      unfold sfrWrite
      by_cases h1 : ad.toNat = ACC
      · rw [if_pos h1]
      · rw [if_neg h1]
        by_cases h2 : ad.toNat = PSW
        · rw [if_pos h2]
        · rw [if_neg h2, if_pos hc]
    by_cases hc : isCore ad.toNat = true
    · simp only [e _ _ hc, sfrRead, if_pos hc]
    · have h1 : ad.toNat ≠ ACC := fun h => hc (by rw [h]; decide)
      have h2 : ad.toNat ≠ PSW := fun h => hc (by rw [h]; decide)
      simp only [sfrRead, if_neg hc, sfrWrite, if_neg h1, if_neg h2]

/-- Where a relative branch goes, before interpretation of the address. -/
theorem rel_pc (s : St H) (h : Ok P s) (hr : isRelative (code s 0) = true) :
    (execInst P s).2.pc = if taken P s then validate (relTarget s) else (s.pc + relLen (code s 0)) % 0x10000 := by
  have hR : ∀ n k j, (regRead j (after s n k)).1 = R s j := fun n k j => regRead_eq (after s n k) h.bank j
  rcases relCases _ hr with hc | hc | hc | hc | hc | hc | hc | hc | hc | hc | hc | hc | hc | hc
  · refine rel3 P s .jbc (by rw [hc]; decide) (by rw [hc]; decide) h (bitStored s (code s 1)) (by unfold taken; simp only [hc]; rfl) ?_
    simp only [exec, bind_def, fetch_after, bitGet_val, bitGet_pc, bitStored_after]
    cases bitStored s (code s 1)
    · rfl
    · simp only [if_true, bind_def, tick_pc, relJump_to, bitWrite_pc, after_pc]
  · refine rel3 P s .jb (by rw [hc]; decide) (by rw [hc]; decide) h (bitPin P s (code s 1)) (by unfold taken; simp only [hc]; rfl) ?_
    simp only [exec, bind_def, fetch_after, tick_after, bitRead_val, branchIf_to, bitRead_pc, bitPin_after, after_pc]
  · refine rel3 P s .jnb (by rw [hc]; decide) (by rw [hc]; decide) h (!bitPin P s (code s 1)) (by unfold taken; simp only [hc]; rfl) ?_
    simp only [exec, bind_def, fetch_after, tick_after, bitRead_val, branchIf_to, bitRead_pc, bitPin_after, after_pc]
  · refine rel2 P s .jc (by rw [hc]; decide) (by rw [hc]; decide) h (CY s) (by unfold taken; simp only [hc]; rfl) ?_
    simp only [exec, bind_def, fetch_after, tick_after, branchIf_to, bitGet_pc, CYbit_get, after_pc]; rfl
  · refine rel2 P s .jnc (by rw [hc]; decide) (by rw [hc]; decide) h (!CY s) (by unfold taken; simp only [hc]; rfl) ?_
    simp only [exec, bind_def, fetch_after, tick_after, branchIf_to, bitGet_pc, CYbit_get, after_pc]; rfl
  · refine rel2 P s .jz (by rw [hc]; decide) (by rw [hc]; decide) h (decide (A s = 0#8)) (by unfold taken; simp only [hc]; rfl) ?_
    simp only [exec, bind_def, fetch_after, tick_after, branchIf_to, accRead_pc, after_pc, beq_dec]; rfl
  · refine rel2 P s .jnz (by rw [hc]; decide) (by rw [hc]; decide) h (decide (A s ≠ 0#8)) (by unfold taken; simp only [hc]; rfl) ?_
    simp only [exec, bind_def, fetch_after, tick_after, branchIf_to, accRead_pc, after_pc, bne_dec]; rfl
  · refine rel2 P s .sjmp (by rw [hc]; decide) (by rw [hc]; decide) h true (by unfold taken; simp only [hc]; rfl) ?_
    simp only [exec, bind_def, fetch_after, tick_pc, relJump_to, after_pc, if_true]
  · refine rel3 P s .cjneAImm (by rw [hc]; decide) (by rw [hc]; decide) h (decide (A s ≠ code s 1)) (by unfold taken; simp only [hc]; rfl) ?_
    simp only [exec, bind_def, fetch_after, tick_after, cjneBody_to, accRead_pc, after_pc, decide_eq_true_eq]; rfl
  · refine rel3 P s .cjneADir (by rw [hc]; decide) (by rw [hc]; decide) h (decide (A s ≠ direct P s (code s 1))) (by unfold taken; simp only [hc]; rfl) ?_
    simp only [exec, bind_def, fetch_after, tick_after, cjneBody_to, accRead_pc, dirRead_pc, after_pc, decide_eq_true_eq,
      dirRead_val P _ h.size, direct_after]
    obtain ⟨-, hw, e⟩ := dirRead_eq P (after s 3 2) h.size (code s 1)
    rw [e]; rfl
  · refine rel3 P s .cjneRi ((relReg _).2.2 hc.1 hc.2).1 ((relReg _).2.2 hc.1 hc.2).2 h
      (decide (indirect P s (R s ((code s 0).toNat % 2)) ≠ code s 1)) ?_ ?_
    · unfold taken
      simp only []
      rw [if_neg (by omega), if_neg (by omega), if_neg (by omega), if_neg (by omega), if_neg (by omega), if_neg (by omega),
        if_neg (by omega), if_neg (by omega), if_neg (by omega), if_neg (by omega), if_pos (by omega)]
    · simp only [exec, bind_def, riAddr, fetch_after, tick_after, cjneBody_to, regRead_pc, pure_def, iramRead_pc, after_pc,
        decide_eq_true_eq, hR]
      rfl
  · refine rel3 P s .cjneRn ((relReg _).1 hc.1 hc.2).1 ((relReg _).1 hc.1 hc.2).2 h
      (decide (R s ((code s 0).toNat % 8) ≠ code s 1)) ?_ ?_
    · unfold taken
      simp only []
      rw [if_neg (by omega), if_neg (by omega), if_neg (by omega), if_neg (by omega), if_neg (by omega), if_neg (by omega),
        if_neg (by omega), if_neg (by omega), if_neg (by omega), if_neg (by omega), if_neg (by omega), if_pos (by omega)]
    · simp only [exec, bind_def, fetch_after, tick_after, cjneBody_to, regRead_pc, after_pc,
        decide_eq_true_eq, hR]
      rfl
  · refine rel3 P s .djnzDir (by rw [hc]; decide) (by rw [hc]; decide) h (decide (decremented P s (code s 1) ≠ 0#8)) (by unfold taken; simp only [hc]; rfl) ?_
    have := djnzDir_to P (code s 1) (code s 2) (after s 3 2) h.size
    simp only [exec, bind_def, fetch_after, tick_after, decide_eq_true_eq] at this ⊢
    exact this
  · refine rel2 P s .djnzRn ((relReg _).2.1 hc.1 hc.2).1 ((relReg _).2.1 hc.1 hc.2).2 h
      (decide (R s ((code s 0).toNat % 8) ≠ 1#8)) ?_ ?_
    · unfold taken
      simp only []
      rw [if_neg (by omega), if_neg (by omega), if_neg (by omega), if_neg (by omega), if_neg (by omega), if_neg (by omega),
        if_neg (by omega), if_neg (by omega), if_neg (by omega), if_neg (by omega), if_neg (by omega), if_neg (by omega),
        if_neg (by omega)]
    · simp only [exec, bind_def, fetch_after, tick_after, branchIf_to, regRead_pc, regWrite_pc, after_pc,
        decide_eq_true_eq, hR, dec_ne]
      rfl

end Ucsim.S51
