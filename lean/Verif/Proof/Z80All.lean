import Verif.Proof.Z80Step3
import Verif.Proof.Z80Pc

namespace Ucsim.Z80
open Isa (Flags Differs)

/-- Everything the body means is done as the manual says. -/
theorem good_of_conv (x : Ix) (k : Nat) (off : Byte) (i : Inst) (ins : Isa.Ins) (h : conv x k i = some ins) : Good x k off i ins := by
  cases i with
  | nop => cases h; exact g_nop x k off
  | halt => cases h; exact g_halt x k off
  | inv => cases h
  | «prefix» => cases h
  | ld d s =>
    have h : (if s = .imm then (locO x k d).map .ldn else (locO x k d).bind fun a => (locO x (k + olen d) s).map fun b => .ld a b) = some ins := h
    split at h
    · rename_i hs; subst hs
      obtain ⟨a, h1, rfl⟩ := Option.map_eq_some_iff.mp h
      exact g_ldn x k off d a h1
    · obtain ⟨a, h1, h2⟩ := Option.bind_eq_some_iff.mp h
      obtain ⟨b, h3, rfl⟩ := Option.map_eq_some_iff.mp h2
      exact g_ld x k off d s a b h1 h3
  | ld16 p => cases h; exact g_ld16 x k off p
  | ldMA p => cases h; exact g_ldMA x k off p
  | ldAM p => cases h; exact g_ldAM x k off p
  | stRP p => cases h; exact g_stRP x k off p
  | ldRP p => cases h; exact g_ldRP x k off p
  | stA => cases h; exact g_stA x k off
  | ldA => cases h; exact g_ldA x k off
  | ldSP p => obtain ⟨a, h1, rfl⟩ := Option.map_eq_some_iff.mp h; exact g_ldSP x k off p a h1
  | inc16 p => cases h; exact g_inc16 x k off p
  | dec16 p => cases h; exact g_dec16 x k off p
  | inc8 o => obtain ⟨a, h1, rfl⟩ := Option.map_eq_some_iff.mp h; exact g_inc8 x k off o a h1
  | dec8 o => obtain ⟨a, h1, rfl⟩ := Option.map_eq_some_iff.mp h; exact g_dec8 x k off o a h1
  | add16 d p => obtain ⟨a, h1, rfl⟩ := Option.map_eq_some_iff.mp h; exact g_add16 x k off d p a h1
  | adcHL p => obtain rfl := Option.some.inj h; exact g_adcHL x k off p
  | sbcHL p => obtain rfl := Option.some.inj h; exact g_sbcHL x k off p
  | alu a o =>
    have h : (if o = .imm then some (.alun (numAlu a)) else (locO x k o).map (.alu (numAlu a))) = some ins := h
    split at h
    · rename_i hs; subst hs; cases h; exact g_alun x k off a
    · obtain ⟨b, h1, rfl⟩ := Option.map_eq_some_iff.mp h; exact g_alu x k off a o b h1
  | jr => obtain ⟨hk, rfl⟩ := onlyIf_some h; obtain rfl := beq_iff_eq.mp hk; exact g_jr x off
  | djnz => obtain ⟨hk, rfl⟩ := onlyIf_some h; obtain rfl := beq_iff_eq.mp hk; exact g_djnz x off
  | jrIf g v =>
    obtain ⟨c, h1, h2⟩ := Option.bind_eq_some_iff.mp h
    obtain ⟨hk, rfl⟩ := onlyIf_some h2; obtain rfl := beq_iff_eq.mp hk; exact g_jrIf x off g v c h1
  | jp => cases h; exact g_jp x k off
  | jpIf g v => obtain ⟨c, h1, rfl⟩ := Option.map_eq_some_iff.mp h; exact g_jpIf x k off g v c h1
  | jpRP p => obtain ⟨a, h1, rfl⟩ := Option.map_eq_some_iff.mp h; exact g_jpRP x k off p a h1
  | call => obtain ⟨hk, rfl⟩ := onlyIf_some h; obtain rfl := beq_iff_eq.mp hk; exact g_call x off
  | callIf g v =>
    obtain ⟨c, h1, h2⟩ := Option.bind_eq_some_iff.mp h
    obtain ⟨hk, rfl⟩ := onlyIf_some h2; obtain rfl := beq_iff_eq.mp hk; exact g_callIf x off g v c h1
  | ret => cases h; exact g_ret x k off
  | retIf g v => obtain ⟨c, h1, rfl⟩ := Option.map_eq_some_iff.mp h; exact g_retIf x k off g v c h1
  | rst a =>
    obtain ⟨hk, rfl⟩ := onlyIf_some h
    rw [Bool.and_eq_true] at hk
    obtain rfl := beq_iff_eq.mp hk.1
    exact g_rst x off a _ (beq_iff_eq.mp hk.2)
  | push p => cases h; exact g_push x k off p
  | pushAF => cases h; exact g_pushAF x k off
  | pop p => cases h; exact g_pop x k off p
  | popAF => cases h; exact g_popAF x k off
  | exSP p => obtain ⟨a, h1, rfl⟩ := Option.map_eq_some_iff.mp h; exact g_exSP x k off p a h1
  | exDEHL => cases h; exact g_exDEHL x k off
  | exAF => cases h; exact g_exAF x k off
  | exx => cases h; exact g_exx x k off
  | di => cases h; exact g_di x k off
  | ei => cases h; exact g_ei x k off
  | inA => cases h; exact g_inA x k off
  | outA => cases h; exact g_outA x k off
  | rlca => cases h; exact g_rlca x k off
  | rrca => cases h; exact g_rrca x k off
  | rla => cases h; exact g_rla x k off
  | rra => cases h; exact g_rra x k off
  | daa => cases h; exact g_daa x k off
  | cpl => cases h; exact g_cpl x k off
  | scf => cases h; exact g_scf x k off
  | ccf => cases h; exact g_ccf x k off
  | rot r o =>
    obtain ⟨n, h1, h2⟩ := Option.bind_eq_some_iff.mp h
    obtain ⟨a, h3, rfl⟩ := Option.map_eq_some_iff.mp h2; exact g_rot x k off r n h1 o a h3
  | bit n o =>
    obtain ⟨b, h1, h2⟩ := Option.bind_eq_some_iff.mp h
    obtain ⟨a, h3, rfl⟩ := Option.map_eq_some_iff.mp h2; exact g_bit x k off n b h1 o a h3
  | res n o =>
    obtain ⟨b, h1, h2⟩ := Option.bind_eq_some_iff.mp h
    obtain ⟨a, h3, rfl⟩ := Option.map_eq_some_iff.mp h2; exact g_res x k off n b h1 o a h3
  | set n o =>
    obtain ⟨b, h1, h2⟩ := Option.bind_eq_some_iff.mp h
    obtain ⟨a, h3, rfl⟩ := Option.map_eq_some_iff.mp h2; exact g_set x k off n b h1 o a h3
  | xrot r o =>
    cases o with
    | some _ => cases h
    | none =>
      obtain ⟨n, h1, h2⟩ := Option.bind_eq_some_iff.mp h
      obtain ⟨hk, rfl⟩ := onlyIf_some h2; obtain rfl := beq_iff_eq.mp hk; exact g_xrot x off r n h1
  | xbit n =>
    obtain ⟨b, h1, h2⟩ := Option.bind_eq_some_iff.mp h
    obtain ⟨hk, rfl⟩ := onlyIf_some h2; obtain rfl := beq_iff_eq.mp hk; exact g_xbit x off n b h1
  | xres n o =>
    cases o with
    | some _ => cases h
    | none =>
      obtain ⟨b, h1, h2⟩ := Option.bind_eq_some_iff.mp h
      obtain ⟨hk, rfl⟩ := onlyIf_some h2; obtain rfl := beq_iff_eq.mp hk; exact g_xres x off n b h1
  | xset n o =>
    cases o with
    | some _ => cases h
    | none =>
      obtain ⟨b, h1, h2⟩ := Option.bind_eq_some_iff.mp h
      obtain ⟨hk, rfl⟩ := onlyIf_some h2; obtain rfl := beq_iff_eq.mp hk; exact g_xset x off n b h1
  | inC r => obtain ⟨n, h1, rfl⟩ := Option.map_eq_some_iff.mp h; exact g_inC x k off r n h1
  | inF => cases h
  | outC r => obtain ⟨n, h1, rfl⟩ := Option.map_eq_some_iff.mp h; exact g_outC x k off r n h1
  | out0 => cases h
  | im n => cases h; exact g_im x k off n
  | ldIA => cases h; exact g_ldIA x k off
  | ldRA => cases h; exact g_ldRA x k off
  | ldAI => cases h; exact g_ldAI x k off
  | ldAR => cases h; exact g_ldAR x k off
  | retN => cases h; exact g_retN x k off
  | neg => cases h; exact g_neg x k off
  | rrd => cases h; exact g_rrd x k off
  | rld => cases h; exact g_rld x k off
  | ldi => obtain ⟨hk, rfl⟩ := onlyIf_some h; obtain rfl := beq_iff_eq.mp hk; exact g_ldi x off false
  | ldd => obtain ⟨hk, rfl⟩ := onlyIf_some h; obtain rfl := beq_iff_eq.mp hk; exact g_ldi x off true
  | ldir => obtain ⟨hk, rfl⟩ := onlyIf_some h; obtain rfl := beq_iff_eq.mp hk; exact g_ldir x off
  | lddr => obtain ⟨hk, rfl⟩ := onlyIf_some h; obtain rfl := beq_iff_eq.mp hk; exact g_lddr x off
  | cpi => obtain ⟨hk, rfl⟩ := onlyIf_some h; obtain rfl := beq_iff_eq.mp hk; exact g_cpi x off
  | cpir => obtain ⟨hk, rfl⟩ := onlyIf_some h; obtain rfl := beq_iff_eq.mp hk; exact g_cpir x off
  | cpd => obtain ⟨hk, rfl⟩ := onlyIf_some h; exact fun _ _ _ _ _ _ _ hd => absurd trivial hd
  | cpdr => obtain ⟨hk, rfl⟩ := onlyIf_some h; exact fun _ _ _ _ _ _ _ hd => absurd trivial hd
  | ini => obtain ⟨hk, rfl⟩ := onlyIf_some h; exact fun _ _ _ _ _ _ _ hd => absurd trivial hd
  | ind => obtain ⟨hk, rfl⟩ := onlyIf_some h; exact fun _ _ _ _ _ _ _ hd => absurd trivial hd
  | inir => obtain ⟨hk, rfl⟩ := onlyIf_some h; exact fun _ _ _ _ _ _ _ hd => absurd trivial hd
  | indr => obtain ⟨hk, rfl⟩ := onlyIf_some h; exact fun _ _ _ _ _ _ _ hd => absurd trivial hd
  | outi => obtain ⟨hk, rfl⟩ := onlyIf_some h; exact fun _ _ _ _ _ _ _ hd => absurd trivial hd
  | outd => obtain ⟨hk, rfl⟩ := onlyIf_some h; exact fun _ _ _ _ _ _ _ hd => absurd trivial hd
  | otir => obtain ⟨hk, rfl⟩ := onlyIf_some h; exact fun _ _ _ _ _ _ _ hd => absurd trivial hd
  | otdr => obtain ⟨hk, rfl⟩ := onlyIf_some h; exact fun _ _ _ _ _ _ _ hd => absurd trivial hd

theorem good_of_means (x : Ix) (k : Nat) (off : Byte) (i : Inst) (ins : Isa.Ins) (h : means x k i ins = true) : Good x k off i ins := by
  unfold means at h
  rw [Bool.or_eq_true] at h
  rcases h with h | h
  · split at h
    · rename_i r r'
      obtain rfl := beq_iff_eq.mp h
      exact g_nop_ld x k off r
    · exact g_reti x k off
    · cases h
  · exact good_of_conv x k off i ins (beq_iff_eq.mp h)

/-- .. and PC stays within the memory. -/
theorem pc_of_conv (x : Ix) (k : Nat) (off : Byte) (i : Inst) (ins : Isa.Ins) (h : conv x k i = some ins) (s : St) (w : Word)
    (hd : ¬ Differs (base w s) (k + ilen i) ins) : (exec w.toNat x off i (adv w k s)).pc < 0x10000 := by
  by_cases h1 : i = .jr
  · subst h1
    obtain ⟨hk, rfl⟩ := onlyIf_some h; obtain rfl := beq_iff_eq.mp hk
    simp only [exec, fetch_adv]
    exact (abs_jump w s _ rfl hd).2
  by_cases h2 : ∃ g v, i = .jrIf g v
  · obtain ⟨g, v, rfl⟩ := h2
    obtain ⟨c, h1, h2⟩ := Option.bind_eq_some_iff.mp h
    obtain ⟨hk, rfl⟩ := onlyIf_some h2; obtain rfl := beq_iff_eq.mp hk
    simp only [exec, jrIf, fetch_adv, test_ok _ _ _ _ h1, abs_adv, nx_cond]
    have hd : ¬ ((base w s).cond c = true ∧ Isa.relDiffers (base w s)) := hd
    split <;> rename_i hc
    · exact (abs_jump w s _ rfl (fun e => hd ⟨hc, e⟩)).2
    · exact BitVec.isLt _
  by_cases h3 : i = .djnz
  · subst h3
    obtain ⟨hk, rfl⟩ := onlyIf_some h; obtain rfl := beq_iff_eq.mp hk
    simp only [exec, djnz, fetch_adv]
    have hd : ¬ ((s.b - 1).toNat ≠ 0 ∧ Isa.relDiffers (base w s)) := hd
    split <;> rename_i hc
    · have hc : s.b - 1 ≠ 0#8 := hc
      have hc : (s.b - 1).toNat ≠ 0 := fun e => hc (BitVec.eq_of_toNat_eq (by simpa using e))
      exact (abs_jump w { s with b := s.b - 1 } _ rfl (fun e => hd ⟨hc, e⟩)).2
    · exact BitVec.isLt _
  · exact exec_pc _ _ _ _ _ (BitVec.isLt _) w.isLt h1 (fun g v e => h2 ⟨g, v, e⟩) h3

theorem pc_of_means (x : Ix) (k : Nat) (off : Byte) (i : Inst) (ins : Isa.Ins) (h : means x k i ins = true) (s : St) (w : Word)
    (hd : ¬ Differs (base w s) (k + ilen i) ins) : (exec w.toNat x off i (adv w k s)).pc < 0x10000 := by
  unfold means at h
  rw [Bool.or_eq_true] at h
  rcases h with h | h
  · split at h
    · exact BitVec.isLt _
    · exact BitVec.isLt _
    · cases h
  · exact pc_of_conv x k off i ins (beq_iff_eq.mp h) s w hd

end Ucsim.Z80
