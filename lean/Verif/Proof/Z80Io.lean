import Verif.Proof.Z80Main

/-
Block input and output: INI, IND, INIR, INDR, OUTD, OTDR do everything but set N.
-/
namespace Ucsim.Z80
open Isa (Flags Differs)

theorem setZ_ok (v f : Byte) : Flags.ofByte (setZ v f) = { Flags.ofByte f with z := v.toNat == 0 } := by
  have eZ : ∀ (c : Bool) (f : Byte), Flags.ofByte ((f &&& ~~~bitZ) ||| (if c = true then bitZ else 0#8)) = { Flags.ofByte f with z := c } := by decide +kernel
  have hz : setZ v f = ((f &&& ~~~bitZ) ||| (if (v.toNat == 0) = true then bitZ else 0#8)) := by
    unfold setZ
    congr 1
    rw [← zero_ok]
    simp
  rw [hz, eZ]

theorem abs_bf (s : St) (b f : Byte) : abs { s with b := b, f := f } = { abs s with b := b, f := .ofByte f } := rfl
theorem abs_b (s : St) (b : Byte) : abs { s with b := b } = { abs s with b := b } := rfl
theorem abs_out (s : St) (o : Byte → Byte) : abs { s with out := o } = { abs s with out := o } := rfl

theorem abs_blkIn (dn : Bool) (s : St) : abs (blkIn dn s) =
    { ((abs s).store (abs s).HL ((abs s).inp (abs s).c)).setPair (.idx .hl) (Isa.Mach.step1 dn (abs s).HL) with
      b := (abs s).b - 1, f := { (abs s).f with n := false, z := ((abs s).b - 1).toNat == 0 } } := by
  have hb : ∀ v t, (set16 .ix .hl v t).b = t.b ∧ (set16 .ix .hl v t).f = t.f := fun _ _ => ⟨rfl, rfl⟩
  have hs : ∀ a v t, (store1 a v t).b = t.b ∧ (store1 a v t).f = t.f := by
    intro a v t; unfold store1 wr; split <;> exact ⟨rfl, rfl⟩
  unfold blkIn
  simp only [abs_bf, abs_set16, abs_f, hl_eq, abs_store1, (hb _ _).1, (hb _ _).2, (hs _ _ _).1, (hs _ _ _).2, setZ_ok, fl_noN]
  cases dn <;> rfl

theorem abs_blkOut (s : St) : abs (blkOut true s) =
    { ((abs s).send (abs s).c ((abs s).mem (abs s).HL)).setPair (.idx .hl) (Isa.Mach.step1 true (abs s).HL) with
      b := (abs s).b - 1, f := { (abs s).f with n := false, z := ((abs s).b - 1).toNat == 0 } } := by
  have e : blkOut true s = set16 .ix .hl (hl s - 1)
      { s with b := s.b - 1, f := setZ (s.b - 1) (s.f &&& ~~~bitN), out := fun q => if q = s.c then get1 s (hl s) else s.out q } := rfl
  have k : ∀ (b f : Byte) (o : Byte → Byte), abs { s with b := b, f := f, out := o } = { abs s with b := b, f := .ofByte f, out := o } := fun _ _ _ => rfl
  rw [e, abs_set16, k, setZ_ok, fl_noN, get1_eq, hl_eq]
  rfl

/-- With N set. -/
def setN (m : Isa.Mach) : Isa.Mach := { m with f := { m.f with n := true } }

/-- The body does what the manual says, N apart. -/
def GoodN (x : Ix) (off : Byte) (i : Inst) (ins : Isa.Ins) : Prop :=
  ∀ (s : St) (w : Word) (u : Isa.Und), u.fl = (exec w.toNat x off i (adv w 2 s)).f →
    setN (abs (exec w.toNat x off i (adv w 2 s))) = Isa.exec u ins 2 (base w s)

theorem io_flags (f g : Flags) (fl : Byte) (hf : Flags.ofByte fl = { f with n := false, z := g.z }) (hg : g.cy = f.cy) :
    ({ s := fl.getLsbD 7, z := g.z, h := fl.getLsbD 4, pv := fl.getLsbD 2, n := true, cy := f.cy } : Flags) =
      { f with z := g.z, n := true } := by
  have a := congrArg Flags.s hf
  have b := congrArg Flags.h hf
  have c := congrArg Flags.pv hf
  have a : fl.getLsbD 7 = f.s := a
  have b : fl.getLsbD 4 = f.h := b
  have c : fl.getLsbD 2 = f.pv := c
  rw [a, b, c]

section
variable (x : Ix) (off : Byte)

theorem n_in (dn : Bool) (s : St) (w : Word) (u : Isa.Und) (c : Bool)
    (hu : u.fl = (again w.toNat c (blkIn dn (adv w 2 s))).f) (hc : c = true → ((base w s).b - 1).toNat ≠ 0) (rep : Bool)
    (hr : c = (rep && ((base w s).b - 1).toNat != 0)) :
    setN (abs (again w.toNat c (blkIn dn (adv w 2 s)))) = (base w s).blockIn u dn rep := by
  have e : Flags.ofByte u.fl = { (base w s).f with n := false, z := ((base w s).b - 1).toNat == 0 } := by
    have : (abs (again w.toNat c (blkIn dn (adv w 2 s)))).f = { (base w s).f with n := false, z := ((base w s).b - 1).toNat == 0 } := by
      rw [abs_again]
      have k : (abs (blkIn dn (adv w 2 s))).f = { (base w s).f with n := false, z := ((base w s).b - 1).toNat == 0 } := by
        rw [abs_blkIn, abs_adv]; rfl
      cases c <;> exact k
    rw [hu]; exact this
  have a : u.fl.getLsbD 7 = (base w s).f.s := congrArg Flags.s e
  have b : u.fl.getLsbD 4 = (base w s).f.h := congrArg Flags.h e
  have p : u.fl.getLsbD 2 = (base w s).f.pv := congrArg Flags.pv e
  unfold Isa.Mach.blockIn Isa.Mach.blockIoFlags
  rw [a, b, p, ← hr, abs_again, abs_blkIn, abs_adv]
  cases c <;> rfl

theorem n_out (s : St) (w : Word) (u : Isa.Und) (c : Bool)
    (hu : u.fl = (again w.toNat c (blkOut true (adv w 2 s))).f) (rep : Bool)
    (hr : c = (rep && ((base w s).b - 1).toNat != 0)) :
    setN (abs (again w.toNat c (blkOut true (adv w 2 s)))) = (base w s).blockOut u true rep := by
  have e : Flags.ofByte u.fl = { (base w s).f with n := false, z := ((base w s).b - 1).toNat == 0 } := by
    have : (abs (again w.toNat c (blkOut true (adv w 2 s)))).f = { (base w s).f with n := false, z := ((base w s).b - 1).toNat == 0 } := by
      rw [abs_again]
      have k : (abs (blkOut true (adv w 2 s))).f = { (base w s).f with n := false, z := ((base w s).b - 1).toNat == 0 } := by
        rw [abs_blkOut, abs_adv]; rfl
      cases c <;> exact k
    rw [hu]; exact this
  have a : u.fl.getLsbD 7 = (base w s).f.s := congrArg Flags.s e
  have b : u.fl.getLsbD 4 = (base w s).f.h := congrArg Flags.h e
  have p : u.fl.getLsbD 2 = (base w s).f.pv := congrArg Flags.pv e
  unfold Isa.Mach.blockOut Isa.Mach.blockIoFlags
  rw [a, b, p, ← hr, abs_again, abs_blkOut, abs_adv]
  cases c <;> rfl

theorem blkIn_b (dn : Bool) (s : St) (w : Word) : ((blkIn dn (adv w 2 s)).b != 0#8) = (((base w s).b - 1).toNat != 0) := by
  rw [nz_ok]
  have : (abs (blkIn dn (adv w 2 s))).b = (base w s).b - 1 := by rw [abs_blkIn, abs_adv]; rfl
  rw [show (blkIn dn (adv w 2 s)).b = (base w s).b - 1 from this]
theorem blkOut_b (s : St) (w : Word) : ((blkOut true (adv w 2 s)).b != 0#8) = (((base w s).b - 1).toNat != 0) := by
  rw [nz_ok]
  have : (abs (blkOut true (adv w 2 s))).b = (base w s).b - 1 := by rw [abs_blkOut, abs_adv]; rfl
  rw [show (blkOut true (adv w 2 s)).b = (base w s).b - 1 from this]

theorem n_ini : GoodN x off .ini (.bin false false) := fun s w u h => n_in false s w u false h (by simp) false rfl
theorem n_ind : GoodN x off .ind (.bin true false) := fun s w u h => n_in true s w u false h (by simp) false rfl
theorem n_outd : GoodN x off .outd (.bout true false) := fun s w u h => n_out s w u false h false rfl
theorem n_inir : GoodN x off .inir (.bin false true) := fun s w u h =>
  n_in false s w u _ h (by rw [blkIn_b]; simp) true (by rw [blkIn_b]; rfl)
theorem n_indr : GoodN x off .indr (.bin true true) := fun s w u h =>
  n_in true s w u _ h (by rw [blkIn_b]; simp) true (by rw [blkIn_b]; rfl)
theorem n_otdr : GoodN x off .otdr (.bout true true) := fun s w u h =>
  n_out s w u _ h true (by rw [blkOut_b]; rfl)
end

/-- The instructions of this file. -/
def blockIo : Isa.Ins → Bool
  | .bin _ _ => true
  | .bout dn _ => dn
  | _ => false

theorem ed_io : ∀ op : Byte, blockIo (Isa.decodeED op).1 = true → (Isa.decodeED op).2 = 2 ∧
    (at_ tabED op, (Isa.decodeED op).1) ∈ [(Inst.ini, Isa.Ins.bin false false), (.ind, .bin true false), (.inir, .bin false true),
      (.indr, .bin true true), (.outd, .bout true false), (.otdr, .bout true true)] := by decide +kernel
theorem no_io00 : ∀ op : Byte, blockIo (Isa.decode1 op).1 = false := by decide +kernel
theorem no_ioCB : ∀ op : Byte, blockIo (Isa.decodeCB op).1 = false := by decide +kernel
theorem no_ioX (x : Ix) : ∀ op : Byte, blockIo (Isa.decodeX (toIdx x) op).1 = false := by cases x <;> decide +kernel
theorem no_ioXC (x : Ix) : ∀ op : Byte, blockIo (Isa.decodeXCB (toIdx x) op).1 = false := by cases x <;> decide +kernel

/-- Only ED leads to them. -/
theorem io_ed (b0 b1 b3 : Byte) (h : blockIo (Isa.decode b0 b1 b3).1 = true) : b0 = 0xed#8 ∧ Isa.decode b0 b1 b3 = Isa.decodeED b1 := by
  unfold Isa.decode at h ⊢
  split at h
  · rw [no_ioCB] at h; cases h
  · split at h
    · rename_i h1 h2; subst h2; exact ⟨rfl, rfl⟩
    · split at h
      · split at h
        · exact absurd h (by rw [show Isa.Idx.ix = toIdx .ix from rfl, no_ioXC .ix]; simp)
        · exact absurd h (by rw [show Isa.Idx.ix = toIdx .ix from rfl, no_ioX .ix]; simp)
      · split at h
        · split at h
          · exact absurd h (by rw [show Isa.Idx.iy = toIdx .iy from rfl, no_ioXC .iy]; simp)
          · exact absurd h (by rw [show Isa.Idx.iy = toIdx .iy from rfl, no_ioX .iy]; simp)
        · rw [no_io00] at h; cases h

/-- One of them, or one round of it. -/
theorem io_step_ok (s : St) (h : s.pc < 0x10000) (hi : blockIo (abs s).ins.1 = true) :
    setN (abs (step s).2) = Isa.step { fl := (step s).2.f, x35 := s.f, r := incR s.r } (abs s) ∧ (step s).2.pc < 0x10000 := by
  have hw : (BitVec.ofNat 16 s.pc : Word).toNat = s.pc := by rw [BitVec.toNat_ofNat, Nat.mod_eq_of_lt h]
  generalize hww : (BitVec.ofNat 16 s.pc : Word) = w at hw
  have i1 : (abs s).ins = Isa.decode (s.mem w) (s.mem (w + 1)) (s.mem (w + 3)) := by rw [← hww]; rfl
  rw [i1] at hi
  obtain ⟨c0, i2⟩ := io_ed _ _ _ hi
  rw [i2] at hi
  obtain ⟨l2, mm⟩ := ed_io _ hi
  have f1 : fetch (adv w 1 (begun s)) = (s.mem (w + 1), adv w 2 (begun s)) := fetch_adv w 1 (begun s)
  have fe : find (s.mem w) (adv w 1 (begun s)) = { inst := at_ tabED (s.mem (w + 1)), x := .ix, off := 0, st := adv w 2 (begun s) } := by
    unfold find
    rw [c0, if_neg (by decide), if_pos rfl, f1]
  have ef : found s = at_ tabED (s.mem (w + 1)) := by unfold found; rw [hww, fe]
  have ed : done s = exec w.toNat .ix 0 (at_ tabED (s.mem (w + 1))) (adv w 2 (begun s)) := by unfold done; rw [hww, fe, hw]
  have hni : found s ≠ .inv := by
    rw [ef]; intro e; rw [e] at mm; simp at mm
  obtain ⟨d1, -, -⟩ := step_done s h hni
  have key : ∀ u : Isa.Und, u.fl = (done s).f → setN (abs (done s)) = Isa.exec u (Isa.decodeED (s.mem (w + 1))).1 2 (base w (begun s)) := by
    intro u hu
    rw [ed] at hu ⊢
    simp only [List.mem_cons, Prod.mk.injEq, List.not_mem_nil, or_false] at mm
    rcases mm with ⟨m1, m2⟩ | ⟨m1, m2⟩ | ⟨m1, m2⟩ | ⟨m1, m2⟩ | ⟨m1, m2⟩ | ⟨m1, m2⟩ <;> rw [m1] at hu ⊢ <;> rw [m2]
    · exact n_ini .ix 0 (begun s) w u hu
    · exact n_ind .ix 0 (begun s) w u hu
    · exact n_inir .ix 0 (begun s) w u hu
    · exact n_indr .ix 0 (begun s) w u hu
    · exact n_outd .ix 0 (begun s) w u hu
    · exact n_otdr .ix 0 (begun s) w u hu
  constructor
  · have e1 : abs (step s).2 = abs (done s) := by rw [d1]; rfl
    rw [e1]
    refine (key { fl := (step s).2.f, x35 := s.f, r := incR s.r } (by rw [d1])).trans ?_
    unfold Isa.step
    rw [i1, i2, l2, ← hww]; rfl
  · rw [d1]; show (done s).pc < _; rw [ed]
    have ne : ∀ i ∈ ([.ini, .ind, .inir, .indr, .outd, .otdr] : List Inst), i ≠ .jr ∧ (∀ g v, i ≠ .jrIf g v) ∧ i ≠ .djnz := by
      intro i hi; simp only [List.mem_cons, List.not_mem_nil, or_false] at hi
      rcases hi with e | e | e | e | e | e <;> subst e <;> exact ⟨by simp, by simp, by simp⟩
    have := ne (at_ tabED (s.mem (w + 1))) (by
      simp only [List.mem_cons, Prod.mk.injEq, List.not_mem_nil, or_false] at mm
      rcases mm with ⟨m1, m2⟩ | ⟨m1, m2⟩ | ⟨m1, m2⟩ | ⟨m1, m2⟩ | ⟨m1, m2⟩ | ⟨m1, m2⟩ <;> rw [m1] <;> decide)
    exact exec_pc _ _ _ _ _ (BitVec.isLt _) w.isLt this.1 this.2.1 this.2.2

end Ucsim.Z80
