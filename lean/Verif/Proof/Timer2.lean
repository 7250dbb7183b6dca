import Verif.S51.Timer2
import Verif.Spec.Timer2

namespace Ucsim.S51.Tim2
open Spec

def val (t : T2) : Nat := t.th.toNat * 256 + t.tl.toNat
def rcap (t : T2) : Nat := t.rh.toNat * 256 + t.rl.toNat
def tf2 (t : T2) : Bool := t.con.getLsbD 7
def exf2 (t : T2) : Bool := t.con.getLsbD 6

def regs (t : T2) : Reg := ⟨val t, rcap t, tf2 t, exf2 t⟩

theorem val_lt (t : T2) : val t < 65536 := by
  have := t.th.isLt; have := t.tl.isLt; unfold val; omega
theorem rcap_lt (t : T2) : rcap t < 65536 := by
  have := t.rh.isLt; have := t.rl.isLt; unfold rcap; omega

/-- The members agree with T2CON. -/
structure Coh (t : T2) : Prop where
  ct : t.ct = t.con.getLsbD 1
  tr : t.tr = t.con.getLsbD 2
  exen : t.exen = t.con.getLsbD 3
  baud : t.mode = .baud ↔ t.con.getLsbD 5 = true ∨ t.con.getLsbD 4 = true
  cap : t.mode = .capture ↔ t.con.getLsbD 5 = false ∧ t.con.getLsbD 4 = false ∧ t.con.getLsbD 0 = true
  ex : t.ex = (t.pins &&& t.latch).getLsbD 1

theorem masks : ∀ n : Byte, (n &&& 0x02#8 != 0#8) = n.getLsbD 1 ∧ (n &&& 0x04#8 != 0#8) = n.getLsbD 2 ∧ (n &&& 0x08#8 != 0#8) = n.getLsbD 3 ∧
    (n &&& 0x10#8 != 0#8) = n.getLsbD 4 ∧ (n &&& 0x20#8 != 0#8) = n.getLsbD 5 ∧ (n &&& 0x01#8 != 0#8) = n.getLsbD 0 := by decide +kernel

/-- What `con |= 0x80` and `con |= 0x40` change. -/
theorem flags : ∀ n : Byte, (n ||| 0x80#8).getLsbD 7 = true ∧ (n ||| 0x80#8).getLsbD 6 = n.getLsbD 6 ∧ (n ||| 0x80#8).getLsbD 5 = n.getLsbD 5 ∧
    (n ||| 0x80#8).getLsbD 4 = n.getLsbD 4 ∧ (n ||| 0x80#8).getLsbD 3 = n.getLsbD 3 ∧ (n ||| 0x80#8).getLsbD 2 = n.getLsbD 2 ∧
    (n ||| 0x80#8).getLsbD 1 = n.getLsbD 1 ∧ (n ||| 0x80#8).getLsbD 0 = n.getLsbD 0 := by decide +kernel
theorem flags' : ∀ n : Byte, (n ||| 0x40#8).getLsbD 6 = true ∧ (n ||| 0x40#8).getLsbD 7 = n.getLsbD 7 ∧ (n ||| 0x40#8).getLsbD 5 = n.getLsbD 5 ∧
    (n ||| 0x40#8).getLsbD 4 = n.getLsbD 4 ∧ (n ||| 0x40#8).getLsbD 3 = n.getLsbD 3 ∧ (n ||| 0x40#8).getLsbD 2 = n.getLsbD 2 ∧
    (n ||| 0x40#8).getLsbD 1 = n.getLsbD 1 ∧ (n ||| 0x40#8).getLsbD 0 = n.getLsbD 0 := by decide +kernel

/-! ### Counting -/

theorem inc_byte : ∀ b : Byte, (b + 1#8 = 0#8 ↔ b.toNat = 255) ∧ (b + 1#8).toNat = (b.toNat + 1) % 256 := by decide +kernel
theorem dec_byte : ∀ b : Byte, (b - 1#8 = 0xff#8 ↔ b.toNat = 0) ∧ (b - 1#8).toNat = (b.toNat + 255) % 256 := by decide +kernel

/-- Everything but the two bytes that count. -/
def same (s t : T2) : Prop :=
  t.con = s.con ∧ t.rl = s.rl ∧ t.rh = s.rh ∧ t.latch = s.latch ∧ t.pins = s.pins ∧ t.mode = s.mode ∧ t.ct = s.ct ∧ t.tr = s.tr ∧
  t.exen = s.exen ∧ t.edge = s.edge ∧ t.exEdge = s.exEdge ∧ t.ex = s.ex ∧ t.ovf = s.ovf

theorem up_ok (t : T2) : ((up t).1 = true ↔ val t = 65535) ∧ (val t ≠ 65535 → val (up t).2 = val t + 1) ∧
    (val t = 65535 → val (up t).2 = 0) ∧ same t (up t).2 := by
  have hl := inc_byte t.tl
  have hh := inc_byte t.th
  have l1 := t.tl.isLt
  have l2 := t.th.isLt
  have v : val t = t.th.toNat * 256 + t.tl.toNat := rfl
  unfold up
  by_cases h0 : t.tl + 1#8 = 0#8
  · have e0 := hl.1.1 h0
    rw [if_pos h0]
    have z : (t.tl + 1#8).toNat = 0 := by rw [hl.2, e0]
    have w : val { t with tl := t.tl + 1#8, th := t.th + 1#8 } = (t.th.toNat + 1) % 256 * 256 + 0 := by
      show (t.th + 1#8).toNat * 256 + (t.tl + 1#8).toNat = _
      rw [z, hh.2]
    refine ⟨?_, ?_, ?_, rfl, rfl, rfl, rfl, rfl, rfl, rfl, rfl, rfl, rfl, rfl, rfl, rfl⟩
    · show decide (t.th + 1#8 = 0#8) = true ↔ _
      rw [decide_eq_true_eq, hh.1]; omega
    · intro hv; rw [w]; omega
    · intro hv; rw [w]; omega
  · have e0 : t.tl.toNat ≠ 255 := fun k => h0 (hl.1.2 k)
    rw [if_neg h0]
    have w : val { t with tl := t.tl + 1#8 } = t.th.toNat * 256 + (t.tl.toNat + 1) % 256 := by
      show t.th.toNat * 256 + (t.tl + 1#8).toNat = _
      rw [hl.2]
    refine ⟨?_, ?_, ?_, rfl, rfl, rfl, rfl, rfl, rfl, rfl, rfl, rfl, rfl, rfl, rfl, rfl⟩
    · simp only [Bool.false_eq_true, false_iff]; omega
    · intro hv; rw [w]; omega
    · intro hv; omega

theorem same_regs (s t : T2) (h : same s t) : rcap t = rcap s ∧ tf2 t = tf2 s ∧ exf2 t = exf2 s := by
  obtain ⟨h1, h2, h3, _⟩ := h
  simp only [rcap, tf2, exf2, h1, h2, h3, and_self]

/-- Settings that a machine cycle does not change. -/
def fixed (s t : T2) : Prop :=
  t.pins = s.pins ∧ t.mode = s.mode ∧ t.ct = s.ct ∧ t.tr = s.tr ∧ t.exen = s.exen ∧ t.ex = s.ex ∧
  (∀ i, i < 6 → t.con.getLsbD i = s.con.getLsbD i) ∧ t.latch.getLsbD 1 = s.latch.getLsbD 1 ∧ t.latch.getLsbD 0 = s.latch.getLsbD 0

theorem fixed_refl (t : T2) : fixed t t := ⟨rfl, rfl, rfl, rfl, rfl, rfl, fun _ _ => rfl, rfl, rfl⟩

theorem fixed_trans {a b c : T2} (h : fixed a b) (k : fixed b c) : fixed a c := by
  obtain ⟨h1, h2, h3, h4, h5, h6, h7, h8, h9⟩ := h
  obtain ⟨k1, k2, k3, k4, k5, k6, k7, k8, k9⟩ := k
  exact ⟨k1.trans h1, k2.trans h2, k3.trans h3, k4.trans h4, k5.trans h5, k6.trans h6, fun i hi => (k7 i hi).trans (h7 i hi), k8.trans h8, k9.trans h9⟩

theorem same_fixed {s t : T2} (h : same s t) : fixed s t := by
  obtain ⟨h1, h2, h3, h4, h5, h6, h7, h8, h9, h10, h11, h12, h13⟩ := h
  exact ⟨h5, h6, h7, h8, h9, h12, fun _ _ => by rw [h1], by rw [h4], by rw [h4]⟩

theorem or80 (n : Byte) (i : Nat) (h : i < 6) : (n ||| 0x80#8).getLsbD i = n.getLsbD i := by
  have f := flags n
  match i, h with
  | 0, _ => exact f.2.2.2.2.2.2.2
  | 1, _ => exact f.2.2.2.2.2.2.1
  | 2, _ => exact f.2.2.2.2.2.1
  | 3, _ => exact f.2.2.2.2.1
  | 4, _ => exact f.2.2.2.1
  | 5, _ => exact f.2.2.1
theorem or40 (n : Byte) (i : Nat) (h : i < 6) : (n ||| 0x40#8).getLsbD i = n.getLsbD i := by
  have f := flags' n
  match i, h with
  | 0, _ => exact f.2.2.2.2.2.2.2
  | 1, _ => exact f.2.2.2.2.2.2.1
  | 2, _ => exact f.2.2.2.2.2.1
  | 3, _ => exact f.2.2.2.2.1
  | 4, _ => exact f.2.2.2.1
  | 5, _ => exact f.2.2.1

/-- One count of the baud rate generator. -/
theorem baud1_ok (t : T2) : regs (baud1 t) = count .baud (regs t) ∧ fixed t (baud1 t) ∧
    (baud1 t).edge = t.edge ∧ (baud1 t).exEdge = t.exEdge ∧ (baud1 t).ovf = t.ovf + (if val t = 65535 then 1 else 0) := by
  obtain ⟨a, b, c, d⟩ := up_ok t
  obtain ⟨r1, r2, r3⟩ := same_regs _ _ d
  have fx := same_fixed d
  obtain ⟨d1, d2, d3, d4, d5, d6, d7, d8, d9, d10, d11, d12, d13⟩ := d
  unfold baud1
  by_cases hv : val t = 65535
  · have a := a.2 hv
    simp only [a, if_true, hv]
    refine ⟨?_, fixed_trans fx ⟨rfl, rfl, rfl, rfl, rfl, rfl, fun _ _ => rfl, rfl, rfl⟩, d10, d11, congrArg (· + 1) d13⟩
    have q1 : val (reload (up t).2) = rcap (up t).2 := rfl
    simp only [regs, count, hv, if_true, Reg.mk.injEq]
    exact ⟨r1, r1, r2, r3⟩
  · have a' : ¬ (up t).1 = true := fun k => hv (a.1 k)
    simp only [a', if_false, hv]
    refine ⟨?_, fx, d10, d11, d13⟩
    simp only [regs, count, hv, if_false, Reg.mk.injEq]
    exact ⟨b hv, r1, r2, r3⟩

theorem counts_baud (n : Nat) : ∀ t : T2, regs (loop baud1 n t) = counts .baud n (regs t) ∧ fixed t (loop baud1 n t) ∧
    (loop baud1 n t).edge = t.edge ∧ (loop baud1 n t).exEdge = t.exEdge := by
  induction n with
  | zero => intro t; exact ⟨rfl, fixed_refl t, rfl, rfl⟩
  | succ n ih =>
    intro t
    obtain ⟨a, b, c, d, _⟩ := baud1_ok t
    obtain ⟨e, f, g, h⟩ := ih (baud1 t)
    refine ⟨?_, fixed_trans b f, g.trans c, h.trans d⟩
    show regs (loop baud1 n (baud1 t)) = counts .baud n (count .baud (regs t))
    rw [e, a]

/-- The external input. -/
theorem onEx_ok (m : Mode) (f : T2 → T2) (t : T2)
    (hf : ∀ t, regs (f t) = { external m (regs t) with exf := exf2 t } ∧ same { t with rl := (f t).rl, rh := (f t).rh } (f t))
    (hm : ∀ u, m ≠ .updown u) :
    regs (onEx f t) = (if t.exen && decide (t.exEdge ≠ 0) then external m (regs t) else regs t) ∧ fixed t (onEx f t) ∧
    (onEx f t).edge = t.edge ∧ (t.exen = true → (onEx f t).exEdge = 0) ∧ (t.exen = false → (onEx f t).exEdge = t.exEdge) ∧ (onEx f t).ovf = t.ovf := by
  unfold onEx
  by_cases h : t.exen = true ∧ t.exEdge ≠ 0
  · obtain ⟨a, b⟩ := hf { t with con := t.con ||| 0x40#8 }
    have e1 : exf2 { t with con := t.con ||| 0x40#8 } = true := (flags' _).1
    have e2 : regs { t with con := t.con ||| 0x40#8 } = { regs t with exf := true } := by
      simp only [regs, Reg.mk.injEq]
      exact ⟨rfl, rfl, (flags' _).2.1, e1⟩
    obtain ⟨b1, b2, b3, b4, b5, b6, b7, b8, b9, b10, b11, b12, b13⟩ := b
    rw [if_pos h, if_pos (by simp [h])]
    refine ⟨?_, ?_, b10, fun _ => rfl, (fun k => by rw [h.1] at k; cases k), b13⟩
    · show regs (f { t with con := t.con ||| 0x40#8 }) = _
      rw [a, e1, e2]
      cases m with
      | updown u => exact absurd rfl (hm u)
      | _ => rfl
    · refine ⟨b5, b6, b7, b8, b9, b12, ?_, by show _ = _; rw [b4], by rw [b4]⟩
      intro i hi
      show (f _).con.getLsbD i = _
      rw [b1]; exact or40 _ _ hi
  · rw [if_neg h, if_neg (by simpa using h)]
    refine ⟨rfl, fixed_refl t, rfl, ?_, fun _ => rfl, rfl⟩
    intro k
    apply Decidable.byContradiction
    intro k'
    exact h ⟨k, k'⟩

/-- A machine cycle as the manual says, and what stays. -/
structure Cyc (m : Mode) (s t : T2) : Prop where
  regs : regs t = cycle m s.tr s.ct s.exen s.edge (decide (s.exEdge ≠ 0)) (regs s)
  fixed : fixed s t
  edge : s.tr = true → s.ct = true → t.edge = 0

theorem fixed_edge0 (t : T2) : fixed t { t with edge := 0 } := ⟨rfl, rfl, rfl, rfl, rfl, rfl, fun _ _ => rfl, rfl, rfl⟩

theorem baud_ok (t : T2) : Cyc .baud t (baud t) ∧ (t.exen = true → (baud t).exEdge = 0) := by
  obtain ⟨a, b, c, d, d', _⟩ := onEx_ok .baud id t (fun t => ⟨rfl, rfl, rfl, rfl, rfl, rfl, rfl, rfl, rfl, rfl, rfl, rfl, rfl, rfl⟩) (fun u h => by cases h)
  have b' := b
  obtain ⟨b1, b2, b3, b4, _⟩ := b'
  have e0 : baud t = if (onEx id t).tr = false then onEx id t else if (onEx id t).ct then loop baud1 (onEx id t).edge { onEx id t with edge := 0 }
      else loop baud1 6 (onEx id t) := rfl
  rw [e0]
  generalize onEx id t = s at *
  clear e0
  cases htr : t.tr
  · rw [if_pos (b4.trans htr)]
    refine ⟨⟨?_, b, fun k => by rw [htr] at k; cases k⟩, d⟩
    rw [a]; simp [cycle, htr]
  · rw [if_neg (by rw [b4, htr]; simp)]
    cases hct : t.ct
    · rw [if_neg (by rw [b3, hct]; simp)]
      obtain ⟨e, f, g, h⟩ := counts_baud 6 s
      generalize loop baud1 6 s = q at *
      refine ⟨⟨?_, fixed_trans b f, fun _ k => by rw [hct] at k; cases k⟩, fun k => h.trans (d k)⟩
      rw [e, a]; simp [cycle, htr, hct]
    · rw [if_pos (by rw [b3, hct])]
      obtain ⟨e, f, g, h⟩ := counts_baud s.edge { s with edge := 0 }
      generalize loop baud1 s.edge { s with edge := 0 } = q at *
      refine ⟨⟨?_, fixed_trans b (fixed_trans (fixed_edge0 s) f), fun _ _ => g⟩, fun k => h.trans (d k)⟩
      rw [e, c]
      show counts .baud t.edge (Tim2.regs s) = _
      rw [a]; simp [cycle, htr, hct]

/-- `edge` is forgotten in the counter mode. -/
def drop (t : T2) : T2 := if t.ct then { t with edge := 0 } else t

theorem drop_ok (t : T2) : regs (drop t) = regs t ∧ fixed t (drop t) ∧ (t.ct = true → (drop t).edge = 0) ∧ (drop t).exEdge = t.exEdge ∧
    (drop t).ovf = t.ovf := by
  unfold drop; split
  · exact ⟨rfl, ⟨rfl, rfl, rfl, rfl, rfl, rfl, fun _ _ => rfl, rfl, rfl⟩, fun _ => rfl, rfl, rfl⟩
  · rename_i h; exact ⟨rfl, fixed_refl t, fun k => absurd k h, rfl, rfl⟩

/-- One count in the capture mode. -/
def cap1 (t : T2) : T2 := if (up t).1 then { (up t).2 with con := (up t).2.con ||| 0x80#8 } else (up t).2
/-- One count in the reload mode. -/
def rel1 (t : T2) : T2 := if (up t).1 then reload { (up t).2 with con := (up t).2.con ||| 0x80#8 } else (up t).2

theorem cap1_ok (t : T2) : regs (cap1 t) = count .capture (regs t) ∧ fixed t (cap1 t) ∧ (cap1 t).edge = t.edge ∧ (cap1 t).exEdge = t.exEdge := by
  obtain ⟨a, b, c, d⟩ := up_ok t
  obtain ⟨r1, r2, r3⟩ := same_regs _ _ d
  have fx := same_fixed d
  obtain ⟨d1, d2, d3, d4, d5, d6, d7, d8, d9, d10, d11, d12, d13⟩ := d
  unfold cap1
  by_cases hv : val t = 65535
  · rw [if_pos (a.2 hv)]
    refine ⟨?_, fixed_trans fx ⟨rfl, rfl, rfl, rfl, rfl, rfl, fun i hi => or80 _ _ hi, rfl, rfl⟩, d10, d11⟩
    simp only [regs, count, hv, if_true, Reg.mk.injEq]
    exact ⟨c hv, r1, (flags _).1, ((flags _).2.1).trans r3⟩
  · rw [if_neg (fun k => hv (a.1 k))]
    refine ⟨?_, fx, d10, d11⟩
    simp only [regs, count, hv, if_false, Reg.mk.injEq]
    exact ⟨b hv, r1, r2, r3⟩

theorem rel1_ok (t : T2) : regs (rel1 t) = count .reload (regs t) ∧ fixed t (rel1 t) ∧ (rel1 t).edge = t.edge ∧ (rel1 t).exEdge = t.exEdge := by
  obtain ⟨a, b, c, d⟩ := up_ok t
  obtain ⟨r1, r2, r3⟩ := same_regs _ _ d
  have fx := same_fixed d
  obtain ⟨d1, d2, d3, d4, d5, d6, d7, d8, d9, d10, d11, d12, d13⟩ := d
  unfold rel1
  by_cases hv : val t = 65535
  · rw [if_pos (a.2 hv)]
    refine ⟨?_, fixed_trans fx ⟨rfl, rfl, rfl, rfl, rfl, rfl, fun i hi => or80 _ _ hi, rfl, rfl⟩, d10, d11⟩
    simp only [regs, count, hv, if_true, Reg.mk.injEq]
    exact ⟨r1, r1, (flags _).1, ((flags _).2.1).trans r3⟩
  · rw [if_neg (fun k => hv (a.1 k))]
    refine ⟨?_, fx, d10, d11⟩
    simp only [regs, count, hv, if_false, Reg.mk.injEq]
    exact ⟨b hv, r1, r2, r3⟩

/-- Capture and reload: one count in a machine cycle, whatever C/T2 says. -/
theorem single (m : Mode) (hb : m ≠ .baud) (f g : T2 → T2) (t : T2) (hm : ∀ u, m ≠ .updown u)
    (hf : ∀ t, regs (f t) = { external m (regs t) with exf := exf2 t } ∧ same { t with rl := (f t).rl, rh := (f t).rh } (f t))
    (hg : ∀ t, regs (g t) = count m (regs t) ∧ fixed t (g t) ∧ (g t).edge = t.edge ∧ (g t).exEdge = t.exEdge) :
    let s := onEx f t
    let r := if s.tr = false then s else g (drop s)
    regs r = cycle m t.tr false t.exen t.edge (decide (t.exEdge ≠ 0)) (regs t) ∧ fixed t r ∧ (t.tr = true → t.ct = true → r.edge = 0) ∧
    (t.exen = true → r.exEdge = 0) := by
  intro s r
  obtain ⟨a, b, c, d, d', _⟩ := onEx_ok m f t hf hm
  have b' := b
  obtain ⟨b1, b2, b3, b4, _⟩ := b'
  cases htr : t.tr
  · have e : r = s := by simp only [r]; rw [if_pos (b4.trans htr)]
    rw [e]
    refine ⟨?_, b, fun k => (by cases k), d⟩
    show regs s = _
    rw [a]; simp [cycle]
  · have e : r = g (drop s) := by simp only [r]; rw [if_neg (by rw [b4, htr]; simp)]
    rw [e]
    obtain ⟨o1, o2, o3, o4, _⟩ := drop_ok s
    obtain ⟨h1, h2, h3, h4⟩ := hg (drop s)
    refine ⟨?_, fixed_trans b (fixed_trans o2 h2), fun _ k => h3.trans (o3 (b3.trans k)), fun k => h4.trans (o4.trans (d k))⟩
    rw [h1, o1, a]; simp [cycle, counts, hb]

theorem capture_ok (t : T2) : regs (capture t) = cycle .capture t.tr false t.exen t.edge (decide (t.exEdge ≠ 0)) (regs t) ∧ fixed t (capture t) ∧
    (t.tr = true → t.ct = true → (capture t).edge = 0) ∧ (t.exen = true → (capture t).exEdge = 0) :=
  single .capture (by decide) (fun t => { t with rh := t.th, rl := t.tl }) cap1 t (fun u h => by cases h)
    (fun t => ⟨rfl, rfl, rfl, rfl, rfl, rfl, rfl, rfl, rfl, rfl, rfl, rfl, rfl, rfl⟩) cap1_ok

theorem reloadUp_ok (t : T2) : regs (reloadUp t) = cycle .reload t.tr false t.exen t.edge (decide (t.exEdge ≠ 0)) (regs t) ∧ fixed t (reloadUp t) ∧
    (t.tr = true → t.ct = true → (reloadUp t).edge = 0) ∧ (t.exen = true → (reloadUp t).exEdge = 0) :=
  single .reload (by decide) reload rel1 t (fun u h => by cases h)
    (fun t => ⟨rfl, rfl, rfl, rfl, rfl, rfl, rfl, rfl, rfl, rfl, rfl, rfl, rfl, rfl⟩) rel1_ok

/-! ### Up and down -/

theorem down1up_ok (b : Bool) (t : T2) : { regs (down1up (b, t)).2 with exf := false } = { count (.updown true) (regs t) with exf := false } ∧
    fixed t (down1up (b, t)).2 ∧ (down1up (b, t)).2.edge = t.edge := by
  obtain ⟨a, c, d⟩ := rel1_ok t
  have e : (down1up (b, t)).2 = rel1 t := by
    unfold down1up rel1; dsimp only; split <;> rfl
  rw [e]
  refine ⟨?_, c, d.1⟩
  rw [a]
  simp only [count]
  split <;> rfl

theorem down1_ok (b : Bool) (t : T2) (h0 : rcap t ≠ 0) (h1 : rcap t ≤ val t ∨ val t = 0) :
    { regs (down1 (b, t)).2 with exf := false } = { count (.updown false) (regs t) with exf := false } ∧
    fixed t (down1 (b, t)).2 ∧ (down1 (b, t)).2.edge = t.edge := by
  have hl := dec_byte t.tl
  have hh := dec_byte t.th
  have l1 := t.tl.isLt
  have l2 := t.th.isLt
  have v : val t = t.th.toNat * 256 + t.tl.toNat := rfl
  have rl := rcap_lt t
  have key : ∃ l h : Byte, (l.toNat + 256 * h.toNat = if val t = 0 then 65535 else val t - 1) ∧
      down1 (b, t) = if h.toNat * 256 + l.toNat < rcap t then
        (true, { t with con := t.con ||| 0x80#8, th := 0xff#8, tl := 0xff#8 }) else (b, { t with tl := l, th := h }) := by
    refine ⟨t.tl - 1#8, if t.tl - 1#8 = 0xff#8 then t.th - 1#8 else t.th, ?_, rfl⟩
    by_cases k : t.tl - 1#8 = 0xff#8
    · rw [if_pos k, hh.2, hl.2]
      have := hl.1.1 k
      split <;> omega
    · rw [if_neg k, hl.2]
      have : t.tl.toNat ≠ 0 := fun z => k (hl.1.2 z)
      split <;> omega
  obtain ⟨l, h, k1, k2⟩ := key
  rw [k2]
  by_cases hv : val t = rcap t
  · have : h.toNat * 256 + l.toNat < rcap t := by split at k1 <;> omega
    rw [if_pos this]
    refine ⟨?_, ⟨rfl, rfl, rfl, rfl, rfl, rfl, fun i hi => or80 _ _ hi, rfl, rfl⟩, rfl⟩
    have c : count (.updown false) (regs t) = { regs t with val := 65535, tf := true, exf := !(regs t).exf } := if_pos hv
    rw [c]
    simp only [regs, Reg.mk.injEq]
    exact ⟨by show (0xff#8 : Byte).toNat * 256 + (0xff#8 : Byte).toNat = 65535; decide, rfl, (flags _).1, trivial⟩
  · have : ¬ h.toNat * 256 + l.toNat < rcap t := by split at k1 <;> omega
    rw [if_neg this]
    refine ⟨?_, ⟨rfl, rfl, rfl, rfl, rfl, rfl, fun i hi => rfl, rfl, rfl⟩, rfl⟩
    have w : val { t with tl := l, th := h } = h.toNat * 256 + l.toNat := rfl
    by_cases hz : val t = 0
    · have c : count (.updown false) (regs t) = { regs t with val := 65535 } := by
        show (if val t = rcap t then _ else if val t = 0 then _ else _) = _
        rw [if_neg hv, if_pos hz]
      rw [c]
      rw [if_pos hz] at k1
      simp only [regs, Reg.mk.injEq]
      exact ⟨by rw [w]; omega, rfl, rfl, trivial⟩
    · have c : count (.updown false) (regs t) = { regs t with val := val t - 1 } := by
        show (if val t = rcap t then _ else if val t = 0 then _ else _) = _
        rw [if_neg hv, if_neg hz]; rfl
      rw [c]
      rw [if_neg hz] at k1
      simp only [regs, Reg.mk.injEq]
      exact ⟨by rw [w]; omega, rfl, rfl, trivial⟩

/-! ### Many counts -/

/-- What `downUp` does n times. -/
theorem loop2_up (n : Nat) : ∀ (b : Bool) (t : T2),
    { regs (loop2 down1up n (b, t)).2 with exf := false } = { counts (.updown true) n (regs t) with exf := false } ∧
    fixed t (loop2 down1up n (b, t)).2 ∧ (loop2 down1up n (b, t)).2.edge = t.edge := by
  induction n with
  | zero => intro b t; exact ⟨rfl, fixed_refl t, rfl⟩
  | succ n ih =>
    intro b t
    obtain ⟨a, c, d⟩ := down1up_ok b t
    have e : down1up (b, t) = ((down1up (b, t)).1, (down1up (b, t)).2) := rfl
    obtain ⟨a', c', d'⟩ := ih (down1up (b, t)).1 (down1up (b, t)).2
    refine ⟨?_, fixed_trans c c', d'.trans d⟩
    refine a'.trans ?_
    exact counts_noexf true n _ _ a
  where
  counts_noexf (u : Bool) (n : Nat) : ∀ (r q : Reg), { r with exf := false } = { q with exf := false } →
      ({ counts (.updown u) n r with exf := false } : Reg) = { counts (.updown u) n q with exf := false } := by
    induction n with
    | zero => exact fun r q h => h
    | succ n ih =>
      intro r q h
      apply ih
      obtain ⟨r1, r2, r3, r4⟩ := r
      obtain ⟨q1, q2, q3, q4⟩ := q
      simp only [Reg.mk.injEq, and_true] at h
      obtain ⟨rfl, rfl, rfl⟩ := h
      cases u <;> simp only [count] <;> split <;> try rfl
      split <;> rfl

theorem down1_range (t : T2) (h0 : rcap t ≠ 0) (h1 : rcap t ≤ val t ∨ val t = 0) (r : Reg) (hr : { r with exf := false } = { count (.updown false) (regs t) with exf := false }) :
    r.rc = rcap t ∧ (r.rc ≤ r.val ∨ r.val = 0) := by
  have rl := rcap_lt t
  obtain ⟨r1, r2, r3, r4⟩ := r
  simp only [Reg.mk.injEq, and_true] at hr
  obtain ⟨rfl, rfl, rfl⟩ := hr
  have e : (regs t).val = val t ∧ (regs t).rc = rcap t := ⟨rfl, rfl⟩
  simp only [count, e.1, e.2]
  split
  · exact ⟨rfl, .inl (by show rcap t ≤ 65535; omega)⟩
  · split
    · exact ⟨rfl, .inl (by show rcap t ≤ 65535; omega)⟩
    · exact ⟨rfl, .inl (by show rcap t ≤ val t - 1; omega)⟩

theorem loop2_down (n : Nat) : ∀ (b : Bool) (t : T2), rcap t ≠ 0 → (rcap t ≤ val t ∨ val t = 0) →
    { regs (loop2 down1 n (b, t)).2 with exf := false } = { counts (.updown false) n (regs t) with exf := false } ∧
    fixed t (loop2 down1 n (b, t)).2 ∧ (loop2 down1 n (b, t)).2.edge = t.edge := by
  induction n with
  | zero => intro b t _ _; exact ⟨rfl, fixed_refl t, rfl⟩
  | succ n ih =>
    intro b t h0 h1
    obtain ⟨a, c, d⟩ := down1_ok b t h0 h1
    obtain ⟨k1, k2⟩ := down1_range t h0 h1 _ a
    have k1 : rcap (down1 (b, t)).2 = rcap t := k1
    obtain ⟨a', c', d'⟩ := ih (down1 (b, t)).1 (down1 (b, t)).2 (by rw [k1]; exact h0) k2
    refine ⟨?_, fixed_trans c c', d'.trans d⟩
    refine a'.trans ?_
    exact loop2_up.counts_noexf false n _ _ a

theorem xor40 : ∀ n : Byte, (n ^^^ 0x40#8).getLsbD 1 = n.getLsbD 1 ∧ (n ^^^ 0x40#8).getLsbD 0 = n.getLsbD 0 := by decide +kernel

theorem downUp_ok (t : T2) (h : t.ex = false → rcap t ≠ 0 ∧ (rcap t ≤ val t ∨ val t = 0)) :
    { regs (downUp t) with exf := false } = { cycle (.updown t.ex) t.tr t.ct t.exen t.edge (decide (t.exEdge ≠ 0)) (regs t) with exf := false } := by
  have ext : cycle (.updown t.ex) t.tr t.ct t.exen t.edge (decide (t.exEdge ≠ 0)) (regs t) =
      if t.tr then counts (.updown t.ex) (if t.ct then t.edge else 1) (regs t) else regs t := by
    simp [cycle, external]
  rw [ext]
  have e0 : downUp t = if t.tr = false then t else
      (let r := loop2 (if (drop t).ex then down1up else down1) (if t.ct then t.edge else 1) (false, drop t)
       if r.1 then { r.2 with latch := r.2.latch ^^^ 0x40#8 } else r.2) := rfl
  rw [e0]
  cases htr : t.tr
  · rw [if_pos rfl]; rfl
  · rw [if_neg (by simp), if_pos rfl]
    obtain ⟨d1, d2, d3, d4, d5⟩ := drop_ok t
    have dex : (drop t).ex = t.ex := d2.2.2.2.2.2.1
    rw [dex]
    have key : { regs (loop2 (if t.ex then down1up else down1) (if t.ct then t.edge else 1) (false, drop t)).2 with exf := false } =
        { counts (.updown t.ex) (if t.ct then t.edge else 1) (regs t) with exf := false } := by
      cases hx : t.ex
      · obtain ⟨q1, q2⟩ := h hx
        have v : val (drop t) = val t := congrArg Reg.val d1
        have rc : rcap (drop t) = rcap t := congrArg Reg.rc d1
        have := (loop2_down (if t.ct then t.edge else 1) false (drop t) (by rw [rc]; exact q1) (by rw [rc, v]; exact q2)).1
        rw [d1] at this
        exact this
      · have := (loop2_up (if t.ct then t.edge else 1) false (drop t)).1
        rw [d1] at this
        exact this
    rw [← key]
    generalize loop2 (if t.ex then down1up else down1) (if t.ct then t.edge else 1) (false, drop t) = r
    dsimp only
    split <;> rfl

theorem fixed_80 (t : T2) (l h : Byte) : fixed t { t with con := t.con ||| 0x80#8, th := h, tl := l } :=
  ⟨rfl, rfl, rfl, rfl, rfl, rfl, fun i hi => or80 _ _ hi, rfl, rfl⟩
theorem fixed_val (t : T2) (l h : Byte) : fixed t { t with th := h, tl := l } := ⟨rfl, rfl, rfl, rfl, rfl, rfl, fun _ _ => rfl, rfl, rfl⟩

theorem down1_fixed (x : Bool × T2) : fixed x.2 (down1 x).2 ∧ (down1 x).2.edge = x.2.edge := by
  have key : ∃ l h : Byte, down1 x = if h.toNat * 256 + l.toNat < x.2.rh.toNat * 256 + x.2.rl.toNat then
        (true, { x.2 with con := x.2.con ||| 0x80#8, th := 0xff#8, tl := 0xff#8 }) else (x.1, { x.2 with tl := l, th := h }) :=
    ⟨x.2.tl - 1#8, if x.2.tl - 1#8 = 0xff#8 then x.2.th - 1#8 else x.2.th, rfl⟩
  obtain ⟨l, h, e⟩ := key
  rw [e]
  by_cases k : h.toNat * 256 + l.toNat < x.2.rh.toNat * 256 + x.2.rl.toNat
  · rw [if_pos k]; exact ⟨fixed_80 _ _ _, rfl⟩
  · rw [if_neg k]; exact ⟨fixed_val _ _ _, rfl⟩

theorem loop2_fixed (u : Bool) (n : Nat) : ∀ x : Bool × T2, fixed x.2 (loop2 (if u then down1up else down1) n x).2 ∧
    (loop2 (if u then down1up else down1) n x).2.edge = x.2.edge := by
  induction n with
  | zero => intro x; exact ⟨fixed_refl _, rfl⟩
  | succ n ih =>
    intro x
    have one : fixed x.2 ((if u then down1up else down1) x).2 ∧ ((if u then down1up else down1) x).2.edge = x.2.edge := by
      cases u
      · exact down1_fixed x
      · exact (down1up_ok x.1 x.2).2
    obtain ⟨a, b⟩ := ih ((if u then down1up else down1) x)
    exact ⟨fixed_trans one.1 a, b.trans one.2⟩

theorem downUp_fixed (t : T2) : fixed t (downUp t) ∧ (t.tr = true → t.ct = true → (downUp t).edge = 0) := by
  have e0 : downUp t = if t.tr = false then t else
      (let r := loop2 (if (drop t).ex then down1up else down1) (if t.ct then t.edge else 1) (false, drop t)
       if r.1 then { r.2 with latch := r.2.latch ^^^ 0x40#8 } else r.2) := rfl
  rw [e0]
  cases htr : t.tr
  · rw [if_pos rfl]; exact ⟨fixed_refl t, fun k => by cases k⟩
  · rw [if_neg (by simp)]
    obtain ⟨d1, d2, d3, d4, d5⟩ := drop_ok t
    obtain ⟨a, b⟩ := loop2_fixed (drop t).ex (if t.ct then t.edge else 1) (false, drop t)
    generalize loop2 (if (drop t).ex then down1up else down1) (if t.ct then t.edge else 1) (false, drop t) = r at a b
    dsimp only
    split
    · exact ⟨fixed_trans d2 (fixed_trans a ⟨rfl, rfl, rfl, rfl, rfl, rfl, fun i hi => rfl, (xor40 _).1, (xor40 _).2⟩), fun _ k => b.trans (d3 k)⟩
    · exact ⟨fixed_trans d2 a, fun _ k => b.trans (d3 k)⟩

theorem tick_fixed (t : T2) : fixed t (tick t) ∧ (t.tr = true → t.ct = true → (tick t).edge = 0) ∧
    (t.mode ≠ .down → t.exen = true → (tick t).exEdge = 0) := by
  unfold tick
  cases hm : t.mode
  · obtain ⟨_, a, b, c⟩ := reloadUp_ok t; exact ⟨a, b, fun _ => c⟩
  · obtain ⟨_, a, b, c⟩ := capture_ok t; exact ⟨a, b, fun _ => c⟩
  · obtain ⟨⟨_, a, b⟩, c⟩ := baud_ok t; exact ⟨a, b, fun _ => c⟩
  · obtain ⟨a, b⟩ := downUp_fixed t; exact ⟨a, b, fun k => absurd rfl k⟩

/-! ### Reachable states -/

theorem coh_fixed {s t : T2} (h : Coh s) (k : fixed s t) : Coh t := by
  obtain ⟨k1, k2, k3, k4, k5, k6, k7, k8, k9⟩ := k
  refine ⟨?_, ?_, ?_, ?_, ?_, ?_⟩
  · rw [k3, k7 1 (by omega)]; exact h.ct
  · rw [k4, k7 2 (by omega)]; exact h.tr
  · rw [k5, k7 3 (by omega)]; exact h.exen
  · rw [k2, k7 5 (by omega), k7 4 (by omega)]; exact h.baud
  · rw [k2, k7 5 (by omega), k7 4 (by omega), k7 0 (by omega)]; exact h.cap
  · rw [k6, h.ex, k1, BitVec.getLsbD_and, BitVec.getLsbD_and, k8]

theorem coh_restart {t : T2} (m : Md) (b : Bool) (h : Coh t) : Coh (restart m b t) := by
  unfold restart; split
  · exact ⟨h.ct, h.tr, h.exen, h.baud, h.cap, h.ex⟩
  · exact h

theorem coh_wrCon (n : Byte) (t : T2) (hx : t.ex = (t.pins &&& t.latch).getLsbD 1) : Coh (wrCon n t) := by
  unfold wrCon
  apply coh_restart
  obtain ⟨m1, m2, m3, m4, m5, m6⟩ := masks n
  refine ⟨m1, m2, m3, ?_, ?_, hx⟩
  · dsimp only
    rw [m4, m5, m6]
    cases n.getLsbD 5 <;> cases n.getLsbD 4 <;> cases n.getLsbD 0 <;> decide
  · dsimp only
    rw [m4, m5, m6]
    cases n.getLsbD 5 <;> cases n.getLsbD 4 <;> cases n.getLsbD 0 <;> decide

theorem bit1 : ∀ n : Byte, (n &&& 0x02#8 != 0#8) = n.getLsbD 1 := fun n => (masks n).1

theorem wrP1_ex (v : Byte) (t : T2) (h : t.latch ≠ v ∨ t.ex = (t.pins &&& t.latch).getLsbD 1) :
    (wrP1 v t).ex = ((wrP1 v t).pins &&& (wrP1 v t).latch).getLsbD 1 := by
  unfold wrP1
  by_cases k : t.latch = v
  · rw [if_pos k]; exact h.resolve_left (fun f => f k)
  · rw [if_neg k]; exact bit1 _

theorem coh_wrP1 (v : Byte) (t : T2) (h : Coh t) : Coh (wrP1 v t) := by
  have e := wrP1_ex v t (.inr h.ex)
  unfold wrP1 at e ⊢
  by_cases k : t.latch = v
  · rw [if_pos k]; exact h
  · rw [if_neg k] at e ⊢; exact ⟨h.ct, h.tr, h.exen, h.baud, h.cap, e⟩

theorem coh_pins (v : Byte) (t : T2) (h : Coh t) : Coh (setPins v t) := by
  unfold setPins
  by_cases k : t.pins = v
  · rw [if_pos k]; exact h
  · rw [if_neg k]; exact ⟨h.ct, h.tr, h.exen, h.baud, h.cap, bit1 _⟩

theorem coh_reset (t : T2) : Coh (reset t) := by
  have := coh_wrCon 0 (wrP1 0xff { t with latch := 0, con := 0 }) (wrP1_ex 0xff _ (.inl (by show (0 : Byte) ≠ 0xff; decide)))
  exact ⟨this.ct, this.tr, this.exen, this.baud, this.cap, this.ex⟩

theorem coh_wrMod (v : Byte) (t : T2) (h : Coh t) : Coh (wrMod v t) := by
  unfold wrMod
  apply coh_restart
  refine ⟨h.ct, h.tr, h.exen, ?_, ?_, h.ex⟩
  · rw [← h.baud]; dsimp only; split
    · rename_i k; simp only [Bool.and_eq_true, decide_eq_true_eq] at k; rw [k.2]; decide
    · rfl
  · rw [← h.cap]; dsimp only; split
    · rename_i k; simp only [Bool.and_eq_true, decide_eq_true_eq] at k; rw [k.2]; decide
    · rfl

theorem coh_ev (t : T2) (e : Ev) (h : Coh t) : Coh (ev t e) := by
  cases e with
  | wrCon v => exact coh_wrCon v t h.ex
  | wrBit i b => exact coh_wrCon _ t h.ex
  | wrMod v => exact coh_wrMod v t h
  | wrP1 v => exact coh_wrP1 v t h
  | pins v => exact coh_pins v t h
  | tick => exact coh_fixed h (tick_fixed t).1
  | reset => exact coh_reset t
  | _ => exact ⟨h.ct, h.tr, h.exen, h.baud, h.cap, h.ex⟩

theorem coh_run (h : List Ev) : ∀ t, Coh t → Coh (run t h) := by
  induction h with
  | nil => exact fun _ k => k
  | cons e h ih => intro t k; exact ih _ (coh_ev t e k)

theorem coh_start : Coh start := ⟨rfl, rfl, rfl, by decide, by decide, by decide⟩

end Ucsim.S51.Tim2
