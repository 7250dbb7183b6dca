import Verif.Spec.Args
import Verif.Props.MemMisc
/-! Proofs about arguments and `set memory`. -/
namespace Ucsim.Cmd
open Ucsim Spec

theorem oct_iff (c : Char) : c ∈ octDigits ↔ 48 ≤ c.toNat ∧ c.toNat ≤ 55 := by
  constructor
  · intro h
    have : ∀ c ∈ octDigits, 48 ≤ c.toNat ∧ c.toNat ≤ 55 := by decide
    exact this c h
  · rintro ⟨h1, h2⟩
    have e : c = Char.ofNat c.toNat := by simp
    rw [e]
    have : ∀ k, k < 8 → Char.ofNat (48 + k) ∈ octDigits := by decide
    have := this (c.toNat - 48) (by omega)
    rwa [show 48 + (c.toNat - 48) = c.toNat by omega] at this

theorem octB (c : Char) : decide (c.toNat ≥ 48 ∧ c.toNat ≤ 55) = decide (c ∈ octDigits) := by
  rw [decide_eq_decide, oct_iff]

theorem octfold (ds : Text) (h : ∀ c ∈ ds, c ∈ octDigits) : ∀ a, ds.foldl (fun a x => a * 8 + (x.toNat - 48)) a = a * 8 ^ ds.length + value 8 ds := by
  induction ds with
  | nil => intro a; simp [value]
  | cons c t ih =>
    intro a
    have hc := h c List.mem_cons_self
    have d : ∀ c ∈ octDigits, c ∈ decDigits := by decide
    rw [List.foldl_cons, ih (fun x hx => h x (List.mem_cons_of_mem _ hx))]
    simp only [value, digit, if_pos (d c hc), List.length_cons, Nat.pow_succ]
    rw [show '0'.toNat = 48 from rfl, Nat.add_mul, Nat.mul_assoc, Nat.mul_comm 8 (8 ^ t.length)]
    omega

theorem toNat_ofNat_byte {n : Nat} (h : n < 256) : (Char.ofNat n).toNat = n := by
  have : ∀ k : Fin 256, (Char.ofNat k.1).toNat = k.1 := by decide +kernel
  exact this ⟨n, h⟩

theorem takeWhile_app {p : Char → Bool} {a b : Text} (h : ∀ c ∈ a, p c = true) (h2 : ∀ c ∈ b.head?, p c = false) :
    (a ++ b).takeWhile p = a ∧ (a ++ b).dropWhile p = b := by
  induction a with
  | nil =>
    cases b with
    | nil => simp
    | cons c t =>
      have := h2 c (by simp)
      simp [this]
  | cons c t ih =>
    have hc := h c List.mem_cons_self
    have := ih (fun x hx => h x (List.mem_cons_of_mem _ hx))
    simp [hc, this]

theorem special_code (d : Char) (hd : d ≠ '0') :
    (∀ n, (d, n) ∈ specials → (escChar d).toNat = n) ∧
    ((∀ n, (d, n) ∉ specials) → (escChar d) = d) := by
  constructor
  · intro n h
    simp only [specials, List.mem_cons, Prod.mk.injEq, List.not_mem_nil, or_false] at h
    rcases h with ⟨rfl, rfl⟩ | ⟨rfl, rfl⟩ | ⟨rfl, rfl⟩ | ⟨rfl, rfl⟩ | ⟨rfl, rfl⟩ | ⟨rfl, rfl⟩ | ⟨rfl, rfl⟩ | ⟨rfl, rfl⟩ <;> rfl
  · intro h
    unfold escChar
    split
    · exact absurd (by decide) (h 12)
    · exact absurd (by decide) (h 10)
    · exact absurd (by decide) (h 13)
    · exact absurd (by decide) (h 9)
    · exact absurd (by decide) (h 11)
    · exact absurd (by decide) (h 7)
    · exact absurd (by decide) (h 8)
    · rfl

theorem escape_text : ∀ (l : List DPiece) (n : Nat), DOk l → (dtext l).length ≤ n →
    (procEscape n (dtext l)).map (·.toNat) = l.map (·.code) := by
  intro l
  induction l with
  | nil => intro n _ _; cases n <;> simp [dtext, procEscape]
  | cons p r ih =>
    intro n h hn
    obtain ⟨hc, hp, hr⟩ := h
    have hd : dtext (p :: r) = p.text ++ dtext r := by simp [dtext]
    rw [hd] at hn ⊢
    cases n with
    | zero => cases p <;> simp [DPiece.text] at hn
    | succ n =>
      cases p with
      | plain c =>
        simp only [DPiece.text, List.singleton_append, List.length_cons] at hn ⊢
        have := ih n hr (by omega)
        have hne : c ≠ '\\' := hp
        cases e : dtext r with
        | nil =>
          rw [e] at this
          cases n with
          | zero => simp [procEscape, DPiece.code, procEscape] at this ⊢; exact this
          | succ n => simp [procEscape, DPiece.code] at this ⊢; exact this
        | cons d t =>
          rw [e] at this
          simp only [procEscape, hne, if_false, List.map_cons, this]
          rfl
      | special c k =>
        simp only [DPiece.text, List.cons_append, List.nil_append, List.length_cons] at hn ⊢
        have h0 : c ≠ '0' := by
          have hp' : (c, k) ∈ specials := hp
          rintro rfl
          simp [specials] at hp'
        simp only [procEscape, if_true, h0, if_false, List.map_cons, ih n hr (by omega), (special_code c h0).1 k hp]
        rfl
      | lit c =>
        simp only [DPiece.text, List.cons_append, List.nil_append, List.length_cons] at hn ⊢
        obtain ⟨h0, h1⟩ := hp
        simp only [procEscape, if_true, h0, if_false, List.map_cons, ih n hr (by omega), (special_code c h0).2 h1]
        rfl
      | oct ds =>
        simp only [DPiece.text, List.cons_append, List.length_cons, List.length_append] at hn ⊢
        obtain ⟨h0, h1⟩ := hp
        have hcode : value 8 ds < 256 := hc
        have tw := takeWhile_app (p := fun x => decide (x.toNat ≥ 48 ∧ x.toNat ≤ 55)) (a := ds) (b := dtext r)
          (fun c hc => by show decide _ = true; rw [octB]; exact decide_eq_true (h0 c hc))
          (fun c hc => by show decide _ = false; rw [octB]; exact decide_eq_false (h1 c hc))
        have hi := ih n hr (by omega)
        unfold procEscape
        simp only [if_true]
        rw [tw.1, tw.2]
        split
        · simp only [List.map_cons, hi, octfold ds h0]
          rw [show (0 * 8 ^ ds.length + value 8 ds) = value 8 ds by omega, Nat.min_eq_left (by omega), Nat.mod_eq_of_lt hcode,
            toNat_ofNat_byte hcode]
          rfl
        · rename_i hno
          have : ds = [] := by
            cases ds with
            | nil => rfl
            | cons c t =>
              exfalso
              apply hno
              have := (oct_iff c).1 (h0 c List.mem_cons_self)
              simp; omega
          subst this
          simp only [List.nil_append, List.map_cons, hi]
          rfl

/-! ### places -/

theorem addr_of {nm : Names} {a : Arg} {n : Nat} (h : AddrOf nm a n) : argAddr nm a = some n := by
  cases h with
  | num n h =>
    simp only [argAddr, BitVec.ofInt_natCast, BitVec.toNat_ofNat]
    rw [Nat.mod_eq_of_lt h]
  | var s v m h1 h2 => simp [argAddr, h1, h2]

theorem loc_of {nm : Names} {w : World} {p : Arg} {m a : Nat}
    {inside : Nat → Nat → Prop} (h : LocOf nm inside p m a)
    (hin : ∀ m a, inside m a → validAddr (w.spaces m).start (w.spaces m).size a = true) :
    ∃ h l, argBit nm w p = some ⟨some m, a, h, l⟩ := by
  cases h with
  | var s v m h1 h2 => exact ⟨v.hi, v.lo, by simp [argBit, h1, h2]⟩
  | elem s i m a h1 h2 h3 => exact ⟨-1, -1, by simp [argBit, h1, addr_of h2, hin _ _ h3]⟩

theorem bits_of {nm : Names} {w : World} {p : Arg} {m a l h : Nat}
    {inside : Nat → Nat → Prop} (hb : BitsOf nm inside p m a l h)
    (hin : ∀ m a, inside m a → validAddr (w.spaces m).start (w.spaces m).size a = true) :
    argBit nm w p = some ⟨some m, a, h, l⟩ ∧ l ≤ h ∧ h < 32 := by
  have nr (b : Nat) (hb : b < 32) : bitNr nm (.int b) = some (b : Int) := by
    unfold bitNr
    rw [show argInt nm (.int b) = (b : Int) from rfl]
    rw [if_neg (by omega)]
  cases hb with
  | bit p m a b h1 h2 =>
    obtain ⟨x, y, e⟩ := loc_of h1 hin
    exact ⟨by simp [argBit, e, nr _ h2], by omega, h2⟩
  | bits p m a h l h1 h2 h3 =>
    obtain ⟨x, y, e⟩ := loc_of h1 hin
    refine ⟨?_, by omega, h3⟩
    simp only [argBit, e, nr _ h3, nr l (by omega), Option.bind_eq_bind, Option.bind_some]
    rw [if_neg (by omega)]
  | swapped p m a h l h1 h2 h3 =>
    obtain ⟨x, y, e⟩ := loc_of h1 hin
    refine ⟨?_, by omega, h3⟩
    simp only [argBit, e, nr _ h3, nr l (by omega), Option.bind_eq_bind, Option.bind_some]
    split
    · rfl
    · have : l = h := by omega
      subst this; rfl
  | var s v m l h h1 h2 h3 h4 h5 h6 => exact ⟨by simp [argBit, h1, h2, h3, h4], h5, h6⟩

/-! ### data -/

theorem charData_val (c : Char) (k : Nat) (h : c.toNat < 256) (hk : k ≤ 8 ∨ c.toNat < 128) :
    (charData c).toNat % 2 ^ k = ((c.toNat : Int) % 2 ^ k).toNat := by
  have h2 : ((c.toNat : Int) % 2 ^ k).toNat = c.toNat % 2 ^ k := by
    rw [show ((c.toNat : Int) % 2 ^ k) = ((c.toNat % 2 ^ k : Nat) : Int) by simp]; rfl
  rw [h2]
  have e : c.toNat % 2 ^ k = (charData c).toNat % 2 ^ k := by
    rcases hk with hk | hk
    · have : (charData c).toNat % 256 = c.toNat := by
        unfold charData
        rw [BitVec.toNat_signExtend]
        simp only [BitVec.toNat_setWidth, BitVec.toNat_ofNat]
        split <;> omega
      rw [← this, Nat.mod_mod_of_dvd]
      exact Nat.pow_dvd_pow 2 hk
    · have : (charData c).toNat = c.toNat := by
        unfold charData
        rw [BitVec.toNat_signExtend, if_neg]
        · simp; omega
        · rw [BitVec.msb_eq_decide]; simp; omega
      rw [this]
  exact e.symm

theorem intData_val (n : Int) (k : Nat) (hk : k ≤ 32) : (BitVec.ofInt 32 n).toNat % 2 ^ k = (n % 2 ^ k).toNat := by
  rw [BitVec.toNat_ofInt]
  have hp : ((2 ^ k : Nat) : Int) ∣ ((2 ^ 32 : Nat) : Int) := Int.natCast_dvd_natCast.2 (Nat.pow_dvd_pow 2 hk)
  have h1 : (n % 2 ^ k) = (n % ((2 ^ 32 : Nat) : Int)) % ((2 ^ k : Nat) : Int) := by
    rw [Int.emod_emod_of_dvd _ hp]; simp
  rw [h1]
  have h3 : 0 ≤ n % ((2 ^ 32 : Nat) : Int) := Int.emod_nonneg _ (by simp)
  obtain ⟨m, hm⟩ := Int.eq_ofNat_of_zero_le h3
  rw [hm, ← Int.natCast_emod]
  rfl

/-- The data of the arguments are the values that are meant, in their order. -/
theorem data_vals (nm : Names) (k : Nat) (hk : k ≤ 32) : ∀ (ds : List Datum), (∀ d ∈ ds, d.Ok) → (k ≤ 8 ∨ ∀ d ∈ ds, d.Ascii) →
    (dataList nm (ds.map Datum.arg)).map (fun v => v.toNat % 2 ^ k) = (ds.flatMap Datum.vals).map (fun n => (n % 2 ^ k).toNat) := by
  intro ds
  induction ds with
  | nil => intro _ _; rfl
  | cons d r ih =>
    intro ho ha
    have := ih (fun x hx => ho x (List.mem_cons_of_mem _ hx)) (ha.imp_right fun h x hx => h x (List.mem_cons_of_mem _ hx))
    simp only [dataList, List.map_cons, List.flatMap_cons, List.map_append] at this ⊢
    rw [this]
    congr 1
    have hd := ho d List.mem_cons_self
    cases d with
    | num n => simp only [Datum.arg, argData, Datum.vals, List.map_cons, List.map_nil, intData_val n k hk]
    | str l =>
      have e := escape_text l (dtext l).length hd (Nat.le_refl _)
      simp only [Datum.arg, argData, Datum.vals, List.map_map]
      have hb : ∀ p ∈ l, p.code < 256 := by
        have : ∀ l, DOk l → ∀ p ∈ l, p.code < 256 := by
          intro l
          induction l with
          | nil => intro _ p hp; cases hp
          | cons q r ih =>
            intro h p hp
            rcases List.mem_cons.1 hp with rfl | hp
            · exact h.1
            · exact ih h.2.2 p hp
        exact this l hd
      have hc : ∀ c ∈ procEscape (dtext l).length (dtext l), c.toNat < 256 ∧ (k ≤ 8 ∨ c.toNat < 128) := by
        intro c hc
        have : c.toNat ∈ l.map (·.code) := by rw [← e]; exact List.mem_map_of_mem hc
        obtain ⟨p, hp, hpc⟩ := List.mem_map.1 this
        rw [← hpc]
        exact ⟨hb p hp, ha.imp_right fun h => h _ List.mem_cons_self p hp⟩
      have e2 : (procEscape (dtext l).length (dtext l)).map (fun c => (((c.toNat : Nat) : Int) % 2 ^ k).toNat) =
          l.map (fun p => (((p.code : Nat) : Int) % 2 ^ k).toNat) := by
        have := congrArg (List.map (fun n : Nat => ((n : Int) % 2 ^ k).toNat)) e
        simpa [List.map_map, Function.comp_def] using this
      rw [show (l.map ((fun n : Int => (n % 2 ^ k).toNat) ∘ fun p => (p.code : Int))) = l.map (fun p => (((p.code : Nat) : Int) % 2 ^ k).toNat) from rfl, ← e2]
      apply List.map_congr_left
      intro c hcm
      exact charData_val c k (hc c hcm).1 (hc c hcm).2

/-! ### writing -/

/-- The writes of `set memory`. -/
def listActs (sp : Nat) : List W → Nat → List Ucsim.Spec.Act
  | [], _ => []
  | v :: t, a => .write sp a v :: listActs sp t (a + 1)

theorem mem_listActs {sp : Nat} {x : Ucsim.Spec.Act} : ∀ {ds : List W} {a : Nat}, x ∈ listActs sp ds a ↔ ∃ j v, ds[j]? = some v ∧ x = .write sp (a + j) v := by
  intro ds
  induction ds with
  | nil => intro a; simp [listActs]
  | cons v t ih =>
    intro a
    simp only [listActs, List.mem_cons, ih]
    constructor
    · rintro (h | ⟨j, u, hj, h⟩)
      · exact ⟨0, v, rfl, h⟩
      · exact ⟨j + 1, u, by simpa using hj, by rw [h]; congr 1; omega⟩
    · rintro ⟨j, u, hj, h⟩
      cases j with
      | zero => simp at hj; subst hj; exact .inl h
      | succ j => exact .inr ⟨j, u, by simpa using hj, by rw [h]; congr 1; omega⟩

theorem setLoop_acts (env : Env) (sp : Nat) : ∀ (ds : List W) (a : Nat) (w : World),
    (w.spaces sp).start + (w.spaces sp).size < 4294967296 → (w.spaces sp).start ≤ a →
    (∀ b, a ≤ b → Quiet w sp b) →
    setLoop env sp ds a w = w.acts env (listActs sp (ds.take ((w.spaces sp).start + (w.spaces sp).size - a)) a) := by
  intro ds
  induction ds with
  | nil => intro a w _ _ _; simp [setLoop, listActs]; rfl
  | cons v t ih =>
    intro a w hb ha hq
    unfold setLoop
    have hu : u32 ((w.spaces sp).start + (w.spaces sp).size) = (w.spaces sp).start + (w.spaces sp).size := by unfold u32; omega
    by_cases h : a < (w.spaces sp).start + (w.spaces sp).size
    · rw [if_pos ⟨by unfold validAddr; rw [hu]; exact decide_eq_true ⟨ha, h⟩, by rw [hu]; unfold subU; omega⟩]
      have sw : SameWiring w (w.write env sp a v).1 := act_wiring (.write sp a v) (hq a (Nat.le_refl _))
      have hu2 : u32 (a + 1) = a + 1 := by unfold u32; omega
      rw [hu2, ih (a + 1) _ (by rw [sw.start, sw.size]; exact hb) (by rw [sw.start]; omega) (fun b hb => sw.quiet (hq b (by omega))),
        sw.start, sw.size]
      obtain ⟨k, hk⟩ : ∃ k, (w.spaces sp).start + (w.spaces sp).size - a = k + 1 := ⟨_, (Nat.sub_add_cancel (by omega : 1 ≤ _)).symm⟩
      rw [show (w.spaces sp).start + (w.spaces sp).size - (a + 1) = k by omega, hk, List.take_succ_cons]
      rfl
    · rw [if_neg]
      · rw [show (w.spaces sp).start + (w.spaces sp).size - a = 0 by omega]; rfl
      · rintro ⟨h1, _⟩
        unfold validAddr at h1
        rw [hu] at h1
        exact h (of_decide_eq_true h1).2

theorem spec_list (wire : Nat → Nat → Option Ucsim.Spec.Target) (sp : Nat) (t : Ucsim.Spec.Target) (v : W) (hb : t.bits = none) :
    ∀ (ds : List W) (a j : Nat) (s : Ucsim.Spec.St), ds[j]? = some v → wire sp (a + j) = some t → s.ro sp (a + j) = false →
      (∀ i u, j < i → i < ds.length → wire sp (a + i) = some u → ¬ (u.chip = t.chip ∧ u.elem = t.elem)) →
      (Ucsim.Spec.run wire s (listActs sp ds a)).mem t.chip t.elem = BitVec.ofNat 32 (v.toNat % 2 ^ t.width) := by
  intro ds
  induction ds with
  | nil => intro a j s h; simp at h
  | cons x r ih =>
    intro a j s hj hw hro hne
    show (Ucsim.Spec.run wire (Ucsim.Spec.step wire s (.write sp a x)) (listActs sp r (a + 1))).mem _ _ = _
    cases j with
    | zero =>
      simp at hj
      subst hj
      rw [spec_run_frame]
      · simp only [Nat.add_zero] at hw hro
        simp only [Ucsim.Spec.step, hw, hro, Bool.false_eq_true, if_false, Ucsim.Spec.writeT]
        simp only [and_self, if_true, Ucsim.Spec.newElem, hb]
      · intro y hy u hu
        obtain ⟨i, z, hi, rfl⟩ := mem_listActs.1 hy
        have hl : i < r.length := by
          rcases Nat.lt_or_ge i r.length with h | h
          · exact h
          · simp [h] at hi
        exact hne (i + 1) u (by omega) (by simp; omega) (by rw [← hu]; show wire sp (a + (i + 1)) = wire sp (a + 1 + i); congr 1; omega)
    | succ j =>
      refine ih (a + 1) j _ (by simpa using hj) (by rw [← hw]; congr 1; omega) ?_ ?_
      · rw [show a + 1 + j = a + (j + 1) by omega, ← hro]
        simp only [Ucsim.Spec.step]
        split
        · rfl
        · split <;> rfl
      · intro i u h1 h2 h3
        exact hne (i + 1) u (by omega) (by simp; omega) (by rw [← h3]; congr 1; omega)

end Ucsim.Cmd
