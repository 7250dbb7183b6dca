import Verif.Core.SetRom
/-!
The HEX loader over `cl_f` refines a parser over the list of bytes of the file.
-/
namespace Ucsim

/-- A file between two `get_c` calls (not the first). -/
structure File.Ok (f : File) : Prop where
  fits : f.buf.length ≤ 1023
  ended : f.atEnd = true → f.rest = []
  ahead : f.atEnd = false → (f.rest ≠ [] → 98 ≤ f.buf.length) ∧ (f.rest = [] → 1 ≤ f.buf.length)

/-- A file at any time before a `get_c`; a file of one byte is excluded. -/
def File.Ready (f : File) : Prop := f.Ok ∨ (∃ l, f = File.open l ∧ l.length ≠ 1)

theorem eof_iff {f : File} (h : f.Ok) : f.eof = f.left.isEmpty := by
  obtain ⟨h1, h2, h3⟩ := h
  unfold File.eof File.left
  cases hb : f.buf with
  | cons b bs => simp
  | nil =>
    cases ha : f.atEnd with
    | true => simp [h2 ha]
    | false =>
      have := h3 ha
      rw [hb] at this
      cases hr : f.rest with
      | nil => have := this.2 hr; simp at this
      | cons x xs => have := this.1 (by rw [hr]; simp); simp at this

theorem pick_left (f : File) : f.pick.left = f.left := by
  unfold File.pick File.left
  simp only
  split
  · rfl
  · simp [List.append_assoc]

theorem getC_nil {f : File} (hl : f.left = []) : f.getC = none := by
  have := pick_left f
  rw [hl] at this
  unfold File.getC
  cases h : f.pick with
  | mk r b e =>
    rw [h] at this
    unfold File.left at this
    simp only [List.append_eq_nil_iff] at this
    rw [this.1]

theorem getC_cons {f : File} (hr : f.Ready) {b : Nat} {bs : List Nat} (hl : f.left = b :: bs) :
    ∃ f', f.getC = some (File.charVal b f'.atEnd, f') ∧ f'.Ok ∧ f'.left = bs := by
  have hp := pick_left f
  rw [hl] at hp
  have key : ∃ r c cs e, f.pick = ⟨r, c :: cs, e⟩ ∧ (File.mk r cs e).Ok := by
    rcases hr with ⟨h1, h2, h3⟩ | ⟨l, rfl, h1⟩
    · unfold File.pick
      simp only
      by_cases hfp : 1023 - f.buf.length < 5
      · rw [if_pos hfp]
        cases hb : f.buf with
        | nil => rw [hb] at hfp; simp at hfp
        | cons c cs =>
          refine ⟨f.rest, c, cs, f.atEnd, ?_, ?_, h2, ?_⟩
          · cases f; simp_all
          · rw [hb] at h1; simp at h1 ⊢; omega
          · intro _; rw [hb] at hfp; simp at hfp; exact ⟨fun _ => by show 98 ≤ cs.length; omega, fun _ => by show 1 ≤ cs.length; omega⟩
      · rw [if_neg hfp]
        generalize hn : (if 1023 - f.buf.length > 101 then 99 else 1023 - f.buf.length - 1) = n
        have hn1 : 4 ≤ n ∧ n ≤ 1022 - f.buf.length ∧ (n < 99 → 922 ≤ f.buf.length) := by
          rw [← hn]; split <;> omega
        have hne : f.buf ++ f.rest.take n ≠ [] := by
          intro h
          simp only [List.append_eq_nil_iff, List.take_eq_nil_iff] at h
          have hz : f.rest = [] := by rcases h.2 with h | h; omega; exact h
          unfold File.left at hl
          rw [h.1, hz] at hl; cases hl
        cases hb : f.buf ++ f.rest.take n with
        | nil => exact absurd hb hne
        | cons c cs =>
          have hlen : cs.length + 1 = f.buf.length + min n f.rest.length := by
            have := congrArg List.length hb
            simpa using this.symm
          refine ⟨f.rest.drop n, c, cs, f.atEnd || f.rest.isEmpty, rfl, ?_, ?_, ?_⟩
          · simp only; omega
          · intro h
            simp only [Bool.or_eq_true, List.isEmpty_iff] at h
            have : f.rest = [] := by rcases h with h | h; exact h2 h; exact h
            simp [this]
          · intro h
            simp only [Bool.or_eq_false_iff] at h
            have hr : f.rest ≠ [] := by intro h'; rw [h'] at h; simp at h
            have hr' : 0 < f.rest.length := List.length_pos_iff.2 hr
            have h4 := (h3 h.1).1 hr
            constructor
            · intro h5
              simp only [ne_eq, List.drop_eq_nil_iff, Nat.not_le] at h5
              simp only; omega
            · intro _; simp only; omega
    · unfold File.pick File.open
      simp only [List.length_nil, Nat.sub_zero, Nat.reduceLT, ↓reduceIte, Nat.reduceGT, List.nil_append, Bool.false_or]
      unfold File.open File.left at hl
      simp only [List.nil_append] at hl
      subst hl
      have h6 : 1 ≤ bs.length := by rw [List.length_cons] at h1; omega
      refine ⟨bs.drop 98, b, bs.take 98, false, by simp, ?_, by simp, ?_⟩
      · simp; omega
      · intro _
        simp only [ne_eq, List.drop_eq_nil_iff, List.length_take]; omega
  obtain ⟨r, c, cs, e, h1, h2⟩ := key
  refine ⟨⟨r, cs, e⟩, ?_, h2, ?_⟩
  · unfold File.getC
    rw [h1] at hp ⊢
    unfold File.left at hp
    simp only [List.cons_append, List.cons.injEq] at hp
    rw [hp.1]
  · rw [h1] at hp
    unfold File.left at hp ⊢
    simp only [List.cons_append, List.cons.injEq] at hp
    exact hp.2

/-- A file of one byte: after it `get_c` never returns, and `eof` is not yet
true. -/
theorem one_byte (b : Nat) : ∃ f' : File, (File.open [b]).getC = some (File.charVal b false, f') ∧ f'.left = [] ∧ f'.eof = false := by
  exact ⟨⟨[], [], false⟩, rfl, rfl, rfl⟩

/-! ### The parser over lists -/

/-- A byte `ReadInt` refuses. -/
def badChar (b : Nat) : Prop := b = 0 ∨ 128 ≤ b
instance (b : Nat) : Decidable (badChar b) := inferInstanceAs (Decidable (_ ∨ _))

def lByte : List Nat → Option Int × List Nat
  | [] => (none, [])
  | a :: t =>
    if badChar a then (none, t)
    else match t with
      | [] => (none, [])
      | b :: t => if badChar b then (none, t) else (some (strtol2 a b), t)

def lInt : Nat → Int → List Nat → Int × Bool × List Nat
  | 0, l, f => (l, true, f)
  | n + 1, l, f =>
    match lByte f with
    | (none, f) => (0, false, f)
    | (some v, f) => lInt n (l * 256 + v) f

def lSkip : List Nat → Option (Bool × List Nat)
  | [] => none
  | b :: t => if b = 58 then some (true, t) else if t = [] then some (false, []) else lSkip t

def lData : Nat → List Nat → List Nat × Bool × List Nat
  | 0, f => ([], true, f)
  | n + 1, f =>
    match lInt 1 0 f with
    | (v, ok, f) =>
      if ok then match lData n f with
        | (l, ok, f) => (uchar v :: l, ok, f)
      else ([uchar v], false, f)

def lLine (width : Nat) (h : Hex) (f : List Nat) : Hex × Bool × List Nat :=
  match lInt 1 0 f with
  | (dnum, _, f) =>
    let dnum := uchar dnum
    match lInt 2 0 f with
    | (addr, _, f) =>
      let addr := uint addr
      match lInt 1 0 f with
      | (rtyp, ok, f) =>
        let rtyp := uchar rtyp
        let chk := dnum + addr % 256 + addr / 256 % 256 + rtyp
        let h := { h with addr := addr, rtyp := rtyp }
        if ok then
          match lData dnum f with
          | (data, ok, f) =>
            if ok then
              match lInt 1 0 f with
              | (sum, ok, f) =>
                if ok then
                  if (uchar sum + (chk + sumOf data) % 256) % 256 = 0
                  then (h.record width rtyp data, true, f)
                  else (h, true, f)
                else (h, false, f)
            else (h, false, f)
        else (h, false, f)

def lLoop (width : Nat) : Nat → Hex → List Nat → Option Hex
  | 0, _, _ => none
  | n + 1, h, f =>
    match lSkip f with
    | none => none
    | some (found, f) =>
      if found then
        match lLine width h f with
        | (h, ok, f) => if ok = true ∧ h.rtyp ≠ 1 then lLoop width n h f else some h
      else some h

/-! ### Refinement -/

/-- All the bytes are bytes. -/
def Bytes8 (l : List Nat) : Prop := ∀ b ∈ l, b < 256

structure At (f : File) (l : List Nat) : Prop where
  ok : f.Ok
  left : f.left = l
  bytes : Bytes8 l

theorem At.eof {f l} (h : At f l) : f.eof = l.isEmpty := by rw [eof_iff h.ok, h.left]

theorem At.get {f b bs} (h : At f (b :: bs)) : ∃ f', f.getC = some (File.charVal b f'.atEnd, f') ∧ At f' bs := by
  obtain ⟨f', h1, h2, h3⟩ := getC_cons (Or.inl h.ok) h.left
  exact ⟨f', h1, h2, h3, fun x hx => h.bytes x (by simp [hx])⟩

theorem charVal_bad {b : Nat} (hb : b < 256) (e : Bool) :
    (File.charVal b e < 0 ∨ File.charVal b e = 0 ∨ File.charVal b e > 255) ↔ badChar b := by
  unfold File.charVal badChar
  split
  · omega
  · split
    · split <;> omega
    · omega

theorem charVal_ok {b : Nat} (e : Bool) (h : ¬ badChar b) : File.charVal b e = b := by
  unfold badChar at h
  unfold File.charVal
  rw [if_pos (by omega)]

theorem charVal_colon {b : Nat} (hb : b < 256) (e : Bool) : File.charVal b e = 58 ↔ b = 58 := by
  unfold File.charVal
  split
  · omega
  · split
    · split <;> omega
    · omega

theorem readByte_at {f l} (h : At f l) : ∃ f', readByte f = some ((lByte l).1, f') ∧ At f' (lByte l).2 := by
  unfold readByte
  rw [h.eof]
  cases l with
  | nil => exact ⟨f, by simp [lByte], h⟩
  | cons a t =>
    obtain ⟨f1, h1, h2⟩ := h.get
    have ha : a < 256 := h.bytes a (by simp)
    simp only [List.isEmpty_cons, Bool.false_eq_true, ↓reduceIte, h1]
    unfold lByte
    simp only
    by_cases hb : badChar a
    · rw [if_pos ((charVal_bad ha _).2 hb), if_pos hb]
      exact ⟨f1, rfl, h2⟩
    · rw [if_neg (fun x => hb ((charVal_bad ha _).1 x)), if_neg hb, h2.eof]
      cases t with
      | nil => exact ⟨f1, by simp, h2⟩
      | cons b t =>
        obtain ⟨f2, h3, h4⟩ := h2.get
        have hb' : b < 256 := h2.bytes b (by simp)
        simp only [List.isEmpty_cons, Bool.false_eq_true, ↓reduceIte, h3]
        by_cases hbb : badChar b
        · rw [if_pos ((charVal_bad hb' _).2 hbb), if_pos hbb]
          exact ⟨f2, rfl, h4⟩
        · rw [if_neg (fun x => hbb ((charVal_bad hb' _).1 x)), if_neg hbb, charVal_ok _ hb, charVal_ok _ hbb]
          exact ⟨f2, rfl, h4⟩

theorem readInt_at (n : Nat) : ∀ {f l} (v : Int), At f l →
    ∃ f', readInt n v f = some ((lInt n v l).1, (lInt n v l).2.1, f') ∧ At f' (lInt n v l).2.2 := by
  induction n with
  | zero => intro f l v h; exact ⟨f, rfl, h⟩
  | succ n ih =>
    intro f l v h
    obtain ⟨f1, h1, h2⟩ := readByte_at h
    unfold readInt lInt
    rw [h1]
    revert h2
    rcases lByte l with ⟨_ | x, t⟩
    · intro h2; exact ⟨f1, rfl, h2⟩
    · intro h2; exact ih _ h2

theorem skip_at (n : Nat) : ∀ {f : File} {l : List Nat}, f.Ready → f.left = l → Bytes8 l → l.length < n →
    match lSkip l with
    | none => skipTo n f = none
    | some (b, t) => ∃ f', skipTo n f = some (b, f') ∧ At f' t := by
  induction n with
  | zero => intro f l _ _ _ h; omega
  | succ n ih =>
    intro f l hr hl hb hn
    cases l with
    | nil =>
      simp only [lSkip]
      unfold skipTo; rw [getC_nil hl]
    | cons a t =>
      obtain ⟨f1, h1, h2, h3⟩ := getC_cons hr hl
      have hat : At f1 t := ⟨h2, h3, fun x hx => hb x (by simp [hx])⟩
      have ha : a < 256 := hb a (by simp)
      simp only [lSkip]
      unfold skipTo; rw [h1]; simp only
      by_cases hc : a = 58
      · rw [if_pos hc, if_pos ((charVal_colon ha _).2 hc)]
        exact ⟨f1, rfl, hat⟩
      · rw [if_neg hc, if_neg (fun x => hc ((charVal_colon ha _).1 x)), hat.eof]
        cases t with
        | nil => simp only [↓reduceIte, List.isEmpty_nil]; exact ⟨f1, rfl, hat⟩
        | cons b t =>
          simp only [reduceCtorEq, ↓reduceIte, List.isEmpty_cons, Bool.false_eq_true]
          exact ih (Or.inl h2) h3 hat.bytes (by simp at hn ⊢; omega)

theorem readData_at (n : Nat) : ∀ {f l}, At f l →
    ∃ f', readData n f = some ((lData n l).1, (lData n l).2.1, f') ∧ At f' (lData n l).2.2 := by
  induction n with
  | zero => intro f l h; exact ⟨f, rfl, h⟩
  | succ n ih =>
    intro f l h
    obtain ⟨f1, h1, h2⟩ := readInt_at 1 0 h
    unfold readData lData
    rw [h1]
    revert h2
    rcases lInt 1 0 l with ⟨v, ok, t⟩
    intro h2
    simp only at h2 ⊢
    cases ok with
    | false => exact ⟨f1, rfl, h2⟩
    | true =>
      obtain ⟨f2, h3, h4⟩ := ih h2
      simp only [↓reduceIte, h3]
      exact ⟨f2, rfl, h4⟩

theorem line_at (width : Nat) (h : Hex) {f l} (hA : At f l) :
    ∃ f', Hex.line width h f = some ((lLine width h l).1, (lLine width h l).2.1, f') ∧ At f' (lLine width h l).2.2 := by
  unfold Hex.line lLine
  obtain ⟨f1, h1, a1⟩ := readInt_at 1 0 hA
  rw [h1]; simp only
  generalize lInt 1 0 l = x1 at *
  obtain ⟨f2, h2, a2⟩ := readInt_at 2 0 a1
  rw [h2]; simp only
  generalize lInt 2 0 x1.2.2 = x2 at *
  obtain ⟨f3, h3, a3⟩ := readInt_at 1 0 a2
  rw [h3]; simp only
  generalize lInt 1 0 x2.2.2 = x3 at *
  cases hok : x3.2.1 with
  | false => exact ⟨f3, rfl, a3⟩
  | true =>
    obtain ⟨f4, h4, a4⟩ := readData_at (uchar x1.1) a3
    simp only [↓reduceIte, h4]
    generalize lData (uchar x1.1) x3.2.2 = x4 at *
    cases hok4 : x4.2.1 with
    | false => exact ⟨f4, rfl, a4⟩
    | true =>
      obtain ⟨f5, h5, a5⟩ := readInt_at 1 0 a4
      simp only [↓reduceIte, h5]
      generalize lInt 1 0 x4.2.2 = x5 at *
      cases hok5 : x5.2.1 with
      | false => exact ⟨f5, rfl, a5⟩
      | true =>
        simp only [↓reduceIte]
        split
        · exact ⟨f5, rfl, a5⟩
        · exact ⟨f5, rfl, a5⟩

theorem loop_at (width : Nat) (n : Nat) : ∀ (h : Hex) {f : File} {l : List Nat}, f.Ready → f.left = l → Bytes8 l →
    Hex.loop width n h f = lLoop width n h l := by
  induction n with
  | zero => intros; rfl
  | succ n ih =>
    intro h f l hr hl hb
    have hs := skip_at (l.length + 1) hr hl hb (by omega)
    unfold Hex.loop lLoop
    rw [hl]
    rcases h1 : lSkip l with _ | ⟨found, t⟩
    · rw [h1] at hs; simp only at hs; rw [hs]
    · rw [h1] at hs; simp only at hs
      obtain ⟨f1, h2, h3⟩ := hs
      rw [h2]
      cases found with
      | false => rfl
      | true =>
        simp only [↓reduceIte]
        obtain ⟨f2, h4, h5⟩ := line_at width h h3
        rw [h4]
        simp only
        split
        · exact ih _ (Or.inl h5.ok) h5.left h5.bytes
        · rfl

/-- The loader on a file of at least two bytes (or none) is the parser on its
bytes. -/
theorem readHex_eq (width : Nat) (l : List Nat) (hl : l.length ≠ 1) (hb : Bytes8 l) :
    readHex width (File.open l) =
      (lLoop width (l.length + 1) Hex.init l).map fun h => ((h.tail width).calls, h.written) := by
  unfold readHex
  rw [loop_at width _ Hex.init (f := File.open l) (l := l) (Or.inr ⟨l, rfl, hl⟩) rfl hb]
  rfl

end Ucsim
