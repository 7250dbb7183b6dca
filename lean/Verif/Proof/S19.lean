import Verif.Core.S19
import Verif.Spec.S19
import Verif.Proof.Hex
/-!
The S-record and OMF loaders over lists of bytes.
-/
namespace Ucsim
open Spec.Hex Spec.S19

/-! ### Reading lines -/

/-- A file with `l` to be delivered, `eof` telling the truth. -/
structure AtR (f : File) (l : List Nat) : Prop where
  ready : f.Ready
  left : f.left = l
  bytes : Bytes8 l
  eof : f.eof = l.isEmpty

theorem At.toR {f l} (h : At f l) : AtR f l := ⟨Or.inl h.ok, h.left, h.bytes, h.eof⟩

theorem AtR.open {l : List Nat} (h : 2 ≤ l.length) (hb : Bytes8 l) : AtR (File.open l) l := by
  refine ⟨Or.inr ⟨l, rfl, by omega⟩, rfl, hb, ?_⟩
  cases l with
  | nil => simp at h
  | cons a t => rfl

theorem AtR.get {f b bs} (h : AtR f (b :: bs)) : ∃ f', f.getC = some (File.charVal b f'.atEnd, f') ∧ At f' bs := by
  obtain ⟨f', h1, h2, h3⟩ := getC_cons h.ready h.left
  exact ⟨f', h1, h2, h3, fun x hx => h.bytes x (by simp [hx])⟩

theorem charVal_ascii {b : Nat} (h : b < 128) (e : Bool) : File.charVal b e = b := by
  unfold File.charVal; rw [if_pos h]

/-- The text of a line as the program holds it. -/
abbrev ints (t : List Nat) : List Int := t.map (fun (c : Nat) => (c : Int))

theorem isNl_of {c : Nat} (h : c = 10 ∨ c = 13) : isNl (c : Int) = true := by
  unfold isNl; rcases h with rfl | rfl <;> rfl

theorem isNl_not {c : Nat} (h : c ≠ 10 ∧ c ≠ 13) : isNl (c : Int) = false := by
  unfold isNl
  simp only [Bool.or_eq_false_iff, decide_eq_false_iff_not]
  omega

theorem getSLoop_line (t : List Nat) : ∀ (n : Nat) (s : List Int) (c : Nat) (f : File) (nl : Nat) (rest : List Nat),
    TextLine (c :: t) → (nl = 10 ∨ nl = 13) → At f (t ++ nl :: rest) → t.length + 1 < n →
    ∃ f', getSLoop n s (c : Int) f = some (s ++ ints (c :: t), f') ∧ At f' rest := by
  induction t with
  | nil =>
    intro n s c f nl rest ht hnl h hn
    obtain ⟨n, rfl⟩ : ∃ m, n = m + 2 := ⟨n - 2, by simp at hn; omega⟩
    have hc := ht c (by simp)
    obtain ⟨f1, h1, h2⟩ := At.get h
    rw [List.nil_append] at h
    unfold getSLoop
    rw [h.eof, isNl_not ⟨hc.1, hc.2.1⟩, h1, charVal_ascii (by omega)]
    simp only [List.isEmpty_cons, Bool.not_false, Bool.and_self, ↓reduceIte]
    unfold getSLoop
    rw [isNl_of hnl]
    simp only [Bool.not_true, Bool.and_false, Bool.false_eq_true, ↓reduceIte]
    refine ⟨f1, ?_, h2⟩
    unfold appendChar; rw [if_neg (by omega)]; rfl
  | cons d t ih =>
    intro n s c f nl rest ht hnl h hn
    obtain ⟨n, rfl⟩ : ∃ m, n = m + 1 := ⟨n - 1, by omega⟩
    have hc := ht c (by simp)
    have hd := ht d (by simp)
    obtain ⟨f1, h1, h2⟩ := At.get h
    unfold getSLoop
    rw [h.eof, isNl_not ⟨hc.1, hc.2.1⟩, h1, charVal_ascii (by omega)]
    simp only [List.cons_append, List.isEmpty_cons, Bool.not_false, Bool.and_self, ↓reduceIte]
    obtain ⟨f2, h3, h4⟩ := ih n (appendChar s c) d f1 nl rest (fun x hx => ht x (by simp at hx ⊢; right; exact hx)) hnl h2 (by simp at hn; omega)
    refine ⟨f2, ?_, h4⟩
    rw [h3]
    unfold appendChar; rw [if_neg (by omega)]
    simp

theorem getSSkip_self (n : Nat) (c : Nat) (f : File) (h : c ≠ 10 ∧ c ≠ 13) :
    getSSkip (n + 1) (c : Int) f = some (some (c : Int), f) := by
  unfold getSSkip; rw [isNl_not h]; rfl

/-- What `get_s` delivers from the text of some lines. -/
def lGetS : List (List Nat × Nat) → List Nat × List (List Nat × Nat)
  | [] => ([], [])
  | ([], _) :: ls => lGetS ls
  | (c :: t, _) :: ls => (c :: t, ls)

/-- The lines are lines of text, ended by a newline character. -/
def Lines (ls : List (List Nat × Nat)) : Prop := ∀ x ∈ ls, TextLine x.1 ∧ (x.2 = 10 ∨ x.2 = 13)

theorem fileOf_ne {x : List Nat × Nat} {ls : List (List Nat × Nat)} : fileOf (x :: ls) ≠ [] := by
  obtain ⟨t, nl⟩ := x; unfold fileOf; simp

theorem fileOf_bytes {ls : List (List Nat × Nat)} (h : Lines ls) : Bytes8 (fileOf ls) := by
  induction ls with
  | nil => intro b hb; simp [fileOf] at hb
  | cons x ls ih =>
    obtain ⟨t, nl⟩ := x
    have hx := h (t, nl) (by simp)
    intro b hb
    simp only [fileOf, List.mem_append, List.mem_cons] at hb
    rcases hb with hb | rfl | hb
    · have := hx.1 b hb; omega
    · have := hx.2; simp only at this; omega
    · exact ih (fun y hy => h y (by simp [hy])) b hb

theorem getS_skip (ls : List (List Nat × Nat)) : ∀ (n : Nat) (nl : Nat) (f : File), Lines ls → (nl = 10 ∨ nl = 13) →
    At f (fileOf ls) → (fileOf ls).length < n →
    (∃ t nl' ls', ls ≠ [] ∧ (lGetS ls) = (t, ls') ∧ ∃ c t' f', t = c :: t' ∧ getSSkip n (nl : Int) f = some (some (c : Int), f') ∧ TextLine t ∧
      (nl' = 10 ∨ nl' = 13) ∧ Lines ls' ∧ At f' (t' ++ nl' :: fileOf ls') ∧ ls'.length < ls.length) ∨
    (lGetS ls = ([], []) ∧ ∃ f', getSSkip n (nl : Int) f = some (none, f') ∧ At f' []) := by
  induction ls with
  | nil =>
    intro n nl f _ hnl h hn
    right
    obtain ⟨n, rfl⟩ : ∃ m, n = m + 1 := ⟨n - 1, by omega⟩
    refine ⟨rfl, f, ?_, h⟩
    unfold getSSkip
    rw [isNl_of hnl, h.eof]; simp [fileOf]
  | cons x ls ih =>
    intro n nl f hL hnl h hn
    obtain ⟨n, rfl⟩ : ∃ m, n = m + 1 := ⟨n - 1, by omega⟩
    obtain ⟨t, nl1⟩ := x
    have hx := hL (t, nl1) (by simp)
    have hL' : Lines ls := fun y hy => hL y (by simp [hy])
    have he : f.eof = false := by
      rw [h.eof]; cases hh : fileOf ((t, nl1) :: ls) with
      | nil => exact absurd hh fileOf_ne
      | cons a b => rfl
    cases t with
    | nil =>
      simp only [fileOf, List.nil_append, List.length_cons] at h hn
      obtain ⟨f1, h1, h2⟩ := At.get h
      have hlt : nl1 < 128 := by have := hx.2; simp only at this; omega
      have hstep : getSSkip (n + 1) (nl : Int) f = getSSkip n (nl1 : Int) f1 := by
        conv => lhs; unfold getSSkip
        rw [isNl_of hnl, he, h1, charVal_ascii hlt]; rfl
      rw [hstep]
      rcases ih n nl1 f1 hL' hx.2 h2 (by omega) with ⟨t, nl', ls', g0, g1, c, t', f', g2, g3, g4, g5, g6, g7, g8⟩ | ⟨g1, g2⟩
      · left
        exact ⟨t, nl', ls', by simp, g1, c, t', f', g2, g3, g4, g5, g6, g7, by simp; omega⟩
      · right; exact ⟨g1, g2⟩
    | cons c t =>
      left
      simp only [fileOf, List.cons_append, List.length_cons] at h hn
      obtain ⟨f1, h1, h2⟩ := At.get h
      have hc := hx.1 c (by simp)
      obtain ⟨m, rfl⟩ : ∃ m, n = m + 1 := ⟨n - 1, by simp at hn; omega⟩
      refine ⟨c :: t, nl1, ls, by simp, rfl, c, t, f1, rfl, ?_, hx.1, hx.2, hL', h2, by simp⟩
      unfold getSSkip
      rw [isNl_of hnl, he, h1, charVal_ascii (by omega)]
      simp only [↓reduceIte, Bool.false_eq_true]
      exact getSSkip_self m c f1 ⟨hc.1, hc.2.1⟩

theorem getS_rest {f : File} {c : Nat} {t : List Nat} {nl : Nat} {ls : List (List Nat × Nat)} (ht : TextLine (c :: t))
    (hnl : nl = 10 ∨ nl = 13) (h : At f (t ++ nl :: fileOf ls)) :
    ∃ f', (if f.eof = true then some (([] : List Int), f)
        else match f.getC with
          | none => none
          | some (c', f) => getSLoop (f.left.length + 1) (appendChar [] (c : Int)) c' f) = some (ints (c :: t), f') ∧ At f' (fileOf ls) := by
  have hc := ht c (by simp)
  have ha : appendChar [] (c : Int) = [(c : Int)] := by unfold appendChar; rw [if_neg (by omega)]; rfl
  have he : f.eof = false := by rw [h.eof]; cases t <;> rfl
  rw [he, ha]
  cases t with
  | nil =>
    obtain ⟨f1, h1, h2⟩ := At.get h
    rw [h1, charVal_ascii (by omega)]
    simp only [Bool.false_eq_true, ↓reduceIte]
    unfold getSLoop
    rw [isNl_of hnl]
    exact ⟨f1, by simp, h2⟩
  | cons d t =>
    obtain ⟨f1, h1, h2⟩ := At.get h
    have hd := ht d (by simp)
    rw [h1, charVal_ascii (by omega)]
    simp only [Bool.false_eq_true, ↓reduceIte]
    obtain ⟨f2, h3, h4⟩ := getSLoop_line t (f1.left.length + 1) [(c : Int)] d f1 nl (fileOf ls)
      (fun x hx => ht x (by simp at hx ⊢; right; exact hx)) hnl h2 (by rw [h2.left]; simp)
    exact ⟨f2, by rw [h3]; rfl, h4⟩

/-- `get_s` on the text of lines. -/
theorem getS_lines {f : File} {x : List Nat × Nat} {ls : List (List Nat × Nat)} (hL : Lines (x :: ls)) (h : AtR f (fileOf (x :: ls))) :
    ∃ f', f.getS = some (ints (lGetS (x :: ls)).1, f') ∧ At f' (fileOf (lGetS (x :: ls)).2) := by
  obtain ⟨t, nl⟩ := x
  have hx := hL (t, nl) (by simp)
  have hL' : Lines ls := fun y hy => hL y (by simp [hy])
  unfold File.getS
  have he : f.eof = false := by
    rw [h.eof]; cases hh : fileOf ((t, nl) :: ls) with
    | nil => exact absurd hh fileOf_ne
    | cons a b => rfl
  rw [he]
  simp only [Bool.false_eq_true, ↓reduceIte]
  cases t with
  | nil =>
    simp only [fileOf, List.nil_append] at h
    obtain ⟨f1, h1, h2⟩ := h.get
    have hlt : nl < 128 := by have := hx.2; simp only at this; omega
    rw [h1, charVal_ascii hlt]
    simp only
    rcases getS_skip ls (f1.left.length + 1) nl f1 hL' hx.2 h2 (by rw [h2.left]; omega) with
      ⟨t, nl', ls', g0, g1, c, t', f', g2, g3, g4, g5, g6, g7, g8⟩ | ⟨g1, f', g2, g3⟩
    · rw [g3]
      simp only [lGetS, g1]
      subst g2
      exact getS_rest g4 g5 g7
    · rw [g2]
      simp only [lGetS, g1]
      exact ⟨f', rfl, g3⟩
  | cons c t =>
    simp only [fileOf, List.cons_append] at h
    obtain ⟨f1, h1, h2⟩ := h.get
    have hc := hx.1 c (by simp)
    rw [h1, charVal_ascii (by omega)]
    simp only
    rw [getSSkip_self _ c f1 ⟨hc.1, hc.2.1⟩]
    simp only [lGetS]
    exact getS_rest hx.1 hx.2 h2

theorem lGetS_len (ls : List (List Nat × Nat)) : ls ≠ [] → (lGetS ls).2.length < ls.length := by
  induction ls with
  | nil => intro h; exact absurd rfl h
  | cons x ls ih =>
    intro _
    obtain ⟨t, nl⟩ := x
    cases t with
    | nil =>
      simp only [lGetS]
      by_cases h : ls = []
      · subst h; simp [lGetS]
      · have := ih h; simp; omega
    | cons c t => simp [lGetS]

theorem lGetS_lines (ls : List (List Nat × Nat)) : Lines ls → Lines (lGetS ls).2 := by
  induction ls with
  | nil => intro h; exact h
  | cons x ls ih =>
    intro h
    obtain ⟨t, nl⟩ := x
    have hL' : Lines ls := fun y hy => h y (by simp [hy])
    cases t with
    | nil => exact ih hL'
    | cons c t => exact hL'

theorem s19Line_nil (width : Nat) : s19Line width [] = ([], 0) := by unfold s19Line; simp

theorem lGetS_calls (width : Nat) (ls : List (List Nat × Nat)) :
    (ls.map fun x => (s19Line width (ints x.1)).1).flatten =
      (s19Line width (ints (lGetS ls).1)).1 ++ ((lGetS ls).2.map fun x => (s19Line width (ints x.1)).1).flatten ∧
    (ls.map fun x => (s19Line width (ints x.1)).2).sum =
      (s19Line width (ints (lGetS ls).1)).2 + ((lGetS ls).2.map fun x => (s19Line width (ints x.1)).2).sum := by
  induction ls with
  | nil => simp [lGetS, s19Line_nil]
  | cons x ls ih =>
    obtain ⟨t, nl⟩ := x
    cases t with
    | nil =>
      simp only [lGetS]
      rw [← ih.1, ← ih.2]
      simp [s19Line_nil]
    | cons c t => simp [lGetS]

theorem s19Read_lines (width : Nat) (n : Nat) : ∀ (ls : List (List Nat × Nat)) (f : File), Lines ls → AtR f (fileOf ls) → ls.length < n →
    s19Read width n f = some ((ls.map fun x => (s19Line width (ints x.1)).1).flatten, (ls.map fun x => (s19Line width (ints x.1)).2).sum) := by
  induction n with
  | zero => intro ls f _ _ h; omega
  | succ n ih =>
    intro ls f hL h hn
    unfold s19Read
    rw [h.eof]
    cases ls with
    | nil => simp [fileOf]
    | cons x ls =>
      have he : (fileOf (x :: ls)).isEmpty = false := by
        cases hh : fileOf (x :: ls) with
        | nil => exact absurd hh fileOf_ne
        | cons a b => rfl
      rw [he]
      simp only [Bool.false_eq_true, ↓reduceIte]
      obtain ⟨f1, h1, h2⟩ := getS_lines hL h
      rw [h1]
      simp only
      have hlen := lGetS_len (x :: ls) (by simp)
      rw [ih _ f1 (lGetS_lines _ hL) h2.toR (by simp at hn; simp at hlen; omega)]
      simp only
      obtain ⟨c1, c2⟩ := lGetS_calls width (x :: ls)
      rw [c1, c2]

theorem fileOf_len (ls : List (List Nat × Nat)) : ls.length ≤ (fileOf ls).length := by
  induction ls with
  | nil => simp
  | cons x ls ih => obtain ⟨t, nl⟩ := x; simp [fileOf]; omega

theorem readS19_lines (width : Nat) (ls : List (List Nat × Nat)) (hL : Lines ls) (hlen : 2 ≤ (fileOf ls).length) :
    readS19 width (File.open (fileOf ls)) =
      some ((ls.map fun x => (s19Line width (ints x.1)).1).flatten, (ls.map fun x => (s19Line width (ints x.1)).2).sum) := by
  unfold readS19
  have := fileOf_len ls
  exact s19Read_lines width _ ls _ hL (AtR.open hlen (fileOf_bytes hL)) (by show ls.length < (fileOf ls).length + 1; omega)

end Ucsim
