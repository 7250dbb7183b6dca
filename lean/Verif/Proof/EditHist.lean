import Verif.Proof.EditFits

namespace Ucsim.Fio

/-! ### history -/

/-- the position after Up and Down in a history of `n` lines -/
def nav (n : Nat) (pos : Nat) : List Bool → Nat
  | [] => pos
  | true :: us => nav n (pos - 1) us
  | false :: us => nav n (min (pos + 1) n) us

def udKey : Bool → Key
  | true => .up
  | false => .down

theorem set_same (h : List (List Byte)) (pos : Nat) (d : List Byte) :
    h.set pos (h.getD pos d) = h := by
  by_cases hp : pos < h.length
  · have : h.getD pos d = h[pos] := by simp [List.getD, hp]
    rw [this, List.set_getElem_self]
  · rw [List.set_eq_of_length_le (by omega)]

theorem browse (us : List Bool) (s : Sess) (hp : s.pos ≤ s.hist.length)
    (ht : s.text = s.hist.getD s.pos []) :
    (s.keys (us.map udKey)).hist = s.hist ∧ (s.keys (us.map udKey)).entered = s.entered ∧
    (s.keys (us.map udKey)).pos = nav s.hist.length s.pos us ∧
    (s.keys (us.map udKey)).text = s.hist.getD (nav s.hist.length s.pos us) [] := by
  induction us generalizing s with
  | nil => exact ⟨rfl, rfl, rfl, ht⟩
  | cons u us ih =>
    have hset : s.hist.set s.pos s.text = s.hist := by rw [ht]; exact set_same _ _ _
    have hrec : ∀ pos, s.recall pos = { s with pos := pos, before := s.hist.getD pos [], after := [] } := by
      intro pos; unfold Sess.recall; rw [hset]
    have hk : s.key (udKey u) = s.recall (if u then s.pos - 1 else min (s.pos + 1) s.hist.length) := by
      cases u
      · show s.recall _ = s.recall _
        congr 1
        simp only [Bool.false_eq_true, if_false]
        omega
      · rfl
    have hkeys : s.keys ((u :: us).map udKey) =
        (s.key (udKey u)).keys (us.map udKey) := rfl
    rw [hkeys, hk, hrec]
    have := ih { s with pos := (if u then s.pos - 1 else min (s.pos + 1) s.hist.length)
                        before := s.hist.getD (if u then s.pos - 1 else min (s.pos + 1) s.hist.length) []
                        after := [] }
      (by simp only []; split <;> omega) (by simp [Sess.text])
    refine ⟨this.1, this.2.1, ?_, ?_⟩
    · rw [this.2.2.1]; cases u <;> rfl
    · rw [this.2.2.2]; cases u <;> rfl

def nonEmpty (ls : List (List Byte)) : List (List Byte) := ls.filter (· ≠ [])

theorem hist_plain (ks : List Key) (s : Sess) (hu : Key.up ∉ ks) (hd : Key.down ∉ ks)
    (hp : s.pos = s.hist.length) (hh : s.hist = nonEmpty s.entered)
    (hl : (nonEmpty (s.keys ks).entered).length ≤ 1000) :
    (s.keys ks).hist = nonEmpty (s.keys ks).entered ∧ (s.keys ks).pos = (s.keys ks).hist.length := by
  have mono : ∀ (ks : List Key) (s : Sess), ∃ t, (s.keys ks).entered = s.entered ++ t := by
    intro ks
    induction ks with
    | nil => intro s; exact ⟨[], by simp [Sess.keys]⟩
    | cons k ks ih =>
      intro s
      obtain ⟨t, ht⟩ := ih (s.key k)
      have h1 : ∃ t1, (s.key k).entered = s.entered ++ t1 := by
        cases k with
        | enter => exact ⟨[s.text], rfl⟩
        | char c => refine ⟨[], ?_⟩; unfold Sess.key; simp only []; split <;> simp
        | left => refine ⟨[], ?_⟩; unfold Sess.key; simp only []; split <;> simp
        | right => refine ⟨[], ?_⟩; unfold Sess.key; simp only []; split <;> simp
        | _ => exact ⟨[], by simp [Sess.key, Sess.recall]⟩
      obtain ⟨t1, ht1⟩ := h1
      refine ⟨t1 ++ t, ?_⟩
      show ((s.key k).keys ks).entered = _
      rw [ht, ht1, List.append_assoc]
  induction ks generalizing s with
  | nil => exact ⟨hh, hp⟩
  | cons k ks ih =>
    have hkeys : s.keys (k :: ks) = (s.key k).keys ks := rfl
    rw [hkeys] at hl ⊢
    have hn : (nonEmpty (s.key k).entered).length ≤ 1000 := by
      obtain ⟨t, ht⟩ := mono ks (s.key k)
      rw [ht] at hl
      unfold nonEmpty at hl ⊢
      rw [List.filter_append, List.length_append] at hl
      omega
    have hstep : (s.key k).pos = (s.key k).hist.length ∧ (s.key k).hist = nonEmpty (s.key k).entered := by
      cases k with
      | up => exact absurd (by simp) hu
      | down => exact absurd (by simp) hd
      | enter =>
        have h1000 : ¬ s.hist.length > 1000 := by
          rw [hh]
          have : (nonEmpty (s.entered ++ [s.text])).length ≤ 1000 := hn
          unfold nonEmpty at this ⊢
          rw [List.filter_append, List.length_append] at this
          omega
        unfold Sess.key
        simp only [h1000, if_false]
        by_cases ht : s.text = []
        · simp only [ht, if_true]
          refine ⟨hp, ?_⟩
          rw [hh]; simp [nonEmpty]
        · simp only [ht, if_false]
          refine ⟨by simp, ?_⟩
          rw [hh]; simp [nonEmpty, ht]
      | char c => unfold Sess.key; simp only []; split <;> exact ⟨hp, hh⟩
      | left => unfold Sess.key; simp only []; split <;> exact ⟨hp, hh⟩
      | right => unfold Sess.key; simp only []; split <;> exact ⟨hp, hh⟩
      | _ => exact ⟨hp, hh⟩
    exact ih (s.key k) (fun q => hu (by simp [q])) (fun q => hd (by simp [q])) hstep.1 hstep.2 hl

theorem keys_append (s : Sess) (a b) : s.keys (a ++ b) = (s.keys a).keys b := by simp [Sess.keys]

/-- plain typing -/
theorem keys_chars (l : List Byte) (s : Sess) (ha : s.after = []) (hl : s.before.length + l.length ≤ 1023) :
    s.keys (l.map .char) = { s with before := s.before ++ l } := by
  induction l generalizing s with
  | nil => simp [Sess.keys]
  | cons c l ih =>
    simp only [List.length_cons] at hl
    have h1 : s.text.length < 1023 := by unfold Sess.text; rw [ha]; simp; omega
    have : s.keys ((c :: l).map .char) = (s.key (.char c)).keys (l.map .char) := rfl
    rw [this]
    have hk : s.key (.char c) = { s with before := s.before ++ [c] } := by
      simp only [Sess.key, h1, if_true]
    have hb : (s.before ++ [c]).length + l.length ≤ 1023 := by rw [List.length_append]; simp; omega
    rw [hk, ih { s with before := s.before ++ [c] } ha hb]
    simp

theorem sends_chars {nl : List Byte} (l : List Byte) (h : ∀ c ∈ l, Printable c) : Sends nl (l.map .char) l := by
  induction l with
  | nil => exact .nil
  | cons c l ih =>
    refine .cons (cs := [c]) ?_ (ih (fun x hx => h x (by simp [hx])))
    show [c] ∈ (if 32 ≤ c ∧ c ≤ 126 then [[c]] else [])
    have hc : 32 ≤ c ∧ c ≤ 126 := h c (by simp)
    rw [if_pos hc]
    simp

theorem Sends.append {nl a b x y} (h1 : Sends nl a x) (h2 : Sends nl b y) : Sends nl (a ++ b) (x ++ y) := by
  induction h1 with
  | nil => exact h2
  | cons hc _ ih => rw [List.cons_append, List.append_assoc]; exact .cons hc ih

/-- a line of 1023 characters fills the buffer: its newline is lost -/
theorem full_line {r : Ring} (h : r.Ok) (h0 : r.items = []) (l : List Byte) (hl : l.length = 1023) :
    ((outBytes [l]).foldl Ring.raw r).items = l.map BitVec.toInt := by
  have hlen : r.len = 0 := by rw [← Ring.length_items, h0]; rfl
  obtain ⟨a, b⟩ := raw_fold h l (by omega)
  have : outBytes [l] = l ++ [10] := by simp [outBytes]
  rw [this, List.foldl_append]
  have hf : (l.foldl Ring.raw r).len = 1023 := by
    rw [← Ring.length_items, b, h0]; simp [hl]
  show ((l.foldl Ring.raw r).put _).1.items = _
  rw [Ring.put_full a _ hf]
  rw [b, h0]; rfl

end Ucsim.Fio
