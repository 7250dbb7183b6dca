import Verif.Fio.Tty
import Verif.Proof.EditAny
import Verif.Proof.FioCon

/- From the keys to the lines that the console gets. -/
namespace Ucsim.Fio

def emitLs (e : Ed) : List Byte → List (List Byte)
  | [] => []
  | c :: cs => emitL e c ++ emitLs (e.process c) cs

def withRing (e : Ed) (r : Ring) : Ed := { e with ring := r }

theorem wr_left (e r) : (withRing e r).goLeft = withRing e.goLeft r := by
  unfold Ed.goLeft withRing; simp only []; split <;> rfl
theorem wr_right (e r) : (withRing e r).goRight = withRing e.goRight r := by
  unfold Ed.goRight withRing; simp only []; split <;> rfl
theorem wr_home (e r) : (withRing e r).goHome = withRing e.goHome r := by
  unfold Ed.goHome withRing; simp only []; split <;> rfl
theorem wr_end (e r) : (withRing e r).goEnd = withRing e.goEnd r := by
  unfold Ed.goEnd withRing; simp only []; split <;> rfl
theorem wr_bs (e r) : (withRing e r).backspace = withRing e.backspace r := by
  unfold Ed.backspace withRing; simp only []; split <;> rfl
theorem wr_del (e r) : (withRing e r).delete = withRing e.delete r := by
  unfold Ed.delete withRing; simp only []; split <;> rfl
theorem wr_clear (e r) : (withRing e r).clear = withRing e.clear r := by
  unfold Ed.clear withRing; simp only []; split <;> rfl
theorem wr_insert (e r k c) : (withRing e r).insert k c = withRing (e.insert k c) r := by
  unfold Ed.insert withRing; simp only []; split
  · split <;> rfl
  · rfl
theorem wr_recall (e r h) : (withRing e r).recall h = withRing (e.recall h) r := by
  obtain ⟨h1, h2, h3⟩ := h
  unfold Ed.recall
  have : Ed.clear { withRing e r with hist := h1, nr := h2 } =
      withRing (Ed.clear { e with hist := h1, nr := h2 }) r := by
    rw [← wr_clear]; rfl
  simp only [this]
  cases h3 <;> rfl

theorem finish_ring (e r k) : (withRing e r).finish k =
    withRing (e.finish k) ((outBytes (if e.lastLn = 0 ∨ e.lastLn = k then
      [chars e.line 0 (strlen e.line)] else [])).foldl Ring.raw r) := by
  by_cases h : e.lastLn = 0 ∨ e.lastLn = k
  · rw [if_pos h]
    have hn : ¬ (e.lastLn ≠ 0 ∧ e.lastLn ≠ k) := by
      rcases h with h | h <;> simp [h]
    unfold Ed.finish withRing
    simp only [hn, if_false]
    simp only [outBytes, List.flatMap_cons, List.flatMap_nil, List.append_nil, List.foldl_append]
    rfl
  · rw [if_neg h]
    rw [finish_other (e := e) (fun q => h (Or.inl q)) (fun q => h (Or.inr q)),
      finish_other (e := withRing e r) (fun q => h (Or.inl q)) (fun q => h (Or.inr q))]
    rfl

theorem wr_key (e r) (k : Int) (c : Byte) (h10 : k ≠ 10) (h13 : k ≠ 13) (h0 : k ≠ 0) :
    (withRing e r).key k c = withRing (e.key k c) r := by
  unfold Ed.key
  simp only [h10, h13, h0, or_false, if_false, wr_left, wr_right, wr_home, wr_end, wr_bs, wr_del,
    wr_insert, Ed.kill, wr_clear]
  simp only [show (withRing e r).hist = e.hist from rfl, show (withRing e r).nr = e.nr from rfl,
    show (withRing e r).line = e.line from rfl, wr_recall]
  simp only [apply_ite (fun x => withRing x r)]
  rfl

theorem process_ring (e r c) : (withRing e r).process c =
    withRing (e.process c) ((outBytes (emitL e c)).foldl Ring.raw r) := by
  rw [process_eq, process_eq]
  unfold emitL
  simp only [show (withRing e r).esc = e.esc from rfl]
  generalize processEsc e.esc c = q
  obtain ⟨esc', k, over⟩ := q
  simp only []
  by_cases h0 : k = 0
  · subst h0
    simp only [if_true]
    rw [if_neg (by simp)]
    rfl
  simp only [h0, if_false]
  have hw : ({ withRing e r with esc := esc', oobEsc := (withRing e r).oobEsc || over } : Ed) =
      withRing { e with esc := esc', oobEsc := e.oobEsc || over } r := rfl
  rw [hw]
  by_cases hn : k = 10 ∨ k = 13
  · have hf : ∀ x : Ed, x.key k c = x.finish k := by
      intro x; rcases hn with hn | hn <;> subst hn <;> rfl
    rw [hf, hf, finish_ring]
    simp only [hn, true_and]
  · rw [wr_key _ _ _ _ (fun q => hn (Or.inl q)) (fun q => hn (Or.inr q)) h0]
    simp only [hn, false_and, if_false]
    rfl

theorem emitL_ring (e r c) : emitL (withRing e r) c = emitL e c := rfl

theorem wr_wr (e r1 r2) : withRing (withRing e r1) r2 = withRing e r2 := rfl

theorem emitLs_ring (e r cs) : emitLs (withRing e r) cs = emitLs e cs := by
  induction cs generalizing e r with
  | nil => rfl
  | cons c cs ih =>
    unfold emitLs
    rw [emitL_ring, process_ring, ih]

theorem feed_ring (e r cs) : (withRing e r).feed cs =
    withRing (e.feed cs) ((outBytes (emitLs e cs)).foldl Ring.raw r) := by
  induction cs generalizing e r with
  | nil => rfl
  | cons c cs ih =>
    rw [feed_cons, process_ring, ih, feed_cons]
    simp only [emitLs, outBytes_append, List.foldl_append]

theorem emitLs_append (e a b) : emitLs e (a ++ b) = emitLs e a ++ emitLs (e.feed a) b := by
  induction a generalizing e with
  | nil => rfl
  | cons c a ih => simp only [List.cons_append, emitLs, ih, feed_cons, List.append_assoc]

/-- what is given to the reader is a line of the editor -/
theorem emitL_pr {e s} (h : Core e s) (c) : ∀ l ∈ emitL e c, ∀ x ∈ l, Printable x := by
  intro l hl
  unfold emitL at hl
  split at hl
  · have : l = s.text := by rw [← h.text]; simpa using hl
    rw [this]; exact h.rep.line.pr
  · cases hl

theorem emitLs_pr {e s} (h : Safe e s) (cs) : ∀ l ∈ emitLs e cs, ∀ x ∈ l, Printable x := by
  induction cs generalizing e s with
  | nil => intro l hl; cases hl
  | cons c cs ih =>
    obtain ⟨s1, _, _, a1, _⟩ := process_any h c 0
    intro l hl
    rcases List.mem_append.1 hl with hl | hl
    · exact emitL_pr h.core c l hl
    · exact ih a1 l hl

/-! ### keys and lines -/

theorem emitLs_run (cs : List Byte) (e : Ed) {k c} (h : runEsc e.esc cs = some (k, c)) (h10 : k ≠ 10)
    (h13 : k ≠ 13) : emitLs e cs = [] := by
  induction cs generalizing e with
  | nil => rfl
  | cons x cs ih =>
    unfold runEsc at h
    simp only [] at h
    unfold emitLs emitL
    rw [process_eq]
    generalize hr : processEsc e.esc x = r at h ⊢
    obtain ⟨esc', k', over⟩ := r
    simp only [] at h ⊢
    by_cases ho : over = true
    · rw [if_pos ho] at h; cases h
    rw [if_neg ho] at h
    by_cases hc : cs = []
    · subst hc
      rw [if_pos rfl] at h
      by_cases he : esc' = []
      · rw [if_pos he] at h
        cases h
        simp [h10, h13, emitLs]
      · rw [if_neg he] at h; cases h
    · rw [if_neg hc] at h
      by_cases hk : k' = 0
      · rw [if_pos hk] at h
        simp only [hk, if_true]
        rw [if_neg (by simp), List.nil_append]
        exact ih _ h
      · rw [if_neg hk] at h; cases h

theorem emit10 {e : Ed} (h : e.esc = []) : emitL e 10 =
    if e.lastLn = 0 ∨ e.lastLn = 10 then [chars e.line 0 (strlen e.line)] else [] := by
  unfold emitL
  rw [h, show (processEsc [] 10).2.1 = 10 from by decide +kernel]
  simp
theorem emit13 {e : Ed} (h : e.esc = []) : emitL e 13 =
    if e.lastLn = 0 ∨ e.lastLn = 13 then [chars e.line 0 (strlen e.line)] else [] := by
  unfold emitL
  rw [h, show (processEsc [] 13).2.1 = 13 from by decide +kernel]
  simp
theorem emit0 {e : Ed} (h : e.esc = []) : emitL e 0 = [] := by
  unfold emitL
  rw [h, show (processEsc [] 0).2.1 = 0 from by decide +kernel]
  simp

theorem Inv.emits1 {nl r0 e s} (h : Inv nl r0 e s) (hn : nl ∈ newlines) (key : Key) (cs : List Byte)
    (hc : cs ∈ codes nl key) : (s.key key).entered = s.entered ++ emitLs e cs := by
  by_cases hk : key = .enter
  · subst hk
    have : cs = nl := by simpa [codes] using hc
    subst this
    show s.entered ++ [s.text] = s.entered ++ emitLs e cs
    congr 1
    have ht := h.core.text
    have hl := h.ln
    simp only [newlines, List.mem_cons, List.mem_nil_iff, or_false] at hn
    rcases hn with hn | hn | hn | hn | hn <;> subst hn
    · have hl' : e.lastLn = 0 ∨ e.lastLn = 10 := by
        rcases hl with hl | ⟨_, hl⟩ | ⟨hq, _⟩
        · exact Or.inl hl
        · exact Or.inr hl
        · exact absurd hq (by decide)
      simp only [emitLs, emit10 h.esc, if_pos hl', ht, List.append_nil]
    · have hl' : e.lastLn = 0 ∨ e.lastLn = 13 := by
        rcases hl with hl | ⟨hq, _⟩ | ⟨_, hl⟩
        · exact Or.inl hl
        · exact absurd hq (by decide)
        · exact Or.inr hl
      simp only [emitLs, emit13 h.esc, if_pos hl', ht, List.append_nil]
    all_goals
      have hz : e.lastLn = 0 := by
        rcases hl with hl | ⟨hq, _⟩ | ⟨hq, _⟩
        · exact hl
        · exact absurd hq (by decide)
        · exact absurd hq (by decide)
    · obtain ⟨a1, a2, a3, _⟩ := h.enter (k := 13) (Or.inl hz)
      simp only [emitLs, emit13 h.esc, hz, true_or, if_true, feed13 h.esc, emit10 a2, a3, ht]
      rw [if_neg (by decide)]
      rfl
    · obtain ⟨a1, a2, a3, _⟩ := h.enter (k := 13) (Or.inl hz)
      simp only [emitLs, emit13 h.esc, hz, true_or, if_true, feed13 h.esc, emit0 a2, ht]
      rfl
    · obtain ⟨a1, a2, a3, _⟩ := h.enter (k := 10) (Or.inl hz)
      simp only [emitLs, emit10 h.esc, hz, true_or, if_true, feed10 h.esc, emit13 a2, a3, ht]
      rw [if_neg (by decide)]
      rfl
  · obtain ⟨k, c, h1, h2⟩ := runEsc_codes nl key hk cs hc
    have hne : k ≠ 10 ∧ k ≠ 13 := by
      cases key <;> simp [keyCode, TU_LEFT, TU_RIGHT, TU_UP, TU_DOWN, TU_DEL, TU_HOME, TU_END] at h2 hk <;>
        omega
    rw [emitLs_run cs e (by rw [h.esc]; exact h1) hne.1 hne.2, List.append_nil]
    cases key <;> first | (exact absurd rfl hk) | rfl | skip
    all_goals (unfold Sess.key; simp only []; split <;> rfl)

theorem Inv.emits {nl r0 e s} (h : Inv nl r0 e s) (hn : nl ∈ newlines) {ks bs} (hs : Sends nl ks bs) :
    (s.keys ks).entered = s.entered ++ emitLs e bs := by
  induction hs generalizing e s with
  | nil => simp [Sess.keys, emitLs]
  | cons hc _ ih =>
    rw [emitLs_append]
    have h1 := h.emits1 hn _ _ hc
    have h2 := ih (h.feed1 hn _ _ hc)
    rw [← List.append_assoc, ← h1, ← h2]
    rfl

end Ucsim.Fio
