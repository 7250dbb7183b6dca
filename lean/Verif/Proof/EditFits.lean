import Verif.Proof.EditTty2

/- When the buffer between the editor and the console is large enough. -/
namespace Ucsim.Fio

theorem fits_short (e0 : Ed) (bs : List Byte) (h : (outBytes (emitLs e0 bs)).length ≤ 1023) : Fits e0 bs := by
  intro a b c hb _
  subst hb
  rw [emitLs_append, emitLs_append, outBytes_append, outBytes_append] at h
  simp only [List.length_append] at h
  omega

/-- no key of the history, and the line is never longer than `n` -/
def Quiet (n : Nat) (e : Ed) : List Byte → Prop
  | [] => strlen e.line ≤ n
  | c :: cs => strlen e.line ≤ n ∧ (processEsc e.esc c).2.1 ≠ TU_UP ∧ (processEsc e.esc c).2.1 ≠ TU_DOWN ∧
    Quiet n (e.process c) cs

theorem Quiet.head {n e bs} (h : Quiet n e bs) : strlen e.line ≤ n := by
  cases bs with
  | nil => exact h
  | cons b bs => exact h.1

theorem quiet_append {n e a b} (h1 : Quiet n e a) (h2 : Quiet n (e.feed a) b) : Quiet n e (a ++ b) := by
  induction a generalizing e with
  | nil => exact h2
  | cons c a ih => exact ⟨h1.1, h1.2.1, h1.2.2.1, ih h1.2.2.2 h2⟩

theorem quiet_right {n e a b} (h : Quiet n e (a ++ b)) : Quiet n (e.feed a) b := by
  induction a generalizing e with
  | nil => exact h
  | cons c a ih => exact ih h.2.2.2

theorem quiet_left {n e a b} (h : Quiet n e (a ++ b)) : Quiet n e a := by
  induction a generalizing e with
  | nil => exact h.head
  | cons c a ih => exact ⟨h.1, h.2.1, h.2.2.1, ih h.2.2.2⟩

theorem quiet_out {n e s bs} (h : Safe e s) (hq : Quiet n e bs) :
    (outBytes (emitLs e bs)).length ≤ s.text.length + bs.length := by
  induction bs generalizing e s with
  | nil => simp [emitLs, outBytes]
  | cons c cs ih =>
    obtain ⟨s1, _, _, a1, _, _, _, a5⟩ := process_any h c 0
    have h1 := a5 hq.2.1 hq.2.2.1
    have h2 := ih a1 hq.2.2.2
    unfold emitLs
    rw [outBytes_append]
    simp only [List.length_append, List.length_cons]
    omega

theorem quiet_fits (junk mem) (bs : List Byte) (h : Quiet 924 (Ed.init junk mem) bs) :
    Fits (Ed.init junk mem) bs := by
  intro a b c hb hl
  subst hb
  obtain ⟨s1, _, _, hs, _⟩ := feed_any (safe_init junk mem) a 0
  have hq := quiet_right (quiet_left h)
  have h1 := quiet_out hs hq
  have h2 := hq.head
  rw [hs.core.rep.line.strlen] at h2
  have : (s1.before ++ s1.after).length = s1.text.length := rfl
  omega

theorem quiet_run {n} (cs : List Byte) (e : Ed) {k c} (h : runEsc e.esc cs = some (k, c)) (hu : k ≠ TU_UP)
    (hd : k ≠ TU_DOWN) (h1 : strlen e.line ≤ n) (h2 : strlen (e.feed cs).line ≤ n) : Quiet n e cs := by
  induction cs generalizing e with
  | nil => exact h1
  | cons x cs ih =>
    unfold runEsc at h
    simp only [] at h
    have hp := process_eq e x
    rw [feed_cons] at h2
    refine ⟨h1, ?_⟩
    generalize e.process x = e1 at h2 hp ⊢
    generalize hr : processEsc e.esc x = r at h hp ⊢
    obtain ⟨esc', k', over⟩ := r
    simp only [] at h hp ⊢
    by_cases ho : over = true
    · rw [if_pos ho] at h; cases h
    rw [if_neg ho] at h
    by_cases hc : cs = []
    · subst hc
      rw [if_pos rfl] at h
      by_cases he : esc' = []
      · rw [if_pos he] at h
        cases h
        exact ⟨hu, hd, h2⟩
      · rw [if_neg he] at h; cases h
    · rw [if_neg hc] at h
      by_cases hk : k' = 0
      · rw [if_pos hk] at h
        rw [if_pos hk] at hp
        subst hk
        refine ⟨by decide, by decide, ?_⟩
        apply ih
        · rw [hp]; exact h
        · rw [hp]; exact h1
        · exact h2
      · rw [if_neg hk] at h; cases h

theorem Inv.strlen {nl r0 e s} (h : Inv nl r0 e s) : strlen e.line = s.text.length := h.core.rep.line.strlen

theorem Inv.quiet1 {nl r0 e s} (h : Inv nl r0 e s) (hn : nl ∈ newlines) (key : Key) (cs : List Byte)
    (hc : cs ∈ codes nl key) {n : Nat} (hu : key ≠ .up) (hd : key ≠ .down) (h1 : s.text.length ≤ n)
    (h2 : (s.key key).text.length ≤ n) : Quiet n e cs := by
  have hs1 : Fio.strlen e.line ≤ n := by rw [h.strlen]; exact h1
  have hs2 : Fio.strlen (e.feed cs).line ≤ n := by rw [(h.feed1 hn key cs hc).strlen]; exact h2
  by_cases hk : key = .enter
  · subst hk
    have : cs = nl := by simpa [codes] using hc
    subst this
    have e10 : (processEsc e.esc 10).2.1 ≠ TU_UP ∧ (processEsc e.esc 10).2.1 ≠ TU_DOWN := by
      rw [h.esc]; decide +kernel
    have e13 : (processEsc e.esc 13).2.1 ≠ TU_UP ∧ (processEsc e.esc 13).2.1 ≠ TU_DOWN := by
      rw [h.esc]; decide +kernel
    have hl := h.ln
    have two : ∀ k : Int, e.lastLn = 0 → (e.finish k).esc = [] ∧ Fio.strlen (e.finish k).line ≤ n := by
      intro k hz
      obtain ⟨a1, a2, _⟩ := h.enter (k := k) (Or.inl hz)
      refine ⟨a2, ?_⟩
      rw [a1.rep.line.strlen]
      exact Nat.zero_le _
    simp only [newlines, List.mem_cons, List.mem_nil_iff, or_false] at hn
    rcases hn with hn | hn | hn | hn | hn <;> subst hn
    · exact ⟨hs1, e10.1, e10.2, hs2⟩
    · exact ⟨hs1, e13.1, e13.2, hs2⟩
    all_goals
      have hz : e.lastLn = 0 := by
        rcases hl with hl | ⟨hq, _⟩ | ⟨hq, _⟩
        · exact hl
        · exact absurd hq (by decide)
        · exact absurd hq (by decide)
    · obtain ⟨t1, t2⟩ := two 13 hz
      refine ⟨hs1, e13.1, e13.2, ?_⟩
      rw [feed_cons, feed13 h.esc] at hs2
      rw [feed13 h.esc]
      refine ⟨t2, ?_, ?_, hs2⟩ <;> (rw [t1]; decide +kernel)
    · obtain ⟨t1, t2⟩ := two 13 hz
      refine ⟨hs1, e13.1, e13.2, ?_⟩
      rw [feed_cons, feed13 h.esc] at hs2
      rw [feed13 h.esc]
      refine ⟨t2, ?_, ?_, hs2⟩ <;> (rw [t1]; decide +kernel)
    · obtain ⟨t1, t2⟩ := two 10 hz
      refine ⟨hs1, e10.1, e10.2, ?_⟩
      rw [feed_cons, feed10 h.esc] at hs2
      rw [feed10 h.esc]
      refine ⟨t2, ?_, ?_, hs2⟩ <;> (rw [t1]; decide +kernel)
  · obtain ⟨k, c, k1, k2⟩ := runEsc_codes nl key hk cs hc
    refine quiet_run cs e (by rw [h.esc]; exact k1) ?_ ?_ hs1 hs2
    · cases key <;> simp [keyCode, TU_LEFT, TU_RIGHT, TU_UP, TU_DOWN, TU_DEL, TU_HOME, TU_END] at k2 hu hd ⊢ <;>
        omega
    · cases key <;> simp [keyCode, TU_LEFT, TU_RIGHT, TU_UP, TU_DOWN, TU_DEL, TU_HOME, TU_END] at k2 hu hd ⊢ <;>
        omega

theorem Inv.quiet {nl r0 e s} (h : Inv nl r0 e s) (hn : nl ∈ newlines) {ks bs} (hs : Sends nl ks bs)
    {n : Nat} (hu : Key.up ∉ ks) (hd : Key.down ∉ ks)
    (ht : ∀ ks1 ks2, ks = ks1 ++ ks2 → (s.keys ks1).text.length ≤ n) : Quiet n e bs := by
  induction hs generalizing e s with
  | nil =>
    show Fio.strlen e.line ≤ n
    rw [h.strlen]; exact ht [] [] rfl
  | @cons key cs ks bs hc _ ih =>
    have h1 : s.text.length ≤ n := ht [] _ rfl
    have h2 : (s.key key).text.length ≤ n := ht [key] ks rfl
    refine quiet_append (h.quiet1 hn key cs hc (fun q => hu (by simp [q])) (fun q => hd (by simp [q])) h1 h2) ?_
    apply ih (h.feed1 hn key cs hc) (fun q => hu (by simp [q])) (fun q => hd (by simp [q]))
    intro k1 k2 hk
    exact ht (key :: k1) k2 (by rw [hk]; rfl)

end Ucsim.Fio
