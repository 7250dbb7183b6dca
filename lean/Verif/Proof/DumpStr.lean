import Verif.Proof.DumpMem
/-! Proofs about dumps of strings, bytes and code. -/
namespace Ucsim.Dump
open Spec

theorem ofNat_toNat : ∀ b < 256, (Char.ofNat b).toNat = b := by decide +kernel

theorem escape_ok : ∀ b < 256, ∀ t bs, CString t bs → CString (escape b ++ t) (b :: bs) := by
  intro b hb t bs h
  by_cases h1 : (39 = b ∨ 34 = b ∨ 63 = b ∨ 92 = b ∨ 7 = b ∨ 8 = b ∨ 12 = b ∨ 10 = b ∨ 13 = b ∨ 9 = b ∨ 11 = b)
  · rcases h1 with rfl | rfl | rfl | rfl | rfl | rfl | rfl | rfl | rfl | rfl | rfl <;>
      exact CString.simple _ _ _ _ (by decide) h
  · unfold escape
    rw [if_neg (by omega), if_neg (by omega), if_neg (by omega), if_neg (by omega), if_neg (by omega), if_neg (by omega),
      if_neg (by omega), if_neg (by omega), if_neg (by omega), if_neg (by omega), if_neg (by omega)]
    by_cases h2 : 32 ≤ b ∧ b ≤ 126
    · rw [if_pos h2]
      have hv : (Char.ofNat b).toNat = b := ofNat_toNat b hb
      have := CString.plain (Char.ofNat b) t bs ?_ ?_ ?_ h
      · rw [hv] at this; exact this
      all_goals
        intro hc
        have := congrArg Char.toNat hc
        rw [hv] at this
        simp at this
        omega
    · rw [if_neg h2]
      have dig : ∀ d, d < 8 → (Char.ofNat (48 + d)).toNat = 48 + d := fun d hd => ofNat_toNat _ (by omega)
      have d1 := dig (b / 64) (by omega)
      have d2 := dig (b / 8 % 8) (by omega)
      have d3 := dig (b % 8) (by omega)
      have := CString.octal3 (Char.ofNat (48 + b / 64)) (Char.ofNat (48 + b / 8 % 8)) (Char.ofNat (48 + b % 8)) t bs
        (by simp only [isOctal, d1, decide_eq_true_eq]; omega) (by simp only [isOctal, d2, decide_eq_true_eq]; omega)
        (by simp only [isOctal, d3, decide_eq_true_eq]; omega) (by rw [d1, d2, d3]; omega) h
      rw [d1, d2, d3, show (48 + b / 64 - 48) * 64 + (48 + b / 8 % 8 - 48) * 8 + (48 + b % 8 - 48) = b by omega] at this
      exact this

theorem strLoop_ok {m : DMem} (g : Good m) : ∀ (c a last0 : Nat), last m + 1 - a = c → m.lva ≤ a → a ≤ last m + 1 →
    ∃ n l t d, Str m a l ∧ CString t (l.map fun x => m.rd x % 256) ∧ strLoop m n a last0 = some (a + l.length, d, t)
  | 0, a, last0, hc, h1, h2 => by
    refine ⟨1, [], [], last0, Str.top a (by omega), CString.done, ?_⟩
    simp only [strLoop]
    rw [if_neg (by rw [hva_eq g]; omega)]
    rfl
  | c + 1, a, last0, hc, h1, h2 => by
    have gt := g.top
    have hl : last m = m.lva + m.size - 1 := rfl
    by_cases h0 : m.rd a = 0
    · refine ⟨1, [], [], last0, Str.zero a h0, CString.done, ?_⟩
      simp only [strLoop]
      rw [if_neg (by intro h; exact h.1 h0)]
      rfl
    · obtain ⟨n, l, t, d, i1, i2, i3⟩ := strLoop_ok g c (a + 1) (m.rd a % 256) (by omega) (by omega) (by omega)
      refine ⟨n + 1, a :: l, escape (m.rd a % 256) ++ t, d, Str.char a l h0 (by omega) i1, ?_, ?_⟩
      · rw [List.map_cons]
        exact escape_ok _ (Nat.mod_lt _ (by decide)) _ _ i2
      · simp only [strLoop]
        rw [if_pos ⟨h0, by rw [hva_eq g]; omega⟩, if_pos h1, show u32 (a + 1) = a + 1 by unfold u32; omega, i3]
        simp
        omega

theorem binLoop_ok {m : DMem} (g : Good m) (stop : Nat) : ∀ (c a : Nat), min stop (last m) + 1 - a = c → m.lva ≤ a →
    ∃ n, binLoop m stop n a = some (a + c, (List.range' a c).map fun x => m.rd x % 256)
  | 0, a, hc, h1 => by
    refine ⟨1, ?_⟩
    simp only [binLoop]
    rw [if_neg (by rw [hva_eq g]; omega)]
    simp
  | c + 1, a, hc, h1 => by
    have gt := g.top
    have hl : last m = m.lva + m.size - 1 := rfl
    obtain ⟨n, hn⟩ := binLoop_ok g stop c (a + 1) (by omega) (by omega)
    refine ⟨n + 1, ?_⟩
    simp only [binLoop]
    rw [if_pos (by rw [hva_eq g]; omega), show u32 (a + 1) = a + 1 by unfold u32; omega, hn, if_pos h1]
    simp [List.range'_succ]
    omega

/-! ### code -/

theorem code_up {m : DMem} {len : Nat → Nat} (hm : m.rom = some len) (h1 : ∀ a, 0 < len a) (h4 : ∀ a, len a ≤ 16)
    (h3 : m.hva + 17 < 4294967296) : ∀ (c : Nat) (s : DS), s.stop - s.start = c → s.up = true → s.stop ≤ m.hva + 1 →
    s.lines < 0 → ∃ t ls l, Runs m ⟨1, none⟩ s t ls ∧ Code len s.stop s.start l ∧ ls = l.map Line.inst := by
  intro c
  induction c using Nat.strongRecOn with
  | ind c ih =>
    intro s hc hu h2 hl
    by_cases cd : s.start < s.stop
    · have hcond : Cond s := by unfold Cond; simp [hu, cd]
      have hp := h1 s.start
      have hq := h4 s.start
      have e : iter m ⟨1, none⟩ s = ({ s with start := s.start + len s.start, df := s.start + len s.start }, [Line.inst s.start], false) := by
        unfold iter
        rw [if_pos ⟨by decide, hu⟩, hm]
        dsimp only
        rw [if_neg (by omega), show u32 (s.start + len s.start) = s.start + len s.start by unfold u32; omega]
      obtain ⟨t, ls, l, r1, r2, r3⟩ := ih (s.stop - (s.start + len s.start)) (by omega)
        { s with start := s.start + len s.start, df := s.start + len s.start } rfl hu h2 hl
      exact ⟨t, _, s.start :: l, Runs.go hcond e r1, Code.inst _ _ cd r2, by rw [r3]; rfl⟩
    · exact ⟨s, [], [], Runs.stop (by unfold Cond; simp [hu]; omega), Code.done _ (by omega), rfl⟩

end Ucsim.Dump
