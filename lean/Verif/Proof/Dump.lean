import Verif.Proof.HexFile
/-!
The text of `dump_i` is a file of good HEX records.
-/
namespace Ucsim
open Spec.Hex

/-- Contents of `n` locations from `a`, as stores. -/
def area (rd : Nat → Nat) : Nat → Nat → List (Nat × Nat)
  | _, 0 => []
  | a, n + 1 => (a, rd a) :: area rd (a + 1) n

theorem area_append (rd : Nat → Nat) (n m : Nat) : ∀ a, area rd a (n + m) = area rd a n ++ area rd (a + n) m := by
  induction n with
  | zero => intro a; simp [area]
  | succ n ih =>
    intro a
    rw [show n + 1 + m = (n + m) + 1 by omega]
    simp only [area, List.cons_append, ih]
    rw [show a + 1 + n = a + (n + 1) by omega]

theorem area_length (rd : Nat → Nat) (n : Nat) : ∀ a, (area rd a n).length = n := by
  induction n with
  | zero => intro a; rfl
  | succ n ih => intro a; simp [area, ih]

theorem area_mem {rd : Nat → Nat} {n : Nat} : ∀ {a : Nat} {c : Nat × Nat}, c ∈ area rd a n →
    a ≤ c.1 ∧ c.1 < a + n ∧ c.2 = rd c.1 := by
  induction n with
  | zero => intro a c h; simp [area] at h
  | succ n ih =>
    intro a c h
    simp only [area, List.mem_cons] at h
    rcases h with rfl | h
    · exact ⟨by simp, by simp, rfl⟩
    · have := ih h; exact ⟨by omega, by omega, this.2.2⟩

theorem digit_hexDigit {n : Nat} (h : n < 16) : digit (hexDigit n) = some n := by
  unfold hexDigit digit
  split
  · rw [if_pos (by omega)]; simp
  · rw [if_neg (by omega), if_pos (by omega)]; simp

theorem spells_hex2 {b : Nat} (h : b < 256) {t bs : List Nat} (ht : Spells t bs) : Spells (hex2 b ++ t) (b :: bs) := by
  have := Spells.cons (digit_hexDigit (n := b / 16) (by omega)) (digit_hexDigit (n := b % 16) (by omega)) ht
  rwa [show 16 * (b / 16) + b % 16 = b by omega] at this

theorem spells_data {data : List Nat} (h : ∀ b ∈ data, b < 256) {t bs : List Nat} (ht : Spells t bs) :
    Spells ((data.map hex2).flatten ++ t) (data ++ bs) := by
  induction data with
  | nil => simpa using ht
  | cons d ds ih =>
    simp only [List.map_cons, List.flatten_cons, List.append_assoc, List.cons_append]
    exact spells_hex2 (h d (by simp)) (ih (fun b hb => h b (by simp [hb])))

theorem hex04_eq {n : Nat} (h : n < 65536) : hex04 n = hex2 (n / 256) ++ hex2 (n % 256) := by
  have : max 4 (hexLen n) = 4 := by
    unfold hexLen
    split
    · rfl
    split
    · rfl
    split
    · rfl
    rfl
  unfold hex04
  rw [this]
  simp only [hexNum, hex2, List.nil_append, List.cons_append, List.cons.injEq, and_true]
  refine ⟨?_, ?_, ?_, ?_⟩ <;> congr 1 <;> omega

/-- Bytes printed for a chunk. -/
def chunkData (rd : Nat → Nat) (start n : Nat) : List Nat := (List.range n).map fun i => rd (u32 (start + i)) % 256

/-- The record printed for a chunk. -/
def chunkLine (rd : Nat → Nat) (gap : List Nat) (start n : Nat) : Line :=
  let sum := (n % 256 + start / 256 % 256 + start % 256 + sumOf (chunkData rd start n)) % 256
  { gap := gap, text := hex2 (n % 256) ++ hex04 start ++ [48, 48] ++ ((chunkData rd start n).map hex2).flatten ++ hex2 ((256 - sum) % 256),
    addr := start, typ := 0, data := chunkData rd start n, sum := (256 - sum) % 256 }

theorem chunkData_lt (rd : Nat → Nat) (start n : Nat) : ∀ b ∈ chunkData rd start n, b < 256 := by
  intro b hb
  simp only [chunkData, List.mem_map] at hb
  obtain ⟨i, _, rfl⟩ := hb
  omega

theorem chunkLine_ok (rd : Nat → Nat) (gap : List Nat) (start n : Nat) (hs : start < 65536) (hn : n < 256)
    (hg : ∀ c ∈ gap, c ≠ 58 ∧ c < 256) : (chunkLine rd gap start n).Ok ∧ (chunkLine rd gap start n).good := by
  have hlen : (chunkData rd start n).length = n := by simp [chunkData]
  refine ⟨⟨hg, ?_, hs, by simp [chunkLine], by simp only [chunkLine, hlen]; exact hn, chunkData_lt rd start n, by simp only [chunkLine]; omega⟩, ?_⟩
  · unfold chunkLine Line.bytes
    simp only [hlen]
    rw [hex04_eq hs, show n % 256 = n by omega]
    simp only [List.append_assoc]
    apply spells_hex2 hn
    apply spells_hex2 (by omega)
    apply spells_hex2 (by omega)
    have h00 : ([48, 48] : List Nat) = hex2 0 := rfl
    rw [h00]
    apply spells_hex2 (by omega)
    apply spells_data (chunkData_lt rd start n)
    have := spells_hex2 (b := (256 - (n + (start / 256 % 256 + (start % 256 + sumOf (chunkData rd start n)))) % 256) % 256) (by omega) Spells.nil
    simpa [Nat.add_assoc] using this
  · unfold Line.good Line.bytes chunkLine
    simp only [List.sum_cons, List.sum_append, List.sum_nil, hlen, sumOf_eq]
    omega

theorem dumpLine_eq (rd : Nat → Nat) (start n : Nat) (gap : List Nat) :
    gap ++ dumpLine rd start n = (chunkLine rd gap start n).chars ++ [13, 10] := by
  simp [dumpLine, chunkLine, Line.chars, chunkData, List.append_assoc]

/-- The end record. -/
def endLine (gap : List Nat) : Line :=
  { gap := gap, text := [48, 48, 48, 48, 48, 48, 48, 49, 70, 70], addr := 0, typ := 1, data := [], sum := 255 }

theorem endLine_ok (gap : List Nat) (hg : ∀ c ∈ gap, c ≠ 58 ∧ c < 256) : (endLine gap).Ok := by
  refine ⟨hg, ?_, by simp [endLine], by simp [endLine], by simp [endLine], by simp [endLine], by simp [endLine]⟩
  have h1 : digit 48 = some 0 := rfl
  have h2 : digit 49 = some 1 := rfl
  have h3 : digit 70 = some 15 := rfl
  have := Spells.cons h1 h1 (Spells.cons h1 h1 (Spells.cons h1 h1 (Spells.cons h1 h2 (Spells.cons h3 h3 Spells.nil))))
  simpa [endLine, Line.bytes] using this

/-- Lines of a dump. -/
def chunkLines (rd : Nat → Nat) : List Nat → List (Nat × Nat) → List Line
  | gap, [] => [endLine gap]
  | gap, c :: cs => chunkLine rd gap c.1 c.2 :: chunkLines rd [13, 10] cs

theorem chunkLines_text (rd : Nat → Nat) (cs : List (Nat × Nat)) : ∀ gap,
    gap ++ ((cs.map fun c => dumpLine rd c.1 c.2).flatten ++ dumpEnd) = fileText (chunkLines rd gap cs) [13, 10] := by
  induction cs with
  | nil => intro gap; simp [chunkLines, fileText, endLine, Line.chars, dumpEnd]
  | cons c cs ih =>
    intro gap
    simp only [List.map_cons, List.flatten_cons, List.append_assoc, chunkLines, fileText]
    rw [← List.append_assoc, dumpLine_eq, List.append_assoc, ih [13, 10]]
    simp [fileText]

/-- Chunks that cover the addresses from `a` up to `stop`. -/
def Cover (stop : Nat) : Nat → List (Nat × Nat) → Prop
  | a, [] => a = stop + 1
  | a, c :: cs => c.1 = a ∧ 1 ≤ c.2 ∧ c.2 < 256 ∧ a + c.2 ≤ stop + 1 ∧ Cover stop (a + c.2) cs

theorem dumpLoop_cover (rd : Nat → Nat) (bpl stop : Nat) (hb1 : 1 ≤ bpl) (hb2 : bpl ≤ 32) (k : Nat) : ∀ (line a : Nat),
    a + k = stop + 1 → line ≤ a → (k = 0 → line = a) → (∀ m, line < m → m ≤ a → m % bpl ≠ 0) →
    ∃ cs, dumpLoop rd bpl stop k line a = (cs.map fun c => dumpLine rd c.1 c.2).flatten ∧ Cover stop line cs := by
  induction k with
  | zero => intro line a h1 h2 h3 _; exact ⟨[], rfl, by rw [h3 rfl]; exact h1⟩
  | succ k ih =>
    intro line a h1 h2 _ h4
    have hsmall : a - line < bpl := by
      rcases Nat.lt_or_ge (a - line) bpl with h | h
      · exact h
      · have hm := h4 (line + (bpl - line % bpl)) (by have := Nat.mod_lt line hb1; omega) (by omega)
        exfalso; apply hm
        have hlt := Nat.mod_lt line (show 0 < bpl by omega)
        have : line + (bpl - line % bpl) = bpl * (line / bpl) + bpl := by
          have := Nat.div_add_mod line bpl; omega
        rw [this, ← Nat.mul_succ]
        exact Nat.mul_mod_right _ _
    unfold dumpLoop
    simp only
    by_cases hf : (a + 1) % bpl = 0 ∨ a + 1 > stop
    · rw [if_pos hf]
      obtain ⟨cs, e, c⟩ := ih (a + 1) (a + 1) (by omega) (by omega) (fun _ => rfl) (fun m h1 h2 => by omega)
      refine ⟨(line, a + 1 - line) :: cs, by rw [e]; rfl, rfl, by simp only; omega, by simp only; omega, by simp only; omega, ?_⟩
      simp only
      rw [show line + (a + 1 - line) = a + 1 by omega]
      exact c
    · rw [if_neg hf]
      refine ih line (a + 1) (by omega) (by omega) (fun hk => by omega) ?_
      intro m hm1 hm2
      by_cases hma : m = a + 1
      · rw [hma]; exact fun h => hf (Or.inl h)
      · exact h4 m hm1 (by omega)

theorem chunk_seq (rd : Nat → Nat) (n : Nat) : ∀ (start : Nat), start + n ≤ 4294967296 →
    seqAt start (chunkData rd start n) = area (fun a => rd a % 256) start n := by
  induction n with
  | zero => intro start _; rfl
  | succ n ih =>
    intro start h
    unfold chunkData at *
    rw [List.range_succ_eq_map]
    simp only [List.map_cons, List.map_map, seqAt, area]
    rw [← ih (start + 1) (by omega)]
    congr 1
    · simp only [Nat.add_zero]; congr 3; unfold u32; omega
    · congr 1
      apply List.map_congr_left
      intro i _
      simp only [Function.comp_apply, Nat.succ_eq_add_one]
      rw [show start + (i + 1) = start + 1 + i by omega]

theorem chunkLines_stores (rd : Nat → Nat) (stop : Nat) (hstop : stop < 65536) (cs : List (Nat × Nat)) :
    ∀ (gap : List Nat) (a : Nat), (∀ c ∈ gap, c ≠ 58 ∧ c < 256) → a ≤ stop + 1 → Cover stop a cs →
    stores 0 (chunkLines rd gap cs) = area (fun a => rd a % 256) a (stop + 1 - a) ∧
    (∀ r ∈ chunkLines rd gap cs, r.Ok) ∧ (∃ r ∈ chunkLines rd gap cs, r.typ = 1) := by
  induction cs with
  | nil =>
    intro gap a hg ha hc
    have : a = stop + 1 := hc
    subst this
    refine ⟨by simp [chunkLines, stores, endLine, area], ?_, ?_⟩
    · intro r hr
      simp only [chunkLines, List.mem_singleton] at hr
      rw [hr]; exact endLine_ok gap hg
    · exact ⟨endLine gap, by simp [chunkLines], rfl⟩
  | cons c cs ih =>
    intro gap a hg ha hc
    obtain ⟨h1, h2, h3, h4, h5⟩ := hc
    obtain ⟨i1, i2, i3⟩ := ih [13, 10] (a + c.2) (by simp) h4 h5
    have hk := chunkLine_ok rd gap c.1 c.2 (by omega) h3 hg
    refine ⟨?_, ?_, ?_⟩
    · unfold chunkLines stores
      rw [if_neg (show (chunkLine rd gap c.1 c.2).typ ≠ 1 by simp [chunkLine]), if_pos hk.2,
        if_pos (show (chunkLine rd gap c.1 c.2).typ = 0 from rfl), i1]
      have : seqAt (0 + (chunkLine rd gap c.1 c.2).addr) (chunkLine rd gap c.1 c.2).data =
          area (fun a => rd a % 256) a c.2 := by
        rw [Nat.zero_add, ← h1]
        exact chunk_seq rd c.2 c.1 (by omega)
      rw [this, ← area_append, show c.2 + (stop + 1 - (a + c.2)) = stop + 1 - a by omega]
    · intro r hr
      simp only [chunkLines, List.mem_cons] at hr
      rcases hr with rfl | hr
      · exact hk.1
      · exact i2 r hr
    · obtain ⟨r, hr, h⟩ := i3
      exact ⟨r, by simp [chunkLines, hr], h⟩

end Ucsim
