import Verif.Proof.SimifRun

namespace Ucsim.Simif
open Fio (Dev Os)

/-- The accesses are those of the steps: bytes are written, and the operating system has an answer
when the simulator reads from the input file (a regular file).  The number of bytes it gives
at a time and the content of uninitialised variables are arbitrary. -/
inductive Performs : List Acc → List Doc.Step → Prop where
  | nil : Performs [] []
  | rd {as ss} : Performs as ss → Performs (.rd :: as) (.rd :: ss)
  | wr {as ss} (v : Byte) (n : Nat) (j : Word) : Performs as ss →
      Performs (.wr (v.zeroExtend 32) ⟨.data n, j⟩ :: as) (.wr v :: ss)

theorem run_rel {ver : List Byte} (hv : ver ≠ []) {as ss} (hp : Performs as ss) :
    ∀ {s : Sif} {m : Doc.Mach}, Rel ver s m →
      Rel ver (s.run as).1 (m.run ver ss).1 ∧
      (s.run as).2.map (BitVec.setWidth 8) = (m.run ver ss).2 := by
  induction hp with
  | nil => intro s m h; exact ⟨h, rfl⟩
  | rd _ ih =>
    intro s m h
    obtain ⟨h1, h2⟩ := rd_rel h
    obtain ⟨i1, i2⟩ := ih h1
    refine ⟨i1, ?_⟩
    simp only [Sif.run, Doc.Mach.run, List.map_cons, h2, i2]
  | wr v n j _ ih =>
    intro s m h
    exact ih (wr_rel hv h v n j)

theorem init_rel {cell : Byte} {ver : List Byte} {fin : Option Dev} {fout} {limit : Word} {i : List Byte}
    (h : Input fin i) :
    Rel ver (Sif.init (cell.zeroExtend 32) 255 ver fin fout limit)
      ⟨.idle, ⟨i, fout, limit.toNat, []⟩, cell⟩ :=
  ⟨⟨rfl, rfl, rfl, rfl, rfl, h⟩, ⟨rfl, fun _ => ⟨rfl, rfl, rfl⟩⟩, rfl⟩

theorem mrun_append (ver : List Byte) (m : Doc.Mach) (a b : List Doc.Step) :
    m.run ver (a ++ b) = (((m.run ver a).1.run ver b).1, (m.run ver a).2 ++ ((m.run ver a).1.run ver b).2) := by
  induction a generalizing m with
  | nil => rfl
  | cons x a ih =>
    cases x with
    | rd => simp only [List.cons_append, Doc.Mach.run, ih]
    | wr v => simp only [List.cons_append, Doc.Mach.run, ih]

theorem performs_split {as : List Acc} {a b : List Doc.Step} (h : Performs as (a ++ b)) :
    ∃ x y, as = x ++ y ∧ Performs x a ∧ Performs y b := by
  induction a generalizing as with
  | nil => exact ⟨[], as, rfl, .nil, h⟩
  | cons s a ih =>
    cases h with
    | rd h => obtain ⟨x, y, e, hx, hy⟩ := ih h; exact ⟨_ :: x, y, by rw [e]; rfl, .rd hx, hy⟩
    | wr v n j h =>
      obtain ⟨x, y, e, hx, hy⟩ := ih h; exact ⟨_ :: x, y, by rw [e]; rfl, .wr v n j hx, hy⟩

theorem srun_append (s : Sif) (a b : List Acc) :
    s.run (a ++ b) = (((s.run a).1.run b).1, (s.run a).2 ++ ((s.run a).1.run b).2) := by
  induction a generalizing s with
  | nil => rfl
  | cons x a ih =>
    cases x with
    | rd => simp only [List.cons_append, Sif.run, ih]
    | wr v => simp only [List.cons_append, Sif.run, ih]

/-! ### transactions on the machine -/

theorem byLetter_letter (k : Kind) : Doc.byLetter (Doc.letter k) = some k := by
  cases k <;> decide +kernel

/-- the remaining arguments are written -/
theorem feed_run (ver : List Byte) (k : Kind) (rest : List Byte) :
    ∀ (got : List Byte) (m : Doc.Mach), (got ++ rest).length = Doc.needs k →
      ∃ l, (((m.feed ver k got).run ver (rest.map .wr)).1 = { m.feed ver k (got ++ rest) with last := l }
        ∨ rest = [] ∧ ((m.feed ver k got).run ver (rest.map .wr)).1 = m.feed ver k (got ++ rest)) ∧
        ((m.feed ver k got).run ver (rest.map .wr)).2 = [] := by
  induction rest with
  | nil => intro got m _; exact ⟨0, Or.inr ⟨rfl, by simp [Doc.Mach.run]⟩, rfl⟩
  | cons v rest ih =>
    intro got m hl
    have hlt : got.length ≠ Doc.needs k := by
      simp only [List.length_append, List.length_cons] at hl; omega
    have hf : m.feed ver k got = { m with ph := .args k got } := by
      unfold Doc.Mach.feed; rw [if_neg hlt]
    rw [hf]
    have hwr : ({ m with ph := .args k got } : Doc.Mach).write ver v =
        ({ m with last := v } : Doc.Mach).feed ver k (got ++ [v]) := by
      unfold Doc.Mach.write Doc.Mach.feed
      simp only []
      split <;> rfl
    have e : got ++ v :: rest = (got ++ [v]) ++ rest := by simp
    obtain ⟨l, h1, h2⟩ := ih (got ++ [v]) { m with last := v } (by rw [← e]; exact hl)
    simp only [List.map_cons, Doc.Mach.run, hwr]
    have hlast : ∀ x, ({ ({ m with last := v } : Doc.Mach).feed ver k x with last := l } : Doc.Mach) =
        { m.feed ver k x with last := l } := by
      intro x; unfold Doc.Mach.feed; simp only []; split <;> rfl
    rcases h1 with h1 | ⟨hn, h1⟩
    · refine ⟨l, Or.inl ?_, h2⟩
      rw [h1, e, hlast]
    · refine ⟨v, Or.inl ?_, h2⟩
      rw [h1, e]
      unfold Doc.Mach.feed; simp only []; split <;> rfl

/-- an answer is read -/
theorem ans_run (ver : List Byte) (rest : List Byte) : ∀ (m : Doc.Mach),
    m.ph = (if rest = [] then .idle else .ans rest) →
    m.run ver (List.replicate rest.length .rd) = ({ m with ph := .idle }, rest) := by
  induction rest with
  | nil => intro m h; rw [if_pos rfl] at h; simp only [List.length_nil, List.replicate_zero, Doc.Mach.run, ← h]
  | cons b rest ih =>
    intro m h
    rw [if_neg (by simp)] at h
    simp only [List.length_cons, List.replicate_succ, Doc.Mach.run]
    by_cases e : rest = []
    · subst e
      rw [read_one h]
      rfl
    · rw [read_more h e]
      rw [ih { m with ph := .ans rest } (by rw [if_neg e])]

theorem tx_run (ver : List Byte) (m : Doc.Mach) (hi : m.ph = .idle) (t : Doc.Tx) (ht : t.Ok) :
    ∃ l, m.run ver ((Doc.letter t.k :: t.args).map .wr ++
        List.replicate (Doc.answer ver t.k t.args m.w).1.length .rd) =
      (⟨.idle, (Doc.answer ver t.k t.args m.w).2, l⟩, (Doc.answer ver t.k t.args m.w).1) := by
  have hw : m.write ver (Doc.letter t.k) =
      ({ m with last := Doc.letter t.k } : Doc.Mach).feed ver t.k [] := by
    unfold Doc.Mach.write Doc.Mach.feed
    rw [hi]
    simp only [byLetter_letter]
    split <;> rfl
  obtain ⟨l, h1, h2⟩ := feed_run ver t.k t.args [] { m with last := Doc.letter t.k } ht
  have hfull : ∃ l', (({ m with last := Doc.letter t.k } : Doc.Mach).feed ver t.k []).run ver (t.args.map .wr) =
      ({ m.feed ver t.k t.args with last := l' }, []) := by
    rcases h1 with h1 | ⟨hn, h1⟩
    · refine ⟨l, Prod.ext ?_ h2⟩
      rw [h1]; unfold Doc.Mach.feed; simp only [List.nil_append]; split <;> rfl
    · refine ⟨Doc.letter t.k, Prod.ext ?_ h2⟩
      rw [h1]; unfold Doc.Mach.feed; simp only [List.nil_append]; split <;> rfl
  obtain ⟨l', hfull⟩ := hfull
  refine ⟨l', ?_⟩
  rw [mrun_append, List.map_cons, Doc.Mach.run, hw, hfull]
  have hph : ({ m.feed ver t.k t.args with last := l' } : Doc.Mach) =
      ⟨if (Doc.answer ver t.k t.args m.w).1 = [] then .idle else .ans (Doc.answer ver t.k t.args m.w).1,
        (Doc.answer ver t.k t.args m.w).2, l'⟩ := by
    unfold Doc.Mach.feed
    rw [if_pos (show t.args.length = Doc.needs t.k from ht)]
  simp only [hph, List.nil_append]
  rw [ans_run _ _ _ rfl]

theorem script_run (ver : List Byte) (ts : List Doc.Tx) : ∀ (m : Doc.Mach), m.ph = .idle →
    (∀ t ∈ ts, t.Ok) →
    ∃ l, m.run ver (Doc.script ver m.w ts).1 =
      (⟨.idle, (Doc.script ver m.w ts).2.2, l⟩, (Doc.script ver m.w ts).2.1) := by
  induction ts with
  | nil =>
    intro m hi _
    refine ⟨m.last, ?_⟩
    simp only [Doc.script, Doc.Mach.run, ← hi]
  | cons t ts ih =>
    intro m hi ht
    obtain ⟨l, h⟩ := tx_run ver m hi t (ht t (by simp))
    simp only [Doc.script]
    rw [mrun_append, h]
    obtain ⟨l2, h2⟩ := ih ⟨.idle, (Doc.answer ver t.k t.args m.w).2, l⟩ rfl
      (fun x hx => ht x (List.mem_cons_of_mem _ hx))
    refine ⟨l2, ?_⟩
    rw [h2]

/-! ### getting the interface back -/

/-- no answer is longer than this -/
def maxAns (ver : List Byte) : Nat := ver.length + 43

theorem help_len (k : Kind) : (chars (Doc.help k)).length ≤ 40 := by cases k <;> decide +kernel

theorem answer_len (ver : List Byte) (k : Kind) (args : List Byte) (w : Doc.World) :
    (Doc.answer ver k args w).1.length ≤ maxAns ver := by
  unfold maxAns
  unfold Doc.answer
  split
  case h_2 => simp [Doc.kinds]
  case h_4 => simp [Doc.str]
  case h_6 => simp only []; split <;> simp
  case h_7 =>
    simp only []
    split
    · rename_i a _
      have := help_len a
      simp only [Doc.str, List.length_append, List.length_cons, List.length_nil]
      omega
    · simp
  case h_12 => split <;> simp
  all_goals (simp; done)

/-- an answer under way is not longer than the longest one -/
def Short (ver : List Byte) : Doc.Phase → Prop
  | .ans rest => rest.length ≤ maxAns ver
  | .args k got => got.length < Doc.needs k
  | .idle => True

theorem feed_short (ver : List Byte) (m : Doc.Mach) (k got) (h : got.length ≤ Doc.needs k) :
    Short ver (m.feed ver k got).ph := by
  unfold Doc.Mach.feed
  split
  · simp only []
    split
    · trivial
    · exact answer_len _ _ _ _
  · simp only [Short]; omega

theorem write_short (ver : List Byte) {m : Doc.Mach} (h : Short ver m.ph) (v) : Short ver (m.write ver v).ph := by
  unfold Doc.Mach.write
  cases hp : m.ph with
  | idle =>
    simp only []
    split
    · exact feed_short _ _ _ _ (by simp)
    · rw [hp]; trivial
  | args k got =>
    rw [hp] at h
    simp only [Short] at h
    exact feed_short _ _ _ _ (by simp; omega)
  | ans rest =>
    rw [hp] at h
    simp only []
    rw [hp]; exact h

theorem read_short (ver : List Byte) {m : Doc.Mach} (h : Short ver m.ph) : Short ver m.read.1.ph := by
  unfold Doc.Mach.read
  cases hp : m.ph with
  | idle => simp only []; rw [hp]; trivial
  | args k got => simp only []; rw [hp]; rw [hp] at h; exact h
  | ans rest =>
    rw [hp] at h
    match rest with
    | [] => simp only []; rw [hp]; exact h
    | [b] => trivial
    | b :: c :: bs => simp only [Short, List.length_cons] at h ⊢; omega

theorem run_short (ver : List Byte) (ss : List Doc.Step) : ∀ {m : Doc.Mach}, Short ver m.ph →
    Short ver (m.run ver ss).1.ph := by
  induction ss with
  | nil => intro m h; exact h
  | cons s ss ih =>
    intro m h
    cases s with
    | rd => exact ih (read_short ver h)
    | wr v => exact ih (write_short ver h v)

/-- phases that are left by reading -/
def NoArgs : Doc.Phase → Prop
  | .args _ _ => False
  | _ => True

/-- how many bytes are missing -/
def lack : Doc.Phase → Nat
  | .args k got => Doc.needs k - got.length
  | _ => 0

theorem at_lack (ver : List Byte) {m : Doc.Mach} (h : Short ver m.ph) :
    lack (m.write ver (Doc.ch '@')).ph ≤ lack m.ph - 1 := by
  unfold Doc.Mach.write
  cases hp : m.ph with
  | idle =>
    have : Doc.byLetter (Doc.ch '@') = some .ifreset := by decide +kernel
    simp only [this]
    unfold Doc.Mach.feed
    rw [if_pos (show ([] : List Byte).length = Doc.needs .ifreset from rfl)]
    simp [Doc.answer, lack]
  | args k got =>
    rw [hp] at h
    simp only [Short] at h
    simp only []
    unfold Doc.Mach.feed
    split
    · simp only []
      split <;> simp [lack]
    · simp only [lack, List.length_append, List.length_cons, List.length_nil]; omega
  | ans rest => simp only []; rw [hp]; simp [lack]

theorem needs_le (k : Kind) : Doc.needs k ≤ 4 := by cases k <;> decide

theorem reads_idle (ver : List Byte) (n : Nat) : ∀ {m : Doc.Mach}, lack m.ph = 0 → Short ver m.ph →
    (match m.ph with | .ans r => r ≠ [] ∧ r.length ≤ n | _ => True) →
    (m.run ver (List.replicate n .rd)).1.ph = .idle := by
  induction n with
  | zero =>
    intro m hl hs hn
    simp only [List.replicate_zero, Doc.Mach.run]
    cases hp : m.ph with
    | idle => rfl
    | args k got => rw [hp] at hl hs; simp only [lack, Short] at hl hs; omega
    | ans r =>
      rw [hp] at hn
      simp only at hn
      exact absurd (List.length_eq_zero_iff.mp (by omega)) hn.1
  | succ n ih =>
    intro m hl hs hn
    simp only [List.replicate_succ, Doc.Mach.run]
    cases hp : m.ph with
    | idle =>
      rw [read_idle hp]
      exact ih hl hs (by rw [hp]; trivial)
    | args k got => rw [hp] at hl hs; simp only [lack, Short] at hl hs; omega
    | ans r =>
      rw [hp] at hn
      match r, hn with
      | [b], _ =>
        rw [read_one hp]
        exact ih rfl trivial trivial
      | b :: c :: bs, hn =>
        rw [read_more hp (by simp)]
        rw [hp] at hs
        simp only [Short, List.length_cons] at hs
        simp only [List.length_cons] at hn
        exact ih rfl (by simp only [Short, List.length_cons]; omega)
          ⟨by simp, by simp only [List.length_cons]; omega⟩

/-- an answer is never empty -/
def Full : Doc.Phase → Prop
  | .ans r => r ≠ []
  | _ => True

theorem write_full (ver : List Byte) {m : Doc.Mach} (h : Full m.ph) (v) : Full (m.write ver v).ph := by
  have hf : ∀ k got, Full (m.feed ver k got).ph := by
    intro k got
    unfold Doc.Mach.feed
    split
    · simp only []
      split
      · trivial
      · rename_i e; exact e
    · trivial
  unfold Doc.Mach.write
  cases hp : m.ph with
  | idle =>
    simp only []
    split
    · exact hf _ _
    · rw [hp]; trivial
  | args k got => exact hf _ _
  | ans rest => simp only []; rw [hp]; rw [hp] at h; exact h

theorem read_full {m : Doc.Mach} (h : Full m.ph) : Full m.read.1.ph := by
  unfold Doc.Mach.read
  cases hp : m.ph with
  | idle => simp only []; rw [hp]; trivial
  | args k got => simp only []; rw [hp]; trivial
  | ans rest =>
    rw [hp] at h
    match rest with
    | [] => exact absurd rfl h
    | [b] => trivial
    | b :: c :: bs => simp [Full]

theorem run_full (ver : List Byte) (ss : List Doc.Step) : ∀ {m : Doc.Mach}, Full m.ph →
    Full (m.run ver ss).1.ph := by
  induction ss with
  | nil => intro m h; exact h
  | cons s ss ih =>
    intro m h
    cases s with
    | rd => exact ih (read_full h)
    | wr v => exact ih (write_full ver h v)

theorem resync (ver : List Byte) {m : Doc.Mach} (hs : Short ver m.ph) (hf : Full m.ph) (n : Nat)
    (hn : maxAns ver ≤ n) :
    (m.run ver (List.replicate 4 (.wr (Doc.ch '@')) ++ List.replicate n .rd)).1.ph = .idle := by
  rw [mrun_append]
  have h4 : (m.run ver (List.replicate 4 (.wr (Doc.ch '@')))).1 =
      (((m.write ver (Doc.ch '@')).write ver (Doc.ch '@')).write ver (Doc.ch '@')).write ver (Doc.ch '@') := rfl
  have s1 := write_short ver hs (Doc.ch '@')
  have s2 := write_short ver s1 (Doc.ch '@')
  have s3 := write_short ver s2 (Doc.ch '@')
  have s4 := write_short ver s3 (Doc.ch '@')
  have f4 := write_full ver (write_full ver (write_full ver (write_full ver hf (Doc.ch '@')) (Doc.ch '@'))
    (Doc.ch '@')) (Doc.ch '@')
  have l1 := at_lack ver hs
  have l2 := at_lack ver s1
  have l3 := at_lack ver s2
  have l4 := at_lack ver s3
  have l0 : lack m.ph ≤ 4 := by
    cases hp : m.ph with
    | args k got => have := needs_le k; simp only [lack]; omega
    | _ => simp [lack]
  rw [h4]
  generalize (((m.write ver (Doc.ch '@')).write ver (Doc.ch '@')).write ver (Doc.ch '@')).write ver (Doc.ch '@') = m4 at *
  apply reads_idle ver n (by omega) s4
  cases hp : m4.ph with
  | ans r =>
    rw [hp] at s4 f4
    simp only [Short] at s4
    exact ⟨f4, by omega⟩
  | _ => trivial

end Ucsim.Simif
