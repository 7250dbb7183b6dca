import Verif.Proof.FioCon

/-
C78, C79: reading input files.

C78  Input given to the simulator in a file reaches its reader once, in order, unchanged, and the
     end of the file is reported when, and only when, everything was read -- however the operating
     system cuts the data into pieces and however the reader looks for input.  The code loses the
     byte 0xff (it is a negative `char` and looks like "buffer empty").
C79  Every line of a command file is handed to the command interpreter, in order, unchanged, the
     last one even if it is not ended; the console is closed after the last one and not before.
     The code does not notice an end of line after a line that was ended the other way.
-/
namespace Ucsim.Fio

/-! ### C78 -/

/-- whatever the reader does, it gets a prefix of the file -/
theorem c78_order_partial (junk : Nat → Int) (isFile : Bool) (file : List Byte) (h : 255 ∉ file)
    (ops : List Op) : readAll junk isFile file ops <+: file := by
  obtain ⟨s', e, _⟩ := Dev.run_inv (Dev.inv_init junk isFile file) h ops
  exact ⟨s', e.symm⟩

/-- a reader that goes on looking and reading gets the whole file; it may read any number of bytes
at a time and the system may give any number of them -/
theorem c78_all_partial (junk : Nat → Int) (isFile : Bool) (file : List Byte) (h : 255 ∉ file)
    (before : List Op) (rounds : List (Nat × Nat)) (hr : file.length ≤ rounds.length) :
    readAll junk isFile file
      (before ++ rounds.flatMap (fun (k, n) => [.avail (.data k), .read (n + 1)])) = file := by
  have key : ∀ (rounds : List (Nat × Nat)) (d : Dev) (s : List Byte), d.Inv s → 255 ∉ s →
      s.length ≤ rounds.length →
      received (d.run (rounds.flatMap (fun (k, n) => [.avail (.data k), .read (n + 1)]))).2 = s := by
    intro rounds
    induction rounds with
    | nil =>
      intro d s _ _ hl
      have : s = [] := by simpa using hl
      subst this; rfl
    | cons kn rounds ih =>
      intro d s hi hff hl
      obtain ⟨s1, e1, i1, l1, _⟩ := Dev.round hi hff kn.1 kn.2
      have hff1 : 255 ∉ s1 := fun e => hff (by rw [e1]; exact List.mem_append_right _ e)
      have := ih _ s1 i1 hff1 (by simp only [List.length_cons] at hl; omega)
      rw [List.flatMap_cons, Dev.run_append]
      rw [received_append, this]
      exact e1.symm
  obtain ⟨s1, e1, i1⟩ := Dev.run_inv (Dev.inv_init junk isFile file) h before
  have hff1 : 255 ∉ s1 := fun e => h (by rw [e1]; exact List.mem_append_right _ e)
  unfold readAll
  rw [Dev.run_append, received_append, key rounds _ s1 i1 hff1 ?_]
  · exact e1.symm
  · have := congrArg List.length e1
    simp only [List.length_append] at this
    omega

/-- `read` returns 0 only when everything was read, and so does `eof` -/
theorem c78_end_partial (junk : Nat → Int) (isFile : Bool) (file : List Byte) (h : 255 ∉ file)
    (ops : List Op) (n : Nat) :
    (∀ got, (((Dev.init junk isFile file).run ops).1.op (.read n)).2 = .read 0 got →
      readAll junk isFile file ops = file) ∧
    (((Dev.init junk isFile file).run ops).1.eof = true → readAll junk isFile file ops = file) := by
  obtain ⟨s', e, i⟩ := Dev.run_inv (Dev.inv_init junk isFile file) h ops
  have hff1 : 255 ∉ s' := fun x => h (by rw [e]; exact List.mem_append_right _ x)
  have fin : ((Dev.init junk isFile file).run ops).1.atEnd = true →
      ((Dev.init junk isFile file).run ops).1.ring.items = [] → s' = [] := by
    intro ha hi
    obtain ⟨_, ⟨bs, b1, b2⟩, f⟩ := i
    rw [hi] at b1
    have : bs = [] := by simpa using b1.symm
    rw [← b2, this, f ha]; rfl
  have done : s' = [] → readAll junk isFile file ops = file := by
    intro hs
    rw [hs, List.append_nil] at e
    exact e.symm
  constructor
  · intro got hg
    obtain ⟨g, t, e1, _, _, e4, e5, e6⟩ := Dev.read_inv i hff1 n
    simp only [Dev.op, Obs.read.injEq] at hg
    by_cases hn : 0 < n
    · have := e5 hn
      rw [hg.1] at this
      unfold rcode at this
      split at this
      · omega
      · rename_i hgl
        split at this
        · rename_i ha
          have hz : g.length = 0 := by omega
          have hil : ((Dev.init junk isFile file).run ops).1.ring.items.length = 0 := by omega
          exact done (fin ha (List.length_eq_zero_iff.1 hil))
        · exact absurd this (by decide)
    · exfalso
      have : n = 0 := by omega
      rw [this] at hg
      exact absurd hg.1 (by simp [Dev.read])
  · intro he
    unfold Dev.eof at he
    simp only [Bool.and_eq_true, beq_iff_eq] at he
    exact done (fin he.1 ((Ring.empty_iff i.ok).1 he.2))

/-- when `input_avail` says yes, `read` gives at least one byte or says that this is the end; when
it says no, `read` gives nothing -/
theorem c78_avail_partial (junk : Nat → Int) (isFile : Bool) (file : List Byte) (h : 255 ∉ file)
    (ops : List Op) (o : Os) (n : Nat) (hn : 0 < n) :
    let d := ((Dev.init junk isFile file).run ops).1
    let r := ((d.inputAvail o).1.read n).2
    ((d.inputAvail o).2 = true → 0 ≤ r.1 ∧ r.1 = r.2.length ∧ (r.1 = 0 → (d.inputAvail o).1.eof = true)) ∧
    ((d.inputAvail o).2 = false → r = (-1, [])) := by
  intro d r
  obtain ⟨s', e, i⟩ := Dev.run_inv (Dev.inv_init junk isFile file) h ops
  have hff1 : 255 ∉ s' := fun x => h (by rw [e]; exact List.mem_append_right _ x)
  have hi := Dev.avail_inv i o
  obtain ⟨g, t, e1, _, _, e4, e5, e6⟩ := Dev.read_inv hi hff1 n
  have e5 := e5 hn
  have hav := Dev.avail_iff i o
  have hr1 : r.1 = rcode g.length (d.inputAvail o).1.atEnd := e5
  have hr2 : r.2 = g.map BitVec.toInt := e4
  have hg : g.length = min n (d.inputAvail o).1.ring.items.length := e6
  constructor
  · intro hb
    have hb := hav.1 hb
    by_cases hit : (d.inputAvail o).1.ring.items = []
    · have ha : (d.inputAvail o).1.atEnd = true := by
        rcases hb with hb | hb
        · exact absurd hit hb
        · exact hb
      have hz : g.length = 0 := by rw [hg, hit]; simp
      have hr0 : r.1 = 0 := by rw [hr1, hz, ha]; rfl
      refine ⟨by rw [hr0]; decide, by rw [hr0, hr2, List.length_map, hz]; rfl, fun _ => ?_⟩
      unfold Dev.eof
      rw [ha, Bool.true_and, beq_iff_eq]
      exact (Ring.empty_iff hi.ok).2 hit
    · have hl : 0 < (d.inputAvail o).1.ring.items.length := by
        cases hx : (d.inputAvail o).1.ring.items with
        | nil => exact absurd hx hit
        | cons _ _ => simp
      have hr0 : r.1 = g.length := by rw [hr1]; unfold rcode; rw [if_pos (by omega)]
      refine ⟨by omega, by rw [hr0, hr2, List.length_map], fun hz => ?_⟩
      omega
  · intro hb
    have hb' : ¬ ((d.inputAvail o).1.ring.items ≠ [] ∨ (d.inputAvail o).1.atEnd = true) := by
      intro x
      have := hav.2 x
      rw [hb] at this
      exact absurd this (by decide)
    have hit : (d.inputAvail o).1.ring.items = [] := Classical.byContradiction fun x => hb' (Or.inl x)
    have ha : (d.inputAvail o).1.atEnd = false := by
      cases hx : (d.inputAvail o).1.atEnd with
      | false => rfl
      | true => exact absurd (Or.inr hx) hb'
    have hz : g.length = 0 := by rw [hg, hit]; simp
    have hg0 : g = [] := List.length_eq_zero_iff.1 hz
    have : r = (r.1, r.2) := rfl
    rw [this, hr1, hr2, hz, ha, hg0]
    rfl

/-- the byte 0xff is lost: however long the reader goes on it does not come -/
theorem c78_ff_false :
    ∃ file : List Byte, ∃ rounds : List (Nat × Nat), file.length ≤ rounds.length ∧
      readAll (fun _ => 0) true file
        (rounds.flatMap (fun (k, n) => [.avail (.data k), .read (n + 1)])) ≠ file := by
  refine ⟨[65, 255, 66], [(0, 0), (0, 0), (0, 0), (0, 0), (0, 0)], by decide, ?_⟩
  decide +kernel

/-- ... and the end of the file may be reported where it is, although more follows -/
theorem c78_ff_end_false :
    ∃ file : List Byte, ∃ ops : List Op,
      (((Dev.init (fun _ => 0) true file).run ops).1.op (.read 1)).2 = .read 0 [] ∧
      readAll (fun _ => 0) true file (ops ++ [.read 1, .read 1]) = file.drop 1 ∧
      file.drop 1 ≠ [] := by
  refine ⟨[255, 66], [.avail (.data 9), .avail (.data 9)], ?_⟩
  decide +kernel

example : readAll (fun _ => 7) false [1, 2, 3, 0, 200]
    [.avail .nothing, .read 4, .avail (.data 1), .read 4, .avail (.data 7), .read 1, .read 9] =
    [1, 2, 3, 0, 200] := by decide +kernel
example : (255 : Byte) ∉ ([1, 2, 3, 0, 200] : List Byte) := by decide

/-! ### C79 -/

theorem Eol.good (e : Eol) : ∃ P : Int → Prop, GoodEol e.bytes P ∧ P 0 := by
  cases e
  · exact ⟨_, good_lf, Or.inl rfl⟩
  · exact ⟨_, good_cr, Or.inl rfl⟩
  · exact ⟨_, good_crlf, rfl⟩
  · exact ⟨_, good_lfcr, rfl⟩

theorem con_init_inv (junk : Nat → Int) (isFile : Bool) (e : Eol) (ls : List (List Byte))
    (last : List Byte) (hls : ∀ l ∈ ls, IsCmd l) (hlast : IsCmd last) :
    (Con.init (Dev.init junk isFile (text e ls last))).Inv (linesOf ls last) (text e ls last) := by
  have hmem : ∀ b ∈ text e ls last, b ≠ 255 ∧ b ≠ 3 := by
    intro b hb
    unfold text at hb
    rw [List.mem_append, List.mem_flatMap] at hb
    rcases hb with ⟨l, hl, hb⟩ | hb
    · rw [List.mem_append] at hb
      rcases hb with hb | hb
      · have := (hls l hl).1 b hb
        exact ⟨this.2.2.2.1, this.2.2.2.2⟩
      · revert b
        cases e <;> decide
    · have := hlast.1 b hb
      exact ⟨this.2.2.2.1, this.2.2.2.2⟩
  refine ⟨Dev.inv_init _ _ _, fun x => (hmem _ x).1 rfl, fun x => (hmem _ x).2 rfl, ?_, ?_, ?_⟩
  · obtain ⟨P, hg, h0⟩ := e.good
    have := scan_text hg ls last
      (fun l hl b hb => ⟨((hls l hl).1 b hb).1, ((hls l hl).1 b hb).2.1, ((hls l hl).1 b hb).2.2.1⟩)
      (fun b hb => ⟨(hlast.1 b hb).1, (hlast.1 b hb).2.1, (hlast.1 b hb).2.2.1⟩) 0 h0
    have e2 : scan 0 [] (text e ls last) = (ls, last) := this
    unfold Con.total
    show ([] : List (List Byte)) ++ (scan 0 [] (text e ls last)).1 ++ rest1 (scan 0 [] (text e ls last)).2 = _
    rw [e2]
    unfold linesOf rest1
    split <;> simp
  · intro l hl
    unfold linesOf at hl
    split at hl
    · exact (hls l hl).2
    · rw [List.mem_append, List.mem_singleton] at hl
      rcases hl with hl | hl
      · exact (hls l hl).2
      · rw [hl]; exact hlast.2
  · intro hx
    exact absurd hx (by simp [Con.init])

/-- at any time the interpreter got a prefix of the lines, and all of them if the console is
closed -/
theorem c79_order_partial (junk : Nat → Int) (isFile : Bool) (e : Eol) (ls : List (List Byte))
    (last : List Byte) (hls : ∀ l ∈ ls, IsCmd l) (hlast : IsCmd last) (polls : List Os) :
    let c := (Con.init (Dev.init junk isFile (text e ls last))).polls polls
    c.lines <+: linesOf ls last ∧ (c.closed = true → c.lines = linesOf ls last) := by
  intro c
  obtain ⟨s', i, _⟩ := Con.polls_inv (con_init_inv junk isFile e ls last hls hlast) polls
  exact ⟨Con.lines_prefix i, i.cl⟩

/-- if the console is looked at often enough (and the system has an answer), it hands over all
lines, and is closed -/
theorem c79_all_partial (junk : Nat → Int) (isFile : Bool) (e : Eol) (ls : List (List Byte))
    (last : List Byte) (hls : ∀ l ∈ ls, IsCmd l) (hlast : IsCmd last) (polls : List Os)
    (hp : (text e ls last).length + 2 ≤ (polls.filter (· ≠ .nothing)).length) :
    let c := (Con.init (Dev.init junk isFile (text e ls last))).polls polls
    c.lines = linesOf ls last ∧ c.closed = true := by
  intro c
  obtain ⟨s', i, m⟩ := Con.polls_inv (con_init_inv junk isFile e ls last hls hlast) polls
  have hmu : (Con.init (Dev.init junk isFile (text e ls last))).mu (text e ls last) ≤
      (text e ls last).length + 2 := by
    unfold Con.mu
    simp only [Con.init, Bool.false_eq_true, if_false]
    split
    · omega
    · simp
  have hz : c.mu s' = 0 := by
    have : c.mu s' ≤ _ := m
    omega
  have hc : c.closed = true := by
    unfold Con.mu at hz
    split at hz
    · assumption
    · split at hz
      · omega
      · split at hz <;> omega
  exact ⟨i.cl hc, hc⟩

/-- a text whose first line is ended with LF and whose second one with CR: the lines "b" and "c"
come as one, "bc" -/
theorem c79_mixed_false :
    ((Con.init (Dev.init (fun _ => 0) true [97, 10, 98, 13, 99, 10])).polls
      [.data 9, .data 9, .data 9, .data 9, .data 9]).lines = [[97], [98, 99]] := by
  decide +kernel

/-- a byte 0xff makes the console stop before the end of the file: "b" is never executed -/
theorem c79_ff_false :
    let c := (Con.init (Dev.init (fun _ => 0) true [97, 10, 255, 98, 10])).polls
      [.data 9, .data 9, .data 9, .data 9, .data 9]
    c.lines = [[97]] ∧ c.closed = true := by
  decide +kernel

/-- "help" LF, empty line, "q" without end -/
def demoLines : List (List Byte) := [[104, 101, 108, 112], []]
def demoLast : List Byte := [113]
theorem demoLines_ok : (∀ l ∈ demoLines, IsCmd l) ∧ IsCmd demoLast := by
  refine ⟨?_, ?_⟩
  · intro l hl
    simp only [demoLines, List.mem_cons, List.not_mem_nil, or_false] at hl
    rcases hl with rfl | rfl <;> exact ⟨by decide, by decide⟩
  · exact ⟨by decide, by decide⟩
example : text .crlf demoLines demoLast = [104, 101, 108, 112, 13, 10, 13, 10, 113] := by decide

end Ucsim.Fio
