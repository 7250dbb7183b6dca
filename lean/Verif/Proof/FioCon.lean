import Verif.Proof.FioDev
import Verif.Fio.Console

namespace Ucsim.Fio

/-- one character of a stream of lines: newline state, line so far, line completed -/
def scanStep (nl : Int) (l : List Byte) (b : Byte) : Int × List Byte × List (List Byte) :=
  if b = 10 ∨ b = 13 then
    if nl ≠ 0 ∧ nl ≠ b.toInt then (0, l, []) else (b.toInt, [], [l])
  else (nl, if b = 0 then l else l ++ [b], [])

/-- the lines of a stream -/
def scan (nl : Int) (l : List Byte) : List Byte → List (List Byte) × List Byte
  | [] => ([], l)
  | b :: bs =>
    let (nl, l, d) := scanStep nl l b
    let (ds, l) := scan nl l bs
    (d ++ ds, l)

/-- the last line, if it has anything -/
def rest1 (l : List Byte) : List (List Byte) := if l = [] then [] else [l]

/-- what is handed over if nothing goes wrong -/
def Con.total (c : Con) (s : List Byte) : List (List Byte) :=
  c.lines ++ (scan c.nl c.lbuf s).1 ++ rest1 (scan c.nl c.lbuf s).2

theorem toInt3 (b : Byte) : b.toInt = 3 ↔ b = 3 := by revert b; decide
theorem toInt10 (b : Byte) : (b.toInt = 10 ∨ b.toInt = 13) ↔ (b = 10 ∨ b = 13) := by
  revert b; decide

theorem addChar_toInt (l : List Byte) (b : Byte) :
    addChar l b.toInt = if b = 0 then l else l ++ [b] := by
  simp only [addChar, BitVec.ofInt_toInt]

theorem Con.total_step (c : Con) (b : Byte) (s : List Byte) :
    c.total (b :: s) =
      Con.total { c with
        nl := (scanStep c.nl c.lbuf b).1
        lbuf := (scanStep c.nl c.lbuf b).2.1
        lines := c.lines ++ (scanStep c.nl c.lbuf b).2.2 } s := by
  simp only [Con.total, scan, List.append_assoc]

/-- reading one value of a stream without 0xff -/
theorem Dev.read1 {d : Dev} {s} (h : d.Inv s) (hff : 255 ∉ s) :
    (∃ b s', s = b :: s' ∧ (d.read 1).1.Inv s' ∧ (d.read 1).2 = (1, [b.toInt]) ∧
      (d.read 1).1.atEnd = d.atEnd ∧
      d.ring.items.length = (d.read 1).1.ring.items.length + 1) ∨
    (d.ring.items = [] ∧ (d.read 1).1.Inv s ∧ (d.read 1).1.ring.items = [] ∧
      (d.read 1).2 = (if d.atEnd then 0 else -1, []) ∧ (d.read 1).1.atEnd = d.atEnd) := by
  have h' := h
  obtain ⟨ok, ⟨bs, hi, hs⟩, fin⟩ := h
  unfold Dev.read
  rw [if_neg (by decide)]
  cases bs with
  | nil =>
    right
    have he : d.ring.items = [] := by simpa using hi
    unfold Dev.readLoop
    simp only [Ring.get_nil ok he, if_true, List.length_nil, Nat.lt_irrefl, if_false, gt_iff_lt]
    refine ⟨he, ?_, ?_, ?_, ?_⟩
    · split <;> exact h'
    · split <;> exact he
    · split
      · rename_i ha; simp [ha]
      · rename_i ha; simp [ha]
    · split <;> rfl
  | cons b bs =>
    left
    simp only [List.map_cons] at hi
    obtain ⟨o2, i2, c2⟩ := Ring.get_cons ok hi
    rw [cut_toInt] at c2
    have hb : b ≠ 255 := by
      intro e; apply hff; rw [← hs, e]; simp
    have hc : ¬ b.toInt = -1 := by rw [toInt_ff]; exact hb
    have hred : d.readLoop [] 1 = ({ d with ring := d.ring.get.1 }, 1, [b.toInt]) := by
      unfold Dev.readLoop
      simp only [c2, if_neg hc]
      unfold Dev.readLoop
      simp
    refine ⟨b, bs ++ d.rest, hs.symm, ?_⟩
    rw [hred]
    exact ⟨⟨o2, ⟨bs, i2, rfl⟩, fin⟩, rfl, rfl, by simp only [i2, hi, List.length_cons]⟩

/-- what read_line leaves -/
structure RL (c : Con) (s : List Byte) (r : Con × Int) : Prop where
  closed : r.1.closed = c.closed
  lines : r.1.lines = c.lines
  res : ∃ s', r.1.dev.Inv s' ∧ s'.length ≤ s.length ∧ (255 ∉ s') ∧ (3 ∉ s') ∧
    (c.dev.ring.items ≠ [] → s'.length < s.length) ∧
    ((r.2 = 1 ∧
        Con.total { r.1 with lines := r.1.lines ++ [r.1.lbuf], lbuf := [] } s' = c.total s) ∨
     (r.2 = 0 ∧ r.1.total s' = c.total s ∧ (s = [] → c.lbuf = r.1.lbuf ∧ c.dev.atEnd = false)) ∨
     (r.2 = -1 ∧ s' = [] ∧ r.1.lbuf = [] ∧ r.1.total s' = c.total s))

theorem Con.readLine_inv (fuel : Nat) {c : Con} {s} (h : c.dev.Inv s) (h255 : 255 ∉ s) (h3 : 3 ∉ s)
    (hf : c.dev.ring.items.length < fuel) : RL c s (c.readLine fuel) := by
  induction fuel generalizing c s with
  | zero => omega
  | succ fuel ih =>
    rcases Dev.read1 h h255 with ⟨b, s', e1, e2, e3, e4, e5⟩ | ⟨e1, e2, e3, e4, e5⟩
    · have hb3 : b ≠ 3 := by intro e; apply h3; rw [e1, e]; simp
      have h255' : 255 ∉ s' := fun e => h255 (by rw [e1]; exact List.mem_cons_of_mem _ e)
      have h3' : 3 ∉ s' := fun e => h3 (by rw [e1]; exact List.mem_cons_of_mem _ e)
      have hl : s'.length < s.length := by rw [e1]; simp
      by_cases hnl : b = 10 ∨ b = 13
      · by_cases hsw : c.nl ≠ 0 ∧ c.nl ≠ b.toInt
        · -- the other half of a double newline
          have hred : c.readLine (fuel + 1) =
              Con.readLine { c with dev := (c.dev.read 1).1, nl := 0 } fuel := by
            conv => lhs; unfold Con.readLine
            simp only [e3]
            rw [if_neg (by decide), if_neg (by decide), if_pos (by decide)]
            have q1 : ¬ b.toInt = 3 := by rw [toInt3]; exact hb3
            have q2 := (toInt10 b).2 hnl
            simp only [List.headD_cons, q1, q2, hsw, if_true, if_false, and_self, not_false_iff, ne_eq]
          rw [hred]
          have := ih (c := { c with dev := (c.dev.read 1).1, nl := 0 }) (s := s') e2 h255' h3'
            (by simp only []; omega)
          obtain ⟨a1, a2, t, r1, r2, r3, r4, r5, r6⟩ := this
          have ht : Con.total { c with dev := (c.dev.read 1).1, nl := 0 } s' = c.total s := by
            rw [e1, Con.total_step]
            simp only [scanStep, if_pos hnl, if_pos hsw, List.append_nil]
            rfl
          refine ⟨a1, a2, t, r1, by omega, r3, r4, fun _ => by omega, ?_⟩
          rw [ht] at r6
          rcases r6 with r6 | r6 | r6
          · exact Or.inl r6
          · refine Or.inr (Or.inl ⟨r6.1, r6.2.1, fun e => ?_⟩)
            rw [e] at hl; simp at hl
          · exact Or.inr (Or.inr r6)
        · have hred : c.readLine (fuel + 1) =
              ({ c with dev := (c.dev.read 1).1, nl := b.toInt }, 1) := by
            conv => lhs; unfold Con.readLine
            simp only [e3]
            rw [if_neg (by decide), if_neg (by decide), if_pos (by decide)]
            have q1 : ¬ b.toInt = 3 := by rw [toInt3]; exact hb3
            have q2 := (toInt10 b).2 hnl
            simp only [List.headD_cons, q1, q2, hsw, if_true, if_false]
          rw [hred]
          refine ⟨rfl, rfl, s', e2, by omega, h255', h3', fun _ => hl, Or.inl ⟨rfl, ?_⟩⟩
          rw [e1, Con.total_step]
          simp only [scanStep, if_pos hnl, if_neg hsw]
          rfl
      · have hred : c.readLine (fuel + 1) =
            Con.readLine { c with dev := (c.dev.read 1).1, lbuf := addChar c.lbuf b.toInt } fuel := by
          conv => lhs; unfold Con.readLine
          simp only [e3]
          rw [if_neg (by decide), if_neg (by decide), if_pos (by decide)]
          have q1 : ¬ b.toInt = 3 := by rw [toInt3]; exact hb3
          have q2 : ¬ (b.toInt = 10 ∨ b.toInt = 13) := fun e => hnl ((toInt10 b).1 e)
          simp only [List.headD_cons, q1, q2, if_false]
        rw [hred]
        have := ih (c := { c with dev := (c.dev.read 1).1, lbuf := addChar c.lbuf b.toInt })
          (s := s') e2 h255' h3' (by simp only []; omega)
        obtain ⟨a1, a2, t, r1, r2, r3, r4, r5, r6⟩ := this
        have ht : Con.total { c with dev := (c.dev.read 1).1, lbuf := addChar c.lbuf b.toInt } s' =
            c.total s := by
          rw [e1, Con.total_step, addChar_toInt]
          simp only [scanStep, if_neg hnl, List.append_nil]
          rfl
        refine ⟨a1, a2, t, r1, by omega, r3, r4, fun _ => by omega, ?_⟩
        rw [ht] at r6
        rcases r6 with r6 | r6 | r6
        · exact Or.inl r6
        · refine Or.inr (Or.inl ⟨r6.1, r6.2.1, fun e => ?_⟩)
          rw [e] at hl; simp at hl
        · exact Or.inr (Or.inr r6)
    · by_cases ha : c.dev.atEnd = true
      · have hs : s = [] := by
          obtain ⟨_, ⟨bs, hi, hs⟩, fin⟩ := h
          have : bs = [] := by rw [e1] at hi; simpa using hi.symm
          rw [← hs, this, fin ha]; rfl
        by_cases hlb : c.lbuf.length = 0
        · have hlb' : c.lbuf = [] := List.length_eq_zero_iff.1 hlb
          have hred : c.readLine (fuel + 1) = ({ c with dev := (c.dev.read 1).1 }, -1) := by
            conv => lhs; unfold Con.readLine
            simp only [e4, ha, if_true]
            rw [if_neg (by decide), if_pos hlb]
          rw [hred]
          exact ⟨rfl, rfl, s, e2, Nat.le_refl _, h255, h3, fun e => absurd e1 e,
            Or.inr (Or.inr ⟨rfl, hs, hlb', rfl⟩)⟩
        · have hlb' : c.lbuf ≠ [] := fun e => hlb (by rw [e]; rfl)
          have hred : c.readLine (fuel + 1) = ({ c with dev := (c.dev.read 1).1 }, 1) := by
            conv => lhs; unfold Con.readLine
            simp only [e4, ha, if_true]
            rw [if_neg (by decide), if_neg hlb]
          rw [hred]
          refine ⟨rfl, rfl, s, e2, Nat.le_refl _, h255, h3, fun e => absurd e1 e, Or.inl ⟨rfl, ?_⟩⟩
          rw [hs]
          simp [Con.total, scan, rest1, hlb']
      · have hred : c.readLine (fuel + 1) = ({ c with dev := (c.dev.read 1).1 }, 0) := by
          conv => lhs; unfold Con.readLine
          simp only [e4]
          rw [if_neg ha]
          rw [if_neg (by decide), if_neg (by decide), if_neg (by decide)]
        rw [hred]
        exact ⟨rfl, rfl, s, e2, Nat.le_refl _, h255, h3, fun e => absurd e1 e,
          Or.inr (Or.inl ⟨rfl, rfl, fun _ => ⟨rfl, by simpa using ha⟩⟩)⟩

/-- the state of a console that has still to hand over what `tot` says beyond its `lines` -/
structure Con.Inv (c : Con) (tot : List (List Byte)) (s : List Byte) : Prop where
  dev : c.dev.Inv s
  ff : 255 ∉ s
  n3 : 3 ∉ s
  all : c.total s = tot
  eot : ∀ l ∈ tot, l.head? ≠ some 4
  cl : c.closed = true → c.lines = tot

theorem Con.lines_prefix {c : Con} {tot s} (h : c.Inv tot s) : c.lines <+: tot := by
  rw [← h.all, Con.total, List.append_assoc]
  exact List.prefix_append _ _

/-- how far a console is from being done -/
def Con.mu (c : Con) (s : List Byte) : Nat :=
  if c.closed then 0 else if s ≠ [] then s.length + 2 else if c.lbuf ≠ [] then 2 else 1

theorem items_len {d : Dev} : d.ring.items.length < 1024 := by
  rw [Ring.length_items]; exact Ring.len_lt _

theorem Con.poll_inv {c : Con} {tot s} (h : c.Inv tot s) (o : Os) :
    ∃ s', (c.poll o).Inv tot s' ∧ (c.poll o).mu s' ≤ c.mu s - (if o = .nothing then 0 else 1) := by
  unfold Con.poll
  by_cases hc : c.closed = true
  · rw [if_pos hc]
    exact ⟨s, h, by simp [Con.mu, hc]⟩
  · rw [if_neg hc]
    simp only []
    have hd := Dev.avail_inv h.dev o
    by_cases hb : (c.dev.inputAvail o).2 = true
    · rw [if_pos hb]
      have hrl := Con.readLine_inv 1024 (c := { c with dev := (c.dev.inputAvail o).1 }) (s := s)
        hd h.ff h.n3 items_len
      have hav := (Dev.avail_iff h.dev o).1 hb
      have hsne : s ≠ [] → (c.dev.inputAvail o).1.ring.items ≠ [] := by
        intro hs e
        rcases hav with hav | hav
        · exact hav e
        · obtain ⟨_, ⟨bs, b1, b2⟩, fin⟩ := hd
          rw [e] at b1
          have : bs = [] := by simpa using b1.symm
          rw [this, fin hav] at b2
          exact hs b2.symm
      unfold Con.procInput
      generalize Con.readLine { c with dev := (c.dev.inputAvail o).1 } 1024 = r at *
      obtain ⟨a1, a2, t, r1, r2, r3, r4, r5, r6⟩ := hrl
      simp only [] at a1 a2 r5 r6
      have htot : Con.total { c with dev := (c.dev.inputAvail o).1 } s = tot := h.all
      rw [htot] at r6
      have hcl : c.closed = false := by simpa using hc
      have hmu : t = [] ∨ t.length + 2 ≤ c.mu s - 1 := by
        cases t with
        | nil => left; rfl
        | cons x t =>
          right
          have hs : s ≠ [] := by intro e; rw [e] at r2; simp at r2
          have := r5 (hsne hs)
          unfold Con.mu
          rw [if_neg hc, if_pos hs]
          simp only [List.length_cons] at *
          omega
      have hmu1 : ∀ m, m ≤ c.mu s - 1 → m ≤ c.mu s - (if o = .nothing then 0 else 1) := by
        intro m hm; split <;> omega
      rcases r6 with ⟨g1, g2⟩ | ⟨g1, g2, g3⟩ | ⟨g1, g2, g3, g4⟩
      · -- a line
        simp only [g1]
        rw [if_neg (by decide), if_neg (by decide)]
        have hmem : r.1.lbuf ∈ tot := by
          rw [← g2]; simp [Con.total]
        have h4 : (r.1.lbuf.head? == some 4) = false := by
          have := h.eot _ hmem
          simpa using this
        refine ⟨t, ⟨r1, r3, r4, g2, h.eot, ?_⟩, ?_⟩
        · intro hx
          simp only [h4] at hx
          exact absurd hx (by decide)
        · apply hmu1
          have hmu2 : Con.mu { r.1 with lines := r.1.lines ++ [r.1.lbuf], lbuf := [], closed := r.1.lbuf.head? == some 4 } t
              = if t ≠ [] then t.length + 2 else 1 := by
            unfold Con.mu
            simp only [h4, Bool.false_eq_true, if_false, ne_eq, not_true]
          rw [hmu2]
          by_cases ht : t = []
          · rw [if_neg (by simpa using ht)]
            have : 2 ≤ c.mu s := by
              unfold Con.mu
              rw [if_neg hc]
              by_cases hs : s ≠ []
              · rw [if_pos hs]; omega
              · rw [if_neg hs]
                have hs' : s = [] := by simpa using hs
                by_cases hl : c.lbuf = []
                · exfalso
                  rw [ht] at g2
                  rw [hs'] at htot
                  simp only [Con.total, hl, scan, rest1, if_true, List.append_nil] at g2 htot
                  rw [a2] at g2
                  rw [← htot] at g2
                  have := congrArg List.length g2
                  simp at this
                · rw [if_pos hl]; omega
            omega
          · rw [if_pos ht]
            rcases hmu with hmu | hmu
            · exact absurd hmu ht
            · exact hmu
      · simp only [g1]
        rw [if_neg (by decide), if_pos trivial]
        refine ⟨t, ⟨r1, r3, r4, g2, h.eot, ?_⟩, ?_⟩
        · intro hx
          rw [a1] at hx
          exact absurd hx hc
        · apply hmu1
          by_cases hs : s = []
          · exfalso
            have := (g3 hs).2
            rcases hav with hav | hav
            · obtain ⟨_, ⟨bs, b1, b2⟩, fin⟩ := hd
              rw [hs] at b2
              have : bs = [] := by
                cases bs with
                | nil => rfl
                | cons _ _ => simp at b2
              rw [this] at b1
              exact hav (by simpa using b1)
            · rw [this] at hav; exact absurd hav (by decide)
          · have hsl : 0 < s.length := by
              cases s with
              | nil => exact absurd rfl hs
              | cons _ _ => simp
            have : c.mu s = s.length + 2 := by
              unfold Con.mu; rw [if_neg hc, if_pos hs]
            rcases hmu with hmu | hmu
            · have : r.1.mu t ≤ 2 := by
                unfold Con.mu
                split
                · omega
                · split
                  · rename_i hx; exact absurd hmu hx
                  · split <;> omega
              omega
            · have : r.1.mu t ≤ t.length + 2 := by
                unfold Con.mu
                split
                · omega
                · split
                  · omega
                  · split <;> omega
              omega
      · simp only [g1]
        rw [if_pos (by decide)]
        refine ⟨t, ⟨r1, r3, r4, g4, h.eot, ?_⟩, ?_⟩
        · intro _
          simp only []
          rw [g2] at g4
          simp only [Con.total, g3, scan, rest1, if_true, List.append_nil] at g4
          exact g4
        · apply hmu1
          simp [Con.mu]
    · rw [if_neg hb]
      refine ⟨s, ⟨hd, h.ff, h.n3, h.all, h.eot, h.cl⟩, ?_⟩
      have : o = .nothing := by
        cases o with
        | nothing => rfl
        | data k =>
          exfalso
          apply hb
          rw [Dev.avail_iff h.dev]
          rcases Dev.avail_data h.dev k with e | e
          · exact Or.inl e
          · exact Or.inr e.1
      rw [if_pos this]
      unfold Con.mu
      simp only []
      exact Nat.le_refl _

theorem Con.polls_inv {c : Con} {tot s} (h : c.Inv tot s) (os : List Os) :
    ∃ s', (c.polls os).Inv tot s' ∧
      (c.polls os).mu s' ≤ c.mu s - (os.filter (· ≠ .nothing)).length := by
  induction os generalizing c s with
  | nil => exact ⟨s, h, Nat.le_refl _⟩
  | cons o os ih =>
    obtain ⟨s1, i1, m1⟩ := Con.poll_inv h o
    obtain ⟨s2, i2, m2⟩ := ih i1
    refine ⟨s2, i2, ?_⟩
    show ((c.poll o).polls os).mu s2 ≤ _
    by_cases ho : o = .nothing
    · rw [if_pos ho] at m1
      rw [List.filter_cons_of_neg (by simp [ho])]
      omega
    · rw [if_neg ho] at m1
      rw [List.filter_cons_of_pos (by simp [ho]), List.length_cons]
      omega

/-- characters that are not newline or zero go to the line -/
theorem scan_plain (nl : Int) (acc l r : List Byte) (h : ∀ b ∈ l, b ≠ 0 ∧ b ≠ 10 ∧ b ≠ 13) :
    scan nl acc (l ++ r) = scan nl (acc ++ l) r := by
  induction l generalizing acc with
  | nil => simp
  | cons b l ih =>
    have hb := h b (by simp)
    have hn : ¬ (b = 10 ∨ b = 13) := by
      rintro (e | e)
      · exact hb.2.1 e
      · exact hb.2.2 e
    simp only [List.cons_append, scan, scanStep, if_neg hn, if_neg hb.1, List.nil_append]
    rw [ih _ (fun x hx => h x (by simp [hx]))]
    simp

/-- a newline sequence that ends one line: the state it leaves is again one it may start from -/
def GoodEol (eol : List Byte) (P : Int → Prop) : Prop :=
  ∀ nl, P nl → ∀ l r, ∃ nl', P nl' ∧ scan nl l (eol ++ r) = (l :: (scan nl' [] r).1, (scan nl' [] r).2)

theorem scan_text {eol : List Byte} {P : Int → Prop} (he : GoodEol eol P) (ls : List (List Byte))
    (last : List Byte) (hls : ∀ l ∈ ls, ∀ b ∈ l, b ≠ 0 ∧ b ≠ 10 ∧ b ≠ 13)
    (hlast : ∀ b ∈ last, b ≠ 0 ∧ b ≠ 10 ∧ b ≠ 13) (nl : Int) (hnl : P nl) :
    scan nl [] (ls.flatMap (· ++ eol) ++ last) = (ls, last) := by
  induction ls generalizing nl with
  | nil =>
    have := scan_plain nl [] last [] hlast
    simp only [List.append_nil, List.nil_append] at this
    simp only [List.flatMap_nil, List.nil_append, this, scan]
  | cons l ls ih =>
    simp only [List.flatMap_cons, List.append_assoc]
    rw [scan_plain nl [] l _ (hls l (by simp)), List.nil_append]
    obtain ⟨nl', p', e⟩ := he nl hnl l (ls.flatMap (· ++ eol) ++ last)
    rw [e, ih (fun x hx => hls x (by simp [hx])) nl' p']

theorem good_lf : GoodEol [10] (fun n => n = 0 ∨ n = 10) := by
  intro nl h l r
  refine ⟨10, Or.inr rfl, ?_⟩
  have : ¬ (nl ≠ 0 ∧ nl ≠ (10 : Byte).toInt) := by
    rcases h with h | h <;> subst h <;> decide
  simp only [List.cons_append, List.nil_append, scan, scanStep, true_or, if_true, if_neg this]
  rfl

theorem good_cr : GoodEol [13] (fun n => n = 0 ∨ n = 13) := by
  intro nl h l r
  refine ⟨13, Or.inr rfl, ?_⟩
  have : ¬ (nl ≠ 0 ∧ nl ≠ (13 : Byte).toInt) := by
    rcases h with h | h <;> subst h <;> decide
  simp only [List.cons_append, List.nil_append, scan, scanStep, or_true, if_true, if_neg this]
  rfl

theorem good_crlf : GoodEol [13, 10] (fun n => n = 0) := by
  intro nl h l r
  refine ⟨0, rfl, ?_⟩
  subst h
  rfl

theorem good_lfcr : GoodEol [10, 13] (fun n => n = 0) := by
  intro nl h l r
  refine ⟨0, rfl, ?_⟩
  subst h
  rfl

end Ucsim.Fio
