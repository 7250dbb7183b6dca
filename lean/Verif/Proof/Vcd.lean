import Verif.Spec.Vcd
/-
Proofs about the value change dump.
-/
namespace Ucsim.Vcd
open Spec

/-! ### Records: the structure of the file -/

inductive Rec
  | stamp (t : Nat)
  | kw (k : List Char)
  | cmt (ws : List (List Char))
  | val (x : Var) (v : Nat)
  | unk (x : Var)

def Rec.enc : Rec → List Word
  | .stamp t => [.stamp t]
  | .kw k => [.txt ('$' :: k)]
  | .cmt ws => .txt "$comment".toList :: ws.map .txt ++ [.txt "$end".toList]
  | .val x v => valWords x v
  | .unk x => unkWords x

def enc (l : List Rec) : List Word := l.flatMap Rec.enc

def Rec.Good : Rec → Prop
  | .stamp _ => True
  | .kw k => k ≠ "comment".toList
  | .cmt ws => ∀ w ∈ ws, w ≠ "$end".toList
  | .val x _ => x.lo ≤ x.hi
  | .unk x => x.lo ≤ x.hi

def rdRec (T : Nat) (r : Rd) : Rec → Rd
  | .stamp t => { r with time := t }
  | .kw _ => r
  | .cmt _ => r
  | .val x v => r.change T x.id (some (field x.hi x.lo v))
  | .unk x => r.change T x.id none

theorem enc_append (a b : List Rec) : enc (a ++ b) = enc a ++ enc b := by simp [enc]
theorem enc_cons (a : Rec) (b : List Rec) : enc (a :: b) = a.enc ++ enc b := by simp [enc]
theorem enc_nil : enc [] = [] := rfl

/-! ### Numbers -/

theorem field_testBit (hi lo v i : Nat) (h : lo ≤ hi) :
    (field hi lo v).testBit i = (decide (i ≤ hi - lo) && v.testBit (lo + i)) := by
  unfold field
  rw [Nat.testBit_mod_two_pow, Nat.testBit_div_two_pow]
  have : i < hi + 1 - lo ↔ i ≤ hi - lo := by omega
  simp [this, Nat.add_comm]

theorem num_bits (v : Nat) : ∀ (n hi a : Nat), n ≤ hi + 1 →
    num ((List.range n).map (fun i => bitChar (v.testBit (hi - i)))) a = some (a * 2 ^ n + v / 2 ^ (hi + 1 - n) % 2 ^ n) := by
  intro n
  induction n with
  | zero => intro hi a _; simp [num, Nat.mod_one]
  | succ n ih =>
    intro hi a hn
    rw [List.range_succ_eq_map, List.map_cons, List.map_map]
    have hb : ∀ (b : Bool) l, num (bitChar b :: l) a = num l (2 * a + b.toNat) := by
      intro b l; cases b <;> simp [bitChar, num]
    rw [hb]
    have e : (List.map ((fun i => bitChar (v.testBit (hi - i))) ∘ Nat.succ) (List.range n))
        = (List.range n).map (fun i => bitChar (v.testBit ((hi - 1) - i))) := by
      apply List.map_congr_left
      intro i _
      show bitChar (v.testBit (hi - (i + 1))) = _
      rw [show hi - (i + 1) = hi - 1 - i by omega]
    rw [e]
    by_cases h0 : n = 0
    · subst h0
      simp [num, Nat.mod_two_eq_one_iff_testBit_zero]
      cases h : v.testBit hi <;> simp [Nat.testBit_eq_decide_div_mod_eq] at h ⊢ <;> omega
    · rw [ih (hi - 1) _ (by omega)]
      congr 1
      have e1 : hi - 1 + 1 - n = hi + 1 - (n + 1) := by omega
      rw [e1]
      generalize hq : v / 2 ^ (hi + 1 - (n + 1)) = q
      have hbit : (v.testBit (hi - 0)).toNat = q / 2 ^ n % 2 := by
        rw [← hq, Nat.div_div_eq_div_mul, ← Nat.pow_add]
        rw [show hi + 1 - (n + 1) + n = hi by omega]
        rw [Nat.sub_zero, Nat.testBit_eq_decide_div_mod_eq]
        cases Nat.mod_two_eq_zero_or_one (v / 2 ^ hi) with
        | inl h => simp [h]
        | inr h => simp [h]
      rw [hbit, Nat.pow_succ, Nat.mod_mul]
      generalize 2 ^ n = P
      rw [Nat.add_mul, Nat.mul_comm P 2, ← Nat.mul_assoc, Nat.mul_comm a 2, Nat.mul_comm P]
      omega

theorem num_x (n a : Nat) (h : 0 < n) : num ((List.range n).map (fun _ => 'x')) a = none := by
  cases n with
  | zero => omega
  | succ n => rw [List.range_succ_eq_map, List.map_cons]; rfl

/-! ### The reader on records -/

theorem change_vec (T : Nat) (r : Rd) (id v) : (r.change T id v).vec = r.vec ∧ (r.change T id v).com = r.com ∧ (r.change T id v).time = r.time := by
  unfold Rd.change; split <;> simp

theorem rd_val (T : Nat) (r : Rd) (x : Var) (v : Nat) (hx : x.lo ≤ x.hi) (h1 : r.vec = none) (h2 : r.com = false) :
    (valWords x v).foldl (Rd.word T) r = r.change T x.id (some (field x.hi x.lo v)) := by
  unfold valWords
  split
  · rename_i e
    have : num [bitChar (v.testBit x.lo)] 0 = some (field x.hi x.lo v) := by
      have := num_bits v 1 x.hi 0 (by omega)
      simp at this
      rw [e, this]
      unfold field
      simp [e]
    cases hb : v.testBit x.lo <;> simp [hb, bitChar, Rd.word, h1, h2] at this ⊢ <;> rw [this]
  · rename_i e
    have := num_bits v (x.hi + 1 - x.lo) x.hi 0 (by omega)
    simp only [List.foldl_cons, List.foldl_nil, Rd.word, h1, h2]
    simp only [Bool.false_eq_true, if_false]
    rw [this]
    simp only [Nat.zero_mul, Nat.zero_add, field, List.headD_cons]
    rw [show x.hi + 1 - (x.hi + 1 - x.lo) = x.lo by omega]
    unfold Rd.change
    cases r
    simp only at *
    split <;> simp_all

theorem rd_unk (T : Nat) (r : Rd) (x : Var) (hx : x.lo ≤ x.hi) (h1 : r.vec = none) (h2 : r.com = false) :
    (unkWords x).foldl (Rd.word T) r = r.change T x.id none := by
  unfold unkWords
  split
  · simp [Rd.word, h1, h2, num]
  · simp only [List.foldl_cons, List.foldl_nil, Rd.word, h1, h2]
    simp only [Bool.false_eq_true, if_false]
    rw [num_x _ _ (by omega)]
    unfold Rd.change
    cases r
    simp only [List.headD_cons] at *
    split
    · simp_all; rfl
    · simp_all

theorem rd_cmt (T : Nat) (ws : List (List Char)) : ∀ (r : Rd), r.com = true → (∀ w ∈ ws, w ≠ "$end".toList) →
    (ws.map Word.txt).foldl (Rd.word T) r = r := by
  induction ws with
  | nil => intros; rfl
  | cons w l ih =>
    intro r h h'
    rw [List.map_cons, List.foldl_cons]
    have : Rd.word T r (.txt w) = r := by
      simp only [Rd.word, h, if_true]
      rw [if_neg (h' w (by simp))]
    rw [this]
    exact ih r h (fun w hw => h' w (by simp [hw]))

theorem rd_rec (T : Nat) (r : Rd) (c : Rec) (hg : c.Good) (h1 : r.vec = none) (h2 : r.com = false) :
    c.enc.foldl (Rd.word T) r = rdRec T r c ∧ (rdRec T r c).vec = none ∧ (rdRec T r c).com = false := by
  cases c with
  | stamp t => exact ⟨rfl, h1, h2⟩
  | kw k =>
    refine ⟨?_, h1, h2⟩
    simp only [Rec.enc, rdRec, List.foldl_cons, List.foldl_nil, Rd.word, h2, h1]
    simp only [Bool.false_eq_true, if_false]
    rw [if_neg hg]
  | cmt ws =>
    refine ⟨?_, h1, h2⟩
    simp only [Rec.enc, rdRec, List.cons_append, List.foldl_cons, List.foldl_append]
    have e : Rd.word T r (.txt "$comment".toList) = { r with com := true } := by
      simp [Rd.word, h1, h2]
    rw [e, rd_cmt T ws _ rfl hg]
    simp [Rd.word]
    cases r; simp_all
  | val x v =>
    refine ⟨rd_val T r x v hg h1 h2, ?_, ?_⟩ <;> simp [rdRec, change_vec, h1, h2]
  | unk x =>
    refine ⟨rd_unk T r x hg h1 h2, ?_, ?_⟩ <;> simp [rdRec, change_vec, h1, h2]

theorem rd_recs (T : Nat) (l : List Rec) : ∀ (r : Rd), (∀ c ∈ l, c.Good) → r.vec = none → r.com = false →
    (enc l).foldl (Rd.word T) r = l.foldl (rdRec T) r ∧ (l.foldl (rdRec T) r).vec = none ∧ (l.foldl (rdRec T) r).com = false := by
  induction l with
  | nil => intro r _ h1 h2; exact ⟨rfl, h1, h2⟩
  | cons c l ih =>
    intro r hg h1 h2
    have ⟨e, e1, e2⟩ := rd_rec T r c (hg c (by simp)) h1 h2
    rw [enc_cons, List.foldl_append, e, List.foldl_cons]
    exact ih _ (fun c hc => hg c (by simp [hc])) e1 e2

/-- The changes `l` noted. -/
def upd (f : Char → Option (Option Nat)) (l : List (Char × Option Nat)) : Char → Option (Option Nat) :=
  l.foldl (fun f c => fun i => if i = c.1 then some c.2 else f i) f

theorem rd_changes (T : Nat) (l : List Rec) (ch : List (Char × Option Nat)) : ∀ (r : Rd),
    (∀ r : Rd, l.foldl (rdRec T) r = ch.foldl (fun r c => r.change T c.1 c.2) r) →
    l.foldl (rdRec T) r = { r with val := if r.time ≤ T then upd r.val ch else r.val } := by
  intro r h
  rw [h r]
  clear h
  induction ch generalizing r with
  | nil => simp [upd]
  | cons c ch ih =>
    rw [List.foldl_cons, ih]
    unfold Rd.change upd
    split <;> simp_all

theorem upd_mem (vars : List Var) (g : Var → Option Nat) : ∀ (f : Char → Option (Option Nat)),
    (vars.map Var.id).Nodup → ∀ (x : Var),
    upd f (vars.map fun x => (x.id, g x)) x.id = if x ∈ vars then some (g x) else if x.id ∈ vars.map Var.id then upd f (vars.map fun x => (x.id, g x)) x.id else f x.id := by
  induction vars with
  | nil => intro f _ x; simp [upd]
  | cons y l ih =>
    intro f hn x
    have hn' : (l.map Var.id).Nodup := (List.nodup_cons.1 hn).2
    have hy : y.id ∉ l.map Var.id := (List.nodup_cons.1 hn).1
    have e : upd f ((y :: l).map fun x => (x.id, g x)) = upd (fun i => if i = y.id then some (g y) else f i) (l.map fun x => (x.id, g x)) := rfl
    by_cases hx : x ∈ y :: l
    · rw [if_pos hx, e, ih _ hn']
      rcases List.mem_cons.1 hx with h | h
      · subst h
        have : x ∉ l := fun h => hy (List.mem_map.2 ⟨x, h, rfl⟩)
        rw [if_neg this, if_neg hy]; simp
      · rw [if_pos h]
    · rw [if_neg hx]
      by_cases hm : x.id ∈ (y :: l).map Var.id
      · rw [if_pos hm]
      · rw [if_neg hm, e, ih _ hn']
        have h1 : x ∉ l := fun h => hx (by simp [h])
        have h2 : x.id ∉ l.map Var.id := fun h => hm (by simp only [List.map_cons, List.mem_cons]; exact Or.inr h)
        have h3 : x.id ≠ y.id := fun h => hm (by simp [h])
        rw [if_neg h1, if_neg h2, if_neg h3]

/-- The records of a list of changes of variables. -/
theorem rd_vals (T : Nat) (l : List Var) (g : Var → Nat) (r : Rd) :
    (l.map fun x => Rec.val x (g x)).foldl (rdRec T) r =
      { r with val := if r.time ≤ T then upd r.val (l.map fun x => (x.id, some (field x.hi x.lo (g x)))) else r.val } := by
  apply rd_changes
  intro r
  induction l generalizing r with
  | nil => rfl
  | cons y l ih => rw [List.map_cons, List.map_cons, List.foldl_cons, List.foldl_cons]; exact ih _

theorem rd_unks (T : Nat) (l : List Var) (r : Rd) :
    (l.map fun x => Rec.unk x).foldl (rdRec T) r =
      { r with val := if r.time ≤ T then upd r.val (l.map fun x => (x.id, none)) else r.val } := by
  apply rd_changes
  intro r
  induction l generalizing r with
  | nil => rfl
  | cons y l ih => rw [List.map_cons, List.map_cons, List.foldl_cons, List.foldl_cons]; exact ih _

/-! ### What the recorder writes -/

theorem reports (v : Nat) (l : List Var) : ∀ (s : St), l.foldl (report v) s =
    { s with event := if l = [] then s.event else s.now, file := s.file ++ enc ((if l ≠ [] ∧ s.event ≠ s.now then [.stamp (s.now - s.starttime)] else []) ++ l.map fun x => .val x v) } := by
  induction l with
  | nil => intro s; simp [enc]
  | cons y l ih =>
    intro s
    rw [List.foldl_cons, ih]
    have e : report v s y = { s with event := s.now, file := s.file ++ enc ((if s.event ≠ s.now then [.stamp (s.now - s.starttime)] else []) ++ [.val y v]) } := by
      unfold report emit
      by_cases h : s.event = s.now
      · simp only [h]; simp [enc, Rec.enc, ← h]
      · simp [h, enc, Rec.enc]
    rw [e]
    simp [enc_append, enc_cons, enc_nil]

theorem reportAll (W : World) (m : Mem) (l : List Var) : ∀ (s : St), s.event = s.now → s.mem = m →
    l.foldl (fun s x => report (get W s.mem x.cell) s x) s =
    { s with file := s.file ++ enc (l.map fun x => .val x (get W m x.cell)) } := by
  induction l with
  | nil => intro s _ _; simp [enc]
  | cons y l ih =>
    intro s h hm
    rw [List.foldl_cons]
    have e : report (get W s.mem y.cell) s y = { s with file := s.file ++ (Rec.val y (get W m y.cell)).enc } := by
      unfold report emit
      simp [h, Rec.enc, hm]
    rw [e]
    refine (ih _ ?_ ?_).trans ?_
    · exact h
    · exact hm
    · simp [enc_cons]

/-- What a pause longer than the limit is shortened to. -/
def cut (lim : Option Nat) (d : Nat) : Nat := match lim with
  | some p => if d > p then p else d
  | none => d

def unpaused (lim : Option Nat) : List (List Char) :=
  if lim = none then ["Unpaused".toList]
  else ["Unpaused.".toList, "Real".toList, "duration".toList, "was".toList, "0.500000000000000".toList, "seconds".toList]

def vals (W : World) (m : Mem) (vars : List Var) : List Rec := vars.map fun x => .val x (get W m x.cell)

theorem start_resume (W : World) (s : St) (h1 : s.started = true) (h2 : s.paused = true) :
    start W s = { s with starttime := s.now - (s.event + cut s.pausetime (s.now - s.event) - s.starttime), event := s.now, paused := false, file := s.file ++ enc ([.stamp (s.now - (s.now - (s.event + cut s.pausetime (s.now - s.event) - s.starttime))), .cmt (unpaused s.pausetime), .kw "dumpon".toList] ++ vals W s.mem s.vars ++ [.kw "end".toList]) } := by
  unfold start
  simp only [h1, h2, if_true, or_true, emit]
  rw [reportAll W s.mem s.vars _ (by rfl) (by rfl)]
  cases hp : s.pausetime with
  | none => simp [enc_append, enc_cons, enc_nil, Rec.enc, vals, cut, unpaused, kw, h1]
  | some p => simp [enc_append, enc_cons, enc_nil, Rec.enc, vals, cut, unpaused, kw, realDuration, h1]

theorem start_fresh (W : World) (s : St) (h1 : s.started = false) (h3 : s.starttime = 0) (h4 : s.event = 0) :
    start W s = { s with starttime := s.now, event := s.now, started := true, paused := false, file := s.file ++ enc ([.stamp 0, .kw "dumpvars".toList] ++ vals W s.mem s.vars ++ [.kw "end".toList]) } := by
  unfold start
  simp only [h1, h3, h4, emit]
  simp only [Bool.false_eq_true, if_false, Bool.not_false, true_or, if_true, Nat.zero_add, Nat.sub_self, h1]
  rw [reportAll W s.mem s.vars _ (by rfl) (by rfl)]
  cases hp : s.pausetime with
  | none => simp [enc_append, enc_cons, enc_nil, Rec.enc, vals, kw]
  | some p => simp [enc_append, enc_cons, enc_nil, Rec.enc, vals, kw]

theorem enc_unks (l : List Var) : enc (l.map Rec.unk) = l.flatMap unkWords := by
  unfold enc
  rw [List.flatMap_map]
  rfl

theorem pause_eq (W : World) (s : St) (h1 : s.started = true) (h2 : s.paused = false) :
    pause W s = { s with event := s.now, paused := true, file := s.file ++ enc ([.stamp (s.now - s.starttime), .cmt ["Paused".toList], .kw "dumpoff".toList] ++ s.vars.map Rec.unk ++ [.kw "end".toList]) } := by
  unfold pause
  simp only [h1, h2, emit]
  rw [enc_append, enc_append, enc_unks]
  simp [enc_cons, enc_nil, Rec.enc, kw]

theorem write_eq (W : World) (c v : Nat) (s : St) (h1 : s.started = true) (h2 : s.paused = false) :
    write W c v s = { s with mem := set W c (W.post c v) s.mem, event := if (s.vars.filter (fun x => x.cell = c)) = [] then s.event else s.now, file := s.file ++ enc ((if (s.vars.filter (fun x => x.cell = c)) ≠ [] ∧ s.event ≠ s.now then [.stamp (s.now - s.starttime)] else []) ++ (s.vars.filter (fun x => x.cell = c)).map fun x => .val x v) } := by
  unfold write
  simp only [h1, h2]
  simp only [Bool.not_false, and_self, if_true]
  rw [reports]
  simp only [h1, h2]

/-! ### The clock and the reader of a recording -/

def rd0 : Rd := { time := 0, vec := none, com := false, val := fun _ => none }

structure Inv (lim : Option Nat) (vars : List Var) (T : Nat) (k : Clock) (s : St) (r : Rd) : Prop where
  st : s.started = true
  vs : s.vars = vars
  pt : s.pausetime = lim
  pa : s.paused = k.paused
  se : s.starttime ≤ s.event
  en : s.event ≤ s.now
  run : k.paused = false → s.now - s.starttime = k.base + k.el
  pau : k.paused = true → s.event - s.starttime = k.base ∧ s.now - s.event = k.el
  rd : s.file.foldl (Rd.word T) rd0 = r
  rv : r.vec = none
  rc : r.com = false
  rt : r.time = s.event - s.starttime

/-- The changes an operation notes in the file. -/
def chg (W : World) (s : St) : Op → List (Char × Option Nat)
  | .write c v => if s.paused then [] else (s.vars.filter (fun x => x.cell = c)).map fun x => (x.id, some (field x.hi x.lo v))
  | .pause => if s.paused then s.vars.map fun x => (x.id, some (field x.hi x.lo (get W s.mem x.cell)))
    else s.vars.map fun x => (x.id, none)
  | .start => if s.paused then s.vars.map fun x => (x.id, some (field x.hi x.lo (get W s.mem x.cell))) else []
  | _ => []

theorem upd_nil (f) : upd f [] = f := rfl

theorem emit_rd {lim vars T k s r} (h : Inv lim vars T k s r) (l : List Rec) (hg : ∀ c ∈ l, c.Good) :
    (s.file ++ enc l).foldl (Rd.word T) rd0 = l.foldl (rdRec T) r ∧ (l.foldl (rdRec T) r).vec = none ∧ (l.foldl (rdRec T) r).com = false := by
  rw [List.foldl_append, h.rd]
  exact rd_recs T l r hg h.rv h.rc

theorem cut_le (lim d) : cut lim d ≤ d := by
  unfold cut; split
  · split <;> omega
  · omega

theorem time_paused (lim : Option Nat) (k : Clock) (h : k.paused = true) : k.time lim = k.base + cut lim k.el := by
  unfold Clock.time cut
  rw [if_pos h]
  cases lim with
  | none => rfl
  | some p => simp only; rw [Nat.min_def]; split <;> split <;> omega

theorem time_running (lim : Option Nat) (k : Clock) (h : k.paused = false) : k.time lim = k.base + k.el := by
  unfold Clock.time
  simp [h]

theorem resume_inv (W : World) {lim vars T k s r} (hv : ∀ x ∈ vars, x.lo ≤ x.hi) (h : Inv lim vars T k s r) (hp : k.paused = true) :
    ∃ r', Inv lim vars T { base := k.time lim, el := 0, paused := false } (start W s) r' ∧ r'.time = k.time lim ∧
      r'.val = if r'.time ≤ T then upd r.val (s.vars.map fun x => (x.id, some (field x.hi x.lo (get W s.mem x.cell)))) else r.val := by
  have hp' : s.paused = true := h.pa.trans hp
  rw [start_resume W s h.st hp']
  have hc := cut_le s.pausetime (s.now - s.event)
  have h1 := h.se
  have h2 := h.en
  have ⟨h3, h4⟩ := h.pau hp
  have et : s.now - (s.now - (s.event + cut s.pausetime (s.now - s.event) - s.starttime)) = k.time lim := by
    rw [time_paused lim k hp, ← h.pt, ← h3, ← h4]
    omega
  rw [et]
  have hg : ∀ c ∈ ([.stamp (k.time lim), .cmt (unpaused s.pausetime), .kw "dumpon".toList] ++ vals W s.mem s.vars ++ [.kw "end".toList] : List Rec), c.Good := by
    intro c hc
    simp only [List.mem_append, List.mem_cons, List.not_mem_nil, or_false, vals, List.mem_map] at hc
    rcases hc with ((rfl | rfl | rfl) | ⟨x, hx, rfl⟩) | rfl
    · trivial
    · intro w hw
      unfold unpaused at hw
      split at hw
      · rcases List.mem_singleton.1 hw with rfl; decide
      · simp only [List.mem_cons, List.not_mem_nil, or_false] at hw
        rcases hw with rfl | rfl | rfl | rfl | rfl | rfl <;> decide
    · show "dumpon".toList ≠ "comment".toList; decide
    · exact hv x (h.vs ▸ hx)
    · show "end".toList ≠ "comment".toList; decide
  have ⟨e, e1, e2⟩ := emit_rd h _ hg
  have ev : (([.stamp (k.time lim), .cmt (unpaused s.pausetime), .kw "dumpon".toList] ++ vals W s.mem s.vars ++ [.kw "end".toList] : List Rec).foldl (rdRec T) r)
      = { r with time := k.time lim, val := if k.time lim ≤ T then upd r.val (s.vars.map fun x => (x.id, some (field x.hi x.lo (get W s.mem x.cell)))) else r.val } := by
    rw [List.foldl_append, List.foldl_append]
    unfold vals
    rw [rd_vals]
    simp [rdRec]
    rfl
  rw [ev] at e e1 e2
  refine ⟨_, ⟨h.st, h.vs, h.pt, rfl, ?_, ?_, ?_, ?_, e, e1, e2, ?_⟩, rfl, rfl⟩
  · exact Nat.sub_le _ _
  · exact Nat.le_refl _
  · intro _; exact et
  · intro hh; cases hh
  · exact et.symm

theorem step_inv (W : World) {lim vars T k s r} (hv : ∀ x ∈ vars, x.lo ≤ x.hi) (h : Inv lim vars T k s r) (op : Op) :
    ∃ r', Inv lim vars T (k.step lim op) (step W s op) r' ∧
      r'.val = (if r'.time ≤ T then upd r.val (chg W s op) else r.val) ∧
      (chg W s op ≠ [] → r'.time = (k.step lim op).time lim) ∧ r.time ≤ r'.time := by
  have h1 := h.se
  have h2 := h.en
  cases op with
  | adv n =>
    refine ⟨r, ⟨h.st, h.vs, h.pt, h.pa, h1, ?_, ?_, ?_, h.rd, h.rv, h.rc, h.rt⟩, ?_, ?_, Nat.le_refl _⟩
    · show s.event ≤ s.now + n; omega
    · intro hp; have := h.run hp; show s.now + n - s.starttime = k.base + (k.el + n); omega
    · intro hp; have := h.pau hp; show _ ∧ s.now + n - s.event = k.el + n; exact ⟨this.1, by omega⟩
    · show r.val = if _ then r.val else r.val; simp
    · intro hh; exact absurd rfl hh
  | set c v =>
    refine ⟨r, ⟨h.st, h.vs, h.pt, h.pa, h1, h2, h.run, h.pau, h.rd, h.rv, h.rc, h.rt⟩, ?_, ?_, Nat.le_refl _⟩
    · show r.val = if _ then r.val else r.val; simp
    · intro hh; exact absurd rfl hh
  | start =>
    cases hp : k.paused with
    | true =>
      have ⟨r', i, et, ev⟩ := resume_inv W hv h hp
      have hp' : s.paused = true := h.pa.trans hp
      refine ⟨r', ?_, ?_, ?_, ?_⟩
      · simpa only [Clock.step, hp, if_true, step] using i
      · simp only [chg, hp', if_true]; exact ev
      · intro _; simp only [Clock.step, hp, if_true]; rw [et]; simp [Clock.time]
      · rw [et, time_paused lim k hp, h.rt, (h.pau hp).1]; omega
    | false =>
      have hp' : s.paused = false := h.pa.trans hp
      have e : start W s = s := by
        unfold start
        simp only [h.st, hp']
        have hs := h.st
        cases s; simp_all
      refine ⟨r, ?_, ?_, ?_, Nat.le_refl _⟩
      · simp only [Clock.step, hp, step, e]; exact h
      · simp [chg, hp', upd_nil]
      · intro hh; simp [chg, hp'] at hh
  | pause =>
    cases hp : k.paused with
    | true =>
      have ⟨r', i, et, ev⟩ := resume_inv W hv h hp
      have hp' : s.paused = true := h.pa.trans hp
      refine ⟨r', ?_, ?_, ?_, ?_⟩
      · simpa only [Clock.step, hp, step, pause, hp', if_true, Bool.not_true] using i
      · simp only [chg, hp', if_true]; exact ev
      · intro _; simp only [Clock.step, hp]; rw [et]; simp [Clock.time]
      · rw [et, time_paused lim k hp, h.rt, (h.pau hp).1]; omega
    | false =>
      have hp' : s.paused = false := h.pa.trans hp
      have hr := h.run hp
      have et : s.now - s.starttime = k.time lim := by rw [time_running lim k hp]; exact hr
      have hg : ∀ c ∈ ([.stamp (s.now - s.starttime), .cmt ["Paused".toList], .kw "dumpoff".toList] ++ s.vars.map Rec.unk ++ [.kw "end".toList] : List Rec), c.Good := by
        intro c hc
        simp only [List.mem_append, List.mem_cons, List.not_mem_nil, or_false, List.mem_map] at hc
        rcases hc with ((rfl | rfl | rfl) | ⟨x, hx, rfl⟩) | rfl
        · trivial
        · intro w hw; rcases List.mem_singleton.1 hw with rfl; decide
        · show "dumpoff".toList ≠ "comment".toList; decide
        · exact hv x (h.vs ▸ hx)
        · show "end".toList ≠ "comment".toList; decide
      have ⟨e, e1, e2⟩ := emit_rd h _ hg
      have ev : (([.stamp (s.now - s.starttime), .cmt ["Paused".toList], .kw "dumpoff".toList] ++ s.vars.map Rec.unk ++ [.kw "end".toList] : List Rec).foldl (rdRec T) r)
          = { r with time := k.time lim, val := if k.time lim ≤ T then upd r.val (s.vars.map fun x => (x.id, none)) else r.val } := by
        rw [List.foldl_append, List.foldl_append, rd_unks, et]
        simp [rdRec]
        rfl
      rw [ev] at e e1 e2
      refine ⟨{ r with time := k.time lim, val := if k.time lim ≤ T then upd r.val (s.vars.map fun x => (x.id, none)) else r.val }, ?_, ?_, ?_, ?_⟩
      · simp only [step, pause_eq W s h.st hp', Clock.step, hp]
        refine ⟨h.st, h.vs, h.pt, rfl, ?_, ?_, ?_, ?_, e, e1, e2, ?_⟩
        · show s.starttime ≤ s.now; omega
        · exact Nat.le_refl _
        · intro hh; cases hh
        · intro _; exact ⟨et, by show s.now - s.now = 0; omega⟩
        · exact et.symm
      · simp only [chg, hp', Bool.false_eq_true, if_false]
      · intro _; simp only [Clock.step, hp, Clock.time]; cases lim <;> simp
      · show r.time ≤ k.time lim; rw [h.rt, ← et]; omega
  | write c v =>
    cases hp : k.paused with
    | true =>
      have hp' : s.paused = true := h.pa.trans hp
      have e : write W c v s = { s with mem := set W c (W.post c v) s.mem } := by
        unfold write; simp [hp']
      refine ⟨r, ?_, ?_, ?_, Nat.le_refl _⟩
      · simp only [Clock.step, step, e]
        exact ⟨h.st, h.vs, h.pt, h.pa, h1, h2, h.run, h.pau, h.rd, h.rv, h.rc, h.rt⟩
      · simp [chg, hp', upd_nil]
      · intro hh; simp [chg, hp'] at hh
    | false =>
      have hp' : s.paused = false := h.pa.trans hp
      have hr := h.run hp
      have et : s.now - s.starttime = k.time lim := by rw [time_running lim k hp]; exact hr
      simp only [step, write_eq W c v s h.st hp', Clock.step, chg, hp', Bool.false_eq_true, if_false]
      generalize hl : s.vars.filter (fun x => x.cell = c) = l
      have hlv : ∀ x ∈ l, x.lo ≤ x.hi := by
        intro x hx; rw [← hl] at hx; exact hv x (h.vs ▸ (List.mem_filter.1 hx).1)
      have hg : ∀ q ∈ ((if l ≠ [] ∧ s.event ≠ s.now then [.stamp (s.now - s.starttime)] else []) ++ l.map fun x => .val x v : List Rec), q.Good := by
        intro q hq
        rcases List.mem_append.1 hq with hq | hq
        · split at hq
          · rcases List.mem_singleton.1 hq with rfl; trivial
          · cases hq
        · obtain ⟨x, hx, rfl⟩ := List.mem_map.1 hq; exact hlv x hx
      have ⟨e, e1, e2⟩ := emit_rd h _ hg
      have etime : r.time = s.event - s.starttime := h.rt
      have ev : (((if l ≠ [] ∧ s.event ≠ s.now then [.stamp (s.now - s.starttime)] else []) ++ l.map fun x => .val x v : List Rec).foldl (rdRec T) r)
          = { r with time := (if l = [] then s.event else s.now) - s.starttime, val := if (if l = [] then s.event else s.now) - s.starttime ≤ T then upd r.val (l.map fun x => (x.id, some (field x.hi x.lo v))) else r.val } := by
        rw [List.foldl_append, rd_vals]
        by_cases hn : l = []
        · subst hn; simp [upd_nil, ← etime]
        · by_cases he : s.event = s.now
          · simp only [hn, he]; rw [he] at etime; simp [etime]
          · simp [hn, he, rdRec]
      rw [ev] at e e1 e2
      refine ⟨_, ⟨h.st, h.vs, h.pt, hp.symm, ?_, ?_, ?_, ?_, e, e1, e2, rfl⟩, rfl, ?_, ?_⟩
      · show s.starttime ≤ if l = [] then s.event else s.now; split <;> omega
      · show (if l = [] then s.event else s.now) ≤ s.now; split <;> omega
      · intro _; exact hr
      · intro hh; rw [hp] at hh; cases hh
      · intro hh
        have : l ≠ [] := by rintro rfl; exact hh rfl
        simp only [this, if_false]; exact et
      · show r.time ≤ (if l = [] then s.event else s.now) - s.starttime
        rw [etime]; split <;> omega

/-! ### Memory -/

theorem get_put_apart (W : World) (c c' v : Nat) (m : Mem) (h : Apart W c c') : get W (put W c' v m) c = get W m c := by
  unfold get put
  rcases h with h | ⟨b, b', h1, h2, hb⟩
  · cases W.bit c <;> simp [h]
  · by_cases e : W.slot c = W.slot c'
    · simp only [h1, h2, e, if_true]
      have hne : decide (b' = b) = false := decide_eq_false fun h => hb h.symm
      split
      · rw [Nat.testBit_or, Nat.one_shiftLeft, Nat.testBit_two_pow, hne, Bool.or_false]
      · split
        · rw [Nat.testBit_xor, Nat.one_shiftLeft, Nat.testBit_two_pow, hne, Bool.xor_false]
        · rfl
    · simp only [h1, e, if_false]

theorem get_set_apart (W : World) (c c' v : Nat) (m : Mem) (h : Apart W c c') : get W (set W c' v m) c = get W m c := by
  unfold set
  split
  · rfl
  · split <;> exact get_put_apart W c c' _ m h

theorem get_put_bit (W : World) (c v b : Nat) (m : Mem) (h : W.bit c = some b) : get W (put W c v m) c = if v ≠ 0 then 1 else 0 := by
  unfold get put
  simp only [h, if_true]
  split
  · simp [Nat.testBit_or, Nat.testBit_shiftLeft]
  · split
    · rename_i h
      simp [Nat.testBit_xor, Nat.testBit_shiftLeft, h]
    · rename_i h
      simp [h]

theorem get_put_full (W : World) (c v : Nat) (m : Mem) (h : W.bit c = none) : get W (put W c v m) c = v := by
  unfold get put
  simp [h]

/-- The bits of a cell that has been written. -/
theorem get_set (W : World) (c v : Nat) (m : Mem) (hro : W.ro c = false) (hb : ∀ b, W.bit c = some b → W.width c = 1)
    (h1 : W.width c = 1 → v ≤ 1) : get W (set W c v m) c = v % 2 ^ W.width c := by
  unfold set
  rw [hro]
  simp only [Bool.false_eq_true, if_false]
  cases e : W.bit c with
  | some b =>
    have hw := hb b e
    have := h1 hw
    rw [if_pos hw, get_put_bit W c v b m e, hw]
    split <;> omega
  | none =>
    split
    · rename_i hw
      have := h1 hw
      rw [get_put_full W c v m e, hw]
      omega
    · exact get_put_full W c _ m e

theorem field_mod (hi lo v w : Nat) (h : hi < w) (hl : lo ≤ hi) : field hi lo (v % 2 ^ w) = field hi lo v := by
  apply Nat.eq_of_testBit_eq
  intro i
  rw [field_testBit _ _ _ _ hl, field_testBit _ _ _ _ hl, Nat.testBit_mod_two_pow]
  by_cases h' : i ≤ hi - lo
  · have : lo + i < w := by omega
    simp [this]
  · simp [h']

/-! ### C124 -/

/-- What the reader knows of the watched fields. -/
def Cur (W : World) (vars : List Var) (s : St) (r : Rd) : Prop :=
  ∀ x ∈ vars, r.val x.id = some (if s.paused then none else some (field x.hi x.lo (get W s.mem x.cell)))

theorem upd_in (vars : List Var) (g : Var → Option Nat) (f) (hn : (vars.map Var.id).Nodup) (x : Var) (hx : x ∈ vars) :
    upd f (vars.map fun x => (x.id, g x)) x.id = some (g x) := by
  rw [upd_mem vars g f hn x, if_pos hx]

theorem upd_out (vars : List Var) (g : Var → Option Nat) (f) (hn : (vars.map Var.id).Nodup) (x : Var) (hx : x.id ∉ vars.map Var.id) :
    upd f (vars.map fun x => (x.id, g x)) x.id = f x.id := by
  rw [upd_mem vars g f hn x, if_neg (fun h => hx (List.mem_map.2 ⟨x, h, rfl⟩)), if_neg hx]

theorem nodup_inj (l : List Var) (hn : (l.map Var.id).Nodup) (y x : Var) (hy : y ∈ l) (hx : x ∈ l) (e : y.id = x.id) : y = x := by
  induction l with
  | nil => cases hy
  | cons z l ih =>
    have ⟨h1, h2⟩ := List.nodup_cons.1 hn
    rcases List.mem_cons.1 hy with rfl | hy' <;> rcases List.mem_cons.1 hx with rfl | hx'
    · rfl
    · exact absurd (List.mem_map.2 ⟨x, hx', e.symm⟩) h1
    · exact absurd (List.mem_map.2 ⟨y, hy', e⟩) h1
    · exact ih h2 hy' hx'

theorem step_cur (W : World) {lim vars T k s r} (hw : ∀ x ∈ vars, Watchable W x) (hn : (vars.map Var.id).Nodup)
    (h : Inv lim vars T k s r) (op : Op) (ho : Recorded W vars op) (hc : r.time ≤ T → Cur W vars s r) :
    ∃ r', Inv lim vars T (k.step lim op) (step W s op) r' ∧ (r'.time ≤ T → Cur W vars (step W s op) r') ∧
      (T < (k.step lim op).time lim → r'.val = r.val) := by
  have hv : ∀ x ∈ vars, x.lo ≤ x.hi := fun x hx => (hw x hx).lohi
  obtain ⟨r', hi, e, et, hle⟩ := step_inv W hv h op
  refine ⟨r', hi, ?_, ?_⟩
  · intro hT x hx
    have hcur := hc (Nat.le_trans hle hT)
    rw [if_pos hT] at e
    rw [e]
    have hpa := h.pa
    have hvs := h.vs
    cases op with
    | adv n => exact hcur x hx
    | set c v =>
      show r.val x.id = some (if s.paused then none else some (field x.hi x.lo (get W (set W c v s.mem) x.cell)))
      rw [get_set_apart W _ _ v s.mem (ho x hx)]
      exact hcur x hx
    | start =>
      have hpp := hi.pa
      simp only [chg] at *
      cases hp : s.paused with
      | true =>
        have hk : k.paused = true := hpa ▸ hp
        simp only [Clock.step, hk, if_true] at hpp
        rw [if_pos rfl, hpp, hvs, upd_in vars _ _ hn x hx]
        simp only [Bool.false_eq_true, if_false]
        have : (step W s .start).mem = s.mem := by simp only [step]; rw [start_resume W s h.st hp]
        rw [this]
      | false =>
        have hk : k.paused = false := hpa ▸ hp
        have : step W s .start = s := by
          have hs := h.st
          simp only [step]
          unfold start
          simp only [hs, hp]
          cases s; simp_all
        rw [this, hp]
        have := hcur x hx
        rw [hp] at this
        exact this
    | pause =>
      have hpp := hi.pa
      simp only [chg] at *
      cases hp : s.paused with
      | true =>
        have hk : k.paused = true := hpa ▸ hp
        simp only [Clock.step, hk, Bool.not_true] at hpp
        rw [if_pos rfl, hpp, hvs, upd_in vars _ _ hn x hx]
        simp only [Bool.false_eq_true, if_false]
        have : (step W s .pause).mem = s.mem := by
          simp only [step]; unfold pause; rw [if_pos hp, start_resume W s h.st hp]
        rw [this]
      | false =>
        have hk : k.paused = false := hpa ▸ hp
        simp only [Clock.step, hk, Bool.not_false] at hpp
        rw [hpp, hvs]
        simp only [Bool.false_eq_true, if_false, if_true]
        rw [upd_in vars _ _ hn x hx]
    | write c v =>
      have hmem : (step W s (.write c v)).mem = set W c (W.post c v) s.mem := by
        simp only [step]; unfold write; simp only
        split
        · rw [reports]
        · rfl
      have hpp : (step W s (.write c v)).paused = s.paused := by rw [hi.pa, hpa]; rfl
      rw [hmem, hpp]
      simp only [chg]
      cases hp : s.paused with
      | true =>
        have := hcur x hx
        rw [hp] at this
        simpa [upd_nil] using this
      | false =>
        have hx' := hcur x hx
        rw [hp] at hx'
        simp only [Bool.false_eq_true, if_false] at hx' ⊢
        have hn' : ((s.vars.filter fun x => x.cell = c).map Var.id).Nodup := by
          rw [hvs]; exact hn.sublist (List.filter_sublist.map _)
        rcases ho x hx with ⟨ec, hw1⟩ | ha
        · have hf : x ∈ s.vars.filter fun x => x.cell = c := by rw [hvs]; exact List.mem_filter.2 ⟨hx, by simp [ec]⟩
          rw [upd_in _ _ _ hn' x hf]
          have w := hw x hx
          have hl := w.last v
          rw [ec] at hl
          rw [hl, ec, get_set W c v s.mem (ec ▸ w.rw) (fun b h => ec ▸ w.bit.2 ⟨b, ec ▸ h⟩) hw1, field_mod _ _ _ _ (ec ▸ w.inside) w.lohi]
        · rw [get_set_apart W _ _ _ s.mem ha]
          by_cases ec : x.cell = c
          · exfalso
            rw [ec] at ha
            rcases ha with ha | ⟨b, b', h1, h2, h3⟩
            · exact ha rfl
            · rw [h1] at h2; exact h3 (Option.some.inj h2)
          · rw [upd_out _ _ _ hn' x ?_]
            · exact hx'
            · intro hm
              obtain ⟨y, hy, e⟩ := List.mem_map.1 hm
              rw [hvs] at hy
              have ⟨hy1, hy2⟩ := List.mem_filter.1 hy
              have : y = x := by
                exact nodup_inj vars hn y x hy1 hx e
              subst this
              exact ec (by simpa using hy2)
  · intro hT
    by_cases hne : chg W s op = []
    · rw [e, hne]; simp [upd_nil]
    · rw [e, if_neg]; rw [et hne]; omega

theorem init_inv (W : World) (T : Nat) (s : St) (h1 : s.started = false) (h3 : s.starttime = 0) (h4 : s.event = 0)
    (h5 : s.file = []) (hw : ∀ x ∈ s.vars, Watchable W x) (hn : (s.vars.map Var.id).Nodup) :
    ∃ r, Inv s.pausetime s.vars T { base := 0, el := 0, paused := false } (start W s) r ∧ Cur W s.vars (start W s) r := by
  rw [start_fresh W s h1 h3 h4]
  have hg : ∀ c ∈ ([.stamp 0, .kw "dumpvars".toList] ++ vals W s.mem s.vars ++ [.kw "end".toList] : List Rec), c.Good := by
    intro c hc
    simp only [List.mem_append, List.mem_cons, List.not_mem_nil, or_false, vals, List.mem_map] at hc
    rcases hc with ((rfl | rfl) | ⟨x, hx, rfl⟩) | rfl
    · trivial
    · show "dumpvars".toList ≠ "comment".toList; decide
    · exact (hw x hx).lohi
    · show "end".toList ≠ "comment".toList; decide
  have ⟨e, e1, e2⟩ := rd_recs T _ rd0 hg rfl rfl
  have ev : (([.stamp 0, .kw "dumpvars".toList] ++ vals W s.mem s.vars ++ [.kw "end".toList] : List Rec).foldl (rdRec T) rd0)
      = { rd0 with time := 0, val := upd rd0.val (s.vars.map fun x => (x.id, some (field x.hi x.lo (get W s.mem x.cell)))) } := by
    rw [List.foldl_append, List.foldl_append]
    unfold vals
    rw [rd_vals]
    simp [rdRec]
  rw [ev] at e e1 e2
  refine ⟨_, ⟨rfl, rfl, rfl, rfl, ?_, ?_, ?_, ?_, ?_, e1, e2, ?_⟩, ?_⟩
  · exact Nat.le_refl _
  · exact Nat.le_refl _
  · intro _; simp
  · intro hh; cases hh
  · rw [h5]; exact e
  · simp
  · intro x hx
    simp only [Bool.false_eq_true, if_false]
    exact upd_in s.vars _ _ hn x hx

theorem run_cur (W : World) {lim vars T} (hw : ∀ x ∈ vars, Watchable W x) (hn : (vars.map Var.id).Nodup) : ∀ (h : List Op) {k s r},
    Inv lim vars T k s r → (∀ op ∈ h, Recorded W vars op) → (r.time ≤ T → Cur W vars s r) →
    ∃ r', Inv lim vars T (h.foldl (Clock.step lim) k) (run W h s) r' ∧ (r'.time ≤ T → Cur W vars (run W h s) r') := by
  intro h
  induction h with
  | nil => intro k s r hi _ hc; exact ⟨r, hi, hc⟩
  | cons op h ih =>
    intro k s r hi ho hc
    obtain ⟨r', hi', hc', _⟩ := step_cur W hw hn hi op (ho op (by simp)) hc
    exact ih hi' (fun o h => ho o (by simp [h])) hc'

theorem time_mono (lim : Option Nat) (k : Clock) (op : Op) : k.time lim ≤ (k.step lim op).time lim := by
  cases op with
  | adv n =>
    unfold Clock.step Clock.time
    simp only
    cases k.paused with
    | true => cases lim with
      | none => simp
      | some p => simp only [if_true]; have := Nat.min_def (n := k.el) (m := p); have := Nat.min_def (n := k.el + n) (m := p); omega
    | false => simp
  | start =>
    unfold Clock.step
    simp only
    split
    · simp [Clock.time]
    · exact Nat.le_refl _
  | pause =>
    unfold Clock.step
    simp only
    exact Nat.le_add_right _ _
  | write c v => exact Nat.le_refl _
  | set c v => exact Nat.le_refl _

theorem run_frozen (W : World) {lim vars T} (hv : ∀ x ∈ vars, x.lo ≤ x.hi) : ∀ (h : List Op) {k s r},
    Inv lim vars T k s r → T < k.time lim →
    ∃ r', Inv lim vars T (h.foldl (Clock.step lim) k) (run W h s) r' ∧ r'.val = r.val := by
  intro h
  induction h with
  | nil => intro k s r hi _; exact ⟨r, hi, rfl⟩
  | cons op h ih =>
    intro k s r hi ht
    obtain ⟨r', hi', e, et, _⟩ := step_inv W hv hi op
    have hm := Nat.lt_of_lt_of_le ht (time_mono lim k op)
    obtain ⟨r2, i2, e2⟩ := ih hi' hm
    refine ⟨r2, i2, e2.trans ?_⟩
    by_cases hne : chg W s op = []
    · rw [e, hne]; simp [upd_nil]
    · rw [e, if_neg]; rw [et hne]; omega

theorem time_le (lim : Option Nat) {vars T k s r} (h : Inv lim vars T k s r) : r.time ≤ k.time lim := by
  have := h.en; have := h.se
  rw [h.rt]
  cases hp : k.paused with
  | true => have := (h.pau hp).1; rw [time_paused lim k hp]; omega
  | false => have := h.run hp; rw [time_running lim k hp]; omega

theorem run_append (W : World) (a b : List Op) (s : St) : run W (a ++ b) s = run W b (run W a s) := List.foldl_append ..

theorem dump_reads (W : World) (s : St) (h1 h2 : List Op) (hs : s.started = false) (hst : s.starttime = 0) (hev : s.event = 0)
    (hf : s.file = []) (hw : ∀ x ∈ s.vars, Watchable W x) (hn : (s.vars.map Var.id).Nodup)
    (ho : ∀ op ∈ h1, Recorded W s.vars op) (hl : Later s.pausetime h1 h2) (x : Var) (hx : x ∈ s.vars) :
    valueAt ((clock s.pausetime h1).time s.pausetime) (run W (h1 ++ h2) (start W s)).file x.id =
      some (if (clock s.pausetime h1).paused then none
        else some (field x.hi x.lo (get W (run W h1 (start W s)).mem x.cell))) := by
  obtain ⟨r0, i0, c0⟩ := init_inv W ((clock s.pausetime h1).time s.pausetime) s hs hst hev hf hw hn
  obtain ⟨r1, i1, c1⟩ := run_cur W hw hn h1 i0 ho (fun _ => c0)
  have c1 := c1 (time_le s.pausetime i1)
  have hv : ∀ x ∈ s.vars, x.lo ≤ x.hi := fun x hx => (hw x hx).lohi
  have key : ∃ r2, Inv s.pausetime s.vars ((clock s.pausetime h1).time s.pausetime) ((h1 ++ h2).foldl (Clock.step s.pausetime) { base := 0, el := 0, paused := false }) (run W (h1 ++ h2) (start W s)) r2 ∧ r2.val = r1.val := by
    rw [List.foldl_append, run_append]
    rcases hl with rfl | ⟨n, l, rfl, ht⟩
    · exact ⟨r1, i1, rfl⟩
    · obtain ⟨r2, i2, e, _, _⟩ := step_inv W hv i1 (.adv n)
      have e' : r2.val = r1.val := by rw [e]; simp [chg, upd_nil]
      have ht' : (clock s.pausetime h1).time s.pausetime < (Clock.step s.pausetime (clock s.pausetime h1) (.adv n)).time s.pausetime := by
        have : clock s.pausetime (h1 ++ [.adv n]) = Clock.step s.pausetime (clock s.pausetime h1) (.adv n) := by
          unfold clock; rw [List.foldl_append]; rfl
        rw [← this]; exact ht
      obtain ⟨r3, i3, e3⟩ := run_frozen W hv l i2 ht'
      exact ⟨r3, i3, e3.trans e'⟩
  obtain ⟨r2, i2, e2⟩ := key
  unfold valueAt
  have := i2.rd
  unfold rd0 at this
  rw [this, e2, c1 x hx, i1.pa]
  rfl

end Ucsim.Vcd
