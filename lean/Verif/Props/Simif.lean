import Verif.Proof.SimifPoll

/-!
C84, C85: the simulator interface (docs/simif.html), a memory cell through which the simulated
program talks to the simulator.  See Spec/Simif.lean for what the commands are documented to do.
-/
namespace Ucsim.Simif
open Fio (Dev Os)
open Doc (ch)

/-- the interface of a simulator that was just started: a cell of 8 bits that holds anything, the
input file if there is one, is a regular file -/
structure Fresh (s : Sif) (ver : List Byte) (w : Doc.World) : Prop where
  hver : ver ≠ []
  noff : 255 ∉ w.input
  start : ∃ (cell : Byte) (fin : Option Dev) (limit : Word),
    s = Sif.init (cell.zeroExtend 32) 255 ver fin w.output limit ∧ limit.toNat = w.limit ∧
    w.log = [] ∧
    ((fin = none ∧ w.input = []) ∨ ∃ junk, fin = some (Dev.init junk true w.input))

theorem Fresh.rel {s ver w} (h : Fresh s ver w) : ∃ m : Doc.Mach, m.ph = .idle ∧ m.w = w ∧ Rel ver s m := by
  obtain ⟨cell, fin, limit, h1, h2, h3, h4⟩ := h.start
  have hi : Input fin w.input := by
    rcases h4 with ⟨a, b⟩ | ⟨junk, a⟩
    · rw [a]; exact ⟨h.noff, b⟩
    · rw [a]; exact ⟨h.noff, Dev.inv_init _ _ _⟩
  refine ⟨⟨.idle, w, cell⟩, rfl, rfl, ?_⟩
  have := init_rel (cell := cell) (ver := ver) (fout := w.output) (limit := limit) hi
  rw [← h1, h2, ← h3] at this
  exact this

/-- C84.  Every program that writes a command and its arguments, reads the whole answer and goes on
with the next command reads the documented answers, and the world sees the documented effects, for
all sequences of commands, all arguments and all input files without the byte 255. -/
theorem c84_commands_partial {s : Sif} {ver : List Byte} {w : Doc.World} (h : Fresh s ver w)
    (ts : List Doc.Tx) (hts : ∀ t ∈ ts, t.Ok) (as : List Acc)
    (hp : Performs as (Doc.script ver w ts).1) :
    (s.run as).2.map (BitVec.setWidth 8) = (Doc.script ver w ts).2.1 ∧
    (s.run as).1.log = (Doc.script ver w ts).2.2.log ∧
    (s.run as).1.active = none := by
  obtain ⟨m, hi, rfl, hr⟩ := h.rel
  obtain ⟨h1, h2⟩ := run_rel h.hver hp hr
  obtain ⟨l, hs⟩ := script_run ver ts m hi hts
  rw [hs] at h1 h2
  exact ⟨h2, h1.w.log, h1.ph.1⟩

/-- the version text of the examples -/
def ver1 : List Byte := chars "0.8.5"

/-- a simulator with an input file -/
def sim1 : Sif := Sif.init 0 255 ver1 (some (Dev.init (fun _ => 0) true [65, 200])) true 1000

def world1 : Doc.World := ⟨[65, 200], true, 1000, []⟩

theorem fresh1 : Fresh sim1 ver1 world1 :=
  ⟨by decide +kernel, by decide +kernel,
    ⟨0, some (Dev.init (fun _ => 0) true [65, 200]), 1000, rfl, rfl, rfl, Or.inr ⟨_, rfl⟩⟩⟩

/-- all accesses get one byte at a time from the file -/
def accs : List Doc.Step → List Acc
  | [] => []
  | .rd :: ss => .rd :: accs ss
  | .wr v :: ss => .wr (v.zeroExtend 32) ⟨.data 0, 7⟩ :: accs ss

theorem accs_ok (ss : List Doc.Step) : Performs (accs ss) ss := by
  induction ss with
  | nil => exact .nil
  | cons s ss ih => cases s with
    | rd => exact .rd ih
    | wr v => exact .wr v 0 7 ih

/-- two bytes are read and printed in hex, the limit is set and read back -/
def demo : List Doc.Tx :=
  [⟨.detect, []⟩, ⟨.finCheck, []⟩, ⟨.read, []⟩, ⟨.finCheck, []⟩, ⟨.read, []⟩, ⟨.finCheck, []⟩,
   ⟨.hex, [200]⟩, ⟨.cmdinfo, [ch 'L']⟩, ⟨.setlimit, [1, 2, 3, 255]⟩, ⟨.getlimit, []⟩, ⟨.write, [13]⟩]

example : (sim1.run (accs (Doc.script ver1 world1 demo).1)).2.map (BitVec.setWidth 8) =
      [ch '!', 1, 65, 1, 200, 0, 2, 4, 4, 4, 1, 2, 3, 255] ∧
    (sim1.run (accs (Doc.script ver1 world1 demo).1)).1.log =
      [.con (ch 'c'), .con (ch '8'), .limit 4278387201, .file 13] := by
  have h := c84_commands_partial fresh1 demo (by unfold Doc.Tx.Ok; decide +kernel) _ (accs_ok _)
  refine ⟨h.1.trans (by decide +kernel), h.2.1.trans (by decide +kernel)⟩

/-- C84: the limit that is read is the one that was set, byte by byte, whatever was done before. -/
theorem c84_limit {s : Sif} {ver : List Byte} {w : Doc.World} (h : Fresh s ver w)
    (ts : List Doc.Tx) (hts : ∀ t ∈ ts, t.Ok) (as : List Acc) (b0 b1 b2 b3 : Byte)
    (hp : Performs as (Doc.script ver w (ts ++ [⟨.setlimit, [b0, b1, b2, b3]⟩, ⟨.getlimit, []⟩])).1) :
    ((s.run as).2.map (BitVec.setWidth 8)).drop (Doc.script ver w ts).2.1.length =
      [4, b0, b1, b2, b3] := by
  obtain ⟨h1, _, _⟩ := c84_commands_partial h (ts ++ [⟨.setlimit, [b0, b1, b2, b3]⟩, ⟨.getlimit, []⟩])
    (by
      intro t ht
      rcases List.mem_append.mp ht with e | e
      · exact hts t e
      · simp only [List.mem_cons, List.mem_nil_iff, or_false] at e
        rcases e with e | e <;> (subst e; rfl)) as hp
  rw [h1]
  have key : ∀ (x y : List Doc.Tx) (w : Doc.World), (Doc.script ver w (x ++ y)).2.1 =
      (Doc.script ver w x).2.1 ++ (Doc.script ver (Doc.script ver w x).2.2 y).2.1 := by
    intro x y
    induction x with
    | nil => intro w; rfl
    | cons t x ih => intro w; simp only [List.cons_append, Doc.script, ih, List.append_assoc]
  rw [key, List.drop_left]
  simp only [Doc.script, Doc.answer, Doc.World.add, List.nil_append, List.append_nil]
  have a0 := b0.isLt; have a1 := b1.isLt; have a2 := b2.isLt; have a3 := b3.isLt
  have e : ∀ (x : Byte) n, n % 256 = x.toNat → BitVec.ofNat 8 n = x := by
    intro x n hx
    apply BitVec.eq_of_toNat_eq
    simp only [BitVec.toNat_ofNat]
    omega
  rw [e b0 _ (by omega), e b1 _ (by omega), e b2 _ (by omega), e b3 _ (by omega)]

example : Performs (accs (Doc.script ver1 world1 (demo ++ [⟨.setlimit, [1, 2, 3, 4]⟩, ⟨.getlimit, []⟩])).1)
    (Doc.script ver1 world1 (demo ++ [⟨.setlimit, [1, 2, 3, 4]⟩, ⟨.getlimit, []⟩])).1 := accs_ok _

/-- C84, input from a pipe or a terminal: whatever the operating system does, a program that asks
for input and reads a byte when there is one gets the bytes of the input, in order, none twice and
none lost (the input has no byte 255); and it gets one at each turn when the system has some. -/
theorem c84_pipe_partial (cell mask limit : Word) (ver : List Byte) (fout isFile : Bool)
    (junk : Nat → Int) (input : List Byte) (hff : 255 ∉ input) (es : List (Env × Env)) :
    let s := Sif.init cell mask ver (some (Dev.init junk isFile input)) fout limit
    (poll s es).2 <+: input ∧
    ((∀ e ∈ es, ∃ n, e.1.os = .data n) → (poll s es).2 = input.take es.length) := by
  obtain ⟨d', r, h1, h2, h3, _, h5⟩ := poll_ok es (s := Sif.init cell mask ver (some (Dev.init junk isFile input)) fout limit)
    ⟨rfl, fun _ => ⟨rfl, rfl, rfl⟩⟩ rfl (Dev.inv_init _ _ _) hff
  exact ⟨⟨r, h3.symm⟩, h5⟩

example : (poll (Sif.init 0 255 ver1 (some (Dev.init (fun _ => 0) false [1, 128, 3])) true 0)
    [(⟨.nothing, 0⟩, ⟨.nothing, 0⟩), (⟨.data 1, 0⟩, ⟨.nothing, 0⟩), (⟨.nothing, 0⟩, ⟨.data 5, 0⟩),
     (⟨.nothing, 0⟩, ⟨.nothing, 0⟩)]).2 = [1, 128] := by decide +kernel

/-! ### what is not as documented -/

/-- `stop` is documented to have no answer.  It has one (`s`), and a program that does not read it
loses its next command: nothing is printed here. -/
theorem c84_false_stop :
    (sim1.run (accs [.wr (ch 's'), .wr (ch 'p'), .wr (ch 'A')])).1.log = [.stop] := by
  decide +kernel

/-- The byte 255 of the input file: `f` says that there is input, but `r` answers an uninitialised
variable. -/
theorem c84_false_ff :
    let s := Sif.init 0 255 ver1 (some (Dev.init (fun _ => 0) true [255, 65])) true 0
    (s.run [.wr 0x66 ⟨.data 0, 0⟩, .rd, .wr 0x72 ⟨.data 0, 5⟩, .rd]).2 = [1, 5] ∧
    (s.run [.wr 0x66 ⟨.data 0, 0⟩, .rd, .wr 0x72 ⟨.data 0, 6⟩, .rd]).2 = [1, 6] := by
  decide +kernel

/-- The first byte of the answer to `I` is documented to be its full length; it is one less. -/
theorem c84_false_info :
    ((sim1.run (accs [.wr (ch 'I'), .wr (ch 'w'), .rd, .rd, .rd])).2 = [2, 1, 4]) ∧
    (sim1.run (accs [.wr (ch 'I'), .wr (ch 'w'), .rd, .rd])).1.active = some .cmdinfo := by
  decide +kernel

/-- `getlimit` is documented to answer the four bytes of the limit; a length comes first. -/
theorem c84_false_getlimit :
    (sim1.run (accs [.wr (ch 'l'), .rd, .rd, .rd, .rd])).2 = [4, 0xe8, 3, 0] := by
  decide +kernel

/-- In a memory wider than 8 bits the byte 200 of the file is read as 0xffffffc8. -/
theorem c84_false_wide :
    ((Sif.init 0 0xffffffff ver1 (some (Dev.init (fun _ => 0) true [200])) true 0).run
      [.wr 0x72 ⟨.data 0, 0⟩, .rd]).2 = [0xffffffc8] := by
  decide +kernel

/-! ### C85: programs that do not keep to the protocol -/

/-- C85.  For every sequence of reads and writes whatsoever the interface is, as seen by the program
and by the world, the machine with three phases of Spec/Simif.lean: idle, waiting for arguments,
answering. -/
theorem c85_any_partial {s : Sif} {ver : List Byte} {w : Doc.World} (h : Fresh s ver w)
    (ss : List Doc.Step) (as : List Acc) (hp : Performs as ss) :
    ∃ last, (s.run as).2.map (BitVec.setWidth 8) = ((Doc.Mach.mk .idle w last).run ver ss).2 ∧
      (s.run as).1.log = ((Doc.Mach.mk .idle w last).run ver ss).1.w.log ∧
      ((s.run as).1.active = none ↔ ((Doc.Mach.mk .idle w last).run ver ss).1.ph = .idle) := by
  obtain ⟨m, hi, rfl, hr⟩ := h.rel
  have e : m = Doc.Mach.mk .idle m.w m.last := by rw [← hi]
  refine ⟨m.last, ?_⟩
  rw [← e]
  obtain ⟨h1, h2⟩ := run_rel h.hver hp hr
  refine ⟨h2, h1.w.log, ?_⟩
  have := h1.ph
  cases hph : (m.run ver ss).1.ph with
  | idle => rw [hph] at this; simp only [this.1]
  | args k got => rw [hph] at this; simp [this.act]
  | ans r =>
    rw [hph] at this
    obtain ⟨k, hk, _⟩ := this
    simp [hk.act]

/-- an answer that is left half read, an argument that is missing -/
example : (sim1.run (accs [.wr (ch 'V'), .rd, .rd, .wr (ch 'p'), .rd, .wr (ch 'q'), .rd])).2.map (BitVec.setWidth 8) =
    [6, ch '0', ch '.', ch '8'] := by
  obtain ⟨l, h, _⟩ := c85_any_partial fresh1 _ _ (accs_ok [.wr (ch 'V'), .rd, .rd, .wr (ch 'p'), .rd, .wr (ch 'q'), .rd])
  rw [h]
  have : ∀ l : Byte, ((Doc.Mach.mk .idle world1 l).run ver1
    [.wr (ch 'V'), .rd, .rd, .wr (ch 'p'), .rd, .wr (ch 'q'), .rd]).2 = [6, ch '0', ch '.', ch '8'] := by
    decide +kernel
  exact this l

/-- C85.  After any accesses at all, writing `@` four times and reading as often as the longest
answer is long makes the interface idle, and from there on every sequence of commands is answered
as documented, and has the documented effects. -/
theorem c85_resync_partial {s : Sif} {ver : List Byte} {w : Doc.World} (h : Fresh s ver w)
    (ss : List Doc.Step) (n : Nat) (hn : ver.length + 43 ≤ n) (as : List Acc)
    (hp : Performs as (ss ++ (List.replicate 4 (.wr (ch '@')) ++ List.replicate n .rd))) :
    (s.run as).1.active = none ∧
    ∃ w', w'.log = (s.run as).1.log ∧ w'.limit = (s.run as).1.limit.toNat ∧
      ∀ ts, (∀ t ∈ ts, Doc.Tx.Ok t) → ∀ bs, Performs bs (Doc.script ver w' ts).1 →
        ((s.run as).1.run bs).2.map (BitVec.setWidth 8) = (Doc.script ver w' ts).2.1 ∧
        ((s.run as).1.run bs).1.log = (Doc.script ver w' ts).2.2.log := by
  obtain ⟨m, hi, rfl, hr⟩ := h.rel
  obtain ⟨h1, h2⟩ := run_rel h.hver hp hr
  have hidle : (m.run ver (ss ++ (List.replicate 4 (.wr (ch '@')) ++ List.replicate n .rd))).1.ph = .idle := by
    rw [mrun_append]
    exact resync ver (run_short ver ss (by rw [hi]; trivial)) (run_full ver ss (by rw [hi]; trivial)) n hn
  generalize m.run ver (ss ++ (List.replicate 4 (.wr (ch '@')) ++ List.replicate n .rd)) = q at *
  have hph := h1.ph
  rw [hidle] at hph
  refine ⟨hph.1, q.1.w, h1.w.log.symm, h1.w.limit.symm, fun ts hts bs hb => ?_⟩
  obtain ⟨h3, h4⟩ := run_rel h.hver hb h1
  obtain ⟨l, hs⟩ := script_run ver ts q.1 hidle hts
  rw [hs] at h3 h4
  exact ⟨h4, h3.w.log⟩

example : Performs (accs ([.wr (ch 'L'), .wr 1, .rd] ++ (List.replicate 4 (.wr (ch '@')) ++ List.replicate 48 .rd)))
    ([.wr (ch 'L'), .wr 1, .rd] ++ (List.replicate 4 (.wr (ch '@')) ++ List.replicate 48 .rd)) ∧
    ver1.length + 43 ≤ 48 := ⟨accs_ok _, by decide +kernel⟩

/-- The documentation says that `@` resets the interface.  When a command waits for an argument it is
taken as that argument (here: printed)... -/
theorem c85_false_reset_args :
    (sim1.run (accs [.wr (ch 'p'), .wr (ch '@')])).1.log = [.con (ch '@')] := by
  decide +kernel

/-- ... and while an answer is given it is ignored: the interface does not answer the next command -/
theorem c85_false_reset_answer :
    (sim1.run (accs [.wr (ch 'V'), .wr (ch '@'), .wr (ch '_'), .rd])).2 = [6] := by
  decide +kernel

end Ucsim.Simif
