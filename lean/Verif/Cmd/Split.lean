/-!
Model of command lines: /repo/src/core/cmd.src/command.cc, class `cl_cmdline` (52-779),
`cl_cmd::name_match` (822-857), `cl_cmdset::get_cmd` (997-1023), `cl_super_cmd::work`
(1097-1128), and `cl_console_base::proc_input` (newcmd.cc 660-750).

Texts are C strings: lists of characters without NUL.  Reading past the terminator of a
string (undefined in C++) is `none`.  Simplifications: `strtol` is the one of C99 (glibc
2.38 also takes `0b`, but `split` handles that prefix itself); `$(..)` is scanned but its
result is thrown away by the code, so only its error message is kept.
-/
namespace Ucsim.Cmd

abbrev Text := List Char

/-- The delimiters `" \t\v\r,"` (command.cc 87, 104). -/
def isDelim (c : Char) : Bool := c == ' ' || c == '\t' || c == '\x0b' || c == '\r' || c == ','
/-- The characters that end a word: `" \t\v\r,;#"` (command.cc 128, 160). -/
def isEnd (c : Char) : Bool := isDelim c || c == ';' || c == '#'
/-- The characters that end the file name of a redirection (command.cc 427). -/
def isFileEnd (c : Char) : Bool := isDelim c || c == ';'

/-- `skip_delims` (command.cc 83-90). -/
def skipDelims (s : Text) : Text := s.dropWhile isDelim

/-- Digit of `strtol`. -/
def digVal (c : Char) : Nat :=
  if '0' ≤ c && c ≤ '9' then c.toNat - 48
  else if 'a' ≤ c && c ≤ 'z' then c.toNat - 87
  else if 'A' ≤ c && c ≤ 'Z' then c.toNat - 55
  else 99

def isDig (c : Char) : Bool := '0' ≤ c && c ≤ '9'

/-- Value of the leading digits of a base. -/
def digits (base : Nat) (s : Text) : Nat :=
  (s.takeWhile (fun c => digVal c < base)).foldl (fun a c => base * a + digVal c) 0

/-- What `strtol(s, 0, 0)` reads after the sign. -/
def strtolAbs (s : Text) : Nat :=
  match s with
  | '0' :: 'x' :: c :: t => if digVal c < 16 then digits 16 (c :: t) else 0
  | '0' :: 'X' :: c :: t => if digVal c < 16 then digits 16 (c :: t) else 0
  | '0' :: t => digits 8 ('0' :: t)
  | s => digits 10 s

/-- The range of `long`. -/
def clamp (n : Int) : Int :=
  if n < -9223372036854775808 then -9223372036854775808
  else if 9223372036854775807 < n then 9223372036854775807 else n

/-- `strtol(s, 0, 0)`; no word starts with white space. -/
def strtol (s : Text) : Int :=
  match s with
  | '-' :: t => clamp (- (strtolAbs t : Int))
  | '+' :: t => clamp (strtolAbs t)
  | s => clamp (strtolAbs s)

/-- A value of `long` after shifts that may overflow. -/
def wrap (n : Nat) : Int := Int.bmod n (2 ^ 64)

/-- Binary numbers (command.cc 187-193): the digits after `0b`. -/
def binary (s : Text) : Int :=
  wrap ((s.takeWhile (fun c => c == '0' || c == '1')).foldl (fun a c => 2 * a + (if c == '0' then 0 else 1)) 0)

/-- Arguments of commands (argcl.h 98-186). -/
inductive Arg
  | int (n : Int)
  | sym (s : Text)
  | str (s : Text)
  /-- `cl_cmd_bit_arg(sfr, lo, NULL)` -/
  | bit (sfr lo : Arg)
  /-- `cl_cmd_bit_arg(sfr, lo, hi)` -/
  | bits (sfr lo hi : Arg)
  | array (name idx : Arg)
  deriving DecidableEq, Repr

/-- The messages of `cl_cmdline`. -/
inductive Err
  | unterminatedString | incompleteBit | incompleteArray | missingBracket | incompleteIndex | unbalanced
  deriving DecidableEq, Repr

/-- What a command line does while it is split. -/
inductive Out
  | err (e : Err)
  | redirect (file : Text) (append : Bool)
  deriving DecidableEq, Repr

/-- The part of a text before the first `c`, and the part after it when there is a `c`. -/
def cut (c : Char) : Text → Text × Option Text
  | [] => ([], none)
  | d :: s => if d = c then ([], some s) else ((d :: (cut c s).1), (cut c s).2)

/-- Number or name: `strchr("0123456789", *s)` also finds the terminator of an empty
string (command.cc 294, 329, 350, 389). -/
def part (s : Text) : Arg :=
  match s with
  | [] => .int (strtol [])
  | c :: t => if isDig c then .int (strtol (c :: t)) else .sym (c :: t)

/-- `add_bit(dot, colon, sfr)` (command.cc 263-313): `a` is the text at `dot`; `col` tells
whether `colon` is the first `:` of it or NULL. -/
def addBit (a : Text) (col : Bool) (sfr : Arg) : List Arg × List Out :=
  match (if col then cut ':' a else (a, none)) with
  | (lo, none) => if lo = [] then ([], [.err .incompleteBit]) else ([.bit sfr (part lo)], [])
  | (hi, some b) =>
    match cut ']' b with
    | (_, none) => ([], [.err .incompleteBit])
    | (lo, some _) => if hi = [] then ([], [.err .incompleteBit]) else ([.bits sfr (part lo) (part hi)], [])

/-- `split_out_array` (command.cc 341-407): `p` before the `[`, `a` after it. -/
def arrayArg (p a : Text) : List Arg × List Out :=
  if a = [] then ([], [.err .incompleteArray])
  else match cut ']' a with
    | (_, none) => ([], [.err .missingBracket])
    | (idx, some q) =>
      if idx = [] then ([], [.err .incompleteIndex])
      else match q with
        | '.' :: b => addBit b true (.array (part p) (part idx))
        | '[' :: b => addBit b true (.array (part p) (part idx))
        | _ => ([.array (part p) (part idx)], [])

/-- The kind of a word (command.cc 170-207). -/
def wordArg (w : Text) : List Arg × List Out :=
  match cut '[' w with
  | (p, some a) =>
    match a.dropWhile (fun c => c != ']' && c != ':') with
    | ':' :: _ => addBit a true (part p)
    | _ => arrayArg p a
  | (_, none) =>
    match cut '.' w with
    | (c :: p, some a) => addBit a false (part (c :: p))
    | _ =>
      match w with
      | '0' :: 'b' :: t => ([.int (binary t)], [])
      | c :: t => if isDig c || c == '-' || c == '+' then ([.int (strtol (c :: t))], []) else ([.sym (c :: t)], [])
      | [] => ([.int (strtol [])], [])

/-- State of `expand_commands`: were `start` and `end` set, and `level`. -/
structure Expand where
  started : Bool := false
  ended : Bool := false
  level : Int := 0
  deriving DecidableEq, Repr

/-- The loop of `expand_commands` (command.cc 493-515). -/
def expandLoop (x : Expand) : Text → Option Expand
  | [] => some x
  | '\\' :: [] => none
  | '\\' :: _ :: s => expandLoop x s
  | '$' :: [] => none
  | '$' :: '(' :: [] => expandLoop { x with level := x.level + 1 } []
  | '$' :: '(' :: c :: s =>
    if x.level = 0 then expandLoop { x with started := true, level := x.level + 1 } s
    else expandLoop { x with level := x.level + 1 } (c :: s)
  | '$' :: _ :: s => expandLoop x s
  | ')' :: s =>
    expandLoop { x with level := x.level - 1, ended := x.ended || (x.level - 1 == 0) } s
  | _ :: s => expandLoop x s

/-- `expand_commands` (command.cc 484-530): only its message has an effect. -/
def expand (s : Text) : Option (List Out) :=
  match expandLoop {} s with
  | none => none
  | some x =>
    if !x.started && !x.ended then some []
    else if !x.started || !x.ended || x.level != 0 then some [.err .unbalanced]
    else some []

/-- The body of a string and what follows it, starting with the closing quote if there is
one (command.cc 217-230). -/
def scanStr : Text → Text × Text
  | [] => ([], [])
  | '"' :: s => ([], '"' :: s)
  | '\\' :: [] => (['\\'], [])
  | '\\' :: c :: s => ('\\' :: c :: (scanStr s).1, (scanStr s).2)
  | c :: s => (c :: (scanStr s).1, (scanStr s).2)

/-- Where the loop of `token_length` leaves a quoted token (command.cc 414-425): a
backslash makes it go on three characters later.  `none`: past the terminator. -/
def quoted : Text → Option Text
  | [] => none
  | '"' :: s => some s
  | '\\' :: _ :: _ :: s => quoted s
  | '\\' :: _ => none
  | _ :: s => quoted s

/-- The escapes of `get_token` (command.cc 451-467). -/
def tokenEsc (c : Char) : Char :=
  if c == 'a' then '\x07' else if c == 'b' then '\x08' else if c == 'e' then '\x1b' else if c == 'f' then '\x0c'
  else if c == 'n' then '\n' else if c == 'r' then '\r' else if c == 't' then '\t' else if c == 'v' then '\x0b' else c

/-- The loop of `get_token` on a quoted token (command.cc 443-473). `none`: past the
terminator. -/
def getQuoted : Text → Option Text
  | [] => some []
  | '"' :: _ => some []
  | '\\' :: [] => none
  | '\\' :: c :: s => (getQuoted s).map (tokenEsc c :: ·)
  | c :: s => (getQuoted s).map (c :: ·)

/-- What splitting has collected. -/
structure Acc where
  params : List Arg := []
  tokens : List Text := []
  outs : List Out := []
  deriving DecidableEq, Repr

/-- `split_out_output_redirection` (command.cc 250-260): `s` is the name of the file. -/
def redirectTo (app : Bool) (s : Text) (a : Acc) : Option (Text × Acc) :=
  match s with
  | '"' :: t =>
    match quoted t, getQuoted t with
    | some e, some f => some (e, { a with outs := a.outs ++ [.redirect f app] })
    | _, _ => none
  | s =>
    some (s.dropWhile (fun c => !isFileEnd c),
      { a with outs := a.outs ++ [.redirect (s.takeWhile (fun c => !isFileEnd c)) app] })

/-- `split_out_output_redirection` (command.cc 237-249): `s` after the `>`. -/
def redirection (s : Text) (a : Acc) : Option (Text × Acc) :=
  match s with
  | '>' :: t => redirectTo true t a
  | s => redirectTo false s a

/-- One round of the loop of `split` (command.cc 153-211) at an argument. -/
def argStep (s : Text) (a : Acc) : Option (Text × Acc) :=
  match s with
  | '"' :: t =>
    match expand (scanStr t).1 with
    | none => none
    | some o =>
      let u := match (scanStr t).2 with
        | '"' :: _ => []
        | _ => [Out.err .unterminatedString]
      some ((scanStr t).2.drop 1,
        { params := a.params ++ [.str (scanStr t).1], tokens := a.tokens ++ [(scanStr t).1], outs := a.outs ++ u ++ o })
  | '>' :: t => redirection t a
  | s =>
    let w := s.takeWhile (fun c => !isEnd c)
    match expand w with
    | none => none
    | some o =>
      some (s.dropWhile (fun c => !isEnd c),
        { params := a.params ++ (wordArg w).1, tokens := a.tokens ++ [w], outs := a.outs ++ o ++ (wordArg w).2 })

/-- The loop of `split` (command.cc 144-211): the text where it stopped, with a `#` or `;`
in front, or empty.  Every round takes a character, `fuel` is the length of the text. -/
def argLoop : Nat → Text → Acc → Option (Text × Acc)
  | 0, s, a => some (s, a)
  | _ + 1, [], a => some ([], a)
  | n + 1, c :: s, a =>
    if c = '#' || c = ';' then some (c :: s, a)
    else match argStep (c :: s) a with
      | none => none
      | some (t, b) => argLoop n (skipDelims t) b

/-- A command line (commandcl.h 52-62).  `cmd` is what is left of the text, `rest` what
follows the `;`. -/
structure Line where
  name : Option Text := none
  cmd : Text := []
  rest : Option Text := none
  params : List Arg := []
  tokens : List Text := []
  outs : List Out := []
  deriving DecidableEq, Repr

/-- `rest= start+1` at a `;`. -/
def restOf (tail : Text) : Option Text :=
  match tail with
  | ';' :: t => some t
  | _ => none

/-- `*start= 0`. -/
def cutAt (text tail : Text) : Text := text.take (text.length - tail.length)

/-- `split` (command.cc 92-213). -/
def split (text : Text) : Option Line :=
  match text with
  | [] => some { name := some ['\n'] }
  | text =>
    match skipDelims text with
    | [] => some { cmd := text }
    | '\n' :: _ => some { name := some ['\n'], cmd := text }
    | '#' :: t => some { cmd := cutAt text ('#' :: t) }
    | ';' :: t => some { cmd := cutAt text (';' :: t), rest := some t }
    | s =>
      let n := s.takeWhile (fun c => !isEnd c)
      let r := skipDelims (s.dropWhile (fun c => !isEnd c))
      match argLoop r.length r {} with
      | none => none
      | some (tail, a) =>
        some { name := some n, cmd := cutAt text tail, rest := restOf tail,
               params := a.params, tokens := a.tokens, outs := a.outs }

/-- `shift` (command.cc 532-557): the line and `have_real_name()`.  `none` is
`strcmp(NULL, ..)` or undefined behaviour of `split`. -/
def shift (l : Line) : Option (Line × Bool) :=
  match skipDelims l.cmd with
  | [] => some ({ l with name := none, params := [], tokens := [] }, false)
  | s =>
    let p := skipDelims (s.dropWhile (fun c => !isEnd c))
    match split p with
    | none => none
    | some m =>
      match m.name with
      | none => none
      | some n =>
        let nm := if n = ['\n'] then none else some n
        some ({ m with name := nm, rest := m.rest.or l.rest, outs := l.outs ++ m.outs },
              nm.isSome)

/-- A command (commandcl.h 93-101); `super` ones have subcommands (`cl_super_cmd`); the
command `commands` takes the rest of the line for itself (cmd_bp.cc 411-466). -/
structure Command where
  names : List Text
  canRepeat : Bool := false
  super : Bool := false
  takesRest : Bool := false
  deriving DecidableEq, Repr

/-- `name_match` (command.cc 822-850). -/
def nameMatch (c : Command) (name : Option Text) (strict : Bool) : Bool :=
  match name with
  | none => c.names = []
  | some n => if strict then c.names.any (n == ·) else c.names.any (fun m => n.isPrefixOf m)

/-- The first command with a property, from index `i`. -/
def firstWith (p : Command → Bool) : Nat → List Command → Option Nat
  | _, [] => none
  | i, c :: cs => if p c then some i else firstWith p (i + 1) cs

/-- The loop over inexact matches (command.cc 1009-1019). -/
def matchLoop (name : Option Text) : Nat → List Command → Option Nat → Option Nat
  | _, [], m => m
  | i, c :: cs, m =>
    if nameMatch c name false then
      match m with
      | none => matchLoop name (i + 1) cs (some i)
      | some _ => none
    else matchLoop name (i + 1) cs m

/-- `cl_cmdset::get_cmd(cmdline, ..)` (command.cc 994-1022): the index of the command. -/
def getCmd (set : List Command) (name : Option Text) : Option Nat :=
  match firstWith (fun c => nameMatch c name true) 0 set with
  | some i => some i
  | none => matchLoop name 0 set none

/-- The commands: the set at the top is `tree []`, the subcommands of the `i`-th command
of the set at `p` are `tree (p ++ [i])`. -/
abbrev Tree := List Nat → List Command

/-- What the console does with a command line; commands are named by their path. -/
inductive Act
  /-- `cmd->work(app, cmdline, con)` of a command without subcommands -/
  | work (path : List Nat) (l : Line)
  /-- the list of subcommands is printed -/
  | list (path : List Nat)
  /-- `Undefined subcommand` -/
  | undefined (path : List Nat) (name : Option Text)
  /-- `application->eval(cmdline->cmd)` and print the result -/
  | eval (text : Text)
  deriving DecidableEq, Repr

/-- `_no_parameters_` -/
def noParams : Text := "_no_parameters_".toList

/-- `cl_cmd::work` and `cl_super_cmd::work` (command.cc 1096-1128) of the command `c` at
`path`: what is done, and what is left in `cmdline->rest`.  The line is shorter after
every `shift`, `fuel` is its length.  The command for `_no_parameters_` has no
subcommands. -/
def workCmd (tree : Tree) : Nat → List Nat → Command → Line → Option (Act × Option Text)
  | fuel, path, c, l =>
    if c.super then
      match shift l with
      | none => none
      | some (m, false) =>
        match firstWith (fun d => nameMatch d (some noParams) true) 0 (tree path) with
        | some j => some (.work (path ++ [j]) m, m.rest)
        | none => some (.list path, m.rest)
      | some (m, true) =>
        match getCmd (tree path) m.name, fuel with
        | some j, n + 1 =>
          match (tree path)[j]? with
          | some d => workCmd tree n (path ++ [j]) d m
          | none => some (.undefined path m.name, m.rest)
        | _, _ => some (.undefined path m.name, m.rest)
    else some (.work path l, l.rest)

/-- What one round of the loop of `proc_input` does. -/
structure Round where
  acts : List Act
  /-- `cmdline->rest` -/
  rest : Option Text
  /-- `last_command`, an index of the top set -/
  last : Option Nat
  deriving DecidableEq, Repr

/-- One round of the loop of `proc_input` (newcmd.cc 694-736). -/
def round (tree : Tree) (inter : Bool) (last : Option Nat) (l : Line) : Option Round :=
  let rep := l.name = some ['\n'] ∧ inter = true ∧ last.isSome
  let cm := if rep then last else getCmd (tree []) l.name
  let last' := if rep then last else none
  match cm.bind (fun i => ((tree [])[i]?).map (fun c => (i, c))) with
  | some (i, c) =>
    match workCmd tree l.cmd.length [i] c l with
    | none => none
    | some (a, rest) => some { acts := [a], rest := if c.takesRest then none else rest, last := if c.canRepeat then some i else last' }
  | none =>
    some { acts := if l.name.isSome && !l.cmd.isEmpty then [.eval l.cmd] else [], rest := l.rest, last := last' }

/-- The loop of `proc_input`: the text of every round is shorter than the one before,
`fuel` is its length. -/
def procLoop (tree : Tree) (inter : Bool) : Nat → Text → Option Nat → Option (List Act × Option Nat)
  | fuel, text, last =>
    match split text with
    | none => none
    | some l =>
      match round tree inter last l with
      | none => none
      | some r =>
        match r.rest, fuel with
        | some (c :: t), n + 1 =>
          match procLoop tree inter n (c :: t) r.last with
          | none => none
          | some q => some (r.acts ++ q.1, q.2)
        | _, _ => some (r.acts, r.last)

/-- What `proc_input` does with a line read (newcmd.cc 660-750): a frozen console only
stops the simulation; a line that starts with `^D` ends the console. -/
inductive Input
  | stopSim
  | quit
  | acts (a : List Act) (last : Option Nat)
  deriving DecidableEq, Repr

/-- `proc_input` (newcmd.cc 677-737). -/
def procInput (tree : Tree) (inter frozen : Bool) (text : Text) (last : Option Nat) : Option Input :=
  if frozen then some .stopSim
  else if text.head? = some '\x04' then some .quit
  else (procLoop tree inter text.length text last).map (fun r => .acts r.1 r.2)

/-- The value `proc_input` returns: every command overwrites it (newcmd.cc 713), 0 if no
command was run.  The console is closed when it is not 0. -/
def retval (ret : List Nat → Line → Int) : List Act → Int → Int
  | [], r => r
  | .work i l :: as, _ => retval ret as (ret i l)
  | .list _ :: as, _ => retval ret as 0
  | .undefined _ _ :: as, _ => retval ret as 0
  | .eval _ :: as, r => retval ret as r

end Ucsim.Cmd
