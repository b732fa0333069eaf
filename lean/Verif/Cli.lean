import Verif.Pipeline
/-!
# The command line parser, `__main__.py:13-70`

`get_parser` builds an `argparse` parser.  The part of `argparse` used by it is modelled after CPython 3.11
(`Lib/argparse.py`, cited as `argparse`): options that take one value, `-h`/`--help`, at most one positional argument
(`nargs` absent or `"+"`) and subparsers.  Messages and help texts are not modelled, only whether they are printed: a
usage error ends the process with status 2, a help text with status 0.
-/

namespace Verif
namespace Cli
open Tools

/-- An argument of the command line. -/
abbrev Word := List Char

/-- `add_argument(*strings, required=...)`: an option that takes one value. -/
structure Opt where
  strings : List Word
  dest : String
  required : Bool
  deriving DecidableEq, Repr

/-- What an option string stands for. -/
inductive Action where
  | help
  | store (o : Opt)
  deriving DecidableEq, Repr

/-- `nargs` of a positional argument: absent, or `"+"`. -/
inductive NArgs where
  | one | many
  deriving DecidableEq, Repr

structure Positional where
  dest : String
  nargs : NArgs
  deriving DecidableEq, Repr

/-- A parser with `-h`/`--help`, options and at most one positional argument. -/
structure Parser where
  opts : List Opt
  pos : Option Positional
  deriving DecidableEq, Repr

/-- `_option_string_actions` in the order of insertion; `-h` and `--help` come first. -/
def Parser.table (p : Parser) : List (Word × Action) :=
  ("-h".toList, Action.help) :: ("--help".toList, Action.help) :: p.opts.flatMap (fun o => o.strings.map (fun s => (s, Action.store o)))

/-- Looking up an option string. -/
def find (m : List (Word × Action)) (s : Word) : Option Action := (m.find? (fun e => e.1 == s)).map (·.2)

/-- An option found in a word: the action (`none`: unknown option), the option string, and the explicit value with whether
it was separated by `=`. -/
structure Tuple where
  action : Option Action
  str : Word
  explicit : Option (Bool × Word)
  deriving DecidableEq, Repr

/-- `s.partition('=')`: what comes before, and what comes after if there is a `=`. -/
def partEq (w : Word) : Word × Option Word :=
  (w.takeWhile (· != '='), match w.dropWhile (· != '=') with
    | [] => none
    | _ :: r => some r)

/-- `_get_option_tuples`, `argparse:2300-2340`. -/
def optionTuples (m : List (Word × Action)) (w : Word) : List Tuple :=
  match w with
  | '-' :: '-' :: _ =>
    let p := partEq w
    (m.filter (fun e => p.1.isPrefixOf e.1)).map (fun e => ⟨some e.2, e.1, p.2.map (fun v => (true, v))⟩)
  | '-' :: c :: r =>
    m.filterMap (fun e =>
      if e.1 == ['-', c] then some ⟨some e.2, e.1, some (false, r)⟩
      else if w.isPrefixOf e.1 then some ⟨some e.2, e.1, none⟩
      else none)
  | _ => []

/-- `_negative_number_matcher`, `^-\d+$|^-\d*\.\d+$` (`$` also matches before a final newline; digits are those of ASCII
here). -/
def negativeNumber (w : Word) : Bool :=
  match w with
  | '-' :: r =>
    let r := if r.getLast? = some '\n' then r.dropLast else r
    (!r.isEmpty && r.all Char.isDigit) ||
    (match r.dropWhile Char.isDigit with
     | '.' :: t => !t.isEmpty && t.all Char.isDigit
     | _ => false)
  | _ => false

/-- How a word is classified: `A`, `-` or `O` of the pattern (`argparse:1934-1960`). -/
inductive Cls where
  | arg
  | dashes
  | opt (t : Tuple)
  deriving DecidableEq, Repr

/-- `_parse_optional`, `argparse:2243-2298`; `none` if the option is ambiguous, which ends the process. -/
def parseOptional (m : List (Word × Action)) (w : Word) : Option Cls :=
  match w with
  | [] => some .arg
  | c :: r =>
    if c ≠ '-' then some .arg
    else match find m w with
      | some a => some (.opt ⟨some a, w, none⟩)
      | none =>
        if r = [] then some .arg
        else
          let p := partEq w
          match p.2, find m p.1 with
          | some v, some a => some (.opt ⟨some a, p.1, some (true, v)⟩)
          | _, _ =>
            match optionTuples m w with
            | [t] => some (.opt t)
            | _ :: _ :: _ => none
            | [] =>
              if negativeNumber w then some .arg
              else if ' ' ∈ w then some .arg
              else some (.opt ⟨none, w, none⟩)

/-- The loop `argparse:1939-1956`: after `--` everything is an argument. -/
def classify (m : List (Word × Action)) : List Word → Option (List (Word × Cls))
  | [] => some []
  | w :: t =>
    if w = ['-', '-'] then some ((w, .dashes) :: t.map (fun v => (v, .arg)))
    else do
      let c ← parseOptional m w
      let r ← classify m t
      some ((w, c) :: r)

def Cls.isOpt : Cls → Bool
  | .opt _ => true
  | _ => false

/-- What comes of an option word. -/
inductive Step where
  /-- an unknown option -/
  | extra
  /-- a value in the same word -/
  | here (o : Opt) (v : Word)
  /-- a value in the next word -/
  | next (o : Opt) (v : Word)
  /-- the help text is printed and the process ends -/
  | help
  | error
  deriving DecidableEq, Repr

/-- Further letters after `-h`, `argparse:2010-2041`.  The help action comes first in `action_tuples`, so if all letters can be
handled the help text is printed. -/
def helpTail (m : List (Word × Action)) (next : Option Word) : Word → Step
  | [] => .error
  | c :: r =>
    if c = '-' then .error
    else match find m ['-', c], r with
      | none, _ => .help
      | some .help, [] => .help
      | some .help, x :: _ => if x = '=' then .error else helpTail m next r
      | some (.store _), [] => if next.isSome then .help else .error
      | some (.store _), _ :: _ => .help

/-- `consume_optional`, `argparse:1986-2070`; `next` is the following word if it is an argument. -/
def consumeOptional (m : List (Word × Action)) (t : Tuple) (next : Option Word) : Step :=
  match t.action, t.explicit with
  | none, _ => .extra
  | some (.store o), some (_, v) => .here o v
  | some (.store o), none =>
    match next with
    | some v => .next o v
    | none => .error
  | some .help, none => .help
  | some .help, some (sep, e) =>
    if t.str[1]? ≠ some '-' ∧ e ≠ [] then
      if sep then .error else helpTail m next e
    else .error

/-- The words matched by the positional argument at the start of the list (`-*A-*` or `-*A[A-]*`, `argparse:2342-2384`) without
the first `--` (`_get_values`, `argparse:2476-2481`), and the rest. -/
def consumePos (p : Positional) (l : List (Word × Cls)) : Option (List Word × List (Word × Cls)) :=
  let isDash := fun (e : Word × Cls) => decide (e.2 = .dashes)
  match l.dropWhile isDash with
  | (w, .arg) :: t =>
    let q := match p.nargs with
      | .one => isDash
      | .many => fun e => !e.2.isOpt
    some (((l.takeWhile isDash).map (·.1) ++ w :: (t.takeWhile q).map (·.1)).erase ['-', '-'], t.dropWhile q)
  | _ => none

/-- How parsing ends: the namespace and the words not recognised, or the process ends. -/
inductive Result where
  | done (ns : Dict (List Word)) (extras : List Word)
  | help
  | usage
  deriving DecidableEq, Repr

/-- Is the head of the list an argument? -/
def nextArg : List (Word × Cls) → Option Word
  | (v, .arg) :: _ => some v
  | _ => none

/-- The end of `_parse_known_args`, `argparse:2136-2178`: required options and positional arguments must have been seen. -/
def finish (opts : List Opt) (pos : Option Positional) (ns : Dict (List Word)) (extras : List Word) : Result :=
  if opts.any (fun o => o.required && !ns.contains o.dest) || pos.isSome then .usage else .done ns extras

/-- `consume_positionals`, `argparse:2076-2093`: `pos` is the positional argument if it has not been consumed yet. -/
def takePos (pos : Option Positional) (l : List (Word × Cls)) : Option (String × List Word × List (Word × Cls)) :=
  pos.bind (fun q => (consumePos q l).map (fun r => (q.dest, r)))

/-- What a round of the main loop leads to. -/
inductive Next where
  | go (pos : Option Positional) (ns : Dict (List Word)) (extras : List Word) (l : List (Word × Cls))
  | stop (r : Result)

/-- One round of the main loop `argparse:2102-2127` on the remaining words, or what follows the loop (`argparse:2129-2133`) if there is no
option left.  (After words that cannot be consumed the loop goes on to the option in the same round.) -/
def round (p : Parser) (pos : Option Positional) (ns : Dict (List Word)) (extras : List Word) (l : List (Word × Cls)) : Next :=
  if l.any (fun e => e.2.isOpt) then
    match l with
    | (w, .opt t) :: r =>
      match consumeOptional p.table t (nextArg r) with
      | .extra => .go pos ns (extras ++ [w]) r
      | .here o v => .go pos (ns.set o.dest [v]) extras r
      | .next o v => .go pos (ns.set o.dest [v]) extras (r.drop 1)
      | .help => .stop .help
      | .error => .stop .usage
    | _ =>
      match takePos pos l with
      | some (d, vs, r) => .go none (ns.set d vs) extras r
      | none => .go pos ns (extras ++ (l.takeWhile (fun e => !e.2.isOpt)).map (·.1)) (l.dropWhile (fun e => !e.2.isOpt))
  else
    match takePos pos l with
    | some (d, vs, r) => .stop (finish p.opts none (ns.set d vs) (extras ++ r.map (·.1)))
    | none => .stop (finish p.opts pos ns (extras ++ l.map (·.1)))

/-- The main loop `argparse:2102-2133`.  Each round consumes a word, so the fuel, the number of words, suffices. -/
def loop (p : Parser) : Nat → Option Positional → Dict (List Word) → List Word → List (Word × Cls) → Result
  | 0, pos, ns, extras, _ => finish p.opts pos ns extras
  | n + 1, pos, ns, extras, l =>
    match round p pos ns extras l with
    | .go pos ns extras l => loop p n pos ns extras l
    | .stop r => r

/-- `parse_known_args`, `argparse:1880-1913`. -/
def parseKnown (p : Parser) (ws : List Word) : Result :=
  match classify p.table ws with
  | none => .usage
  | some l => loop p l.length p.pos [] [] l

/-! ## `get_parser` -/

/-- `__main__.py:24-26`, `:38-40` -/
def outOpt : Opt := ⟨["--out".toList, "-o".toList], "out", true⟩
/-- `__main__.py:60-61`: not required -/
def outOptReport : Opt := ⟨["--out".toList, "-o".toList], "out", false⟩
/-- `__main__.py:27-28`, `:41-42`, `:62-63` -/
def inFmtOpt : Opt := ⟨["--input-format".toList, "-if".toList], "input_format", false⟩
/-- `__main__.py:29-30`, `:43-44`, `:64-65` -/
def outFmtOpt : Opt := ⟨["--output-format".toList, "-of".toList], "output_format", false⟩
/-- `__main__.py:45-46` -/
def libOpt : Opt := ⟨["--libucis".toList, "-l".toList], "libucis", false⟩

/-- `__main__.py:20-31` -/
def convertParser : Parser := ⟨[outOpt, inFmtOpt, outFmtOpt], some ⟨"input", .one⟩⟩
/-- `__main__.py:34-47` -/
def mergeParser : Parser := ⟨[outOpt, inFmtOpt, outFmtOpt, libOpt], some ⟨"db", .many⟩⟩
/-- `__main__.py:50-56` -/
def listParser : Parser := ⟨[], none⟩
/-- `__main__.py:58-66` -/
def reportParser : Parser := ⟨[outOptReport, inFmtOpt, outFmtOpt], some ⟨"db", .one⟩⟩

/-- The command to run: the default `func` of the subparser (`__main__.py:32`, `:48`, `:52`, `:56`, `:67`) with its arguments.  The option
`--libucis` of `merge` is kept although no code looks at it. -/
inductive Command where
  | convert (a : ConvertArgs)
  | merge (a : MergeArgs) (libucis : Option String)
  | listDb
  | listRpt
  | report (a : ReportArgs)

/-- The outcome of `parse_args`. -/
inductive Outcome where
  | run (c : Command)
  | help
  | usage

/-- An option of the namespace; the default is `None`. -/
def optVal (ns : Dict (List Word)) (d : String) : Option String := ((ns.get? d).bind List.head?).map String.ofList

/-- A positional argument of the namespace (always there after a successful parse). -/
def posVal (ns : Dict (List Word)) (d : String) : List String := ((ns.get? d).getD []).map String.ofList

/-- The subparsers by name, with the command built from the namespace. -/
def subparser (name : Word) : Option (Parser × (Dict (List Word) → Command)) :=
  if name = "convert".toList then
    some (convertParser, fun ns => .convert ⟨optVal ns "input_format", optVal ns "output_format", (posVal ns "input").headD "", (optVal ns "out").getD ""⟩)
  else if name = "merge".toList then
    some (mergeParser, fun ns => .merge ⟨optVal ns "input_format", optVal ns "output_format", posVal ns "db", (optVal ns "out").getD ""⟩ (optVal ns "libucis"))
  else if name = "list-db-formats".toList then some (listParser, fun _ => .listDb)
  else if name = "list-rpt-formats".toList then some (listParser, fun _ => .listRpt)
  else if name = "report".toList then
    some (reportParser, fun ns => .report ⟨optVal ns "input_format", optVal ns "output_format", (posVal ns "db").headD "", optVal ns "out"⟩)
  else none

/-- `_SubParsersAction.__call__`, `argparse:1223-1254`, and the final test `argparse:1874-1878` that every word was recognised. -/
def runSub (extras : List Word) (name : Word) (rest : List Word) : Outcome :=
  match subparser name with
  | none => .usage
  | some (p, mk) =>
    match parseKnown p rest with
    | .done ns ex => if extras ++ ex = [] then .run (mk ns) else .usage
    | .help => .help
    | .usage => .usage

/-- The main loop for the top-level parser, which has only `-h`/`--help` and the positional argument of the subparsers
(`nargs=PARSER`, pattern `-*A[-AO]*`): the first argument is the name of the command and all further words go to its parser.  With `--` in front the
name would be `--`, which is no command. -/
def loopTop : List Word → List (Word × Cls) → Outcome
  | _, [] => .usage
  | extras, (w, .opt t) :: r =>
    match consumeOptional (Parser.mk [] none).table t (nextArg r) with
    | .extra => loopTop (extras ++ [w]) r
    | .help => .help
    | _ => .usage
  | extras, (w, .arg) :: r => runSub extras w (r.map (·.1))
  | _, (_, .dashes) :: _ => .usage

/-- `parser.parse_args(args=argv)`, `__main__.py:83`. -/
def parseArgs (argv : List String) : Outcome :=
  match classify (Parser.mk [] none).table (argv.map String.toList) with
  | none => .usage
  | some l => loopTop [] l

/-! ## The program -/

/-- Printing lines. -/
def printLines (x : Ext) (l : Except Err (List String)) : Cmd Unit := fun w =>
  match l with
  | .ok ls => (.ok (), { w with stdout := w.stdout ++ ls.flatMap (fun s => x.encode (s ++ "\n")) })
  | .error e => (.error e, w)

/-- `args.func(args)`, `__main__.py:87`; no command looks at `plusargs`.  (The lines of a listing are printed one after the other; an
exception cannot come between them, see `C77_listing`.) -/
def runCommand (x : Ext) : Command → Cmd Unit
  | .convert a => ucisConvert x a
  | .merge a _ => ucisMerge x a
  | .listDb => printLines x (listDbFormats (defaultRgy x))
  | .listRpt => printLines x (listReportFormats (defaultRgy x))
  | .report a => ucisReport x a

/-- `main`, `__main__.py:72-90`, with its parser.  `usage` is the help text printed. -/
def ucisMain (x : Ext) (usage : Bytes) (message : Err → Bytes) (args : List String) (w : World) : Exit × World :=
  Tools.main (fun argv =>
    match parseArgs argv with
    | .run c => some (fun _ => runCommand x c)
    | .help => some (fun _ w => (.ok (), { w with stdout := w.stdout ++ usage }))
    | .usage => none) message args w

end Cli
end Verif
