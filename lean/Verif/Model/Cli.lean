import Verif.Model.Main
import Verif.Model.Commands

/-!
# The command line: `slate/__main__.py:100-124`

`main` with the parser it builds. The parsing is that of `argparse` of Python 3.11, for parsers whose options take no arguments
(`ArgumentParser.parse_known_args` and the methods it calls). Simplifications: the texts of the help and of the error messages are left out, and
the loop over indices is a recursion over the arguments, since no option takes any of the arguments behind it.
-/

namespace Slate
open Py

namespace Cli

/-- The actions of the options: `-h`, `-v` (`__main__.py:104`) and `--raw` (`__main__.py:110`). -/
inductive Act
  | help | version | raw
  deriving DecidableEq, Repr

/-- The commands, with the arguments of their functions (`__main__.py:108-113`). -/
inductive Cmd
  | getch (raw : Bool)
  | size
  | debug
  deriving DecidableEq, Repr

/-- How `parse_args` can end without returning: after printing the help of the program (or of a command), after printing the version, or with
an error message and exit code 2. -/
inductive Exit
  | help (command : Option Str) | version | usage
  deriving DecidableEq, Repr

/-- The options of a parser by their names: `_option_string_actions`, in the order of definition. -/
abbrev Opts := List (Str × Act)

/-- The options of the program; `-h` is added by `ArgumentParser` (`__main__.py:103-104`). -/
def topOpts : Opts :=
  [("-h".toList, .help), ("--help".toList, .help), ("-v".toList, .version), ("--version".toList, .version)]

/-- The options of `size` and `debug` (`__main__.py:112-113`). -/
def plainOpts : Opts := [("-h".toList, .help), ("--help".toList, .help)]

/-- The options of `getch` (`__main__.py:108-110`). -/
def getchOpts : Opts := plainOpts ++ [("--raw".toList, .raw)]

/-- What an argument that is an option means: nothing (it is not known), or an action, the name of its option, whether there is a `=`, and the
text behind the name. -/
inductive Meaning
  | unknown
  | known (act : Act) (name : Str) (sep : Bool) (explicit : Option Str)
  deriving DecidableEq, Repr

/-- The letters of the pattern of the arguments: `A`, `-` and `O`. -/
inductive Kind
  | arg | dashes | opt (m : Meaning)
  deriving DecidableEq, Repr

/-- `s.partition("=")`: the text before the first `=`, and the text behind it if there is one. -/
def partitionEq (s : Str) : Str × Option Str :=
  match s.dropWhile (· != '=') with
  | [] => (s, none)
  | _ :: t => (s.takeWhile (· != '='), some t)

/-- `re.match(r'^-\d+$|^-\d*\.\d+$', s)`; a line break at the end does not count. -/
def negative (s : Str) : Bool :=
  match (if endsWith s ['\n'] then s.dropLast else s) with
  | '-' :: t =>
    (!t.isEmpty && t.all isDecChar) ||
    (match t.dropWhile isDecChar with
      | '.' :: u => !u.isEmpty && u.all isDecChar
      | _ => false)
  | _ => false

/-- `_get_option_tuples`, for a text of at least two characters that begins with `-`. -/
def optionTuples (opts : Opts) (s : Str) : List Meaning :=
  if s[1]? = some '-' then
    let p := partitionEq s
    (opts.filter fun o => startsWith o.1 p.1).map fun o => .known o.2 o.1 p.2.isSome p.2
  else
    opts.filterMap fun o =>
      if o.1 = s.take 2 then some (.known o.2 o.1 false (some (s.drop 2)))
      else if startsWith o.1 s then some (.known o.2 o.1 false none)
      else none

/-- `_parse_optional`; `none` is an error (an ambiguous abbreviation). -/
def parseOptional (opts : Opts) (s : Str) : Option Kind :=
  if startsWith s ['-'] = false then some .arg
  else match opts.lookup s with
    | some a => some (.opt (.known a s false none))
    | none =>
      if s.length = 1 then some .arg
      else
        let p := partitionEq s
        match (if p.2.isSome then opts.lookup p.1 else none) with
        | some a => some (.opt (.known a p.1 true p.2))
        | none =>
          match optionTuples opts s with
          | _ :: _ :: _ => none
          | [m] => some (.opt m)
          | [] =>
            if negative s then some .arg
            else if ' ' ∈ s then some .arg
            else some (.opt .unknown)

/-- The first loop of `_parse_known_args`: what each argument is. All arguments behind `--` are positional. -/
def kinds (opts : Opts) : List Str → Option (List (Str × Kind))
  | [] => some []
  | a :: rest =>
    if a = "--".toList then some ((a, .dashes) :: rest.map fun b => (b, .arg))
    else do
      let k ← parseOptional opts a
      let ks ← kinds opts rest
      some ((a, k) :: ks)

/-- The loop of `consume_optional` over an option of one dash and the text behind it: the actions to take, and whether something is left.
`none` is an error. -/
def bundle (opts : Opts) (act : Act) (sep : Bool) : Str → Option (List Act × Bool)
  | [] => none
  | c :: t =>
    if sep || c == '-' then none
    else match opts.lookup ['-', c] with
      | none => some ([act], true)
      | some a =>
        match t with
        | [] => some ([act, a], false)
        | '=' :: u => (bundle opts a true u).map fun r => (act :: r.1, r.2)
        | d :: u => (bundle opts a false (d :: u)).map fun r => (act :: r.1, r.2)

/-- `consume_optional`: the actions, and whether something is left. -/
def consume (opts : Opts) : Meaning → Option (List Act × Bool)
  | .unknown => some ([], true)
  | .known act _ _ none => some ([act], false)
  | .known act name sep (some e) => if name[1]? = some '-' then none else bundle opts act sep e

/-- The namespace and the extra arguments: whether `raw` was set, and whether there were any. -/
structure Found where
  raw : Bool := false
  extras : Bool := false
  deriving DecidableEq, Repr

/-- `take_action` for a list of actions. -/
def takeActs (command : Option Str) : List Act → Found → Except Exit Found
  | [], f => .ok f
  | .help :: _, _ => .error (.help command)
  | .version :: _, _ => .error .version
  | .raw :: acts, f => takeActs command acts { f with raw := true }

/-- One option. -/
def takeOpt (opts : Opts) (command : Option Str) (m : Meaning) (f : Found) : Except Exit Found :=
  match consume opts m with
  | none => .error .usage
  | some (acts, extra) => takeActs command acts { f with extras := f.extras || extra }

/-- The second loop, for a parser without positional arguments. -/
def walkSub (opts : Opts) (command : Str) : List (Str × Kind) → Found → Except Exit Found
  | [], f => .ok f
  | (_, .opt m) :: rest, f => do
    let f ← takeOpt opts (some command) m f
    walkSub opts command rest f
  | _ :: rest, f => walkSub opts command rest { f with extras := true }

/-- `parse_known_args` of a command. -/
def parseSub (opts : Opts) (command : Str) (args : List Str) : Except Exit Found :=
  match kinds opts args with
  | none => .error .usage
  | some ks => walkSub opts command ks {}

/-- The action of the subparsers (`__main__.py:106-113`): the command, and whether arguments are left. -/
def runSub (command : Str) (args : List Str) : Except Exit (Cmd × Bool) :=
  if command = "getch".toList then do
    let f ← parseSub getchOpts command args
    .ok (.getch f.raw, f.extras)
  else if command = "size".toList then do
    let f ← parseSub plainOpts command args
    .ok (.size, f.extras)
  else if command = "debug".toList then do
    let f ← parseSub plainOpts command args
    .ok (.debug, f.extras)
  else .error .usage

/-- The second loop of the program's parser. The first positional argument and everything behind it goes to the subparsers. Behind `--`
the name of the command would be `--`, which is not one. -/
def walkTop : List (Str × Kind) → Found → Except Exit (Cmd × Bool)
  | [], _ => .error .usage
  | (a, .arg) :: rest, f => do
    let (c, extra) ← runSub a (rest.map (·.1))
    .ok (c, f.extras || extra)
  | (_, .dashes) :: _, _ => .error .usage
  | (_, .opt m) :: rest, f => do
    let f ← takeOpt topOpts none m f
    walkTop rest f

/-- `parse_args` (`__main__.py:115`). -/
def parseArgs (args : List Str) : Except Exit Cmd :=
  match kinds topOpts args with
  | none => .error .usage
  | some ks =>
    match walkTop ks {} with
    | .error e => .error e
    | .ok (_, true) => .error .usage
    | .ok (c, false) => .ok c

/-- `main` (`__main__.py:100-124`): how it exits, or what it prints. `run` gives what the function of a command prints. -/
def main (run : Cmd → Str) (args : List Str) : Except Exit Str := do
  let c ← parseArgs args
  .ok (['\n'] ++ run c ++ ['\n'])

end Cli
end Slate
