import Verif.Py.Str

/-!
# The two regular expressions used on text

`RE_ANSI` (`core.py:162`) and `RE_ANSI_STYLES` (`span.py:46`), as explicit
matchers. Python's `re` is a leftmost backtracking matcher; the lazy `.*?` tries
the shortest body first and `.` does not match a newline.
`Lemmas/Regex.lean` proves these functions against a declarative reading of the
expressions.
-/

namespace Slate
open Py

/-! ### `RE_ANSI = (?:\x1b\[(.*?)[mH])|(?:\x1b\](.*?)\x1b\\)|(?:\x1b_G(.*?)\x1b\\)` -/

/-- `(.*?)[mH]`: the rest after the shortest such match. -/
def csiRest : Str → Option Str
  | [] => none
  | c :: cs =>
    if c = 'm' ∨ c = 'H' then some cs
    else if c = '\n' then none
    else csiRest cs

/-- `(.*?)\x1b\\`: the rest after the shortest such match. -/
def stRest : Str → Option Str
  | [] => none
  | c :: cs =>
    if ['\x1b', '\\'].isPrefixOf (c :: cs) then some (cs.drop 1)
    else if c = '\n' then none
    else stRest cs

/-- `RE_ANSI.match` at the start of the string: the rest after the match (`core.py:162`). -/
def ansiRest (s : Str) : Option Str :=
  match s with
  | '\x1b' :: '[' :: t => csiRest t
  | '\x1b' :: ']' :: t => stRest t
  | '\x1b' :: '_' :: 'G' :: t => stRest t
  | _ => none

/-- Worker of `subAnsi`: `skip` characters of the current match are dropped. -/
def subAnsiGo : Nat → Str → Str
  | _, [] => []
  | k + 1, _ :: cs => subAnsiGo k cs
  | 0, c :: cs =>
    match ansiRest (c :: cs) with
    | some rest => subAnsiGo (cs.length - rest.length) cs
    | none => c :: subAnsiGo 0 cs

/-- `RE_ANSI.sub("", s)` (`core.py:180`, `screen.py:236`). -/
def subAnsi (s : Str) : Str := subAnsiGo 0 s

/-! ### `RE_ANSI_STYLES = \x1b\[(?:(.*?))[mH]([^\x1b]+)(?=\x1b)` -/

/-- `([^\x1b]+)(?=\x1b)` at the start of the string: the greedy run of
non-escape characters must be non-empty and be followed by an escape character
(giving back characters cannot help, the next one would not be an escape). -/
def styleText (s : Str) : Option (Str × Str) :=
  let run := s.takeWhile (· != ESC)
  let rest := s.dropWhile (· != ESC)
  if run.isEmpty || rest.isEmpty then none else some (run, rest)

/-- `(.*?)[mH]([^\x1b]+)(?=\x1b)`: sequence body, text, rest. -/
def styleBody (acc : Str) : Str → Option (Str × Str × Str)
  | [] => none
  | c :: cs =>
    match (if c = 'm' ∨ c = 'H' then styleText cs else none) with
    | some (text, rest) => some (acc, text, rest)
    | none => if c = '\n' then none else styleBody (acc ++ [c]) cs

/-- `RE_ANSI_STYLES.match` at the start of the string. -/
def styleMatch (s : Str) : Option (Str × Str × Str) :=
  match s with
  | '\x1b' :: '[' :: t => styleBody [] t
  | _ => none

/-- Worker of `styleMatches`: `pos` is the current index, `skip` the number of
characters of the current match still to be passed. -/
def styleMatchesGo : Nat → Nat → Str → List (Str × Str × Nat)
  | _, _, [] => []
  | pos, k + 1, _ :: cs => styleMatchesGo (pos + 1) k cs
  | pos, 0, c :: cs =>
    match styleMatch (c :: cs) with
    | some (body, text, rest) =>
      (body, text, pos + ((c :: cs).length - rest.length)) ::
        styleMatchesGo (pos + 1) (cs.length - rest.length) cs
    | none => styleMatchesGo (pos + 1) 0 cs

/-- `RE_ANSI_STYLES.finditer(line)`: `(group 1, group 2, end)` of every match
(`span.py:354-356`). -/
def styleMatches (line : Str) : List (Str × Str × Nat) := styleMatchesGo 0 0 line

end Slate
