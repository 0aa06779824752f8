/-!
# Reading a stylesheet

A reader for rules `.class {property:value; property:value}`. It is independent of the code that
writes stylesheets.
-/

namespace Css

/-- A rule: the class it selects, its declarations in order. -/
structure Rule where
  cls : List Char
  decls : List (List Char × List Char)
  deriving DecidableEq, Repr

inductive Mode where
  | outside
  | selector (name : List Char)
  | gap (name : List Char)
  | prop (name : List Char)
  | value (name val : List Char)
  | bad
  deriving DecidableEq, Repr

/-- State of the reader: the rule being read, and those read before. -/
structure State where
  mode : Mode := .outside
  cur : Rule := ⟨[], []⟩
  out : List Rule := []
  deriving DecidableEq, Repr

def isSpace (c : Char) : Bool := c = ' ' || c = '\n'

/-- One character. -/
def step (s : State) (c : Char) : State :=
  match s.mode with
  | .outside => if isSpace c then s else if c = '.' then { s with mode := .selector [] } else { s with mode := .bad }
  | .selector n =>
    if isSpace c then { s with mode := .gap n }
    else if c = '{' then { s with mode := .prop [], cur := ⟨n, []⟩ }
    else { s with mode := .selector (n ++ [c]) }
  | .gap n =>
    if isSpace c then s else if c = '{' then { s with mode := .prop [], cur := ⟨n, []⟩ } else { s with mode := .bad }
  | .prop n =>
    if c = ':' then { s with mode := .value n [] }
    else if c = '}' then
      if n = [] then { mode := .outside, cur := ⟨[], []⟩, out := s.out ++ [s.cur] } else { s with mode := .bad }
    else if isSpace c then (if n = [] then s else { s with mode := .bad })
    else { s with mode := .prop (n ++ [c]) }
  | .value n v =>
    if c = ';' then { s with mode := .prop [], cur := ⟨s.cur.cls, s.cur.decls ++ [(n, v)]⟩ }
    else if c = '}' then
      { mode := .outside, cur := ⟨[], []⟩, out := s.out ++ [⟨s.cur.cls, s.cur.decls ++ [(n, v)]⟩] }
    else { s with mode := .value n (v ++ [c]) }
  | .bad => s

/-- A string. -/
def feed (s : State) (t : List Char) : State := t.foldl step s

/-- The rules of a stylesheet; `none` if it is not one. -/
def read (t : List Char) : Option (List Rule) :=
  if (feed {} t).mode = .outside then some (feed {} t).out else none

end Css
