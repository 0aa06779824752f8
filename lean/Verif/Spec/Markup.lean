/-!
# Reading a sequence of XML elements

A reader for a flat sequence of elements `<name a='v' b='w'>text</name>`: attribute values in
single quotes, no nesting. It is independent of the code that writes SVG. Everything else is an error.
-/

namespace Markup

/-- An element. `body` is character data, still encoded. -/
structure Elem where
  name : List Char := []
  attrs : List (List Char × List Char) := []
  body : List Char := []
  deriving DecidableEq, Repr

/-- The value of an attribute. -/
def Elem.get (e : Elem) (key : List Char) : Option (List Char) := e.attrs.lookup key

inductive Mode where
  | outside
  | tagName
  | inTag
  | attrName (name : List Char)
  | attrEq (name : List Char)
  | attrVal (name val : List Char)
  | body
  | less
  | closeName (name : List Char)
  | bad
  deriving DecidableEq, Repr

/-- State of the reader: the element being read, and those read before. -/
structure State where
  mode : Mode := .outside
  cur : Elem := {}
  out : List Elem := []
  deriving DecidableEq, Repr

/-- One character. -/
def step (s : State) (c : Char) : State :=
  match s.mode with
  | .outside => if c = '<' then { s with mode := .tagName, cur := {} } else { s with mode := .bad }
  | .tagName =>
    if c = ' ' then { s with mode := .inTag }
    else if c = '>' then { s with mode := .body }
    else { s with cur := { s.cur with name := s.cur.name ++ [c] } }
  | .inTag =>
    if c = ' ' then s
    else if c = '>' then { s with mode := .body }
    else { s with mode := .attrName [c] }
  | .attrName n => if c = '=' then { s with mode := .attrEq n } else { s with mode := .attrName (n ++ [c]) }
  | .attrEq n => if c = '\'' then { s with mode := .attrVal n [] } else { s with mode := .bad }
  | .attrVal n v =>
    if c = '\'' then { s with mode := .inTag, cur := { s.cur with attrs := s.cur.attrs ++ [(n, v)] } }
    else if c = '<' then { s with mode := .bad }
    else { s with mode := .attrVal n (v ++ [c]) }
  | .body => if c = '<' then { s with mode := .less } else { s with cur := { s.cur with body := s.cur.body ++ [c] } }
  | .less => if c = '/' then { s with mode := .closeName [] } else { s with mode := .bad }
  | .closeName n =>
    if c = '>' then
      if n = s.cur.name then { mode := .outside, cur := {}, out := s.out ++ [s.cur] } else { s with mode := .bad }
    else { s with mode := .closeName (n ++ [c]) }
  | .bad => s

/-- A string. -/
def feed (s : State) (t : List Char) : State := t.foldl step s

/-- The elements of a string; `none` if it is not a sequence of elements. -/
def read (t : List Char) : Option (List Elem) :=
  if (feed {} t).mode = .outside then some (feed {} t).out else none

/-- A colour of the form `#RRGGBB`. -/
def isColour (t : List Char) : Bool :=
  match t with
  | '#' :: ds => ds.length = 6 && ds.all fun c =>
      ('0' ≤ c && c ≤ '9') || ('a' ≤ c && c ≤ 'f') || ('A' ≤ c && c ≤ 'F')
  | _ => false

end Markup
