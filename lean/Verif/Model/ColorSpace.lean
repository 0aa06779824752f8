import Verif.Py.Str

/-!
# `ColorSpace` (`slate/core.py:183-227`)
-/

namespace Slate

/-- The members of `ColorSpace` (`core.py:191-204`). -/
inductive ColorSpace where
  | noColor
  | standard
  | eightBit
  | trueColor
  deriving DecidableEq, Repr

namespace ColorSpace

/-- `self.value` (`core.py:194-203`). -/
def value : ColorSpace → Str
  | noColor => "no_color".toList
  | standard => "standard".toList
  | eightBit => "eight_bit".toList
  | trueColor => "true_color".toList

/-- `ColorSpace(name)`: enum lookup by value, `none` is `ValueError`. -/
def ofValue (s : Str) : Option ColorSpace :=
  if s = "no_color".toList then some noColor
  else if s = "standard".toList then some standard
  else if s = "eight_bit".toList then some eightBit
  else if s = "true_color".toList then some trueColor
  else none

/-- `COLOR_SPACE_CASCADE` (`core.py:183-188`). -/
def cascade : List Str :=
  ["standard".toList, "no_color".toList, "eight_bit".toList, "true_color".toList]

/-- `COLOR_SPACE_CASCADE.index(value)`. -/
def index (c : ColorSpace) : Nat := cascade.idxOf c.value

/-- The right-hand side of a comparison: a `ColorSpace` or a `str`. -/
inductive Arg where
  | space (c : ColorSpace)
  | name (s : Str)
  deriving DecidableEq

/-- `if isinstance(other, str): other = ColorSpace(other)` (`core.py:207-208`). -/
def Arg.resolve : Arg → Option ColorSpace
  | .space c => some c
  | .name s => ofValue s

/-- `__gt__` (`core.py:206-212`). -/
def gt (self : ColorSpace) (other : Arg) : Except PyErr Bool :=
  match other.resolve with
  | none => .error .valueError
  | some o => .ok (decide (o.index < self.index))

/-- `__eq__` against a `str` or a `ColorSpace` (`core.py:214-221`). -/
def eq (self : ColorSpace) (other : Arg) : Except PyErr Bool :=
  match other.resolve with
  | none => .error .valueError
  | some o => .ok (decide (self.value = o.value))

/-- `__ge__` (`core.py:223-227`): `self > other or self == other`. -/
def ge (self : ColorSpace) (other : Arg) : Except PyErr Bool :=
  match other.resolve with
  | none => .error .valueError
  | some o =>
    match gt self (.space o) with
    | .error e => .error e
    | .ok true => .ok true
    | .ok false => eq self (.space o)

/-- `self < other`. The class defines no `__lt__`, so Python calls the reflected
`other.__gt__(self)`; `str.__gt__` does not know the enum, which is a `TypeError`. -/
def lt (self : ColorSpace) (other : Arg) : Except PyErr Bool :=
  match other with
  | .space o => gt o (.space self)
  | .name _ => .error .typeError

/-- `self <= other`, likewise reflected to `other.__ge__(self)`. -/
def le (self : ColorSpace) (other : Arg) : Except PyErr Bool :=
  match other with
  | .space o => ge o (.space self)
  | .name _ => .error .typeError

/-- `self >= other` between two members, as used by `Color.ansi` (`color.py:283`). -/
def geB (self other : ColorSpace) : Bool :=
  match ge self (.space other) with
  | .ok b => b
  | .error _ => false

end ColorSpace
end Slate
