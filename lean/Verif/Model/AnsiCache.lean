import Verif.Model.Color

/-!
# The cached property `Color.ansi` and the colour space of the terminal

`functools.cached_property` stores the first value in the object; `Color.ansi`
(`color.py:268-269`) reads `terminal.color_space` (`terminal.py:93-110`) only then.
-/

namespace Slate
open Py

/-- A `Color` object: its value and the stored `ansi`, if any. -/
structure ColorObj where
  color : Color
  memo : Option Str := none

/-- The colour space part of the terminal: the override and what the system reports. -/
structure SpaceState where
  forced : Option ColorSpace := none
  sys : ColorSpace := .trueColor

/-- `Terminal.color_space` (`terminal.py:93-103`). -/
def SpaceState.get (s : SpaceState) : ColorSpace :=
  match s.forced with
  | some c => c
  | none => s.sys

/-- `Terminal.color_space` setter (`terminal.py:105-110`), without the listeners. -/
def SpaceState.set (s : SpaceState) (new : Option ColorSpace) : SpaceState := { s with forced := new }

/-- Colour objects and the terminal. -/
structure ColorWorld where
  term : SpaceState := {}
  objs : List ColorObj := []

/-- What can be done: override the colour space, make a colour, read `ansi` of an object. -/
inductive ColorOp where
  | setSpace (new : Option ColorSpace)
  | make (c : Color)
  | use (i : Nat)

/-- Reading the cached property (`color.py:268-323`) of object `i`. -/
def ColorWorld.useObj (grey : Nat → Nat → Nat → Nat) (w : ColorWorld) (i : Nat) : ColorWorld × Option Str :=
  match w.objs[i]? with
  | none => (w, none)
  | some o =>
    match o.memo with
    | some s => (w, some s)
    | none =>
      let s := o.color.ansi { space := w.term.get, grey := grey }
      ({ w with objs := w.objs.set i { o with memo := some s } }, some s)

/-- One step of a history. -/
def ColorWorld.step (grey : Nat → Nat → Nat → Nat) (w : ColorWorld) : ColorOp → ColorWorld
  | .setSpace new => { w with term := w.term.set new }
  | .make c => { w with objs := w.objs ++ [{ color := c }] }
  | .use i => (w.useObj grey i).1

/-- A history. -/
def ColorWorld.run (grey : Nat → Nat → Nat → Nat) (w : ColorWorld) (ops : List ColorOp) : ColorWorld :=
  ops.foldl (ColorWorld.step grey) w

end Slate
