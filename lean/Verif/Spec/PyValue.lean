import Verif.Spec.PyExpr
import Verif.Model.Span

/-!
# The values of Python expressions

What `Color(…)` and `Span(…)` are for given arguments: keywords must be known and must not be
repeated, everything that is not given has the default value.
-/

namespace PyExpr
open Slate

/-- `True` and `False`. -/
def boolOf : Expr → Option Bool
  | .name s => if s = "True".toList then some true else if s = "False".toList then some false else none
  | _ => none

/-- A string. -/
def strOf : Expr → Option (List Char)
  | .str s => some s
  | _ => none

/-- A decimal number without sign. -/
def natOf : Expr → Option Nat
  | .num s => if s ≠ [] ∧ s.all isDecimal then some (s.foldl (fun n c => n * 10 + (c.toNat - 48)) 0) else none
  | _ => none

/-- Three integers. -/
def rgbOf : Expr → Option (Nat × Nat × Nat)
  | .tuple [a, b, c] => do some (← natOf a, ← natOf b, ← natOf c)
  | _ => none

/-- A number; `val` says what a numeric literal is worth. -/
def ratOf (val : List Char → Option Rat) : Expr → Option Rat
  | .num s => val s
  | _ => none

/-- The arguments of a call as a list of keywords and values, after the `n` positional ones; keywords must not
be repeated. -/
def keywords (args : List (Option (List Char) × Expr)) : Option (List (List Char × Expr)) := do
  let kws ← args.mapM fun a => a.1.map fun k => (k, a.2)
  if (kws.map (·.1)).Nodup then some kws else none

/-- `Color(rgb=…, is_background=…, alpha=…)` for these keywords. Channels that are no bytes are errors. -/
def colorKw (val : List Char → Option Rat) (kws : List (List Char × Expr)) : Option Color :=
  if kws.any (fun a => !["rgb".toList, "is_background".toList, "alpha".toList].contains a.1) then none
  else
    match (kws.lookup "rgb".toList).bind rgbOf,
      ((kws.lookup "is_background".toList).map boolOf).getD (some false),
      ((kws.lookup "alpha".toList).map (ratOf val)).getD (some 1) with
    | some (r, g, b), some bg, some alpha =>
      if 256 ≤ r ∨ 256 ≤ g ∨ 256 ≤ b then none
      else some { r := r, g := g, b := b, isBg := bg, alpha := alpha }
    | _, _, _ => none

/-- `Color(…)`. -/
def colorOf (val : List Char → Option Rat) : Expr → Option Color
  | .call f args => if f = "Color".toList then (keywords args).bind (colorKw val) else none
  | _ => none

/-- One keyword argument of `Span`. -/
def setField (val : List Char → Option Rat) (s : Span) (a : List Char × Expr) : Option Span :=
  let k := a.1
  if k = "foreground".toList then (colorOf val a.2).map fun c => { s with fg := some c }
  else if k = "background".toList then (colorOf val a.2).map fun c => { s with bg := some c }
  else if k = "hyperlink".toList then (strOf a.2).map fun v => { s with hyperlink := v }
  else if k = "bold".toList then (boolOf a.2).map fun v => { s with style := { s.style with bold := v } }
  else if k = "dim".toList then (boolOf a.2).map fun v => { s with style := { s.style with dim := v } }
  else if k = "italic".toList then (boolOf a.2).map fun v => { s with style := { s.style with italic := v } }
  else if k = "underline".toList then (boolOf a.2).map fun v => { s with style := { s.style with underline := v } }
  else if k = "blink".toList then (boolOf a.2).map fun v => { s with style := { s.style with blink := v } }
  else if k = "fast_blink".toList then (boolOf a.2).map fun v => { s with style := { s.style with fastBlink := v } }
  else if k = "invert".toList then (boolOf a.2).map fun v => { s with style := { s.style with invert := v } }
  else if k = "conceal".toList then (boolOf a.2).map fun v => { s with style := { s.style with conceal := v } }
  else if k = "strike".toList then (boolOf a.2).map fun v => { s with style := { s.style with strike := v } }
  else if k = "opaque".toList then (boolOf a.2).map fun v => { s with style := { s.style with isOpaque := v } }
  else if k = "reset_after".toList then (boolOf a.2).map fun v => { s with resetAfter := v }
  else none

/-- `Span(text, keywords…)`. -/
def spanOf (val : List Char → Option Rat) : Expr → Option Span
  | .call f ((none, .str t) :: args) =>
    if f = "Span".toList then (keywords args).bind fun kws => kws.foldlM (setField val) { text := t } else none
  | _ => none

/-- The colour that a text stands for. -/
def readColor (val : List Char → Option Rat) (cs : List Char) : Option Color := (read cs).bind (colorOf val)

/-- The span that a text stands for. -/
def readSpan (val : List Char → Option Rat) (cs : List Char) : Option Span := (read cs).bind (spanOf val)

end PyExpr
