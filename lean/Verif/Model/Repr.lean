import Verif.Py.Repr
import Verif.Model.Span

/-!
# `repr` of colours and spans

`f"{alpha}"` is a parameter `fmt`: the formatting of floats is not modelled.
-/

namespace Slate
open Py

/-- `Color.__repr__` (`color.py:157-162`). -/
def Color.repr (fmt : Rat → Str) (c : Color) : Str :=
  "Color(rgb=(".toList ++ dec c.r ++ ", ".toList ++ dec c.g ++ ", ".toList ++ dec c.b ++ [')'] ++
    (if c.alpha ≠ 1 then ", alpha=".toList ++ fmt c.alpha else []) ++ [')']

/-- The names of the fields that are `True`, in field order (`span.py:275-277`). -/
def Span.truthyFields (s : Span) : List Str :=
  ([(s.style.bold, "bold".toList), (s.style.dim, "dim".toList), (s.style.italic, "italic".toList),
    (s.style.underline, "underline".toList), (s.style.blink, "blink".toList),
    (s.style.fastBlink, "fast_blink".toList), (s.style.invert, "invert".toList),
    (s.style.conceal, "conceal".toList), (s.style.strike, "strike".toList),
    (s.style.isOpaque, "opaque".toList), (s.resetAfter, "reset_after".toList)].filter (·.1)).map (·.2)

/-- `Span.__repr__` (`span.py:271-289`). -/
def Span.repr (printable : Char → Bool) (fmt : Rat → Str) (s : Span) : Str :=
  let attributes := reprOf printable s.text ++ ", ".toList
  let attributes := attributes ++ join ", ".toList (s.truthyFields.map fun n => n ++ "=True".toList)
  let attributes := match s.fg with
    | some c => attributes ++ ", foreground=".toList ++ c.repr fmt
    | none => attributes
  let attributes := match s.bg with
    | some c => attributes ++ ", background=".toList ++ c.repr fmt
    | none => attributes
  let attributes := if s.hyperlink ≠ [] then
      attributes ++ ", hyperlink=".toList ++ reprOf printable s.hyperlink
    else attributes
  "Span(".toList ++ attributes ++ [')']

end Slate
