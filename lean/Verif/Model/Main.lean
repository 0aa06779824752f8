import Verif.Model.Span
import Verif.Model.Hls
import Verif.Model.Luminance

/-!
# The command line: `slate/__main__.py:16-100`

`python -m slate debug` prints a report. What it queries (environment, terminal) is
given by a `Report`; argument parsing is not modelled.
-/

namespace Slate
open Py

namespace Main

/-- What `run_debug` asks for: four environment variables and the state of the terminal
(`__main__.py:17-29`). The colour space is that of the `Color.Env`. -/
structure Report where
  term : Option Str := none
  colorterm : Option Str := none
  noColor : Option Str := none
  colorsys : Option Str := none
  size : Nat × Nat
  sync : Bool
  fg : Color
  bg : Color

/-- `os.getenv(name) or "-"`. -/
def orDash (v : Option Str) : Str :=
  match v with
  | some (c :: cs) => c :: cs
  | _ => ['-']

/-- `str(color_space)` of a member of the enumeration. -/
def spaceStr : ColorSpace → Str
  | .noColor => "ColorSpace.NO_COLOR".toList
  | .standard => "ColorSpace.STANDARD".toList
  | .eightBit => "ColorSpace.EIGHT_BIT".toList
  | .trueColor => "ColorSpace.TRUE_COLOR".toList

/-- `rows` (`__main__.py:17-29`). -/
def rows (env : Color.Env) (r : Report) : List (Str × Option Str) :=
  [("Environment:".toList, none),
   ("$TERM".toList, some (orDash r.term)),
   ("$COLORTERM".toList, some (orDash r.colorterm)),
   ("$NO_COLOR".toList, some (orDash r.noColor)),
   ("$SLATE_COLORSYS".toList, some (orDash r.colorsys)),
   ("Terminal state:".toList, none),
   ("size".toList, some (join ['x'] [dec r.size.1, dec r.size.2])),
   ("colorspace".toList, some (spaceStr env.space)),
   ("synchronized update support".toList, some (if r.sync then "True".toList else "False".toList)),
   ("foreground color".toList, some r.fg.hex),
   ("background color".toList, some r.bg.hex)]

/-- `max(…)` of a list of lengths. -/
def maxLen (l : List Nat) : Nat := l.foldl max 0

/-- `max_left` (`__main__.py:31`). -/
def maxLeft (rs : List (Str × Option Str)) : Nat := maxLen (rs.map fun r => r.1.length) + 3

/-- `max_right` (`__main__.py:32`). -/
def maxRight (rs : List (Str × Option Str)) : Nat := maxLen (rs.map fun r => (r.2.getD []).length) + 3

/-- `f"{s:<{n}}"`. -/
def padRight (n : Nat) (s : Str) : Str := s ++ List.replicate (n - s.length) ' '

/-- `f"{s:>{n}}"`. -/
def padLeft (n : Nat) (s : Str) : Str := List.replicate (n - s.length) ' ' ++ s

/-- The right half of a row (`__main__.py:47-60`). -/
def valueStr (pow : Rat → Rat → Rat) (env : Color.Env) (mr : Nat) (left right : Str) : Except PyErr Str :=
  if left.tails.any fun t => "ground color".toList.isPrefixOf t then do
    let c ← Color.ofString right
    .ok (List.replicate (mr - right.length) ' ' ++
      Span.render env { text := right, fg := some c, bg := some ((c.contrast pow).asBackground) })
  else .ok (Span.render env { text := padLeft mr right })

/-- The loop over the rows (`__main__.py:36-62`). -/
def table (pow : Rat → Rat → Rat) (env : Color.Env) (ml mr : Nat) : List (Str × Option Str) → Str → Except PyErr Str
  | [], buff => .ok buff
  | (left, none) :: rest, buff =>
    let buff := if buff.isEmpty then buff else buff ++ ['\n']
    table pow env ml mr rest (buff ++ Span.render env { text := left, style := { bold := true } } ++ ['\n'])
  | (left, some right) :: rest, buff => do
    let v ← valueStr pow env mr left right
    table pow env ml mr rest
      (buff ++ Span.render env { text := padRight ml left, style := { dim := true } } ++ v ++ ['\n'])

/-- `Color.from_hex("#0000ff").lighten(2).hue_shift(step * i).as_background()` (`__main__.py:71`). -/
def barColor (width i : Nat) : Except PyErr Color := do
  let blue ← Color.fromHex "#0000ff".toList
  let c ← Color.hueShift fl (blue.lighten 2) (fl (fl (1 / (width : Rat)) * i))
  .ok c.asBackground

/-- The loop of the colour line (`__main__.py:70-72`). -/
def colorLine (env : Color.Env) (width : Nat) : List Nat → Str → Except PyErr Str
  | [], line => .ok line
  | i :: is, line => do
    let c ← barColor width i
    colorLine env width is (line ++ Span.render env { text := [' '], bg := some c })

/-- `styles` (`__main__.py:74-83`). -/
def styles : List Span :=
  [{ text := "std".toList },
   { text := "bold".toList, style := { bold := true } },
   { text := "italic".toList, style := { italic := true } },
   { text := "dim".toList, style := { dim := true } },
   { text := "underline".toList, style := { underline := true } },
   { text := "blink".toList, style := { blink := true } },
   { text := "invert".toList, style := { invert := true } },
   { text := "strike".toList, style := { strike := true } }]

/-- The loop of the style line (`__main__.py:88-97`). -/
def styleLine (env : Color.Env) (width : Nat) : List Span → Str → Nat → Str
  | [], line, _ => line
  | s :: ss, line, used =>
    let p : Str × Nat := if width < used + s.len then (line ++ ['\n'], 0) else (line, used)
    let line := if p.1.length ≠ 0 ∧ p.2 ≠ 0 then p.1 ++ [' '] else p.1
    styleLine env width ss (line ++ s.render env) (p.2 + s.len + 1)

/-- `run_debug` (`__main__.py:16-100`): what is printed, without the final line end. -/
def runDebug (pow : Rat → Rat → Rat) (env : Color.Env) (r : Report) : Except PyErr Str := do
  let rs := rows env r
  let buff ← table pow env (maxLeft rs) (maxRight rs) rs []
  let width := maxLeft rs + maxRight rs
  let line ← colorLine env width (List.range width) []
  .ok (join ['\n'] [line, [], buff.dropLast, [], styleLine env width styles [] 0])

end Main
end Slate
