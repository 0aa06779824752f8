import Verif.Model.Screen

/-!
# SVG export: `span.py:453-549`, `screen.py:350-421`, `terminal.py:42-59,420-469`
-/

namespace Slate
open Py

namespace Svg

/-- A Python number: an `int` or a `float` (the rational it denotes). -/
inductive Num where
  | int (n : Int)
  | flt (q : Rat)
  deriving DecidableEq, Repr

/-- The value of a number. -/
def Num.val : Num → Rat
  | .int n => n
  | .flt q => q

/-- `a + b`. -/
def Num.add : Num → Num → Num
  | .int a, .int b => .int (a + b)
  | a, b => .flt (fl (a.val + b.val))

/-- `a - b`. -/
def Num.sub : Num → Num → Num
  | .int a, .int b => .int (a - b)
  | a, b => .flt (fl (a.val - b.val))

/-- `round(q, n)` of a float: the decimal number with `n` places nearest to it (ties to even), as a
float. -/
def roundTo (n : Nat) (q : Rat) : Rat :=
  let s := q * 10 ^ n
  let r : Int := if 0 ≤ s then rhe s.num.toNat s.den else -(rhe (-s.num).toNat s.den : Int)
  fl ((r : Rat) / 10 ^ n)

/-- `round(v, 2)`: an `int` is unchanged. -/
def Num.round2 : Num → Num
  | .int n => .int n
  | .flt q => .flt (roundTo 2 q)

/-- How floats are formatted: `f"{q}"` and `f"{q:.4f}"`. The algorithm of `repr` is not modelled. -/
structure Fmt where
  repr : Rat → Str
  fixed4 : Rat → Str

/-- `f"{v}"`. -/
def Num.format (fmt : Fmt) : Num → Str
  | .int n => decInt n
  | .flt q => fmt.repr q

/-- `SVG_CHAR_WIDTH` (`span.py:47`). -/
def charWidth : Rat := fl (60167 / 100000)
/-- `SVG_CHAR_HEIGHT` (`span.py:48`). -/
def charHeight : Rat := fl (1265 / 1000)
/-- `SVG_RECT_HEIGHT` (`span.py:50`). -/
def rectHeight : Rat := fl (charHeight * fl (108 / 100))
/-- `SVG_RECT_BASELINE_OFFSET` (`span.py:57`). -/
def baselineOffset : Rat := fl (17 / 100)

/-- One entry of the dictionary of `get_svg_styles`. -/
def cssIf (b : Bool) (key value : String) : List (Str × Str) := if b then [(key.toList, value.toList)] else []

/-- The entry `fill`. -/
def cssFill (c : Option Color) : List (Str × Str) :=
  match c with
  | some c => [("fill".toList, c.hex)]
  | none => []

/-- `get_svg_styles` (`span.py:453-472`) as the list of its items. The loop goes over the attributes in the
order of `attrs`; of `STYLE_TO_CSS` (`span.py:59-66`) only the keys `bold`, `italic`, `dim`, `underline` are names of
attributes. -/
def cssOf (s : Span) : List (Str × Str) :=
  cssIf s.style.bold "font-weight" "bold" ++ cssIf s.style.dim "opacity" "0.7" ++
  cssIf s.style.italic "font-style" "italic" ++ cssIf s.style.underline "text-decoration" "underline" ++
  (if s.style.invert then cssFill s.bg else cssFill s.fg)

/-- `f" {key}='{value}'"`. -/
def attr (key : String) (value : Str) : Str := ' ' :: (key.toList ++ "='".toList ++ value ++ ['\''])

/-- `f"{key}:{value}"`. -/
def declaration (e : Str × Str) : Str := e.1 ++ [':'] ++ e.2

/-- The colours of the text and of the rectangle (`span.py:501-510`). -/
def inkOf (s : Span) (dfg : Color) : Color := s.fg.getD dfg
def paperOf (s : Span) (dbg : Color) : Color := s.bg.getD dbg
def textFill (s : Span) (dfg dbg : Color) : Color := if s.style.invert then paperOf s dbg else inkOf s dfg
def rectFill (s : Span) (dfg dbg : Color) : Color := if s.style.invert then inkOf s dfg else paperOf s dbg

/-- `baseline_offset` (`span.py:516-519`). -/
def baseline (s : Span) (fontSize : Int) : Num :=
  if isBlock s.text then .int 0 else .flt (fl (baselineOffset * fontSize))

/-- The `<rect>` of `as_svg` (`span.py:524-532`); `x`, `y` are rounded already. -/
def rectTag (fmt : Fmt) (s : Span) (fontSize : Int) (x y : Num) (dfg dbg : Color) : Str :=
  "<rect".toList
    ++ attr "x" (x.format fmt)
    ++ attr "y" ((y.sub (baseline s fontSize)).format fmt)
    ++ attr "fill" (rectFill s dfg dbg).hex
    ++ attr "width" (fmt.fixed4 (roundTo 2 (fl (fl (roundTo 4 (fl (fontSize * charWidth)) * s.text.length) + 1 / 2))))
    ++ attr "height" (fmt.repr (roundTo 4 (fl (fontSize * rectHeight))))
    ++ "></rect>".toList

/-- The `<text>` of `as_svg` (`span.py:534-547`). -/
def textTag (fmt : Fmt) (s : Span) (fontSize : Int) (x y : Num) (dfg dbg : Color) (inline : Bool) (cls : Option Str) : Str :=
  "<text  dy='-0.25em'".toList
    ++ attr "x" (x.format fmt)
    ++ attr "y" ((y.add (.int fontSize)).format fmt)
    ++ attr "fill" (textFill s dfg dbg).hex
    ++ (if inline then attr "styles" (join "; ".toList ((cssOf s).map declaration)) else [])
    ++ (match cls with
        | some c => attr "class" c
        | none => [])
    ++ ['>'] ++ escapeHtml s.text ++ "</text>".toList

/-- `as_svg` (`span.py:474-549`). -/
def asSvg (fmt : Fmt) (s : Span) (fontSize : Int) (origin : Num × Num) (dfg dbg : Color) (inline : Bool)
    (cls : Option Str) : Str :=
  rectTag fmt s fontSize origin.1.round2 origin.2.round2 dfg dbg ++
    textTag fmt s fontSize origin.1.round2 origin.2.round2 dfg dbg inline cls

/-- The arguments of an export. `cls i` is `style_class_template.format(i=i)`. -/
structure Params where
  fmt : Fmt
  fontSize : Int
  dfg : Color
  dbg : Color
  cls : Nat → Str

/-- The variables of the loops of `export_svg_with_styles`. -/
structure Loop where
  i : Nat := 0
  prev : Option Span := none
  svg : Str := []
  sheet : Str := []

/-- `previous_attrs != span.attrs` (`screen.py:408`). -/
def attrsDiffer (prev : Option Span) (s : Span) : Bool :=
  match prev with
  | none => true
  | some p => !(decide (p.text = s.text) && Span.attrsEq p s)

/-- The rule of the stylesheet for a class (`screen.py:379-393`). -/
def rule (cls : Str) (s : Span) : Str :=
  ['.'] ++ cls ++ " {".toList ++ join ";\n".toList ((cssOf s).map declaration) ++ "}\n".toList

/-- One iteration over the groups (`screen.py:407-415`), without the update of `x`. -/
def exportSpan (p : Params) (s : Span) (x y : Num) (st : Loop) : Loop :=
  let i := if attrsDiffer st.prev s then st.i + 1 else st.i
  { i := i, prev := some s
    svg := st.svg ++ asSvg p.fmt s p.fontSize (x, y) p.dfg p.dbg false (some (p.cls i))
    sheet := st.sheet ++ rule (p.cls i) s }

/-- `x += len(span) * char_width` (`screen.py:416`). -/
def advance (p : Params) (s : Span) (x : Num) : Num :=
  x.add (.flt (fl (s.text.length * fl (p.fontSize * charWidth))))

/-- The loop over the groups of a row (`screen.py:407-416`). -/
def exportRow (p : Params) : List Span → Num → Num → Loop → Loop
  | [], _, _, st => st
  | s :: ss, x, y, st => exportRow p ss (advance p s x) y (exportSpan p s x y st)

/-- The loop over the rows (`screen.py:406-419`). -/
def exportRows (env : Color.Env) (p : Params) (x0 : Num) : List (List Cell) → Num → Loop → Except PyErr Loop
  | [], _, st => .ok st
  | row :: rows, y, st =>
    match group env row with
    | .error e => .error e
    | .ok spans =>
      exportRows env p x0 rows (y.add (.flt (fl (p.fontSize * charHeight)))) (exportRow p spans x0 y st)

/-- `export_svg_with_styles` (`screen.py:350-421`): the elements and the stylesheet. -/
def exportWithStyles (env : Color.Env) (p : Params) (origin : Num × Num) (scr : Screen) : Except PyErr (Str × Str) :=
  match exportRows env p origin.1 scr.cells origin.2 {} with
  | .error e => .error e
  | .ok st => .ok (st.svg, st.sheet)

/-- `total_width`, `total_height` (`terminal.py:451-452`). -/
def totalSize (fontSize : Int) (n : Nat) (unit : Rat) : Rat := fl (fl (fl (n * unit) * fontSize) + 32)

/-- The rectangle behind the screen (`terminal.py:454-457`). -/
def backdrop (fmt : Fmt) (fontSize : Int) (size : Nat × Nat) (bg : Color) : Str :=
  "<rect width='".toList ++ fmt.repr (totalSize fontSize size.1 charWidth) ++ "' height='".toList ++
    fmt.repr (totalSize fontSize size.2 charHeight) ++ ['\''] ++ " fill='#".toList ++ bg.hex ++ "' rx='9px'></rect>".toList

/-- `SVG_TEMPLATE.format(...)` (`terminal.py:42-59,459-469`). -/
def document (fmt : Fmt) (fontSize : Int) (size : Nat × Nat) (stylesheet background screen : Str) : Str :=
  let tw := fmt.repr (totalSize fontSize size.1 charWidth)
  let th := fmt.repr (totalSize fontSize size.2 charHeight)
  "\n<svg width=\"".toList ++ tw ++ "\" height=\"".toList ++ th ++
  "\"\n    viewBox=\"0 0 ".toList ++ tw ++ [' '] ++ th ++
  "\" xmlns=\"http://www.w3.org/2000/svg\">\n    <style type=\"text/css\">\n        text {\n            font-size: ".toList ++
  decInt fontSize ++
  ("px;\n            font-family: Menlo, 'DejaVu Sans Mono', consolas, 'Courier New', monospace;\n" ++
   "            font-feature-settings: normal;\n" ++
   "            /* Inline SVGs are `antialiased` by default, while `src=`-d ones are `auto`.*/\n" ++
   "            -webkit-font-smoothing: auto;\n        }\n").toList ++
  stylesheet ++ "\n    </style>\n".toList ++ background ++ "\n<g transform=\"translate(16, 16)\">\n".toList ++
  screen ++ "\n</g>\n</svg>".toList

/-- `Terminal.export_svg` (`terminal.py:420-469`). `fg`, `bg` are the default colours, or those of the
terminal where they were not given. `size` is what `self.width` and `self.height` return (their
notifications are C63). -/
def exportSvg (env : Color.Env) (fmt : Fmt) (fontSize : Int) (fg bg : Color) (size : Nat × Nat) (scr : Screen) :
    Except PyErr Str :=
  let p : Params := { fmt := fmt, fontSize := fontSize, dfg := fg, dbg := bg,
                      cls := fun i => "screen__span".toList ++ dec i }
  match exportWithStyles env p (.int 0, .int 0) scr with
  | .error e => .error e
  | .ok (screen, sheet) => .ok (document fmt fontSize size sheet (backdrop fmt fontSize size bg) screen)

end Svg
end Slate
