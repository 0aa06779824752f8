import Verif.Model.Core
import Verif.Model.Main
import Verif.Model.Session
import Verif.Model.SpanMethods

/-!
# The test suite of the repository, evaluated in the model

Every assertion of `tests/*.py` that is about modelled code, as an evaluation of the model. These are tests of the
model, not properties: they compare it with values that the authors of the code wrote down. The last section has the
assertions that do not hold in the model; for each of them the lines of the source that contradict it are given. Left
out: `test_color_luminance` and `test_color_contrast` (values of a power function), assertions of the form `assert str(a == b)`, which hold
for all `a` and `b`, and those about an actual terminal.
-/

namespace Slate.Check
open Py

/-- The channels and the role of a colour, `none` for an exception. -/
def rgbOf (c : Except PyErr Color) : Option (Nat × Nat × Nat × Bool) :=
  match c with
  | .ok c => some (c.r, c.g, c.b, c.isBg)
  | .error _ => none

/-- A colour that is described without an error. -/
def col (d : String) : Color :=
  match Color.ofString d.toList with
  | .ok c => c
  | .error _ => Color.black

/-- Equality of two lists of spans, element by element. -/
def sameSpans : List Span → List Span → Bool
  | [], [] => true
  | s :: ss, t :: ts => Span.eq {} s t && sameSpans ss ts
  | _, _ => false

/-- `[*Span.yield_from(line)] == expected`. -/
def yields (line : String) (expected : List Span) : Bool :=
  (yieldFrom line.toList).2 = none && sameSpans (yieldFrom line.toList).1 expected

/-- `str(span)` as a string. -/
def shown (s : Span) : String := String.ofList (s.render {})

/-! ### `tests/test_color.py` -/

/-- `test_color_from_ansi`. -/
example : rgbOf (Color.fromAnsi "31".toList) = some (170, 0, 0, false) ∧
    colorTable.getD 1 (0, 0, 0) = (170, 0, 0) ∧
    rgbOf (Color.fromAnsi "45".toList) = some (170, 0, 170, true) ∧
    colorTable.getD 5 (0, 0, 0) = (170, 0, 170) ∧
    rgbOf (Color.fromAnsi "93".toList) = some (255, 255, 85, false) ∧
    colorTable.getD 11 (0, 0, 0) = (255, 255, 85) ∧
    rgbOf (Color.fromAnsi "105".toList) = some (255, 85, 255, true) ∧
    colorTable.getD 13 (0, 0, 0) = (255, 85, 255) := by decide +kernel

/-- `test_color_lighten_darken`: the values that CPython computes. -/
example : (match Color.fromAnsi "141".toList with
    | .ok base => (base.lighten 1).eq { r := 183, g := 147, b := 255 } &&
        (base.darken 3 (fl (5 / 100))).eq { r := 148, g := 114, b := 216 }
    | .error _ => false) = true := by decide +kernel

/-- `test_color_invalid`, first half. The test uses -1.25; the constructor compares numbers only. -/
example : rgbOf (Color.make (0, -1, 234)) = none := by decide +kernel

/-! ### `tests/test_core.py` -/

/-- `test_core_get_color_space`. -/
example : (Core.getColorSpace { noColor := some ['1'] }).toOption = some .noColor ∧
    (Core.getColorSpace { term := some "xterm-256color".toList, colorterm := some [] }).toOption = some .eightBit ∧
    (Core.getColorSpace { term := some "xterm".toList, colorterm := some "truecolor".toList }).toOption =
      some .trueColor ∧
    (Core.getColorSpace { term := some [], colorterm := some [] }).toOption = some .standard := by decide +kernel

/-- `test_core_parse_mouse_event`. -/
example : (Core.parseMouseEvent "\x1b".toList).toOption = some none ∧
    (Core.parseMouseEvent "\x1b[1;2m".toList).toOption = some none ∧
    (Core.parseMouseEvent "\x1b[<0;12;23M".toList).toOption = some (some "mouse:left_click@12;23".toList) ∧
    (Core.parseMouseEvent "\x1b[<2;45;8m".toList).toOption = some (some "mouse:right_release@45;8".toList) := by
  decide +kernel

/-- `test_core_width`. -/
example : Core.widthStr "Test".toList = 4 ∧
    Core.widthSpan { text := "Other test".toList, fg := some (col "38;5;141"), style := { bold := true } } = 10 ∧
    Core.widthStr "\x1b[38;5;141;1;2;3;4mBig test".toList = 8 := by decide +kernel

/-! ### `tests/test_event.py` -/

/-- `test_event_emit`: the listener is called with the argument. -/
example : (Event.call (σ := List Str) (D := Str)
      { listeners := [fun d s => (s ++ [d], .ok (.bool true))] } "this is a test".toList []).1 =
    ["this is a test".toList] := by decide +kernel

/-- `test_event_bad_callback`: `ValueError` for what is not callable. -/
example : (match Event.iadd (σ := Unit) (D := Str) { listeners := [] } none with
    | .error e => decide (e = .valueError)
    | .ok _ => false) = true := by decide +kernel

/-- `test_event_callback_error`: an exception of the listener is passed on. -/
example : (match (Event.call (σ := Unit) (D := Str) { listeners := [fun _ s => (s, .error (.user 0))] } [] ()).2 with
    | .error e => decide (e = .user 0)
    | .ok _ => false) = true := by decide +kernel

/-! ### `tests/test_screen.py` -/

/-- `test_screen_clear`. -/
example : ((Screen.init 10 10).clear ['X']).cells.all (fun row =>
    row.all fun c => decide (c.char = ['X'] ∧ c.fg = none ∧ c.bg = none)) = true := by decide +kernel

/-- `test_screen_write`: three changes of four characters, none outside. -/
example :
    let w := (write {} [{ text := ['X'] }] (some (0, 0)) Color.black false { scr := Screen.init 10 10 })
    let v := write {} [{ text := "Xabc".toList }] (some (0, 0)) Color.black false w.1
    let u := write {} [{ text := "OOB".toList }] (some (10, 10)) Color.black false { scr := Screen.init 10 11 }
    w.2.toOption = some 1 ∧ v.2.toOption = some 3 ∧ u.2.toOption = some 0 := by decide +kernel

/-- `test_screen_render`: the first drawing, and the redraw. -/
example :
    let s := (Screen.init 5 5 (0, 0) ['X']).render
    let w := (write {} [{ text := ['X'], style := { bold := true } }] (some (4, 4)) Color.black false { scr := s.1 }).1
    String.ofList s.2 = "\x1b[0;0HXXXXX\x1b[1;0HXXXXX\x1b[2;0HXXXXX\x1b[3;0HXXXXX\x1b[4;0HXXXXX\x1b[0m" ∧
    String.ofList (w.scr.render (1, 1) true).2 =
      "\x1b[1;1HXXXXX\x1b[2;1HXXXXX\x1b[3;1HXXXXX\x1b[4;1HXXXXX\x1b[5;1HXXXX\x1b[1mX\x1b[0m" := by decide +kernel

/-! ### `tests/test_span.py` -/

/-- `test_span_mutation`. -/
example : shown (Span.asBold { text := "bold".toList }) = "\x1b[1mbold\x1b[0m" ∧
    shown (Span.asDim { text := "dim".toList }) = "\x1b[2mdim\x1b[0m" ∧
    shown (Span.asItalic { text := "italic".toList }) = "\x1b[3mitalic\x1b[0m" ∧
    shown (Span.asUnderline { text := "underline".toList }) = "\x1b[4munderline\x1b[0m" ∧
    shown (Span.asBlink { text := "blink".toList }) = "\x1b[5mblink\x1b[0m" ∧
    shown (Span.asFastBlink { text := "fast_blink".toList }) = "\x1b[6mfast_blink\x1b[0m" ∧
    shown (Span.asInvert { text := "invert".toList }) = "\x1b[7minvert\x1b[0m" ∧
    shown (Span.asConceal { text := "conceal".toList }) = "\x1b[8mconceal\x1b[0m" ∧
    shown (Span.asStrike { text := "strike".toList }) = "\x1b[9mstrike\x1b[0m" ∧
    shown (Span.asHyperlink { text := "hyperlink".toList } "https://google.com".toList) =
      "\x1b]8;;https://google.com\x1b\\hyperlink\x1b]8;;\x1b\\" ∧
    (Span.asColorStr { text := "red".toList } "31".toList).toOption.map shown = some "\x1b[31mred\x1b[0m" ∧
    (Span.asColorStr { text := "green".toList } "41".toList).toOption.map shown = some "\x1b[41mgreen\x1b[0m" := by
  decide +kernel

/-- `test_span_foreground_background_guess`. -/
example : (Span.asColorStr { text := "red".toList } "41".toList).toOption =
      some { text := "red".toList, bg := some (col "41") } ∧
    (Span.asColorStr { text := "green".toList } "32".toList).toOption =
      some { text := "green".toList, fg := some (col "32") } := by decide +kernel

/-- `test_span_yield_from`. -/
example : yields "Test empty" [{ text := "Test empty".toList }] = true ∧
    yields "\x1b[38;5;141;1;2mTest\x1b"
      [{ text := "Test".toList, fg := some (col "38;5;141"), style := { bold := true, dim := true } }] = true ∧
    yields "\x1b[32mTest" [{ text := "Test".toList, fg := some (col "32") }] = true ∧
    yields "\x1b[96;48;5;230mTest"
      [{ text := "Test".toList, fg := some (col "96"), bg := some (col "48;5;230") }] = true ∧
    yields "\x1b[92mTest" [{ text := "Test".toList, fg := some (col "92") }] = true ∧
    yields "\x1b[48;2;11;22;33;38;5;230mTest"
      [{ text := "Test".toList, bg := some (col "48;2;11;22;33"), fg := some (col "38;5;230") }] = true ∧
    yields "\x1b[1;2;3;4;32mTest\x1b[22;39mnot bold not colored"
      [{ text := "Test".toList, fg := some (col "32"),
         style := { bold := true, dim := true, italic := true, underline := true } },
       { text := "not bold not colored".toList, style := { italic := true, underline := true } }] = true ∧
    yields "\x1b[3;1mItalic-bold\x1b[22;23mNo longer"
      [{ text := "Italic-bold".toList, style := { italic := true, bold := true } },
       { text := "No longer".toList }] = true ∧
    (yieldFrom "\x1b[615mThis won't parse".toList).2 = some .valueError ∧
    (yieldFrom "\x1b[38;8;11mWhat is this?".toList).2 = none := by decide +kernel

/-- `test_span_get_characters`. -/
example :
    let span : Span := { text := "Test".toList, style := { bold := true, italic := true } }
    span.getCharacters {} false false = ["\x1b[1;3mT".toList, ['e'], ['s'], "t\x1b[0m".toList] ∧
    (span.mutate { resetAfter := some false }).getCharacters {} false false =
      ["\x1b[1;3mT".toList, ['e'], ['s'], ['t']] ∧
    span.getCharacters {} false true =
      ["\x1b[1;3mT".toList, "\x1b[1;3me".toList, "\x1b[1;3ms".toList, "\x1b[1;3mt\x1b[0m".toList] ∧
    Span.getCharacters {} { text := [], style := { bold := true } } false false = [] := by decide +kernel

/-- `test_span_hyperlink`. -/
example : shown { text := "Click me".toList, hyperlink := "https://google.com".toList, style := { bold := true } } =
      "\x1b]8;;https://google.com\x1b\\\x1b[1mClick me\x1b[0m\x1b]8;;\x1b\\" ∧
    shown { text := "Click me".toList, hyperlink := "https://google.com".toList } =
      "\x1b]8;;https://google.com\x1b\\Click me\x1b]8;;\x1b\\" := by decide +kernel

/-- `test_span_length`. -/
example : Span.len { text := "Lengthy boye".toList } = 12 ∧
    (Span.asColorStr { text := "Lengthy boye".toList } "38;5;141".toList).toOption.map
      (fun s => (s.asHyperlink "https://google.com".toList).len) = some 12 := by decide +kernel

/-- `test_span_slice`. -/
example : Span.slice { text := "I am slicable".toList, fg := some (col "38;5;141"), style := { bold := true } }
      (some 1) (some 5) =
    { text := " am ".toList, fg := some (col "38;5;141"), style := { bold := true } } := by decide +kernel

/-- `test_span_split`. -/
example : (Span.split { text := "I must be split".toList, bg := some (col "48;2;11;33;55") } [' ']).toOption =
    some (["I", "must", "be", "split"].map fun t => { text := t.toList, bg := some (col "48;2;11;33;55") }) := by
  decide +kernel

/-- `test_span_contains`. -/
example :
    let span : Span := { text := "Some text that contains".toList, style := { bold := true, underline := true } }
    span.contains "text".toList = true ∧ span.contains "Some ".toList = true ∧
    span.contains "what".toList = false := by decide +kernel

/-! ### `tests/test_terminal.py` -/

/-- `test_terminal_clear`. -/
example :
    let w := (Terminal.write {} (.str ['X']) (some (0, 0)) Color.black { scr := Screen.init 5 2 }).1
    cellAt (w.scr.clear ['O']).cells 0 0 = some { char := ['O'] } := by decide +kernel

/-- `test_terminal_write_diff_types`, with the cursor given: the cells of the string, and three changes by the spans
written over them. -/
example :
    let yellow : Span := { text := "Yellow".toList, fg := some (col "38;5;141"), style := { bold := true, dim := true } }
    let w := Terminal.write {} (.str "\x1b[38;5;141;1;2mHello".toList) (some (0, 0)) Color.black
      { scr := (Screen.init 10 2).render.1 }
    let v := Terminal.write {} (.spans [yellow]) (some (0, 0)) Color.black w.1
    ((w.1.scr.cells.headD []).take 5).map (fun c => String.ofList c.char) =
      ["\x1b[1;2mH", "\x1b[1;2me", "\x1b[1;2ml", "\x1b[1;2ml", "\x1b[1;2mo\x1b[0m"] ∧
    ((w.1.scr.cells.headD []).take 5).all (fun c => decide (c.fg = some (col "38;5;141") ∧ c.bg = none)) = true ∧
    v.2.toOption = some 3 := by decide +kernel

/-! ### Assertions that do not hold -/

/-- `test_screen_write`, `test_screen_opacity`, `test_terminal_draw`, `test_terminal_cursor` and
`test_terminal_write_diff_types` write without a cursor: `((x, y), line)` cannot unpack `None`
(`screen.py:193`). -/
example : (match (write {} [{ text := ['X'] }] none Color.black false { scr := Screen.init 10 10 }).2 with
    | .error e => decide (e = .typeError)
    | .ok _ => false) = true := by decide +kernel

/-- `test_screen_render` expects the bold X without a colour; an absent foreground is replaced by white before the
comparison (`screen.py:259`). `test_screen_resize` expects `("X", None, None)`, too. -/
example :
    let s := (Screen.init 5 5 (0, 0) ['X']).render.1
    let w := (write {} [{ text := ['X'], style := { bold := true } }] (some (4, 4)) Color.black false { scr := s }).1
    String.ofList w.scr.render.2 = "\x1b[4;4H\x1b[38;2;255;255;255m\x1b[1mX\x1b[0m\x1b[0m" := by decide +kernel

/-- `test_color_invalid`, second half, expects `ValueError` where the channels are clamped (`color.py:432-434`). -/
example : rgbOf (do
    let c ← Color.blendE Color.black Color.white (fl (1 / 100))
    Color.shadeE Color.black c 20 (fl (1 / 10))) = some (0, 0, 0, false) := by decide +kernel

end Slate.Check
