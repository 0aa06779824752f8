import Verif.Model.Span
import Verif.Model.ColorInfo
import Verif.Py.Repr

/-!
# `experiments/markup.py`

The colours of the experiment (its own class `Color`, `markup.py:24-106`) are only used to choose a foreground for a background.
What `Color.from_ansi(back).contrast.ansi` returns or raises is an arbitrary function `contrast` here.
-/

namespace Slate
open Py

namespace Tags

/-! ### The regular expressions -/

/-- A character of `[^\]\[]`. -/
def plainChar (c : Char) : Bool := c != '[' && c != ']'

/-- `([^\]\[]+)(?=\[|$)` at the front of a string (`markup.py:13`): the text and the rest. The longest run of characters is the only
one that can succeed: a shorter one is followed by a character of the run, and `$` fails there because the string does
not end within two characters unless the run reaches its end. -/
def plainAt (s : Str) : Option (Str × Str) :=
  let run := s.takeWhile plainChar
  let rest := s.dropWhile plainChar
  if run = [] then none
  else match rest with
    | [] => some (run, [])
    | '[' :: _ => some (run, rest)
    | _ => none

/-- The rest of the match after `[`: `(.+?)\]` takes as little as possible (at least one character, no line break), provided
that the text follows. `body` is what was taken so far. -/
def bodyAt (body : Str) : Str → Option (Str × Str × Str)
  | [] => none
  | c :: cs =>
    match (if c = ']' ∧ body ≠ [] then plainAt cs else none) with
    | some (plain, rest) => some (body, plain, rest)
    | none => if c = '\n' then none else bodyAt (body ++ [c]) cs

/-- `RE_MARKUP.match` (`markup.py:13`): tags, text and rest. -/
def matchAt (s : Str) : Option (Option Str × Str × Str) :=
  let bare := (plainAt s).map fun r => (none, r.1, r.2)
  match s with
  | '[' :: cs =>
    match bodyAt [] cs with
    | some (body, plain, rest) => some (some body, plain, rest)
    | none => bare
  | _ => bare

/-- `RE_MARKUP.finditer`: the groups of the matches. The first argument bounds the number of steps. -/
def findGo : Nat → Str → List (Option Str × Str)
  | 0, _ => []
  | _, [] => []
  | n + 1, c :: cs =>
    match matchAt (c :: cs) with
    | some (tags, plain, rest) => (tags, plain) :: findGo n rest
    | none => findGo n cs

/-- `RE_MARKUP.finditer(markup)` (`markup.py:162`). -/
def find (s : Str) : List (Option Str × Str) := findGo s.length s

/-- Worker of `words`; `cur` is the word being collected. -/
def wordsGo (cur : Str) : Str → List Str
  | [] => if cur = [] then [] else [cur]
  | c :: cs =>
    if isSpace c then (if cur = [] then wordsGo [] cs else cur :: wordsGo [] cs)
    else wordsGo (cur ++ [c]) cs

/-- `s.split()`. -/
def words (s : Str) : List Str := wordsGo [] s

/-- `@?` at the front. -/
def optional (c : Char) : Str → Str
  | d :: ds => if d = c then ds else d :: ds
  | [] => []

/-- A character of `[0-9a-fA-F]`. -/
def isHex (c : Char) : Bool := (digitVal 16 c).isSome

/-- `\d{1,3};` at the front: what follows. -/
def channel (s : Str) : Option Str :=
  let ds := s.takeWhile isDecChar
  if ds.length = 0 ∨ 3 < ds.length then none
  else match s.dropWhile isDecChar with
    | ';' :: rest => some rest
    | _ => none

/-- `RE_COLOR.match(tag)` (`markup.py:19-21`) for a tag without white space. -/
def isColor (tag : Str) : Bool :=
  let t := optional '@' tag
  let h := optional '#' t
  (!t.isEmpty && decide (t.length ≤ 3) && t.all isDecChar) ||
  (decide (6 ≤ h.length) && (h.take 6).all isHex) ||
  (match (channel t).bind channel with
    | some (d :: _) => isDecChar d
    | _ => false)

/-- `CSS_COLORS` of `experiments/color_info.py`, the same table as in `slate/color_info.py`, which is followed there by four
more names. -/
def cssColors : List (Str × Str) := namedColors.take (namedColors.length - 4)

/-! ### Tags -/

/-- The two numbers of the lead of a code. -/
def lead (n : Nat) (isBg : Bool) : Nat := if isBg then n + 10 else n

/-- `int(part, base=16)`. -/
def hexPart (s : Str) : Except PyErr Str :=
  match int 16 s with
  | some n => .ok (decInt n)
  | none => .error .valueError

/-- The last part of `parse_color` (`markup.py:132-142`). -/
def directColor (isBg : Bool) (color : Str) : Except PyErr Str :=
  let color := (cssColors.lookup color).getD color
  if startsWith color ['#'] then do
    let color := lstrip (· == '#') color
    let a ← hexPart (color.take 2)
    let b ← hexPart ((color.drop 2).take 2)
    let c ← hexPart (color.drop 4)
    .ok (dec (lead 38 isBg) ++ [';', '2', ';'] ++ join [';'] [a, b, c])
  else .ok (dec (lead 38 isBg) ++ [';', '2', ';'] ++ color)

/-- `parse_color` (`markup.py:109-142`). -/
def parseColor (color : Str) : Except PyErr Str :=
  let isBg := startsWith color ['@']
  let color := lstrip (· == '@') color
  if isDigit color then
    match int 10 color with
    | none => .error .valueError
    | some index =>
      if index < 8 then .ok (decInt (lead 30 isBg + index))
      else if index < 16 then .ok (decInt (lead 80 isBg + (index + 2)))
      else if index < 256 then .ok (dec (lead 38 isBg) ++ [';', '5', ';'] ++ decInt index)
      else .error .valueError
  else directColor isBg color

/-- A value of the dictionary `style_stack` under `foreground` and `background`. -/
inductive Val where
  | code (s : Str)
  | flag (b : Bool)

/-- `style_stack` (`markup.py:160`): the keys of `SETTERS` and the two others, which may be missing. -/
structure Stack where
  style : Style := {}
  fg : Option Val := none
  bg : Option Val := none

/-- `style_stack[tag] = v` for a key of `SETTERS`. -/
def setStyle (tag : Str) (v : Bool) (s : Style) : Option Style :=
  if tag = "bold".toList then some { s with bold := v }
  else if tag = "dim".toList then some { s with dim := v }
  else if tag = "italic".toList then some { s with italic := v }
  else if tag = "underline".toList then some { s with underline := v }
  else if tag = "blink".toList then some { s with blink := v }
  else if tag = "fast_blink".toList then some { s with fastBlink := v }
  else if tag = "invert".toList then some { s with invert := v }
  else if tag = "conceal".toList then some { s with conceal := v }
  else if tag = "strike".toList then some { s with strike := v }
  else if tag = "opaque".toList then some { s with isOpaque := v }
  else none

/-- The last part of the loop over the tags (`markup.py:182-186`): the stack, and what is printed. -/
def styleTag (pr : Char → Bool) (tag : Str) (v : Bool) (st : Stack) : Stack × Str :=
  match setStyle tag v st.style with
  | some style => ({ st with style := style }, [])
  | none =>
    if tag = "foreground".toList ∧ st.fg.isSome then ({ st with fg := some (.flag v) }, [])
    else if tag = "background".toList ∧ st.bg.isSome then ({ st with bg := some (.flag v) }, [])
    else (st, "Unknown tag ".toList ++ reprOf pr tag ++ ['\n'])

/-- The body of the loop over the tags (`markup.py:168-186`). -/
def applyTag (pr : Char → Bool) (tag : Str) (st : Stack) : Except PyErr (Stack × Str) :=
  let unsetter := startsWith tag ['/']
  let tag := lstrip (· == '/') tag
  if isColor tag || (cssColors.lookup (lstrip (· == '@') tag)).isSome then
    match parseColor tag with
    | .error e => .error e
    | .ok code =>
      if startsWith tag ['@'] then .ok ({ st with bg := some (.code code) }, [])
      else .ok ({ st with fg := some (.code code) }, [])
  else if unsetter ∧ tag = "fg".toList then .ok ({ st with fg := some (.code []) }, [])
  else if unsetter ∧ tag = "bg".toList then .ok ({ st with bg := some (.code []) }, [])
  else .ok (styleTag pr tag (!unsetter) st)

/-- The loop over the tags (`markup.py:168-186`): the stack, what is printed, and the exception. -/
def applyTags (pr : Char → Bool) : List Str → Stack → Stack × Str × Option PyErr
  | [], st => (st, [], none)
  | tag :: rest, st =>
    match applyTag pr tag st with
    | .error e => (st, [], some e)
    | .ok (st, out) =>
      let r := applyTags pr rest st
      (r.1, out ++ r.2.1, r.2.2)

/-- `apply_auto_foreground` (`markup.py:145-156`). -/
def autoForeground (contrast : Val → Except PyErr Str) (st : Stack) : Except PyErr (Stack × Bool) :=
  let back := if st.style.invert then st.fg else st.bg
  let fore := if st.style.invert then st.bg else st.fg
  match fore, back with
  | none, some b =>
    match contrast b with
    | .error e => .error e
    | .ok code => .ok ({ st with fg := some (.code code) }, true)
  | _, _ => .ok (st, false)

/-- `Span(plain, **style_stack)` (`markup.py:190`). A colour is a string (or a flag) and has no attribute `ansi`, which
`_generate_sequences` asks for (`span.py:304-310`). -/
def construct (st : Stack) (plain : Str) : Except PyErr Span :=
  if st.fg.isSome || st.bg.isSome then .error .attributeError
  else .ok { text := plain, style := st.style }

/-- The loop over the matches (`markup.py:162-193`): the spans that are yielded, what is printed, and the exception that ends the
generator. -/
def styledGo (pr : Char → Bool) (contrast : Val → Except PyErr Str) :
    List (Option Str × Str) → Stack → List Span × Str × Option PyErr
  | [], _ => ([], [], none)
  | (tags, plain) :: rest, st =>
    match applyTags pr (words (tags.getD [])) st with
    | (_, out, some e) => ([], out, some e)
    | (st, out, none) =>
      match autoForeground contrast st with
      | .error e => ([], out, some e)
      | .ok (st, delete) =>
        match construct st plain with
        | .error e => ([], out, some e)
        | .ok span =>
          let r := styledGo pr contrast rest (if delete then { st with fg := none } else st)
          (span :: r.1, out ++ r.2.1, r.2.2)

/-- `styled_from_markup` (`markup.py:159-193`), run to its end. -/
def styled (pr : Char → Bool) (contrast : Val → Except PyErr Str) (markup : Str) : List Span × Str × Option PyErr :=
  styledGo pr contrast (find markup) {}

/-- `mprint` (`markup.py:196-197`): what is printed, and the exception. -/
def mprint (env : Color.Env) (pr : Char → Bool) (contrast : Val → Except PyErr Str) (markup : Str) : Str × Option PyErr :=
  match styled pr contrast markup with
  | (_, out, some e) => (out, some e)
  | (spans, out, none) => (out ++ spans.flatMap (Span.render env) ++ ['\n'], none)

end Tags
end Slate
