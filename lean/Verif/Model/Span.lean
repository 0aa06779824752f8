import Verif.Model.Color
import Verif.Model.Regex

/-!
# `slate/span.py`
-/

namespace Slate
open Py

/-- The boolean style attributes of a span (`span.py:230-239`). -/
structure Style where
  bold : Bool := false
  dim : Bool := false
  italic : Bool := false
  underline : Bool := false
  blink : Bool := false
  fastBlink : Bool := false
  invert : Bool := false
  conceal : Bool := false
  strike : Bool := false
  isOpaque : Bool := false
  deriving DecidableEq, Repr

/-- A `Span` (`span.py:216-240`). The computed fields `_computed`, `_sequences` and
`_colorless_sequences` are functions of the others (and of the colour space in
force when the colours' codes were first asked for, see `Env`). -/
structure Span where
  text : Str
  fg : Option Color := none
  bg : Option Color := none
  hyperlink : Str := []
  style : Style := {}
  resetAfter : Bool := true
  deriving DecidableEq, Repr

/-- `SETTERS` in field order, paired with the attribute values (`span.py:14-25,296-300`). -/
def Style.setters (s : Style) : List (Bool × Str) :=
  [(s.bold, "1".toList), (s.dim, "2".toList), (s.italic, "3".toList),
   (s.underline, "4".toList), (s.blink, "5".toList), (s.fastBlink, "6".toList),
   (s.invert, "7".toList), (s.conceal, "8".toList), (s.strike, "9".toList),
   (s.isOpaque, "99".toList)]

/-- The codes of the set styles, in field order. -/
def Style.codes (s : Style) : List Str := (s.setters.filter (·.1)).map (·.2)

/-- `colorless` of `_generate_sequences` (`span.py:294-302`): the loop appends
`code + ";"` for each set style, then `strip(";")`. -/
def Style.colorless (s : Style) : Str :=
  let sequences := s.codes.flatMap fun c => c ++ [';']
  rstrip (· == ';') (lstrip (· == ';') sequences)

/-- `f"\x1b[{body}m" if body else ""`. -/
def wrapSgr (body : Str) : Str :=
  if body.isEmpty then [] else ['\x1b', '['] ++ body ++ ['m']

namespace Span

/-- `colors` of `_generate_sequences` (`span.py:304-310`). -/
def colorCodes (env : Color.Env) (s : Span) : List Str :=
  (s.fg.toList.map (Color.ansi env)) ++ (s.bg.toList.map (Color.ansi env))

/-- `total` of `_generate_sequences` (`span.py:312-315`). -/
def total (env : Color.Env) (s : Span) : Str :=
  let t := join [';'] (s.colorCodes env)
  let colorless := s.style.colorless
  if colorless.isEmpty then t
  else t ++ (if t.length ≠ 0 then [';'] else []) ++ colorless

/-- `_sequences` (`span.py:256,318`). -/
def sequences (env : Color.Env) (s : Span) : Str := wrapSgr (s.total env)

/-- `_colorless_sequences` (`span.py:257,319`). -/
def colorlessSequences (s : Span) : Str := wrapSgr s.style.colorless

/-- `str(span)`, i.e. `_computed` (`span.py:246-260`). -/
def render (env : Color.Env) (s : Span) : Str :=
  let seqs := s.sequences env
  let resetEnd := if s.resetAfter && !seqs.isEmpty then RESET else []
  let combined := seqs ++ s.text ++ resetEnd
  if s.hyperlink.isEmpty then combined
  else "\x1b]8;;".toList ++ s.hyperlink ++ "\x1b\\".toList ++ combined ++ "\x1b]8;;\x1b\\".toList

/-- `len(span)` (`span.py:262-263`). -/
def len (s : Span) : Nat := s.text.length

/-- Worker of `getCharacters`: the loop over `self.text` (`span.py:435-449`);
`seqs` is `sequences`, `rem` is `remaining_sequences`. -/
def charsGo (seqs : Str) (always reset : Bool) : Str → Str → List Str
  | _, [] => []
  | rem, [c] => [if !seqs.isEmpty && reset then rem ++ [c] ++ RESET else [c]]
  | rem, c :: d :: t => (rem ++ [c]) :: charsGo seqs always reset (if always then rem else []) (d :: t)

/-- `get_characters` (`span.py:418-451`), uncached. -/
def getCharacters (env : Color.Env) (s : Span) (excludeColor always : Bool) : List Str :=
  let seqs := if excludeColor then s.colorlessSequences else s.sequences env
  charsGo seqs always s.resetAfter seqs s.text

/-- The call made by the screen: `get_characters(exclude_color=True,
always_include_sequence=True)` (`screen.py:202`); independent of the colour space. -/
def cellChars (s : Span) : List Str :=
  charsGo s.colorlessSequences true s.resetAfter s.colorlessSequences s.text

/-! ### `mutate` and the methods built on it -/

/-- Keyword arguments of `mutate`: `none` = not given. -/
structure Update where
  text : Option Str := none
  fg : Option (Option Color) := none
  bg : Option (Option Color) := none
  hyperlink : Option Str := none
  bold : Option Bool := none
  dim : Option Bool := none
  italic : Option Bool := none
  underline : Option Bool := none
  blink : Option Bool := none
  fastBlink : Option Bool := none
  invert : Option Bool := none
  conceal : Option Bool := none
  strike : Option Bool := none
  isOpaque : Option Bool := none
  resetAfter : Option Bool := none

/-- `mutate` (`span.py:551-557`) with `attrs` (`span.py:322-341`): `attrs` does not
contain `reset_after`, so the new span gets the default `True` unless given. -/
def mutate (s : Span) (u : Update) : Span :=
  { text := u.text.getD s.text
    fg := u.fg.getD s.fg
    bg := u.bg.getD s.bg
    hyperlink := u.hyperlink.getD s.hyperlink
    style :=
      { bold := u.bold.getD s.style.bold
        dim := u.dim.getD s.style.dim
        italic := u.italic.getD s.style.italic
        underline := u.underline.getD s.style.underline
        blink := u.blink.getD s.style.blink
        fastBlink := u.fastBlink.getD s.style.fastBlink
        invert := u.invert.getD s.style.invert
        conceal := u.conceal.getD s.style.conceal
        strike := u.strike.getD s.style.strike
        isOpaque := u.isOpaque.getD s.style.isOpaque }
    resetAfter := u.resetAfter.getD true }

/-- Python's normalisation of a slice bound against a length (step 1). -/
def sliceBound (n : Nat) (i : Int) : Nat :=
  if i < 0 then (i + n).toNat else min i.toNat n

/-- `text[i:j]` with optional bounds. -/
def sliceStr (t : Str) (i j : Option Int) : Str :=
  let n := t.length
  let a := match i with | some i => sliceBound n i | none => 0
  let b := match j with | some j => sliceBound n j | none => n
  (t.take b).drop a

/-- `span[i:j]` (`span.py:268-269`). -/
def slice (s : Span) (i j : Option Int) : Span :=
  s.mutate { text := some (sliceStr s.text i j) }

/-- `span[i]` for an `int` (`span.py:268-269`). -/
def item (s : Span) (i : Int) : Except PyErr Span :=
  let k := if i < 0 then i + s.text.length else i
  if k < 0 then .error .indexError
  else match s.text[k.toNat]? with
    | some c => .ok (s.mutate { text := some [c] })
    | none => .error .indexError

/-- `list(span)`: there is no `__iter__`, so Python asks for `span[0]`, `span[1]`, … up to the `IndexError` (`span.py:262-269`,
see `items_getElem?`). -/
def items (s : Span) : List Span := s.text.map fun c => s.mutate { text := some [c] }

/-- `span.split(char)` (`span.py:559-562`); an empty separator raises `ValueError`. -/
def split (s : Span) (sep : Str := [' ']) : Except PyErr (List Span) :=
  if sep.isEmpty then .error .valueError
  else .ok ((splitS sep s.text).map fun p => s.mutate { text := some p })

/-- `as_color` with a `Color` (`span.py:564-573`). -/
def asColor (s : Span) (c : Color) : Span :=
  if c.isBg then s.mutate { bg := some (some c) } else s.mutate { fg := some (some c) }

/-- Python `==` on optional colours. -/
def optEq : Option Color → Option Color → Bool
  | none, none => true
  | some c, some d => c.eq d
  | _, _ => false

/-- Equality of the `attrs` dictionaries without the text (`span.py:402-404`). -/
def attrsEq (s t : Span) : Bool :=
  optEq s.fg t.fg && optEq s.bg t.bg && decide (s.hyperlink = t.hyperlink) &&
  decide (s.style = t.style)

/-- Dataclass `==` (`span.py:216`): all compared fields, including the computed
strings, under a given environment. -/
def eq (env : Color.Env) (s t : Span) : Bool :=
  decide (s.text = t.text) && attrsEq s t && decide (s.resetAfter = t.resetAfter) &&
  decide (s.render env = t.render env) && decide (s.sequences env = t.sequences env) &&
  decide (s.colorlessSequences = t.colorlessSequences)

end Span

/-! ### Parsing -/

/-- The options dictionary of `yield_from` (`span.py:351`): missing keys and the
defaults of `Span` coincide. `bad` records that a key was stored that is not a
field of `Span` (`"blink2"`, `"invisible"`, `"strikethrough"`, `"overline"`), for
which `Span(plain, **options)` raises `TypeError`. -/
structure Opts where
  style : Style := {}
  fg : Option Color := none
  bg : Option Color := none
  bad : Bool := false
  deriving DecidableEq, Repr

/-- `_is_background_color` (`span.py:105-111`). -/
def isBackgroundColor (body : Str) : Bool :=
  startsWith body ['4'] || (startsWith body ['1', '0'] && decide (2 < body.length))

/-- `_is_valid_color` (`span.py:114-145`). `parts[1]` raises `IndexError` when the
body has no `";"`: impossible for a non-digit body built by `_parse_sequence`,
but modelled. -/
def isValidColor (body : Str) : Except PyErr Bool :=
  if isDigit body then
    match Py.int 10 body with
    | none => .error .valueError
    | some index =>
      if 30 ≤ index ∧ index ≤ 49 ∧ index ≠ 38 ∧ index ≠ 48 then .ok true
      else if (90 ≤ index ∧ index ≤ 97) ∨ (100 ≤ index ∧ index ≤ 107) then .ok true
      else .ok false
  else
    let parts := splitC ';' body
    match parts[1]? with
    | none => .error .indexError
    | some p =>
      if p = "2".toList then .ok (decide (parts.length = 5 ∨ parts.length = 6))
      else if p = "5".toList then .ok (decide (parts.length = 3 ∨ parts.length = 4))
      else .ok false

/-- `part.isdigit() and int(part) in chain(range(30, 49), range(90, 108)) and part
not in ["39", "49"]` (`span.py:165-169`). -/
def startsColor (part : Str) : Bool :=
  isDigit part &&
  (match Py.int 10 part with
   | some n => (decide (30 ≤ n) && decide (n < 49)) || (decide (90 ≤ n) && decide (n < 108))
   | none => false) &&
  !(decide (part = "39".toList) || decide (part = "49".toList))

/-- `SETTERS_TO_STYLES` (`span.py:27`) applied to the options (`span.py:192-194`). -/
def applySetter (part : Str) (o : Opts) : Option Opts :=
  if part = "1".toList then some { o with style := { o.style with bold := true } }
  else if part = "2".toList then some { o with style := { o.style with dim := true } }
  else if part = "3".toList then some { o with style := { o.style with italic := true } }
  else if part = "4".toList then some { o with style := { o.style with underline := true } }
  else if part = "5".toList then some { o with style := { o.style with blink := true } }
  else if part = "6".toList then some { o with style := { o.style with fastBlink := true } }
  else if part = "7".toList then some { o with style := { o.style with invert := true } }
  else if part = "8".toList then some { o with style := { o.style with conceal := true } }
  else if part = "9".toList then some { o with style := { o.style with strike := true } }
  else if part = "99".toList then some { o with style := { o.style with isOpaque := true } }
  else none

/-- `UNSETTERS_TO_STYLES` (`span.py:29-44`; `"22"` maps to `"bold"`, the last of the
two keys with that value) applied to the options (`span.py:196-209`). -/
def applyUnsetter (part : Str) (o : Opts) : Option Opts :=
  if part = "22".toList then some { o with style := { o.style with bold := false, dim := false } }
  else if part = "23".toList then some { o with style := { o.style with italic := false } }
  else if part = "24".toList then some { o with style := { o.style with underline := false } }
  else if part = "25".toList then some { o with style := { o.style with blink := false } }
  else if part = "26".toList then some { o with bad := true }
  else if part = "27".toList then some { o with style := { o.style with invert := false } }
  else if part = "28".toList then some { o with bad := true }
  else if part = "29".toList then some { o with bad := true }
  else if part = "39".toList then some { o with fg := none }
  else if part = "49".toList then some { o with bg := none }
  else if part = "54".toList then some { o with bad := true }
  else none

/-- Outcome of `_parse_sequence`: options, and `ok none` (fine), `ok (some part)`
(first unparseable part) or an exception raised inside. -/
abbrev ParseRes := Opts × Except PyErr (Option Str)

/-- The loop of `_parse_sequence` (`span.py:159-213`). `buf` is `color_buffer`,
`inColor` is `in_color`. `int(part)` raises `ValueError` for digits that are not decimal and for too many of them. The test `len(parts) >= i or "." not in parts[i + 1]` is
always true (`i < len(parts)`), so it does not appear. -/
def parseParts : List Str → Bool → Str → Opts → ParseRes
  | [], _, _, o => (o, .ok none)
  | part :: rest, inColor, buf, o =>
    if isDigit part && (Py.int 10 part).isNone then (o, .error .valueError)
    else if inColor || startsColor part then
      let buf := buf ++ part
      match isValidColor buf with
      | .error e => (o, .error e)
      | .ok true =>
        match Color.fromAnsi buf with
        | .error e => (o, .error e)
        | .ok c =>
          let o := if isBackgroundColor buf then { o with bg := some c } else { o with fg := some c }
          parseParts rest false [] o
      | .ok false => parseParts rest true (buf ++ [';']) o
    else match applySetter part o with
      | some o => parseParts rest false buf o
      | none => match applyUnsetter part o with
        | some o => parseParts rest false buf o
        | none => (o, .ok (some part))

/-- `_parse_sequence` (`span.py:148-213`). -/
def parseSequence (seq : Str) (o : Opts) : ParseRes := parseParts (splitC ';' seq) false [] o

/-- `Span(plain, **options)` (`span.py:361`). -/
def spanOfOpts (plain : Str) (o : Opts) : Except PyErr Span :=
  if o.bad then .error .typeError
  else .ok { text := plain, fg := o.fg, bg := o.bg, style := o.style }

/-- The loop of `yield_from` over the matches (`span.py:353-361`): the spans yielded,
the end of the last match seen, and the exception that ended the loop, if any. -/
def yieldLoop : List (Str × Str × Nat) → Opts → Nat → List Span × Nat × Option PyErr
  | [], _, index => ([], index, none)
  | (seq, plain, stop) :: ms, o, _ =>
    match parseSequence seq o with
    | (_, .error e) => ([], stop, some e)
    | (_, .ok (some _)) => ([], stop, some .valueError)
    | (o, .ok none) =>
      match spanOfOpts plain o with
      | .error e => ([], stop, some e)
      | .ok sp =>
        let (sps, i, e) := yieldLoop ms o stop
        (sp :: sps, i, e)

/-- `Span.yield_from` (`span.py:343-366`), exhausted: the spans yielded before the
generator ended, and the exception it ended with, if any. -/
def yieldFrom (line : Str) : List Span × Option PyErr :=
  let line := if endsWith line [ESC] then line else line ++ [ESC]
  match yieldLoop (styleMatches line) {} 0 with
  | (sps, _, some e) => (sps, some e)
  | (sps, index, none) =>
    let line := rstrip (· == ESC) line
    if index < line.length then (sps ++ [{ text := line.drop index }], none)
    else (sps, none)

/-- `Span.first_from` (`span.py:368-375`): stops at the first span yielded; an
exception only surfaces if it happens before. -/
def firstFrom (line : Str) : Except PyErr (Option Span) :=
  match yieldFrom line with
  | (sp :: _, _) => .ok (some sp)
  | ([], some e) => .error e
  | ([], none) => .ok none

/-! ### Grouping -/

/-- A screen cell: `(char, foreground, background)` (`screen.py:78`). -/
structure Cell where
  char : Str
  fg : Option Color := none
  bg : Option Color := none
  deriving DecidableEq, Repr

/-- `EMPTY_SPAN` (`span.py:626`). -/
def emptySpan : Span := { text := [] }

/-- State of the loop of `group` (`span.py:384-386`). `started` is
`group is not EMPTY_SPAN`. `attrs` is kept as a span whose text is ignored. -/
structure GroupState where
  group : Span := emptySpan
  started : Bool := false
  attrs : Span := emptySpan
  prevStr : Str := []

/-- The loop of `Span.group` (`span.py:388-416`). Yields are collected. -/
def groupGo (env : Color.Env) : List Cell → GroupState → Except PyErr (List Span)
  | [], st => .ok [st.group]
  | cell :: cells, st =>
    if cell.char = st.prevStr then
      match cell.char.getLast? with
      | none => .error .indexError
      | some c =>
        groupGo env cells
          { st with group := st.group.mutate { text := some (st.group.text ++ [c]) }, started := true }
    else
      match firstFrom cell.char with
      | .error e => .error e
      | .ok sp =>
        let span := (sp.getD emptySpan).mutate { fg := some cell.fg, bg := some cell.bg }
        if Span.attrsEq span st.attrs then
          groupGo env cells
            { st with group := st.group.mutate { text := some (st.group.text ++ span.text) }, started := true }
        else
          match groupGo env cells
              { group := span, started := true, attrs := span,
                prevStr := (span.mutate { resetAfter := some false }).render env } with
          | .error e => .error e
          | .ok out => .ok (if st.started then st.group :: out else out)

/-- `Span.group(line)` exhausted (`span.py:377-416`); the final `yield group` is
unconditional because `group` is never `None`. Simplification: a generator that
raises yields the groups before the exception first; here only the exception is kept. -/
def group (env : Color.Env) (line : List Cell) : Except PyErr (List Span) :=
  groupGo env line {}

/-! ### SVG -/

/-- `html.escape(s)` (quote=True): the replacements of the standard library in their
order, used by `_escape_html` (`span.py:92`). -/
def htmlEscape (s : Str) : Str :=
  let s := replace ['&'] "&amp;".toList s
  let s := replace ['<'] "&lt;".toList s
  let s := replace ['>'] "&gt;".toList s
  let s := replace ['"'] "&quot;".toList s
  replace ['\''] "&#x27;".toList s

/-- `_escape_html` (`span.py:89-92`): `escape(text).replace(" ", "&#160;")`. -/
def escapeHtml (text : Str) : Str := replace [' '] "&#160;".toList (htmlEscape text)

/-- `_is_block` (`span.py:95-102`). -/
def isBlock (text : Str) : Bool := text.all fun c => 9600 ≤ c.toNat && c.toNat ≤ 9631

end Slate
