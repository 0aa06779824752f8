import Verif.Model.Color
import Verif.Model.ColorSpace
import Verif.Model.KeyNames

/-!
# Input: `slate/core.py:51-142, 158-166, 230-332, 378-429, 485-527` and `Terminal.resolution`

How bytes become text (`_read`, `core.py:410-423`) and the Windows implementation
(`core.py:450-511`) are in `Model/Decode.lean`. Reading from the tty is modelled here by
its result; what it does to the tty is in `Model/Tty.lean`.
-/

namespace Slate
open Py

namespace Core

/-! ### `Key` -/

/-- `Key` (`core.py:63-71`): `possible_values`. -/
structure Key where
  names : List Str
  deriving DecidableEq, Repr

/-- What a key can be compared with: a `str`, a `Key`, or anything else. -/
inductive Obj where
  | str (s : Str)
  | key (k : Key)
  | other (n : Nat)
  deriving DecidableEq

/-- `Key.__eq__` (`core.py:73-77`). -/
def Key.eq (k : Key) (other : Obj) : Bool :=
  match other with
  | .str s => decide (s ∈ k.names)
  | _ => false

/-- `Key.__str__` (`core.py:79-80`): `IndexError` without names. -/
def Key.str (k : Key) : Except PyErr Str :=
  match k.names with
  | n :: _ => .ok n
  | [] => .error .indexError

/-- `Key.__iter__` (`core.py:82-83`). -/
def Key.iter (k : Key) : List Str := k.names

/-! ### Mouse events -/

/-- `_MODIFIERS` (`core.py:51-60`). -/
def modifiers : List Str :=
  ["".toList, "shift_".toList, "option_".toList, "shift_option_".toList, "ctrl_".toList,
   "shift_ctrl_".toList, "ctrl_option_".toList, "shift_ctrl_option_".toList]

/-- The loop of `_build_event` (`core.py:115-126`), keys as numbers before `str`. -/
def buildGo (name : Str) (alt : Bool) : List Str → Nat → List (Str × Str)
  | [], _ => []
  | m :: ms, base =>
    (if alt then [(dec base, m ++ "left_".toList ++ name), (dec (base + 2), m ++ "right_".toList ++ name)]
     else [(dec base, m ++ name)]) ++ buildGo name alt ms (base + 4)

/-- `_build_event` (`core.py:86-126`). -/
def buildEvent (name : Str) (base : Nat) (alt : Bool := false) : List (Str × Str) :=
  buildGo name alt modifiers base

/-- `MOUSE_EVENTS` (`core.py:130-142`), without the sorting (no order is observable
through `[]`). -/
def mouseEvents : List (Str × Str) :=
  buildEvent "click".toList 0 true ++ buildEvent "drag".toList 32 true ++ buildEvent "hover".toList 35 ++
  buildEvent "scroll_up".toList 64 ++ buildEvent "scroll_down".toList 65 ++
  buildEvent "scroll_left".toList 66 ++ buildEvent "scroll_right".toList 67

/-- Lookup in a dictionary built from `entries`: later ones win. -/
def dictGet {α : Type} (entries : List (Str × α)) (k : Str) : Option α := entries.reverse.lookup k

/-- `parse_mouse_event` (`core.py:305-332`). -/
def parseMouseEvent (code : Str) : Except PyErr (Option Str) :=
  if code = ['\x1b'] ∨ count ';' code ≠ 2 then .ok none
  else
    match splitC ';' (lstrip (fun c => decide (c ∈ ['\x1b', '[', '<'])) code) with
    | [event, posx, posyPressed] =>
      match posyPressed.getLast? with
      | none => .error .indexError
      | some final =>
        match dictGet mouseEvents event with
        | none => .error .keyError
        | some name =>
          let name := if final = 'M' then name else replace "click".toList "release".toList name
          .ok (some ("mouse:".toList ++ name ++ ['@'] ++ posx ++ [';'] ++ posyPressed.dropLast))
    | _ => .error .valueError

/-! ### `getch` -/

/-- How reading from the tty ends (`core.py:515-519`): text, `KeyboardInterrupt`, or
another exception. -/
inductive Input where
  | text (s : Str)
  | interrupt
  | error (e : PyErr)
  deriving DecidableEq

/-- From the text read to the key (`core.py:521-527`). `key.split("\x1b")[-1]` exists. -/
def keyOf (raw : Bool) (key : Str) : Except PyErr Key :=
  if raw then .ok ⟨[key]⟩
  else
    match parseMouseEvent ('\x1b' :: (splitC '\x1b' key).getLastD []) with
    | .error e => .error e
    | .ok (some event) =>
      -- `if event := ...`: an empty string would be false
      if event.isEmpty then .ok ⟨(dictGet posixKeyNames key).getD [key]⟩ else .ok ⟨[event]⟩
    | .ok none => .ok ⟨(dictGet posixKeyNames key).getD [key]⟩

/-- `getch` on POSIX (`core.py:485-527`). -/
def getch (tty : Bool) (raw : Bool) (inp : Input) : Except PyErr Key :=
  if !tty then .ok ⟨[[]]⟩
  else
    match inp with
    | .text s => keyOf raw s
    | .interrupt => keyOf raw ['\x03']
    | .error e => .error e

/-! ### The feeder stream -/

/-- An `io.StringIO`: contents and position. -/
structure StringIO where
  buf : Str := []
  pos : Nat := 0
  deriving DecidableEq

/-- `StringIO.write(text)`: overwrites from the position on (padding with NUL if the
position lies behind the end). Writing the empty string changes nothing. -/
def StringIO.write (s : StringIO) (text : Str) : StringIO :=
  if text = [] then s
  else
    { buf := s.buf.take s.pos ++ List.replicate (s.pos - s.buf.length) '\x00' ++ text ++
        s.buf.drop (s.pos + text.length)
      pos := s.pos + text.length }

/-- `feed` (`core.py:378-385`). -/
def feed (s : StringIO) (text : Str) : StringIO := { s.write text with pos := 0 }

/-- The first part of `_getch_posix` (`core.py:425-429`): fed text, if any. `none`
means that the tty is read. -/
def takeFed (s : StringIO) : StringIO × Option Str :=
  if s.buf = [] then (s, none) else ({ buf := [], pos := 0 }, some s.buf)

/-! ### `get_color_space` -/

/-- The environment variables read (`core.py:283-291`). -/
structure ShellEnv where
  slateColorsys : Option Str := none
  noColor : Option Str := none
  term : Option Str := none
  colorterm : Option Str := none

/-- `get_color_space` (`core.py:275-302`). -/
def getColorSpace (e : ShellEnv) : Except PyErr ColorSpace :=
  match e.slateColorsys with
  | some s =>
    match ColorSpace.ofValue (lower s) with
    | some c => .ok c
    | none => .error .valueError
  | none =>
    match e.noColor with
    | some _ => .ok .noColor
    | none =>
      let term := e.term.getD []
      let colorTerm := lower (strip (e.colorterm.getD []))
      let colorTerm := if colorTerm = [] then (splitS "xterm-".toList term).getLastD [] else colorTerm
      if colorTerm = "24bit".toList ∨ colorTerm = "truecolor".toList then .ok .trueColor
      else if colorTerm = "256color".toList then .ok .eightBit
      else .ok .standard

/-- `Terminal.color_space` (`terminal.py:94-104`). -/
def colorSpace (forced : Option ColorSpace) (e : ShellEnv) : Except PyErr ColorSpace :=
  match forced with
  | some c => .ok c
  | none => getColorSpace e

/-! ### `get_default_color` -/

/-- `[0-9a-f]`. -/
def isLowHex (c : Char) : Bool :=
  decide (48 ≤ c.toNat ∧ c.toNat ≤ 57) || decide (97 ≤ c.toNat ∧ c.toNat ≤ 102)

/-- `([0-9a-f]{4})` at the start: the group and the rest. -/
def hex4 : Str → Option (Str × Str)
  | a :: b :: c :: d :: rest =>
    if isLowHex a && isLowHex b && isLowHex c && isLowHex d then some ([a, b, c, d], rest) else none
  | _ => none

/-- A literal at the start: the rest. -/
def lit (p s : Str) : Option Str := if p.isPrefixOf s then some (s.drop p.length) else none

/-- `((?:10)|(?:11))` at the start: the group and the rest. -/
def layerMatch (s : Str) : Option (Str × Str) :=
  match lit "10".toList s with
  | some s => some ("10".toList, s)
  | none => (lit "11".toList s).map fun s => ("11".toList, s)

/-- `RE_PALETTE_REPLY.match` (`core.py:158-160`): the groups. -/
def paletteMatch (s : Str) : Option (Str × Str × Str × Str) := do
  let s ← lit ['\x1b', ']'] s
  let (layer, s) ← layerMatch s
  let s ← lit ";rgb:".toList s
  let (r, s) ← hex4 s
  let s ← lit ['/'] s
  let (g, s) ← hex4 s
  let s ← lit ['/'] s
  let (b, s) ← hex4 s
  let _ ← lit ['\x1b', '\\'] s
  some (layer, r, g, b)

/-- The layer queried: "10" foreground, "11" background. -/
inductive Layer where
  | fore
  | back
  deriving DecidableEq

/-- `DEFAULT_COLOR_DEFAULTS` (`core.py:164`). -/
def defaultDefault : Layer → Except PyErr Color
  | .fore => Color.ofString "#dedede".toList
  | .back => Color.ofString "#141414".toList

/-- `get_default_color` (`core.py:230-272`). The reply is read by a thread; if `getch`
raises there, the reply stays empty. -/
def getDefaultColor (tty : Bool) (layer : Layer) (inp : Input) : Except PyErr Color :=
  if !tty then defaultDefault layer
  else
    let reply : Str := match getch tty false inp with
      | .ok k => (match k.str with | .ok s => s | .error _ => [])
      | .error _ => []
    match paletteMatch reply with
    | none => defaultDefault layer
    | some (_, r, g, b) => Color.ofString ('#' :: (r.take 2 ++ g.take 2 ++ b.take 2))

/-! ### `Terminal.resolution` -/

/-- `([\d]+)` followed by `stop` at the start (`terminal.py:40`): digits and the rest. -/
def digitsThen (stop : Char) (s : Str) : Option (Str × Str) :=
  let ds := s.takeWhile isDecChar
  match s.dropWhile isDecChar with
  | c :: rest => if ds ≠ [] ∧ c = stop then some (ds, rest) else none
  | [] => none

/-- `RE_PIXEL_SIZE.match` (`terminal.py:40`): the two groups. -/
def pixelMatch (s : Str) : Option (Str × Str) := do
  let s ← lit ['\x1b', '[', '4', ';'] s
  let (h, s) ← digitsThen ';' s
  let (w, _) ← digitsThen 't' s
  some (h, w)

/-- `Terminal.resolution` (`terminal.py:177-207`); `reply` is what the tty delivers
within the timeout, `none` if it runs out; `stdin` says whether the standard input
is a tty (`core.py:502`). -/
def resolution (isatty stdin : Bool) (fallback : Nat × Nat) (reply : Option Input) : Except PyErr (Int × Int) :=
  if !isatty then .ok (fallback.1, fallback.2)
  else do
    let output ← if !stdin then .ok [] else match reply with
      | none => .ok (['\x1b', '[', '4', ';'] ++ dec fallback.2 ++ [';'] ++ dec fallback.1 ++ ['t'])
      | some inp => (do
          let k ← getch stdin false inp
          k.str)
    match pixelMatch output with
    | some (h, w) => do
      let w ← Color.pyInt 10 w
      let h ← Color.pyInt 10 h
      .ok (w, h)
    | none => .ok (fallback.1, fallback.2)

end Core
end Slate
