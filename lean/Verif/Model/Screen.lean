import Mathlib.Data.List.Sort
import Verif.Model.Span

/-!
# `slate/screen.py`

Sizes are natural numbers (the code would treat negative sizes like 0);
positions are integers, as in the code.
-/

namespace Slate
open Py

/-- Python `==` of two cells, i.e. of `(char, fg, bg)` tuples (`screen.py:287`). -/
def Cell.eq (a b : Cell) : Bool :=
  decide (a.char = b.char) && Span.optEq a.fg b.fg && Span.optEq a.bg b.bg

/-! ### `_get_blended` -/

/-- `_get_blended` (`screen.py:13-33`) with `is_background=None`; the addition is a
float operation. -/
def getBlended (base other : Option Color) (addition : Rat) : Option Color :=
  match base, other with
  | none, none => none
  | some b, none => some b
  | none, some o => some o
  | some b, some o =>
    if o.alpha = 1 then some o
    else some (b.blend o (min (fl (o.alpha + addition)) 1))

/-! ### `ChangeBuffer` -/

/-- The dictionary of pending changes: `(x, y) ↦ string`, in insertion order
(`screen.py:39-43`). -/
abbrev Changes := List ((Nat × Nat) × Str)

/-- `self._data[indices] = value` (`screen.py:42-43`): dictionary assignment keeps the
place of an existing key and appends a new one. -/
def Changes.insert (k : Nat × Nat) (v : Str) : Changes → Changes
  | [] => [(k, v)]
  | (k', v') :: rest => if k' = k then (k, v) :: rest else (k', v') :: Changes.insert k v rest

/-- The sort key `(y, x)` of `gather` (`screen.py:61`), as a comparison. -/
def Changes.le (a b : (Nat × Nat) × Str) : Bool :=
  decide (a.1.2 < b.1.2) || (decide (a.1.2 = b.1.2) && decide (a.1.1 ≤ b.1.1))

/-- `gather` (`screen.py:50-61`): a stable sort by `(y, x)` (which stable sorting
algorithm is used makes no difference). -/
def Changes.gather (c : Changes) : Changes := c.insertionSort (Changes.le · ·)

/-! ### `Screen` -/

/-- A `Screen` (`screen.py:64-84`). -/
structure Screen where
  width : Nat
  height : Nat
  cells : List (List Cell)
  changes : Changes
  cursor : Int × Int
  offset : Int

/-- The cell `self._cells[y][x]`; `none` is `IndexError`. -/
def cellAt (cells : List (List Cell)) (x y : Nat) : Option Cell :=
  match cells[y]? with
  | some row => row[x]?
  | none => none

/-- `self._cells[y][x] = new`. -/
def setCell (cells : List (List Cell)) (x y : Nat) (c : Cell) : List (List Cell) :=
  cells.modify y fun row => row.set x c

/-- All positions `(x, y)` in the order of two nested `range` loops, rows outside. -/
def positions (width height : Nat) : List (Nat × Nat) :=
  (List.range height).flatMap fun y => (List.range width).map fun x => (x, y)

namespace Screen

/-- `resize` (`screen.py:86-124`). The code first builds a matrix of fill cells,
queueing the fill character for every position, and then copies the old cells
that lie inside the new area; the model builds the resulting matrix pointwise. -/
def resize (s : Screen) (size : Nat × Nat) (fill : Str := [' ']) (keep : Bool := true) : Screen :=
  let (w, h) := size
  { s with
    width := w
    height := h
    cells := (List.range h).map fun y => (List.range w).map fun x =>
      if keep then (cellAt s.cells x y).getD { char := fill } else { char := fill }
    changes := (positions w h).foldl (fun ch p => ch.insert p fill) s.changes }

/-- `Screen(width, height, cursor, fillchar)` (`screen.py:71-84`). -/
def init (width height : Nat) (cursor : Int × Int := (0, 0)) (fill : Str := [' ']) : Screen :=
  resize { width := 0, height := 0, cells := [], changes := [], cursor := cursor, offset := 0 }
    (width, height) fill

/-- `clear` (`screen.py:126-134`). -/
def clear (s : Screen) (fill : Str := [' ']) : Screen :=
  { s.resize (s.width, s.height) fill false with cursor := (0, 0) }

end Screen

/-! ### The cache of `Span.get_characters` -/

/-- The `lru_cache` around `get_characters` (`span.py:418`), restricted to the
arguments used by the screen: most recently used entry first. The key is the
span; `hash` covers all fields, so spans that differ in any field are different
keys. -/
abbrev CharCache := List (Span × List Str)

/-- A call of the cached `get_characters` (`screen.py:202`): the list and the cache
in which the entry of `s` is now the first. `maxsize` is 128. -/
def CharCache.get (cache : CharCache) (s : Span) : List Str × CharCache :=
  match cache.lookup s with
  | some l => (l, (s, l) :: cache.filter fun e => decide (e.1 ≠ s))
  | none => (s.cellChars, ((s, s.cellChars) :: cache).take 128)

/-- Assignment through the list object shared with the cache (`screen.py:207`). -/
def CharCache.assign (cache : CharCache) (s : Span) (l : List Str) : CharCache :=
  cache.map fun e => if e.1 = s then (s, l) else e

/-! ### `write_bulk`: the fill phase -/

/-- A non-blank entry of `write_matrix` (`screen.py:242`):
`(final_char, final_fg, final_bg, _, char != final_char)`. The fourth component is
never read. -/
structure WCell where
  char : Str
  fg : Option Color
  bg : Option Color
  bleed : Bool
  deriving DecidableEq, Repr

/-- `write_matrix` (`screen.py:177-181`) and `alpha_matrix` (`screen.py:183-191`), as
functions of `x y`: every access in the code is guarded by the bounds test of
`screen.py:215`. `none` is the (identical) `blank` object. -/
structure Mats where
  wm : Nat → Nat → Option WCell
  am : Nat → Nat → List Color

/-- Both matrices empty. -/
def Mats.blank : Mats := { wm := fun _ _ => none, am := fun _ _ => [] }

/-- Pointwise update. -/
def upd {α : Type} (f : Nat → Nat → α) (x y : Nat) (v : α) : Nat → Nat → α :=
  fun x' y' => if x' = x ∧ y' = y then v else f x' y'

/-- Loop variables of the inner loop: position, and the variable `last`, which the
code uses both for `len(line) - 1` (`screen.py:195`) and for a boolean
(`screen.py:222`; `True == 1`, `False == 0`). -/
structure Pen where
  x : Int
  y : Int
  last : Int
  deriving DecidableEq, Repr

/-- `bg_has_alpha` (`screen.py:200`). -/
def bgHasAlpha (bg : Option Color) : Bool :=
  match bg with
  | some c => decide (c.alpha ≠ 1)
  | none => false

/-- `empty` (`screen.py:236`). -/
def isEmptyChar (char : Str) (style : Style) : Bool :=
  (strip (subAnsi char)).isEmpty && !style.isOpaque

/-- Writing one character into the matrices (`screen.py:230-242`). -/
def putCell (m : Mats) (span : Span) (char : Str) (x y : Nat) : Mats :=
  match m.wm x y with
  | some old =>
    if bgHasAlpha span.bg then
      let empty := isEmptyChar char span.style
      let finalFg := if empty then old.fg else span.fg
      let finalChar := if empty then old.char else char
      { wm := upd m.wm x y (some { char := finalChar, fg := finalFg, bg := old.bg,
                                   bleed := decide (char ≠ finalChar) })
        am := upd m.am x y (m.am x y ++ span.bg.toList) }
    else
      { m with wm := upd m.wm x y (some { char := char, fg := span.fg, bg := span.bg, bleed := false }) }
  | none =>
    { m with wm := upd m.wm x y (some { char := char, fg := span.fg, bg := span.bg, bleed := false }) }

/-- The loop over the characters of a span (`screen.py:214-244`). -/
def putChars (width height : Nat) (span : Span) : List Str → Pen → Mats → Pen × Mats
  | [], p, m => (p, m)
  | char :: rest, p, m =>
    if (width : Int) ≤ p.x ∨ p.x < 0 ∨ (height : Int) ≤ p.y ∨ p.y < 0 then (p, m)
    else if char = ['\n'] then
      putChars width height span rest { p with y := p.y + 1 } m
    else
      let last : Int := if rest.isEmpty then 1 else 0
      let next : Int × Int := if (width : Int) ≤ p.x + 1 then (0, p.y + 1) else (p.x + 1, p.y)
      putChars width height span rest { x := next.1, y := next.2, last := last }
        (putCell m span char p.x.toNat p.y.toNat)

/-- The objects that `write_bulk` mutates: the screen and the cache. -/
structure World where
  scr : Screen
  cache : CharCache := []

/-- `chars[-1] = chars[-1] + "\n"` on a non-empty list (`screen.py:207`). -/
def appendNewline (l : List Str) : List Str :=
  match l.getLast? with
  | some c => l.dropLast ++ [c ++ ['\n']]
  | none => []

/-- The loop over the spans of a line (`screen.py:197-244`); `i` is the index of the
first span of the list. -/
def putSpans : List Span → Nat → Pen → Mats → World → Pen × Mats × World × Option PyErr
  | [], _, p, m, w => (p, m, w, none)
  | span :: rest, i, p, m, w =>
    let (chars, cache) := w.cache.get span
    let w := { w with cache := cache }
    if (i : Int) = p.last ∧ p.y - w.scr.offset > (w.scr.height : Int) - 1 then
      -- scroll (`screen.py:205-210`)
      let w := { w with scr := { w.scr with offset := p.y - w.scr.height + 1 } }
      if chars.isEmpty then (p, m, w, some .indexError)
      else
        let chars := appendNewline chars
        let w := { w with cache := w.cache.assign span chars }
        match w.scr.cells with
        | [] => (p, m, w, some .indexError)
        | _ :: rows =>
          let w := { w with scr := { w.scr with
            cells := rows ++ [List.replicate w.scr.width { char := [] }] } }
          let p := { p with y := p.y - w.scr.offset }
          let (p, m) := putChars w.scr.width w.scr.height span chars p m
          putSpans rest (i + 1) p m w
    else
      let p := { p with y := p.y - w.scr.offset }
      let (p, m) := putChars w.scr.width w.scr.height span chars p m
      putSpans rest (i + 1) p m w

/-- One element of the `data` argument: the position (`None` possible through
`Screen.write`) and the spans. -/
abbrev Entry := Option (Int × Int) × List Span

/-- The loop over `data` (`screen.py:193-244`). Unpacking `None` raises `TypeError`. -/
def putData : List Entry → Mats → World → Mats × World × Option PyErr
  | [], m, w => (m, w, none)
  | (none, _) :: _, m, w => (m, w, some .typeError)
  | (some (x, y), line) :: rest, m, w =>
    match putSpans line 0 { x := x, y := y, last := (line.length : Int) - 1 } m w with
    | (_, m, w, some e) => (m, w, some e)
    | (_, m, w, none) => putData rest m w

/-! ### `write_bulk`: the commit phase -/

/-- State of the loop over the alpha stack (`screen.py:258-272`). -/
structure Blend where
  blent : Option Color
  fg : Option Color
  last : Option Color

/-- One iteration over the alpha stack (`screen.py:264-272`). -/
def blendStep (bleed : Bool) (s : Blend) (c : Color) : Blend :=
  match s.last with
  | some l => if c.eq l then s else
      { blent := getBlended s.blent (some c) (fl (1 / 10))
        fg := if bleed then getBlended s.fg (some c) (fl (1 / 10)) else s.fg
        last := some c }
  | none =>
      { blent := getBlended s.blent (some c) (fl (1 / 10))
        fg := if bleed then getBlended s.fg (some c) (fl (1 / 10)) else s.fg
        last := some c }

/-- The final background (`screen.py:264-277`) and foreground (`screen.py:259,279-280`). -/
def resolveColors (tb : Color) (stack : List Color) (c : WCell) : Option Color × Option Color :=
  let s := stack.foldl (blendStep c.bleed)
    { blent := c.bg, fg := some (c.fg.getD Color.white), last := c.bg }
  let bg := match s.blent with
    | some b => if b.alpha ≠ 1 then getBlended (some tb) (some b) (fl (1 / 10)) else some b
    | none => none
  let fg := match s.fg with
    | some f => if f.alpha ≠ 1 then getBlended (some f) bg 0 else some f
    | none => none
  (fg, bg)

/-- The cell stored for a write-matrix entry (`screen.py:282-285`). -/
def resolveCell (tb : Color) (stack : List Color) (c : WCell) : Cell :=
  let (fg, bg) := resolveColors tb stack c
  { char := rstrip (· == '\n') c.char, fg := fg, bg := bg }

/-- The string queued for a changed cell (`screen.py:290-300`). -/
def changeStr (env : Color.Env) (new : Cell) (hasNewline : Bool) : Str :=
  let colors := new.fg.toList.map (Color.ansi env) ++ new.bg.toList.map (Color.ansi env)
  let color := join [';'] colors
  let char := if color.isEmpty then new.char
    else ['\x1b', '['] ++ color ++ ['m'] ++ new.char ++ RESET
  char ++ (if hasNewline then ['\n'] else [])

/-- One position of the commit loop (`screen.py:248-302`). The accumulator is the
screen and the number of changes, or the exception of `self._cells[y][x]`. -/
def commitCell (env : Color.Env) (tb : Color) (m : Mats) (acc : Screen × Except PyErr Nat)
    (pos : Nat × Nat) : Screen × Except PyErr Nat :=
  let (x, y) := pos
  match acc with
  | (s, .error e) => (s, .error e)
  | (s, .ok n) =>
    match m.wm x y with
    | none => (s, .ok n)
    | some c =>
      let new := resolveCell tb (m.am x y) c
      match cellAt s.cells x y with
      | none => (s, .error .indexError)
      | some old =>
        if new.eq old then (s, .ok n)
        else
          ({ s with
              cells := setCell s.cells x y new
              changes := s.changes.insert (x, y)
                (changeStr env new (endsWith c.char ['\n'])) },
           .ok (n + 1))

/-- The commit loop (`screen.py:246-304`). -/
def commit (env : Color.Env) (tb : Color) (m : Mats) (s : Screen) : Screen × Except PyErr Nat :=
  (positions s.width s.height).foldl (commitCell env tb m) (s, .ok 0)

/-- `write_bulk` (`screen.py:158-304`). `force` is accepted and ignored, as in the code. -/
def writeBulk (env : Color.Env) (data : List Entry) (tb : Color) (_force : Bool) (w : World) :
    World × Except PyErr Nat :=
  match putData data Mats.blank w with
  | (_, w, some e) => (w, .error e)
  | (m, w, none) =>
    let (s, r) := commit env tb m w.scr
    ({ w with scr := s }, r)

/-- `write` (`screen.py:136-156`). -/
def write (env : Color.Env) (spans : List Span) (cursor : Option (Int × Int)) (tb : Color)
    (force : Bool) (w : World) : World × Except PyErr Nat :=
  writeBulk env [(cursor, spans)] tb force w

/-! ### `render` -/

/-- `f"\x1b[{y};{x}H"` (`screen.py:320,339`). -/
def cursorTo (x y : Int) : Str := ['\x1b', '['] ++ decInt y ++ [';'] ++ decInt x ++ ['H']

/-- The loop of the differential render (`screen.py:329-341`); `prev` is
`(previous_x, previous_y)`. -/
def renderGo (origin : Int × Int) : Option (Int × Int) → Changes → Str
  | _, [] => []
  | prev, ((x, y), char) :: rest =>
    let x : Int := x + origin.1
    let y : Int := y + origin.2
    let move := match prev with
      | some (px, py) => if x = px + 1 ∧ y = py then [] else cursorTo x y
      | none => cursorTo x y
    move ++ char ++ renderGo origin (some (x, y)) rest

/-- The rows of a redraw (`screen.py:319-321`). -/
def redrawGo (x : Int) : Int → List (List Cell) → Str
  | _, [] => []
  | y, row :: rows => cursorTo x y ++ row.flatMap (·.char) ++ redrawGo x (y + 1) rows

/-- `render` (`screen.py:307-348`). -/
def Screen.render (s : Screen) (origin : Int × Int := (0, 0)) (redraw : Bool := false) : Screen × Str :=
  if redraw then ({ s with changes := [] }, redrawGo origin.1 origin.2 s.cells)
  else
    let buffer := renderGo origin none s.changes.gather
    ({ s with changes := [] }, if endsWith buffer RESET then buffer else buffer ++ RESET)

end Slate
