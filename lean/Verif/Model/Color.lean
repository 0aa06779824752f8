import Verif.Py.Float
import Verif.Model.ColorSpace
import Verif.Model.ColorInfo

/-!
# `slate/color.py`
-/

namespace Slate
open Py

/-- A `Color` instance (`color.py:124-138`). `r g b` are the components of `rgb`
(checked to be in `0..255` by the constructor, see `Color.make`), `alpha` is the
rational number denoted by the float, `origin` is `_origin_colorspace`, `ctor` is
`_constructor`. The derived fields `luminance`, `brightness`, `hls`, `hex` are
functions of `rgb` and are modelled as such. -/
structure Color where
  r : Nat
  g : Nat
  b : Nat
  isBg : Bool := false
  alpha : Rat := 1
  origin : ColorSpace := .trueColor
  ctor : Option Str := none
  deriving DecidableEq, Repr

namespace Color

/-- The range check `0 <= val < 256` of one component (`color.py:146`). -/
def chanOk (v : Int) : Bool := decide (0 ≤ v) && decide (v < 256)

/-- The constructor with its range check (`color.py:140-150`). -/
def make (rgb : Int × Int × Int) (isBg : Bool := false) (alpha : Rat := 1)
    (origin : ColorSpace := .trueColor) (ctor : Option Str := none) : Except PyErr Color :=
  if chanOk rgb.1 && chanOk rgb.2.1 && chanOk rgb.2.2 then
    .ok { r := rgb.1.toNat, g := rgb.2.1.toNat, b := rgb.2.2.toNat,
          isBg := isBg, alpha := alpha, origin := origin, ctor := ctor }
  else .error .valueError

/-- `__eq__` between two colours (`color.py:164-168`): RGB and alpha only. -/
def eq (c d : Color) : Bool :=
  c.r == d.r && c.g == d.g && c.b == d.b && decide (c.alpha = d.alpha)

/-- `self.hex` (`color.py:155`). -/
def hex (c : Color) : Str := '#' :: (hex2 c.r ++ hex2 c.g ++ hex2 c.b)

end Color

/-- Decimal value of a (possibly empty) run of ASCII digits. -/
def Py.digitsValue (s : Str) : Option Nat :=
  if s.all isDig then some (s.foldl (fun a c => a * 10 + (c.toNat - 48)) 0) else none

/-- The underscores of a number are between two digits (`prev` is the character before); they are left out. -/
def Py.dropUnderscores : Char → Str → Option Str
  | prev, [] => if prev = '_' then none else some []
  | prev, c :: cs =>
    if c = '_' then (if isDig prev then dropUnderscores c cs else none)
    else if prev = '_' && !isDig c then none
    else (dropUnderscores c cs).map (c :: ·)

/-- `float(s)` of a stripped string without underscores, containing a `"."`. -/
def Py.floatBody (s : Str) : Option Rat :=
  let (neg, s) := match s with
    | '-' :: t => (true, t)
    | '+' :: t => (false, t)
    | t => (false, t)
  let isE := fun c => c == 'e' || c == 'E'
  let mant := s.takeWhile (fun c => !isE c)
  let ip := mant.takeWhile (· != '.')
  let fp := (mant.dropWhile (· != '.')).drop 1
  let expo : Option Int := match s.dropWhile (fun c => !isE c) with
    | [] => some 0
    | _ :: '-' :: t => if t.isEmpty then none else (digitsValue t).map fun n => -(n : Int)
    | _ :: '+' :: t => if t.isEmpty then none else (digitsValue t).map fun n => (n : Int)
    | _ :: t => if t.isEmpty then none else (digitsValue t).map fun n => (n : Int)
  match digitsValue ip, digitsValue fp, expo with
  | some a, some b, some e =>
    if ip.isEmpty && fp.isEmpty then none
    else
      let m : Rat := (a : Rat) + mkRat b (10 ^ fp.length)
      let v := if 0 ≤ e then m * (10 ^ e.toNat : Nat) else m * mkRat 1 (10 ^ (-e).toNat)
      some (fl (if neg then -v else v))
  | _, _, _ => none

/-- `float(s)` for strings containing a `"."` (the only ones passed to it,
`color.py:176-177,485-487`), rounded to binary64. Simplification: overflow to infinity is not modelled. -/
def Py.float (s : Str) : Option Rat :=
  match dropUnderscores ' ' (rstrip isBlank (lstrip isBlank (s.map toAscii))) with
  | some s => floatBody s
  | none => none

namespace Color

/-- `int(s)` as used in `from_ansi`, raising `ValueError`. -/
def pyInt (base : Nat) (s : Str) : Except PyErr Int :=
  match Py.int base s with
  | some n => .ok n
  | none => .error .valueError

/-- `int(parts[i])`: `IndexError` if there is no such part. -/
def intAt (parts : List Str) (i : Nat) : Except PyErr Int :=
  match parts[i]? with
  | some s => pyInt 10 s
  | none => .error .indexError

/-- Mapping of a one-part code to a table index (`color.py:203-218`). -/
def stdIndex (index : Int) (isBg : Bool) : Int × Bool :=
  let (index, isBg) :=
    if 30 ≤ index ∧ index < 38 then (index - 30, isBg)
    else if 40 ≤ index ∧ index < 48 then (index - 40, true)
    else (index, isBg)
  if 90 ≤ index ∧ index < 98 then (index - 82, isBg)
  else if 100 ≤ index ∧ index < 108 then (index - 92, true)
  else (index, isBg)

/-- The part of `from_ansi` after the alpha suffix was removed (`color.py:180-232`). -/
def fromParts (ansi : Str) (parts : List Str) (alpha : Rat) : Except PyErr Color :=
  match parts with
  | [] => .error .indexError
  | p0 :: _ =>
    let isBg := startsWith p0 ['4']
    if 3 < parts.length then
      if parts.take 2 = ["38".toList, "2".toList] ∨ parts.take 2 = ["48".toList, "2".toList] then do
        let r ← intAt parts 2
        let g ← intAt parts 3
        let b ← intAt parts 4
        make (r, g, b) isBg alpha .trueColor (some (join [';'] parts))
      else .error .valueError
    else do
      let index ← pyInt 10 (parts.getLastD [])
      let (space, index, isBg) : ColorSpace × Int × Bool :=
        if parts.length = 1 then
          let p := stdIndex index isBg
          (.standard, p.1, p.2)
        else (.eightBit, index, isBg)
      if 0 ≤ index ∧ index < 256 then
        match colorTable[index.toNat]? with
        | some (r, g, b) => make (r, g, b) isBg alpha space (some ansi)
        | none => .error .indexError
      else .error .valueError

/-- `Color.from_ansi` (`color.py:170-232`). -/
def fromAnsi (ansi : Str) (alpha : Rat := 1) : Except PyErr Color :=
  let parts := splitC ';' ansi
  let last := parts.getLastD []
  if '.' ∈ last then
    match Py.float last with
    | none => .error .valueError
    | some a => fromParts ansi parts.dropLast a
  else fromParts ansi parts alpha

/-- `Color.from_hex` (`color.py:234-248`). -/
def fromHex (s : Str) (alpha : Rat := 1) : Except PyErr Color := do
  let h := lstrip (· == '#') s
  let r ← pyInt 16 (h.take 2)
  let g ← pyInt 16 ((h.drop 2).take 2)
  let b ← pyInt 16 (h.drop 4)
  make (r, g, b) false alpha .trueColor (some ('#' :: h))

/-- `color(description)` for a string (`color.py:472-492`). -/
def ofString (d : Str) : Except PyErr Color :=
  if startsWith d ['#'] then
    if d.length = 9 then do
      let a ← pyInt 16 (d.drop 7)
      fromHex (d.take 7) (fl ((a : Rat) / 255))
    else fromHex d 1
  else
    let parts := splitC ';' d
    let last := parts.getLastD []
    let go (d : Str) (alpha : Rat) : Except PyErr Color :=
      match namedColors.lookup d with
      | some h => fromHex h alpha
      | none => fromAnsi d alpha
    if '.' ∈ last then
      match Py.float last with
      | none => .error .valueError
      | some a => go (join [';'] parts.dropLast) a
    else go d 1

/-- `color((r, g, b))` and `color((r, g, b, a))` (`color.py:460-470`). -/
def ofTuple (rgb : Int × Int × Int) (alpha : Option Rat := none) : Except PyErr Color :=
  make rgb false (alpha.getD 1)

/-- `WHITE` (`color.py:497`), `Color.white()` (`color.py:259-266`). -/
def white : Color := { r := 255, g := 255, b := 255 }

/-- `BLACK` (`color.py:498`), `Color.black()` (`color.py:250-257`). -/
def black : Color := { r := 0, g := 0, b := 0 }

/-- `DEFAULT_WHITE` (`color.py:20,500`). -/
def defaultWhite : Color := { r := 245, g := 245, b := 245 }

/-- `DEFAULT_BLACK` (`color.py:21,501`). -/
def defaultBlack : Color := { r := 35, g := 35, b := 35 }

/-- `as_background` (`color.py:383-389`). `alpha or self.alpha`: `None` and `0` are false. -/
def asBackground (c : Color) (setting : Bool := true) (alpha : Option Rat := none) : Color :=
  if c.isBg = setting then c
  else
    let a := match alpha with
      | some a => if a = 0 then c.alpha else a
      | none => c.alpha
    { r := c.r, g := c.g, b := c.b, isBg := setting, alpha := a }

/-- `as_alpha` (`color.py:358-361`). -/
def asAlpha (c : Color) (v : Rat) : Color :=
  { r := c.r, g := c.g, b := c.b, isBg := c.isBg, alpha := v }

/-- One channel of `blend` (`color.py:432-434`):
`min(max(int(c1 + (c2 - c1) * alpha), 0), 255)`, with binary64 rounding of the
product and of the sum. -/
def blendChan (c1 c2 : Nat) (alpha : Rat) : Int :=
  min (max (truncate (fl ((c1 : Rat) + fl ((((c2 : Int) - (c1 : Int) : Int) : Rat) * alpha)))) 0) 255

/-- `blend` (`color.py:409-437`). The `lru_cache` around it is not modelled: the
function is pure and results are immutable, and equal colours that differ in what `==`
ignores have different hashes (C83), unless two 64-bit hashes collide. This is the
result of a call that raises nothing; `blendE` below adds the exceptions (overflow;
the range check of the constructor always passes, C38). -/
def blend (c o : Color) (alpha : Rat) (isBg : Option Bool := none) : Color :=
  { r := (blendChan c.r o.r alpha).toNat
    g := (blendChan c.g o.g alpha).toNat
    b := (blendChan c.b o.b alpha).toNat
    isBg := isBg.getD c.isBg }

/-- `lighten` (`color.py:363-371`); `shade_count * step_size` converts the
count to a float and multiplies. -/
def lighten (c : Color) (n : Int) (step : Rat := fl (1 / 10)) : Color :=
  blend c white (fl (fl n * step))

/-- `darken` (`color.py:373-381`). -/
def darken (c : Color) (n : Int) (step : Rat := fl (1 / 10)) : Color :=
  blend c black (fl (fl n * step))

/-- A product or sum that rounds to `x` is finite iff `x` is below `2^1024`. -/
def finite (x : Rat) : Bool := decide (-(2 ^ 1024) < x) && decide (x < 2 ^ 1024)

/-- One channel of `blend` with its exceptions: `int()` of an infinite float raises
`OverflowError`. -/
def blendChanE (c1 c2 : Nat) (alpha : Rat) : Except PyErr Int :=
  if finite (fl ((((c2 : Int) - (c1 : Int) : Int) : Rat) * alpha)) &&
      finite (fl ((c1 : Rat) + fl ((((c2 : Int) - (c1 : Int) : Int) : Rat) * alpha))) then
    .ok (blendChan c1 c2 alpha)
  else .error .overflowError

/-- `blend` with its exceptions (`color.py:409-437`), for a finite `alpha`. -/
def blendE (c o : Color) (alpha : Rat) (isBg : Option Bool := none) : Except PyErr Color := do
  let r ← blendChanE c.r o.r alpha
  let g ← blendChanE c.g o.g alpha
  let b ← blendChanE c.b o.b alpha
  make (r, g, b) (isBg.getD c.isBg)

/-- `blend` with an infinite `alpha`: the first component is `0 * inf = nan`
(`ValueError`) or infinite (`OverflowError`). -/
def blendInf (c o : Color) : Except PyErr Color :=
  if c.r = o.r then .error .valueError else .error .overflowError

/-- `lighten` and `darken` with their exceptions (`color.py:363-381`): the conversion
of the count to a float may overflow, the product may be infinite. -/
def shadeE (o c : Color) (n : Int) (step : Rat) : Except PyErr Color :=
  if finite (fl n) then
    if finite (fl (fl n * step)) then blendE c o (fl (fl n * step)) else blendInf c o
  else .error .overflowError

/-! ### `ansi` -/

/-- What `Color.ansi` reads from its surroundings: the colour space of the global
terminal, and the grey index used for `NO_COLOR` (a float computation modelled
over the reals in `Model/Luminance.lean`; here an arbitrary function of RGB). -/
structure Env where
  space : ColorSpace := .trueColor
  grey : Nat → Nat → Nat → Nat := fun _ _ _ => 232

/-- 256 times the radicand of `geometric_difference` (`color.py:24-45`). All
intermediate float values are multiples of 1/256 below 2^21, hence exact, and
`sqrt` keeps distinct such values distinct and ordered, so comparing these
integers is comparing the floats returned by the function. -/
def geoKey (p q : Nat × Nat × Nat) : Int :=
  let redmean : Int := ((p.1 + q.1) / 2 : Nat)
  let dr : Int := p.1 - q.1
  let dg : Int := p.2.1 - q.2.1
  let db : Int := p.2.2 - q.2.2
  (512 + redmean) * dr ^ 2 + 1024 * dg ^ 2 + (512 + (255 - redmean)) * db ^ 2

/-- `min(range(n), key=…)`-style first minimum: `best` is the best index so far. -/
def argminGo (key : Nat → Int) : List Nat → Nat → Nat
  | [], best => best
  | i :: is, best => argminGo key is (if key i < key best then i else best)

/-- Index of the nearest standard colour (`color.py:309-311`). -/
def nearestStd (rgb : Nat × Nat × Nat) : Nat :=
  argminGo (fun i => geoKey rgb (colorTable.getD i (0, 0, 0))) (List.range' 1 15) 0

/-- The code for a standard index (`color.py:313-321`). -/
def stdCode (index : Nat) (isBg : Bool) : Nat :=
  let i := if index > 7 then index + 82 else index + 30
  if isBg then i + 10 else i

/-- `round(x / 255 * 5)` in binary64 (`color.py:296-302`). -/
def cubeLevel (x : Nat) : Nat :=
  let v := fl (fl ((x : Rat) / 255) * 5)
  rhe v.num.toNat v.den

/-- The 8-bit index (`color.py:299-302`). -/
def cubeIndex (c : Color) : Nat :=
  16 + 36 * cubeLevel c.r + 6 * cubeLevel c.g + cubeLevel c.b

/-- `38 + 10 * self.is_background` (`color.py:279`). -/
def lead (c : Color) : Nat := if c.isBg then 48 else 38

/-- The conversion part of `ansi` (`color.py:288-321`). -/
def convert (env : Env) (c : Color) : Str :=
  match env.space with
  | .trueColor => dec c.lead ++ ";2;".toList ++ join [';'] [dec c.r, dec c.g, dec c.b]
  | .noColor => dec c.lead ++ ";5;".toList ++ dec (env.grey c.r c.g c.b)
  | .eightBit => dec c.lead ++ ";5;".toList ++ dec c.cubeIndex
  | .standard => dec (stdCode (nearestStd (c.r, c.g, c.b)) c.isBg)

/-- `Color.ansi` (`color.py:268-323`), uncached. The `cached_property` is modelled
in `Model/AnsiCache.lean`. -/
def ansi (env : Env) (c : Color) : Str :=
  match c.ctor with
  | some k => if env.space.geB c.origin && !startsWith k ['#'] then k else convert env c
  | none => convert env c

end Color
end Slate
