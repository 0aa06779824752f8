import Verif.Model.Color

/-!
# Hue shifting and colour groups (`slate/color.py:105-121,325-355,391-407,439-448`) and Python's `colorsys`

The float operations are those of the code, each followed by the rounding `rnd`:
`rnd = fl` is binary64 arithmetic, `rnd = id` exact arithmetic.
-/

namespace Slate
open Py

namespace Hls

/-- `x % 1.0` on floats: `fmod` is exact, a negative remainder gets `1.0` added. -/
def mod1 (rnd : Rat → Rat) (x : Rat) : Rat :=
  let m := x - truncate x
  if m < 0 then rnd (m + 1) else m

/-- `colorsys.rgb_to_hls` (`colorsys.py:75-98` of Python 3.11). -/
def rgbToHls (rnd : Rat → Rat) (r g b : Rat) : Rat × Rat × Rat :=
  let maxc := max (max r g) b
  let minc := min (min r g) b
  let sumc := rnd (maxc + minc)
  let rangec := rnd (maxc - minc)
  let l := rnd (sumc / 2)
  if minc = maxc then (0, l, 0)
  else
    let s := if l ≤ 1 / 2 then rnd (rangec / sumc)
      else rnd (rangec / rnd (rnd (2 - maxc) - minc))
    let rc := rnd (rnd (maxc - r) / rangec)
    let gc := rnd (rnd (maxc - g) / rangec)
    let bc := rnd (rnd (maxc - b) / rangec)
    let h := if r = maxc then rnd (bc - gc)
      else if g = maxc then rnd (rnd (2 + rc) - bc)
      else rnd (rnd (4 + gc) - rc)
    (mod1 rnd (rnd (h / 6)), l, s)

/-- `colorsys._v` (`colorsys.py:110-118`). -/
def v (rnd : Rat → Rat) (m1 m2 hue : Rat) : Rat :=
  let hue := mod1 rnd hue
  if hue < rnd (1 / 6) then rnd (m1 + rnd (rnd (rnd (m2 - m1) * hue) * 6))
  else if hue < 1 / 2 then m2
  else if hue < rnd (2 / 3) then
    rnd (m1 + rnd (rnd (rnd (m2 - m1) * rnd (rnd (2 / 3) - hue)) * 6))
  else m1

/-- `colorsys.hls_to_rgb` (`colorsys.py:100-108`). -/
def hlsToRgb (rnd : Rat → Rat) (h l s : Rat) : Rat × Rat × Rat :=
  if s = 0 then (l, l, l)
  else
    let m2 := if l ≤ 1 / 2 then rnd (l * rnd (1 + s)) else rnd (rnd (l + s) - rnd (l * s))
    let m1 := rnd (rnd (2 * l) - m2)
    (v rnd m1 m2 (rnd (h + rnd (1 / 3))), v rnd m1 m2 h, v rnd m1 m2 (rnd (h - rnd (1 / 3))))

end Hls

namespace Color

/-- `self.hls` (`color.py:154`). -/
def hls (rnd : Rat → Rat) (c : Color) : Rat × Rat × Rat :=
  Hls.rgbToHls rnd (rnd (c.r / 256)) (rnd (c.g / 256)) (rnd (c.b / 256))

/-- `hue_shift` (`color.py:391-407`). -/
def hueShift (rnd : Rat → Rat) (c : Color) (amount : Rat) : Except PyErr Color :=
  let (hue, l, s) := c.hls rnd
  let rgb := Hls.hlsToRgb rnd (Hls.mod1 rnd (rnd (hue + amount))) l s
  make (truncate (rnd (255 * rgb.1)), truncate (rnd (255 * rgb.2.1)),
    truncate (rnd (255 * rgb.2.2))) c.isBg

/-- `complement` (`color.py:330-337`). -/
def complement (rnd : Rat → Rat) (c : Color) : Except PyErr Color :=
  if (c.hls rnd).1 = 0 then
    if (c.hls rnd).2.1 = 0 then make (255, 255, 255) else make (0, 0, 0)
  else hueShift rnd c (1 / 2)

/-- `calculate_triadic_group` (`color.py:105-108`). -/
def triadic (rnd : Rat → Rat) (c : Color) : Except PyErr (Color × Color × Color) := do
  let a ← hueShift rnd c (rnd (1 / 3))
  let b ← hueShift rnd c (rnd (2 / 3))
  .ok (c, a, b)

/-- `calculate_analogous_group` (`color.py:111-114`). -/
def analogous (rnd : Rat → Rat) (c : Color) : Except PyErr (Color × Color × Color) := do
  let a ← hueShift rnd c (rnd (1 / 12))
  let b ← hueShift rnd c (rnd (2 / 12))
  .ok (c, a, b)

/-- `calculate_tetradic_group` (`color.py:117-120`). -/
def tetradic (rnd : Rat → Rat) (c : Color) : Except PyErr (Color × Color × Color × Color) := do
  let a ← hueShift rnd c (rnd (1 / 4))
  let b ← complement rnd c
  let d ← hueShift rnd c (rnd (3 / 4))
  .ok (c, a, b, d)

/-- `blend_complement` (`color.py:439-448`). -/
def blendComplement (c : Color) (alpha : Rat) : Except PyErr Color := do
  let o ← complement fl c
  blendE c o alpha

end Color
end Slate
