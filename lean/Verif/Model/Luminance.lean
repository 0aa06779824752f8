import Verif.Model.Color

/-!
# Luminance, brightness and contrast (`slate/color.py:48-103,149-153,288-289,325-328`)

Every float operation except `**` is the correctly rounded binary64 operation.
`**` is the C library's `pow`, which is not correctly rounded; it is a parameter
`pow` here, and the theorems assume its accuracy only (`PowOk`, `Spec/Luminance.lean`).
-/

namespace Slate
open Py

namespace Color

/-- The nested `_linearize` (`color.py:54-60`). -/
def linearize (pow : Rat → Rat → Rat) (val : Rat) : Rat :=
  if val ≤ fl (4045 / 100000) then fl (val / fl (1292 / 100))
  else pow (fl (fl (val + fl (55 / 1000)) / fl (1055 / 1000))) (fl (24 / 10))

/-- `calculate_luminance` (`color.py:48-66`). -/
def luminance (pow : Rat → Rat → Rat) (r g b : Nat) : Rat :=
  let red := linearize pow (fl ((r : Rat) / 255))
  let green := linearize pow (fl ((g : Rat) / 255))
  let blue := linearize pow (fl ((b : Rat) / 255))
  fl (fl (fl (fl (2126 / 10000) * red) + fl (fl (7152 / 10000) * green)) + fl (fl (722 / 10000) * blue))

/-- `calculate_brightness` (`color.py:69-81`). -/
def brightness (pow : Rat → Rat → Rat) (lum : Rat) : Rat :=
  fl ((if lum ≤ fl (216 / 24389) then fl (lum * fl (24389 / 27))
    else fl (fl (pow lum (fl (1 / 3)) * 116) - 16)) / 100)

/-- `f"{min(232 + self.brightness*23, 255):.0f}"` as a number (`color.py:289`): the
format rounds to the nearest integer, ties to even. -/
def greyIndex (pow : Rat → Rat → Rat) (r g b : Nat) : Nat :=
  let x := min (fl (232 + fl (brightness pow (luminance pow r g b) * 23))) 255
  rhe x.num.toNat x.den

/-- `calculate_contrast` with the default colours (`color.py:84-103`), the property
`contrast` (`color.py:325-328`). -/
def contrast (pow : Rat → Rat → Rat) (c : Color) : Color :=
  if fl (179 / 1000) < luminance pow c.r c.g c.b then defaultBlack.asBackground c.isBg
  else defaultWhite.asBackground c.isBg

end Color
end Slate
