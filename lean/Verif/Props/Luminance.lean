import Verif.Lemmas.LumFl
import Verif.Props.Palette

/-!
# Greyscale under NO_COLOR (C44) and the contrast colour (C45)
-/

namespace Slate
open Py

/-! ### C44 -/

/-- The number that is formatted, before rounding. -/
def greyValue (pow : ℚ → ℚ → ℚ) (r g b : ℕ) : ℚ :=
  min (fl (232 + fl (Color.brightness pow (Color.luminance pow r g b) * 23))) 255

/-- Lightness of 8-bit channels on the grey ramp, exactly. -/
noncomputable def rampValue (r g b : ℕ) : ℝ := 232 + 23 * (cieLightness (relLuminance r g b) / 100)

theorem rampValue_bounds {r g b : ℕ} (hr : r ≤ 255) (hg : g ≤ 255) (hb : b ≤ 255) :
    232 ≤ rampValue r g b ∧ rampValue r g b ≤ 255 := by
  obtain ⟨h0, h1⟩ := relLuminance_bounds hr hg hb
  unfold rampValue
  have a := (cie_diff h0).2 h1
  have b := (cie_diff h1).2 le_rfl
  rw [cie_zero] at a
  rw [cie_one] at b
  constructor <;> linarith

theorem greyValue_close {pow : ℚ → ℚ → ℚ} (hp : PowOk pow) {r g b : ℕ} (hr : r ≤ 255) (hg : g ≤ 255)
    (hb : b ≤ 255) : |(greyValue pow r g b : ℝ) - rampValue r g b| ≤ 1 / 2 ^ 20 := by
  have hl := luminance_close hp hr hg hb
  obtain ⟨l0, l1⟩ := relLuminance_bounds hr hg hb
  obtain ⟨a1, a2⟩ := abs_le.mp hl
  obtain ⟨b1, b2⟩ := abs_le.mp (brightness_close hp (y := Color.luminance pow r g b) (by linarith) (by linarith))
  have hc := cie_lip (relLuminance r g b) (Color.luminance pow r g b : ℝ)
  have hc' : |cieLightness (Color.luminance pow r g b : ℝ) - cieLightness (relLuminance r g b)| ≤ 1000 * (1 / 2 ^ 32) :=
    hc.trans (mul_le_mul_of_nonneg_left hl (by norm_num))
  obtain ⟨c1, c2⟩ := abs_le.mp hc'
  have hr' := rampValue_bounds hr hg hb
  unfold greyValue
  unfold rampValue at hr' ⊢
  set B := Color.brightness pow (Color.luminance pow r g b)
  obtain ⟨f1, f2⟩ := fleR8 (x := B * 23) (by push_cast; linarith [hr'.1]) (by push_cast; linarith [hr'.2])
  push_cast at f1 f2
  obtain ⟨g1, g2⟩ := fleR8 (x := 232 + fl (B * 23)) (by push_cast; linarith [hr'.1]) (by push_cast; linarith [hr'.2])
  push_cast at g1 g2
  rw [Rat.cast_min]
  rcases min_choice ((fl (232 + fl (B * 23)) : ℚ) : ℝ) (((255 : ℚ)) : ℝ) with e | e
  · rw [e]; exact abs_le.mpr ⟨by linarith, by linarith⟩
  · have := min_le_left ((fl (232 + fl (B * 23)) : ℚ) : ℝ) (((255 : ℚ)) : ℝ)
    rw [e] at this ⊢
    push_cast at this ⊢
    exact abs_le.mpr ⟨by linarith, by linarith [hr'.2]⟩

theorem greyIndex_eq {pow : ℚ → ℚ → ℚ} (hp : PowOk pow) {r g b : ℕ} (hr : r ≤ 255) (hg : g ≤ 255)
    (hb : b ≤ 255) : (Color.greyIndex pow r g b : ℤ) = rQ (greyValue pow r g b) := by
  have h0 : 0 ≤ greyValue pow r g b := by
    obtain ⟨h1, -⟩ := abs_le.mp (greyValue_close hp hr hg hb)
    have := (rampValue_bounds hr hg hb).1
    have : (0 : ℝ) ≤ greyValue pow r g b := by linarith
    exact_mod_cast this
  unfold Color.greyIndex
  simp only
  change (rhe (greyValue pow r g b).num.toNat (greyValue pow r g b).den : ℤ) = _
  rw [rhe_eq _ _ (greyValue pow r g b).pos]
  congr 1
  have hn : 0 ≤ (greyValue pow r g b).num := Rat.num_nonneg.mpr h0
  conv_rhs => rw [← Rat.num_div_den (greyValue pow r g b)]
  congr 1
  have : (((greyValue pow r g b).num.toNat : ℤ) : ℚ) = ((greyValue pow r g b).num : ℚ) := by
    rw [Int.toNat_of_nonneg hn]
  exact_mod_cast this

/-- The index is the nearest integer to the exact value on the ramp, up to the rounding
errors of the float computation. -/
theorem greyIndex_close {pow : ℚ → ℚ → ℚ} (hp : PowOk pow) {r g b : ℕ} (hr : r ≤ 255) (hg : g ≤ 255)
    (hb : b ≤ 255) : |(Color.greyIndex pow r g b : ℝ) - rampValue r g b| ≤ 1 / 2 + 1 / 2 ^ 20 := by
  have h1 := greyValue_close hp hr hg hb
  have h2 := rQ_err (greyValue pow r g b)
  rw [← greyIndex_eq hp hr hg hb] at h2
  have h3 : |(((Color.greyIndex pow r g b : ℤ) : ℚ) - greyValue pow r g b : ℝ)| ≤ ((1 / 2 : ℚ) : ℝ) := by
    exact_mod_cast h2
  push_cast at h3
  obtain ⟨a1, a2⟩ := abs_le.mp h1
  obtain ⟨b1, b2⟩ := abs_le.mp h3
  exact abs_le.mpr ⟨by linarith, by linarith⟩

theorem greyIndex_range {pow : ℚ → ℚ → ℚ} (hp : PowOk pow) {r g b : ℕ} (hr : r ≤ 255) (hg : g ≤ 255)
    (hb : b ≤ 255) : 232 ≤ Color.greyIndex pow r g b ∧ Color.greyIndex pow r g b ≤ 255 := by
  obtain ⟨h1, h2⟩ := abs_le.mp (greyIndex_close hp hr hg hb)
  obtain ⟨h3, h4⟩ := rampValue_bounds hr hg hb
  constructor
  · have : (231 : ℝ) < Color.greyIndex pow r g b := by linarith
    have : 231 < Color.greyIndex pow r g b := by exact_mod_cast this
    omega
  · have : (Color.greyIndex pow r g b : ℝ) < 256 := by linarith
    have : Color.greyIndex pow r g b < 256 := by exact_mod_cast this
    omega

theorem greyIndex_mono {pow : ℚ → ℚ → ℚ} (hp : PowOk pow) {r g b r' g' b' : ℕ} (hr : r ≤ r') (hg : g ≤ g')
    (hb : b ≤ b') (hr' : r' ≤ 255) (hg' : g' ≤ 255) (hb' : b' ≤ 255) :
    Color.greyIndex pow r g b ≤ Color.greyIndex pow r' g' b' := by
  by_cases hne : (r, g, b) = (r', g', b')
  · injection hne with e1 e2
    injection e2 with e2 e3
    subst e1 e2 e3
    exact le_rfl
  · have hgap := relLuminance_gap hr hg hb hne
    obtain ⟨-, l1⟩ := relLuminance_bounds hr' hg' hb'
    have hc := (cie_diff (x := relLuminance r g b) (y := relLuminance r' g' b') (by linarith)).2 l1
    obtain ⟨a1, a2⟩ := abs_le.mp (greyValue_close hp (hr.trans hr') (hg.trans hg') (hb.trans hb'))
    obtain ⟨b1, b2⟩ := abs_le.mp (greyValue_close hp hr' hg' hb')
    have h : (greyValue pow r g b : ℝ) ≤ greyValue pow r' g' b' := by
      unfold rampValue at a1 a2 b1 b2
      linarith
    have := rQ_mono (x := greyValue pow r g b) (y := greyValue pow r' g' b') (by exact_mod_cast h)
    rw [← greyIndex_eq hp (hr.trans hr') (hg.trans hg') (hb.trans hb'), ← greyIndex_eq hp hr' hg' hb'] at this
    exact_mod_cast this

theorem greyIndex_black {pow : ℚ → ℚ → ℚ} (hp : PowOk pow) : Color.greyIndex pow 0 0 0 = 232 := by
  obtain ⟨h1, h2⟩ := abs_le.mp (greyIndex_close hp (r := 0) (g := 0) (b := 0) (by omega) (by omega) (by omega))
  have e : rampValue 0 0 0 = 232 := by
    unfold rampValue; rw [relLuminance_eq, lin_zero]; norm_num [cie_zero]
  rw [e] at h1 h2
  have a : (231 : ℝ) < Color.greyIndex pow 0 0 0 := by linarith
  have b : (Color.greyIndex pow 0 0 0 : ℝ) < 233 := by linarith
  have a' : 231 < Color.greyIndex pow 0 0 0 := by exact_mod_cast a
  have b' : Color.greyIndex pow 0 0 0 < 233 := by exact_mod_cast b
  omega

theorem greyIndex_white {pow : ℚ → ℚ → ℚ} (hp : PowOk pow) : Color.greyIndex pow 255 255 255 = 255 := by
  obtain ⟨h1, h2⟩ := abs_le.mp (greyIndex_close hp (r := 255) (g := 255) (b := 255) (by omega) (by omega) (by omega))
  have e : rampValue 255 255 255 = 255 := by
    unfold rampValue; rw [relLuminance_eq, lin_255]
    have : (0.2126 * 1 + 0.7152 * 1 + 0.0722 * 1 : ℝ) = 1 := by norm_num
    rw [this, cie_one]; norm_num
  rw [e] at h1 h2
  have a : (254 : ℝ) < Color.greyIndex pow 255 255 255 := by linarith
  have b : (Color.greyIndex pow 255 255 255 : ℝ) < 256 := by linarith
  have a' : 254 < Color.greyIndex pow 255 255 255 := by exact_mod_cast a
  have b' : Color.greyIndex pow 255 255 255 < 256 := by exact_mod_cast b
  omega

/-- A NO_COLOR terminal with a given `pow`. -/
def noColor (pow : ℚ → ℚ → ℚ) : Color.Env := { space := .noColor, grey := Color.greyIndex pow }

/-- The colours `ansi` converts under NO_COLOR: made directly, from a hex string, or
from an 8-bit or true-colour code. -/
def Converted (c : Color) : Prop := c.Direct ∨ c.origin = .eightBit ∨ c.origin = .trueColor

theorem ansi_noColor (pow : ℚ → ℚ → ℚ) {c : Color} (h : Converted c) :
    c.ansi (noColor pow) = dec c.lead ++ ";5;".toList ++ dec (Color.greyIndex pow c.r c.g c.b) := by
  have hconv : c.ansi (noColor pow) = c.convert (noColor pow) := by
    rcases h with h | h | h
    · exact ansi_direct _ h
    · unfold Color.ansi
      rw [h]
      split
      · rw [show (noColor pow).space.geB .eightBit = false from rfl]; rfl
      · rfl
    · unfold Color.ansi
      rw [h]
      split
      · rw [show (noColor pow).space.geB .trueColor = false from rfl]; rfl
      · rfl
  rw [hconv]
  rfl

/-- C44: with NO_COLOR a colour not made from a standard code is emitted as an index
of the grey ramp in its role; the index is the one nearest to its CIE lightness (up to
`2^-20`); black is 232, white is 255.
Missing: colours made from standard codes are emitted unchanged (`C44_violated`). -/
theorem C44_grey_partial (pow : ℚ → ℚ → ℚ) (hp : PowOk pow) (c : Color) (hc : c.Valid) (h : Converted c) :
    ∃ k, c.ansi (noColor pow) = (if c.isBg then "48;5;".toList else "38;5;".toList) ++ dec k ∧
      232 ≤ k ∧ k ≤ 255 ∧
      |(k : ℝ) - (232 + 23 * (cieLightness (relLuminance c.r c.g c.b) / 100))| ≤ 1 / 2 + 1 / 2 ^ 20 ∧
      ((c.r, c.g, c.b) = (0, 0, 0) → k = 232) ∧ ((c.r, c.g, c.b) = (255, 255, 255) → k = 255) := by
  refine ⟨Color.greyIndex pow c.r c.g c.b, ?_, (greyIndex_range hp hc.1 hc.2.1 hc.2.2).1,
    (greyIndex_range hp hc.1 hc.2.1 hc.2.2).2, greyIndex_close hp hc.1 hc.2.1 hc.2.2, ?_, ?_⟩
  · rw [ansi_noColor pow h]
    unfold Color.lead
    have e1 : dec 48 ++ ";5;".toList = "48;5;".toList := by decide +kernel
    have e2 : dec 38 ++ ";5;".toList = "38;5;".toList := by decide +kernel
    cases c.isBg
    · rw [if_neg (by simp), if_neg (by simp), e2]
    · rw [if_pos rfl, if_pos rfl, e1]
  · intro e
    injection e with e1 e2
    injection e2 with e2 e3
    rw [e1, e2, e3]; exact greyIndex_black hp
  · intro e
    injection e with e1 e2
    injection e2 with e2 e3
    rw [e1, e2, e3]; exact greyIndex_white hp

/-- C44: a colour with channelwise larger values never gets a darker grey. -/
theorem C44_monotone_partial (pow : ℚ → ℚ → ℚ) (hp : PowOk pow) (c d : Color) (hd : d.Valid)
    (hc' : Converted c) (hd' : Converted d) (h : c.r ≤ d.r ∧ c.g ≤ d.g ∧ c.b ≤ d.b) :
    ∃ i j, c.ansi (noColor pow) = dec c.lead ++ ";5;".toList ++ dec i ∧
      d.ansi (noColor pow) = dec d.lead ++ ";5;".toList ++ dec j ∧ i ≤ j :=
  ⟨_, _, ansi_noColor pow hc', ansi_noColor pow hd',
    greyIndex_mono hp h.1 h.2.1 h.2.2 hd.1 hd.2.1 hd.2.2⟩

/-- C44 is violated: red made from the standard code 31 is emitted as that code in a
NO_COLOR terminal, whatever the float computation. -/
theorem C44_violated (pow : ℚ → ℚ → ℚ) :
    ∃ c, Color.fromAnsi "31".toList = .ok c ∧ c.ansi (noColor pow) = "31".toList := by
  refine ⟨⟨170, 0, 0, false, 1, .standard, some "31".toList⟩, by decide +kernel, ?_⟩
  rfl

example : ∃ pow, PowOk pow ∧ Converted { r := 200, g := 100, b := 0 } :=
  ⟨exists_powOk.choose, exists_powOk.choose_spec, .inl (.inl rfl)⟩

/-! ### C45 -/

/-- Luminance of the two default contrast colours. -/
theorem lin_35 : 0.0168 ≤ lin 35 ∧ lin 35 ≤ 0.01681 := by
  rw [lin_high (by omega)]
  constructor
  · apply le_rpow_fifth (by positivity)
    norm_num
  · apply rpow_fifth_le (by positivity) (by norm_num)
    norm_num

theorem lin_245 : 0.9130 ≤ lin 245 ∧ lin 245 ≤ 0.9131 := by
  rw [lin_high (by omega)]
  constructor
  · apply le_rpow_fifth (by positivity)
    norm_num
  · apply rpow_fifth_le (by positivity) (by norm_num)
    norm_num

theorem relLuminance_grey (k : ℕ) : relLuminance k k k = lin k := by
  rw [relLuminance_eq]; ring

/-- Luminance of a colour. -/
noncomputable def Color.relLum (c : Color) : ℝ := relLuminance c.r c.g c.b

theorem asBackground_rgb (c : Color) (bg : Bool) :
    (c.asBackground bg).r = c.r ∧ (c.asBackground bg).g = c.g ∧ (c.asBackground bg).b = c.b ∧
      (c.asBackground bg).isBg = bg := by
  unfold Color.asBackground
  split
  · rename_i h; exact ⟨rfl, rfl, rfl, h⟩
  · exact ⟨rfl, rfl, rfl, rfl⟩

theorem contrast_cases {pow : ℚ → ℚ → ℚ} (hp : PowOk pow) (c : Color) (hc : c.Valid) :
    (0.178999 ≤ c.relLum ∧ (c.contrast pow).relLum = lin 35 ∨
      c.relLum ≤ 0.179001 ∧ (c.contrast pow).relLum = lin 245) ∧
    (0.179001 < c.relLum → (c.contrast pow).relLum = lin 35) ∧
    (c.relLum < 0.178999 → (c.contrast pow).relLum = lin 245) := by
  have ht : |fl (179 / 1000) - 179 / 1000| ≤ 1 / 2 ^ 50 := by decide +kernel
  have ht' : |((fl (179 / 1000) - 179 / 1000 : ℚ) : ℝ)| ≤ ((1 / 2 ^ 50 : ℚ) : ℝ) := by exact_mod_cast ht
  push_cast at ht'
  obtain ⟨t1, t2⟩ := abs_le.mp ht'
  obtain ⟨a1, a2⟩ := abs_le.mp (luminance_close hp hc.1 hc.2.1 hc.2.2)
  unfold Color.contrast
  split
  · rename_i h
    have h' : (fl (179 / 1000) : ℝ) < Color.luminance pow c.r c.g c.b := by exact_mod_cast h
    have e : (Color.defaultBlack.asBackground c.isBg).relLum = lin 35 := by
      unfold Color.relLum
      obtain ⟨e1, e2, e3, -⟩ := asBackground_rgb Color.defaultBlack c.isBg
      rw [e1, e2, e3]; exact relLuminance_grey 35
    have hl : 0.178999 ≤ c.relLum := by unfold Color.relLum; norm_num; linarith
    exact ⟨.inl ⟨hl, e⟩, fun _ => e, fun hh => absurd hh (not_lt.mpr hl)⟩
  · rename_i h
    have h' : (Color.luminance pow c.r c.g c.b : ℝ) ≤ fl (179 / 1000) := by exact_mod_cast not_lt.mp h
    have e : (Color.defaultWhite.asBackground c.isBg).relLum = lin 245 := by
      unfold Color.relLum
      obtain ⟨e1, e2, e3, -⟩ := asBackground_rgb Color.defaultWhite c.isBg
      rw [e1, e2, e3]; exact relLuminance_grey 245
    have hl : c.relLum ≤ 0.179001 := by unfold Color.relLum; norm_num; linarith
    exact ⟨.inr ⟨hl, e⟩, fun hh => absurd hh (not_lt.mpr hl), fun _ => e⟩

/-- C45: the ratio of a colour and its contrast colour is at least 3.4, it is at least
4.5 for luminances up to 0.163 or from 0.251, and the role is kept.
Missing: the full 4.5 in between (`C45_violated`). -/
theorem C45_contrast_partial (pow : ℚ → ℚ → ℚ) (hp : PowOk pow) (c : Color) (hc : c.Valid) :
    3.4 ≤ contrastRatio c.relLum (c.contrast pow).relLum ∧
    (c.relLum ≤ 0.163 ∨ 0.251 ≤ c.relLum → 4.5 ≤ contrastRatio c.relLum (c.contrast pow).relLum) ∧
    (c.contrast pow).isBg = c.isBg ∧ (c.contrast pow).Valid := by
  obtain ⟨h1, h2, h3⟩ := contrast_cases hp c hc
  obtain ⟨b1, b2⟩ := lin_35
  obtain ⟨w1, w2⟩ := lin_245
  obtain ⟨l0, l1⟩ := relLuminance_bounds hc.1 hc.2.1 hc.2.2
  have l0' : 0 ≤ c.relLum := l0
  have hrole : (c.contrast pow).isBg = c.isBg ∧ (c.contrast pow).Valid := by
    unfold Color.contrast
    split
    · obtain ⟨e1, e2, e3, e4⟩ := asBackground_rgb Color.defaultBlack c.isBg
      refine ⟨e4, ?_⟩
      unfold Color.Valid; rw [e1, e2, e3]; decide
    · obtain ⟨e1, e2, e3, e4⟩ := asBackground_rgb Color.defaultWhite c.isBg
      refine ⟨e4, ?_⟩
      unfold Color.Valid; rw [e1, e2, e3]; decide
  refine ⟨?_, ?_, hrole⟩
  · rcases h1 with ⟨h, e⟩ | ⟨h, e⟩
    · rw [e]
      unfold contrastRatio
      rw [max_eq_left (by norm_num at *; linarith), min_eq_right (by norm_num at *; linarith),
        le_div_iff₀ (by norm_num at *; linarith)]
      norm_num at *; linarith
    · rw [e]
      unfold contrastRatio
      rw [max_eq_right (by norm_num at *; linarith), min_eq_left (by norm_num at *; linarith),
        le_div_iff₀ (by norm_num at *; linarith)]
      norm_num at *; linarith
  · rintro (h | h)
    · rw [h3 (by norm_num at *; linarith)]
      unfold contrastRatio
      rw [max_eq_right (by norm_num at *; linarith), min_eq_left (by norm_num at *; linarith),
        le_div_iff₀ (by norm_num at *; linarith)]
      norm_num at *; linarith
    · rw [h2 (by norm_num at *; linarith)]
      unfold contrastRatio
      rw [max_eq_left (by norm_num at *; linarith), min_eq_right (by norm_num at *; linarith),
        le_div_iff₀ (by norm_num at *; linarith)]
      norm_num at *; linarith

/-- C45 is violated in between: every colour of luminance in `(0.1791, 0.25)` has a ratio
below 4.5, for instance the grey (118, 118, 118), whose ratio is below 3.5. -/
theorem C45_range_violated (pow : ℚ → ℚ → ℚ) (hp : PowOk pow) (c : Color) (hc : c.Valid)
    (h1 : 0.1791 ≤ c.relLum) (h2 : c.relLum ≤ 0.25) :
    contrastRatio c.relLum (c.contrast pow).relLum < 4.5 := by
  obtain ⟨-, e, -⟩ := contrast_cases hp c hc
  obtain ⟨b1, b2⟩ := lin_35
  rw [e (by norm_num at *; linarith)]
  unfold contrastRatio
  rw [max_eq_left (by norm_num at *; linarith), min_eq_right (by norm_num at *; linarith),
    div_lt_iff₀ (by norm_num at *; linarith)]
  norm_num at *; linarith

/-- C45, exactly: the ratio is at least 4.5 for the colours whose luminance is at most `dark` or at least `light`, and for no others. `dark` and `light` are the
luminances whose ratio to the two text colours is 4.5. -/
theorem C45_exact_partial (pow : ℚ → ℚ → ℚ) (hp : PowOk pow) :
    ∃ dark light : ℝ, 0.164 ≤ dark ∧ dark ≤ 0.16403 ∧ 0.2506 ≤ light ∧ light ≤ 0.25065 ∧
      contrastRatio dark (relLuminance 245 245 245) = 4.5 ∧ contrastRatio light (relLuminance 35 35 35) = 4.5 ∧
      ∀ c : Color, c.Valid → (4.5 ≤ contrastRatio c.relLum (c.contrast pow).relLum ↔ c.relLum ≤ dark ∨ light ≤ c.relLum) := by
  obtain ⟨b1, b2⟩ := lin_35
  obtain ⟨w1, w2⟩ := lin_245
  refine ⟨(lin 245 + 0.05) / 4.5 - 0.05, 4.5 * (lin 35 + 0.05) - 0.05, by norm_num at *; linarith, by norm_num at *; linarith,
    by norm_num at *; linarith, by norm_num at *; linarith, ?_, ?_, ?_⟩
  · rw [relLuminance_grey]
    unfold contrastRatio
    rw [max_eq_right (by norm_num at *; linarith), min_eq_left (by norm_num at *; linarith), div_eq_iff (by norm_num at *; linarith)]
    ring
  · rw [relLuminance_grey]
    unfold contrastRatio
    rw [max_eq_left (by norm_num at *; linarith), min_eq_right (by norm_num at *; linarith), div_eq_iff (by norm_num at *; linarith)]
    ring
  · intro c hc
    obtain ⟨h1, -, -⟩ := contrast_cases hp c hc
    have l0 : 0 ≤ c.relLum := (relLuminance_bounds hc.1 hc.2.1 hc.2.2).1
    rcases h1 with ⟨h, e⟩ | ⟨h, e⟩
    · rw [e]
      unfold contrastRatio
      rw [max_eq_left (by norm_num at *; linarith), min_eq_right (by norm_num at *; linarith), le_div_iff₀ (by norm_num at *; linarith)]
      constructor
      · intro h4; right; linarith
      · rintro (h4 | h4)
        · norm_num at *; linarith
        · linarith
    · rw [e]
      unfold contrastRatio
      rw [max_eq_right (by norm_num at *; linarith), min_eq_left (by norm_num at *; linarith), le_div_iff₀ (by norm_num at *; linarith)]
      constructor
      · intro h4; left; norm_num at *; linarith
      · rintro (h4 | h4)
        · norm_num at *; linarith
        · norm_num at *; linarith

/-- C45 is violated: the grey (118, 118, 118) gets a text colour of ratio below 3.5. -/
theorem C45_violated (pow : ℚ → ℚ → ℚ) (hp : PowOk pow) :
    ∃ c : Color, c.Valid ∧ contrastRatio c.relLum (c.contrast pow).relLum < 3.5 := by
  refine ⟨⟨118, 118, 118, false, 1, .trueColor, none⟩, by unfold Color.Valid; decide, ?_⟩
  have hl : (0.1811 : ℝ) ≤ lin 118 ∧ lin 118 ≤ 0.1812 := by
    rw [lin_high (by omega)]
    constructor
    · apply le_rpow_fifth (by positivity)
      norm_num
    · apply rpow_fifth_le (by positivity) (by norm_num)
      norm_num
  have e1 : (⟨118, 118, 118, false, 1, .trueColor, none⟩ : Color).relLum = lin 118 := relLuminance_grey 118
  obtain ⟨-, e, -⟩ := contrast_cases hp ⟨118, 118, 118, false, 1, .trueColor, none⟩ (by unfold Color.Valid; decide)
  obtain ⟨b1, b2⟩ := lin_35
  rw [e (by rw [e1]; norm_num at *; linarith), e1]
  unfold contrastRatio
  rw [max_eq_left (by norm_num at *; linarith), min_eq_right (by norm_num at *; linarith),
    div_lt_iff₀ (by norm_num at *; linarith)]
  norm_num at *; linarith

end Slate
