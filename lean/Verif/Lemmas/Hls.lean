import Verif.Model.Hls
import Verif.Lemmas.Float

/-! The hue functions: exact arithmetic. -/

namespace Slate
open Py Hls

/-- The trapezoid that `colorsys._v` follows along the hue. -/
def hat (f : ℚ) : ℚ := max 0 (min 1 (2 - 6 * |f - 1 / 3|))

theorem hat_nonneg (f : ℚ) : 0 ≤ hat f := le_max_left _ _
theorem hat_le_one (f : ℚ) : hat f ≤ 1 := max_le (by norm_num) (min_le_left _ _)

theorem hat_rise {f : ℚ} (h0 : 0 ≤ f) (h1 : f ≤ 1 / 6) : hat f = 6 * f := by
  unfold hat
  rw [abs_of_nonpos (by linarith), min_eq_right (by linarith), max_eq_right (by linarith)]; ring

theorem hat_top {f : ℚ} (h0 : 1 / 6 ≤ f) (h1 : f ≤ 1 / 2) : hat f = 1 := by
  unfold hat
  have : |f - 1 / 3| ≤ 1 / 6 := abs_le.mpr ⟨by linarith, by linarith⟩
  rw [min_eq_left (by linarith), max_eq_right (by norm_num)]

theorem hat_fall {f : ℚ} (h0 : 1 / 2 ≤ f) (h1 : f ≤ 2 / 3) : hat f = 4 - 6 * f := by
  unfold hat
  rw [abs_of_nonneg (by linarith), min_eq_right (by linarith), max_eq_right (by linarith)]; ring

theorem hat_zero {f : ℚ} (h0 : 2 / 3 ≤ f) : hat f = 0 := by
  unfold hat
  rw [abs_of_nonneg (by linarith), max_eq_left]
  exact (min_le_right _ _).trans (by linarith)

/-- `hat` continued periodically. -/
def ramp (x : ℚ) : ℚ := hat (Int.fract x)

theorem ramp_add_int (x : ℚ) (n : ℤ) : ramp (x + n) = ramp x := by
  unfold ramp; rw [Int.fract_add_intCast]

/-- `ramp` at a number in `[0, 1]`. -/
theorem ramp_unit {x : ℚ} (h0 : 0 ≤ x) (h1 : x ≤ 1) : ramp x = hat x := by
  unfold ramp
  rcases eq_or_lt_of_le h1 with rfl | h
  · rw [Int.fract_one, hat_rise le_rfl (by norm_num), hat_zero (by norm_num)]; ring
  · rw [Int.fract_eq_self.mpr ⟨h0, h⟩]

/-- `x % 1.0` in exact arithmetic. -/
theorem mod1_id (x : ℚ) : mod1 id x = Int.fract x := by
  unfold mod1
  simp only [id]
  rcases le_or_gt 0 x with h | h
  · rw [truncate_of_nonneg h]
    have := Int.fract_nonneg x
    rw [if_neg (by unfold Int.fract at this; linarith)]; rfl
  · have e : truncate x = -⌊-x⌋ := by
      have := truncate_neg (-x)
      rw [neg_neg, truncate_of_nonneg (by linarith : 0 ≤ -x)] at this
      exact this
    rw [e]
    push_cast
    by_cases hi : Int.fract (-x) = 0
    · have e2 : (⌊-x⌋ : ℚ) = -x := by unfold Int.fract at hi; linarith
      rw [e2]
      have : Int.fract x = 0 := by
        rw [← neg_neg x, ← e2, ← Int.cast_neg, Int.fract_intCast]
      rw [this, if_neg (by linarith)]; ring
    · have h1 := Int.fract_neg hi
      rw [neg_neg] at h1
      have h2 := Int.fract_nonneg (-x)
      have h3 : 0 < Int.fract (-x) := lt_of_le_of_ne h2 (Ne.symm hi)
      have e3 : Int.fract (-x) = -x - ⌊-x⌋ := rfl
      rw [if_pos (by linarith), h1]; linarith

/-- `colorsys._v` in exact arithmetic. -/
theorem v_id (m1 m2 x : ℚ) : v id m1 m2 x = m1 + (m2 - m1) * ramp x := by
  unfold v ramp
  rw [mod1_id]
  have h0 := Int.fract_nonneg x
  set f := Int.fract x
  simp only [id]
  split
  · rename_i h; rw [hat_rise h0 h.le]; ring
  split
  · rename_i h h'; rw [hat_top (not_lt.mp h) h'.le]; ring
  split
  · rename_i h h' h''; rw [hat_fall (not_lt.mp h') h''.le]; ring
  · rename_i h h' h''; rw [hat_zero (not_lt.mp h'')]; ring

/-- The hue of a colour before normalisation to `[0, 1)`; `mx`, `d` are the maximum
and the range of its channels. -/
def hue0 (r g b mx d : ℚ) : ℚ :=
  if r = mx then (g - b) / (6 * d)
  else if g = mx then 1 / 3 + (b - r) / (6 * d)
  else 2 / 3 + (r - g) / (6 * d)

theorem delta_bound {a b d : ℚ} (hd : 0 < d) (h : |a - b| ≤ d) :
    -(1 / 6) ≤ (a - b) / (6 * d) ∧ (a - b) / (6 * d) ≤ 1 / 6 := by
  obtain ⟨h1, h2⟩ := abs_le.mp h
  constructor
  · rw [le_div_iff₀ (by linarith)]; linarith
  · rw [div_le_iff₀ (by linarith)]; linarith

theorem delta_mul {a b d : ℚ} (hd : 0 < d) : d * (6 * ((a - b) / (6 * d))) = a - b := by
  field_simp

/-- The trapezoid at the three hues around `δ`. -/
theorem ramp_third {δ : ℚ} (h1 : -(1 / 6) ≤ δ) (h2 : δ ≤ 1 / 6) : ramp (δ + 1 / 3) = 1 := by
  rw [ramp_unit (by linarith) (by linarith), hat_top (by linarith) (by linarith)]

theorem ramp_here {δ : ℚ} (h1 : -(1 / 6) ≤ δ) (h2 : δ ≤ 1 / 6) : ramp δ = max 0 (6 * δ) := by
  rcases le_total 0 δ with h | h
  · rw [ramp_unit h (by linarith), hat_rise h h2, max_eq_right (by linarith)]
  · have := ramp_add_int δ 1
    rw [← this, ramp_unit (by push_cast; linarith) (by push_cast; linarith),
      hat_zero (by push_cast; linarith), max_eq_left (by linarith)]

theorem ramp_two_third {δ : ℚ} (h1 : -(1 / 6) ≤ δ) (h2 : δ ≤ 1 / 6) :
    ramp (δ + 2 / 3) = max 0 (-(6 * δ)) := by
  rw [ramp_unit (by linarith) (by linarith)]
  rcases le_total 0 δ with h | h
  · rw [hat_zero (by linarith), max_eq_left (by linarith)]
  · rw [hat_fall (by linarith) (by linarith), max_eq_right (by linarith)]; ring

/-- The three channels from the hue: exact. -/
theorem ramp_channels {r g b : ℚ} (hmx : ∀ x, x = max (max r g) b → ∀ m, m = min (min r g) b →
      m < x) :
    let mx := max (max r g) b
    let m := min (min r g) b
    let d := mx - m
    let h := hue0 r g b mx d
    m + d * ramp (h + 1 / 3) = r ∧ m + d * ramp h = g ∧ m + d * ramp (h - 1 / 3) = b := by
  intro mx m d h
  have hd : 0 < d := by have := hmx mx rfl m rfl; simp only [d]; linarith
  have hr1 : r ≤ mx := (le_max_left _ _).trans (le_max_left _ _)
  have hg1 : g ≤ mx := (le_max_right _ _).trans (le_max_left _ _)
  have hb1 : b ≤ mx := le_max_right _ _
  have hr2 : m ≤ r := (min_le_left _ _).trans (min_le_left _ _)
  have hg2 : m ≤ g := (min_le_left _ _).trans (min_le_right _ _)
  have hb2 : m ≤ b := min_le_right _ _
  have hmin : m = r ∨ m = g ∨ m = b := by
    simp only [m]
    rcases min_choice (min r g) b with e | e
    · rcases min_choice r g with e' | e'
      · left; rw [e, e']
      · right; left; rw [e, e']
    · right; right; exact e
  have hmax : mx = r ∨ mx = g ∨ mx = b := by
    simp only [mx]
    rcases max_choice (max r g) b with e | e
    · rcases max_choice r g with e' | e'
      · left; rw [e, e']
      · right; left; rw [e, e']
    · right; right; exact e
  have hdd : d = mx - m := rfl
  have key : ∀ a c : ℚ, m ≤ a → a ≤ mx → m ≤ c → c ≤ mx → (m = a ∨ m = c) →
      m + d * max 0 (6 * ((a - c) / (6 * d))) = a ∧ m + d * max 0 (-(6 * ((a - c) / (6 * d)))) = c := by
    intro a c ha1 ha2 hc1 hc2 hm
    have hmul := delta_mul (a := a) (b := c) hd
    rcases le_total c a with hac | hac
    · have : 0 ≤ (a - c) / (6 * d) := div_nonneg (by linarith) (by linarith)
      rw [max_eq_right (by linarith), max_eq_left (by linarith), hmul]
      have : m = c := by rcases hm with e | e <;> linarith
      constructor <;> linarith
    · have : (a - c) / (6 * d) ≤ 0 := div_nonpos_of_nonpos_of_nonneg (by linarith) (by linarith)
      rw [max_eq_left (by linarith), max_eq_right (by linarith), mul_neg, hmul]
      have : m = a := by rcases hm with e | e <;> linarith
      constructor <;> linarith
  by_cases h1 : r = mx
  · have hh : h = (g - b) / (6 * d) := by simp only [h, hue0, if_pos h1]
    have hm : m = g ∨ m = b := by
      rcases hmin with e | e | e
      · exfalso; linarith
      · exact .inl e
      · exact .inr e
    obtain ⟨b1, b2⟩ := delta_bound (a := g) (b := b) hd (abs_le.mpr ⟨by linarith, by linarith⟩)
    obtain ⟨k1, k2⟩ := key g b hg2 hg1 hb2 hb1 hm
    rw [hh]
    refine ⟨?_, ?_, ?_⟩
    · rw [ramp_third b1 b2]; linarith
    · rw [ramp_here b1 b2]; exact k1
    · have e : (g - b) / (6 * d) - 1 / 3 + ((1 : ℤ) : ℚ) = (g - b) / (6 * d) + 2 / 3 := by push_cast; ring
      rw [← ramp_add_int _ 1, e, ramp_two_third b1 b2]; exact k2
  · by_cases h2 : g = mx
    · have hh : h = 1 / 3 + (b - r) / (6 * d) := by simp only [h, hue0, if_neg h1, if_pos h2]
      have hm : m = b ∨ m = r := by
        rcases hmin with e | e | e
        · exact .inr e
        · exfalso; linarith
        · exact .inl e
      obtain ⟨b1, b2⟩ := delta_bound (a := b) (b := r) hd (abs_le.mpr ⟨by linarith, by linarith⟩)
      obtain ⟨k1, k2⟩ := key b r hb2 hb1 hr2 hr1 hm
      rw [hh]
      refine ⟨?_, ?_, ?_⟩
      · have e : 1 / 3 + (b - r) / (6 * d) + 1 / 3 = (b - r) / (6 * d) + 2 / 3 := by ring
        rw [e, ramp_two_third b1 b2]; exact k2
      · have e : 1 / 3 + (b - r) / (6 * d) = (b - r) / (6 * d) + 1 / 3 := by ring
        rw [e, ramp_third b1 b2]; linarith
      · have e : 1 / 3 + (b - r) / (6 * d) - 1 / 3 = (b - r) / (6 * d) := by ring
        rw [e, ramp_here b1 b2]; exact k1
    · have h3 : b = mx := by
        rcases hmax with e | e | e
        · exact absurd e.symm h1
        · exact absurd e.symm h2
        · exact e.symm
      have hh : h = 2 / 3 + (r - g) / (6 * d) := by simp only [h, hue0, if_neg h1, if_neg h2]
      have hm : m = r ∨ m = g := by
        rcases hmin with e | e | e
        · exact .inl e
        · exact .inr e
        · exfalso; linarith
      obtain ⟨b1, b2⟩ := delta_bound (a := r) (b := g) hd (abs_le.mpr ⟨by linarith, by linarith⟩)
      obtain ⟨k1, k2⟩ := key r g hr2 hr1 hg2 hg1 hm
      rw [hh]
      refine ⟨?_, ?_, ?_⟩
      · have e : 2 / 3 + (r - g) / (6 * d) + 1 / 3 = (r - g) / (6 * d) + ((1 : ℤ) : ℚ) := by push_cast; ring
        rw [e, ramp_add_int, ramp_here b1 b2]; exact k1
      · have e : 2 / 3 + (r - g) / (6 * d) = (r - g) / (6 * d) + 2 / 3 := by ring
        rw [e, ramp_two_third b1 b2]; exact k2
      · have e : 2 / 3 + (r - g) / (6 * d) - 1 / 3 = (r - g) / (6 * d) + 1 / 3 := by ring
        rw [e, ramp_third b1 b2]; linarith

end Slate
