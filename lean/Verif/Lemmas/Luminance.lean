import Verif.Spec.Luminance
import Verif.Lemmas.HlsFl
import Verif.Model.Luminance

/-! Luminance and lightness: monotonicity and error bounds. -/

namespace Slate
open Py

/-! ### Powers -/

/-- `x ^ (p/5)` against a bound: compare fifth powers. -/
theorem rpow_fifth_le {x a : ℝ} (hx : 0 ≤ x) (ha : 0 ≤ a) (h : x ^ 12 ≤ a ^ 5) : x ^ (2.4 : ℝ) ≤ a := by
  have e : (x ^ (2.4 : ℝ)) ^ 5 = x ^ 12 := by
    rw [← Real.rpow_natCast, ← Real.rpow_mul hx, ← Real.rpow_natCast]; norm_num
  exact le_of_pow_le_pow_left₀ (n := 5) (by norm_num) ha (by rw [e]; exact h)

theorem le_rpow_fifth {x a : ℝ} (hx : 0 ≤ x) (h : a ^ 5 ≤ x ^ 12) : a ≤ x ^ (2.4 : ℝ) := by
  have e : (x ^ (2.4 : ℝ)) ^ 5 = x ^ 12 := by
    rw [← Real.rpow_natCast, ← Real.rpow_mul hx, ← Real.rpow_natCast]; norm_num
  exact le_of_pow_le_pow_left₀ (n := 5) (by norm_num) (Real.rpow_nonneg hx _) (by rw [e]; exact h)

/-- Powers depend little on the exponent. -/
theorem rpow_exp_close {x s t : ℝ} (hx : 1 / 1000 ≤ x) (hx2 : x ≤ 2) (hs : 0 ≤ s) (hs3 : s ≤ 3)
    (hst : |t - s| ≤ 1 / 1000) : |x ^ t - x ^ s| ≤ 16000 * |t - s| := by
  have hx0 : 0 < x := by linarith
  have e : x ^ t - x ^ s = x ^ s * (Real.exp (Real.log x * (t - s)) - 1) := by
    have : x ^ t = x ^ s * x ^ (t - s) := by rw [← Real.rpow_add hx0]; ring_nf
    rw [this, Real.rpow_def_of_pos hx0 (t - s)]; ring
  have hl : |Real.log x| ≤ 1000 := by
    have h1 := Real.log_le_sub_one_of_pos hx0
    have h2 := Real.log_le_sub_one_of_pos (inv_pos.mpr hx0)
    rw [Real.log_inv] at h2
    have h3 : x⁻¹ ≤ 1000 := by
      rw [inv_le_comm₀ hx0 (by norm_num)]; linarith
    exact abs_le.mpr ⟨by linarith, by linarith⟩
  have hz : |Real.log x * (t - s)| ≤ 1000 * |t - s| := by
    rw [abs_mul]; exact mul_le_mul_of_nonneg_right hl (abs_nonneg _)
  have h1 := Real.abs_exp_sub_one_le (x := Real.log x * (t - s)) (by linarith)
  have h8 : x ^ s ≤ 8 := by
    calc x ^ s ≤ 2 ^ s := Real.rpow_le_rpow hx0.le hx2 hs
      _ ≤ 2 ^ (3 : ℝ) := Real.rpow_le_rpow_of_exponent_le (by norm_num) hs3
      _ = 8 := by norm_num
  rw [e, abs_mul, abs_of_nonneg (Real.rpow_nonneg hx0.le s)]
  calc x ^ s * |Real.exp (Real.log x * (t - s)) - 1| ≤ 8 * (2 * (1000 * |t - s|)) :=
        mul_le_mul h8 (h1.trans (by linarith)) (abs_nonneg _) (by norm_num)
    _ = 16000 * |t - s| := by ring

/-- Growth of `x ^ 2.4` from below and above. -/
theorem rpow_gap {x y : ℝ} (hx : 9 / 100 ≤ x) (hxy : x ≤ y) : 1 / 50 * (y - x) ≤ y ^ (2.4 : ℝ) - x ^ (2.4 : ℝ) := by
  have hx0 : 0 < x := by linarith
  have hy0 : 0 < y := by linarith
  have e1 : x ^ (2.4 : ℝ) = x * x ^ (1.4 : ℝ) := by
    have : (2.4 : ℝ) = 1 + 1.4 := by norm_num
    rw [this, Real.rpow_add hx0, Real.rpow_one]
  have e2 : y ^ (2.4 : ℝ) = y * y ^ (1.4 : ℝ) := by
    have : (2.4 : ℝ) = 1 + 1.4 := by norm_num
    rw [this, Real.rpow_add hy0, Real.rpow_one]
  have h1 : x ^ (1.4 : ℝ) ≤ y ^ (1.4 : ℝ) := Real.rpow_le_rpow hx0.le hxy (by norm_num)
  have h2 : (1 : ℝ) / 50 ≤ x ^ (1.4 : ℝ) := by
    have h3 : ((9 : ℝ) / 100) ^ (1.4 : ℝ) ≤ x ^ (1.4 : ℝ) := Real.rpow_le_rpow (by norm_num) hx (by norm_num)
    have e : (((9 : ℝ) / 100) ^ (1.4 : ℝ)) ^ 5 = (9 / 100) ^ 7 := by
      rw [← Real.rpow_natCast, ← Real.rpow_mul (by norm_num), ← Real.rpow_natCast]; norm_num
    have h4 : (1 : ℝ) / 50 ≤ (9 / 100) ^ (1.4 : ℝ) := by
      apply le_of_pow_le_pow_left₀ (n := 5) (by norm_num) (Real.rpow_nonneg (by norm_num) _)
      rw [e]; norm_num
    linarith
  rw [e1, e2]
  have : y * x ^ (1.4 : ℝ) ≤ y * y ^ (1.4 : ℝ) := mul_le_mul_of_nonneg_left h1 hy0.le
  have h5 : 1 / 50 * (y - x) ≤ x ^ (1.4 : ℝ) * (y - x) := mul_le_mul_of_nonneg_right h2 (by linarith)
  linarith

theorem rpow_lip {x y : ℝ} (hx : 9 / 100 ≤ x) (hxy : x ≤ y) (hy : y ≤ 2 * x) (hx1 : x ≤ 1) :
    y ^ (2.4 : ℝ) - x ^ (2.4 : ℝ) ≤ 7 * (y - x) := by
  have hx0 : 0 < x := by linarith
  obtain ⟨ρ, hρ⟩ : ∃ ρ, ρ = y / x := ⟨_, rfl⟩
  have e : y = x * ρ := by rw [hρ]; field_simp
  have r1 : 1 ≤ ρ := by rw [hρ, le_div_iff₀ hx0]; linarith
  have r2 : ρ ≤ 2 := by rw [hρ, div_le_iff₀ hx0]; linarith
  have h1 : ρ ^ (2.4 : ℝ) ≤ ρ ^ (3 : ℝ) := Real.rpow_le_rpow_of_exponent_le r1 (by norm_num)
  have h2 : ρ ^ (3 : ℝ) = ρ ^ 3 := by rw [← Real.rpow_natCast]; norm_num
  have h3 : x ^ (2.4 : ℝ) ≤ x := by
    calc x ^ (2.4 : ℝ) ≤ x ^ (1 : ℝ) := Real.rpow_le_rpow_of_exponent_ge hx0 hx1 (by norm_num)
      _ = x := Real.rpow_one x
  have h4 : 0 ≤ x ^ (2.4 : ℝ) := Real.rpow_nonneg hx0.le _
  rw [e, Real.mul_rpow hx0.le (by linarith)]
  have h5 : ρ ^ (2.4 : ℝ) - 1 ≤ 7 * (ρ - 1) := by
    rw [h2] at h1
    nlinarith [mul_nonneg (by linarith : (0:ℝ) ≤ ρ - 1) (by linarith : (0:ℝ) ≤ 2 - ρ)]
  have h6 : x ^ (2.4 : ℝ) * (ρ ^ (2.4 : ℝ) - 1) ≤ x ^ (2.4 : ℝ) * (7 * (ρ - 1)) := mul_le_mul_of_nonneg_left h5 h4
  have h7 : x ^ (2.4 : ℝ) * (7 * (ρ - 1)) ≤ x * (7 * (ρ - 1)) := mul_le_mul_of_nonneg_right h3 (by linarith)
  linarith

/-! ### The transfer function on 8-bit channels -/

/-- Linear value of an 8-bit channel. -/
noncomputable def lin (k : ℕ) : ℝ := srgbLinear (k / 255)

theorem lin_low {k : ℕ} (h : k ≤ 10) : lin k = (k / 255) / 12.92 := by
  have : (k : ℝ) ≤ 10 := by exact_mod_cast h
  unfold lin srgbLinear
  rw [if_pos (by norm_num; linarith)]

theorem lin_high {k : ℕ} (h : 11 ≤ k) : lin k = ((k / 255 + 0.055) / 1.055) ^ (2.4 : ℝ) := by
  have : (11 : ℝ) ≤ k := by exact_mod_cast h
  unfold lin srgbLinear
  rw [if_neg (by norm_num; linarith)]

theorem lin_succ (k : ℕ) : lin k + 1 / 20000 ≤ lin (k + 1) := by
  rcases lt_trichotomy k 10 with h | h | h
  · rw [lin_low (by omega), lin_low (by omega)]
    push_cast; norm_num; linarith
  · subst h
    rw [lin_low (by omega), lin_high (by omega)]
    have : (0.0032 : ℝ) ≤ ((((10 + 1 : ℕ) : ℝ) / 255 + 0.055) / 1.055) ^ (2.4 : ℝ) := by
      apply le_rpow_fifth (by positivity)
      norm_num
    have e : ((10 : ℕ) : ℝ) / 255 / 12.92 + 1 / 20000 ≤ 0.0032 := by norm_num
    linarith
  · have hk : (11 : ℝ) ≤ k := by exact_mod_cast h
    rw [lin_high (by omega), lin_high (by omega)]
    have := rpow_gap (x := ((k : ℝ) / 255 + 0.055) / 1.055) (y := (((k + 1 : ℕ) : ℝ) / 255 + 0.055) / 1.055)
      (by norm_num; linarith) (by push_cast; norm_num; linarith)
    have e : (((k + 1 : ℕ) : ℝ) / 255 + 0.055) / 1.055 - ((k : ℝ) / 255 + 0.055) / 1.055 = 1 / 255 / 1.055 := by
      push_cast; ring
    rw [e] at this
    norm_num at this ⊢
    linarith

theorem lin_gap {i j : ℕ} (h : i ≤ j) : lin i + (j - i : ℕ) / 20000 ≤ lin j := by
  obtain ⟨n, rfl⟩ := Nat.exists_eq_add_of_le h
  induction n with
  | zero => simp
  | succ n ih =>
    have h1 := ih (by omega)
    have h2 := lin_succ (i + n)
    have e : i + (n + 1) = i + n + 1 := by omega
    have e1 : i + n - i = n := by omega
    have e2 : i + n + 1 - i = n + 1 := by omega
    rw [e1] at h1
    rw [e, e2]
    push_cast
    linarith

theorem lin_mono {i j : ℕ} (h : i ≤ j) : lin i ≤ lin j := by
  have := lin_gap h
  have : (0 : ℝ) ≤ ((j - i : ℕ) : ℝ) / 20000 := by positivity
  linarith

theorem lin_zero : lin 0 = 0 := by rw [lin_low (by omega)]; norm_num
theorem lin_255 : lin 255 = 1 := by rw [lin_high (by omega)]; norm_num
theorem lin_nonneg (k : ℕ) : 0 ≤ lin k := by rw [← lin_zero]; exact lin_mono (by omega)
theorem lin_le_one {k : ℕ} (h : k ≤ 255) : lin k ≤ 1 := by rw [← lin_255]; exact lin_mono h

theorem relLuminance_eq (r g b : ℕ) : relLuminance r g b = 0.2126 * lin r + 0.7152 * lin g + 0.0722 * lin b := rfl

theorem relLuminance_bounds {r g b : ℕ} (hr : r ≤ 255) (hg : g ≤ 255) (hb : b ≤ 255) :
    0 ≤ relLuminance r g b ∧ relLuminance r g b ≤ 1 := by
  rw [relLuminance_eq]
  have := lin_nonneg r
  have := lin_nonneg g
  have := lin_nonneg b
  have := lin_le_one hr
  have := lin_le_one hg
  have := lin_le_one hb
  constructor <;> linarith

/-- Luminance strictly grows with the channels. -/
theorem relLuminance_gap {r g b r' g' b' : ℕ} (hr : r ≤ r') (hg : g ≤ g') (hb : b ≤ b')
    (hne : (r, g, b) ≠ (r', g', b')) : relLuminance r g b + 1 / 500000 ≤ relLuminance r' g' b' := by
  rw [relLuminance_eq, relLuminance_eq]
  have h1 := lin_gap hr
  have h2 := lin_gap hg
  have h3 := lin_gap hb
  have c : 1 ≤ (r' - r) + (g' - g) + (b' - b) := by
    by_contra hh
    apply hne
    have : r = r' ∧ g = g' ∧ b = b' := by omega
    obtain ⟨rfl, rfl, rfl⟩ := this
    rfl
  have c' : (1 : ℝ) ≤ ((r' - r : ℕ) : ℝ) + ((g' - g : ℕ) : ℝ) + ((b' - b : ℕ) : ℝ) := by exact_mod_cast c
  have p1 : (0 : ℝ) ≤ ((r' - r : ℕ) : ℝ) := Nat.cast_nonneg _
  have p2 : (0 : ℝ) ≤ ((g' - g : ℕ) : ℝ) := Nat.cast_nonneg _
  have p3 : (0 : ℝ) ≤ ((b' - b : ℕ) : ℝ) := Nat.cast_nonneg _
  linarith

/-! ### Lightness -/

/-- The cube root. -/
theorem cbrt {y : ℝ} (h : 0 ≤ y) : 0 ≤ y ^ (1 / 3 : ℝ) ∧ (y ^ (1 / 3 : ℝ)) ^ 3 = y := by
  refine ⟨Real.rpow_nonneg h _, ?_⟩
  rw [← Real.rpow_natCast, ← Real.rpow_mul h]; norm_num

theorem cube_lt {a b : ℝ} (ha : 0 ≤ a) (h : a ^ 3 ≤ b ^ 3) (hb : 0 ≤ b) : a ≤ b :=
  le_of_pow_le_pow_left₀ (by norm_num) hb h

theorem cbrt_diff {x y : ℝ} (hx : 216 / 24389 ≤ x) (hxy : x ≤ y) :
    116 * y ^ (1 / 3 : ℝ) - 116 * x ^ (1 / 3 : ℝ) ≤ 1000 * (y - x) ∧
      (y ≤ 1 → 30 * (y - x) ≤ 116 * y ^ (1 / 3 : ℝ) - 116 * x ^ (1 / 3 : ℝ)) := by
  obtain ⟨a0, a3⟩ := cbrt (y := x) (by linarith)
  obtain ⟨b0, b3⟩ := cbrt (y := y) (by linarith)
  set a := x ^ (1 / 3 : ℝ)
  set b := y ^ (1 / 3 : ℝ)
  have ha : 6 / 29 ≤ a := cube_lt (by norm_num) (by rw [a3]; norm_num; linarith) a0
  have hab : a ≤ b := cube_lt a0 (by rw [a3, b3]; exact hxy) b0
  have e : y - x = (b - a) * (b ^ 2 + b * a + a ^ 2) := by rw [← a3, ← b3]; ring
  have hba : 0 ≤ b - a := by linarith
  constructor
  · rw [e]
    have : 116 / 1000 ≤ b ^ 2 + b * a + a ^ 2 := by nlinarith
    nlinarith
  · intro hy
    have hb1 : b ≤ 1 := cube_lt b0 (by rw [b3]; linarith) (by norm_num)
    rw [e]
    have : b ^ 2 + b * a + a ^ 2 ≤ 3 := by nlinarith
    nlinarith

theorem cbrt_T : 116 * (216 / 24389 : ℝ) ^ (1 / 3 : ℝ) - 16 = 8 := by
  obtain ⟨a0, a3⟩ := cbrt (y := (216 / 24389 : ℝ)) (by norm_num)
  have h1 : (216 / 24389 : ℝ) ^ (1 / 3 : ℝ) ≤ 6 / 29 := cube_lt a0 (by rw [a3]; norm_num) (by norm_num)
  have h2 : 6 / 29 ≤ (216 / 24389 : ℝ) ^ (1 / 3 : ℝ) := cube_lt (by norm_num) (by rw [a3]; norm_num) a0
  linarith

/-- Lightness grows with luminance, neither too slowly nor too fast. -/
theorem cie_diff {x y : ℝ} (hxy : x ≤ y) :
    cieLightness y - cieLightness x ≤ 1000 * (y - x) ∧
      (y ≤ 1 → 30 * (y - x) ≤ cieLightness y - cieLightness x) := by
  unfold cieLightness
  have hT := cbrt_T
  by_cases h1 : y ≤ 216 / 24389
  · rw [if_pos h1, if_pos (by linarith)]
    exact ⟨by linarith, fun _ => by linarith⟩
  · rw [if_neg h1]
    by_cases h2 : x ≤ 216 / 24389
    · rw [if_pos h2]
      obtain ⟨p, q⟩ := cbrt_diff (x := 216 / 24389) (y := y) le_rfl (by linarith)
      exact ⟨by linarith, fun hy => by have := q hy; linarith⟩
    · rw [if_neg h2]
      obtain ⟨p, q⟩ := cbrt_diff (x := x) (y := y) (by linarith) hxy
      exact ⟨by linarith, fun hy => by have := q hy; linarith⟩

theorem cie_zero : cieLightness 0 = 0 := by unfold cieLightness; rw [if_pos (by norm_num)]; norm_num
theorem cie_one : cieLightness 1 = 100 := by unfold cieLightness; rw [if_neg (by norm_num)]; norm_num

theorem cie_lip (x y : ℝ) : |cieLightness y - cieLightness x| ≤ 1000 * |y - x| := by
  rcases le_total x y with h | h
  · have := (cie_diff h).1
    have h0 : 0 ≤ cieLightness y - cieLightness x ∨ cieLightness y - cieLightness x < 0 := le_or_gt 0 _
    have mono : 0 ≤ cieLightness y - cieLightness x := by
      unfold cieLightness
      have hT := cbrt_T
      by_cases h1 : y ≤ 216 / 24389
      · rw [if_pos h1, if_pos (by linarith)]; linarith
      · rw [if_neg h1]
        by_cases h2 : x ≤ 216 / 24389
        · rw [if_pos h2]
          have : (216 / 24389 : ℝ) ^ (1 / 3 : ℝ) ≤ y ^ (1 / 3 : ℝ) :=
            Real.rpow_le_rpow (by norm_num) (by linarith) (by norm_num)
          linarith
        · rw [if_neg h2]
          have : x ^ (1 / 3 : ℝ) ≤ y ^ (1 / 3 : ℝ) := Real.rpow_le_rpow (by linarith) h (by norm_num)
          linarith
    rw [abs_of_nonneg mono, abs_of_nonneg (by linarith)]
    exact this
  · have := (cie_diff h).1
    have mono : 0 ≤ cieLightness x - cieLightness y := by
      unfold cieLightness
      have hT := cbrt_T
      by_cases h1 : x ≤ 216 / 24389
      · rw [if_pos h1, if_pos (by linarith)]; linarith
      · rw [if_neg h1]
        by_cases h2 : y ≤ 216 / 24389
        · rw [if_pos h2]
          have : (216 / 24389 : ℝ) ^ (1 / 3 : ℝ) ≤ x ^ (1 / 3 : ℝ) :=
            Real.rpow_le_rpow (by norm_num) (by linarith) (by norm_num)
          linarith
        · rw [if_neg h2]
          have : y ^ (1 / 3 : ℝ) ≤ x ^ (1 / 3 : ℝ) := Real.rpow_le_rpow (by linarith) h (by norm_num)
          linarith
    rw [abs_sub_comm, abs_of_nonneg mono, abs_sub_comm, abs_of_nonneg (by linarith)]
    exact this

end Slate
