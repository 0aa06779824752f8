import Verif.Lemmas.Luminance

/-! Luminance and brightness as computed, against the exact values. -/

namespace Slate
open Py

theorem fleR {x : ℚ} (h1 : -16 < (x : ℝ)) (h2 : (x : ℝ) < 16) :
    (fl x : ℝ) - x ≤ 1 / 2 ^ 50 ∧ (x : ℝ) - fl x ≤ 1 / 2 ^ 50 := by
  have := fle' (x := x) (by exact_mod_cast h1) (by exact_mod_cast h2)
  unfold eps at this
  obtain ⟨a, b⟩ := this
  constructor
  · have : ((fl x - x : ℚ) : ℝ) ≤ ((1 / 2 ^ 50 : ℚ) : ℝ) := by exact_mod_cast a
    push_cast at this; exact this
  · have : ((x - fl x : ℚ) : ℝ) ≤ ((1 / 2 ^ 50 : ℚ) : ℝ) := by exact_mod_cast b
    push_cast at this; exact this

/-- Rounding below `2^8`. -/
theorem fleR8 {x : ℚ} (h1 : -1024 < (x : ℝ)) (h2 : (x : ℝ) < 1024) :
    (fl x : ℝ) - x ≤ 1 / 2 ^ 44 ∧ (x : ℝ) - fl x ≤ 1 / 2 ^ 44 := by
  have h := fl_err (x := x) (k := 10) (by norm_num) (by
    norm_num
    exact abs_lt.mpr ⟨by exact_mod_cast h1, by exact_mod_cast h2⟩)
  have e : (2 : ℚ) ^ ((10 : ℤ) - 54) = 1 / 2 ^ 44 := by norm_num
  rw [e] at h
  obtain ⟨a, b⟩ := abs_le.mp h
  constructor
  · have : ((fl x - x : ℚ) : ℝ) ≤ ((1 / 2 ^ 44 : ℚ) : ℝ) := by exact_mod_cast b
    push_cast at this; exact this
  · have : ((-(1 / 2 ^ 44) : ℚ) : ℝ) ≤ ((fl x - x : ℚ) : ℝ) := by exact_mod_cast a
    push_cast at this; linarith

/-- The part of `_linearize` without powers: all 256 channel values. -/
theorem linearize_table : ∀ k ∈ List.range 256,
    (k ≤ 10 → fl ((k : ℚ) / 255) ≤ fl (4045 / 100000) ∧
      |fl (fl ((k : ℚ) / 255) / fl (1292 / 100)) - (k : ℚ) / 255 / (1292 / 100)| ≤ 1 / 2 ^ 50) ∧
    (11 ≤ k → ¬ fl ((k : ℚ) / 255) ≤ fl (4045 / 100000) ∧
      |fl (fl (fl ((k : ℚ) / 255) + fl (55 / 1000)) / fl (1055 / 1000)) -
        ((k : ℚ) / 255 + 55 / 1000) / (1055 / 1000)| ≤ 1 / 2 ^ 50) := by
  decide +kernel

theorem exp_table : |fl (24 / 10) - 24 / 10| ≤ 1 / 2 ^ 50 ∧ |fl (1 / 3) - 1 / 3| ≤ 1 / 2 ^ 53 ∧
    0 < fl (24 / 10) ∧ fl (24 / 10) ≤ 3 ∧ 0 < fl (1 / 3) ∧ fl (1 / 3) ≤ 3 := by
  decide +kernel

/-- One channel: the computed linear value. -/
theorem linearize_close {pow : ℚ → ℚ → ℚ} (hp : PowOk pow) {k : ℕ} (hk : k ≤ 255) :
    |(Color.linearize pow (fl ((k : ℚ) / 255)) : ℝ) - lin k| ≤ 1 / 2 ^ 35 := by
  obtain ⟨hlo, hhi⟩ := linearize_table k (List.mem_range.mpr (by omega))
  unfold Color.linearize
  rcases le_or_gt k 10 with h | h
  · obtain ⟨h1, h2⟩ := hlo h
    rw [if_pos h1, lin_low h]
    have : |((fl (fl ((k : ℚ) / 255) / fl (1292 / 100)) - (k : ℚ) / 255 / (1292 / 100) : ℚ) : ℝ)| ≤
        ((1 / 2 ^ 50 : ℚ) : ℝ) := by exact_mod_cast h2
    push_cast at this
    have e : (12.92 : ℝ) = 1292 / 100 := by norm_num
    rw [e]
    exact this.trans (by norm_num)
  · obtain ⟨h1, h2⟩ := hhi h
    rw [if_neg h1, lin_high h]
    set q := fl (fl (fl ((k : ℚ) / 255) + fl (55 / 1000)) / fl (1055 / 1000))
    have h3 : |((q - ((k : ℚ) / 255 + 55 / 1000) / (1055 / 1000) : ℚ) : ℝ)| ≤ ((1 / 2 ^ 50 : ℚ) : ℝ) := by
      exact_mod_cast h2
    push_cast at h3
    have e : ((k : ℝ) / 255 + 0.055) / 1.055 = ((k : ℝ) / 255 + 55 / 1000) / (1055 / 1000) := by norm_num
    rw [e]
    have kr : (11 : ℝ) ≤ k := by exact_mod_cast h
    have kr2 : (k : ℝ) ≤ 255 := by exact_mod_cast hk
    have x1 : 92 / 1000 ≤ ((k : ℝ) / 255 + 55 / 1000) / (1055 / 1000) := by linarith
    have x2 : ((k : ℝ) / 255 + 55 / 1000) / (1055 / 1000) ≤ 1 := by linarith
    set x := ((k : ℝ) / 255 + 55 / 1000) / (1055 / 1000)
    obtain ⟨h4, h5⟩ := abs_le.mp h3
    have q1 : (91 / 1000 : ℝ) ≤ q := by linarith
    have q2 : (q : ℝ) ≤ 2 := by linarith
    obtain ⟨t1, -, t3, t4, -, -⟩ := exp_table
    have t1' : |((fl (24 / 10) - 24 / 10 : ℚ) : ℝ)| ≤ ((1 / 2 ^ 50 : ℚ) : ℝ) := by exact_mod_cast t1
    push_cast at t1'
    have e24 : (2.4 : ℝ) = 24 / 10 := by norm_num
    have q0 : (0 : ℚ) < q := by
      have : (0 : ℝ) < q := by linarith
      exact_mod_cast this
    have a1 := hp q (fl (24 / 10)) q0 (by exact_mod_cast q2) t3 t4
    have a2 := rpow_exp_close (x := (q : ℝ)) (s := 24 / 10) (t := (fl (24 / 10) : ℝ)) (by linarith) q2
      (by norm_num) (by norm_num) (by linarith)
    have a2' : |(q : ℝ) ^ (fl (24 / 10) : ℝ) - (q : ℝ) ^ (24 / 10 : ℝ)| ≤ 1 / 2 ^ 36 :=
      a2.trans (by
        have : 16000 * |(fl (24 / 10) : ℝ) - 24 / 10| ≤ 16000 * (1 / 2 ^ 50) :=
          mul_le_mul_of_nonneg_left t1' (by norm_num)
        exact this.trans (by norm_num))
    have a3 : |(q : ℝ) ^ (24 / 10 : ℝ) - x ^ (24 / 10 : ℝ)| ≤ 1 / 2 ^ 40 := by
      rw [← e24]
      rcases le_total x (q : ℝ) with hh | hh
      · have u := rpow_lip (x := x) (y := (q : ℝ)) (by linarith) hh (by linarith) x2
        have w := rpow_gap (x := x) (y := (q : ℝ)) (by linarith) hh
        rw [abs_of_nonneg (by linarith)]
        linarith
      · have u := rpow_lip (x := (q : ℝ)) (y := x) (by linarith) hh (by linarith) (by linarith)
        have w := rpow_gap (x := (q : ℝ)) (y := x) (by linarith) hh
        rw [abs_of_nonpos (by linarith)]
        linarith
    rw [e24]
    obtain ⟨b1, b2⟩ := abs_le.mp a1
    obtain ⟨c1, c2⟩ := abs_le.mp a2'
    obtain ⟨d1, d2⟩ := abs_le.mp a3
    exact abs_le.mpr ⟨by linarith, by linarith⟩

/-- A weighted linear value. -/
theorem weight_close {w : ℚ} {v z : ℝ} {q : ℚ} (hw0 : 0 ≤ w) (hw1 : w ≤ 1) (hv : |(q : ℝ) - v| ≤ 1 / 2 ^ 35)
    (hv0 : 0 ≤ v) (hv1 : v ≤ 1) (hz : z = (w : ℝ) * v) :
    |(fl (fl w * q) : ℝ) - z| ≤ 1 / 2 ^ 34 := by
  have w0 : (0 : ℝ) ≤ w := by exact_mod_cast hw0
  have w1 : (w : ℝ) ≤ 1 := by exact_mod_cast hw1
  obtain ⟨f1, f2⟩ := fleR (x := w) (by linarith) (by linarith)
  obtain ⟨v1, v2⟩ := abs_le.mp hv
  have hq : |(q : ℝ)| ≤ 2 := abs_le.mpr ⟨by linarith, by linarith⟩
  have p1 : |((fl w : ℝ) - w) * q| ≤ 1 / 2 ^ 50 * 2 := by
    rw [abs_mul]; exact mul_le_mul (abs_le.mpr ⟨by linarith, by linarith⟩) hq (abs_nonneg _) (by norm_num)
  have p2 : |(w : ℝ) * ((q : ℝ) - v)| ≤ 1 * (1 / 2 ^ 35) := by
    rw [abs_mul]; exact mul_le_mul (abs_le.mpr ⟨by linarith, by linarith⟩) hv (abs_nonneg _) (by norm_num)
  obtain ⟨a1, a2⟩ := abs_le.mp p1
  obtain ⟨b1, b2⟩ := abs_le.mp p2
  have e : ((fl w * q : ℚ) : ℝ) = ((fl w : ℝ) - w) * q + (w : ℝ) * ((q : ℝ) - v) + w * v := by push_cast; ring
  have m0 : 0 ≤ (w : ℝ) * v := mul_nonneg w0 hv0
  have m1 : (w : ℝ) * v ≤ 1 * 1 := mul_le_mul w1 hv1 hv0 (by norm_num)
  obtain ⟨c1, c2⟩ := fleR (x := fl w * q) (by linarith) (by linarith)
  rw [hz]
  exact abs_le.mpr ⟨by linarith, by linarith⟩

/-- The computed luminance is close to the relative luminance. -/
theorem luminance_close {pow : ℚ → ℚ → ℚ} (hp : PowOk pow) {r g b : ℕ} (hr : r ≤ 255) (hg : g ≤ 255)
    (hb : b ≤ 255) : |(Color.luminance pow r g b : ℝ) - relLuminance r g b| ≤ 1 / 2 ^ 32 := by
  have h1 := weight_close (w := 2126 / 10000) (z := 0.2126 * lin r) (by norm_num) (by norm_num)
    (linearize_close hp hr) (lin_nonneg r) (lin_le_one hr) (by norm_num)
  have h2 := weight_close (w := 7152 / 10000) (z := 0.7152 * lin g) (by norm_num) (by norm_num)
    (linearize_close hp hg) (lin_nonneg g) (lin_le_one hg) (by norm_num)
  have h3 := weight_close (w := 722 / 10000) (z := 0.0722 * lin b) (by norm_num) (by norm_num)
    (linearize_close hp hb) (lin_nonneg b) (lin_le_one hb) (by norm_num)
  have r0 := lin_nonneg r
  have g0 := lin_nonneg g
  have b0 := lin_nonneg b
  have r1 := lin_le_one hr
  have g1 := lin_le_one hg
  have b1 := lin_le_one hb
  unfold Color.luminance
  rw [relLuminance_eq]
  simp only
  set R := fl (fl (2126 / 10000) * Color.linearize pow (fl ((r : ℚ) / 255)))
  set G := fl (fl (7152 / 10000) * Color.linearize pow (fl ((g : ℚ) / 255)))
  set B := fl (fl (722 / 10000) * Color.linearize pow (fl ((b : ℚ) / 255)))
  obtain ⟨a1, a2⟩ := abs_le.mp h1
  obtain ⟨c1, c2⟩ := abs_le.mp h2
  obtain ⟨d1, d2⟩ := abs_le.mp h3
  obtain ⟨e1, e2⟩ := fleR (x := R + G) (by push_cast; linarith) (by push_cast; linarith)
  push_cast at e1 e2
  obtain ⟨f1, f2⟩ := fleR (x := fl (R + G) + B) (by push_cast; linarith) (by push_cast; linarith)
  push_cast at f1 f2
  exact abs_le.mpr ⟨by linarith, by linarith⟩

theorem bright_table : |fl (216 / 24389) - 216 / 24389| ≤ 1 / 2 ^ 50 ∧
    |fl (24389 / 27) - 24389 / 27| ≤ 1 / 2 ^ 40 := by decide +kernel

/-- The computed brightness of a luminance is close to its lightness. -/
theorem brightness_close {pow : ℚ → ℚ → ℚ} (hp : PowOk pow) {y : ℚ} (h0 : -(1 / 2 ^ 32) ≤ (y : ℝ))
    (h1 : (y : ℝ) ≤ 1 + 1 / 2 ^ 32) : |(Color.brightness pow y : ℝ) - cieLightness y / 100| ≤ 1 / 2 ^ 30 := by
  obtain ⟨t1, t2⟩ := bright_table
  have t1' : |((fl (216 / 24389) - 216 / 24389 : ℚ) : ℝ)| ≤ ((1 / 2 ^ 50 : ℚ) : ℝ) := by exact_mod_cast t1
  have t2' : |((fl (24389 / 27) - 24389 / 27 : ℚ) : ℝ)| ≤ ((1 / 2 ^ 40 : ℚ) : ℝ) := by exact_mod_cast t2
  push_cast at t1' t2'
  obtain ⟨ta, tb⟩ := abs_le.mp t1'
  obtain ⟨tc, td⟩ := abs_le.mp t2'
  -- the lightness before the division
  have key : |((if y ≤ fl (216 / 24389) then fl (y * fl (24389 / 27))
      else fl (fl (pow y (fl (1 / 3)) * 116) - 16) : ℚ) : ℝ) - cieLightness y| ≤ 1 / 2 ^ 24 := by
    split
    · rename_i h
      have hy : (y : ℝ) ≤ fl (216 / 24389) := by exact_mod_cast h
      have hc : |(y : ℝ) * (24389 / 27) - cieLightness y| ≤ 1 / 2 ^ 38 := by
        rcases le_or_gt (y : ℝ) (216 / 24389) with hh | hh
        · unfold cieLightness; rw [if_pos hh, sub_self, abs_zero]; norm_num
        · have l1 := cie_lip (216 / 24389) y
          have e8 : cieLightness (216 / 24389) = 8 := by
            unfold cieLightness; rw [if_pos le_rfl]; norm_num
          rw [e8, abs_of_pos (by linarith : (0 : ℝ) < y - 216 / 24389)] at l1
          obtain ⟨l2, l3⟩ := abs_le.mp l1
          have hyy : (y : ℝ) - 216 / 24389 ≤ 1 / 2 ^ 50 := by linarith
          exact abs_le.mpr ⟨by linarith, by linarith⟩
      have p1 : |(y : ℝ) * ((fl (24389 / 27) : ℝ) - 24389 / 27)| ≤ 1 * (1 / 2 ^ 40) := by
        rw [abs_mul]
        exact mul_le_mul (abs_le.mpr ⟨by linarith, by linarith⟩) t2' (abs_nonneg _) (by norm_num)
      obtain ⟨p2, p3⟩ := abs_le.mp p1
      have e : ((y * fl (24389 / 27) : ℚ) : ℝ) = (y : ℝ) * ((fl (24389 / 27) : ℝ) - 24389 / 27) + y * (24389 / 27) := by
        push_cast; ring
      obtain ⟨f1, f2⟩ := fleR8 (x := y * fl (24389 / 27)) (by rw [e]; linarith) (by rw [e]; linarith)
      obtain ⟨c1, c2⟩ := abs_le.mp hc
      rw [e] at f1 f2
      exact abs_le.mpr ⟨by linarith, by linarith⟩
    · rename_i h
      have hy : (fl (216 / 24389) : ℝ) < y := by exact_mod_cast not_le.mp h
      obtain ⟨-, t3, -, -, t4, t5⟩ := exp_table
      have t3' : |((fl (1 / 3) - 1 / 3 : ℚ) : ℝ)| ≤ ((1 / 2 ^ 53 : ℚ) : ℝ) := by exact_mod_cast t3
      push_cast at t3'
      have y0 : (0 : ℚ) < y := by
        have : (0 : ℝ) < y := by linarith
        exact_mod_cast this
      have y2 : y ≤ 2 := by
        have : (y : ℝ) ≤ 2 := by linarith
        exact_mod_cast this
      have a1 := hp y (fl (1 / 3)) y0 y2 t4 t5
      have a2 := rpow_exp_close (x := (y : ℝ)) (s := 1 / 3) (t := (fl (1 / 3) : ℝ)) (by linarith) (by linarith)
        (by norm_num) (by norm_num) (by linarith)
      have a2' : |(y : ℝ) ^ (fl (1 / 3) : ℝ) - (y : ℝ) ^ (1 / 3 : ℝ)| ≤ 1 / 2 ^ 39 :=
        a2.trans (by
          have : 16000 * |(fl (1 / 3) : ℝ) - 1 / 3| ≤ 16000 * (1 / 2 ^ 53) :=
            mul_le_mul_of_nonneg_left t3' (by norm_num)
          exact this.trans (by norm_num))
      have hc : |116 * (y : ℝ) ^ (1 / 3 : ℝ) - 16 - cieLightness y| ≤ 1 / 2 ^ 38 := by
        rcases le_or_gt (y : ℝ) (216 / 24389) with hh | hh
        · unfold cieLightness; rw [if_pos hh]
          -- both are within a hair of 8
          have hT := cbrt_T
          have hTp : (216 / 24389 : ℝ) - y ≤ 1 / 2 ^ 50 := by linarith
          obtain ⟨q0, q3⟩ := cbrt (y := (y : ℝ)) (by linarith)
          obtain ⟨s0, s3⟩ := cbrt (y := (216 / 24389 : ℝ)) (by norm_num)
          have hs : (216 / 24389 : ℝ) ^ (1 / 3 : ℝ) = 6 / 29 := by linarith
          set u := (y : ℝ) ^ (1 / 3 : ℝ)
          have hu : u ≤ 6 / 29 := cube_lt q0 (by rw [q3]; norm_num; linarith) (by norm_num)
          have hu2 : 6 / 29 - u ≤ 1 / 2 ^ 45 := by
            have e : (6 / 29 - u) * ((6 / 29) ^ 2 + 6 / 29 * u + u ^ 2) = 216 / 24389 - y := by
              rw [← q3]; ring
            have : (6 / 29 - u) * (6 / 29) ^ 2 ≤ 216 / 24389 - y := by
              rw [← e]
              apply mul_le_mul_of_nonneg_left _ (by linarith)
              nlinarith
            norm_num at this ⊢
            linarith
          exact abs_le.mpr ⟨by linarith, by linarith⟩
        · unfold cieLightness; rw [if_neg (by linarith), sub_self, abs_zero]; norm_num
      have yr : (y : ℝ) ^ (1 / 3 : ℝ) ≤ 2 ∧ 0 ≤ (y : ℝ) ^ (1 / 3 : ℝ) := by
        obtain ⟨q0, q3⟩ := cbrt (y := (y : ℝ)) (by linarith)
        exact ⟨cube_lt q0 (by rw [q3]; linarith) (by norm_num), q0⟩
      set P := pow y (fl (1 / 3))
      obtain ⟨b1, b2⟩ := abs_le.mp a1
      obtain ⟨b3, b4⟩ := abs_le.mp a2'
      obtain ⟨b5, b6⟩ := abs_le.mp hc
      obtain ⟨f1, f2⟩ := fleR8 (x := P * 116) (by push_cast; linarith [yr.1, yr.2]) (by push_cast; linarith [yr.1, yr.2])
      push_cast at f1 f2
      obtain ⟨f3, f4⟩ := fleR8 (x := fl (P * 116) - 16) (by push_cast; linarith [yr.1, yr.2])
        (by push_cast; linarith [yr.1, yr.2])
      push_cast at f3 f4
      exact abs_le.mpr ⟨by linarith, by linarith⟩
  unfold Color.brightness
  set Z := (if y ≤ fl (216 / 24389) then fl (y * fl (24389 / 27))
      else fl (fl (pow y (fl (1 / 3)) * 116) - 16) : ℚ)
  obtain ⟨k1, k2⟩ := abs_le.mp key
  have c1 := cie_lip 0 y
  rw [cie_zero] at c1
  have yb : |(y : ℝ) - 0| ≤ 1 + 1 / 2 ^ 32 := abs_le.mpr ⟨by linarith, by linarith⟩
  obtain ⟨c2, c3⟩ := abs_le.mp c1
  obtain ⟨f1, f2⟩ := fleR (x := Z / 100) (by push_cast; linarith) (by push_cast; linarith)
  push_cast at f1 f2
  exact abs_le.mpr ⟨by linarith, by linarith⟩

end Slate
