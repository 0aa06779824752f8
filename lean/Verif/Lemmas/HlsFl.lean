import Verif.Lemmas.Hls
import Verif.Props.Hue

/-! The hue functions in binary64 arithmetic: error analysis. -/

namespace Slate
open Py Hls

/-- The error unit of the analysis. -/
def eps : ℚ := 1 / 2 ^ 50

theorem eps_pos : 0 < eps := by unfold eps; norm_num
theorem eps_small : eps ≤ 1 / 2 ^ 50 := le_refl _

theorem fle {x : ℚ} (h : |x| < 16) : |fl x - x| ≤ eps := by
  have := fl_err (x := x) (k := 4) (by norm_num) (by norm_num; exact h)
  refine this.trans (le_of_eq ?_)
  unfold eps; norm_num

theorem fle' {x : ℚ} (h1 : -16 < x) (h2 : x < 16) : fl x - x ≤ eps ∧ x - fl x ≤ eps := by
  have := abs_le.mp (fle (abs_lt.mpr ⟨h1, h2⟩))
  constructor <;> linarith [this.1, this.2]

theorem fl_dyadic (n : ℤ) (k : ℕ) (hn : |n| ≤ 2 ^ 53) (hk : k ≤ 1074) :
    fl ((n : ℚ) / 2 ^ k) = (n : ℚ) / 2 ^ k := by
  have := fl_repr n (-(k : ℤ)) hn (by omega)
  rwa [zpow_neg, zpow_natCast, ← div_eq_mul_inv] at this

theorem fl_sixth : fl (1 / 6) = 6004799503160661 / 36028797018963968 := by decide +kernel
theorem fl_third : fl (1 / 3) = 6004799503160661 / 18014398509481984 := by decide +kernel
theorem fl_two_third : fl (2 / 3) = 6004799503160661 / 9007199254740992 := by decide +kernel

theorem mod1_fl (x : ℚ) : (0 ≤ mod1 fl x ∧ mod1 fl x ≤ 1) ∧
    ∃ k : ℤ, mod1 fl x - (x + k) ≤ eps ∧ (x + k) - mod1 fl x ≤ eps := by
  have hm : -1 < x - truncate x ∧ x - truncate x < 1 := by
    rcases le_or_gt 0 x with h | h
    · rw [truncate_of_nonneg h]
      have := Int.floor_le x
      have := Int.lt_floor_add_one x
      constructor <;> linarith
    · have e : truncate x = -⌊-x⌋ := by
        have := truncate_neg (-x)
        rw [neg_neg, truncate_of_nonneg (by linarith : 0 ≤ -x)] at this
        exact this
      rw [e]; push_cast
      have := Int.floor_le (-x)
      have := Int.lt_floor_add_one (-x)
      constructor <;> linarith
  unfold mod1
  simp only
  split
  · rename_i h
    refine ⟨⟨fl_nonneg (by linarith), ?_⟩, -truncate x + 1, ?_⟩
    · have := fl_mono (x := x - truncate x + 1) (y := 1) (by linarith)
      rwa [fl_one] at this
    · have := fle' (x := x - truncate x + 1) (by linarith) (by linarith)
      push_cast
      constructor <;> linarith [this.1, this.2]
  · rename_i h
    refine ⟨⟨by linarith, by linarith⟩, -truncate x, ?_⟩
    push_cast
    have := eps_pos
    constructor <;> linarith

theorem mul_bound {a b B : ℚ} (ha : -B ≤ a ∧ a ≤ B) (hb : 0 ≤ b ∧ b ≤ 1) : -B ≤ a * b ∧ a * b ≤ B := by
  have hB : 0 ≤ B := by linarith [ha.1, ha.2]
  have := abs_le.mpr ha
  have h2 : |a * b| ≤ B := by
    rw [abs_mul, abs_of_nonneg hb.1]
    calc |a| * b ≤ |a| * 1 := mul_le_mul_of_nonneg_left hb.2 (abs_nonneg _)
      _ = |a| := mul_one _
      _ ≤ B := this
  exact abs_le.mp h2

/-- The slanted parts of `_v`: `m1 + (m2 - m1) * u * 6`. -/
theorem slope_err {m1 m2 u : ℚ} (h1 : -2 ≤ m1 ∧ m1 ≤ 2) (h2 : -2 ≤ m2 ∧ m2 ≤ 2) (hu : 0 ≤ u ∧ u ≤ 1 / 5) :
    let w := fl (m1 + fl (fl (fl (m2 - m1) * u) * 6))
    w - (m1 + (m2 - m1) * (6 * u)) ≤ 16 * eps ∧ (m1 + (m2 - m1) * (6 * u)) - w ≤ 16 * eps := by
  intro w
  have e0 := eps_pos
  have e1 : eps ≤ 1 / 1000 := by unfold eps; norm_num
  have a := fle' (x := m2 - m1) (by linarith [h1.1, h2.1, h1.2, h2.2]) (by linarith [h1.1, h2.1, h1.2, h2.2])
  set d := fl (m2 - m1)
  -- d * u against (m2 - m1) * u
  have b := mul_bound (a := d - (m2 - m1)) (b := u) (B := eps) ⟨by linarith [a.2], by linarith [a.1]⟩
    ⟨hu.1, by linarith [hu.2]⟩
  have du : (d - (m2 - m1)) * u = d * u - (m2 - m1) * u := by ring
  rw [du] at b
  have c1 := mul_bound (a := m2 - m1) (b := 5 * u) (B := 4) ⟨by linarith [h1.2, h2.1], by linarith [h1.1, h2.2]⟩
    ⟨by linarith [hu.1], by linarith [hu.2]⟩
  have c2 : (m2 - m1) * (5 * u) = 5 * ((m2 - m1) * u) := by ring
  rw [c2] at c1
  set z := (m2 - m1) * u
  have p := fle' (x := d * u) (by linarith [b.1, c1.1]) (by linarith [b.2, c1.2])
  set P := fl (d * u)
  have q := fle' (x := P * 6) (by linarith [b.1, c1.1, p.2]) (by linarith [b.2, c1.2, p.1])
  set Q := fl (P * 6)
  have r := fle' (x := m1 + Q) (by linarith [b.1, c1.1, p.2, q.2, h1.1]) (by linarith [b.2, c1.2, p.1, q.1, h1.2])
  have e : (m2 - m1) * (6 * u) = 6 * z := by simp only [z]; ring
  rw [e]
  constructor
  · linarith [b.2, p.1, q.1, r.1]
  · linarith [b.1, p.2, q.2, r.2]

/-- `_v` in binary64 arithmetic against the trapezoid at the computed hue. -/
theorem v_fl {m1 m2 : ℚ} (x : ℚ) (h1 : -2 ≤ m1 ∧ m1 ≤ 2) (h2 : -2 ≤ m2 ∧ m2 ≤ 2) :
    v fl m1 m2 x - (m1 + (m2 - m1) * hat (mod1 fl x)) ≤ 128 * eps ∧
    (m1 + (m2 - m1) * hat (mod1 fl x)) - v fl m1 m2 x ≤ 128 * eps := by
  obtain ⟨⟨hu0, hu1⟩, -⟩ := mod1_fl x
  have e0 := eps_pos
  unfold v
  set u := mod1 fl x
  simp only
  -- comparison of two heights
  have mix : ∀ t t' : ℚ, t - t' ≤ 16 * eps → t' - t ≤ 16 * eps →
      (m2 - m1) * t - (m2 - m1) * t' ≤ 64 * eps ∧ (m2 - m1) * t' - (m2 - m1) * t ≤ 64 * eps := by
    intro t t' a b
    have hm : |m2 - m1| ≤ 4 := abs_le.mpr ⟨by linarith [h1.2, h2.1], by linarith [h1.1, h2.2]⟩
    have ht : |t - t'| ≤ 16 * eps := abs_le.mpr ⟨by linarith, by linarith⟩
    have : |(m2 - m1) * (t - t')| ≤ 4 * (16 * eps) := by
      rw [abs_mul]; exact mul_le_mul hm ht (abs_nonneg _) (by norm_num)
    have e : (m2 - m1) * (t - t') = (m2 - m1) * t - (m2 - m1) * t' := by ring
    rw [e] at this
    have := abs_le.mp this
    constructor <;> linarith [this.1, this.2]
  have s6 : fl (1 / 6) ≤ 1 / 6 ∧ 1 / 6 - fl (1 / 6) ≤ eps := by
    rw [fl_sixth]; unfold eps; norm_num
  have s3 : fl (2 / 3) ≤ 2 / 3 ∧ 2 / 3 - fl (2 / 3) ≤ eps := by
    rw [fl_two_third]; unfold eps; norm_num
  split
  · rename_i h
    rw [hat_rise hu0 (by linarith [s6.1])]
    have := slope_err h1 h2 (u := u) ⟨hu0, by linarith [s6.1]⟩
    constructor <;> linarith [this.1, this.2]
  split
  · rename_i h h'
    have hge := not_lt.mp h
    have ht : 1 - hat u ≤ 16 * eps := by
      rcases le_or_gt (1 / 6) u with hh | hh
      · rw [hat_top hh h'.le]; linarith
      · rw [hat_rise hu0 hh.le]; linarith [s6.2]
    have := mix 1 (hat u) ht (by linarith [hat_le_one u])
    constructor <;> linarith [this.1, this.2]
  split
  · rename_i h h' h''
    have hge := not_lt.mp h'
    have hf : fl (2 / 3) - u ≤ 1 / 5 - eps := by
      rw [fl_two_third]; unfold eps; norm_num; linarith
    have hw := fle' (x := fl (2 / 3) - u) (by linarith) (by linarith)
    have hw0 : 0 ≤ fl (fl (2 / 3) - u) := fl_nonneg (by linarith)
    have := slope_err h1 h2 (u := fl (fl (2 / 3) - u)) ⟨hw0, by linarith [hw.1]⟩
    have m := mix (6 * fl (fl (2 / 3) - u)) (hat u) (by
      rw [hat_fall hge (by linarith [s3.1])]; linarith [hw.1, s3.1]) (by
      rw [hat_fall hge (by linarith [s3.1])]; linarith [hw.2, s3.2])
    constructor <;> linarith [this.1, this.2, m.1, m.2]
  · rename_i h h' h''
    have hge := not_lt.mp h''
    have h12 := not_lt.mp h'
    have ht : hat u ≤ 16 * eps := by
      rcases le_or_gt (2 / 3) u with hh | hh
      · rw [hat_zero hh]; linarith
      · rw [hat_fall h12 hh.le]; linarith [s3.2]
    have := mix 0 (hat u) (by linarith [hat_nonneg u]) (by linarith)
    constructor <;> linarith [this.1, this.2]

theorem hat_lip {x y e : ℚ} (h1 : x - y ≤ e) (h2 : y - x ≤ e) : hat x - hat y ≤ 6 * e := by
  have he : 0 ≤ e := by linarith
  unfold hat
  have a : |y - 1 / 3| ≤ |x - 1 / 3| + e := by
    have : |y - 1 / 3| ≤ |x - 1 / 3| + |y - x| := by
      have := abs_add_le (x - 1 / 3) (y - x)
      have e : x - 1 / 3 + (y - x) = y - 1 / 3 := by ring
      rwa [e] at this
    have : |y - x| ≤ e := abs_le.mpr ⟨by linarith, by linarith⟩
    linarith
  rcases max_cases 0 (min 1 (2 - 6 * |x - 1 / 3|)) with ⟨e1, _⟩ | ⟨e1, _⟩
  · rw [e1]; have := le_max_left 0 (min 1 (2 - 6 * |y - 1 / 3|)); linarith
  · rw [e1]
    have hx1 := min_le_left 1 (2 - 6 * |x - 1 / 3|)
    have hx2 := min_le_right 1 (2 - 6 * |x - 1 / 3|)
    have : min 1 (2 - 6 * |x - 1 / 3|) - 6 * e ≤ min 1 (2 - 6 * |y - 1 / 3|) :=
      le_min (by linarith) (by linarith)
    have := le_max_right 0 (min 1 (2 - 6 * |y - 1 / 3|))
    linarith

/-- Computed hues close to a hue, up to an integer, give close heights. -/
theorem hat_ramp {u y e : ℚ} (hu0 : 0 ≤ u) (hu1 : u ≤ 1) (k : ℤ) (he : e ≤ 1 / 4)
    (h1 : u - (y + k) ≤ e) (h2 : (y + k) - u ≤ e) :
    hat u - ramp y ≤ 6 * e ∧ ramp y - hat u ≤ 6 * e := by
  have f0 := Int.fract_nonneg y
  have f1 := Int.fract_lt_one y
  have hy : y = ⌊y⌋ + Int.fract y := (Int.floor_add_fract y).symm
  unfold ramp
  set f := Int.fract y
  set j : ℤ := ⌊y⌋ + k with hj
  have hyk : y + k = f + j := by rw [hj]; push_cast; linarith
  rw [hyk] at h1 h2
  have j1 : (-2 : ℚ) < j := by linarith
  have j2 : (j : ℚ) < 2 := by linarith
  have j1' : -2 < j := by exact_mod_cast j1
  have j2' : j < 2 := by exact_mod_cast j2
  have : j = 0 ∨ j = 1 ∨ j = -1 := by omega
  rcases this with h | h | h
  · rw [h] at h1 h2
    push_cast at h1 h2
    exact ⟨hat_lip (by linarith) (by linarith), hat_lip (by linarith) (by linarith)⟩
  · rw [h] at h1 h2
    push_cast at h1 h2
    rw [hat_zero (f := u) (by linarith)]
    have a : hat f ≤ 6 * e := by
      have := hat_lip (x := f) (y := 0) (e := e) (by linarith) (by linarith)
      rw [hat_rise le_rfl (by norm_num)] at this; linarith
    have := hat_nonneg f
    constructor <;> linarith
  · rw [h] at h1 h2
    push_cast at h1 h2
    rw [hat_zero (f := f) (by linarith)]
    have a : hat u ≤ 6 * e := by
      have := hat_lip (x := u) (y := 0) (e := e) (by linarith) (by linarith)
      rw [hat_rise le_rfl (by norm_num)] at this; linarith
    have := hat_nonneg u
    constructor <;> linarith

end Slate
