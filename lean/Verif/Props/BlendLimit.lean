import Verif.Props.Blend

/-!
# C38: exactly which blends raise
-/

namespace Slate
open Py

set_option exponentiation.threshold 2000

/-- From here on a number rounds to infinity. -/
def roundLimit : ℚ := 2 ^ 1024 - 2 ^ 970

theorem finite_iff (x : ℚ) : Color.finite x = true ↔ |x| < 2 ^ 1024 := by
  unfold Color.finite
  rw [Bool.and_eq_true, decide_eq_true_eq, decide_eq_true_eq, abs_lt]

theorem fl_abs (x : ℚ) : |fl x| = fl |x| := by
  rcases le_total 0 x with h | h
  · rw [abs_of_nonneg h, abs_of_nonneg (fl_nonneg h)]
  · rw [abs_of_nonpos h, fl_neg]
    have := fl_nonneg (neg_nonneg.mpr h)
    rw [fl_neg] at this
    rw [abs_of_nonpos (by linarith)]

theorem finite_fl (x : ℚ) : Color.finite (fl x) = true ↔ |x| < roundLimit := by
  rw [finite_iff, fl_abs]
  constructor
  · intro h
    by_contra hx
    have hx := fl_mono (not_lt.mp hx)
    have hT : fl roundLimit = 2 ^ 1024 := by decide +kernel
    rw [hT] at hx
    linarith
  · intro h
    have hp : (0 : ℚ) < 2 ^ 970 := by positivity
    have := fl_err (x := |x|) (k := 1024) (by norm_num) (by
      rw [abs_abs]
      refine lt_trans h ?_
      norm_num [roundLimit])
    have e : (2 : ℚ) ^ ((1024 : ℤ) - 54) = 2 ^ 970 := by rw [← zpow_natCast]; rfl
    rw [e, abs_le] at this
    rw [roundLimit] at h
    linarith [this.2]

/-- A finite float is at most the largest one. -/
theorem fl_le_max {x : ℚ} (h0 : 0 ≤ x) (h : x < roundLimit) : fl x ≤ 2 ^ 1024 - 2 ^ 971 := by
  have hlt : fl x < 2 ^ 1024 := by
    have := (finite_iff (fl x)).mp ((finite_fl x).mpr (by rwa [abs_of_nonneg h0]))
    rwa [abs_of_nonneg (fl_nonneg h0)] at this
  rcases le_or_gt x (2 ^ 1024 - 2 ^ 971) with hx | hx
  · have hM : fl (2 ^ 1024 - 2 ^ 971) = 2 ^ 1024 - 2 ^ 971 := by decide +kernel
    rw [← hM]
    exact fl_mono hx
  · have hpos : 0 < x := lt_trans (by norm_num) hx
    have hlog : Int.log 2 x = 1023 := by
      have h1 : (2 : ℚ) ^ (1023 : ℤ) ≤ x := le_trans (by norm_num) hx.le
      have h2 : x < (2 : ℚ) ^ (1024 : ℤ) := lt_trans h (by norm_num [roundLimit])
      have a := (Int.zpow_le_iff_le_log (b := 2) (x := 1023) (by norm_num) hpos).mp h1
      have b := (Int.lt_zpow_iff_log_lt (b := 2) (x := 1024) (by norm_num) hpos).mp h2
      omega
    have hulp : ulp x = 2 ^ 971 := by
      unfold ulp
      rw [hlog, ← zpow_natCast]
      rfl
    rw [fl_pos hpos, hulp] at hlt ⊢
    have hk : rQ (x / 2 ^ 971) < 2 ^ 53 := by
      have : (rQ (x / 2 ^ 971) : ℚ) < 2 ^ 53 := by
        by_contra hge
        have := mul_le_mul_of_nonneg_right (not_lt.mp hge) (show (0 : ℚ) ≤ 2 ^ 971 by positivity)
        norm_num at this hlt
        linarith
      exact_mod_cast this
    have hk' : (rQ (x / 2 ^ 971) : ℚ) ≤ 2 ^ 53 - 1 := by
      have : rQ (x / 2 ^ 971) ≤ 2 ^ 53 - 1 := by omega
      exact_mod_cast this
    calc (rQ (x / 2 ^ 971) : ℚ) * 2 ^ 971 ≤ (2 ^ 53 - 1) * 2 ^ 971 := mul_le_mul_of_nonneg_right hk' (by positivity)
      _ = 2 ^ 1024 - 2 ^ 971 := by norm_num

/-- One channel. -/
theorem blendChanE_exact {x y : Nat} (hx : x ≤ 255) (α : ℚ) :
    Color.blendChanE x y α = if |((y : ℚ) - x) * α| < roundLimit then .ok (Color.blendChan x y α) else .error .overflowError := by
  have hcast : (((y : Int) - (x : Int) : Int) : ℚ) * α = ((y : ℚ) - x) * α := by push_cast; rfl
  unfold Color.blendChanE
  rw [hcast]
  by_cases h : |((y : ℚ) - x) * α| < roundLimit
  · rw [if_pos h, if_pos]
    rw [Bool.and_eq_true, finite_fl, finite_fl]
    refine ⟨h, ?_⟩
    have h1 : |fl (((y : ℚ) - x) * α)| ≤ 2 ^ 1024 - 2 ^ 971 := by
      rw [fl_abs]
      exact fl_le_max (abs_nonneg _) h
    have h2 : |(x : ℚ)| ≤ 255 := by
      rw [abs_of_nonneg (by positivity)]
      exact_mod_cast hx
    calc |(x : ℚ) + fl (((y : ℚ) - x) * α)| ≤ |(x : ℚ)| + |fl (((y : ℚ) - x) * α)| := abs_add_le _ _
      _ ≤ 255 + (2 ^ 1024 - 2 ^ 971) := add_le_add h2 h1
      _ < roundLimit := by norm_num [roundLimit]
  · rw [if_neg h, if_neg]
    rw [Bool.and_eq_true, finite_fl]
    exact fun hh => h hh.1

/-- C38, exactly: blending two valid colours by a finite amount raises `OverflowError` if the amount times the difference of the colours in some channel is
`2^1024 - 2^970` or more, and gives the blended colour, a valid one, otherwise. -/
theorem C38_blend_exact_partial (c o : Color) (hc : c.Valid) (α : ℚ) (bg : Option Bool) :
    ((∃ p ∈ [(c.r, o.r), (c.g, o.g), (c.b, o.b)], roundLimit ≤ |((p.2 : ℚ) - p.1) * α|) → c.blendE o α bg = .error .overflowError) ∧
    ((∀ p ∈ [(c.r, o.r), (c.g, o.g), (c.b, o.b)], |((p.2 : ℚ) - p.1) * α| < roundLimit) →
      c.blendE o α bg = .ok (c.blend o α bg) ∧ (c.blend o α bg).Valid ∧ (c.blend o α bg).isBg = bg.getD c.isBg) := by
  obtain ⟨hr, hg, hb⟩ := hc
  unfold Color.blendE
  rw [blendChanE_exact hr, blendChanE_exact hg, blendChanE_exact hb]
  constructor
  · rintro ⟨p, hp, hle⟩
    by_cases h1 : |((o.r : ℚ) - c.r) * α| < roundLimit
    · rw [if_pos h1, ok_bind']
      by_cases h2 : |((o.g : ℚ) - c.g) * α| < roundLimit
      · rw [if_pos h2, ok_bind']
        by_cases h3 : |((o.b : ℚ) - c.b) * α| < roundLimit
        · simp only [List.mem_cons, List.not_mem_nil, or_false] at hp
          rcases hp with rfl | rfl | rfl
          · exact absurd hle (not_le.mpr h1)
          · exact absurd hle (not_le.mpr h2)
          · exact absurd hle (not_le.mpr h3)
        · rw [if_neg h3]; rfl
      · rw [if_neg h2]; rfl
    · rw [if_neg h1]; rfl
  · intro h
    rw [if_pos (h (c.r, o.r) (by simp)), if_pos (h (c.g, o.g) (by simp)), if_pos (h (c.b, o.b) (by simp))]
    simp only [ok_bind']
    rw [make_valid (blendChan_range ..) (blendChan_range ..) (blendChan_range ..)]
    exact ⟨rfl, C39_clamped c o α bg, rfl⟩

/-- Black and white: the largest amount that is blended, and the next one. -/
example : Color.blendE Color.black Color.white ((2 ^ 1024 - 2 ^ 970 - 1) / 255) = .ok (Color.black.blend Color.white ((2 ^ 1024 - 2 ^ 970 - 1) / 255)) ∧
    Color.blendE Color.black Color.white ((2 ^ 1024 - 2 ^ 970) / 255) = .error .overflowError := by
  constructor
  · refine ((C38_blend_exact_partial _ _ (by unfold Color.Valid; decide) _ _).2 ?_).1
    intro p hp
    simp only [Color.black, Color.white, List.mem_cons, List.not_mem_nil, or_false, or_self] at hp
    subst hp
    norm_num [roundLimit]
  · refine (C38_blend_exact_partial _ _ (by unfold Color.Valid; decide) _ _).1 ⟨(0, 255), by decide, ?_⟩
    norm_num [roundLimit]

end Slate
