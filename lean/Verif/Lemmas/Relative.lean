import Verif.Lemmas.Float
import Verif.Model.Svg

/-!
# Relative errors of sums in binary64
-/

namespace Slate.Py

/-- Unit roundoff. -/
def uro : ℚ := 2 ^ (-53 : ℤ)

/-- Zero, or positive and not subnormal. -/
def Norm (x : ℚ) : Prop := x = 0 ∨ 2 ^ (-1022 : ℤ) ≤ x

theorem uro_pos : 0 < uro := by unfold uro; positivity
theorem uro_lt : uro < 1 := by unfold uro; norm_num

theorem Norm.nonneg {x : ℚ} (h : Norm x) : 0 ≤ x := by
  rcases h with rfl | h
  · rfl
  · exact le_trans (by positivity) h

theorem Norm.add {x y : ℚ} (hx : Norm x) (hy : Norm y) : Norm (x + y) := by
  rcases hx with rfl | h
  · rwa [zero_add]
  · exact .inr (by linarith [hy.nonneg])

theorem fl_rel {x : ℚ} (h : Norm x) : x * (1 - uro) ≤ fl x ∧ fl x ≤ x * (1 + uro) := by
  rcases h with rfl | h
  · simp [show fl 0 = 0 from rfl]
  · have h0 : 0 < x := lt_of_lt_of_le (by positivity) h
    have h1 := fl_err_ulp h0
    have hl : (-1022 : ℤ) ≤ Int.log 2 x := by
      rw [← Int.zpow_le_iff_le_log (by norm_num) h0]
      exact_mod_cast h
    have h2 : ulp x / 2 ≤ x * uro := by
      have e : ulp x = 2 ^ (Int.log 2 x) * 2 ^ (-52 : ℤ) := by
        unfold ulp ulpExp
        rw [max_eq_left (by omega), ← zpow_add₀ (by norm_num)]
        rfl
      have h3 : (2 : ℚ) ^ (Int.log 2 x) ≤ x := by
        have := Int.zpow_log_le_self (b := 2) (by norm_num) h0
        exact_mod_cast this
      have e2 : uro = 2 ^ (-52 : ℤ) / 2 := by unfold uro; norm_num
      rw [e, e2, mul_div_assoc]
      exact mul_le_mul_of_nonneg_right h3 (by positivity)
    have := abs_le.mp (h1.trans h2)
    constructor <;> linarith [this.1, this.2]

theorem fl_norm {x : ℚ} (h : Norm x) : Norm (fl x) := by
  rcases h with rfl | h
  · exact .inl rfl
  · refine .inr ?_
    have h1 := fl_mono h
    have h2 := fl_repr 1 (-1022) (by norm_num) (by norm_num)
    rw [Int.cast_one, one_mul] at h2
    rwa [h2] at h1

/-- `v` is `e` up to `n` roundings. -/
def Rel (n : Nat) (v e : ℚ) : Prop := e * (1 - uro) ^ n ≤ v ∧ v ≤ e * (1 + uro) ^ n

theorem Rel.refl (v : ℚ) : Rel 0 v v := by simp [Rel]

theorem Rel.mono {n m : Nat} {v e : ℚ} (h : Rel n v e) (he : 0 ≤ e) (hm : n ≤ m) : Rel m v e := by
  constructor
  · refine le_trans (mul_le_mul_of_nonneg_left ?_ he) h.1
    exact pow_le_pow_of_le_one (by linarith [uro_lt]) (by linarith [uro_pos]) hm
  · refine le_trans h.2 (mul_le_mul_of_nonneg_left ?_ he)
    exact pow_le_pow_right₀ (by linarith [uro_pos]) hm

theorem Rel.add {n : Nat} {v e w f : ℚ} (h : Rel n v e) (k : Rel n w f) : Rel n (v + w) (e + f) := by
  constructor
  · rw [add_mul]; exact add_le_add h.1 k.1
  · rw [add_mul]; exact add_le_add h.2 k.2

theorem Rel.mul {n : Nat} {v e a : ℚ} (h : Rel n v e) (ha : 0 ≤ a) : Rel n (a * v) (a * e) := by
  constructor
  · rw [mul_assoc]; exact mul_le_mul_of_nonneg_left h.1 ha
  · rw [mul_assoc]; exact mul_le_mul_of_nonneg_left h.2 ha

theorem Rel.fl {n : Nat} {v e : ℚ} (h : Rel n v e) (hv : Norm v) : Rel (n + 1) (fl v) e := by
  obtain ⟨h1, h2⟩ := fl_rel hv
  constructor
  · rw [pow_succ, ← mul_assoc]
    exact le_trans (mul_le_mul_of_nonneg_right h.1 (by linarith [uro_lt])) h1
  · rw [pow_succ, ← mul_assoc]
    exact le_trans h2 (mul_le_mul_of_nonneg_right h.2 (by linarith [uro_pos]))

/-- `v` is `e` up to `n` roundings and a rounding to two decimals. -/
def Near (n : Nat) (v e : ℚ) : Prop := |v - e| ≤ (1 + uro) / 200 + e * ((1 + uro) ^ n - 1)

theorem Rel.loss {n : Nat} {v e : ℚ} (h : Rel n v e) (he : 0 ≤ e) : |v - e| ≤ e * ((1 + uro) ^ n - 1) := by
  have b1 : 1 + (n : ℚ) * uro ≤ (1 + uro) ^ n := one_add_mul_le_pow (by linarith [uro_pos]) n
  have b2 : 1 + (n : ℚ) * (-uro) ≤ (1 + -uro) ^ n := one_add_mul_le_pow (by linarith [uro_lt]) n
  rw [← sub_eq_add_neg] at b2
  have h1 : e * (2 - (1 + uro) ^ n) ≤ e * (1 - uro) ^ n := mul_le_mul_of_nonneg_left (by linarith) he
  rw [abs_le]
  constructor
  · linarith [h.1]
  · linarith [h.2]

theorem Rel.near {n : Nat} {v e : ℚ} (h : Rel n v e) (he : 0 ≤ e) : Near (n + 1) v e := by
  have := (h.mono he (show n ≤ n + 1 by omega)).loss he
  unfold Near
  have : 0 ≤ (1 + uro) / 200 := by have := uro_pos; positivity
  linarith

theorem roundTo_two {q : ℚ} (hq : 0 ≤ q) : ∃ r, Norm r ∧ |r - q| ≤ 1 / 200 ∧ Svg.roundTo 2 q = fl r := by
  have hs : 0 ≤ q * 10 ^ 2 := by positivity
  refine ⟨(rQ (q * 10 ^ 2) : ℚ) / 10 ^ 2, ?_, ?_, ?_⟩
  · have h1 := rQ_mono hs
    rw [show rQ 0 = 0 from by simpa using rQ_intCast 0] at h1
    rcases h1.eq_or_lt with h | h
    · exact .inl (by rw [← h]; simp)
    · refine .inr ?_
      have h2 : (1 : ℚ) ≤ rQ (q * 10 ^ 2) := by exact_mod_cast h
      have h3 : (2 : ℚ) ^ (-1022 : ℤ) ≤ 2 ^ (-10 : ℤ) := zpow_le_zpow_right₀ (by norm_num) (by norm_num)
      refine h3.trans ?_
      rw [le_div_iff₀ (by norm_num)]
      refine le_trans ?_ h2
      norm_num
  · have h1 := rQ_err (q * 10 ^ 2)
    have e : (rQ (q * 10 ^ 2) : ℚ) / 10 ^ 2 - q = ((rQ (q * 10 ^ 2) : ℚ) - q * 10 ^ 2) / 10 ^ 2 := by ring
    rw [e, abs_div, div_le_iff₀ (by norm_num)]
    refine h1.trans ?_
    norm_num
  · unfold Svg.roundTo
    simp only [if_pos hs]
    congr 2
    have h1 : 0 ≤ (q * 10 ^ 2).num := Rat.num_nonneg.mpr hs
    have h2 := rhe_eq (q * 10 ^ 2).num.toNat (q * 10 ^ 2).den (q * 10 ^ 2).den_pos
    rw [h2]
    congr 2
    have h3 : (((q * 10 ^ 2).num.toNat : ℕ) : ℚ) = ((q * 10 ^ 2).num : ℚ) := by
      have : ((q * 10 ^ 2).num.toNat : ℤ) = (q * 10 ^ 2).num := Int.toNat_of_nonneg h1
      exact_mod_cast congrArg (Int.cast : ℤ → ℚ) this
    rw [h3]
    exact Rat.num_div_den _

theorem Rel.roundTo {n : Nat} {v e : ℚ} (h : Rel n v e) (he : 0 ≤ e) (hv : 0 ≤ v) : Near (n + 1) (Svg.roundTo 2 v) e := by
  obtain ⟨r, hn, hr, heq⟩ := roundTo_two hv
  rw [heq]
  obtain ⟨f1, f2⟩ := fl_rel hn
  have hl := (h.mono he (Nat.le_succ n)).loss he
  obtain ⟨r1, r2⟩ := abs_le.mp hr
  have hu := uro_pos
  have hu' := uro_lt
  unfold Near
  rw [abs_le]
  have p1 : e * (1 - uro) ^ (n + 1) ≤ v * (1 - uro) := by
    rw [pow_succ, ← mul_assoc]; exact mul_le_mul_of_nonneg_right h.1 (by linarith)
  have p2 : v * (1 + uro) ≤ e * (1 + uro) ^ (n + 1) := by
    rw [pow_succ, ← mul_assoc]; exact mul_le_mul_of_nonneg_right h.2 (by linarith)
  have b1 : 1 + ((n + 1 : ℕ) : ℚ) * uro ≤ (1 + uro) ^ (n + 1) := one_add_mul_le_pow (by linarith) (n + 1)
  have b2 : 1 + ((n + 1 : ℕ) : ℚ) * (-uro) ≤ (1 + -uro) ^ (n + 1) := one_add_mul_le_pow (by linarith) (n + 1)
  rw [← sub_eq_add_neg] at b2
  have h1 : e * (2 - (1 + uro) ^ (n + 1)) ≤ e * (1 - uro) ^ (n + 1) := mul_le_mul_of_nonneg_left (by linarith) he
  have q1 : (v - 1 / 200) * (1 - uro) ≤ r * (1 - uro) := mul_le_mul_of_nonneg_right (by linarith) (by linarith)
  have q2 : r * (1 + uro) ≤ (v + 1 / 200) * (1 + uro) := mul_le_mul_of_nonneg_right (by linarith) (by linarith)
  constructor
  · nlinarith
  · nlinarith

end Slate.Py
