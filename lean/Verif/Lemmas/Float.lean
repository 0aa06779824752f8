import Mathlib.Data.Int.Log
import Mathlib.Algebra.Order.Field.Power
import Mathlib.Algebra.Order.Floor.Ring
import Mathlib.Algebra.Order.Ring.Abs
import Mathlib.Tactic.Linarith
import Mathlib.Tactic.Ring
import Mathlib.Tactic.FieldSimp
import Mathlib.Tactic.Positivity
import Mathlib.Tactic.NormNum
import Mathlib.Tactic.Push
import Verif.Py.Float

/-! Facts about binary64 rounding: `fl` is monotone, odd, fixes every number that
is representable, and its error is at most half a unit in the last place. -/

namespace Slate.Py

/-- Rounding of a rational to the nearest integer, ties to even. -/
def rQ (x : ℚ) : ℤ :=
  if 2 * Int.fract x < 1 then ⌊x⌋ else if 1 < 2 * Int.fract x then ⌊x⌋ + 1
  else if ⌊x⌋ % 2 = 0 then ⌊x⌋ else ⌊x⌋ + 1

theorem rhe_eq (n d : Nat) (hd : 0 < d) : (rhe n d : ℤ) = rQ ((n : ℚ) / d) := by
  have hd' : (0 : ℚ) < d := by exact_mod_cast hd
  have hf : ⌊(n : ℚ) / d⌋ = ((n / d : ℕ) : ℤ) := by
    rw [Rat.floor_natCast_div_natCast]; rfl
  have hr : Int.fract ((n : ℚ) / d) = ((n % d : ℕ) : ℚ) / d :=
    Int.fract_div_natCast_eq_div_natCast_mod
  have h1 : (2 * Int.fract ((n : ℚ) / d) < 1) ↔ 2 * (n % d) < d := by
    rw [hr, ← mul_div_assoc, div_lt_one hd']; exact_mod_cast Iff.rfl
  have h2 : (1 < 2 * Int.fract ((n : ℚ) / d)) ↔ d < 2 * (n % d) := by
    rw [hr, ← mul_div_assoc, one_lt_div hd']; exact_mod_cast Iff.rfl
  unfold rhe rQ
  simp only [h1, h2, hf]
  split
  · rfl
  split
  · push_cast; rfl
  have : ((n / d : ℕ) : ℤ) % 2 = 0 ↔ (n / d) % 2 = 0 := by omega
  simp only [this]
  split
  · rfl
  · push_cast; rfl

theorem rQ_floor_le (x : ℚ) : ⌊x⌋ ≤ rQ x := by
  unfold rQ; split_ifs <;> omega

theorem rQ_le_floor (x : ℚ) : rQ x ≤ ⌊x⌋ + 1 := by
  unfold rQ; split_ifs <;> omega

theorem rQ_mono {x y : ℚ} (h : x ≤ y) : rQ x ≤ rQ y := by
  have hf := Int.floor_le_floor h
  rcases lt_or_eq_of_le hf with hlt | heq
  · have := rQ_le_floor x; have := rQ_floor_le y; omega
  · have hfr : Int.fract x ≤ Int.fract y := by
      unfold Int.fract; rw [heq]; linarith
    unfold rQ
    rw [heq]
    split_ifs <;> first | omega | (exfalso; linarith)

theorem rQ_intCast (n : ℤ) : rQ n = n := by
  unfold rQ; simp

theorem rQ_err (x : ℚ) : |(rQ x : ℚ) - x| ≤ 1 / 2 := by
  have h := Int.floor_add_fract x
  have h0 := Int.fract_nonneg x
  have h1 := Int.fract_lt_one x
  rw [abs_le]
  unfold rQ
  split_ifs <;> push_cast <;> constructor <;> linarith

theorem log_unique {x : ℚ} {k : ℤ} (h1 : (2 : ℚ) ^ k ≤ x) (h2 : x < (2 : ℚ) ^ (k + 1)) :
    Int.log 2 x = k := by
  have hx : 0 < x := lt_of_lt_of_le (by positivity) h1
  have a := (Int.zpow_le_iff_le_log (R := ℚ) (b := 2) (by decide) hx (x := k)).mp (by exact_mod_cast h1)
  have b := (Int.lt_zpow_iff_log_lt (R := ℚ) (b := 2) (by decide) hx (x := k + 1)).mp (by exact_mod_cast h2)
  omega

theorem zpow_toNat {k : ℤ} (h : 0 ≤ k) : (2 : ℚ) ^ k = ((2 ^ k.toNat : ℕ) : ℚ) := by
  conv_lhs => rw [← Int.toNat_of_nonneg h]
  rw [zpow_natCast]; push_cast; rfl

theorem zpow_neg_toNat {k : ℤ} (h : k ≤ 0) : (2 : ℚ) ^ k = 1 / ((2 ^ (-k).toNat : ℕ) : ℚ) := by
  rw [← zpow_toNat (by omega : 0 ≤ -k), zpow_neg, one_div, inv_inv]

theorem flog2_eq (n d : Nat) (hn : 0 < n) (hd : 0 < d) :
    flog2 n d = Int.log 2 ((n : ℚ) / d) := by
  have hn' : (0 : ℚ) < n := by exact_mod_cast hn
  have hd' : (0 : ℚ) < d := by exact_mod_cast hd
  have n1 : ((2 : ℚ) ^ (n.log2 : ℤ)) ≤ n := by
    rw [zpow_natCast]; exact_mod_cast Nat.log2_self_le hn.ne'
  have n2 : (n : ℚ) < (2 : ℚ) ^ ((n.log2 : ℤ) + 1) := by
    have := Nat.lt_log2_self (n := n)
    have h : ((n.log2 : ℤ) + 1) = ((n.log2 + 1 : ℕ) : ℤ) := by push_cast; rfl
    rw [h, zpow_natCast]; exact_mod_cast this
  have d1 : ((2 : ℚ) ^ (d.log2 : ℤ)) ≤ d := by
    rw [zpow_natCast]; exact_mod_cast Nat.log2_self_le hd.ne'
  have d2 : (d : ℚ) < (2 : ℚ) ^ ((d.log2 : ℤ) + 1) := by
    have := Nat.lt_log2_self (n := d)
    have h : ((d.log2 : ℤ) + 1) = ((d.log2 + 1 : ℕ) : ℤ) := by push_cast; rfl
    rw [h, zpow_natCast]; exact_mod_cast this
  set k : ℤ := (n.log2 : ℤ) - (d.log2 : ℤ) with hk
  have up : (n : ℚ) / d < (2 : ℚ) ^ (k + 1) := by
    rw [div_lt_iff₀ hd']
    calc (n : ℚ) < (2 : ℚ) ^ ((n.log2 : ℤ) + 1) := n2
      _ = (2 : ℚ) ^ (k + 1) * (2 : ℚ) ^ (d.log2 : ℤ) := by
        rw [← zpow_add₀ (by norm_num)]; congr 1; omega
      _ ≤ _ := by gcongr
  have lo : (2 : ℚ) ^ (k - 1) ≤ (n : ℚ) / d := by
    rw [le_div_iff₀ hd']
    calc (2 : ℚ) ^ (k - 1) * d ≤ (2 : ℚ) ^ (k - 1) * (2 : ℚ) ^ ((d.log2 : ℤ) + 1) := by gcongr
      _ = (2 : ℚ) ^ (n.log2 : ℤ) := by
        rw [← zpow_add₀ (by norm_num)]; congr 1; omega
      _ ≤ n := n1
  have key : ∀ P : Prop, [Decidable P] → (P ↔ (2 : ℚ) ^ k ≤ (n : ℚ) / d) →
      (if P then k else k - 1) = Int.log 2 ((n : ℚ) / d) := by
    intro P _ hP
    split
    · rename_i h; exact (log_unique (hP.mp h) up).symm
    · rename_i h
      have : (n : ℚ) / d < (2 : ℚ) ^ k := not_le.mp (fun h' => h (hP.mpr h'))
      exact (log_unique lo (by simpa using this)).symm
  unfold flog2
  simp only [← hk]
  split
  · rename_i h0
    apply key
    rw [zpow_toNat h0, le_div_iff₀ hd', mul_comm]
    exact_mod_cast Iff.rfl
  · rename_i h0
    apply key
    rw [zpow_neg_toNat (by omega), div_le_div_iff₀ (by positivity) hd', one_mul]
    exact_mod_cast Iff.rfl

/-- The unit in the last place of `x > 0`. -/
def ulp (x : ℚ) : ℚ := (2 : ℚ) ^ ulpExp (Int.log 2 x)

theorem ulp_pos (x : ℚ) : 0 < ulp x := by unfold ulp; positivity

theorem flPos_eq (n d : Nat) (hn : 0 < n) (hd : 0 < d) :
    flPos n d = rQ ((n : ℚ) / d / ulp ((n : ℚ) / d)) * ulp ((n : ℚ) / d) := by
  unfold flPos ulp
  rw [flog2_eq n d hn hd]
  set u := ulpExp (Int.log 2 ((n : ℚ) / d))
  simp only []
  split
  · rename_i h
    have e : (n : ℚ) / d / (2 : ℚ) ^ u = (n : ℚ) / ((d * 2 ^ u.toNat : ℕ) : ℚ) := by
      rw [zpow_toNat h]; push_cast; rw [div_div]
    rw [e, ← rhe_eq n _ (by positivity), zpow_toNat h]
    push_cast; rfl
  · rename_i h
    have e : (n : ℚ) / d / (2 : ℚ) ^ u = ((n * 2 ^ (-u).toNat : ℕ) : ℚ) / (d : ℚ) := by
      rw [zpow_neg_toNat (by omega)]; push_cast; field_simp
    rw [e, ← rhe_eq _ d hd, zpow_neg_toNat (by omega), Rat.mkRat_eq_div]
    push_cast
    ring

theorem fl_pos {x : ℚ} (h : 0 < x) : fl x = rQ (x / ulp x) * ulp x := by
  have hn : 0 < x.num := Rat.num_pos.mpr h
  unfold fl
  rw [if_neg (by omega), if_pos hn, flPos_eq _ _ (by omega) x.den_pos]
  have : ((x.num.toNat : ℕ) : ℚ) / (x.den : ℚ) = x := by
    have e : ((x.num.toNat : ℕ) : ℚ) = (x.num : ℚ) := by
      exact_mod_cast congrArg (Int.cast : ℤ → ℚ) (Int.toNat_of_nonneg hn.le)
    rw [e, Rat.num_div_den]
  rw [this]

@[simp] theorem fl_zero : fl 0 = 0 := by simp [fl]

theorem fl_neg (x : ℚ) : fl (-x) = -fl x := by
  unfold fl
  rw [Rat.num_neg_eq_neg_num, Rat.neg_den]
  rcases lt_trichotomy x.num 0 with h | h | h
  · rw [if_neg (by omega), if_pos (by omega), if_neg (by omega), if_neg (by omega), neg_neg]
  · simp [h]
  · rw [if_neg (by omega), if_neg (by omega), if_neg (by omega), if_pos h, neg_neg]

theorem fl_nonneg {x : ℚ} (h : 0 ≤ x) : 0 ≤ fl x := by
  rcases eq_or_lt_of_le h with rfl | h
  · simp
  · rw [fl_pos h]
    have h1 : (0 : ℤ) ≤ rQ (x / ulp x) := by
      have := rQ_mono (div_nonneg h.le (ulp_pos x).le)
      simpa using (rQ_intCast 0 ▸ this)
    have : (0 : ℚ) ≤ (rQ (x / ulp x) : ℚ) := by exact_mod_cast h1
    exact mul_nonneg this (ulp_pos x).le

theorem fl_mono_pos {x y : ℚ} (hx : 0 < x) (h : x ≤ y) : fl x ≤ fl y := by
  have hy : 0 < y := lt_of_lt_of_le hx h
  rw [fl_pos hx, fl_pos hy]
  have hl := Int.log_mono_right (b := 2) hx h
  by_cases hu : ulpExp (Int.log 2 x) = ulpExp (Int.log 2 y)
  · have e : ulp x = ulp y := by unfold ulp; rw [hu]
    rw [e]
    have : rQ (x / ulp y) ≤ rQ (y / ulp y) :=
      rQ_mono (div_le_div_of_nonneg_right h (ulp_pos y).le)
    exact mul_le_mul_of_nonneg_right (by exact_mod_cast this) (ulp_pos y).le
  · set ex := Int.log 2 x
    set ey := Int.log 2 y with hey
    have hey' : ulpExp ey = ey - 52 := by unfold ulpExp at *; omega
    have hlt : ulpExp ex < ey - 52 := by unfold ulpExp at *; omega
    have hexy : ex < ey := by unfold ulpExp at *; omega
    have hx2 : x < (2 : ℚ) ^ ey := by
      have := (Int.lt_zpow_iff_log_lt (R := ℚ) (b := 2) (by decide) hx (x := ey)).mpr hexy
      exact_mod_cast this
    have hy2 : (2 : ℚ) ^ ey ≤ y := by
      have := Int.zpow_log_le_self (R := ℚ) (b := 2) (by decide) hy
      exact_mod_cast this
    have e1 : ulp x = (2 : ℚ) ^ ulpExp ex := rfl
    have e2 : ulp y = (2 : ℚ) ^ (ey - 52) := by unfold ulp; rw [← hey, hey']
    calc (rQ (x / ulp x) : ℚ) * ulp x ≤ ((2 ^ (ey - ulpExp ex).toNat : ℕ) : ℚ) * ulp x := by
          apply mul_le_mul_of_nonneg_right _ (ulp_pos x).le
          have : rQ (x / ulp x) ≤ rQ (((2 ^ (ey - ulpExp ex).toNat : ℕ) : ℤ) : ℚ) := by
            apply rQ_mono
            rw [div_le_iff₀ (ulp_pos x), e1, Int.cast_natCast, ← zpow_toNat (by omega),
              ← zpow_add₀ (by norm_num)]
            have : ey - ulpExp ex + ulpExp ex = ey := by ring
            rw [this]; exact hx2.le
          rw [rQ_intCast] at this
          exact_mod_cast this
      _ = (2 : ℚ) ^ ey := by
          rw [← zpow_toNat (by omega), e1, ← zpow_add₀ (by norm_num)]; congr 1; ring
      _ = ((2 ^ 52 : ℕ) : ℚ) * ulp y := by
          rw [e2, zpow_sub₀ (by norm_num)]; push_cast
          rw [mul_div_cancel₀]; norm_num
      _ ≤ (rQ (y / ulp y) : ℚ) * ulp y := by
          apply mul_le_mul_of_nonneg_right _ (ulp_pos y).le
          have : rQ (((2 ^ 52 : ℕ) : ℤ) : ℚ) ≤ rQ (y / ulp y) := by
            apply rQ_mono
            rw [le_div_iff₀ (ulp_pos y), e2]
            refine le_trans (le_of_eq ?_) hy2
            rw [zpow_sub₀ (by norm_num)]; push_cast
            rw [mul_div_cancel₀]; norm_num
          rw [rQ_intCast] at this
          exact_mod_cast this

/-- Rounding is monotone. -/
theorem fl_mono {x y : ℚ} (h : x ≤ y) : fl x ≤ fl y := by
  rcases lt_or_ge 0 x with hx | hx
  · exact fl_mono_pos hx h
  · rcases lt_or_ge y 0 with hy | hy
    · have := fl_mono_pos (x := -y) (y := -x) (by linarith) (by linarith)
      rw [fl_neg, fl_neg] at this; linarith
    · have h1 : 0 ≤ fl (-x) := fl_nonneg (by linarith)
      rw [fl_neg] at h1
      have h2 := fl_nonneg hy
      linarith

/-- Numbers `m * 2^k` with a mantissa of at most 53 bits are fixed by rounding. -/
theorem fl_repr (m : ℤ) (k : ℤ) (hm : |m| ≤ 2 ^ 53) (hk : -1074 ≤ k) :
    fl ((m : ℚ) * 2 ^ k) = (m : ℚ) * 2 ^ k := by
  have pos : ∀ m : ℤ, 0 < m → m ≤ 2 ^ 53 → fl ((m : ℚ) * 2 ^ k) = (m : ℚ) * 2 ^ k := by
    intro m h0 h1
    have hm' : (0 : ℚ) < m := by exact_mod_cast h0
    set x := (m : ℚ) * 2 ^ k with hx
    have hx0 : 0 < x := by positivity
    rw [fl_pos hx0]
    -- x is an integer multiple of its ulp
    by_cases hu : ulpExp (Int.log 2 x) ≤ k
    · have e : x / ulp x = ((m * (2 ^ (k - ulpExp (Int.log 2 x)).toNat : ℕ) : ℤ) : ℚ) := by
        rw [div_eq_iff (ulp_pos x).ne', ulp]
        push_cast
        have := zpow_toNat (k := k - ulpExp (Int.log 2 x)) (by omega)
        push_cast at this
        rw [← this, mul_assoc, ← zpow_add₀ (by norm_num)]
        conv_lhs => rw [hx]
        congr 2; ring
      rw [e, rQ_intCast, ← e, div_mul_cancel₀ _ (ulp_pos x).ne']
    · -- then x is the power of two just above: m = 2^53
      have hlog : Int.log 2 x ≤ k + 53 := by
        have : x < (2 : ℚ) ^ (k + 53 + 1) := by
          have : (m : ℚ) < 2 ^ (54 : ℤ) := by
            have : m < 2 ^ 54 := lt_of_le_of_lt h1 (by norm_num)
            exact_mod_cast this
          calc x < 2 ^ (54 : ℤ) * 2 ^ k := by
                rw [hx]; exact mul_lt_mul_of_pos_right this (by positivity)
            _ = _ := by rw [← zpow_add₀ (by norm_num)]; congr 1; ring
        have := (Int.lt_zpow_iff_log_lt (R := ℚ) (b := 2) (by decide) hx0 (x := k + 53 + 1)).mp
          (by exact_mod_cast this)
        omega
      have hul : ulpExp (Int.log 2 x) = k + 1 := by unfold ulpExp at *; omega
      have hlog' : Int.log 2 x = k + 53 := by unfold ulpExp at *; omega
      have hge : (2 : ℚ) ^ (k + 53) ≤ x := by
        have := Int.zpow_log_le_self (R := ℚ) (b := 2) (by decide) hx0
        rw [hlog'] at this; exact_mod_cast this
      have hm53 : m = 2 ^ 53 := by
        apply le_antisymm h1
        have : (2 : ℚ) ^ (53 : ℤ) ≤ m := by
          have h2 : (2 : ℚ) ^ (53 : ℤ) * 2 ^ k ≤ m * 2 ^ k := by
            rw [← zpow_add₀ (by norm_num)]
            have : (53 : ℤ) + k = k + 53 := by ring
            rw [this, ← hx]; exact hge
          exact le_of_mul_le_mul_right h2 (by positivity)
        exact_mod_cast this
      have e : x / ulp x = ((2 ^ 52 : ℤ) : ℚ) := by
        rw [div_eq_iff (ulp_pos x).ne', ulp, hul, hx, hm53, zpow_add₀ (by norm_num)]
        push_cast; ring
      rw [e, rQ_intCast, ← e, div_mul_cancel₀ _ (ulp_pos x).ne']
  rcases lt_trichotomy m 0 with h | h | h
  · have := pos (-m) (by omega) (by rw [abs_of_neg h] at hm; exact hm)
    push_cast at this
    rw [neg_mul, fl_neg] at this
    linarith
  · simp [h]
  · exact pos m h (by rw [abs_of_pos h] at hm; exact hm)

/-- Integers of at most 53 bits are fixed by rounding. -/
theorem fl_int (m : ℤ) (hm : |m| ≤ 2 ^ 53) : fl (m : ℚ) = m := by
  have := fl_repr m 0 hm (by norm_num)
  simpa using this

theorem fl_one : fl 1 = 1 := by simpa using fl_int 1 (by norm_num)

/-- The error of rounding is at most half a unit in the last place. -/
theorem fl_err_ulp {x : ℚ} (h : 0 < x) : |fl x - x| ≤ ulp x / 2 := by
  rw [fl_pos h]
  have := rQ_err (x / ulp x)
  have e : (rQ (x / ulp x) : ℚ) * ulp x - x = ((rQ (x / ulp x) : ℚ) - x / ulp x) * ulp x := by
    rw [sub_mul, div_mul_cancel₀ _ (ulp_pos x).ne']
  rw [e, abs_mul, abs_of_pos (ulp_pos x)]
  calc _ ≤ 1 / 2 * ulp x := mul_le_mul_of_nonneg_right this (ulp_pos x).le
    _ = _ := by ring

/-- The error of rounding a number below `2^k` is at most `2^(k - 54)`. -/
theorem fl_err {x : ℚ} {k : ℤ} (hk : -1000 ≤ k) (h : |x| < 2 ^ k) :
    |fl x - x| ≤ 2 ^ (k - 54) := by
  have pos : ∀ x : ℚ, 0 < x → x < 2 ^ k → |fl x - x| ≤ 2 ^ (k - 54) := by
    intro x h0 h1
    refine (fl_err_ulp h0).trans ?_
    have hl := (Int.lt_zpow_iff_log_lt (R := ℚ) (b := 2) (by decide) h0 (x := k)).mp
      (by exact_mod_cast h1)
    have : ulp x ≤ 2 ^ (k - 53) := by
      unfold ulp
      exact zpow_le_zpow_right₀ (by norm_num) (by unfold ulpExp; omega)
    have e : (2 : ℚ) ^ (k - 54) = 2 ^ (k - 53) / 2 := by
      have : k - 54 = k - 53 - 1 := by ring
      rw [this, zpow_sub_one₀ (by norm_num)]; ring
    rw [e]; linarith
  rcases lt_trichotomy x 0 with h0 | h0 | h0
  · have := pos (-x) (by linarith) (by rw [abs_of_neg h0] at h; exact h)
    rw [fl_neg] at this
    have e : -fl x - -x = -(fl x - x) := by ring
    rwa [e, abs_neg] at this
  · subst h0; simp; positivity
  · exact pos x h0 (by rw [abs_of_pos h0] at h; exact h)

/-! `truncate` -/

theorem truncate_of_nonneg {x : ℚ} (h : 0 ≤ x) : truncate x = ⌊x⌋ := by
  unfold truncate
  rw [Int.tdiv_eq_ediv_of_nonneg (Rat.num_nonneg.mpr h), ← Rat.floor_intCast_div_natCast,
    Rat.num_div_den]

theorem truncate_neg (x : ℚ) : truncate (-x) = -truncate x := by
  unfold truncate
  rw [Rat.num_neg_eq_neg_num, Rat.neg_den, Int.neg_tdiv]

theorem truncate_nonneg {x : ℚ} (h : 0 ≤ x) : 0 ≤ truncate x := by
  rw [truncate_of_nonneg h]; exact Int.floor_nonneg.mpr h

theorem truncate_mono {x y : ℚ} (h : x ≤ y) : truncate x ≤ truncate y := by
  rcases le_or_gt 0 x with hx | hx
  · rw [truncate_of_nonneg hx, truncate_of_nonneg (hx.trans h)]
    exact Int.floor_le_floor h
  · have h1 : 0 ≤ truncate (-x) := truncate_nonneg (by linarith)
    rw [truncate_neg] at h1
    rcases le_or_gt 0 y with hy | hy
    · have := truncate_nonneg hy; omega
    · have : truncate (-y) ≤ truncate (-x) := by
        rw [truncate_of_nonneg (by linarith), truncate_of_nonneg (by linarith)]
        exact Int.floor_le_floor (by linarith)
      rw [truncate_neg, truncate_neg] at this; omega

theorem truncate_intCast (n : ℤ) : truncate (n : ℚ) = n := by
  rcases le_or_gt 0 n with h | h
  · rw [truncate_of_nonneg (by exact_mod_cast h)]; simp
  · have h' : (0 : ℚ) ≤ ((-n : ℤ) : ℚ) := by
      have : (0 : ℤ) ≤ -n := by omega
      exact_mod_cast this
    have := truncate_of_nonneg h'
    rw [Int.floor_intCast] at this
    push_cast at this
    rw [truncate_neg] at this; omega

end Slate.Py
