import Verif.Model.Hls
import Verif.Lemmas.Float
import Verif.Spec.Display

/-!
# Blending, lightening and darkening under binary64 rounding (C38, C39, C40)
-/

namespace Slate
open Py

theorem chan_int (c1 c2 : Nat) (h1 : c1 ≤ 255) (h2 : c2 ≤ 255) :
    fl ((((c2 : Int) - (c1 : Int) : Int) : ℚ)) = (((c2 : Int) - (c1 : Int) : Int) : ℚ) :=
  fl_int _ (by rw [abs_le]; constructor <;> omega)

theorem fl_nat (n : Nat) (h : n ≤ 255) : fl (n : ℚ) = n := by
  have := fl_int (n : Int) (by rw [abs_le]; constructor <;> omega)
  simpa using this

/-- The unclamped value of a channel is monotone in alpha when the channel rises. -/
theorem blendChan_mono {c1 c2 : Nat} (h : c1 ≤ c2) {α β : ℚ} (hab : α ≤ β) :
    Color.blendChan c1 c2 α ≤ Color.blendChan c1 c2 β := by
  unfold Color.blendChan
  have h0 : (0 : ℚ) ≤ (((c2 : Int) - (c1 : Int) : Int) : ℚ) := by
    have : (0 : Int) ≤ (c2 : Int) - c1 := by omega
    exact_mod_cast this
  have h1 := fl_mono (mul_le_mul_of_nonneg_left hab h0)
  have h2 := truncate_mono (fl_mono (add_le_add_right h1 (c1 : ℚ)))
  omega

theorem blendChan_anti {c1 c2 : Nat} (h : c2 ≤ c1) {α β : ℚ} (hab : α ≤ β) :
    Color.blendChan c1 c2 β ≤ Color.blendChan c1 c2 α := by
  unfold Color.blendChan
  have h0 : (((c2 : Int) - (c1 : Int) : Int) : ℚ) ≤ 0 := by
    have : (c2 : Int) - c1 ≤ 0 := by omega
    exact_mod_cast this
  have h1 := fl_mono (mul_le_mul_of_nonpos_left hab h0)
  have h2 := truncate_mono (fl_mono (add_le_add_right h1 (c1 : ℚ)))
  omega

theorem blendChan_zero {c1 : Nat} (c2 : Nat) (h1 : c1 ≤ 255) : Color.blendChan c1 c2 0 = c1 := by
  unfold Color.blendChan
  have e : fl ((((c2 : Int) - (c1 : Int) : Int) : ℚ) * 0) = 0 := by rw [mul_zero]; exact fl_zero
  have t : truncate ((c1 : Nat) : ℚ) = c1 := by simpa using truncate_intCast (c1 : Int)
  rw [e, add_zero, fl_nat _ h1, t]
  omega

theorem blendChan_one {c1 c2 : Nat} (h1 : c1 ≤ 255) (h2 : c2 ≤ 255) :
    Color.blendChan c1 c2 1 = c2 := by
  unfold Color.blendChan
  have t : truncate ((c2 : Nat) : ℚ) = c2 := by simpa using truncate_intCast (c2 : Int)
  have e : (c1 : ℚ) + (((c2 : Int) - (c1 : Int) : Int) : ℚ) = (c2 : ℚ) := by push_cast; ring
  rw [mul_one, chan_int _ _ h1 h2, e, fl_nat _ h2, t]
  omega

theorem blendChan_range (c1 c2 : Nat) (α : ℚ) :
    0 ≤ Color.blendChan c1 c2 α ∧ Color.blendChan c1 c2 α ≤ 255 := by
  unfold Color.blendChan; omega

/-- `x` lies between `a` and `b`. -/
def Between (a b x : Nat) : Prop := min a b ≤ x ∧ x ≤ max a b

theorem blendChan_between {c1 c2 : Nat} (h1 : c1 ≤ 255) (h2 : c2 ≤ 255) {α : ℚ} (h0 : 0 ≤ α)
    (hα : α ≤ 1) : Between c1 c2 (Color.blendChan c1 c2 α).toNat := by
  have z := blendChan_zero c2 h1
  have o := blendChan_one h1 h2
  unfold Between
  rcases le_total c1 c2 with h | h
  · have a := blendChan_mono h h0
    have b := blendChan_mono h hα
    omega
  · have a := blendChan_anti h h0
    have b := blendChan_anti h hα
    omega

/-- C39: for `0 ≤ alpha ≤ 1` every channel of the blend lies between the channels of
the two colours. -/
theorem C39_between (c d : Color) (hc : c.Valid) (hd : d.Valid) (α : ℚ) (h0 : 0 ≤ α) (h1 : α ≤ 1)
    (bg : Option Bool) :
    Between c.r d.r (c.blend d α bg).r ∧ Between c.g d.g (c.blend d α bg).g ∧
      Between c.b d.b (c.blend d α bg).b :=
  ⟨blendChan_between hc.1 hd.1 h0 h1, blendChan_between hc.2.1 hd.2.1 h0 h1,
    blendChan_between hc.2.2 hd.2.2 h0 h1⟩

/-- C39: alpha 0 gives the first colour, alpha 1 the second. -/
theorem C39_endpoints (c d : Color) (hc : c.Valid) (hd : d.Valid) (bg : Option Bool) :
    ((c.blend d 0 bg).r = c.r ∧ (c.blend d 0 bg).g = c.g ∧ (c.blend d 0 bg).b = c.b) ∧
    ((c.blend d 1 bg).r = d.r ∧ (c.blend d 1 bg).g = d.g ∧ (c.blend d 1 bg).b = d.b) := by
  unfold Color.blend
  simp only [blendChan_zero _ hc.1, blendChan_zero _ hc.2.1, blendChan_zero _ hc.2.2,
    blendChan_one hc.1 hd.1, blendChan_one hc.2.1 hd.2.1, blendChan_one hc.2.2 hd.2.2,
    Int.toNat_natCast, and_self]

/-- `y` is at least as far on the way from `a` to `b` as `x`. -/
def Further (a b x y : Nat) : Prop := (a ≤ b → x ≤ y) ∧ (b ≤ a → y ≤ x)

theorem blendChan_further (c1 c2 : Nat) {α β : ℚ} (h : α ≤ β) :
    Further c1 c2 (Color.blendChan c1 c2 α).toNat (Color.blendChan c1 c2 β).toNat :=
  ⟨fun h' => by have := blendChan_mono h' h; omega, fun h' => by have := blendChan_anti h' h; omega⟩

/-- C39: a larger alpha never moves a channel back, for any alphas. -/
theorem C39_monotone (c d : Color) (α β : ℚ) (h : α ≤ β) (bg : Option Bool) :
    Further c.r d.r (c.blend d α bg).r (c.blend d β bg).r ∧
    Further c.g d.g (c.blend d α bg).g (c.blend d β bg).g ∧
    Further c.b d.b (c.blend d α bg).b (c.blend d β bg).b :=
  ⟨blendChan_further _ _ h, blendChan_further _ _ h, blendChan_further _ _ h⟩

/-- C38, C39: whatever the alpha, the result is a valid colour. -/
theorem C39_clamped (c d : Color) (α : ℚ) (bg : Option Bool) : (c.blend d α bg).Valid := by
  have hr := blendChan_range c.r d.r α
  have hg := blendChan_range c.g d.g α
  have hb := blendChan_range c.b d.b α
  unfold Color.blend Color.Valid
  simp only
  omega

example : (Color.blend { r := 10, g := 200, b := 0 } { r := 20, g := 100, b := 255 } (fl (3/10))).g = 170 := by
  decide +kernel

/-! Exceptions -/

theorem ok_bind' {α β : Type} (a : α) (f : α → Except PyErr β) :
    (Except.ok a >>= f) = f a := rfl

theorem finite_of_abs {x : ℚ} {k : ℤ} (hk : k < 1024) (h : |x| ≤ 2 ^ k) : Color.finite x = true := by
  have h1 : (2 : ℚ) ^ k < 2 ^ (1024 : ℤ) := zpow_lt_zpow_right₀ (by norm_num) hk
  rw [zpow_ofNat] at h1
  have := abs_le.mp h
  unfold Color.finite
  generalize (2 : ℚ) ^ 1024 = B at *
  simp only [Bool.and_eq_true, decide_eq_true_eq]
  constructor <;> linarith

theorem fl_abs_le {x : ℚ} {k : ℤ} (hk : -1074 ≤ k) (h : |x| ≤ 2 ^ k) : |fl x| ≤ 2 ^ k := by
  have e : fl ((2 : ℚ) ^ k) = 2 ^ k := by simpa using fl_repr 1 k (by norm_num) hk
  have := abs_le.mp h
  have a := fl_mono this.1
  have b := fl_mono this.2
  rw [fl_neg, e] at a
  rw [e] at b
  exact abs_le.mpr ⟨a, b⟩

theorem abs_sub_chan {c1 c2 : Nat} (h1 : c1 ≤ 255) (h2 : c2 ≤ 255) :
    |(((c2 : Int) - (c1 : Int) : Int) : ℚ)| ≤ 2 ^ (8 : ℤ) := by
  rw [abs_le]
  push_cast
  have : (c1 : ℚ) ≤ 255 := by exact_mod_cast h1
  have : (c2 : ℚ) ≤ 255 := by exact_mod_cast h2
  have : (0 : ℚ) ≤ c1 := Nat.cast_nonneg _
  have : (0 : ℚ) ≤ c2 := Nat.cast_nonneg _
  norm_num
  constructor <;> linarith

theorem blendChanE_ok {c1 c2 : Nat} (h1 : c1 ≤ 255) (h2 : c2 ≤ 255) {α : ℚ} {k : ℤ} (hk0 : 0 ≤ k)
    (hk : k ≤ 1014) (hα : |α| ≤ 2 ^ k) :
    Color.blendChanE c1 c2 α = .ok (Color.blendChan c1 c2 α) := by
  have hp : |((((c2 : Int) - (c1 : Int) : Int) : ℚ) * α)| ≤ 2 ^ (8 + k) := by
    rw [abs_mul, zpow_add₀ (by norm_num)]
    exact mul_le_mul (abs_sub_chan h1 h2) hα (abs_nonneg _) (by positivity)
  have hp' := fl_abs_le (by omega) hp
  have hs : |(c1 : ℚ) + fl ((((c2 : Int) - (c1 : Int) : Int) : ℚ) * α)| ≤ 2 ^ (8 + k + 1) := by
    refine (abs_add_le _ _).trans ?_
    have a : |(c1 : ℚ)| ≤ 2 ^ (8 + k) := by
      rw [abs_of_nonneg (Nat.cast_nonneg _)]
      have h255 : (c1 : ℚ) ≤ 2 ^ (8 : ℤ) := by
        have : (c1 : ℚ) ≤ 255 := by exact_mod_cast h1
        norm_num; linarith
      exact h255.trans (zpow_le_zpow_right₀ (by norm_num) (by omega))
    rw [zpow_add_one₀ (by norm_num)]
    linarith
  have f1 := finite_of_abs (by omega) hp'
  have f2 := finite_of_abs (by omega) (fl_abs_le (by omega) hs)
  unfold Color.blendChanE
  rw [f1, f2]; rfl

theorem make_valid {rgb : Int × Int × Int} {bg : Bool} {al : Rat} {o : ColorSpace} {k : Option Str}
    (h1 : 0 ≤ rgb.1 ∧ rgb.1 ≤ 255)
    (h2 : 0 ≤ rgb.2.1 ∧ rgb.2.1 ≤ 255) (h3 : 0 ≤ rgb.2.2 ∧ rgb.2.2 ≤ 255) :
    Color.make rgb bg al o k = 
      .ok ⟨rgb.1.toNat, rgb.2.1.toNat, rgb.2.2.toNat, bg, al, o, k⟩ := by
  unfold Color.make Color.chanOk
  rw [if_pos]
  simp only [Bool.and_eq_true, decide_eq_true_eq]
  omega

/-- C38: constructing a colour succeeds exactly when all channels are in `0..255`, the
colour has these channels, and the failure is a `ValueError`. -/
theorem C38_make (r g b : Int) (bg : Bool) (al : Rat) (o : ColorSpace) (k : Option Str) :
    ((∃ c, Color.make (r, g, b) bg al o k = .ok c) ↔
      (0 ≤ r ∧ r ≤ 255) ∧ (0 ≤ g ∧ g ≤ 255) ∧ (0 ≤ b ∧ b ≤ 255)) ∧
    (∀ c, Color.make (r, g, b) bg al o k = .ok c →
      c.Valid ∧ (c.r : Int) = r ∧ (c.g : Int) = g ∧ (c.b : Int) = b ∧ c.isBg = bg ∧ c.alpha = al) ∧
    (∀ e, Color.make (r, g, b) bg al o k = .error e → e = .valueError) := by
  by_cases h : (0 ≤ r ∧ r ≤ 255) ∧ (0 ≤ g ∧ g ≤ 255) ∧ (0 ≤ b ∧ b ≤ 255)
  · have := make_valid (rgb := (r, g, b)) (bg := bg) (al := al) (o := o) (k := k) h.1 h.2.1 h.2.2
    refine ⟨⟨fun _ => h, fun _ => ⟨_, this⟩⟩, ?_, ?_⟩
    · intro c hc
      rw [this] at hc
      cases hc
      refine ⟨?_, ?_, ?_, ?_, rfl, rfl⟩
      · unfold Color.Valid; simp only; omega
      all_goals (simp only; omega)
    · intro e he; rw [this] at he; cases he
  · have : Color.make (r, g, b) bg al o k = .error .valueError := by
      unfold Color.make Color.chanOk
      rw [if_neg]
      simp only [Bool.and_eq_true, decide_eq_true_eq]
      omega
    refine ⟨⟨?_, fun h' => absurd h' h⟩, ?_, ?_⟩
    · rintro ⟨c, hc⟩; rw [this] at hc; cases hc
    · intro c hc; rw [this] at hc; cases hc
    · intro e he; rw [this] at he; cases he; rfl

theorem blendE_ok {c o : Color} (hc : c.Valid) (ho : o.Valid) {α : ℚ} {k : ℤ} (hk0 : 0 ≤ k)
    (hk : k ≤ 1014) (hα : |α| ≤ 2 ^ k) (bg : Option Bool) : c.blendE o α bg = .ok (c.blend o α bg) := by
  unfold Color.blendE
  rw [blendChanE_ok hc.1 ho.1 hk0 hk hα, blendChanE_ok hc.2.1 ho.2.1 hk0 hk hα,
    blendChanE_ok hc.2.2 ho.2.2 hk0 hk hα]
  simp only [ok_bind']
  rw [make_valid (blendChan_range ..) (blendChan_range ..) (blendChan_range ..)]
  rfl

/-- C38: blending with an alpha of absolute value at most `2^1014` raises nothing and
gives a valid colour. What is missing: larger alphas, see `C38_blend_violated`. -/
theorem C38_blend_partial (c o : Color) (hc : c.Valid) (ho : o.Valid) (α : ℚ) 
    (hα : |α| ≤ 2 ^ (1014 : ℤ)) (bg : Option Bool) : ∃ e, c.blendE o α bg = .ok e ∧ e.Valid ∧ e.isBg = bg.getD c.isBg :=
  ⟨_, blendE_ok hc ho (by norm_num) le_rfl hα bg, C39_clamped c o α bg, rfl⟩

/-- C38 is violated: blending with a huge alpha raises `OverflowError`. -/
theorem C38_blend_violated :
    Color.blendE Color.white Color.black (2 ^ 1020) = .error .overflowError ∧
    Color.Valid Color.white ∧ Color.Valid Color.black := by
  refine ⟨by decide +kernel, ?_, ?_⟩ <;> (unfold Color.Valid; decide)

/-- A blend that returns gives a valid colour. -/
theorem C39_result (c d e : Color) (α : ℚ) (bg : Option Bool) (h : c.blendE d α bg = .ok e) :
    e = c.blend d α bg ∧ e.Valid := by
  have key : e = c.blend d α bg := by
    unfold Color.blendE Color.blendChanE at h
    by_cases h1 : (Color.finite (fl ((((d.r : Int) - (c.r : Int) : Int) : Rat) * α)) &&
      Color.finite (fl ((c.r : Rat) + fl ((((d.r : Int) - (c.r : Int) : Int) : Rat) * α)))) = true
    · rw [if_pos h1, ok_bind'] at h
      by_cases h2 : (Color.finite (fl ((((d.g : Int) - (c.g : Int) : Int) : Rat) * α)) &&
        Color.finite (fl ((c.g : Rat) + fl ((((d.g : Int) - (c.g : Int) : Int) : Rat) * α)))) = true
      · rw [if_pos h2, ok_bind'] at h
        by_cases h3 : (Color.finite (fl ((((d.b : Int) - (c.b : Int) : Int) : Rat) * α)) &&
          Color.finite (fl ((c.b : Rat) + fl ((((d.b : Int) - (c.b : Int) : Int) : Rat) * α)))) = true
        · rw [if_pos h3, ok_bind', make_valid (blendChan_range ..) (blendChan_range ..)
            (blendChan_range ..)] at h
          cases h; rfl
        · rw [if_neg h3] at h; cases h
      · rw [if_neg h2] at h; cases h
    · rw [if_neg h1] at h; cases h
  exact ⟨key, key ▸ C39_clamped ..⟩

/-! ## C40: `lighten` and `darken` -/

theorem white_valid : Color.white.Valid := by unfold Color.Valid; decide
theorem black_valid : Color.black.Valid := by unfold Color.Valid; decide

theorem shade_nonneg {n : Int} (hn : 0 ≤ n) {step : ℚ} (hs : 0 ≤ step) : 0 ≤ fl (fl n * step) :=
  fl_nonneg (mul_nonneg (fl_nonneg (by exact_mod_cast hn)) hs)

theorem shade_mono {n m : Int} (h : n ≤ m) {step : ℚ} (hs : 0 ≤ step) :
    fl (fl n * step) ≤ fl (fl m * step) :=
  fl_mono (mul_le_mul_of_nonneg_right (fl_mono (by exact_mod_cast h)) hs)

theorem blendChan_up {c1 : Nat} (h1 : c1 ≤ 255) {α β : ℚ} (h0 : 0 ≤ α) (h : α ≤ β) :
    c1 ≤ (Color.blendChan c1 255 α).toNat ∧
      (Color.blendChan c1 255 α).toNat ≤ (Color.blendChan c1 255 β).toNat := by
  have a := blendChan_mono h1 h0
  have b := blendChan_mono h1 h
  rw [blendChan_zero _ h1] at a
  omega

theorem blendChan_down {c1 : Nat} (h1 : c1 ≤ 255) {α β : ℚ} (h0 : 0 ≤ α) (h : α ≤ β) :
    (Color.blendChan c1 0 α).toNat ≤ c1 ∧
      (Color.blendChan c1 0 β).toNat ≤ (Color.blendChan c1 0 α).toNat := by
  have a := blendChan_anti (Nat.zero_le c1) h0
  have b := blendChan_anti (Nat.zero_le c1) h
  rw [blendChan_zero _ h1] at a
  have := blendChan_range c1 0 α
  have := blendChan_range c1 0 β
  omega

/-- Channelwise order of colours. -/
def Color.Le (c d : Color) : Prop := c.r ≤ d.r ∧ c.g ≤ d.g ∧ c.b ≤ d.b

/-- Equality of the channels. -/
def Color.SameRgb (c d : Color) : Prop := c.r = d.r ∧ c.g = d.g ∧ c.b = d.b

/-- C40: `lighten` never lowers a channel, and more shades never go back. -/
theorem C40_lighten (c : Color) (hc : c.Valid) (n m : Int) (hn : 0 ≤ n) (hnm : n ≤ m) (step : ℚ)
    (hs : 0 ≤ step) :
    c.Le (c.lighten n step) ∧ (c.lighten n step).Le (c.lighten m step) ∧
      (c.lighten n step).isBg = c.isBg := by
  have a := shade_nonneg hn hs
  have b := shade_mono hnm hs
  obtain ⟨r1, r2⟩ := blendChan_up hc.1 a b
  obtain ⟨g1, g2⟩ := blendChan_up hc.2.1 a b
  obtain ⟨b1, b2⟩ := blendChan_up hc.2.2 a b
  exact ⟨⟨r1, g1, b1⟩, ⟨r2, g2, b2⟩, rfl⟩

/-- C40: `darken` never raises a channel, and more shades never go back. -/
theorem C40_darken (c : Color) (hc : c.Valid) (n m : Int) (hn : 0 ≤ n) (hnm : n ≤ m) (step : ℚ)
    (hs : 0 ≤ step) :
    (c.darken n step).Le c ∧ (c.darken m step).Le (c.darken n step) ∧
      (c.darken n step).isBg = c.isBg := by
  have a := shade_nonneg hn hs
  have b := shade_mono hnm hs
  obtain ⟨r1, r2⟩ := blendChan_down hc.1 a b
  obtain ⟨g1, g2⟩ := blendChan_down hc.2.1 a b
  obtain ⟨b1, b2⟩ := blendChan_down hc.2.2 a b
  exact ⟨⟨r1, g1, b1⟩, ⟨r2, g2, b2⟩, rfl⟩

/-- C40: no shades, no change. -/
theorem C40_zero (c : Color) (hc : c.Valid) (step : ℚ) :
    (c.lighten 0 step).SameRgb c ∧ (c.darken 0 step).SameRgb c := by
  have e : fl (fl ((0 : Int) : ℚ) * step) = 0 := by simp
  unfold Color.lighten Color.darken
  rw [e]
  exact ⟨(C39_endpoints c _ hc white_valid none).1, (C39_endpoints c _ hc black_valid none).1⟩

/-- C40: if the product of the count and the step size, as the code computes it, is at
least 1, `lighten` gives white and `darken` black. -/
theorem C40_saturate_product (c : Color) (hc : c.Valid) (n : Int) (step : ℚ)
    (h : 1 ≤ fl (fl n * step)) :
    (c.lighten n step).SameRgb Color.white ∧ (c.darken n step).SameRgb Color.black := by
  have up : ∀ c1 : Nat, c1 ≤ 255 → (Color.blendChan c1 255 (fl (fl n * step))).toNat = 255 := by
    intro c1 h1
    have a := blendChan_mono h1 h
    rw [blendChan_one h1 (by decide)] at a
    have := blendChan_range c1 255 (fl (fl n * step))
    omega
  have down : ∀ c1 : Nat, c1 ≤ 255 → (Color.blendChan c1 0 (fl (fl n * step))).toNat = 0 := by
    intro c1 h1
    have a := blendChan_anti (Nat.zero_le c1) h
    rw [blendChan_one h1 (by decide)] at a
    omega
  exact ⟨⟨up _ hc.1, up _ hc.2.1, up _ hc.2.2⟩, ⟨down _ hc.1, down _ hc.2.1, down _ hc.2.2⟩⟩

/-- C40: if `shade_count * step_size ≥ 1` (exact product, count at most `2^53`),
`lighten` gives white and `darken` black. -/
theorem C40_saturate (c : Color) (hc : c.Valid) (n : Int) (hn : |n| ≤ 2 ^ 53) (step : ℚ)
    (h : 1 ≤ (n : ℚ) * step) :
    (c.lighten n step).SameRgb Color.white ∧ (c.darken n step).SameRgb Color.black := by
  apply C40_saturate_product c hc n step
  rw [fl_int n hn]
  have := fl_mono h
  rwa [fl_one] at this

/-- C38, C40: within the range of floats `lighten` and `darken` raise nothing and are
the functions of the previous theorems. -/
theorem C40_returns (c : Color) (hc : c.Valid) (n : Int) (step : ℚ)
    (hn : |(n : ℚ)| ≤ 2 ^ (500 : ℤ)) (hs : |step| ≤ 2 ^ (500 : ℤ)) :
    Color.shadeE Color.white c n step = .ok (c.lighten n step) ∧
    Color.shadeE Color.black c n step = .ok (c.darken n step) ∧
    (c.lighten n step).Valid ∧ (c.darken n step).Valid := by
  have h1 : |fl n| ≤ 2 ^ (500 : ℤ) := fl_abs_le (by norm_num) hn
  have h2 : |fl n * step| ≤ 2 ^ (500 + 500 : ℤ) := by
    rw [abs_mul, zpow_add₀ (by norm_num)]
    exact mul_le_mul h1 hs (abs_nonneg _) (by positivity)
  have h3 := fl_abs_le (by norm_num) h2
  have f1 : Color.finite (fl n) = true := finite_of_abs (by norm_num) h1
  have f2 : Color.finite (fl (fl n * step)) = true := finite_of_abs (by norm_num) h3
  refine ⟨?_, ?_, C39_clamped .., C39_clamped ..⟩
  · unfold Color.shadeE
    rw [if_pos f1, if_pos f2, blendE_ok hc white_valid (by norm_num) (by norm_num) h3]; rfl
  · unfold Color.shadeE
    rw [if_pos f1, if_pos f2, blendE_ok hc black_valid (by norm_num) (by norm_num) h3]; rfl

/-- C40: whenever the call returns at all, it returns the colour of the previous
theorems. -/
theorem C40_result (o c e : Color) (n : Int) (step : ℚ) (h : Color.shadeE o c n step = .ok e) :
    e = c.blend o (fl (fl n * step)) := by
  unfold Color.shadeE at h
  split at h
  · split at h
    · exact (C39_result _ _ _ _ _ h).1
    · unfold Color.blendInf at h; split at h <;> cases h
  · cases h

example : (Color.lighten { r := 10, g := 100, b := 250 } 3).r = 83 ∧
    (Color.darken { r := 10, g := 100, b := 250 } 3).b = 175 ∧
    (Color.lighten { r := 10, g := 100, b := 250 } 10).r = 255 := by decide +kernel

/-! ## C38: the other derived colours -/

/-- C38: `as_background` and `as_alpha` of a valid colour are valid. -/
theorem C38_roles (c : Color) (hc : c.Valid) (s : Bool) (al : Option Rat) (v : Rat) :
    (c.asBackground s al).Valid ∧ (c.asBackground s al).isBg = s ∧ (c.asAlpha v).Valid ∧
      (c.asAlpha v).isBg = c.isBg ∧ (c.asAlpha v).alpha = v := by
  refine ⟨?_, ?_, hc, rfl, rfl⟩
  · unfold Color.asBackground; split
    · exact hc
    · exact hc
  · unfold Color.asBackground; split
    · assumption
    · rfl

end Slate
