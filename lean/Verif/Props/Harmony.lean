import Verif.Props.HueFloat

/-!
# Lightness under hue shifts, complements and colour groups (C76, C77, C78)
-/

namespace Slate
open Py Hls

/-! ## The trapezoid -/

theorem ramp_half (x : ℚ) : ramp (x + 1 / 2) = 1 - ramp x := by
  have key : ∀ f : ℚ, 0 ≤ f → f < 1 / 2 → hat (f + 1 / 2) = 1 - hat f := by
    intro f h0 h1
    rcases le_total f (1 / 6) with h | h
    · rw [hat_rise h0 h, hat_fall (by linarith) (by linarith)]; ring
    · rw [hat_top h h1.le, hat_zero (by linarith)]; ring
  have f0 := Int.fract_nonneg x
  have f1 := Int.fract_lt_one x
  have hx : x = Int.fract x + (⌊x⌋ : ℤ) := (Int.fract_add_floor x).symm
  unfold ramp
  rcases lt_or_ge (Int.fract x) (1 / 2) with h | h
  · have e : Int.fract (x + 1 / 2) = Int.fract x + 1 / 2 := by
      rw [Int.fract_eq_iff]
      refine ⟨by linarith, by linarith, ⌊x⌋, by linarith⟩
    rw [e, key _ f0 h]
  · have e : Int.fract (x + 1 / 2) = Int.fract x - 1 / 2 := by
      rw [Int.fract_eq_iff]
      refine ⟨by linarith, by linarith, ⌊x⌋ + 1, by push_cast; linarith⟩
    have := key (Int.fract x - 1 / 2) (by linarith) (by linarith)
    rw [sub_add_cancel] at this
    rw [e]; linarith

/-- Of three hues a third apart one lies on the top and one at the bottom. -/
theorem ramp_top_bottom (x : ℚ) :
    (ramp (x + 1 / 3) = 1 ∨ ramp x = 1 ∨ ramp (x - 1 / 3) = 1) ∧
    (ramp (x + 1 / 3) = 0 ∨ ramp x = 0 ∨ ramp (x - 1 / 3) = 0) := by
  have f0 := Int.fract_nonneg x
  have f1 := Int.fract_lt_one x
  have hx : x = Int.fract x + (⌊x⌋ : ℤ) := (Int.fract_add_floor x).symm
  have e0 : ramp x = ramp (Int.fract x) := by rw [hx, ramp_add_int, Int.fract_add_intCast, Int.fract_fract]
  have e1 : ramp (x + 1 / 3) = ramp (Int.fract x + 1 / 3) := by
    rw [← ramp_add_int (Int.fract x + 1 / 3) ⌊x⌋]; congr 1; linarith
  have e2 : ramp (x - 1 / 3) = ramp (Int.fract x - 1 / 3) := by
    rw [← ramp_add_int (Int.fract x - 1 / 3) ⌊x⌋]; congr 1; linarith
  have e1' : ramp (Int.fract x + 1 / 3) = ramp (Int.fract x + 1 / 3 + ((-1 : ℤ) : ℚ)) := (ramp_add_int _ _).symm
  have e2' : ramp (Int.fract x - 1 / 3) = ramp (Int.fract x - 1 / 3 + ((1 : ℤ) : ℚ)) := (ramp_add_int _ _).symm
  rw [e0, e1, e2]
  set f := Int.fract x
  push_cast at e1' e2'
  have r0 := ramp_unit (x := f) f0 f1.le
  constructor
  · rcases le_total f (1 / 6) with h | h
    · left; rw [ramp_unit (by linarith) (by linarith), hat_top (by linarith) (by linarith)]
    rcases le_total f (1 / 2) with h' | h'
    · right; left; rw [r0, hat_top h h']
    rcases le_total f (5 / 6) with h'' | h''
    · right; right; rw [ramp_unit (by linarith) (by linarith), hat_top (by linarith) (by linarith)]
    · left; rw [e1', ramp_unit (by linarith) (by linarith), hat_top (by linarith) (by linarith)]
  · rcases le_total f (1 / 3) with h | h
    · right; right; rw [e2', ramp_unit (by linarith) (by linarith), hat_zero (by linarith)]
    rcases le_total f (2 / 3) with h' | h'
    · left; rw [ramp_unit (by linarith) (by linarith), hat_zero (by linarith)]
    · right; left; rw [r0, hat_zero h']

/-! ## C76 -/

/-- The hues of the three channels in `hls_to_rgb`, computed in binary64 from a hue `H`, follow the trapezoid. -/
theorem three_hues {H : ℚ} (H0 : 0 ≤ H) (H1 : H ≤ 1) (h q : ℚ) (K : ℤ) (c1 : H - (h + K) ≤ 1 / 2 ^ 32)
    (c2 : (h + K) - H ≤ 1 / 2 ^ 32) :
    let x1 := mod1 fl (fl (H + fl (1 / 3)))
    let x2 := mod1 fl H
    let x3 := mod1 fl (fl (H - fl (1 / 3)))
    (hat x1 - ramp (h + 1 / 3) ≤ 6 * (1 / 2 ^ 31) ∧ ramp (h + 1 / 3) - hat x1 ≤ 6 * (1 / 2 ^ 31)) ∧
    (hat x2 - ramp h ≤ 6 * (1 / 2 ^ 31) ∧ ramp h - hat x2 ≤ 6 * (1 / 2 ^ 31)) ∧
    (hat x3 - ramp (h - 1 / 3) ≤ 6 * (1 / 2 ^ 31) ∧ ramp (h - 1 / 3) - hat x3 ≤ 6 * (1 / 2 ^ 31)) := by
  intro x1 x2 x3
  have es : eps ≤ 1 / 2 ^ 50 := le_refl _
  have third := fle' (x := 1 / 3) (by norm_num) (by norm_num)
  obtain ⟨⟨u0, u1⟩, j1, u2, u3⟩ := mod1_fl (fl (H + fl (1 / 3)))
  obtain ⟨⟨v0, v1⟩, j2, v2, v3⟩ := mod1_fl H
  obtain ⟨⟨z0, z1⟩, j3, z2, z3⟩ := mod1_fl (fl (H - fl (1 / 3)))
  have g1 := fle' (x := H + fl (1 / 3)) (by linarith [third.2]) (by linarith [third.1])
  have g3 := fle' (x := H - fl (1 / 3)) (by linarith [third.1]) (by linarith [third.2])
  exact ⟨hat_ramp u0 u1 (K + j1) (by norm_num) (by push_cast at c1 c2 ⊢; linarith [g1.1, third.1])
      (by push_cast at c1 c2 ⊢; linarith [g1.2, third.2]),
    hat_ramp v0 v1 (K + j2) (by norm_num) (by push_cast at c1 c2 ⊢; linarith) (by push_cast at c1 c2 ⊢; linarith),
    hat_ramp z0 z1 (K + j3) (by norm_num) (by push_cast at c1 c2 ⊢; linarith [g3.1, third.2])
      (by push_cast at c1 c2 ⊢; linarith [g3.2, third.1])⟩

/-- A channel computed for a value of the trapezoid, against the exact interpolation. -/
theorem chan_close {m mx y t s : ℚ} (hb : 0 ≤ m ∧ m ≤ mx ∧ mx ≤ 255 / 256)
    (hy : y - (m + (mx - m) * t) ≤ 200 * eps ∧ (m + (mx - m) * t) - y ≤ 200 * eps)
    (hs : t - s ≤ 6 * (1 / 2 ^ 31) ∧ s - t ≤ 6 * (1 / 2 ^ 31)) :
    y - (m + (mx - m) * s) ≤ 1 / 2 ^ 20 ∧ (m + (mx - m) * s) - y ≤ 1 / 2 ^ 20 := by
  have mm := mul_bound (a := t - s) (b := mx - m) (B := 6 * (1 / 2 ^ 31))
    ⟨by linarith [hs.2], by linarith [hs.1]⟩ ⟨by linarith [hb.2.1], by linarith [hb.1, hb.2.2]⟩
  have ex : (t - s) * (mx - m) = (mx - m) * t - (mx - m) * s := by ring
  rw [ex] at mm
  have he : 200 * eps ≤ 1 / 2 ^ 40 := by unfold eps; norm_num
  constructor
  · linarith [hy.1, mm.2]
  · linarith [hy.2, mm.1]

/-- The largest channel. -/
def Color.top (c : Color) : Nat := max (max c.r c.g) c.b
/-- The smallest channel. -/
def Color.bottom (c : Color) : Nat := min (min c.r c.g) c.b

theorem top_cast (c : Color) : max (max ((c.r : ℚ) / 256) (c.g / 256)) (c.b / 256) = (c.top : ℚ) / 256 := by
  unfold Color.top
  rw [max_div_div_right (by norm_num), max_div_div_right (by norm_num)]
  push_cast
  rfl

theorem bottom_cast (c : Color) : min (min ((c.r : ℚ) / 256) (c.g / 256)) (c.b / 256) = (c.bottom : ℚ) / 256 := by
  unfold Color.bottom
  rw [min_div_div_right (by norm_num), min_div_div_right (by norm_num)]
  push_cast
  rfl

theorem top_le {c : Color} (hc : c.Valid) : c.top ≤ 255 := by
  obtain ⟨h1, h2, h3⟩ := hc
  unfold Color.top; omega

theorem bottom_le {c : Color} (hc : c.Valid) : c.bottom ≤ 255 := by
  obtain ⟨h1, h2, h3⟩ := hc
  unfold Color.bottom; omega

/-- The colour opposite on the circle of hues: each channel `x` becomes largest plus smallest channel minus `x`, up to
the loss of the normalisation. -/
def Color.mirror (c : Color) : Color :=
  { r := lossy (c.top + c.bottom - c.r)
    g := lossy (c.top + c.bottom - c.g)
    b := lossy (c.top + c.bottom - c.b)
    isBg := c.isBg }

/-- The channels of a shifted colour, from the exact hue that the computed one is close to. -/
theorem hueShift_channels (c : Color) (hc : c.Valid) (hg : ¬ c.IsGrey) (a h : ℚ) (K : ℤ)
    (c1 : mod1 fl (fl ((c.hls fl).1 + a)) - (h + K) ≤ 1 / 2 ^ 32)
    (c2 : (h + K) - mod1 fl (fl ((c.hls fl).1 + a)) ≤ 1 / 2 ^ 32) :
    ∃ y1 y2 y3 : ℚ, c.hueShift fl a = Color.make (truncate (fl (255 * y1)), truncate (fl (255 * y2)),
        truncate (fl (255 * y3))) c.isBg ∧
      (∀ p ∈ [(y1, ramp (h + 1 / 3)), (y2, ramp h), (y3, ramp (h - 1 / 3))],
        p.1 - ((c.bottom : ℚ) / 256 + ((c.top : ℚ) / 256 - (c.bottom : ℚ) / 256) * p.2) ≤ 1 / 2 ^ 20 ∧
        ((c.bottom : ℚ) / 256 + ((c.top : ℚ) / 256 - (c.bottom : ℚ) / 256) * p.2) - p.1 ≤ 1 / 2 ^ 20) := by
  have hlt := not_grey hg
  unfold Color.hueShift
  unfold Color.hls at c1 c2 ⊢
  rw [fl_chan hc.1, fl_chan hc.2.1, fl_chan hc.2.2] at c1 c2 ⊢
  obtain ⟨hb, w1, w2, w3⟩ := hlsToRgb_fl hc.1 hc.2.1 hc.2.2 hlt
    (mod1 fl (fl ((rgbToHls fl ((c.r : ℚ) / 256) (c.g / 256) (c.b / 256)).1 + a)))
  obtain ⟨⟨H0, H1⟩, -⟩ := mod1_fl (fl ((rgbToHls fl ((c.r : ℚ) / 256) (c.g / 256) (c.b / 256)).1 + a))
  obtain ⟨t1, t2, t3⟩ := three_hues H0 H1 h 0 K c1 c2
  rw [top_cast, bottom_cast] at hb w1 w2 w3
  refine ⟨_, _, _, rfl, ?_⟩
  intro p hp
  simp only [List.mem_cons, List.not_mem_nil, or_false] at hp
  rcases hp with rfl | rfl | rfl
  · exact chan_close hb w1 t1
  · exact chan_close hb w2 t2
  · exact chan_close hb w3 t3

/-- A channel between two values has a scaled value between theirs. -/
theorem truncate_between {lo hi : ℕ} {y s : ℚ} (h1 : hi ≤ 255) (hle : lo ≤ hi) (s0 : 0 ≤ s) (s1 : s ≤ 1)
    (hy : y - ((lo : ℚ) / 256 + ((hi : ℚ) / 256 - (lo : ℚ) / 256) * s) ≤ 1 / 2 ^ 20 ∧
      ((lo : ℚ) / 256 + ((hi : ℚ) / 256 - (lo : ℚ) / 256) * s) - y ≤ 1 / 2 ^ 20) :
    (lossy lo : ℤ) ≤ truncate (fl (255 * y)) ∧ truncate (fl (255 * y)) ≤ (lossy hi : ℤ) := by
  have hle' : (lo : ℚ) / 256 ≤ (hi : ℚ) / 256 := by
    have : (lo : ℚ) ≤ hi := by exact_mod_cast hle
    linarith
  have a : 0 ≤ ((hi : ℚ) / 256 - (lo : ℚ) / 256) * s := mul_nonneg (by linarith) s0
  have b : ((hi : ℚ) / 256 - (lo : ℚ) / 256) * s ≤ ((hi : ℚ) / 256 - (lo : ℚ) / 256) * 1 :=
    mul_le_mul_of_nonneg_left s1 (by linarith)
  constructor
  · have e := truncate_close (k := lo) (y := (lo : ℚ) / 256 - 1 / 2 ^ 20) (by omega) (by norm_num) (by norm_num)
    rw [← e]
    exact truncate_mono (fl_mono (by linarith [hy.2]))
  · have e := truncate_close (k := hi) (y := (hi : ℚ) / 256 + 1 / 2 ^ 20) (by omega) (by norm_num) (by norm_num)
    rw [← e]
    exact truncate_mono (fl_mono (by linarith [hy.1]))

theorem ramp_range (x : ℚ) : 0 ≤ ramp x ∧ ramp x ≤ 1 := ⟨hat_nonneg _, hat_le_one _⟩

/-- C76: a hue shift by any amount keeps the largest and the smallest channel, hence lightness and saturation, up to
the loss of the normalisation, in binary64 arithmetic. -/
theorem C76_lightness (c : Color) (hc : c.Valid) (a : ℚ) :
    ∃ d, c.hueShift fl a = .ok d ∧ d.top = lossy c.top ∧ d.bottom = lossy c.bottom ∧ d.isBg = c.isBg := by
  by_cases hg : c.IsGrey
  · obtain ⟨h1, h2⟩ := hg
    refine ⟨_, C49_grey_float c hc ⟨h1, h2⟩ a, ?_, ?_, rfl⟩
    · unfold Color.top lossy
      simp only [← h2, ← h1]
      omega
    · unfold Color.bottom lossy
      simp only [← h2, ← h1]
      omega
  · obtain ⟨y1, y2, y3, he, hy⟩ := hueShift_channels c hc hg a (mod1 fl (fl ((c.hls fl).1 + a))) 0
      (by push_cast; norm_num) (by push_cast; norm_num)
    set H := mod1 fl (fl ((c.hls fl).1 + a))
    have hle : c.bottom ≤ c.top := by unfold Color.top Color.bottom; omega
    have ht := top_le hc
    have p1 := hy (y1, ramp (H + 1 / 3)) (by simp)
    have p2 := hy (y2, ramp H) (by simp)
    have p3 := hy (y3, ramp (H - 1 / 3)) (by simp)
    have b1 := truncate_between ht hle (ramp_range _).1 (ramp_range _).2 p1
    have b2 := truncate_between ht hle (ramp_range _).1 (ramp_range _).2 p2
    have b3 := truncate_between ht hle (ramp_range _).1 (ramp_range _).2 p3
    have atTop : ∀ y s : ℚ, s = 1 → (y - ((c.bottom : ℚ) / 256 + ((c.top : ℚ) / 256 - (c.bottom : ℚ) / 256) * s) ≤ 1 / 2 ^ 20 ∧
        ((c.bottom : ℚ) / 256 + ((c.top : ℚ) / 256 - (c.bottom : ℚ) / 256) * s) - y ≤ 1 / 2 ^ 20) →
        truncate (fl (255 * y)) = (lossy c.top : ℤ) := by
      rintro y s rfl h
      exact truncate_close ht (by linarith [h.1]) (by linarith [h.2])
    have atBottom : ∀ y s : ℚ, s = 0 → (y - ((c.bottom : ℚ) / 256 + ((c.top : ℚ) / 256 - (c.bottom : ℚ) / 256) * s) ≤ 1 / 2 ^ 20 ∧
        ((c.bottom : ℚ) / 256 + ((c.top : ℚ) / 256 - (c.bottom : ℚ) / 256) * s) - y ≤ 1 / 2 ^ 20) →
        truncate (fl (255 * y)) = (lossy c.bottom : ℤ) := by
      rintro y s rfl h
      exact truncate_close (bottom_le hc) (by linarith [h.1]) (by linarith [h.2])
    have tops : truncate (fl (255 * y1)) = (lossy c.top : ℤ) ∨ truncate (fl (255 * y2)) = (lossy c.top : ℤ) ∨
        truncate (fl (255 * y3)) = (lossy c.top : ℤ) := by
      rcases (ramp_top_bottom H).1 with h | h | h
      · exact .inl (atTop _ _ h p1)
      · exact .inr (.inl (atTop _ _ h p2))
      · exact .inr (.inr (atTop _ _ h p3))
    have bottoms : truncate (fl (255 * y1)) = (lossy c.bottom : ℤ) ∨ truncate (fl (255 * y2)) = (lossy c.bottom : ℤ) ∨
        truncate (fl (255 * y3)) = (lossy c.bottom : ℤ) := by
      rcases (ramp_top_bottom H).2 with h | h | h
      · exact .inl (atBottom _ _ h p1)
      · exact .inr (.inl (atBottom _ _ h p2))
      · exact .inr (.inr (atBottom _ _ h p3))
    rw [he]
    clear he hy p1 p2 p3 atTop atBottom
    generalize truncate (fl (255 * y1)) = n1 at *
    generalize truncate (fl (255 * y2)) = n2 at *
    generalize truncate (fl (255 * y3)) = n3 at *
    have hl : lossy c.top ≤ 255 := by unfold lossy; omega
    rw [make_valid (by simp only; omega) (by simp only; omega) (by simp only; omega)]
    refine ⟨_, rfl, ?_, ?_, rfl⟩
    · unfold Color.top at *
      simp only
      omega
    · unfold Color.bottom at *
      simp only
      omega

example : Color.hueShift fl { r := 200, g := 100, b := 50, isBg := true } (fl (1 / 10)) =
    .ok { r := 199, g := 189, b := 49, isBg := true } := by decide +kernel

/-! ## Shifts by a sixth of the circle -/

/-- A shift by an amount close to `a`, if the exact channels are whole numbers. -/
theorem hueShift_whole (c : Color) (hc : c.Valid) (hg : ¬ c.IsGrey) (a a' : ℚ) (ha : -2 ≤ a' ∧ a' ≤ 2)
    (h1 : a' - a ≤ eps) (h2 : a - a' ≤ eps) (i j k : ℕ) (hi : i ≤ 255) (hj : j ≤ 255) (hk : k ≤ 255)
    (hch : ∀ h : ℚ, ((c.bottom : ℚ) / 256 + ((c.top : ℚ) / 256 - (c.bottom : ℚ) / 256) * ramp (h + 1 / 3) = (c.r : ℚ) / 256 ∧
        (c.bottom : ℚ) / 256 + ((c.top : ℚ) / 256 - (c.bottom : ℚ) / 256) * ramp h = (c.g : ℚ) / 256 ∧
        (c.bottom : ℚ) / 256 + ((c.top : ℚ) / 256 - (c.bottom : ℚ) / 256) * ramp (h - 1 / 3) = (c.b : ℚ) / 256) →
      (c.bottom : ℚ) / 256 + ((c.top : ℚ) / 256 - (c.bottom : ℚ) / 256) * ramp (h + a + 1 / 3) = (i : ℚ) / 256 ∧
        (c.bottom : ℚ) / 256 + ((c.top : ℚ) / 256 - (c.bottom : ℚ) / 256) * ramp (h + a) = (j : ℚ) / 256 ∧
        (c.bottom : ℚ) / 256 + ((c.top : ℚ) / 256 - (c.bottom : ℚ) / 256) * ramp (h + a - 1 / 3) = (k : ℚ) / 256) :
    c.hueShift fl a' = .ok { r := lossy i, g := lossy j, b := lossy k, isBg := c.isBg } := by
  have hlt := not_grey hg
  have hr := ramp_channels (r := (c.r : ℚ) / 256) (g := (c.g : ℚ) / 256) (b := (c.b : ℚ) / 256)
    (fun x hx m hm => by rw [hx, hm]; exact hlt)
  obtain ⟨⟨t0, t1, k0, a1, a2⟩, -, -⟩ := hls_fl hc.1 hc.2.1 hc.2.2 hlt
  have eh : (c.hls fl) = rgbToHls fl ((c.r : ℚ) / 256) (c.g / 256) (c.b / 256) := by
    unfold Color.hls
    rw [fl_chan hc.1, fl_chan hc.2.1, fl_chan hc.2.2]
  rw [← eh] at t0 t1 a1 a2
  simp only at hr
  rw [top_cast, bottom_cast] at hr a1 a2
  set h := hue0 ((c.r : ℚ) / 256) (c.g / 256) (c.b / 256) ((c.top : ℚ) / 256) ((c.top : ℚ) / 256 - (c.bottom : ℚ) / 256)
  have es : eps ≤ 1 / 2 ^ 50 := le_refl _
  have f := fle' (x := (c.hls fl).1 + a') (by linarith [ha.1]) (by linarith [ha.2])
  obtain ⟨-, k1, b1, b2⟩ := mod1_fl (fl ((c.hls fl).1 + a'))
  obtain ⟨y1, y2, y3, he, hy⟩ := hueShift_channels c hc hg a' (h + a) (k0 + k1)
    (by push_cast; linarith [f.1]) (by push_cast; linarith [f.2])
  obtain ⟨r1, r2, r3⟩ := hch h hr
  have p1 := hy (y1, ramp (h + a + 1 / 3)) (by simp)
  have p2 := hy (y2, ramp (h + a)) (by simp)
  have p3 := hy (y3, ramp (h + a - 1 / 3)) (by simp)
  simp only [r1] at p1
  simp only [r2] at p2
  simp only [r3] at p3
  rw [he, truncate_close hi p1.1 p1.2, truncate_close hj p2.1 p2.2, truncate_close hk p3.1 p3.2]
  rw [make_valid (by unfold lossy; simp only; omega) (by unfold lossy; simp only; omega)
    (by unfold lossy; simp only; omega)]
  rfl

/-- A shift by a third moves every channel to the next one. -/
theorem hueShift_third (c : Color) (hc : c.Valid) :
    c.hueShift fl (fl (1 / 3)) = .ok { r := lossy c.b, g := lossy c.r, b := lossy c.g, isBg := c.isBg } := by
  by_cases hg : c.IsGrey
  · rw [C49_grey_float c hc hg, hg.2.symm, hg.1.symm]
  · have f := fle' (x := 1 / 3) (by norm_num) (by norm_num)
    have es : eps ≤ 1 / 2 ^ 50 := le_refl _
    apply hueShift_whole c hc hg (1 / 3) (fl (1 / 3)) ⟨by linarith [f.2], by linarith [f.1]⟩ f.1 f.2 _ _ _ hc.2.2 hc.1 hc.2.1
    rintro h ⟨h1, h2, h3⟩
    refine ⟨?_, h1, ?_⟩
    · rw [← h3]
      have := ramp_add_int (h - 1 / 3) 1
      rw [← this]
      congr 3
      push_cast; ring
    · rw [add_sub_cancel_right]; exact h2

/-- A shift by two thirds moves every channel to the one before. -/
theorem hueShift_two_thirds (c : Color) (hc : c.Valid) :
    c.hueShift fl (fl (2 / 3)) = .ok { r := lossy c.g, g := lossy c.b, b := lossy c.r, isBg := c.isBg } := by
  by_cases hg : c.IsGrey
  · rw [C49_grey_float c hc hg, hg.2.symm, hg.1.symm]
  · have f := fle' (x := 2 / 3) (by norm_num) (by norm_num)
    have es : eps ≤ 1 / 2 ^ 50 := le_refl _
    apply hueShift_whole c hc hg (2 / 3) (fl (2 / 3)) ⟨by linarith [f.2], by linarith [f.1]⟩ f.1 f.2 _ _ _ hc.2.1 hc.2.2 hc.1
    rintro h ⟨h1, h2, h3⟩
    refine ⟨?_, ?_, ?_⟩
    · rw [← h2]
      have := ramp_add_int h 1
      rw [← this]
      congr 3
      push_cast; ring
    · rw [← h3]
      have := ramp_add_int (h - 1 / 3) 1
      rw [← this]
      congr 3
      push_cast; ring
    · rw [← h1]
      congr 3
      ring

/-- A shift by a half mirrors every channel in the range of the channels. -/
theorem hueShift_half (c : Color) (hc : c.Valid) (hg : ¬ c.IsGrey) :
    c.hueShift fl (1 / 2) = .ok c.mirror := by
  have e0 := eps_pos
  have ht := top_le hc
  have cast : ∀ x : ℕ, x ≤ c.top → c.bottom ≤ x → c.top + c.bottom - x ≤ 255 ∧
      ((c.top + c.bottom - x : ℕ) : ℚ) / 256 = (c.top : ℚ) / 256 + (c.bottom : ℚ) / 256 - (x : ℚ) / 256 := by
    intro x h1 h2
    refine ⟨by omega, ?_⟩
    rw [Nat.cast_sub (by omega)]
    push_cast
    ring
  have cr := cast c.r (by unfold Color.top; omega) (by unfold Color.bottom; omega)
  have cg := cast c.g (by unfold Color.top; omega) (by unfold Color.bottom; omega)
  have cb := cast c.b (by unfold Color.top; omega) (by unfold Color.bottom; omega)
  apply hueShift_whole c hc hg (1 / 2) (1 / 2) ⟨by norm_num, by norm_num⟩ (by linarith) (by linarith) _ _ _ cr.1 cg.1 cb.1
  rintro h ⟨h1, h2, h3⟩
  rw [cr.2, cg.2, cb.2, ← h1, ← h2, ← h3]
  have e1 : h + 1 / 2 + 1 / 3 = h + 1 / 3 + 1 / 2 := by ring
  have e2 : h + 1 / 2 - 1 / 3 = h - 1 / 3 + 1 / 2 := by ring
  rw [e1, e2, ramp_half, ramp_half, ramp_half]
  refine ⟨by ring, by ring, by ring⟩

/-! ## C77 -/

theorem hls_zero_of_red (c : Color) (hc : c.Valid) (h : c.g = c.b ∧ c.b < c.r) : (c.hls fl).1 = 0 := by
  have hlt : (c.b : ℚ) / 256 < (c.r : ℚ) / 256 := by
    have : (c.b : ℚ) < c.r := by exact_mod_cast h.2
    linarith
  unfold Color.hls
  rw [fl_chan hc.1, fl_chan hc.2.1, fl_chan hc.2.2, h.1]
  unfold rgbToHls
  simp only [max_eq_left hlt.le, min_eq_right hlt.le, min_self]
  rw [if_neg hlt.ne]
  simp only [if_true, sub_self, fl_zero]
  unfold mod1
  have : truncate (0 : ℚ) = 0 := by
    have := truncate_intCast 0
    rwa [Int.cast_zero] at this
  simp [this]

theorem hls_nonzero (c : Color) (hc : c.Valid) (hg : ¬ c.IsGrey) (h : ¬ (c.g = c.b ∧ c.b < c.r)) : (c.hls fl).1 ≠ 0 := by
  have hlt := not_grey hg
  obtain ⟨⟨t0, t1, k0, a1, a2⟩, -, -⟩ := hls_fl hc.1 hc.2.1 hc.2.2 hlt
  have eh : (c.hls fl) = rgbToHls fl ((c.r : ℚ) / 256) (c.g / 256) (c.b / 256) := by
    unfold Color.hls
    rw [fl_chan hc.1, fl_chan hc.2.1, fl_chan hc.2.2]
  rw [← eh] at t0 t1 a1 a2
  rw [top_cast, bottom_cast] at a1 a2 hlt
  intro hz
  rw [hz] at a1 a2
  set d := (c.top : ℚ) / 256 - (c.bottom : ℚ) / 256 with hd
  have es : eps ≤ 1 / 2 ^ 50 := le_refl _
  have hd0 : 0 < d := by linarith
  have ht := top_le hc
  have hd1 : d ≤ 255 / 256 := by
    have : (c.top : ℚ) ≤ 255 := by exact_mod_cast ht
    have : (0 : ℚ) ≤ c.bottom := Nat.cast_nonneg _
    rw [hd]; linarith
  -- a quotient of two channels' difference by the range
  have quot : ∀ x y : ℕ, x ≤ c.top → c.bottom ≤ x → y ≤ c.top → c.bottom ≤ y →
      -(1 / 6) ≤ ((x : ℚ) / 256 - (y : ℚ) / 256) / (6 * d) ∧ ((x : ℚ) / 256 - (y : ℚ) / 256) / (6 * d) ≤ 1 / 6 := by
    intro x y h1 h2 h3 h4
    apply delta_bound hd0
    have h1 : (x : ℚ) ≤ c.top := by exact_mod_cast h1
    have h2 : (c.bottom : ℚ) ≤ x := by exact_mod_cast h2
    have h3 : (y : ℚ) ≤ c.top := by exact_mod_cast h3
    have h4 : (c.bottom : ℚ) ≤ y := by exact_mod_cast h4
    rw [abs_le, hd]
    constructor <;> linarith
  have tops : c.r ≤ c.top ∧ c.g ≤ c.top ∧ c.b ≤ c.top ∧ c.bottom ≤ c.r ∧ c.bottom ≤ c.g ∧ c.bottom ≤ c.b := by
    unfold Color.top Color.bottom; omega
  obtain ⟨r1, g1, b1, r2, g2, b2⟩ := tops
  -- no integer is close to the hue
  have far : ∀ q : ℚ, 1 / 2 ^ 40 < q → q < 1 - 1 / 2 ^ 40 → 0 - (q + (k0 : ℚ)) ≤ 8 * eps → (q + (k0 : ℚ)) - 0 ≤ 8 * eps → False := by
    intro q q0 q1 e1 e2
    have u1 : (k0 : ℚ) < 0 := by linarith
    have u2 : (-1 : ℚ) < k0 := by linarith
    have u1 : k0 < 0 := by exact_mod_cast u1
    have u2 : -1 < k0 := by exact_mod_cast u2
    omega
  unfold hue0 at a1 a2
  by_cases hr : (c.r : ℚ) / 256 = (c.top : ℚ) / 256
  · rw [if_pos hr] at a1 a2
    have hr' : c.r = c.top := by
      have : (c.r : ℚ) = c.top := by linarith
      exact_mod_cast this
    have hgb : c.g ≠ c.b := by
      intro e
      apply h
      refine ⟨e, ?_⟩
      rcases Nat.lt_or_ge c.b c.r with hl | hl
      · exact hl
      · exfalso; apply hg
        have : c.b = c.r := by omega
        exact ⟨by omega, e⟩
    obtain ⟨q1, q2⟩ := quot c.g c.b g1 g2 b1 b2
    have big : ∀ x y : ℕ, y < x → 1 / 2 ^ 40 < ((x : ℚ) / 256 - (y : ℚ) / 256) / (6 * d) := by
      intro x y hxy
      have : (y : ℚ) + 1 ≤ x := by exact_mod_cast hxy
      rw [lt_div_iff₀ (by linarith)]
      have : (1 : ℚ) / 2 ^ 40 * (6 * d) ≤ 1 / 2 ^ 40 * 6 := by linarith
      have e : (1 : ℚ) / 2 ^ 40 * 6 < 1 / 256 := by norm_num
      linarith
    rcases Nat.lt_or_gt_of_ne hgb with hl | hl
    · have := big _ _ hl
      have e : ((c.b : ℚ) / 256 - (c.g : ℚ) / 256) / (6 * d) = -(((c.g : ℚ) / 256 - (c.b : ℚ) / 256) / (6 * d)) := by ring
      rw [e] at this
      set q := ((c.g : ℚ) / 256 - (c.b : ℚ) / 256) / (6 * d)
      have u1 : (k0 : ℚ) < 1 := by linarith
      have u2 : (0 : ℚ) < k0 := by linarith
      have u1 : k0 < 1 := by exact_mod_cast u1
      have u2 : 0 < k0 := by exact_mod_cast u2
      omega
    · exact far _ (big _ _ hl) (by linarith) a1 a2
  · rw [if_neg hr] at a1 a2
    split at a1
    · rename_i hgt
      rw [if_pos hgt] at a2
      obtain ⟨q1, q2⟩ := quot c.b c.r b1 b2 r1 r2
      exact far _ (by linarith) (by linarith) a1 a2
    · rename_i hgt
      rw [if_neg hgt] at a2
      obtain ⟨q1, q2⟩ := quot c.r c.g r1 r2 g1 g2
      exact far _ (by linarith) (by linarith) a1 a2

/-- C77, the part that holds: the complement of every colour that is neither a grey nor a pure red tone is its mirror: each
channel `x` becomes largest plus smallest channel minus `x` (up to the loss of the normalisation), in the same role. -/
theorem C77_mirror_partial (c : Color) (hc : c.Valid) (hg : ¬ c.IsGrey) (h : ¬ (c.g = c.b ∧ c.b < c.r)) :
    c.complement fl = .ok c.mirror := by
  unfold Color.complement
  rw [if_neg (hls_nonzero c hc hg h)]
  exact hueShift_half c hc hg

example : (¬ Color.IsGrey { r := 200, g := 100, b := 50, isBg := true }) ∧
    Color.complement fl { r := 200, g := 100, b := 50, isBg := true } = .ok { r := 49, g := 149, b := 199, isBg := true } :=
  ⟨by unfold Color.IsGrey; decide, by decide +kernel⟩

theorem hls_lightness_red (c : Color) (hc : c.Valid) (h : c.g = c.b ∧ c.b < c.r) : (c.hls fl).2.1 ≠ 0 := by
  have hg : ¬ c.IsGrey := by
    rintro ⟨h1, h2⟩
    omega
  obtain ⟨-, hl, -⟩ := hls_fl hc.1 hc.2.1 hc.2.2 (not_grey hg)
  unfold Color.hls
  rw [fl_chan hc.1, fl_chan hc.2.1, fl_chan hc.2.2, hl, top_cast, bottom_cast]
  have : 0 < c.top := by unfold Color.top; omega
  have : (0 : ℚ) < c.top := by exact_mod_cast this
  have : (0 : ℚ) ≤ c.bottom := Nat.cast_nonneg _
  positivity

/-- C77 fails: the complement of every pure red tone is black, as a foreground colour. -/
theorem C77_red_violated (c : Color) (hc : c.Valid) (h : c.g = c.b ∧ c.b < c.r) :
    c.complement fl = .ok { r := 0, g := 0, b := 0, isBg := false } := by
  unfold Color.complement
  rw [if_pos (hls_zero_of_red c hc h), if_neg (hls_lightness_red c hc h)]
  rfl

/-- C77: the complement of black is white, and the complement of every other grey is black; in the role of a
foreground. -/
theorem C77_grey (c : Color) (hc : c.Valid) (h : c.IsGrey) :
    c.complement fl = .ok (if c.r = 0 then Color.white else Color.black) := by
  have hh : c.hls fl = (0, (c.r : ℚ) / 256, 0) := by
    unfold Color.hls rgbToHls
    rw [← h.2, ← h.1, fl_chan hc.1]
    simp only [max_self, min_self, if_true]
    have e : (c.r : ℚ) / 256 + (c.r : ℚ) / 256 = ((2 * c.r : ℤ) : ℚ) / 256 := by push_cast; ring
    have hr := hc.1
    rw [e, fl_256 (by rw [abs_of_nonneg (by positivity)]; omega)]
    have e2 : ((2 * c.r : ℤ) : ℚ) / 256 / 2 = (c.r : ℚ) / 256 := by push_cast; ring
    rw [e2, fl_chan hc.1]
  unfold Color.complement
  rw [hh, if_pos rfl]
  simp only
  by_cases h0 : c.r = 0
  · rw [if_pos h0, if_pos (by rw [h0]; simp)]
    rfl
  · rw [if_neg h0, if_neg (by
      have : (0 : ℚ) < c.r := by exact_mod_cast Nat.pos_of_ne_zero h0
      positivity)]
    rfl

example : Color.complement fl { r := 255, g := 0, b := 0 } = .ok { r := 0, g := 0, b := 0 } ∧
    Color.complement fl { r := 0, g := 0, b := 0 } = .ok Color.white ∧
    Color.complement fl { r := 255, g := 255, b := 255 } = .ok Color.black := by decide +kernel

/-- C77: blending with the complement keeps the role and stays between the two. -/
theorem C77_blend_complement (c d e : Color) (hc : c.Valid) (hd : c.complement fl = .ok d) (α : ℚ) (h0 : 0 ≤ α)
    (h1 : α ≤ 1) (he : c.blendComplement α = .ok e) :
    Between c.r d.r e.r ∧ Between c.g d.g e.g ∧ Between c.b d.b e.b ∧ e.isBg = c.isBg := by
  unfold Color.blendComplement at he
  rw [hd, ok_bind'] at he
  obtain ⟨e1, -⟩ := C39_result c d e α none he
  obtain ⟨d', hd', hv⟩ := C38_complement c hc
  rw [hd] at hd'
  cases hd'
  obtain ⟨b1, b2, b3⟩ := C39_between c d hc hv α h0 h1 none
  subst e1
  exact ⟨b1, b2, b3, rfl⟩

example : Color.blendComplement { r := 200, g := 100, b := 50, isBg := true } (1 / 2) =
    .ok { r := 124, g := 124, b := 124, isBg := true } := by decide +kernel

/-! ## C78 -/

/-- C78: the triadic group consists of the colour and its two cyclic permutations (up to the loss of the
normalisation), in the same role. -/
theorem C78_triadic (c : Color) (hc : c.Valid) :
    c.triadic fl = .ok (c, { r := lossy c.b, g := lossy c.r, b := lossy c.g, isBg := c.isBg },
      { r := lossy c.g, g := lossy c.b, b := lossy c.r, isBg := c.isBg }) := by
  unfold Color.triadic
  rw [hueShift_third c hc, hueShift_two_thirds c hc]
  rfl

/-- C78: the analogous group starts with the colour; all members are valid, have the role of the colour, and its largest
and smallest channel (up to the loss). -/
theorem C78_analogous (c : Color) (hc : c.Valid) : ∃ d e, c.analogous fl = .ok (c, d, e) ∧
    (d.top = lossy c.top ∧ d.bottom = lossy c.bottom ∧ d.isBg = c.isBg) ∧
    (e.top = lossy c.top ∧ e.bottom = lossy c.bottom ∧ e.isBg = c.isBg) := by
  obtain ⟨d, h1, h2⟩ := C76_lightness c hc (fl (1 / 12))
  obtain ⟨e, h3, h4⟩ := C76_lightness c hc (fl (2 / 12))
  refine ⟨d, e, ?_, h2, h4⟩
  unfold Color.analogous
  rw [h1, h3]
  rfl

/-- C78, the part that holds: the tetradic group of every colour that is neither a grey nor a pure red tone consists of the
colour, two members a quarter away and its mirror, all in the same role. -/
theorem C78_tetradic_partial (c : Color) (hc : c.Valid) (hg : ¬ c.IsGrey) (h : ¬ (c.g = c.b ∧ c.b < c.r)) :
    ∃ d f, c.tetradic fl = .ok (c, d, c.mirror, f) ∧
      (d.top = lossy c.top ∧ d.bottom = lossy c.bottom ∧ d.isBg = c.isBg) ∧
      (f.top = lossy c.top ∧ f.bottom = lossy c.bottom ∧ f.isBg = c.isBg) := by
  obtain ⟨d, h1, h2⟩ := C76_lightness c hc (fl (1 / 4))
  obtain ⟨f, h3, h4⟩ := C76_lightness c hc (fl (3 / 4))
  have h5 := C77_mirror_partial c hc hg h
  refine ⟨d, f, ?_, h2, h4⟩
  unfold Color.tetradic
  rw [h1, h3, h5]
  rfl

/-- C78 fails for red tones: the third member of the tetradic group is a black foreground, whatever the role and the
lightness of the colour. -/
theorem C78_tetradic_violated (c : Color) (hc : c.Valid) (h : c.g = c.b ∧ c.b < c.r) :
    ∃ d f, c.tetradic fl = .ok (c, d, { r := 0, g := 0, b := 0, isBg := false }, f) := by
  obtain ⟨d, h1, -⟩ := C76_lightness c hc (fl (1 / 4))
  obtain ⟨f, h3, -⟩ := C76_lightness c hc (fl (3 / 4))
  refine ⟨d, f, ?_⟩
  unfold Color.tetradic
  rw [h1, h3, C77_red_violated c hc h]
  rfl

example : Color.tetradic fl { r := 200, g := 100, b := 100, isBg := true } =
    .ok ({ r := 200, g := 100, b := 100, isBg := true }, { r := 149, g := 199, b := 99, isBg := true },
      { r := 0, g := 0, b := 0 }, { r := 149, g := 99, b := 199, isBg := true }) ∧
    Color.triadic fl { r := 10, g := 20, b := 30 } = .ok ({ r := 10, g := 20, b := 30 }, { r := 29, g := 9, b := 19 },
      { r := 19, g := 29, b := 9 }) := by decide +kernel

end Slate
