import Verif.Lemmas.Hls
import Verif.Props.Blend

/-!
# Hue shifting in exact arithmetic (C49)
-/

namespace Slate
open Py Hls

/-- The channels of a colour shifted in hue by `a`, exactly: the middle one follows
the trapezoid between the smallest and the largest channel. -/
theorem hlsToRgb_shift {r g b : ℚ} (hr : 0 ≤ r ∧ r ≤ 1) (hg : 0 ≤ g ∧ g ≤ 1) (hb : 0 ≤ b ∧ b ≤ 1)
    (hlt : min (min r g) b < max (max r g) b) (a : ℚ) :
    let mx := max (max r g) b
    let m := min (min r g) b
    let h := hue0 r g b mx (mx - m)
    let t := rgbToHls id r g b
    hlsToRgb id (mod1 id (t.1 + a)) t.2.1 t.2.2 =
      (m + (mx - m) * ramp (h + a + 1 / 3), m + (mx - m) * ramp (h + a),
        m + (mx - m) * ramp (h + a - 1 / 3)) := by
  intro mx m h t
  have hr1 : r ≤ mx := (le_max_left _ _).trans (le_max_left _ _)
  have hm0 : 0 ≤ m := le_min (le_min hr.1 hg.1) hb.1
  have hmx1 : mx ≤ 1 := max_le (max_le hr.2 hg.2) hb.2
  have hne : m ≠ mx := ne_of_lt hlt
  have hlt' : m < mx := hlt
  have hd : mx - m ≠ 0 := by intro e; exact hne (by linarith)
  -- the hue, up to an integer
  have hh : ∃ k : ℤ, t.1 = h + k := by
    have hx : t.1 = Int.fract h := by
      have e1 : t.1 = mod1 id ((if r = mx then (mx - b) / (mx - m) - (mx - g) / (mx - m)
          else if g = mx then 2 + (mx - r) / (mx - m) - (mx - b) / (mx - m)
          else 4 + (mx - g) / (mx - m) - (mx - r) / (mx - m)) / 6) := by
        simp only [t, rgbToHls, id]
        rw [if_neg hne]
      rw [e1, mod1_id]
      congr 1
      simp only [h, hue0]
      split
      · field_simp; ring
      split
      · field_simp; ring
      · field_simp; ring
    refine ⟨-⌊h⌋, ?_⟩
    rw [hx, Int.fract]; push_cast; ring
  obtain ⟨k, hk⟩ := hh
  have hl : t.2.1 = (mx + m) / 2 := by
    simp only [t, rgbToHls, id]
    rw [if_neg hne]
  have hs : t.2.2 = if (mx + m) / 2 ≤ 1 / 2 then (mx - m) / (mx + m) else (mx - m) / (2 - mx - m) := by
    simp only [t, rgbToHls, id]
    rw [if_neg hne]
  have hs0 : t.2.2 ≠ 0 := by
    rw [hs]
    split
    · exact (div_pos (by linarith) (by linarith)).ne'
    · exact (div_pos (by linarith) (by linarith)).ne'
  have hm2 : (if t.2.1 ≤ 1 / 2 then t.2.1 * (1 + t.2.2) else t.2.1 + t.2.2 - t.2.1 * t.2.2) = mx := by
    rw [hl, hs]
    split
    · have : mx + m ≠ 0 := by intro e; linarith
      field_simp; ring
    · have : 2 - mx - m ≠ 0 := by intro e; linarith
      field_simp; ring
  unfold hlsToRgb
  rw [if_neg hs0]
  simp only [id, hm2]
  rw [v_id, v_id, v_id, mod1_id, hl]
  have e : (2 * ((mx + m) / 2) - mx) = m := by ring
  have ef : Int.fract (t.1 + a) = h + a + ((k - ⌊t.1 + a⌋ : ℤ) : ℚ) := by
    rw [Int.fract]; push_cast; rw [hk]; ring
  rw [e, ef]
  have e1 : h + a + ((k - ⌊t.1 + a⌋ : ℤ) : ℚ) + 1 / 3 = h + a + 1 / 3 + ((k - ⌊t.1 + a⌋ : ℤ) : ℚ) := by ring
  have e2 : h + a + ((k - ⌊t.1 + a⌋ : ℤ) : ℚ) - 1 / 3 = h + a - 1 / 3 + ((k - ⌊t.1 + a⌋ : ℤ) : ℚ) := by ring
  rw [e1, e2, ramp_add_int, ramp_add_int, ramp_add_int]

/-- A channel after normalisation to 256 steps and back to 255: one less, if positive. -/
def lossy (k : Nat) : Nat := k - 1

theorem truncate_lossy (k : Nat) (h : k ≤ 255) : truncate (255 * ((k : ℚ) / 256)) = (lossy k : Int) := by
  have h0 : (0 : ℚ) ≤ k := Nat.cast_nonneg _
  have h1 : (k : ℚ) ≤ 255 := by exact_mod_cast h
  rw [truncate_of_nonneg (by positivity), Int.floor_eq_iff]
  unfold lossy
  rcases Nat.eq_zero_or_pos k with rfl | hk
  · norm_num
  · have : (1 : ℚ) ≤ k := by exact_mod_cast hk
    have e : (((k - 1 : Nat) : Int) : ℚ) = (k : ℚ) - 1 := by
      rw [Int.cast_natCast, Nat.cast_sub hk]; simp
    rw [e]
    constructor <;> linarith

theorem chan_unit {k : Nat} (h : k ≤ 255) : 0 ≤ (k : ℚ) / 256 ∧ (k : ℚ) / 256 ≤ 1 := by
  have h0 : (0 : ℚ) ≤ k := Nat.cast_nonneg _
  have h1 : (k : ℚ) ≤ 255 := by exact_mod_cast h
  constructor
  · positivity
  · rw [div_le_one (by norm_num)]; linarith

/-- A colour all of whose channels are equal. -/
def Color.IsGrey (c : Color) : Prop := c.r = c.g ∧ c.g = c.b

theorem hls_grey {c : Color} (h : c.IsGrey) : c.hls id = (0, (c.r : ℚ) / 256, 0) := by
  unfold Color.hls rgbToHls
  simp only [id]
  rw [← h.2, ← h.1]
  simp only [max_self, min_self, if_true]
  have : ((c.r : ℚ) / 256 + (c.r : ℚ) / 256) / 2 = (c.r : ℚ) / 256 := by ring
  rw [this]

/-- The colours that are no greys have a positive range. -/
theorem not_grey {c : Color} (h : ¬ c.IsGrey) :
    min (min ((c.r : ℚ) / 256) (c.g / 256)) (c.b / 256) <
      max (max ((c.r : ℚ) / 256) (c.g / 256)) (c.b / 256) := by
  by_contra hle
  rw [not_lt] at hle
  have r1 : (c.r : ℚ) / 256 ≤ max (max ((c.r : ℚ) / 256) (c.g / 256)) (c.b / 256) :=
    (le_max_left _ _).trans (le_max_left _ _)
  have g1 : (c.g : ℚ) / 256 ≤ max (max ((c.r : ℚ) / 256) (c.g / 256)) (c.b / 256) :=
    (le_max_right _ _).trans (le_max_left _ _)
  have b1 : (c.b : ℚ) / 256 ≤ max (max ((c.r : ℚ) / 256) (c.g / 256)) (c.b / 256) := le_max_right _ _
  have r2 : min (min ((c.r : ℚ) / 256) (c.g / 256)) (c.b / 256) ≤ (c.r : ℚ) / 256 :=
    (min_le_left _ _).trans (min_le_left _ _)
  have g2 : min (min ((c.r : ℚ) / 256) (c.g / 256)) (c.b / 256) ≤ (c.g : ℚ) / 256 :=
    (min_le_left _ _).trans (min_le_right _ _)
  have b2 : min (min ((c.r : ℚ) / 256) (c.g / 256)) (c.b / 256) ≤ (c.b : ℚ) / 256 := min_le_right _ _
  have e1 : (c.r : ℚ) = c.g := by linarith
  have e2 : (c.g : ℚ) = c.b := by linarith
  exact h ⟨by exact_mod_cast e1, by exact_mod_cast e2⟩

theorem mk_lossy {c : Color} (hc : c.Valid) (bg : Bool) :
    Color.make (truncate (255 * ((c.r : ℚ) / 256)), truncate (255 * ((c.g : ℚ) / 256)),
      truncate (255 * ((c.b : ℚ) / 256))) bg = .ok { r := lossy c.r, g := lossy c.g, b := lossy c.b, isBg := bg } := by
  rw [truncate_lossy _ hc.1, truncate_lossy _ hc.2.1, truncate_lossy _ hc.2.2]
  obtain ⟨h1, h2, h3⟩ := hc
  rw [make_valid (by unfold lossy; simp only; omega) (by unfold lossy; simp only; omega)
    (by unfold lossy; simp only; omega)]
  rfl

/-- C49: shifting a grey by any amount keeps every channel up to the loss of the
normalisation, and the role. -/
theorem C49_grey (c : Color) (hc : c.Valid) (h : c.IsGrey) (a : ℚ) :
    c.hueShift id a = .ok { r := lossy c.r, g := lossy c.g, b := lossy c.b, isBg := c.isBg } := by
  unfold Color.hueShift
  rw [hls_grey h]
  unfold hlsToRgb
  simp only [if_true, id]
  have := mk_lossy hc c.isBg
  rw [← h.2, ← h.1] at this ⊢
  exact this

/-- C49: shifting any colour by an integer keeps every channel up to the loss of the
normalisation, and the role. -/
theorem C49_integer (c : Color) (hc : c.Valid) (n : ℤ) :
    c.hueShift id n = .ok { r := lossy c.r, g := lossy c.g, b := lossy c.b, isBg := c.isBg } := by
  by_cases hg : c.IsGrey
  · exact C49_grey c hc hg n
  · have hlt := not_grey hg
    have h := hlsToRgb_shift (chan_unit hc.1) (chan_unit hc.2.1) (chan_unit hc.2.2) hlt n
    have hr := ramp_channels (r := (c.r : ℚ) / 256) (g := (c.g : ℚ) / 256) (b := (c.b : ℚ) / 256)
      (fun x hx m hm => by rw [hx, hm]; exact hlt)
    simp only at h hr
    have e1 : ∀ x : ℚ, x + (n : ℚ) + 1 / 3 = x + 1 / 3 + (n : ℚ) := fun x => by ring
    have e2 : ∀ x : ℚ, x + (n : ℚ) - 1 / 3 = x - 1 / 3 + (n : ℚ) := fun x => by ring
    rw [e1, e2, ramp_add_int, ramp_add_int, ramp_add_int, hr.1, hr.2.1, hr.2.2] at h
    unfold Color.hueShift Color.hls
    simp only [id] at h ⊢
    rw [h]
    exact mk_lossy hc c.isBg

/-- C49: the shift depends on the amount modulo 1 only. -/
theorem C49_periodic (c : Color) (a : ℚ) (n : ℤ) : c.hueShift id (a + n) = c.hueShift id a := by
  unfold Color.hueShift
  simp only [id]
  have : mod1 id ((c.hls id).1 + (a + n)) = mod1 id ((c.hls id).1 + a) := by
    rw [mod1_id, mod1_id, ← add_assoc, Int.fract_add_intCast]
  rw [this]

theorem truncate_255 {x : ℚ} (h0 : 0 ≤ x) (h1 : x ≤ 1) :
    0 ≤ truncate (255 * x) ∧ truncate (255 * x) ≤ 255 := by
  have e : truncate ((255 : ℤ) : ℚ) = 255 := truncate_intCast 255
  have := truncate_mono (x := 255 * x) (y := ((255 : ℤ) : ℚ)) (by push_cast; linarith)
  refine ⟨truncate_nonneg (by linarith), by omega⟩

theorem mix_unit {m mx t : ℚ} (h0 : 0 ≤ m) (h1 : m ≤ mx) (h2 : mx ≤ 1) (t0 : 0 ≤ t) (t1 : t ≤ 1) :
    0 ≤ m + (mx - m) * t ∧ m + (mx - m) * t ≤ 1 := by
  have a : 0 ≤ (mx - m) * t := mul_nonneg (by linarith) t0
  have b : (mx - m) * t ≤ (mx - m) * 1 := mul_le_mul_of_nonneg_left t1 (by linarith)
  constructor <;> linarith

/-- C49 (and C38, in exact arithmetic): a hue shift by any amount raises nothing and
gives a valid colour of the same role. -/
theorem C49_valid (c : Color) (hc : c.Valid) (a : ℚ) :
    ∃ d, c.hueShift id a = .ok d ∧ d.Valid ∧ d.isBg = c.isBg := by
  by_cases hg : c.IsGrey
  · refine ⟨_, C49_grey c hc hg a, ?_, rfl⟩
    obtain ⟨h1, h2, h3⟩ := hc
    unfold Color.Valid lossy
    simp only
    omega
  · have hlt := not_grey hg
    have h := hlsToRgb_shift (chan_unit hc.1) (chan_unit hc.2.1) (chan_unit hc.2.2) hlt a
    simp only at h
    have m0 : 0 ≤ min (min ((c.r : ℚ) / 256) (c.g / 256)) (c.b / 256) :=
      le_min (le_min (chan_unit hc.1).1 (chan_unit hc.2.1).1) (chan_unit hc.2.2).1
    have m1 : max (max ((c.r : ℚ) / 256) (c.g / 256)) (c.b / 256) ≤ 1 :=
      max_le (max_le (chan_unit hc.1).2 (chan_unit hc.2.1).2) (chan_unit hc.2.2).2
    have key : ∀ x, 0 ≤ truncate (255 * (_ + (_ - _) * ramp x)) ∧ _ := fun x =>
      truncate_255 (mix_unit m0 hlt.le m1 (hat_nonneg (Int.fract x)) (hat_le_one _)).1
        (mix_unit m0 hlt.le m1 (hat_nonneg (Int.fract x)) (hat_le_one _)).2
    unfold Color.hueShift Color.hls
    simp only [id] at h ⊢
    rw [h]
    rw [make_valid (key _) (key _) (key _)]
    refine ⟨_, rfl, ?_, rfl⟩
    have k1 := key (hue0 ((c.r : ℚ) / 256) (c.g / 256) (c.b / 256) (max (max ((c.r : ℚ) / 256) (c.g / 256)) (c.b / 256))
      (max (max ((c.r : ℚ) / 256) (c.g / 256)) (c.b / 256) - min (min ((c.r : ℚ) / 256) (c.g / 256)) (c.b / 256)) + a + 1 / 3)
    have k2 := key (hue0 ((c.r : ℚ) / 256) (c.g / 256) (c.b / 256) (max (max ((c.r : ℚ) / 256) (c.g / 256)) (c.b / 256))
      (max (max ((c.r : ℚ) / 256) (c.g / 256)) (c.b / 256) - min (min ((c.r : ℚ) / 256) (c.g / 256)) (c.b / 256)) + a)
    have k3 := key (hue0 ((c.r : ℚ) / 256) (c.g / 256) (c.b / 256) (max (max ((c.r : ℚ) / 256) (c.g / 256)) (c.b / 256))
      (max (max ((c.r : ℚ) / 256) (c.g / 256)) (c.b / 256) - min (min ((c.r : ℚ) / 256) (c.g / 256)) (c.b / 256)) + a - 1 / 3)
    unfold Color.Valid
    simp only
    omega

example : Color.hueShift id { r := 200, g := 100, b := 50, isBg := true } (1 / 3) =
    .ok { r := 49, g := 199, b := 99, isBg := true } := by decide +kernel

end Slate
