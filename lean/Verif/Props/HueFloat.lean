import Verif.Lemmas.HlsFl

/-!
# Hue shifting in binary64 arithmetic (C38, C49)
-/

namespace Slate
open Py Hls

theorem fl_256 {n : ℤ} (h : |n| ≤ 2 ^ 53) : fl ((n : ℚ) / 256) = (n : ℚ) / 256 := by
  have := fl_dyadic n 8 h (by norm_num)
  norm_num at this
  exact this

theorem fl_512 {n : ℤ} (h : |n| ≤ 2 ^ 53) : fl ((n : ℚ) / 512) = (n : ℚ) / 512 := by
  have := fl_dyadic n 9 h (by norm_num)
  norm_num at this
  exact this

theorem fl_div_close {x d : ℚ} (h0 : 0 ≤ x) (h1 : x ≤ d) (hd : 0 < d) :
    (fl (x / d) - x / d ≤ eps ∧ x / d - fl (x / d) ≤ eps) ∧ 0 ≤ x / d ∧ x / d ≤ 1 := by
  have a : 0 ≤ x / d := div_nonneg h0 hd.le
  have b : x / d ≤ 1 := (div_le_one hd).mpr h1
  exact ⟨fle' (by linarith) (by linarith), a, b⟩

/-- Hue, lightness and saturation as computed in binary64, against the exact ones. -/
theorem hls_fl {i j k : ℕ} (hi : i ≤ 255) (hj : j ≤ 255) (hk : k ≤ 255)
    (hlt : min (min ((i : ℚ) / 256) (j / 256)) (k / 256) < max (max ((i : ℚ) / 256) (j / 256)) (k / 256)) :
    let r := (i : ℚ) / 256
    let g := (j : ℚ) / 256
    let b := (k : ℚ) / 256
    let mx := max (max r g) b
    let m := min (min r g) b
    let t := rgbToHls fl r g b
    (0 ≤ t.1 ∧ t.1 ≤ 1 ∧ ∃ n : ℤ, t.1 - (hue0 r g b mx (mx - m) + n) ≤ 8 * eps ∧
        (hue0 r g b mx (mx - m) + n) - t.1 ≤ 8 * eps) ∧
      t.2.1 = (mx + m) / 2 ∧
      t.2.2 = (if (mx + m) / 2 ≤ 1 / 2 then fl ((mx - m) / (mx + m)) else fl ((mx - m) / (2 - mx - m))) := by
  intro r g b mx m t
  have hr1 : r ≤ mx := (le_max_left _ _).trans (le_max_left _ _)
  have hg1 : g ≤ mx := (le_max_right _ _).trans (le_max_left _ _)
  have hb1 : b ≤ mx := le_max_right _ _
  have hr2 : m ≤ r := (min_le_left _ _).trans (min_le_left _ _)
  have hg2 : m ≤ g := (min_le_left _ _).trans (min_le_right _ _)
  have hb2 : m ≤ b := min_le_right _ _
  have hne : m ≠ mx := ne_of_lt hlt
  have hd : 0 < mx - m := by have : m < mx := hlt; linarith
  obtain ⟨A, hA, eA⟩ : ∃ A : ℕ, A ≤ 255 ∧ mx = (A : ℚ) / 256 := by
    simp only [mx]
    rcases max_choice (max r g) b with e | e
    · rcases max_choice r g with e' | e'
      · exact ⟨i, hi, by rw [e, e']⟩
      · exact ⟨j, hj, by rw [e, e']⟩
    · exact ⟨k, hk, e⟩
  obtain ⟨B, hB, eB⟩ : ∃ B : ℕ, B ≤ 255 ∧ m = (B : ℚ) / 256 := by
    simp only [m]
    rcases min_choice (min r g) b with e | e
    · rcases min_choice r g with e' | e'
      · exact ⟨i, hi, by rw [e, e']⟩
      · exact ⟨j, hj, by rw [e, e']⟩
    · exact ⟨k, hk, e⟩
  have hsum : fl (mx + m) = mx + m := by
    have := fl_256 (n := (A + B : ℤ)) (by rw [abs_of_nonneg (by positivity)]; omega)
    push_cast at this
    rw [eA, eB, ← add_div]; exact this
  have hdiff : ∀ (n : ℕ), n ≤ 255 → fl (mx - (n : ℚ) / 256) = mx - (n : ℚ) / 256 := by
    intro n hn
    have := fl_256 (n := (A - n : ℤ)) (by rw [abs_le]; omega)
    push_cast at this
    rw [eA, ← sub_div]; exact this
  have hrange : fl (mx - m) = mx - m := by rw [eB]; exact hdiff B hB
  have hl : fl ((mx + m) / 2) = (mx + m) / 2 := by
    have := fl_512 (n := (A + B : ℤ)) (by rw [abs_of_nonneg (by positivity)]; omega)
    push_cast at this
    have e : (mx + m) / 2 = ((A : ℚ) + B) / 512 := by rw [eA, eB]; ring
    rw [e]; exact this
  have h2 : fl (2 - mx) = 2 - mx := by
    have := fl_256 (n := (512 - A : ℤ)) (by rw [abs_le]; omega)
    push_cast at this
    have e : 2 - mx = (512 - (A : ℚ)) / 256 := by rw [eA]; ring
    rw [e]; exact this
  have h2' : fl (2 - mx - m) = 2 - mx - m := by
    have := fl_256 (n := (512 - A - B : ℤ)) (by rw [abs_le]; omega)
    push_cast at this
    have e : 2 - mx - m = (512 - (A : ℚ) - B) / 256 := by rw [eA, eB]; ring
    rw [e]; exact this
  have hr3 : fl (mx - r) = mx - r := hdiff i hi
  have hg3 : fl (mx - g) = mx - g := hdiff j hj
  have hb3 : fl (mx - b) = mx - b := hdiff k hk
  refine ⟨?_, ?_, ?_⟩
  · -- the hue
    obtain ⟨⟨c1, c2⟩, p1, p2⟩ := fl_div_close (x := mx - r) (d := mx - m) (by linarith) (by linarith) hd
    obtain ⟨⟨d1, d2⟩, q1, q2⟩ := fl_div_close (x := mx - g) (d := mx - m) (by linarith) (by linarith) hd
    obtain ⟨⟨e1, e2⟩, s1, s2⟩ := fl_div_close (x := mx - b) (d := mx - m) (by linarith) (by linarith) hd
    have e0 := eps_pos
    have es : eps ≤ 1 / 1000 := by unfold eps; norm_num
    set rc := fl ((mx - r) / (mx - m)) with hrc
    set gc := fl ((mx - g) / (mx - m)) with hgc
    set bc := fl ((mx - b) / (mx - m)) with hbc
    set h : ℚ := if r = mx then fl (bc - gc) else if g = mx then fl (fl (2 + rc) - bc)
      else fl (fl (4 + gc) - rc) with hh
    have ht1 : t.1 = mod1 fl (fl (h / 6)) := by
      simp only [t, rgbToHls]
      rw [if_neg (show ¬ min (min r g) b = max (max r g) b from hne)]
      change mod1 fl (fl ((if r = mx then fl (fl (fl (mx - b) / fl (mx - m)) - fl (fl (mx - g) / fl (mx - m)))
        else if g = mx then fl (fl (2 + fl (fl (mx - r) / fl (mx - m))) - fl (fl (mx - b) / fl (mx - m)))
        else fl (fl (4 + fl (fl (mx - g) / fl (mx - m))) - fl (fl (mx - r) / fl (mx - m)))) / 6)) = _
      rw [hr3, hg3, hb3, hrange]
    have hclose : (h - 6 * hue0 r g b mx (mx - m) ≤ 4 * eps ∧ 6 * hue0 r g b mx (mx - m) - h ≤ 4 * eps) ∧
        -2 ≤ 6 * hue0 r g b mx (mx - m) ∧ 6 * hue0 r g b mx (mx - m) ≤ 6 := by
      rw [hh]
      unfold hue0
      split
      · have e : 6 * ((g - b) / (6 * (mx - m))) = (mx - b) / (mx - m) - (mx - g) / (mx - m) := by
          have := hd.ne'; field_simp; ring
        rw [e]
        have f := fle' (x := bc - gc) (by linarith) (by linarith)
        exact ⟨⟨by linarith [f.1], by linarith [f.2]⟩, by linarith, by linarith⟩
      split
      · have e : 6 * (1 / 3 + (b - r) / (6 * (mx - m))) = 2 + (mx - r) / (mx - m) - (mx - b) / (mx - m) := by
          have := hd.ne'; field_simp; ring
        rw [e]
        have f := fle' (x := 2 + rc) (by linarith) (by linarith)
        have f' := fle' (x := fl (2 + rc) - bc) (by linarith [f.2]) (by linarith [f.1])
        exact ⟨⟨by linarith [f.1, f'.1], by linarith [f.2, f'.2]⟩, by linarith, by linarith⟩
      · have e : 6 * (2 / 3 + (r - g) / (6 * (mx - m))) = 4 + (mx - g) / (mx - m) - (mx - r) / (mx - m) := by
          have := hd.ne'; field_simp; ring
        rw [e]
        have f := fle' (x := 4 + gc) (by linarith) (by linarith)
        have f' := fle' (x := fl (4 + gc) - rc) (by linarith [f.2]) (by linarith [f.1])
        exact ⟨⟨by linarith [f.1, f'.1], by linarith [f.2, f'.2]⟩, by linarith, by linarith⟩
    obtain ⟨⟨n1, n2⟩, n3, n4⟩ := hclose
    have f := fle' (x := h / 6) (by linarith) (by linarith)
    obtain ⟨⟨m1, m2⟩, n, m3, m4⟩ := mod1_fl (fl (h / 6))
    rw [ht1]
    exact ⟨m1, m2, n, by linarith [f.1], by linarith [f.2]⟩
  · simp only [t, rgbToHls]
    rw [if_neg (show ¬ min (min r g) b = max (max r g) b from hne)]
    change fl (fl (mx + m) / 2) = _
    rw [hsum, hl]
  · simp only [t, rgbToHls]
    rw [if_neg (show ¬ min (min r g) b = max (max r g) b from hne)]
    change (if fl (fl (mx + m) / 2) ≤ 1 / 2 then fl (fl (mx - m) / fl (mx + m))
      else fl (fl (mx - m) / fl (fl (2 - mx) - m))) = _
    rw [hsum, hl, hrange, h2, h2']

/-- The two channel levels `hls_to_rgb` interpolates between. -/
theorem levels_fl {m mx s : ℚ} (h0 : 0 ≤ m) (h1 : m + 1 / 256 ≤ mx) (h2 : mx ≤ 1)
    (h2' : m ≤ 255 / 256)
    (hs : s = if (mx + m) / 2 ≤ 1 / 2 then fl ((mx - m) / (mx + m)) else fl ((mx - m) / (2 - mx - m))) :
    s ≠ 0 ∧
    ∃ M1 M2 : ℚ, M2 = (if (mx + m) / 2 ≤ 1 / 2 then fl ((mx + m) / 2 * fl (1 + s))
        else fl (fl ((mx + m) / 2 + s) - fl ((mx + m) / 2 * s))) ∧
      M1 = fl (fl (2 * ((mx + m) / 2)) - M2) ∧
      (M1 - m ≤ 16 * eps ∧ m - M1 ≤ 16 * eps) ∧ (M2 - mx ≤ 8 * eps ∧ mx - M2 ≤ 8 * eps) := by
  have e0 := eps_pos
  have es : eps ≤ 1 / 1000 := by unfold eps; norm_num
  set l := (mx + m) / 2 with hl
  -- the exact saturation
  obtain ⟨s0, hs0, hs1, hs2, hM⟩ : ∃ s0 : ℚ, s = fl s0 ∧ 1 / 512 ≤ s0 ∧ s0 ≤ 1 ∧
      (if l ≤ 1 / 2 then l * (1 + s0) else l + s0 - l * s0) = mx := by
    rw [hs]
    split
    · rename_i h
      have hp : 0 < mx + m := by linarith
      refine ⟨(mx - m) / (mx + m), rfl, ?_, ?_, ?_⟩
      · rw [le_div_iff₀ hp]; linarith
      · rw [div_le_one hp]; linarith
      · rw [hl]; field_simp; ring
    · rename_i h
      have hp : 0 < 2 - mx - m := by linarith
      refine ⟨(mx - m) / (2 - mx - m), rfl, ?_, ?_, ?_⟩
      · rw [le_div_iff₀ hp]; linarith
      · rw [div_le_one hp]; linarith
      · rw [hl]; field_simp; ring
  have fs := fle' (x := s0) (by linarith) (by linarith)
  rw [← hs0] at fs
  refine ⟨?_, _, _, rfl, rfl, ?_⟩
  · intro e
    have : (1 : ℚ) / 512 ≤ eps := by linarith [fs.1, fs.2]
    linarith
  have hlu : 0 ≤ l ∧ l ≤ 1 := ⟨by rw [hl]; linarith, by rw [hl]; linarith⟩
  have hls := mul_bound (a := s - s0) (b := l) (B := eps) ⟨by linarith [fs.2], by linarith [fs.1]⟩ hlu
  have key : (if l ≤ 1 / 2 then fl (l * fl (1 + s)) else fl (fl (l + s) - fl (l * s))) - mx ≤ 8 * eps ∧
      mx - (if l ≤ 1 / 2 then fl (l * fl (1 + s)) else fl (fl (l + s) - fl (l * s))) ≤ 8 * eps := by
    rw [← hM]
    split
    · have f := fle' (x := 1 + s) (by linarith [fs.2]) (by linarith [fs.1])
      have g := mul_bound (a := fl (1 + s) - (1 + s)) (b := l) (B := eps) ⟨by linarith [f.2], by linarith [f.1]⟩ hlu
      have p0 : 0 ≤ l * (1 + s0) := mul_nonneg hlu.1 (by linarith)
      have p1 : l * (1 + s0) ≤ 1 * 2 := mul_le_mul hlu.2 (by linarith) (by linarith) (by norm_num)
      have ex : l * fl (1 + s) = l * (1 + s0) + (fl (1 + s) - (1 + s)) * l + (s - s0) * l := by ring
      have k := fle' (x := l * fl (1 + s)) (by linarith [g.1, hls.1]) (by linarith [g.2, hls.2])
      constructor
      · linarith [k.1, g.2, hls.2]
      · linarith [k.2, g.1, hls.1]
    · have f := fle' (x := l + s) (by linarith [fs.2, hlu.1]) (by linarith [fs.1, hlu.2])
      have p0 : 0 ≤ l * s0 := mul_nonneg hlu.1 (by linarith)
      have p1 : l * s0 ≤ 1 * 1 := mul_le_mul hlu.2 (by linarith) (by linarith) (by norm_num)
      have ex : l * s = l * s0 + (s - s0) * l := by ring
      have g := fle' (x := l * s) (by linarith [hls.1]) (by linarith [hls.2])
      have k := fle' (x := fl (l + s) - fl (l * s))
        (by linarith [f.2, g.1, fs.2, hls.2, hlu.1]) (by linarith [f.1, g.2, fs.1, hls.1, hlu.2])
      constructor
      · linarith [k.1, f.1, g.2, fs.1, hls.1]
      · linarith [k.2, f.2, g.1, fs.2, hls.2]
  refine ⟨?_, key⟩
  set M2 := (if l ≤ 1 / 2 then fl (l * fl (1 + s)) else fl (fl (l + s) - fl (l * s)))
  have f := fle' (x := 2 * l) (by linarith [hlu.1]) (by linarith [hlu.2])
  have g := fle' (x := fl (2 * l) - M2) (by linarith [f.2, key.1, hlu.1]) (by linarith [f.1, key.2, hlu.2])
  have e : 2 * l = mx + m := by rw [hl]; ring
  constructor
  · linarith [f.1, g.1, key.2]
  · linarith [f.2, g.2, key.1]

/-- A channel computed in binary64 against the exact interpolation. -/
theorem channel_fl {m mx M1 M2 : ℚ} (h0 : 0 ≤ m) (h1 : m ≤ mx) (h2 : mx ≤ 255 / 256)
    (a : M1 - m ≤ 16 * eps ∧ m - M1 ≤ 16 * eps) (b : M2 - mx ≤ 8 * eps ∧ mx - M2 ≤ 8 * eps) (x : ℚ) :
    v fl M1 M2 x - (m + (mx - m) * hat (mod1 fl x)) ≤ 200 * eps ∧
      (m + (mx - m) * hat (mod1 fl x)) - v fl M1 M2 x ≤ 200 * eps := by
  have e0 := eps_pos
  have es : eps ≤ 1 / 1000 := by unfold eps; norm_num
  have hv := v_fl (m1 := M1) (m2 := M2) x ⟨by linarith [a.2], by linarith [a.1]⟩
    ⟨by linarith [b.2], by linarith [b.1]⟩
  have t0 := hat_nonneg (mod1 fl x)
  have t1 := hat_le_one (mod1 fl x)
  set t := hat (mod1 fl x)
  have p := mul_bound (a := M1 - m) (b := 1 - t) (B := 16 * eps) ⟨by linarith [a.2], by linarith [a.1]⟩
    ⟨by linarith, by linarith⟩
  have q := mul_bound (a := M2 - mx) (b := t) (B := 8 * eps) ⟨by linarith [b.2], by linarith [b.1]⟩ ⟨t0, t1⟩
  have ex : M1 + (M2 - M1) * t = m + (mx - m) * t + (M1 - m) * (1 - t) + (M2 - mx) * t := by ring
  rw [ex] at hv
  constructor
  · linarith [hv.1, p.2, q.2]
  · linarith [hv.2, p.1, q.1]

/-- The channels of a shifted colour before scaling: each is within `200 eps` of an
interpolation between the smallest and the largest channel. -/
theorem hlsToRgb_fl {i j k : ℕ} (hi : i ≤ 255) (hj : j ≤ 255) (hk : k ≤ 255)
    (hlt : min (min ((i : ℚ) / 256) (j / 256)) (k / 256) < max (max ((i : ℚ) / 256) (j / 256)) (k / 256))
    (H : ℚ) :
    let mx := max (max ((i : ℚ) / 256) (j / 256)) (k / 256)
    let m := min (min ((i : ℚ) / 256) (j / 256)) (k / 256)
    let t := rgbToHls fl ((i : ℚ) / 256) (j / 256) (k / 256)
    let w := hlsToRgb fl H t.2.1 t.2.2
    let x1 := mod1 fl (fl (H + fl (1 / 3)))
    let x2 := mod1 fl H
    let x3 := mod1 fl (fl (H - fl (1 / 3)))
    (0 ≤ m ∧ m ≤ mx ∧ mx ≤ 255 / 256) ∧
    (w.1 - (m + (mx - m) * hat x1) ≤ 200 * eps ∧ (m + (mx - m) * hat x1) - w.1 ≤ 200 * eps) ∧
    (w.2.1 - (m + (mx - m) * hat x2) ≤ 200 * eps ∧ (m + (mx - m) * hat x2) - w.2.1 ≤ 200 * eps) ∧
    (w.2.2 - (m + (mx - m) * hat x3) ≤ 200 * eps ∧ (m + (mx - m) * hat x3) - w.2.2 ≤ 200 * eps) := by
  intro mx m t w x1 x2 x3
  obtain ⟨-, hl, hs⟩ := hls_fl hi hj hk hlt
  have bnd : ∀ n : ℕ, n ≤ 255 → 0 ≤ (n : ℚ) / 256 ∧ (n : ℚ) / 256 ≤ 255 / 256 := by
    intro n hn
    have : (n : ℚ) ≤ 255 := by exact_mod_cast hn
    exact ⟨by positivity, by linarith⟩
  have hm0 : 0 ≤ m := le_min (le_min (bnd i hi).1 (bnd j hj).1) (bnd k hk).1
  have hmx : mx ≤ 255 / 256 := max_le (max_le (bnd i hi).2 (bnd j hj).2) (bnd k hk).2
  have hstep : m + 1 / 256 ≤ mx := by
    obtain ⟨A, eA⟩ : ∃ A : ℕ, mx = (A : ℚ) / 256 := by
      simp only [mx]
      rcases max_choice (max ((i : ℚ) / 256) (j / 256)) (k / 256) with e | e
      · rcases max_choice ((i : ℚ) / 256) (j / 256) with e' | e'
        · exact ⟨i, by rw [e, e']⟩
        · exact ⟨j, by rw [e, e']⟩
      · exact ⟨k, e⟩
    obtain ⟨B, eB⟩ : ∃ B : ℕ, m = (B : ℚ) / 256 := by
      simp only [m]
      rcases min_choice (min ((i : ℚ) / 256) (j / 256)) (k / 256) with e | e
      · rcases min_choice ((i : ℚ) / 256) (j / 256) with e' | e'
        · exact ⟨i, by rw [e, e']⟩
        · exact ⟨j, by rw [e, e']⟩
      · exact ⟨k, e⟩
    have hlt' : m < mx := hlt
    rw [eA, eB] at hlt' ⊢
    have : (B : ℚ) < A := by linarith
    have : B < A := by exact_mod_cast this
    have : (B : ℚ) + 1 ≤ A := by exact_mod_cast this
    linarith
  obtain ⟨hs0, M1, M2, e2, e1, c1, c2⟩ := levels_fl hm0 hstep (by linarith) (by linarith) hs
  have hw : w = (v fl M1 M2 (fl (H + fl (1 / 3))), v fl M1 M2 H, v fl M1 M2 (fl (H - fl (1 / 3)))) := by
    simp only [w, hlsToRgb]
    rw [if_neg hs0, hl]
    change (v fl (fl (fl (2 * ((mx + m) / 2)) - _)) _ _, v fl (fl (fl (2 * ((mx + m) / 2)) - _)) _ _, v fl (fl (fl (2 * ((mx + m) / 2)) - _)) _ _) = _
    rw [e1, e2]
  rw [hw]
  exact ⟨⟨hm0, by linarith, hmx⟩, channel_fl hm0 (by linarith) hmx c1 c2 _,
    channel_fl hm0 (by linarith) hmx c1 c2 _, channel_fl hm0 (by linarith) hmx c1 c2 _⟩

theorem eps_255 : 255 * (200 * eps) ≤ 1 / 4096 := by unfold eps; norm_num

theorem fle255 {x : ℚ} (h1 : -256 < x) (h2 : x < 256) : fl x - x ≤ 1 / 4096 ∧ x - fl x ≤ 1 / 4096 := by
  have h := fl_err (x := x) (k := 8) (by norm_num) (by norm_num; exact abs_lt.mpr ⟨h1, h2⟩)
  have e : (2 : ℚ) ^ ((8 : ℤ) - 54) ≤ 1 / 4096 := by norm_num
  have := abs_le.mp (h.trans e)
  constructor <;> linarith [this.1, this.2]

theorem truncate_range {x : ℚ} (h0 : -1 < x) (h1 : x < 256) : 0 ≤ truncate x ∧ truncate x ≤ 255 := by
  constructor
  · rcases le_or_gt 0 x with h | h
    · exact truncate_nonneg h
    · have e : truncate x = -⌊-x⌋ := by
        have := truncate_neg (-x)
        rw [neg_neg, truncate_of_nonneg (by linarith : 0 ≤ -x)] at this
        exact this
      have : ⌊-x⌋ = 0 := by rw [Int.floor_eq_iff]; constructor <;> push_cast <;> linarith
      omega
  · rcases le_or_gt 0 x with h | h
    · rw [truncate_of_nonneg h]
      have : ⌊x⌋ < 256 := by rw [Int.floor_lt]; push_cast; linarith
      omega
    · have := truncate_mono h.le
      have e : truncate (0 : ℚ) = 0 := by
        have := truncate_intCast 0
        rwa [Int.cast_zero] at this
      omega

/-- A channel close to an interpolation is a channel value after scaling. -/
theorem scaled_range {m mx y t : ℚ} (h : 0 ≤ m ∧ m ≤ mx ∧ mx ≤ 255 / 256) (t0 : 0 ≤ t) (t1 : t ≤ 1)
    (hy : y - (m + (mx - m) * t) ≤ 200 * eps ∧ (m + (mx - m) * t) - y ≤ 200 * eps) :
    0 ≤ truncate (fl (255 * y)) ∧ truncate (fl (255 * y)) ≤ 255 := by
  have a : 0 ≤ (mx - m) * t := mul_nonneg (by linarith [h.2.1]) t0
  have b : (mx - m) * t ≤ (mx - m) * 1 := mul_le_mul_of_nonneg_left t1 (by linarith [h.2.1])
  have e := eps_255
  have lo : -(1 / 4096) ≤ 255 * y := by linarith [hy.2, h.1]
  have hi : 255 * y ≤ 255 * (255 / 256) + 1 / 4096 := by linarith [hy.1, h.2.2]
  have f := fle255 (x := 255 * y) (by linarith) (by linarith)
  exact truncate_range (by linarith [f.2]) (by linarith [f.1])

theorem fl_chan {k : ℕ} (h : k ≤ 255) : fl ((k : ℚ) / 256) = (k : ℚ) / 256 := by
  have := fl_256 (n := (k : ℤ)) (by rw [abs_of_nonneg (by positivity)]; omega)
  rwa [Int.cast_natCast] at this

theorem make_in_range {x y z : ℤ} (hx : 0 ≤ x ∧ x ≤ 255) (hy : 0 ≤ y ∧ y ≤ 255) (hz : 0 ≤ z ∧ z ≤ 255)
    (bg : Bool) : ∃ d, Color.make (x, y, z) bg = .ok d ∧ d.Valid ∧ d.isBg = bg := by
  rw [make_valid hx hy hz]
  refine ⟨_, rfl, ?_, rfl⟩
  unfold Color.Valid
  simp only
  omega

/-- In binary64 a grey keeps its lightness: the shift amount does not matter. -/
theorem C49_grey_float (c : Color) (hc : c.Valid) (h : c.IsGrey) (a : ℚ) :
    c.hueShift fl a = .ok { r := lossy c.r, g := lossy c.g, b := lossy c.b, isBg := c.isBg } := by
  have hh : c.hls fl = (0, (c.r : ℚ) / 256, 0) := by
    unfold Color.hls rgbToHls
    rw [← h.2, ← h.1, fl_chan hc.1]
    simp only [max_self, min_self, if_true]
    have e : (c.r : ℚ) / 256 + (c.r : ℚ) / 256 = ((2 * c.r : ℤ) : ℚ) / 256 := by push_cast; ring
    have hr := hc.1
    rw [e, fl_256 (by rw [abs_of_nonneg (by positivity)]; omega)]
    have e2 : ((2 * c.r : ℤ) : ℚ) / 256 / 2 = (c.r : ℚ) / 256 := by push_cast; ring
    rw [e2, fl_chan hc.1]
  have e3 : fl (255 * ((c.r : ℚ) / 256)) = 255 * ((c.r : ℚ) / 256) := by
    have e : 255 * ((c.r : ℚ) / 256) = ((255 * c.r : ℤ) : ℚ) / 256 := by push_cast; ring
    have hr := hc.1
    rw [e, fl_256 (by rw [abs_of_nonneg (by positivity)]; omega)]
  unfold Color.hueShift
  rw [hh]
  unfold hlsToRgb
  simp only [if_true, e3]
  have := mk_lossy hc c.isBg
  rw [← h.2, ← h.1] at this ⊢
  exact this

/-- C38, C49: in binary64 arithmetic a hue shift by any (finite) amount raises nothing
and gives a valid colour of the same role. -/
theorem C49_valid_float (c : Color) (hc : c.Valid) (a : ℚ) :
    ∃ d, c.hueShift fl a = .ok d ∧ d.Valid ∧ d.isBg = c.isBg := by
  by_cases hg : c.IsGrey
  · refine ⟨_, C49_grey_float c hc hg a, ?_, rfl⟩
    obtain ⟨h1, h2, h3⟩ := hc
    unfold Color.Valid lossy
    simp only
    omega
  · have hlt := not_grey hg
    unfold Color.hueShift Color.hls
    rw [fl_chan hc.1, fl_chan hc.2.1, fl_chan hc.2.2]
    obtain ⟨hb, h1, h2, h3⟩ := hlsToRgb_fl hc.1 hc.2.1 hc.2.2 hlt
      (mod1 fl (fl ((rgbToHls fl ((c.r : ℚ) / 256) (c.g / 256) (c.b / 256)).1 + a)))
    have k1 := scaled_range hb (hat_nonneg _) (hat_le_one _) h1
    have k2 := scaled_range hb (hat_nonneg _) (hat_le_one _) h2
    have k3 := scaled_range hb (hat_nonneg _) (hat_le_one _) h3
    exact make_in_range k1 k2 k3 _

/-- A value close to `k / 256` scales to the channel `k` up to the normalisation loss. -/
theorem truncate_close {k : ℕ} {y : ℚ} (hk : k ≤ 255) (h1 : y - (k : ℚ) / 256 ≤ 1 / 2 ^ 20)
    (h2 : (k : ℚ) / 256 - y ≤ 1 / 2 ^ 20) : truncate (fl (255 * y)) = (lossy k : Int) := by
  have hk' : (k : ℚ) ≤ 255 := by exact_mod_cast hk
  have hk0 : (0 : ℚ) ≤ k := Nat.cast_nonneg _
  have f := fle255 (x := 255 * y) (by linarith) (by linarith)
  unfold lossy
  rcases Nat.eq_zero_or_pos k with rfl | hp
  · norm_num at h1 h2
    have hlo : -1 < fl (255 * y) := by linarith [f.2]
    have hhi : fl (255 * y) < 1 := by linarith [f.1]
    have a := (truncate_range hlo (by linarith)).1
    have b : truncate (fl (255 * y)) < 1 := by
      rcases le_or_gt 0 (fl (255 * y)) with h | h
      · rw [truncate_of_nonneg h, Int.floor_lt]; push_cast; exact hhi
      · have := truncate_mono h.le
        have e : truncate (0 : ℚ) = 0 := by
          have := truncate_intCast 0
          rwa [Int.cast_zero] at this
        omega
    norm_num
    omega
  · have hp' : (1 : ℚ) ≤ k := by exact_mod_cast hp
    have e : (((k - 1 : Nat) : Int) : ℚ) = (k : ℚ) - 1 := by
      rw [Int.cast_natCast, Nat.cast_sub hp]; simp
    have lo : (k : ℚ) - 1 ≤ fl (255 * y) := by linarith [f.2]
    have hi : fl (255 * y) < k := by linarith [f.1]
    rw [truncate_of_nonneg (by linarith), Int.floor_eq_iff, e]
    constructor <;> linarith

/-- C49 in binary64: shifting any colour by an integer of at most 20 bits keeps every
channel up to the loss of the normalisation, and the role. -/
theorem C49_integer_float (c : Color) (hc : c.Valid) (n : ℤ) (hn : |n| ≤ 2 ^ 20) :
    c.hueShift fl n = .ok { r := lossy c.r, g := lossy c.g, b := lossy c.b, isBg := c.isBg } := by
  by_cases hg : c.IsGrey
  · exact C49_grey_float c hc hg n
  · have hlt := not_grey hg
    have hn' : (-(2 ^ 20) : ℚ) ≤ n ∧ (n : ℚ) ≤ 2 ^ 20 := by
      have := abs_le.mp hn
      constructor
      · have := this.1; exact_mod_cast this
      · have := this.2; exact_mod_cast this
    unfold Color.hueShift Color.hls
    rw [fl_chan hc.1, fl_chan hc.2.1, fl_chan hc.2.2]
    obtain ⟨⟨t0, t1, k0, a1, a2⟩, -, -⟩ := hls_fl hc.1 hc.2.1 hc.2.2 hlt
    obtain ⟨hb, w1, w2, w3⟩ := hlsToRgb_fl hc.1 hc.2.1 hc.2.2 hlt
      (mod1 fl (fl ((rgbToHls fl ((c.r : ℚ) / 256) (c.g / 256) (c.b / 256)).1 + n)))
    have hr := ramp_channels (r := (c.r : ℚ) / 256) (g := (c.g : ℚ) / 256) (b := (c.b : ℚ) / 256)
      (fun x hx m hm => by rw [hx, hm]; exact hlt)
    simp only at hr
    simp only
    set mx := max (max ((c.r : ℚ) / 256) (c.g / 256)) (c.b / 256)
    set m := min (min ((c.r : ℚ) / 256) (c.g / 256)) (c.b / 256)
    set t := rgbToHls fl ((c.r : ℚ) / 256) (c.g / 256) (c.b / 256)
    set h := hue0 ((c.r : ℚ) / 256) (c.g / 256) (c.b / 256) mx (mx - m)
    have e0 := eps_pos
    have es : eps ≤ 1 / 2 ^ 50 := le_refl _
    have f1 := fl_err (x := t.1 + n) (k := 21) (by norm_num) (by
      norm_num
      exact abs_lt.mpr ⟨by linarith [hn'.1], by linarith [hn'.2]⟩)
    have f2 : (2 : ℚ) ^ ((21 : ℤ) - 54) ≤ 1 / 2 ^ 33 := by norm_num
    have f3 := abs_le.mp (f1.trans f2)
    obtain ⟨⟨H0, H1⟩, k1, b1, b2⟩ := mod1_fl (fl (t.1 + n))
    set H := mod1 fl (fl (t.1 + n))
    have c1 : H - (h + (k0 + n + k1 : ℤ)) ≤ 1 / 2 ^ 32 := by push_cast; linarith [f3.2]
    have c2 : (h + (k0 + n + k1 : ℤ)) - H ≤ 1 / 2 ^ 32 := by push_cast; linarith [f3.1]
    set K : ℤ := k0 + n + k1
    have third := fle' (x := 1 / 3) (by norm_num) (by norm_num)
    -- the channel at a computed hue close to `h + q`
    have chan : ∀ (x q y : ℚ) (k : ℕ) (kk : ℤ), k ≤ 255 → 0 ≤ x → x ≤ 1 → x - (h + q + kk) ≤ 1 / 2 ^ 31 →
        (h + q + kk) - x ≤ 1 / 2 ^ 31 → m + (mx - m) * ramp (h + q) = (k : ℚ) / 256 →
        (y - (m + (mx - m) * hat x) ≤ 200 * eps ∧ (m + (mx - m) * hat x) - y ≤ 200 * eps) →
        truncate (fl (255 * y)) = (lossy k : Int) := by
      intro x q y k kk hk x0 x1 d1 d2 hrk hy
      obtain ⟨p1, p2⟩ := hat_ramp x0 x1 kk (by norm_num) d1 d2
      have mm := mul_bound (a := hat x - ramp (h + q)) (b := mx - m) (B := 6 * (1 / 2 ^ 31))
        ⟨by linarith, by linarith⟩ ⟨by linarith [hb.2.1], by linarith [hb.1, hb.2.2]⟩
      have ex : (hat x - ramp (h + q)) * (mx - m) = (mx - m) * hat x - (mx - m) * ramp (h + q) := by ring
      rw [ex] at mm
      have he : 200 * eps ≤ 1 / 2 ^ 40 := by unfold eps; norm_num
      apply truncate_close hk
      · linarith [hy.1, mm.2]
      · linarith [hy.2, mm.1]
    obtain ⟨⟨u0, u1⟩, j1, u2, u3⟩ := mod1_fl (fl (H + fl (1 / 3)))
    obtain ⟨⟨v0, v1⟩, j2, v2, v3⟩ := mod1_fl H
    obtain ⟨⟨z0, z1⟩, j3, z2, z3⟩ := mod1_fl (fl (H - fl (1 / 3)))
    have g1 := fle' (x := H + fl (1 / 3)) (by linarith [third.2]) (by linarith [third.1])
    have g3 := fle' (x := H - fl (1 / 3)) (by linarith [third.1]) (by linarith [third.2])
    have r1 := chan _ (1 / 3) _ c.r (K + j1) hc.1 u0 u1 (by push_cast at c1 c2 ⊢; linarith [g1.1, third.1])
      (by push_cast at c1 c2 ⊢; linarith [g1.2, third.2]) hr.1 w1
    have r2 := chan _ 0 _ c.g (K + j2) hc.2.1 v0 v1 (by push_cast at c1 c2 ⊢; linarith)
      (by push_cast at c1 c2 ⊢; linarith) (by rw [add_zero]; exact hr.2.1) w2
    have r3 := chan _ (-(1 / 3)) _ c.b (K + j3) hc.2.2 z0 z1 (by push_cast at c1 c2 ⊢; linarith [g3.1, third.2])
      (by push_cast at c1 c2 ⊢; linarith [g3.2, third.1]) (by rw [← sub_eq_add_neg]; exact hr.2.2) w3
    rw [r1, r2, r3]
    obtain ⟨h1, h2, h3⟩ := hc
    rw [make_valid (by unfold lossy; simp only; omega) (by unfold lossy; simp only; omega)
      (by unfold lossy; simp only; omega)]
    rfl

/-- C38: the complement of a valid colour always exists and is valid. -/
theorem C38_complement (c : Color) (hc : c.Valid) : ∃ d, c.complement fl = .ok d ∧ d.Valid := by
  unfold Color.complement
  split
  · split
    · obtain ⟨d, h1, h2, -⟩ := make_in_range (x := 255) (y := 255) (z := 255) (by omega) (by omega) (by omega) false
      exact ⟨d, h1, h2⟩
    · obtain ⟨d, h1, h2, -⟩ := make_in_range (x := 0) (y := 0) (z := 0) (by omega) (by omega) (by omega) false
      exact ⟨d, h1, h2⟩
  · obtain ⟨d, h1, h2, -⟩ := C49_valid_float c hc (1 / 2)
    exact ⟨d, h1, h2⟩

/-- The role survives a complement unless the hue is 0; then it is lost. -/
theorem complement_role (c d : Color) (hc : c.Valid) (h : (c.hls fl).1 ≠ 0) (hd : c.complement fl = .ok d) :
    d.isBg = c.isBg := by
  unfold Color.complement at hd
  rw [if_neg h] at hd
  obtain ⟨e, h1, -, h3⟩ := C49_valid_float c hc (1 / 2)
  rw [h1] at hd
  cases hd
  exact h3

theorem complement_role_violated :
    Color.complement fl { r := 200, g := 0, b := 0, isBg := true } = .ok { r := 0, g := 0, b := 0, isBg := false } := by
  decide +kernel

example : Color.hueShift fl { r := 200, g := 100, b := 50, isBg := true } (fl (3 / 10)) =
    .ok { r := 49, g := 199, b := 69, isBg := true } := by decide +kernel

end Slate
