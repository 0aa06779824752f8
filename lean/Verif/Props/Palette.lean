import Verif.Props.Codes

/-!
# 16-colour and 256-colour terminals (C42, C43)
-/

namespace Slate
open Py Term

/-! ## C42 -/

/-- The square of the weighted ("redmean") distance of two colours. -/
def wdist (p q : Nat × Nat × Nat) : ℚ :=
  let rm : ℚ := ((p.1 + q.1) / 2 : Nat)
  (2 + rm / 256) * ((p.1 : ℚ) - q.1) ^ 2 + 4 * ((p.2.1 : ℚ) - q.2.1) ^ 2 +
    (2 + (255 - rm) / 256) * ((p.2.2 : ℚ) - q.2.2) ^ 2

theorem wdist_eq (p q : Nat × Nat × Nat) : wdist p q = (Color.geoKey p q : ℚ) / 256 := by
  unfold wdist Color.geoKey
  generalize (p.1 + q.1) / 2 = m
  simp only [Int.cast_add, Int.cast_mul, Int.cast_sub, Int.cast_pow, Int.cast_natCast, Int.cast_ofNat]
  ring

theorem argminGo_le (key : Nat → Int) (is : List Nat) (best : Nat) :
    key (Color.argminGo key is best) ≤ key best ∧
      ∀ i ∈ is, key (Color.argminGo key is best) ≤ key i := by
  induction is generalizing best with
  | nil => exact ⟨le_refl _, by simp⟩
  | cons i is ih =>
    unfold Color.argminGo
    split
    · rename_i h
      obtain ⟨h1, h2⟩ := ih i
      refine ⟨by omega, ?_⟩
      intro j hj
      rcases List.mem_cons.mp hj with rfl | hj
      · exact h1
      · exact h2 j hj
    · rename_i h
      obtain ⟨h1, h2⟩ := ih best
      refine ⟨h1, ?_⟩
      intro j hj
      rcases List.mem_cons.mp hj with rfl | hj
      · omega
      · exact h2 j hj

theorem nearestStd_min (rgb : Nat × Nat × Nat) (i : Nat) (hi : i < 16) :
    wdist rgb (palette (Color.nearestStd rgb)) ≤ wdist rgb (palette i) := by
  rw [wdist_eq, wdist_eq]
  have h := argminGo_le (fun i => Color.geoKey rgb (colorTable.getD i (0, 0, 0))) (List.range' 1 15) 0
  have : Color.geoKey rgb (palette (Color.nearestStd rgb)) ≤ Color.geoKey rgb (palette i) := by
    by_cases h0 : i = 0
    · subst h0; exact h.1
    · exact h.2 i (List.mem_range'_1.mpr (by omega))
  have : (Color.geoKey rgb (palette (Color.nearestStd rgb)) : ℚ) ≤ Color.geoKey rgb (palette i) := by
    exact_mod_cast this
  linarith

/-- The search keeps the first of several equally good indices. -/
theorem argminGo_first (key : Nat → Int) (is : List Nat) (best : Nat)
    (hp : (best :: is).Pairwise (· < ·)) :
    ∀ i ∈ best :: is, i < Color.argminGo key is best → key (Color.argminGo key is best) < key i := by
  induction is generalizing best with
  | nil =>
    intro i hi h
    rw [List.mem_singleton] at hi
    subst hi
    exact absurd h (lt_irrefl _)
  | cons j is ih =>
    rw [List.pairwise_cons] at hp
    obtain ⟨hb, hp⟩ := hp
    unfold Color.argminGo
    split
    · rename_i h
      intro i hi hlt
      rcases List.mem_cons.mp hi with rfl | hi
      · have := (argminGo_le key is j).1
        omega
      · exact ih j hp i hi hlt
    · rename_i h
      have hp' : (best :: is).Pairwise (· < ·) :=
        List.pairwise_cons.mpr ⟨fun a ha => hb a (by simp [ha]), (List.pairwise_cons.mp hp).2⟩
      intro i hi hlt
      rcases List.mem_cons.mp hi with rfl | hi
      · exact ih _ hp' _ (by simp) hlt
      · rcases List.mem_cons.mp hi with rfl | hi
        · have h1 := hb i (by simp)
          have := ih best hp' best (by simp) (by omega)
          omega
        · exact ih _ hp' _ (by simp [hi]) hlt

theorem nearestStd_first (rgb : Nat × Nat × Nat) (i : Nat) (hi : i < Color.nearestStd rgb) :
    wdist rgb (palette (Color.nearestStd rgb)) < wdist rgb (palette i) := by
  rw [wdist_eq, wdist_eq]
  have hlt := nearestStd_lt rgb
  have h := argminGo_first (fun i => Color.geoKey rgb (colorTable.getD i (0, 0, 0)))
    (List.range' 1 15) 0 (by decide) i
    (by
      by_cases h0 : i = 0
      · subst h0; simp
      · exact List.mem_cons_of_mem _ (List.mem_range'_1.mpr (by omega))) hi
  have : (Color.geoKey rgb (palette (Color.nearestStd rgb)) : ℚ) < Color.geoKey rgb (palette i) := by
    exact_mod_cast h
  linarith

theorem wdist_self (p : Nat × Nat × Nat) : wdist p p = 0 := by unfold wdist; ring

theorem wdist_nonneg (p q : Nat × Nat × Nat) (hp : p.1 ≤ 255) (hq : q.1 ≤ 255) : 0 ≤ wdist p q := by
  rw [wdist_eq]
  have : (0 : Int) ≤ Color.geoKey p q := by
    unfold Color.geoKey
    have h : ((p.1 + q.1) / 2 : Nat) ≤ 255 := by omega
    have e : (((p.1 : Int) + q.1) / 2) = (((p.1 + q.1) / 2 : Nat) : Int) := by push_cast; rfl
    simp only
    have a1 := sq_nonneg ((p.1 : Int) - q.1)
    have a2 := sq_nonneg ((p.2.1 : Int) - q.2.1)
    have a3 := sq_nonneg ((p.2.2 : Int) - q.2.2)
    have b1 : (0 : Int) ≤ 512 + (((p.1 + q.1) / 2 : Nat) : Int) := by omega
    have b2 : (0 : Int) ≤ 512 + (255 - (((p.1 + q.1) / 2 : Nat) : Int)) := by omega
    have := mul_nonneg b1 a1
    have := mul_nonneg b2 a3
    linarith
  have : (0 : ℚ) ≤ Color.geoKey p q := by exact_mod_cast this
  positivity

/-- The codes of the 16 colours in the two roles. -/
def StdCode (isBg : Bool) (k : Nat) : Prop :=
  if isBg then (40 ≤ k ∧ k ≤ 47) ∨ (100 ≤ k ∧ k ≤ 107) else (30 ≤ k ∧ k ≤ 37) ∨ (90 ≤ k ∧ k ≤ 97)

/-- The code of `c` is a 16-colour code meaning a nearest of the 16 palette entries (the
first one if there are several), in the role of `c`. -/
def NearestStd (env : Color.Env) (c : Color) : Prop :=
  ∃ k n, c.ansi env = dec k ∧ StdCode c.isBg k ∧ n < 16 ∧
    (∀ a, sgr [k] a = paint c.isBg (.idx n) a) ∧
    (∀ i < 16, wdist (c.r, c.g, c.b) (palette n) ≤ wdist (c.r, c.g, c.b) (palette i)) ∧
    ∀ i < n, wdist (c.r, c.g, c.b) (palette n) < wdist (c.r, c.g, c.b) (palette i)

theorem sgr_nil (a : Attr) : sgr [] a = a := by rw [sgr]

theorem convert_nearest {env : Color.Env} (henv : env.space = .standard) {c : Color}
    (h : c.ansi env = c.convert env) : NearestStd env c := by
  have hlt := nearestStd_lt (c.r, c.g, c.b)
  have key : ∀ i ∈ List.range 16, ∀ bg : Bool, StdCode bg (Color.stdCode i bg) := by
    unfold StdCode; decide
  refine ⟨_, Color.nearestStd (c.r, c.g, c.b), ?_, key _ (List.mem_range.mpr hlt) c.isBg, hlt, ?_,
    nearestStd_min (c.r, c.g, c.b), nearestStd_first (c.r, c.g, c.b)⟩
  · rw [h, Color.convert, henv]
  · intro a
    obtain ⟨h1, h2, h3⟩ := sgr1_stdCode hlt c.isBg a
    rw [← h1]
    exact (sgr_cons h2 h3 [] a).trans (sgr_nil _)

/-- C42: in a 16-colour terminal the code of a colour made directly, from a hex string
or from a standard, 8-bit or true-colour code means an entry at minimal weighted
distance among the 16 (the first such entry), and is one of 30-37/90-97 (40-47/100-107 for a background).
Missing: colours made from malformed codes, see `C42_malformed_violated`. -/
theorem C42_nearest_partial (env : Color.Env) (henv : env.space = .standard) (c : Color)
    (h : c.Direct ∨ ∃ ns, CodeNums ns ∧ c = codeColor ns) : NearestStd env c := by
  rcases h with h | ⟨ns, hns, rfl⟩
  · exact convert_nearest henv (ansi_direct env h)
  · have hk := codeColor_origin hns
    have hh : startsWith (codeStr ns) ['#'] = false := codeStr_head
    cases hns with
    | std n hn =>
      have key : ∀ n ∈ List.range' 30 8 ++ List.range' 40 8 ++ List.range' 90 8 ++ List.range' 100 8,
          n ≠ 38 ∧ n ≠ 48 ∧ StdCode (codeColor [n]).isBg n ∧
          ∃ i < 16, n = Color.stdCode i (codeColor [n]).isBg ∧
          ((codeColor [n]).r, (codeColor [n]).g, (codeColor [n]).b) = palette i := by
        unfold StdCode; decide +kernel
      obtain ⟨h38, h48, hs, i, hi, hni, hp⟩ := key n (stdNums hn)
      refine ⟨n, i, ?_, hs, hi, ?_, ?_, ?_⟩
      · have ho : (codeColor [n]).origin = .standard := rfl
        rw [Color.ansi, hk]
        simp only [hh, ho, henv]
        rw [if_pos (by decide)]; rfl
      · intro a
        rw [sgr_cons h38 h48, sgr_nil]
        have := (sgr1_stdCode hi (codeColor [n]).isBg a).1
        rw [← hni] at this
        exact this
      · intro j hj
        rw [hp, wdist_self]
        exact wdist_nonneg _ _ (by have := (palette_lt i).1; omega) (by have := (palette_lt j).1; omega)
      · intro j hj
        have tab : ∀ i ∈ List.range 16, ∀ j ∈ List.range i,
            0 < Color.geoKey (palette i) (palette j) := by decide +kernel
        have h1 := tab i (List.mem_range.mpr hi) j (List.mem_range.mpr hj)
        have h2 : (0 : ℚ) < Color.geoKey (palette i) (palette j) := by exact_mod_cast h1
        rw [hp, wdist_self, wdist_eq]
        positivity
    | idx bg n hn =>
      apply convert_nearest henv
      rw [Color.ansi, hk]
      have ho : (codeColor [if bg then 48 else 38, 5, n]).origin = .eightBit := rfl
      simp only [hh, ho, henv]
      rw [if_neg (by decide)]
    | rgb bg r g b hr hg hb =>
      apply convert_nearest henv
      rw [Color.ansi, hk]
      have ho : (codeColor [if bg then 48 else 38, 2, r, g, b]).origin = .trueColor := rfl
      simp only [hh, ho, henv]
      rw [if_neg (by decide)]

/-- C42: the 16 palette colours are mapped to themselves. -/
theorem C42_palette_fixed (env : Color.Env) (henv : env.space = .standard) (c : Color) (h : c.Direct)
    (i : Nat) (hi : i < 16) (hp : (c.r, c.g, c.b) = palette i) :
    ∃ k, c.ansi env = dec k ∧ ∀ a, sgr [k] a = paint c.isBg (.idx i) a := by
  have key : ∀ i ∈ List.range 16, Color.nearestStd (palette i) = i := by decide +kernel
  refine ⟨Color.stdCode i c.isBg, ?_, ?_⟩
  · rw [ansi_direct env h, Color.convert, henv]
    simp only
    rw [hp, key i (List.mem_range.mpr hi)]
  · intro a
    obtain ⟨h1, h2, h3⟩ := sgr1_stdCode hi c.isBg a
    rw [← h1]
    exact (sgr_cons h2 h3 [] a).trans (sgr_nil _)

example : Color.ansi { space := .standard } { r := 250, g := 90, b := 80, isBg := true } =
    "101".toList := by decide +kernel

/-- A tie: (0, 20, 85) is equally far from black and from blue, and black is used. -/
example : Color.geoKey (0, 20, 85) (palette 0) = Color.geoKey (0, 20, 85) (palette 4) ∧
    Color.ansi { space := .standard } { r := 0, g := 20, b := 85 } = "30".toList := by
  decide +kernel

/-- C42 is violated for colours made from a bare index, which `from_ansi` accepts as a
standard colour: index 1 (red) is emitted as the code 1, which means bold. -/
theorem C42_malformed_violated :
    ∃ c, Color.fromAnsi "1".toList = .ok c ∧ c.ansi { space := .standard } = dec 1 ∧
      sgr [1] Attr.clean = { Attr.clean with bold := true } ∧ ¬ NearestStd { space := .standard } c := by
  refine ⟨⟨170, 0, 0, false, 1, .standard, some "1".toList⟩, by decide +kernel, by decide +kernel,
    by decide +kernel, ?_⟩
  rintro ⟨k, n, h1, h2, -⟩
  have : Color.ansi { space := .standard } ⟨170, 0, 0, false, 1, .standard, some "1".toList⟩ = dec 1 := by
    decide +kernel
  rw [this] at h1
  have hk := dec_inj h1
  subst hk
  revert h2
  unfold StdCode
  decide

/-! ## C43 -/

/-- The six channel levels of the colour cube of 256-colour terminals. -/
def cubeLevels : List Nat := [0, 95, 135, 175, 215, 255]

/-- The colour cube in the palette: entry `16 + 36 i + 6 j + k` has the levels `i`, `j`, `k`. -/
theorem palette_cube (i j k : Nat) (hi : i < 6) (hj : j < 6) (hk : k < 6) :
    palette (16 + 36 * i + 6 * j + k) =
      (cubeLevels.getD i 0, cubeLevels.getD j 0, cubeLevels.getD k 0) := by
  have key : ∀ i ∈ List.range 6, ∀ j ∈ List.range 6, ∀ k ∈ List.range 6,
      palette (16 + 36 * i + 6 * j + k) =
      (cubeLevels.getD i 0, cubeLevels.getD j 0, cubeLevels.getD k 0) := by decide +kernel
  exact key i (List.mem_range.mpr hi) j (List.mem_range.mpr hj) k (List.mem_range.mpr hk)

/-- The grey ramp in the palette. -/
theorem palette_grey (i : Nat) (hi : i < 24) :
    palette (232 + i) = (8 + 10 * i, 8 + 10 * i, 8 + 10 * i) := by
  have key : ∀ i ∈ List.range 24, palette (232 + i) = (8 + 10 * i, 8 + 10 * i, 8 + 10 * i) := by
    decide +kernel
  exact key i (List.mem_range.mpr hi)

/-- The distance of two channel values. -/
def chanDist (x y : Nat) : Nat := (x - y) + (y - x)

/-- Full statement of C43 for one colour: the emitted code means a cube entry that is
closest to the colour in every channel. -/
def CubeClosest (env : Color.Env) (c : Color) : Prop :=
  ∃ i j k, i < 6 ∧ j < 6 ∧ k < 6 ∧
    c.ansi env = codeStr [if c.isBg then 48 else 38, 5, 16 + 36 * i + 6 * j + k] ∧
    (∀ l ∈ cubeLevels, chanDist c.r (cubeLevels.getD i 0) ≤ chanDist c.r l) ∧
    (∀ l ∈ cubeLevels, chanDist c.g (cubeLevels.getD j 0) ≤ chanDist c.g l) ∧
    (∀ l ∈ cubeLevels, chanDist c.b (cubeLevels.getD k 0) ≤ chanDist c.b l)

/-- C43 is violated: `(95, 0, 0)`, which is entry 52 of the cube, is emitted as entry 88,
which is `(135, 0, 0)`. -/
theorem C43_closest_violated :
    ¬ CubeClosest { space := .eightBit } { r := 95, g := 0, b := 0 } ∧
    Color.ansi { space := .eightBit } { r := 95, g := 0, b := 0 } = "38;5;88".toList ∧
    palette 88 = (135, 0, 0) ∧ palette 52 = (95, 0, 0) := by
  have e : Color.ansi { space := .eightBit } { r := 95, g := 0, b := 0 } = codeStr [38, 5, 88] := by
    decide +kernel
  refine ⟨?_, by decide +kernel, by decide +kernel, by decide +kernel⟩
  rintro ⟨i, j, k, hi, hj, hk, h1, h2, h3, h4⟩
  rw [e] at h1
  have hn : 88 = 16 + 36 * i + 6 * j + k := by
    have h := congrArg (splitC ';') h1
    simp only [codeStr, splitC_decs] at h
    simp only [List.map_cons, List.map_nil, List.cons.injEq, and_true] at h
    exact dec_inj h.2.2
  have h5 := h2 95 (by decide)
  have hi' : i = 0 ∨ i = 1 ∨ i = 2 ∨ i = 3 ∨ i = 4 ∨ i = 5 := by omega
  rcases hi' with rfl | rfl | rfl | rfl | rfl | rfl <;> first | omega | (revert h5; decide)

/-- C43, what holds: in a 256-colour terminal a colour made directly, from a hex string
or from a true-colour code is emitted as an entry of the cube, in its role. The level of
each channel is the closest one of the *uniform* levels 0, 51, …, 255, and it is at most
one step away from a closest level of the real cube; a channel differs from the shown
one by at most 69 (the optimum being 47). Missing: the level itself being closest, see
`C43_closest_violated` and `C43_exact`. -/
theorem C43_cube_partial (env : Color.Env) (henv : env.space = .eightBit) (c : Color) (hc : c.Valid)
    (h : c.Direct ∨ ∃ (bg : Bool) (r g b : Nat), CodeNums [if bg then 48 else 38, 2, r, g, b] ∧
      c = codeColor [if bg then 48 else 38, 2, r, g, b]) :
    ∃ i j k, i < 6 ∧ j < 6 ∧ k < 6 ∧
      c.ansi env = codeStr [if c.isBg then 48 else 38, 5, 16 + 36 * i + 6 * j + k] ∧
      ∀ p ∈ [(c.r, i), (c.g, j), (c.b, k)],
        (∀ m < 6, chanDist p.1 (51 * p.2) ≤ chanDist p.1 (51 * m)) ∧
        (∃ m < 6, m ≤ p.2 + 1 ∧ p.2 ≤ m + 1 ∧
          ∀ l ∈ cubeLevels, chanDist p.1 (cubeLevels.getD m 0) ≤ chanDist p.1 l) ∧
        chanDist p.1 (cubeLevels.getD p.2 0) ≤ 69 := by
  have key : ∀ x ∈ List.range 256, Color.cubeLevel x < 6 ∧
      (∀ m < 6, chanDist x (51 * Color.cubeLevel x) ≤ chanDist x (51 * m)) ∧
      (∃ m < 6, m ≤ Color.cubeLevel x + 1 ∧ Color.cubeLevel x ≤ m + 1 ∧
        ∀ l ∈ cubeLevels, chanDist x (cubeLevels.getD m 0) ≤ chanDist x l) ∧
      chanDist x (cubeLevels.getD (Color.cubeLevel x) 0) ≤ 69 := by decide +kernel
  have kr := key c.r (List.mem_range.mpr (by have := hc.1; omega))
  have kg := key c.g (List.mem_range.mpr (by have := hc.2.1; omega))
  have kb := key c.b (List.mem_range.mpr (by have := hc.2.2; omega))
  refine ⟨_, _, _, kr.1, kg.1, kb.1, ?_, ?_⟩
  · have hconv : c.ansi env = c.convert env := by
      rcases h with h | ⟨bg, r, g, b, hns, rfl⟩
      · exact ansi_direct env h
      · have hh : startsWith (codeStr [if bg then 48 else 38, 2, r, g, b]) ['#'] = false := codeStr_head
        have ho : (codeColor [if bg then 48 else 38, 2, r, g, b]).origin = .trueColor := rfl
        rw [Color.ansi, codeColor_origin hns]
        simp only [hh, ho, henv]
        rw [if_neg (by decide)]
    rw [hconv, Color.convert, henv]
    simp [codeStr, join, dec5, Color.lead, Color.cubeIndex]
  · intro p hp
    simp only [List.mem_cons, List.not_mem_nil, or_false] at hp
    rcases hp with rfl | rfl | rfl
    exacts [kr.2, kg.2, kb.2]

/-- The channel values for which the chosen level is not the closest one. -/
def cubeBad (x : Nat) : Prop :=
  (26 ≤ x ∧ x ≤ 47) ∨ (77 ≤ x ∧ x ≤ 114) ∨ (128 ≤ x ∧ x ≤ 154) ∨ (179 ≤ x ∧ x ≤ 194) ∨
    (230 ≤ x ∧ x ≤ 234)

/-- C43, where exactly it holds: for a directly made or hex colour the emitted entry is
closest in every channel iff no channel value is one of the 108 values of `cubeBad`. -/
theorem C43_exact (env : Color.Env) (henv : env.space = .eightBit) (c : Color) (hc : c.Valid)
    (h : c.Direct) :
    CubeClosest env c ↔ ¬ cubeBad c.r ∧ ¬ cubeBad c.g ∧ ¬ cubeBad c.b := by
  have key : ∀ x ∈ List.range 256, Color.cubeLevel x < 6 ∧
      ((∀ l ∈ cubeLevels, chanDist x (cubeLevels.getD (Color.cubeLevel x) 0) ≤ chanDist x l) ↔
        ¬ cubeBad x) := by unfold cubeBad; decide +kernel
  have kr := key c.r (List.mem_range.mpr (by have := hc.1; omega))
  have kg := key c.g (List.mem_range.mpr (by have := hc.2.1; omega))
  have kb := key c.b (List.mem_range.mpr (by have := hc.2.2; omega))
  have e : c.ansi env = codeStr [if c.isBg then 48 else 38, 5,
      16 + 36 * Color.cubeLevel c.r + 6 * Color.cubeLevel c.g + Color.cubeLevel c.b] := by
    rw [ansi_direct env h, Color.convert, henv]
    simp [codeStr, join, dec5, Color.lead, Color.cubeIndex]
  constructor
  · rintro ⟨i, j, k, hi, hj, hk, h1, h2, h3, h4⟩
    rw [e] at h1
    have hn : 16 + 36 * Color.cubeLevel c.r + 6 * Color.cubeLevel c.g + Color.cubeLevel c.b =
        16 + 36 * i + 6 * j + k := by
      have h := congrArg (splitC ';') h1
      simp only [codeStr, splitC_decs] at h
      simp only [List.map_cons, List.map_nil, List.cons.injEq, and_true] at h
      exact dec_inj h.2.2
    have ei : i = Color.cubeLevel c.r := by omega
    have ej : j = Color.cubeLevel c.g := by omega
    have ek : k = Color.cubeLevel c.b := by omega
    subst ei ej ek
    exact ⟨kr.2.mp h2, kg.2.mp h3, kb.2.mp h4⟩
  · rintro ⟨h1, h2, h3⟩
    exact ⟨_, _, _, kr.1, kg.1, kb.1, e, kr.2.mpr h1, kg.2.mpr h2, kb.2.mpr h3⟩

example : CubeClosest { space := .eightBit } { r := 255, g := 0, b := 120 } :=
  (C43_exact _ rfl _ (by unfold Color.Valid; decide) (.inl rfl)).mpr
    (by unfold cubeBad; decide)

end Slate
