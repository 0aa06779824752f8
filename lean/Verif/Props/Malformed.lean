import Verif.Props.Mouse
import Verif.Props.Names
import Verif.Props.Parse

/-!
# Malformed colour descriptions (C87)
-/

namespace Slate
open Py

/-- `int(x)` succeeds. -/
def Numeral (x : Str) : Prop := ';' ∉ x ∧ (Py.int 10 x).isSome

/-- A text with a dot for which `float(x)` succeeds: an alpha suffix. -/
def AlphaText (x : Str) : Prop := ';' ∉ x ∧ '.' ∈ x ∧ (Py.float x).isSome

/-- A true-colour code with two channels instead of three. -/
def TwoChannels (s : Str) : Prop :=
  ∃ lead r g : Str, (lead = "38".toList ∨ lead = "48".toList) ∧ s = lead ++ ";2;".toList ++ r ++ [';'] ++ g ∧
    Numeral r ∧ Numeral g ∧ '.' ∉ g

theorem splitC_snoc {c : Char} {t x : Str} (hx : c ∉ x) : splitC c (t ++ c :: x) = splitC c t ++ [x] := by
  induction t with
  | nil => simp [splitC, splitC_of_not_mem hx]
  | cons a t ih =>
    rw [List.cons_append, splitC, splitC]
    split
    · rw [ih]; rfl
    · rw [ih]
      obtain ⟨y, ys, hy⟩ := List.exists_cons_of_ne_nil (splitC_ne_nil c t)
      rw [hy]
      rfl

theorem splitC_free (c : Char) (s : Str) : ∀ p ∈ splitC c s, c ∉ p := by
  induction s with
  | nil => simp [splitC]
  | cons a s ih =>
    rw [splitC]
    split
    · intro p hp
      rcases List.mem_cons.mp hp with rfl | hp
      · simp
      · exact ih p hp
    · rename_i hne
      obtain ⟨y, ys, hy⟩ := List.exists_cons_of_ne_nil (splitC_ne_nil c s)
      rw [hy] at ih ⊢
      intro p hp
      rcases List.mem_cons.mp hp with rfl | hp
      · rw [List.mem_cons, not_or]
        exact ⟨fun h => hne (by simp [h]), ih y (by simp)⟩
      · exact ih p (List.mem_cons_of_mem _ hp)

/-- A text has no semicolon, or it has a last one. -/
theorem last_semicolon (s : Str) : ';' ∉ s ∨ ∃ t x, s = t ++ ';' :: x ∧ ';' ∉ x := by
  have hin : ∀ t : Str, ';' ∈ t → [';'] <:+: t := fun t ht => by
    obtain ⟨a, b, rfl⟩ := List.append_of_mem ht
    exact ⟨a, b, by simp⟩
  rcases splitC_getLast ';' s with ⟨p, h1, h2⟩ | ⟨h1, -⟩
  · exact .inr ⟨p, _, by simpa using h1, fun h => h2 (hin _ h)⟩
  · exact .inl fun h => h1 (hin _ h)

theorem append_inj_last {s t x y : Str} (h : s ++ ';' :: x = t ++ ';' :: y) (hx : ';' ∉ x) (hy : ';' ∉ y) :
    s = t ∧ x = y := by
  have := congrArg List.reverse h
  simp only [List.reverse_append, List.reverse_cons, List.append_assoc, List.singleton_append] at this
  have h2 := append_sep_inj (by simpa using hx) (by simpa using hy) this
  exact ⟨by simpa using congrArg List.reverse h2.2, by simpa using congrArg List.reverse h2.1⟩

/-- `from_ansi` after the alpha suffix was removed: when it raises `IndexError`. -/
theorem fromParts_index (ansi : Str) (ps : List Str) (al : Rat) :
    Color.fromParts ansi ps al = .error .indexError ↔
      ps = [] ∨ ∃ lead r g, ps = [lead, "2".toList, r, g] ∧ (lead = "38".toList ∨ lead = "48".toList) ∧
        (Py.int 10 r).isSome ∧ (Py.int 10 g).isSome := by
  constructor
  · intro h
    by_cases hne : ps = []
    · exact .inl hne
    refine .inr ?_
    by_cases h4 : ps.length ≠ 4 ∨ ps[1]? ≠ some "2".toList
    · exact absurd (fromParts_error hne h4 h) (by simp)
    · simp only [ne_eq, not_or, Decidable.not_not] at h4
      match ps, h4 with
      | [lead, p1, r, g], ⟨_, h1⟩ =>
        have h1 : p1 = "2".toList := by simpa using h1
        subst h1
        refine ⟨lead, r, g, rfl, ?_⟩
        unfold Color.fromParts at h
        simp only at h
        rw [if_pos (by simp)] at h
        split at h
        · rename_i hl
          have hl' : lead = "38".toList ∨ lead = "48".toList := by
            rcases hl with hl | hl
            · exact .inl (by simpa using hl)
            · exact .inr (by simpa using hl)
          refine ⟨hl', ?_⟩
          rcases bind_error h with h | ⟨r', hr, h⟩
          · exact absurd (intAt_error (by simp) h) (by simp)
          rcases bind_error h with h | ⟨g', hg, h⟩
          · exact absurd (intAt_error (by simp) h) (by simp)
          have ok : ∀ {x : Str} {n : Int}, Color.pyInt 10 x = .ok n → (Py.int 10 x).isSome := by
            intro x n hx
            unfold Color.pyInt at hx
            split at hx
            · rename_i hs; rw [hs]; rfl
            · cases hx
          exact ⟨ok (x := r) hr, ok (x := g) hg⟩
        · injection h with h
          cases h
  · rintro (rfl | ⟨lead, r, g, rfl, hl, hr, hg⟩)
    · rfl
    · obtain ⟨r', hr⟩ := Option.isSome_iff_exists.mp hr
      obtain ⟨g', hg⟩ := Option.isSome_iff_exists.mp hg
      unfold Color.fromParts
      simp only
      rw [if_pos (by simp), if_pos (by rcases hl with rfl | rfl <;> simp)]
      have e1 : Color.intAt [lead, "2".toList, r, g] 2 = .ok r' := by
        change Color.pyInt 10 r = _
        rw [Color.pyInt, hr]
      have e2 : Color.intAt [lead, "2".toList, r, g] 3 = .ok g' := by
        change Color.pyInt 10 g = _
        rw [Color.pyInt, hg]
      have e3 : Color.intAt [lead, "2".toList, r, g] 4 = .error .indexError := rfl
      rw [e1, ok_bind, e2, ok_bind, e3]
      rfl

theorem splitC_four {s a b c d : Str} : splitC ';' s = [a, b, c, d] ↔
    s = a ++ ';' :: (b ++ ';' :: (c ++ ';' :: d)) ∧ ';' ∉ a ∧ ';' ∉ b ∧ ';' ∉ c ∧ ';' ∉ d := by
  constructor
  · intro h
    have hf := splitC_free ';' s
    have hj := join_splitC ';' s
    rw [h] at hf hj
    refine ⟨by rw [← hj]; simp [join], hf a (by simp), hf b (by simp), hf c (by simp), hf d (by simp)⟩
  · rintro ⟨rfl, ha, hb, hc, hd⟩
    rw [splitC_append _ ha, splitC_append _ hb, splitC_append _ hc, splitC_of_not_mem hd]

/-- The parts of a code with two channels. -/
theorem twoChannels_iff (s : Str) : TwoChannels s ↔ '.' ∉ (splitC ';' s).getLastD [] ∧
    ∃ lead r g, splitC ';' s = [lead, "2".toList, r, g] ∧
    (lead = "38".toList ∨ lead = "48".toList) ∧ (Py.int 10 r).isSome ∧ (Py.int 10 g).isSome := by
  constructor
  · rintro ⟨lead, r, g, hl, rfl, hr, hg, hd⟩
    have : splitC ';' (lead ++ ";2;".toList ++ r ++ [';'] ++ g) = [lead, "2".toList, r, g] := by
      rw [splitC_four]
      refine ⟨by simp, ?_, by decide, hr.1, hg.1⟩
      rcases hl with rfl | rfl <;> decide
    rw [this]
    exact ⟨hd, lead, r, g, rfl, hl, hr.2, hg.2⟩
  · rintro ⟨hd, lead, r, g, hs, hl, hr, hg⟩
    rw [hs] at hd
    rw [splitC_four] at hs
    exact ⟨lead, r, g, hl, by rw [hs.1]; simp, ⟨hs.2.2.2.1, hr⟩, ⟨hs.2.2.2.2, hg⟩, hd⟩

/-- An alpha suffix alone, or a true-colour code with two channels, with or without an alpha suffix. -/
def Incomplete (s : Str) : Prop :=
  AlphaText s ∨ TwoChannels s ∨ ∃ t x, s = t ++ ';' :: x ∧ AlphaText x ∧
    ∃ lead r g, (lead = "38".toList ∨ lead = "48".toList) ∧ t = lead ++ ";2;".toList ++ r ++ [';'] ++ g ∧
      Numeral r ∧ Numeral g

/-- C87, `from_ansi`, exactly: `IndexError` iff the code is incomplete. -/
theorem C87_from_ansi (s : Str) (al : Rat) : Color.fromAnsi s al = .error .indexError ↔ Incomplete s := by
  unfold Color.fromAnsi Incomplete
  simp only
  rcases last_semicolon s with hs | ⟨t, x, rfl, hx⟩
  · have h1 : splitC ';' s = [s] := splitC_of_not_mem hs
    have hno : ¬ TwoChannels s := by
      rintro ⟨lead, r, g, -, rfl, -⟩
      exact hs (by simp)
    have hno' : ¬ ∃ t x, s = t ++ ';' :: x ∧ AlphaText x ∧ ∃ lead r g, (lead = "38".toList ∨ lead = "48".toList) ∧
        t = lead ++ ";2;".toList ++ r ++ [';'] ++ g ∧ Numeral r ∧ Numeral g := by
      rintro ⟨t, x, rfl, -⟩
      exact hs (by simp)
    rw [h1, iff_false_intro hno, iff_false_intro hno', or_false, or_false]
    simp only [List.getLastD_cons, List.getLastD_nil, List.dropLast_singleton]
    by_cases hd : '.' ∈ s
    · rw [if_pos hd]
      cases hf : Py.float s with
      | none => simp [AlphaText, hf]
      | some a => simp [AlphaText, hf, hs, hd, Color.fromParts]
    · rw [if_neg hd, fromParts_index]
      simp [AlphaText, hd]
  · have h1 : splitC ';' (t ++ ';' :: x) = splitC ';' t ++ [x] := splitC_snoc hx
    have hno : ¬ AlphaText (t ++ ';' :: x) := fun h => h.1 (by simp)
    rw [iff_false_intro hno, false_or, twoChannels_iff, h1]
    have hl : (splitC ';' t ++ [x]).getLastD [] = x := by simp [List.getLastD_eq_getLast?]
    rw [hl, List.dropLast_concat]
    by_cases hd : '.' ∈ x
    · rw [if_pos hd]
      simp only [hd, not_true_eq_false, false_and, false_or]
      cases hf : Py.float x with
      | none =>
        simp only [Except.error.injEq, reduceCtorEq, false_iff, not_exists, not_and]
        intro u y hu hy
        have := append_inj_last hu hx hy.1
        rw [this.2] at hf
        have := hy.2.2
        rw [hf] at this
        cases this
      | some a =>
        simp only
        rw [fromParts_index]
        constructor
        · rintro (h | ⟨lead, r, g, h, hl, hr, hg⟩)
          · exact absurd h (splitC_ne_nil _ _)
          · rw [splitC_four] at h
            exact ⟨t, x, rfl, ⟨hx, hd, by rw [hf]; rfl⟩, lead, r, g, hl, by rw [h.1]; simp, ⟨h.2.2.2.1, hr⟩,
              ⟨h.2.2.2.2, hg⟩⟩
        · rintro ⟨u, y, hu, hy, lead, r, g, hlead, rfl, hr, hg⟩
          obtain ⟨rfl, rfl⟩ := append_inj_last hu hx hy.1
          refine .inr ⟨lead, r, g, ?_, hlead, hr.2, hg.2⟩
          rw [splitC_four]
          refine ⟨by simp, ?_, by decide, hr.1, hg.1⟩
          rcases hlead with rfl | rfl <;> decide
    · rw [if_neg hd, fromParts_index]
      simp only [hd, not_false_eq_true, true_and]
      have h0 : ¬ (splitC ';' t ++ [x] = []) := by simp
      rw [iff_false_intro h0, false_or]
      constructor
      · exact .inl
      · rintro (h | ⟨u, y, hu, hy, -⟩)
        · exact h
        · have := append_inj_last hu hx hy.1
          rw [this.2] at hd
          exact absurd hy.2.1 hd

/-- C87: `color(d)` raises nothing but `ValueError` and `IndexError`. -/
theorem C87_exceptions_partial (d : Str) (e : PyErr) (h : Color.ofString d = .error e) : e = .valueError ∨ e = .indexError := by
  have hh : ∀ s al, Color.fromHex s al = .error e → e = .valueError := by
    intro s al h
    unfold Color.fromHex at h
    simp only at h
    rcases bind_error h with h | ⟨_, -, h⟩
    · exact pyInt_error h
    rcases bind_error h with h | ⟨_, -, h⟩
    · exact pyInt_error h
    rcases bind_error h with h | ⟨_, -, h⟩
    · exact pyInt_error h
    exact make_error h
  unfold Color.ofString at h
  simp only at h
  split at h
  · split at h
    · rcases bind_error h with h | ⟨_, -, h⟩
      · exact .inl (pyInt_error h)
      · exact .inl (hh _ _ h)
    · exact .inl (hh _ _ h)
  · split at h
    · split at h
      · injection h with h; exact .inl h.symm
      · split at h
        · exact .inl (hh _ _ h)
        · exact fromAnsi_kind h
    · split at h
      · exact .inl (hh _ _ h)
      · exact fromAnsi_kind h

theorem fromHex_no_index (s : Str) (al : Rat) : Color.fromHex s al ≠ .error .indexError := by
  intro h
  unfold Color.fromHex at h
  simp only at h
  rcases bind_error h with h | ⟨_, -, h⟩
  · exact absurd (pyInt_error h) (by simp)
  rcases bind_error h with h | ⟨_, -, h⟩
  · exact absurd (pyInt_error h) (by simp)
  rcases bind_error h with h | ⟨_, -, h⟩
  · exact absurd (pyInt_error h) (by simp)
  exact absurd (make_error h) (by simp)

theorem incomplete_not_name {s : Str} (h : Incomplete s) : namedColors.lookup s = none := by
  have key : ∀ p ∈ namedColors, ';' ∉ p.1 ∧ '.' ∉ p.1 := by decide +kernel
  cases hl : namedColors.lookup s with
  | none => rfl
  | some v =>
    have := key _ (lookup_mem hl)
    rcases h with h | ⟨_, _, _, _, rfl, _⟩ | ⟨t, x, rfl, _⟩
    · exact absurd h.2.1 this.2
    · exact absurd (by simp) this.1
    · exact absurd (by simp) this.1

/-- C87, `color`, exactly: `IndexError` iff the description is a true-colour code with two channels, or an
incomplete code with an alpha suffix (and does not begin with `#`). -/
theorem C87_color (d : Str) :
    Color.ofString d = .error .indexError ↔ startsWith d ['#'] = false ∧
      (TwoChannels d ∨ ∃ t x, d = t ++ ';' :: x ∧ AlphaText x ∧ Incomplete t) := by
  unfold Color.ofString
  by_cases hh : startsWith d ['#'] = true
  · rw [if_pos hh, hh]
    simp only [Bool.true_eq_false, false_and, iff_false]
    split
    · intro h
      rcases bind_error h with h | ⟨_, -, h⟩
      · exact absurd (pyInt_error h) (by simp)
      · exact fromHex_no_index _ _ h
    · exact fromHex_no_index _ _
  · have hh : startsWith d ['#'] = false := by simpa using hh
    rw [if_neg (by simp [hh]), hh]
    simp only [true_and]
    have go : ∀ t al, (match namedColors.lookup t with
        | some h => Color.fromHex h al
        | none => Color.fromAnsi t al) = .error .indexError ↔ Incomplete t := by
      intro t al
      cases hl : namedColors.lookup t with
      | none => exact C87_from_ansi t al
      | some h =>
        simp only
        refine ⟨fun h => absurd h (fromHex_no_index _ _), fun h => ?_⟩
        rw [incomplete_not_name h] at hl
        cases hl
    rcases last_semicolon d with hs | ⟨t, x, rfl, hx⟩
    · have h1 : splitC ';' d = [d] := splitC_of_not_mem hs
      have hno : ¬ (TwoChannels d ∨ ∃ t x, d = t ++ ';' :: x ∧ AlphaText x ∧ Incomplete t) := by
        rintro (⟨_, _, _, _, rfl, _⟩ | ⟨t, x, rfl, _⟩)
        · exact hs (by simp)
        · exact hs (by simp)
      rw [iff_false_intro hno, h1]
      simp only [List.getLastD_cons, List.getLastD_nil, List.dropLast_singleton, iff_false]
      split
      · split
        · simp
        · rename_i a _
          intro h0
          rcases (go (join [';'] []) a).mp h0 with (h | ⟨_, _, _, _, h, _⟩ | ⟨_, _, h, _⟩)
          · exact absurd h.2.1 (by simp [join])
          · simp [join] at h
          · simp [join] at h
      · rename_i hd
        intro h0
        rcases (go _ 1).mp h0 with (h | ⟨_, _, _, _, rfl, _⟩ | ⟨_, _, rfl, _⟩)
        · exact hd h.2.1
        · exact hs (by simp)
        · exact hs (by simp)
    · have h1 : splitC ';' (t ++ ';' :: x) = splitC ';' t ++ [x] := splitC_snoc hx
      have hl : (splitC ';' t ++ [x]).getLastD [] = x := by simp [List.getLastD_eq_getLast?]
      rw [h1, hl, List.dropLast_concat, join_splitC]
      by_cases hd : '.' ∈ x
      · rw [if_pos hd]
        have hno : ¬ TwoChannels (t ++ ';' :: x) := by
          rw [twoChannels_iff, h1, hl]
          exact fun h => h.1 hd
        rw [iff_false_intro hno, false_or]
        cases hf : Py.float x with
        | none =>
          simp only [Except.error.injEq, reduceCtorEq, false_iff, not_exists, not_and]
          intro u y hu hy
          obtain ⟨rfl, rfl⟩ := append_inj_last hu hx hy.1
          have := hy.2.2
          rw [hf] at this
          cases this
        | some a =>
          refine Iff.trans (go t a) ?_
          constructor
          · exact fun h => ⟨t, x, rfl, ⟨hx, hd, by rw [hf]; rfl⟩, h⟩
          · rintro ⟨u, y, hu, hy, h⟩
            obtain ⟨rfl, rfl⟩ := append_inj_last hu hx hy.1
            exact h
      · rw [if_neg hd]
        refine Iff.trans (go _ 1) ?_
        constructor
        · rintro (h | h | ⟨u, y, hu, hy, h⟩)
          · exact absurd h.1 (by simp)
          · exact .inl h
          · obtain ⟨rfl, rfl⟩ := append_inj_last hu hx hy.1
            exact absurd hy.2.1 hd
        · rintro (h | ⟨u, y, hu, hy, h⟩)
          · exact .inr (.inl h)
          · obtain ⟨rfl, rfl⟩ := append_inj_last hu hx hy.1
            exact absurd hy.2.1 hd

/-- C87 fails: a true-colour code with two channels raises `IndexError`, whatever the channels (of at most 4300 digits) and the role. -/
theorem C87_two_channels_violated (bg : Bool) (r g : Nat) (hr : r < intLimit) (hg : g < intLimit) :
    Color.ofString ((if bg then "48;2;".toList else "38;2;".toList) ++ dec r ++ [';'] ++ dec g) =
      .error .indexError := by
  rw [C87_color]
  have hn : ∀ n, n < intLimit → Numeral (dec n) := fun n h => ⟨dec_not_mem (by decide), by rw [int_dec (dec_limit h)]; rfl⟩
  refine ⟨by cases bg <;> rfl, .inl ⟨if bg then "48".toList else "38".toList, dec r, dec g, ?_, ?_, hn r hr, hn g hg,
    dec_not_mem (by decide)⟩⟩
  · cases bg <;> simp
  · cases bg <;> simp

example : Incomplete "38;2;10;20;0.5".toList ∧ Color.ofString "38;2;10;20".toList = .error .indexError := by
  refine ⟨.inr (.inr ⟨"38;2;10;20".toList, "0.5".toList, by decide, ⟨by decide, by decide, by decide +kernel⟩,
    "38".toList, "10".toList, "20".toList, .inl rfl, by decide, ⟨by decide, by decide +kernel⟩,
    ⟨by decide, by decide +kernel⟩⟩), by decide +kernel⟩

/-- C87 fails: two numbers with dots raise `IndexError`. -/
theorem C87_dots_violated : Color.ofString "1.5;2.5".toList = .error .indexError ∧
    Color.fromAnsi "0.5".toList = .error .indexError := by decide +kernel

/-- C87 fails: malformed codes are accepted. Whatever the two parts in front are, a third one below 256 is
taken for an index into the palette. -/
theorem C87_lenient_violated (a b : Str) (n : Nat) (ha : ';' ∉ a) (hb : ';' ∉ b) (hn : n < 256) :
    ∃ c, Color.fromAnsi (a ++ ';' :: (b ++ ';' :: dec n)) = .ok c ∧ (c.r, c.g, c.b) = stdPalette n ∧
      c.isBg = startsWith a ['4'] := by
  have hp : splitC ';' (a ++ ';' :: (b ++ ';' :: dec n)) = [a, b, dec n] := by
    rw [splitC_append _ ha, splitC_append _ hb, splitC_of_not_mem (dec_not_mem (by decide))]
  obtain ⟨p1, p2, p3⟩ := palette_lt n
  refine ⟨{ r := (palette n).1, g := (palette n).2.1, b := (palette n).2.2, isBg := startsWith a ['4']
            origin := .eightBit, ctor := some (a ++ ';' :: (b ++ ';' :: dec n)) }, ?_, palette_std hn, rfl⟩
  unfold Color.fromAnsi
  rw [hp]
  simp only
  have hl : [a, b, dec n].getLastD [] = dec n := rfl
  rw [hl, if_neg (dec_not_mem (by decide))]
  unfold Color.fromParts
  simp only [List.length_cons, List.length_nil]
  rw [if_neg (by omega), hl, pyInt_dec (dec_short (by omega)), ok_bind]
  simp only [Nat.reduceAdd, Nat.reduceEqDiff, if_false]
  rw [if_pos (by omega), Int.toNat_natCast, colorTable_getElem? hn]
  simp only
  rw [make_nat p1 p2 p3]

/-- C87 fails: what follows the third channel of a true-colour code is ignored. -/
theorem C87_ignored_violated : ∃ c, Color.ofString "38;2;1;2;3;x;y".toList = .ok c ∧ (c.r, c.g, c.b) = (1, 2, 3) := by
  refine ⟨⟨1, 2, 3, false, 1, .trueColor, some "38;2;1;2;3;x;y".toList⟩, ?_⟩
  decide +kernel

/-- C87 fails: a hexadecimal description with five digits is accepted. -/
theorem C87_hex_violated : ∃ c, Color.ofString "#12345".toList = .ok c ∧ (c.r, c.g, c.b) = (18, 52, 5) := by
  refine ⟨⟨18, 52, 5, false, 1, .trueColor, some "#12345".toList⟩, ?_⟩
  decide +kernel

end Slate
