import Verif.Spec.NamedColors
import Verif.Props.Palette

/-!
# Roles, names and palette entries of colours (C79, C80, C81)
-/

namespace Slate
open Py Term

/-! ### C79 -/

/-- C79, role: `as_background(b)` keeps the RGB value and the transparency, and has the role `b`;
`as_alpha` keeps the RGB value and the role, and has the alpha given. -/
theorem C79_role (c : Color) (b : Bool) (a : ℚ) :
    ((c.asBackground b).r, (c.asBackground b).g, (c.asBackground b).b) = (c.r, c.g, c.b) ∧
    (c.asBackground b).isBg = b ∧ (c.asBackground b).alpha = c.alpha ∧
    ((c.asAlpha a).r, (c.asAlpha a).g, (c.asAlpha a).b) = (c.r, c.g, c.b) ∧
    (c.asAlpha a).isBg = c.isBg ∧ (c.asAlpha a).alpha = a := by
  unfold Color.asBackground Color.asAlpha
  by_cases h : c.isBg = b
  · simp [h]
  · simp [h]

example : (Color.white.asBackground true).isBg = true ∧ (Color.white.asAlpha (1/2)).alpha = 1/2 := by
  decide +kernel

/-- C79, code: in every colour space, the code of `as_background(b)` of a colour that was
not made from an ANSI string, or that changes its role, paints the terminal's background if `b`,
its foreground otherwise; never both, and no style. -/
theorem C79_code (env : Color.Env) (c : Color) (b : Bool)
    (h : c.isBg ≠ b ∨ c.ctor = none ∨ ∃ s, c.ctor = some ('#' :: s)) :
    ∃ n ns t, (c.asBackground b).ansi env = join [';'] ((n :: ns).map dec) ∧
      ∀ rest a, sgr (n :: ns ++ rest) a =
        sgr rest (if b then { a with bg := t } else { a with fg := t }) := by
  have hs : Sendable env (c.asBackground b) (denOf env (c.asBackground b)) := by
    by_cases hb : c.isBg = b
    · have e : c.asBackground b = c := by unfold Color.asBackground; rw [if_pos hb]
      rw [e]
      exact sendable_of_hex env c (h.resolve_left fun h => h hb)
    · refine denOk env _ ?_
      unfold Color.asBackground
      rw [if_neg hb]
  obtain ⟨n, ns, h1, h2⟩ := hs
  refine ⟨n, ns, denOf env (c.asBackground b), h1, fun rest a => ?_⟩
  rw [h2, (C79_role c b 0).2.1]
  rfl

example : ∃ c, Color.fromAnsi "31".toList = .ok c ∧ c.isBg = false ∧
    (c.asBackground true).ansi { space := .standard } = "41".toList := by
  refine ⟨{ r := 170, g := 0, b := 0, origin := .standard, ctor := some "31".toList }, ?_⟩
  decide +kernel

/-- C79, alpha argument of `as_background`: it is used if the role changes and it is not 0. -/
theorem C79_alpha_partial (c : Color) (b : Bool) (a : ℚ) (hb : c.isBg ≠ b) (ha : a ≠ 0) :
    (c.asBackground b (some a)).alpha = a := by
  unfold Color.asBackground
  rw [if_neg hb]
  simp [ha]

example : (Color.white.asBackground true (some (1/2))).alpha = 1/2 := by decide +kernel

/-- C79 is violated otherwise, for every colour: the alpha given is ignored if the colour has the
role already, and if it is 0. -/
theorem C79_alpha_violated (c : Color) (a : ℚ) :
    c.asBackground c.isBg (some a) = c ∧ (c.asBackground (!c.isBg) (some 0)).alpha = c.alpha := by
  unfold Color.asBackground
  constructor
  · simp
  · cases c.isBg <;> simp

example : (Color.white.asBackground true (some 0)).alpha = 1 := by decide +kernel

/-! ### C80 -/

/-- The names of the standard that Slate does not know. -/
def unknownNames : List String := ["rebeccapurple"]

theorem named_table : ∀ e ∈ Css.namedColors, e.1 ∉ unknownNames →
    (namedColors.lookup e.1.toList).isSome = true ∧
    Color.fromHex ((namedColors.lookup e.1.toList).getD []) 1 =
      .ok { r := e.2.1, g := e.2.2.1, b := e.2.2.2,
            ctor := namedColors.lookup e.1.toList } ∧
    ';' ∉ e.1.toList ∧ '.' ∉ e.1.toList ∧ startsWith e.1.toList ['#'] = false := by
  decide +kernel

theorem fromHex_alpha {s : Str} {c : Color} (h : Color.fromHex s 1 = .ok c) (a : ℚ) :
    Color.fromHex s a = .ok { c with alpha := a } := by
  unfold Color.fromHex at h ⊢
  dsimp only at h ⊢
  cases h1 : Color.pyInt 16 ((lstrip (· == '#') s).take 2) with
  | error e => rw [h1] at h; cases h
  | ok r =>
    cases h2 : Color.pyInt 16 (((lstrip (· == '#') s).drop 2).take 2) with
    | error e => rw [h1, ok_bind, h2] at h; cases h
    | ok g =>
      cases h3 : Color.pyInt 16 ((lstrip (· == '#') s).drop 4) with
      | error e => rw [h1, ok_bind, h2, ok_bind, h3] at h; cases h
      | ok b =>
        rw [h1, ok_bind, h2, ok_bind, h3, ok_bind] at h
        rw [ok_bind, ok_bind, ok_bind]
        unfold Color.make at h ⊢
        split at h
        · rw [if_pos (by assumption)]
          cases h; rfl
        · cases h

theorem splitC_none {c : Char} {s : Str} (h : c ∉ s) : splitC c s = [s] := by
  induction s with
  | nil => rfl
  | cons x xs ih =>
    simp only [List.mem_cons, not_or] at h
    rw [splitC, if_neg (fun e => h.1 e.symm), ih h.2]

theorem splitC_two {c : Char} {s t : Str} (hs : c ∉ s) (ht : c ∉ t) :
    splitC c (s ++ c :: t) = [s, t] := by
  induction s with
  | nil => rw [List.nil_append, splitC, if_pos rfl, splitC_none ht]
  | cons x xs ih =>
    simp only [List.mem_cons, not_or] at hs
    rw [List.cons_append, splitC, if_neg (fun e => hs.1 e.symm), ih hs.2]

/-- C80, names: `color(name)` is the foreground colour that CSS defines, opaque, for all names but
`rebeccapurple`. -/
theorem C80_name_partial (name : String) (r g b : Nat) (h : (name, r, g, b) ∈ Css.namedColors)
    (hn : name ≠ "rebeccapurple") :
    ∃ c, Color.ofString name.toList = .ok c ∧ (c.r, c.g, c.b) = (r, g, b) ∧ c.isBg = false ∧ c.alpha = 1 := by
  obtain ⟨h1, h2, h3, h4, h5⟩ := named_table _ h (by simpa [unknownNames] using hn)
  obtain ⟨x, hx⟩ := Option.isSome_iff_exists.mp h1
  refine ⟨{ r := r, g := g, b := b, ctor := namedColors.lookup name.toList }, ?_, rfl, rfl, rfl⟩
  unfold Color.ofString
  rw [h5, if_neg (by decide), splitC_none h3]
  simp only [List.getLastD_cons, List.getLastD_nil]
  rw [if_neg h4]
  simp only [hx]
  rw [hx] at h2
  exact h2

example : ("tomato", 255, 99, 71) ∈ Css.namedColors := by decide +kernel

/-- C80, alpha: `color("name;x")`, where `x` is a decimal number with a dot, is that
colour with the alpha `x`. -/
theorem C80_alpha_partial (name : String) (r g b : Nat) (h : (name, r, g, b) ∈ Css.namedColors)
    (hn : name ≠ "rebeccapurple") (x : Str) (a : ℚ) (hdot : '.' ∈ x) (hsep : ';' ∉ x)
    (hx : Py.float x = some a) :
    ∃ c, Color.ofString (name.toList ++ ';' :: x) = .ok c ∧ (c.r, c.g, c.b) = (r, g, b) ∧ c.isBg = false ∧
      c.alpha = a := by
  obtain ⟨h1, h2, h3, h4, h5⟩ := named_table _ h (by simpa [unknownNames] using hn)
  obtain ⟨y, hy⟩ := Option.isSome_iff_exists.mp h1
  have h6 : startsWith (name.toList ++ ';' :: x) ['#'] = false := by
    cases hl : name.toList with
    | nil => rfl
    | cons c cs => rw [hl] at h5; simpa [startsWith, List.isPrefixOf] using h5
  refine ⟨{ r := r, g := g, b := b, alpha := a, ctor := namedColors.lookup name.toList }, ?_, rfl, rfl, rfl⟩
  unfold Color.ofString
  rw [h6, if_neg (by decide), splitC_two h3 hsep]
  simp only [List.getLastD_cons, List.getLastD_nil]
  rw [if_pos hdot, hx]
  have hj : join [';'] [name.toList, x].dropLast = name.toList := rfl
  simp only [hj, hy]
  rw [hy] at h2
  exact fromHex_alpha h2 a

example : Py.float "0.5".toList = some (1/2) ∧
    ∃ c, Color.ofString "tomato;0.5".toList = .ok c ∧ (c.r, c.g, c.b) = (255, 99, 71) ∧ c.alpha = 1/2 := by
  refine ⟨by decide +kernel, ⟨255, 99, 71, false, 1/2, .trueColor, some "#ff6347".toList⟩, ?_⟩
  decide +kernel

/-- C80 is violated for one name of the standard, which raises. -/
theorem C80_violated : ("rebeccapurple", 102, 51, 153) ∈ Css.namedColors ∧
    Color.ofString "rebeccapurple".toList = .error .valueError := by decide +kernel

theorem digitVal_none {c : Char} (h : isDig c = false) : digitVal 10 c = none := by
  unfold isDig at h
  unfold digitVal
  simp only [Bool.and_eq_false_iff, decide_eq_false_iff_not] at h
  simp only
  rw [if_neg (by omega)]
  split <;> rename_i v hv <;> split at hv
  · cases hv; rw [if_neg (by omega)]
  · split at hv
    · cases hv; rw [if_neg (by omega)]
    · cases hv
  · rfl
  · rfl

theorem intBody_none {s : Str} (h : ∀ c ∈ s, isDig c = false) : intBody 10 s = none := by
  have key : digitsGo 10 false false 0 s = none := by
    cases s with
    | nil => rfl
    | cons c cs =>
      rw [digitsGo, digitVal_none (h c (by simp))]
      simp
  unfold intBody
  split
  · rfl
  · rfl
  · rw [key, ite_self]

/-- Only decimal digits become digits. -/
theorem toAscii_not_dig {c : Char} (h : isDecChar c = false) : isDig (toAscii c) = false := by
  unfold toAscii
  split
  · cases hd : isDig c with
    | false => rfl
    | true => rw [isDecChar_of_isDig hd] at h; cases h
  · split
    · decide
    · rw [isDecChar, Option.isSome_eq_false_iff, Option.isNone_iff_eq_none] at h
      rw [h]
      decide

theorem int_none {s : Str} (h : ∀ c ∈ s, isDecChar c = false) : Py.int 10 s = none := by
  have hs : ∀ c ∈ rstrip isBlank (lstrip isBlank (s.map toAscii)), isDig c = false := by
    intro c hc
    unfold rstrip lstrip at hc
    have h1 := (List.dropWhile_sublist _).mem (List.mem_reverse.mp hc)
    have h2 := (List.dropWhile_sublist _).mem (List.mem_reverse.mp h1)
    obtain ⟨d, hd, rfl⟩ := List.mem_map.mp h2
    exact toAscii_not_dig (h d hd)
  unfold Py.int
  split
  · rename_i rest he
    rw [intBody_none fun c hc => hs c (by rw [he]; simp [hc])]; rfl
  · rename_i rest he
    rw [intBody_none fun c hc => hs c (by rw [he]; simp [hc])]; rfl
  · rw [intBody_none hs]; rfl

/-- C80, other words: a string without decimal digits (of any script), dots and `#` that is not in Slate's table raises
`ValueError`, also if it differs from a name only in case or white space. -/
theorem C80_unknown (s : Str) (h : ∀ c ∈ s, isDecChar c = false ∧ c ≠ '.' ∧ c ≠ '#' ∧ c ≠ ';')
    (hn : namedColors.lookup s = none) : Color.ofString s = .error .valueError := by
  have h5 : startsWith s ['#'] = false := by
    cases s with
    | nil => rfl
    | cons c cs =>
      have := (h c (by simp)).2.2.1
      simp only [startsWith, List.isPrefixOf, Bool.and_true, beq_eq_false_iff_ne]
      exact fun e => this e.symm
  have hd : '.' ∉ s := fun hc => (h _ hc).2.1 rfl
  unfold Color.ofString
  rw [h5, if_neg (by decide), splitC_none fun hc => (h _ hc).2.2.2 rfl]
  simp only [List.getLastD_cons, List.getLastD_nil]
  rw [if_neg hd]
  simp only [hn]
  unfold Color.fromAnsi
  rw [splitC_none fun hc => (h _ hc).2.2.2 rfl]
  simp only [List.getLastD_cons, List.getLastD_nil]
  rw [if_neg hd]
  unfold Color.fromParts
  simp only [List.length_cons, List.length_nil, List.getLastD_cons, List.getLastD_nil]
  rw [if_neg (by omega)]
  unfold Color.pyInt
  rw [int_none fun c hc => (h c hc).1]
  rfl

example : namedColors.lookup "Tomato".toList = none ∧
    ∀ c ∈ "Tomato".toList, isDecChar c = false ∧ c ≠ '.' ∧ c ≠ '#' ∧ c ≠ ';' := by decide +kernel

/-! ### C81 -/

/-- The palette of the standards. -/
def stdPalette (n : Nat) : Nat × Nat × Nat := if n < 16 then vga n else xterm n

theorem palette_std {n : Nat} (h : n < 256) : palette n = stdPalette n := by
  have key : ∀ n ∈ List.range 256, palette n = stdPalette n := by decide +kernel
  exact key n (List.mem_range.mpr h)

/-- C81, 8-bit codes: `38;5;n` and `48;5;n` denote entry `n` of the palette, opaque, in the
foreground and in the background. -/
theorem C81_eight_bit (bg : Bool) (n : Nat) (h : n < 256) :
    ∃ c, Color.fromAnsi ((if bg then "48;5;".toList else "38;5;".toList) ++ dec n) = .ok c ∧
      (c.r, c.g, c.b) = stdPalette n ∧ c.isBg = bg ∧ c.alpha = 1 := by
  have e : (if bg then "48;5;".toList else "38;5;".toList) ++ dec n =
      codeStr [if bg then 48 else 38, 5, n] := by
    cases bg <;> simp [codeStr, join, dec5, dec38, dec48]
  rw [e, ← palette_std h]
  refine ⟨_, fromAnsi_code (CodeNums.idx bg n h), ?_, ?_, ?_⟩ <;> cases bg <;> rfl

example : stdPalette 196 = (255, 0, 0) ∧ stdPalette 244 = (128, 128, 128) ∧ stdPalette 1 = (170, 0, 0) := by
  decide

/-- C81, the other indices raise `ValueError`. -/
theorem C81_index_range (bg : Bool) (n : Nat) (h : 256 ≤ n) :
    Color.fromAnsi ((if bg then "48;5;".toList else "38;5;".toList) ++ dec n) = .error .valueError := by
  have e : (if bg then "48;5;".toList else "38;5;".toList) ++ dec n =
      codeStr [if bg then 48 else 38, 5, n] := by
    cases bg <;> simp [codeStr, join, dec5, dec38, dec48]
  rw [e, fromAnsi_decs]
  unfold Color.fromParts
  simp only [List.map_cons, List.map_nil, List.length_cons, List.length_nil]
  rw [if_neg (by omega)]
  have hl : [dec (if bg then 48 else 38), dec 5, dec n].getLastD [] = dec n := rfl
  rw [hl]
  by_cases hlong : 4300 < (dec n).length
  · rw [Color.pyInt, int_dec_long hlong]
    rfl
  rw [pyInt_dec (by omega), ok_bind]
  simp only [Nat.reduceAdd, Nat.reduceEqDiff, if_false]
  rw [if_neg (by omega)]

/-- C81, standard codes: 30 - 37 and 90 - 97 denote the entries 0 - 7 and 8 - 15 in the
foreground, 40 - 47 and 100 - 107 in the background. -/
theorem C81_standard (bright bg : Bool) (n : Nat) (h : n < 8) :
    ∃ c, Color.fromAnsi (dec ((if bright then 90 else 30) + (if bg then 10 else 0) + n)) = .ok c ∧
      (c.r, c.g, c.b) = vga (n + if bright then 8 else 0) ∧ c.isBg = bg ∧ c.alpha = 1 := by
  have key : ∀ n ∈ List.range 8, ∀ bright bg : Bool,
      (match Color.fromAnsi (dec ((if bright then 90 else 30) + (if bg then 10 else 0) + n)) with
      | .ok c => decide ((c.r, c.g, c.b) = vga (n + if bright then 8 else 0) ∧ c.isBg = bg ∧ c.alpha = 1)
      | .error _ => false) = true := by decide +kernel
  have := key n (List.mem_range.mpr h) bright bg
  revert this
  cases Color.fromAnsi (dec ((if bright then 90 else 30) + (if bg then 10 else 0) + n)) with
  | error e => intro h; cases h
  | ok c => intro h; exact ⟨c, rfl, of_decide_eq_true h⟩

example : vga 1 = (170, 0, 0) ∧ vga 9 = (255, 85, 85) := by decide

/-- C81, bare indices: a code of one number below 16 denotes that entry, as a foreground,
except for 4, which becomes a background. -/
theorem C81_bare_partial (n : Nat) (h : n < 16) (h4 : n ≠ 4) :
    ∃ c, Color.fromAnsi (dec n) = .ok c ∧ (c.r, c.g, c.b) = vga n ∧ c.isBg = false := by
  have key : ∀ n ∈ List.range 16, n ≠ 4 →
      (match Color.fromAnsi (dec n) with
      | .ok c => decide ((c.r, c.g, c.b) = vga n ∧ c.isBg = false)
      | .error _ => false) = true := by decide +kernel
  have := key n (List.mem_range.mpr h) h4
  revert this
  cases Color.fromAnsi (dec n) with
  | error e => intro h; cases h
  | ok c => intro h; exact ⟨c, rfl, of_decide_eq_true h⟩

/-- C81 is violated for the bare index 4, which is a background. -/
theorem C81_bare_violated : ∃ c, Color.fromAnsi "4".toList = .ok c ∧ (c.r, c.g, c.b) = vga 4 ∧
    c.isBg = true := by
  refine ⟨{ r := 0, g := 0, b := 170, isBg := true, origin := .standard, ctor := some "4".toList }, ?_⟩
  decide +kernel

end Slate
