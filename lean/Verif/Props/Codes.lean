import Verif.Props.Blend
import Verif.Props.Parse
import Verif.Lemmas.Color

/-!
# Hex strings, ANSI codes and colour spaces (C37, C38, C41, C46, C50)
-/

namespace Slate
open Py

/-! ## C50 -/

/-- The intended order of the colour spaces. -/
def spaceRank : ColorSpace → Nat
  | .standard => 0
  | .noColor => 1
  | .eightBit => 2
  | .trueColor => 3

/-- C50: the comparison operators between two colour spaces are those of the chain
`standard < no_color < eight_bit < true_color` (a total order, `spaceRank` being
injective). -/
theorem C50_order (a b : ColorSpace) :
    a.gt (.space b) = .ok (decide (spaceRank b < spaceRank a)) ∧
    a.ge (.space b) = .ok (decide (spaceRank b ≤ spaceRank a)) ∧
    a.lt (.space b) = .ok (decide (spaceRank a < spaceRank b)) ∧
    a.le (.space b) = .ok (decide (spaceRank a ≤ spaceRank b)) ∧
    a.eq (.space b) = .ok (decide (a = b)) ∧ (spaceRank a = spaceRank b ↔ a = b) := by
  cases a <;> cases b <;> decide

theorem ofValue_value (b : ColorSpace) : ColorSpace.ofValue b.value = some b := by
  cases b <;> decide

theorem ofValue_some {s : Str} {b : ColorSpace} (h : ColorSpace.ofValue s = some b) : s = b.value := by
  unfold ColorSpace.ofValue at h
  split at h
  · cases h; assumption
  split at h
  · cases h; assumption
  split at h
  · cases h; assumption
  split at h
  · cases h; assumption
  cases h

/-- C50: `>`, `>=` and `==` against a name compare with the space of that name. -/
theorem C50_names (a b : ColorSpace) :
    a.gt (.name b.value) = a.gt (.space b) ∧ a.ge (.name b.value) = a.ge (.space b) ∧
    a.eq (.name b.value) = a.eq (.space b) := by
  unfold ColorSpace.ge ColorSpace.gt ColorSpace.eq ColorSpace.Arg.resolve
  simp only [ofValue_value, and_self]

/-- C50: `>`, `>=` and `==` against an unknown name raise `ValueError`. -/
theorem C50_unknown (a : ColorSpace) (s : Str) (h : ∀ b : ColorSpace, s ≠ b.value) :
    a.gt (.name s) = .error .valueError ∧ a.ge (.name s) = .error .valueError ∧
    a.eq (.name s) = .error .valueError := by
  have : ColorSpace.ofValue s = none := by
    cases hv : ColorSpace.ofValue s with
    | none => rfl
    | some b => exact absurd (ofValue_some hv) (h b)
  unfold ColorSpace.ge ColorSpace.gt ColorSpace.eq ColorSpace.Arg.resolve
  simp only [this, and_self]

example : ColorSpace.gt .eightBit (.name "256".toList) = .error .valueError ∧
    ColorSpace.ge .eightBit (.name "no_color".toList) = .ok true := by decide

/-- C50 is violated for `<` and `<=`: against a name they raise `TypeError`, even if
the name is known. -/
theorem C50_less_violated (a b : ColorSpace) :
    a.lt (.name b.value) = .error .typeError ∧ a.le (.name b.value) = .error .typeError :=
  ⟨rfl, rfl⟩

/-! ## C37 -/

/-- The hexadecimal digits, upper and lower case, with their values. -/
def hexDigits : List (Char × Nat) :=
  [('0', 0), ('1', 1), ('2', 2), ('3', 3), ('4', 4), ('5', 5), ('6', 6), ('7', 7), ('8', 8), ('9', 9),
   ('A', 10), ('B', 11), ('C', 12), ('D', 13), ('E', 14), ('F', 15),
   ('a', 10), ('b', 11), ('c', 12), ('d', 13), ('e', 14), ('f', 15)]

/-- `ch` is a hexadecimal digit of value `v`. -/
def HexDigit (ch : Char) (v : Nat) : Prop := (ch, v) ∈ hexDigits

/-- Upper-case hexadecimal digits. -/
def UpperHex (ch : Char) : Prop := ch ∈ "0123456789ABCDEF".toList

theorem pyInt_hex {a b : Char} {x y : Nat} (ha : HexDigit a x) (hb : HexDigit b y) :
    Color.pyInt 16 [a, b] = .ok ((16 * x + y : Nat) : Int) := by
  have key : ∀ p ∈ hexDigits, ∀ q ∈ hexDigits,
      Color.pyInt 16 [p.1, q.1] = .ok ((16 * p.2 + q.2 : Nat) : Int) := by decide +kernel
  exact key (a, x) ha (b, y) hb

theorem HexDigit.lt {a : Char} {x : Nat} (h : HexDigit a x) : x < 16 := by
  have key : ∀ p ∈ hexDigits, p.2 < 16 := by decide
  exact key (a, x) h

theorem HexDigit.ne {a : Char} {x : Nat} (h : HexDigit a x) : (a == '#') = false := by
  have key : ∀ p ∈ hexDigits, (p.1 == '#') = false := by decide
  exact key (a, x) h

theorem fromHex_digits {a b c d e f : Char} {x1 x2 x3 x4 x5 x6 : Nat} (ha : HexDigit a x1)
    (hb : HexDigit b x2) (hc : HexDigit c x3) (hd : HexDigit d x4) (he : HexDigit e x5)
    (hf : HexDigit f x6) (al : Rat) :
    Color.fromHex ['#', a, b, c, d, e, f] al =
      .ok ⟨16 * x1 + x2, 16 * x3 + x4, 16 * x5 + x6, false, al, .trueColor,
        some ['#', a, b, c, d, e, f]⟩ := by
  unfold Color.fromHex
  have e1 : lstrip (· == '#') ['#', a, b, c, d, e, f] = [a, b, c, d, e, f] := by
    simp only [lstrip, List.dropWhile, ha.ne]; rfl
  rw [e1]
  simp only [List.take, List.drop]
  rw [pyInt_hex ha hb, ok_bind, pyInt_hex hc hd, ok_bind, pyInt_hex he hf, ok_bind]
  have := ha.lt; have := hb.lt; have := hc.lt; have := hd.lt; have := he.lt; have := hf.lt
  exact make_nat (by omega) (by omega) (by omega) ..

/-- C37: `color('#RRGGBB')` has the channels `RR`, `GG`, `BB` and alpha 1. -/
theorem C37_six_digits (a b c d e f : Char) (x1 x2 x3 x4 x5 x6 : Nat) (ha : HexDigit a x1)
    (hb : HexDigit b x2) (hc : HexDigit c x3) (hd : HexDigit d x4) (he : HexDigit e x5)
    (hf : HexDigit f x6) :
    ∃ col, Color.ofString ['#', a, b, c, d, e, f] = .ok col ∧
      col.r = 16 * x1 + x2 ∧ col.g = 16 * x3 + x4 ∧ col.b = 16 * x5 + x6 ∧ col.alpha = 1 ∧
      col.isBg = false := by
  have := fromHex_digits ha hb hc hd he hf 1
  have e : Color.ofString ['#', a, b, c, d, e, f] = Color.fromHex ['#', a, b, c, d, e, f] 1 := by
    unfold Color.ofString
    rw [if_pos (by simp [startsWith]), if_neg (by simp)]
  rw [e]
  exact ⟨_, this, rfl, rfl, rfl, rfl, rfl⟩

/-- C37: `color('#RRGGBBAA')` has the channels `RR`, `GG`, `BB` and the alpha `AA / 255`
(as a float division). -/
theorem C37_eight_digits (a b c d e f g h : Char) (x1 x2 x3 x4 x5 x6 x7 x8 : Nat) (ha : HexDigit a x1)
    (hb : HexDigit b x2) (hc : HexDigit c x3) (hd : HexDigit d x4) (he : HexDigit e x5)
    (hf : HexDigit f x6) (hg : HexDigit g x7) (hh : HexDigit h x8) :
    ∃ col, Color.ofString ['#', a, b, c, d, e, f, g, h] = .ok col ∧
      col.r = 16 * x1 + x2 ∧ col.g = 16 * x3 + x4 ∧ col.b = 16 * x5 + x6 ∧
      col.alpha = fl (((16 * x7 + x8 : Nat) : Rat) / 255) ∧ col.isBg = false := by
  have := fromHex_digits ha hb hc hd he hf (fl (((16 * x7 + x8 : Nat) : Rat) / 255))
  have e : Color.ofString ['#', a, b, c, d, e, f, g, h] =
      Color.fromHex ['#', a, b, c, d, e, f] (fl (((16 * x7 + x8 : Nat) : Rat) / 255)) := by
    unfold Color.ofString
    rw [if_pos (by simp [startsWith]), if_pos (by simp)]
    have e1 : ['#', a, b, c, d, e, f, g, h].drop 7 = [g, h] := rfl
    have e2 : ['#', a, b, c, d, e, f, g, h].take 7 = ['#', a, b, c, d, e, f] := rfl
    rw [e1, e2, pyInt_hex hg hh, ok_bind]
    rw [Int.cast_natCast]
  rw [e]
  exact ⟨_, this, rfl, rfl, rfl, rfl, rfl⟩

theorem hexDigit_spec {n : Nat} (h : n < 16) : HexDigit (hexDigit n) n ∧ UpperHex (hexDigit n) := by
  have key : ∀ n ∈ List.range 16, HexDigit (hexDigit n) n ∧ UpperHex (hexDigit n) := by
    unfold HexDigit UpperHex; decide
  exact key n (List.mem_range.mpr h)

/-- C37: `c.hex` is `#` and six upper-case digits, and `color(c.hex)` has the RGB of `c`. -/
theorem C37_round_trip (c : Color) (hc : c.Valid) :
    (∃ ds, c.hex = '#' :: ds ∧ ds.length = 6 ∧ ∀ ch ∈ ds, UpperHex ch) ∧
    ∃ col, Color.ofString c.hex = .ok col ∧ col.SameRgb c ∧ col.alpha = 1 := by
  obtain ⟨hr, hg, hb⟩ := hc
  have h1 := hexDigit_spec (n := c.r / 16) (by omega)
  have h2 := hexDigit_spec (n := c.r % 16) (by omega)
  have h3 := hexDigit_spec (n := c.g / 16) (by omega)
  have h4 := hexDigit_spec (n := c.g % 16) (by omega)
  have h5 := hexDigit_spec (n := c.b / 16) (by omega)
  have h6 := hexDigit_spec (n := c.b % 16) (by omega)
  refine ⟨⟨_, rfl, rfl, ?_⟩, ?_⟩
  · intro ch hch
    simp only [hex2, List.cons_append, List.nil_append, List.mem_cons, List.not_mem_nil, or_false] at hch
    rcases hch with rfl | rfl | rfl | rfl | rfl | rfl
    exacts [h1.2, h2.2, h3.2, h4.2, h5.2, h6.2]
  · obtain ⟨col, e, r1, g1, b1, a1, -⟩ := C37_six_digits _ _ _ _ _ _ _ _ _ _ _ _ h1.1 h2.1 h3.1 h4.1 h5.1 h6.1
    refine ⟨col, e, ⟨?_, ?_, ?_⟩, a1⟩
    · rw [r1]; omega
    · rw [g1]; omega
    · rw [b1]; omega

example : Color.ofString "#0aF3cC80".toList =
    .ok ⟨10, 243, 204, false, fl (128 / 255), .trueColor, some "#0aF3cC".toList⟩ := by decide +kernel

/-! ## C38: strings give valid colours or raise -/

theorem make_ok {r g b : Int} {bg : Bool} {al : Rat} {o : ColorSpace} {k : Option Str} {c : Color}
    (h : Color.make (r, g, b) bg al o k = .ok c) : c.Valid :=
  ((C38_make r g b bg al o k).2.1 c h).1

theorem bind_ok' {α β : Type} {x : Except PyErr α} {f : α → Except PyErr β} {y : β}
    (h : (x >>= f) = .ok y) : ∃ a, x = .ok a ∧ f a = .ok y := by
  cases x with
  | error e => cases h
  | ok a => exact ⟨a, rfl, h⟩

theorem fromParts_valid {ansi : Str} {ps : List Str} {al : Rat} {c : Color}
    (h : Color.fromParts ansi ps al = .ok c) : c.Valid := by
  unfold Color.fromParts at h
  split at h
  · cases h
  split at h
  · split at h
    · obtain ⟨r, -, h⟩ := bind_ok' h
      obtain ⟨g, -, h⟩ := bind_ok' h
      obtain ⟨b, -, h⟩ := bind_ok' h
      exact make_ok h
    · cases h
  · obtain ⟨i, -, h⟩ := bind_ok' h
    simp only at h
    split at h
    all_goals
      split at h
      · split at h
        · exact make_ok h
        · cases h
      · cases h

theorem fromAnsi_valid {ansi : Str} {al : Rat} {c : Color} (h : Color.fromAnsi ansi al = .ok c) :
    c.Valid := by
  unfold Color.fromAnsi at h
  simp only at h
  split at h
  · split at h
    · cases h
    · exact fromParts_valid h
  · exact fromParts_valid h

theorem fromHex_valid {s : Str} {al : Rat} {c : Color} (h : Color.fromHex s al = .ok c) :
    c.Valid := by
  unfold Color.fromHex at h
  obtain ⟨r, -, h⟩ := bind_ok' h
  obtain ⟨g, -, h⟩ := bind_ok' h
  obtain ⟨b, -, h⟩ := bind_ok' h
  exact make_ok h

/-- C38: `from_ansi`, `from_hex`, `color(str)` and `color(tuple)` either raise or give a
valid colour, for every string and number. -/
theorem C38_parsers (s : Str) (al : Rat) (rgb : Int × Int × Int) (oal : Option Rat) (c : Color) :
    (Color.fromAnsi s al = .ok c → c.Valid) ∧ (Color.fromHex s al = .ok c → c.Valid) ∧
    (Color.ofString s = .ok c → c.Valid) ∧ (Color.ofTuple rgb oal = .ok c → c.Valid) := by
  refine ⟨fromAnsi_valid, fromHex_valid, ?_, make_ok⟩
  intro h
  unfold Color.ofString at h
  split at h
  · split at h
    · obtain ⟨a, -, h⟩ := bind_ok' h
      exact fromHex_valid h
    · exact fromHex_valid h
  · simp only at h
    split at h
    · split at h
      · cases h
      · split at h
        · exact fromHex_valid h
        · exact fromAnsi_valid h
    · split at h
      · exact fromHex_valid h
      · exact fromAnsi_valid h

/-! ## C41 -/

/-- A colour constructed directly or from a hex string. -/
def Color.Direct (c : Color) : Prop := c.ctor = none ∨ ∃ t, c.ctor = some ('#' :: t)

theorem ansi_direct (env : Color.Env) {c : Color} (h : c.Direct) : c.ansi env = c.convert env := by
  rcases h with h | ⟨t, h⟩
  · rw [Color.ansi, h]
  · rw [Color.ansi, h]
    simp [startsWith]

theorem ansi_trueColor {env : Color.Env} (henv : env.space = .trueColor) {c : Color} (h : c.Direct) :
    c.ansi env = codeStr [if c.isBg then 48 else 38, 2, c.r, c.g, c.b] := by
  rw [ansi_direct env h, Color.convert, henv]
  simp [codeStr, join, Color.lead, dec2]

/-- C41: in a true-colour terminal, parsing the code of a directly constructed or hex
colour gives its RGB and role back. -/
theorem C41_round_trip (env : Color.Env) (henv : env.space = .trueColor) (c : Color) (hc : c.Valid)
    (h : c.Direct) :
    ∃ d, Color.fromAnsi (c.ansi env) = .ok d ∧ d.SameRgb c ∧ d.isBg = c.isBg := by
  rw [ansi_trueColor henv h]
  have := fromAnsi_code (CodeNums.rgb c.isBg c.r c.g c.b (by have := hc.1; omega)
    (by have := hc.2.1; omega) (by have := hc.2.2; omega))
  refine ⟨_, this, ⟨rfl, rfl, rfl⟩, ?_⟩
  unfold codeColor
  cases c.isBg <;> rfl

/-- C41: colours with the same code have the same RGB and role. -/
theorem C41_injective (env : Color.Env) (henv : env.space = .trueColor) (c d : Color) (hc : c.Valid)
    (hd : d.Valid) (h : c.Direct) (h' : d.Direct) (he : c.ansi env = d.ansi env) :
    c.SameRgb d ∧ c.isBg = d.isBg := by
  obtain ⟨x, hx, ⟨r1, g1, b1⟩, i1⟩ := C41_round_trip env henv c hc h
  obtain ⟨y, hy, ⟨r2, g2, b2⟩, i2⟩ := C41_round_trip env henv d hd h'
  rw [he, hy] at hx
  cases hx
  exact ⟨⟨r1.symm.trans r2, g1.symm.trans g2, b1.symm.trans b2⟩, i1.symm.trans i2⟩

example : (Color.ansi {} { r := 1, g := 20, b := 255, isBg := true }) = "48;2;1;20;255".toList := by
  decide +kernel

/-! ## C46 -/

theorem join_splitC (c : Char) (s : Str) : join [c] (splitC c s) = s := by
  induction s with
  | nil => rfl
  | cons x xs ih =>
    unfold splitC
    split
    · rename_i h
      subst h
      cases hs : splitC x xs with
      | nil => exact absurd hs (splitC_ne_nil x xs)
      | cons a t => rw [join, ← hs, ih]; simp
    · cases hs : splitC c xs with
      | nil => exact absurd hs (splitC_ne_nil c xs)
      | cons a t =>
        rw [hs] at ih
        cases t with
        | nil => simp only [join] at ih ⊢; rw [ih]
        | cons b t => simp only [join] at ih ⊢; rw [← ih]; simp

/-- The colour space of a code: by its number of parts. -/
def codeSpace (s : Str) : ColorSpace :=
  if (s.filter (· == ';')).length = 0 then .standard
  else if (s.filter (· == ';')).length ≤ 2 then .eightBit
  else .trueColor

theorem splitC_length (c : Char) (s : Str) : (splitC c s).length = (s.filter (· == c)).length + 1 := by
  induction s with
  | nil => rfl
  | cons x xs ih =>
    unfold splitC
    split
    · rename_i h; subst h; simp [ih]
    · rename_i h
      cases hs : splitC c xs with
      | nil => exact absurd hs (splitC_ne_nil c xs)
      | cons a t =>
        rw [hs] at ih
        have : (x == c) = false := by simpa using h
        simp only [List.filter_cons, this, List.length_cons] at ih ⊢
        simpa using ih

theorem make_fields {r g b : Int} {bg : Bool} {al : Rat} {o : ColorSpace} {k : Option Str} {c : Color}
    (h : Color.make (r, g, b) bg al o k = .ok c) : c.origin = o ∧ c.ctor = k ∧ c.isBg = bg ∧ c.alpha = al := by
  unfold Color.make at h
  split at h
  · cases h; exact ⟨rfl, rfl, rfl, rfl⟩
  · cases h

theorem fromAnsi_ctor {s : Str} {al : Rat} {c : Color} (h : Color.fromAnsi s al = .ok c)
    (hal : '.' ∉ (splitC ';' s).getLastD []) :
    c.ctor = some s ∧ c.origin = codeSpace s ∧ c.alpha = al := by
  unfold Color.fromAnsi at h
  simp only at h
  rw [if_neg hal] at h
  have hlen := splitC_length ';' s
  have hj := join_splitC ';' s
  unfold Color.fromParts at h
  split at h
  · cases h
  unfold codeSpace
  split at h
  · split at h
    · obtain ⟨r, -, h⟩ := bind_ok' h
      obtain ⟨g, -, h⟩ := bind_ok' h
      obtain ⟨b, -, h⟩ := bind_ok' h
      obtain ⟨h1, h2, -, h4⟩ := make_fields h
      rw [hj] at h2
      refine ⟨h2, ?_, h4⟩
      rw [h1]
      split_ifs <;> first | rfl | omega
    · cases h
  · obtain ⟨i, -, h⟩ := bind_ok' h
    simp only at h
    split at h
    all_goals
      split at h
      · split at h
        · obtain ⟨h1, h2, -, h4⟩ := make_fields h
          refine ⟨h2, ?_, h4⟩
          rw [h1]
          split_ifs <;> first | rfl | omega
        · cases h
      · cases h

/-- C46: a colour made by `from_ansi` from a code without an alpha suffix (and not
starting with `#`) is emitted exactly as given if the colour space is at least that of
the code, and converted from its RGB value otherwise. With an alpha suffix see
`C46_alpha_violated`, with a leading `#` see `C46_hash_violated`. -/
theorem C46_verbatim_partial (env : Color.Env) (s : Str) (al : Rat) (c : Color)
    (h : Color.fromAnsi s al = .ok c) (hal : '.' ∉ (splitC ';' s).getLastD [])
    (hh : startsWith s ['#'] = false) :
    c.ansi env = if spaceRank (codeSpace s) ≤ spaceRank env.space then s
      else Color.convert env { c with ctor := none } := by
  obtain ⟨h1, h2, -⟩ := fromAnsi_ctor h hal
  have hg : ColorSpace.geB env.space c.origin = decide (spaceRank (codeSpace s) ≤ spaceRank env.space) := by
    rw [h2]; unfold ColorSpace.geB; rw [(C50_order env.space (codeSpace s)).2.1]
  rw [Color.ansi, h1]
  simp only [hg, hh]
  by_cases hr : spaceRank (codeSpace s) ≤ spaceRank env.space
  · simp [hr]
  · simp only [hr]
    rfl

/-- C46 is violated for true-colour codes with an alpha suffix: the suffix is dropped. -/
theorem C46_alpha_violated :
    ∃ c, Color.fromAnsi "38;2;1;2;3;0.5".toList = .ok c ∧ c.ansi {} = "38;2;1;2;3".toList := by
  exact ⟨⟨1, 2, 3, false, 1/2, .trueColor, some "38;2;1;2;3".toList⟩, by decide +kernel, by decide +kernel⟩

/-- C46 is violated for malformed codes that `from_ansi` accepts: one starting with `#`
is converted. -/
theorem C46_hash_violated :
    ∃ c, Color.fromAnsi "#;5;1".toList = .ok c ∧ c.ansi {} = "38;2;170;0;0".toList := by
  exact ⟨⟨170, 0, 0, false, 1, .eightBit, some "#;5;1".toList⟩, by decide +kernel, by decide +kernel⟩

theorem codeColor_origin {ns : List Nat} (h : CodeNums ns) :
    (codeColor ns).ctor = some (codeStr ns) := by
  cases h <;> rfl

/-- The converted code of a valid colour is a canonical code of the same role. -/
theorem convert_code (env : Color.Env) (henv : ∀ r g b, env.grey r g b < 256) (c : Color) (hc : c.Valid) :
    ∃ ns, CodeNums ns ∧ c.convert env = codeStr ns ∧ (codeColor ns).isBg = c.isBg := by
  obtain ⟨hr, hg, hb⟩ := hc
  unfold Color.convert Color.lead
  cases env.space with
  | trueColor =>
    refine ⟨_, CodeNums.rgb c.isBg c.r c.g c.b (by omega) (by omega) (by omega), ?_, ?_⟩
    · simp [codeStr, join, dec2]
    · unfold codeColor; cases c.isBg <;> rfl
  | noColor =>
    refine ⟨_, CodeNums.idx c.isBg (env.grey c.r c.g c.b) (henv ..), ?_, ?_⟩
    · simp [codeStr, join, dec5]
    · unfold codeColor; cases c.isBg <;> rfl
  | eightBit =>
    have lvl : ∀ x ∈ List.range 256, Color.cubeLevel x ≤ 5 := by decide +kernel
    have l1 := lvl c.r (List.mem_range.mpr (by omega))
    have l2 := lvl c.g (List.mem_range.mpr (by omega))
    have l3 := lvl c.b (List.mem_range.mpr (by omega))
    refine ⟨_, CodeNums.idx c.isBg c.cubeIndex (by unfold Color.cubeIndex; omega), ?_, ?_⟩
    · simp [codeStr, join, dec5]
    · unfold codeColor; cases c.isBg <;> rfl
  | standard =>
    have hlt := nearestStd_lt (c.r, c.g, c.b)
    have key : ∀ i ∈ List.range 16, ∀ bg : Bool,
        ((30 ≤ Color.stdCode i bg ∧ Color.stdCode i bg ≤ 37) ∨ (40 ≤ Color.stdCode i bg ∧ Color.stdCode i bg ≤ 47) ∨
        (90 ≤ Color.stdCode i bg ∧ Color.stdCode i bg ≤ 97) ∨
        (100 ≤ Color.stdCode i bg ∧ Color.stdCode i bg ≤ 107)) ∧
        (codeColor [Color.stdCode i bg]).isBg = bg := by decide +kernel
    obtain ⟨k1, k2⟩ := key _ (List.mem_range.mpr hlt) c.isBg
    exact ⟨_, CodeNums.std _ k1, rfl, k2⟩

theorem codeColor_valid {ns : List Nat} (h : CodeNums ns) : (codeColor ns).Valid :=
  fromAnsi_valid (fromAnsi_code h)

/-- C46: whatever is emitted for a colour made from a standard, 8-bit or true-colour
code, in any colour space, parses back to a colour with the same role. -/
theorem C46_role (env : Color.Env) (henv : ∀ r g b, env.grey r g b < 256) (ns : List Nat)
    (h : CodeNums ns) :
    ∃ c, Color.fromAnsi (codeStr ns) = .ok c ∧
    ∃ d, Color.fromAnsi (c.ansi env) = .ok d ∧ d.isBg = c.isBg := by
  refine ⟨_, fromAnsi_code h, ?_⟩
  have hk := codeColor_origin h
  have hh : startsWith (codeStr ns) ['#'] = false := codeStr_head
  rw [Color.ansi, hk]
  simp only [hh]
  by_cases hg : env.space.geB (codeColor ns).origin = true
  · simp only [hg, Bool.not_false, Bool.and_self, if_true]
    exact ⟨_, fromAnsi_code h, rfl⟩
  · simp only [hg]
    obtain ⟨ms, h1, h2, h3⟩ := convert_code env henv (codeColor ns) (codeColor_valid h)
    exact ⟨_, by simpa [h2] using fromAnsi_code h1, h3⟩

example : CodeNums [101] ∧ CodeNums [48, 5, 200] ∧ CodeNums [38, 2, 1, 2, 3] :=
  ⟨.std _ (by decide), .idx true 200 (by decide), .rgb false 1 2 3 (by decide) (by decide) (by decide)⟩

end Slate
