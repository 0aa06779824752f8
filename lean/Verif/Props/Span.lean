import Verif.Lemmas.SpanText
import Verif.Model.Core
import Verif.Spec.Entities

/-!
# Spans: width, characters, slices, copies, escaping and printing
(C24, C26, C27, C28, C29, C35, C36)
-/

namespace Slate
open Py Term

/-! ### C24 -/

/-- C24, for hyperlinks without escape or newline characters and colours whose code
has no `m`, `H` or newline: what `RE_ANSI` leaves of the rendered span is its
text, so all three notions of width agree. -/
theorem C24_visual_width_partial (env : Color.Env) (s : Span) (htext : ∀ c ∈ s.text, c ≠ ESC)
    (hlink : ∀ c ∈ s.hyperlink, c ≠ ESC ∧ c ≠ '\n')
    (hfg : ∀ c, s.fg = some c → CleanCode c) (hbg : ∀ c, s.bg = some c → CleanCode c) :
    subAnsi (s.render env) = s.text ∧
    Core.widthStr (s.render env) = s.text.length ∧
    Core.widthSpan s = s.text.length ∧ s.len = s.text.length := by
  have hcomb : ∀ rest, subAnsi (s.sequences env ++ s.text ++
      (if s.resetAfter && !(s.sequences env).isEmpty then RESET else []) ++ rest) =
      s.text ++ subAnsi rest := by
    intro rest
    rw [List.append_assoc, List.append_assoc, Span.sequences,
      subAnsi_wrapSgr _ (total_bodyChar hfg hbg), subAnsi_text _ (by simpa [ESC] using htext)]
    split
    · rw [subAnsi_reset]
    · rfl
  have key : subAnsi (s.render env) = s.text := by
    unfold Span.render
    simp only
    split
    · have := hcomb []
      simpa using this
    · have h1 := fun rest => subAnsi_osc (body := "8;;".toList ++ s.hyperlink) rest (by
        intro c hc
        rcases List.mem_append.mp hc with hc | hc
        · exact (by decide : ∀ c ∈ "8;;".toList, c ≠ '\x1b' ∧ c ≠ '\n') c hc
        · simpa [ESC] using hlink c hc)
      have h2 := subAnsi_osc (body := "8;;".toList) [] (by decide)
      have e : "\x1b]8;;".toList = '\x1b' :: ']' :: "8;;".toList := rfl
      have e2 : "\x1b\\".toList = ['\x1b', '\\'] := rfl
      have e3 : "\x1b]8;;\x1b\\".toList = '\x1b' :: ']' :: ("8;;".toList ++ '\x1b' :: '\\' :: []) := rfl
      have h3 := h1 (s.sequences env ++ s.text ++
        (if s.resetAfter && !(s.sequences env).isEmpty then RESET else []) ++ "\x1b]8;;\x1b\\".toList)
      rw [hcomb, e3, h2] at h3
      rw [e, e2, e3]
      simpa using h3
  exact ⟨key, by rw [Core.widthStr, key], rfl, rfl⟩

/-- The hypotheses of C24 allow colours, styles and a hyperlink. -/
example : let s : Span := { text := "hi".toList, fg := some { r := 1, g := 2, b := 3 }
                            bg := some { r := 4, g := 5, b := 6, isBg := true, ctor := some "44".toList
                                         origin := .standard }
                            hyperlink := "https://x".toList, style := { bold := true } }
    Core.widthStr (s.render {}) = 2 ∧ (s.render {}).length = 47 := by decide +kernel

/-- C24 fails for a hyperlink with a newline: `.` does not match it, so the opening
sequence is counted as text. -/
theorem C24_newline_hyperlink_violated :
    let s : Span := { text := "a".toList, hyperlink := "x\ny".toList }
    Core.widthSpan s = 1 ∧ Core.widthStr (s.render {}) = 11 := by decide +kernel

/-- C24 fails for a colour made by `from_ansi` from a string with an `H` in it, which
`from_ansi` accepts (only the last part is read as a number). -/
theorem C24_odd_color_violated :
    ∃ c, Color.fromAnsi "H;5;1".toList = .ok c ∧
      let s : Span := { text := "a".toList, fg := some c }
      Core.widthSpan s = 1 ∧ Core.widthStr (s.render {}) = 6 := by
  refine ⟨{ r := 170, g := 0, b := 0, origin := .eightBit, ctor := some "H;5;1".toList }, ?_⟩
  decide +kernel

/-! ### C26 -/

theorem flatten_chars_plain (seqs : Str) (reset : Bool) (text : Str) (h : text ≠ []) :
    (Span.charsGo seqs false reset [] text).flatten =
      text ++ (if !seqs.isEmpty && reset then RESET else []) := by
  induction text with
  | nil => exact absurd rfl h
  | cons c t ih =>
    cases t with
    | nil => simp only [Span.charsGo]; split <;> simp
    | cons d t =>
      rw [Span.charsGo, List.flatten_cons, if_neg (by simp), ih (by simp)]
      simp

/-- C26, except for a single styled character without `reset_after`. -/
theorem C26_characters_join_partial (env : Color.Env) (s : Span) (hlink : s.hyperlink = [])
    (ht : s.text ≠ [])
    (h : s.resetAfter = true ∨ s.sequences env = [] ∨ 2 ≤ s.text.length) :
    (s.getCharacters env false false).flatten = s.render env := by
  unfold Span.getCharacters Span.render
  simp only [hlink, List.isEmpty_nil, if_true]
  generalize s.sequences env = seqs at h
  generalize s.text = text at *
  generalize s.resetAfter = r at *
  rw [if_neg (by simp)]
  cases text with
  | nil => exact absurd rfl ht
  | cons c t =>
    cases t with
    | nil =>
      simp only [Span.charsGo]
      rcases h with h | h | h
      · subst h
        cases seqs <;> simp
      · subst h; simp
      · simp at h
    | cons d t =>
      rw [Span.charsGo, List.flatten_cons, if_neg (by simp), flatten_chars_plain _ _ _ (by simp)]
      simp [Bool.and_comm]

/-- A case of C26 with all the ingredients. -/
example : let s : Span := { text := "ab".toList, style := { bold := true } }
    s.getCharacters {} false false = ["\x1b[1ma".toList, "b\x1b[0m".toList] ∧
    s.render {} = "\x1b[1mab\x1b[0m".toList := by decide +kernel

/-- C26 fails for a single styled character without `reset_after`: the character
loses its style. -/
theorem C26_single_character_violated :
    let s : Span := { text := "a".toList, style := { bold := true }, resetAfter := false }
    (s.getCharacters {} false false).flatten = "a".toList ∧
    s.render {} = "\x1b[1ma".toList := by decide +kernel

/-- C26 in general: without `reset_after` exactly the sequences of single
characters are lost. -/
theorem C26_single_character_exact (env : Color.Env) (s : Span) (c : Char) (ht : s.text = [c])
    (hr : s.resetAfter = false) : s.getCharacters env false false = [[c]] := by
  simp [Span.getCharacters, Span.charsGo, ht, hr]

/-! ### C27 -/

/-- The look asked of the characters of a span. -/
def charAttr (den : Color → TColor) (s : Span) (excludeColor : Bool) : Attr :=
  if excludeColor then applyStyle s.style Attr.clean
  else applyStyle s.style (paintOpt den s.bg (paintOpt den s.fg Attr.clean))

/-- C27 for colours with a code that the terminal understands (`Sendable`: direct,
hex and blended colours in every colour space, canonical ANSI colours). -/
theorem C27_cells_self_contained_partial (env : Color.Env) (den : Color → TColor) (s : Span)
    (excludeColor : Bool) (hr : s.resetAfter = true) (htext : ∀ c ∈ s.text, Printable c)
    (hfg : ∀ x, s.fg = some x → Sendable env x (den x))
    (hbg : ∀ x, s.bg = some x → Sendable env x (den x)) :
    (s.getCharacters env excludeColor true).length = s.text.length ∧
    ∀ (k : Nat) (c : Char) (e : Str), s.text[k]? = some c →
      (s.getCharacters env excludeColor true)[k]? = some e →
      ∀ st : State, st.mode = .ground → st.pen = Attr.clean →
        run st e =
          { st with
            grid := setGrid st.grid st.row st.col { ch := c, attr := charAttr den s excludeColor }
            col := st.col + 1
            log := st.log ++ [(st.row, st.col)]
            pen := if k + 1 = s.text.length then Attr.clean else charAttr den s excludeColor } := by
  -- the opening sequences
  obtain ⟨seqs, hseqs, hrun, hnil⟩ : ∃ seqs, s.getCharacters env excludeColor true =
        Span.charsGo seqs true s.resetAfter seqs s.text ∧
      (∀ (st : State) rest, st.mode = .ground → st.pen = Attr.clean →
        run st (seqs ++ rest) = run { st with pen := charAttr den s excludeColor } rest) ∧
      (seqs = [] → charAttr den s excludeColor = Attr.clean) := by
    cases excludeColor with
    | true =>
      refine ⟨s.colorlessSequences, rfl, ?_, ?_⟩
      · intro st rest hm hp
        rw [Span.colorlessSequences, run_wrapSgr _ _ _ hm, hp]; rfl
      · intro h
        have := run_wrapSgr { grid := fun _ _ => { ch := ' ', attr := Attr.clean } } s.style [] rfl
        rw [Span.colorlessSequences] at h
        rw [h] at this
        have := congrArg State.pen this
        exact this.symm
    | false =>
      refine ⟨s.sequences env, rfl, ?_, ?_⟩
      · intro st rest hm hp
        rw [run_sequences hfg hbg st rest hm, hp]; rfl
      · intro h
        exact sequences_nil hfg hbg h Attr.clean
  rw [hseqs, hr]
  constructor
  · generalize s.text = text
    induction text with
    | nil => rfl
    | cons c t ih =>
      cases t with
      | nil => rfl
      | cons d t => simp only [Span.charsGo, List.length_cons, if_true] at ih ⊢; rw [ih]
  · intro k c e hc he st hm hp
    have hlt := (List.getElem?_eq_some_iff.mp hc).1
    rw [charsGo_getElem?, hc] at he
    simp only [Option.map_some, Option.some.injEq] at he
    have hpr := htext c (List.mem_of_getElem? hc)
    by_cases hk : k + 1 = s.text.length
    · rw [if_neg (by omega)] at he
      rw [if_pos hk]
      by_cases hs : seqs = []
      · subst hs
        have ha := hnil rfl
        subst he
        rw [ha]
        rw [if_neg (by simp), run_cons, step_print _ _ hm hpr, run_nil, hp]
      · rw [if_pos (by simpa using hs)] at he
        subst he
        rw [List.append_assoc, hrun st _ hm hp, List.singleton_append, run_cons,
          step_print _ _ (by exact hm) hpr]
        have := run_reset { st with
          pen := charAttr den s excludeColor
          grid := setGrid st.grid st.row st.col { ch := c, attr := charAttr den s excludeColor }
          col := st.col + 1, log := st.log ++ [(st.row, st.col)] } [] hm
        rw [List.append_nil] at this
        rw [this]; rfl
    · rw [if_pos (by omega)] at he
      subst he
      rw [hrun st _ hm hp, run_cons, step_print _ _ (by exact hm) hpr, if_neg hk]
      rfl

/-- Every colour that was not made from an ANSI string meets the hypothesis. -/
theorem C27_direct_colors (env : Color.Env) (c : Color)
    (h : c.ctor = none ∨ ∃ t, c.ctor = some ('#' :: t)) : Sendable env c (denOf env c) :=
  sendable_of_hex env c h

example : let s : Span := { text := "ab".toList, fg := some { r := 1, g := 2, b := 3 }, style := { bold := true } }
    s.getCharacters {} false true =
      ["\x1b[38;2;1;2;3;1ma".toList, "\x1b[38;2;1;2;3;1mb\x1b[0m".toList] := by decide +kernel

/-- C27 fails for a colour made from a malformed code that `from_ansi` accepts: the
colour is dark red, the terminal shows bold struck-through text instead. -/
theorem C27_odd_color_violated :
    ∃ c, Color.fromAnsi "38;9;1".toList = .ok c ∧ (c.r, c.g, c.b) = (170, 0, 0) ∧
      let s : Span := { text := "a".toList, fg := some c }
      s.getCharacters {} false true = ["\x1b[38;9;1ma\x1b[0m".toList] ∧
      ((run { grid := fun _ _ => { ch := ' ', attr := Attr.clean } }
        (s.getCharacters {} false true).flatten).grid 1 1) =
        { ch := 'a', attr := { bold := true, strike := true } } := by
  refine ⟨{ r := 170, g := 0, b := 0, origin := .eightBit, ctor := some "38;9;1".toList }, ?_⟩
  decide +kernel

/-! ### C36 -/

/-- C36 for colours with a code that the terminal understands. The hyperlink has
no escape and no bell character (either would end it early). -/
theorem C36_printed_span_partial (env : Color.Env) (den : Color → TColor) (s : Span)
    (htext : ∀ c ∈ s.text, Printable c) (hlink : ∀ c ∈ s.hyperlink, c ≠ '\x1b' ∧ c ≠ '\x07')
    (hfg : ∀ x, s.fg = some x → Sendable env x (den x))
    (hbg : ∀ x, s.bg = some x → Sendable env x (den x))
    (st : State) (hm : st.mode = .ground) (hp : st.pen = Attr.clean) :
    let after := run st (s.render env)
    (∀ k c, s.text[k]? = some c →
      after.grid st.row (st.col + k) = { ch := c, attr := charAttr den s false }) ∧
    (∀ r c, ¬ (r = st.row ∧ st.col ≤ c ∧ c < st.col + s.text.length) → after.grid r c = st.grid r c) ∧
    after.row = st.row ∧ after.col = st.col + s.text.length ∧ after.mode = .ground ∧
    after.pen = if s.resetAfter then Attr.clean else charAttr den s false := by
  -- the part without the hyperlink
  have hcomb : ∀ rest, run st (s.sequences env ++ s.text ++
      (if s.resetAfter && !(s.sequences env).isEmpty then RESET else []) ++ rest) =
      run { printed { st with pen := charAttr den s false } s.text with
            pen := if s.resetAfter then Attr.clean else charAttr den s false } rest := by
    intro rest
    rw [List.append_assoc, List.append_assoc, run_sequences hfg hbg st _ hm, hp,
      run_printable _ _ _ (by exact hm) htext]
    by_cases hs : s.sequences env = []
    · have ha : charAttr den s false = Attr.clean := sequences_nil hfg hbg hs Attr.clean
      have hb : spanAttr den s Attr.clean = Attr.clean := ha
      rw [if_neg (by simp [hs]), List.nil_append, ha, hb, ite_self]
      rfl
    · have he : (s.sequences env).isEmpty = false := by simpa using hs
      rw [he]
      cases hr : s.resetAfter with
      | true =>
        simp only [Bool.not_false, Bool.and_self, if_true]
        rw [run_reset _ _ (by exact hm)]; rfl
      | false => rfl
  have key : run st (s.render env) = { printed { st with pen := charAttr den s false } s.text with
      pen := if s.resetAfter then Attr.clean else charAttr den s false } := by
    unfold Span.render
    simp only
    split
    · have := hcomb []
      simpa using this
    · have e : "\x1b]8;;".toList = '\x1b' :: ']' :: "8;;".toList := rfl
      have e2 : "\x1b\\".toList = ['\x1b', '\\'] := rfl
      have e3 : "\x1b]8;;\x1b\\".toList = '\x1b' :: ']' :: ("8;;".toList ++ '\x1b' :: '\\' :: []) := rfl
      have h1 := run_osc st ("8;;".toList ++ s.hyperlink) (s.sequences env ++ s.text ++
        (if s.resetAfter && !(s.sequences env).isEmpty then RESET else []) ++ "\x1b]8;;\x1b\\".toList) hm (by
        intro c hc
        rcases List.mem_append.mp hc with hc | hc
        · exact (by decide : ∀ c ∈ "8;;".toList, c ≠ '\x1b' ∧ c ≠ '\x07') c hc
        · exact hlink c hc)
      have h2 := fun (st : State) (hm : st.mode = .ground) => run_osc st "8;;".toList [] hm (by decide)
      rw [hcomb, e3, h2 _ (by exact hm), run_nil] at h1
      rw [e, e2, e3]
      simpa using h1
  intro after
  have hafter : after = run st (s.render env) := rfl
  rw [key] at hafter
  rw [hafter]
  refine ⟨?_, ?_, rfl, rfl, hm, rfl⟩
  · intro k c hk
    have hlt := (List.getElem?_eq_some_iff.mp hk).1
    simp only [printed]
    rw [if_pos ⟨trivial, by omega, by omega⟩]
    have : st.col + k - st.col = k := by omega
    rw [this, List.getD_eq_getElem?_getD, hk]
    rfl
  · intro r c hn
    simp only [printed]
    rw [if_neg hn]

example : let s : Span := { text := "ab".toList, fg := some { r := 1, g := 2, b := 3 }
                            hyperlink := "u".toList, style := { bold := true } }
    s.render {} = "\x1b]8;;u\x1b\\\x1b[38;2;1;2;3;1mab\x1b[0m\x1b]8;;\x1b\\".toList := by decide +kernel

/-- C36 fails for the malformed colour code of `C27_odd_color_violated`. -/
theorem C36_odd_color_violated :
    ∃ c, Color.fromAnsi "38;9;1".toList = .ok c ∧ (c.r, c.g, c.b) = (170, 0, 0) ∧
      let s : Span := { text := "a".toList, fg := some c }
      ((run { grid := fun _ _ => { ch := ' ', attr := Attr.clean } } (s.render {})).grid 1 1) =
        { ch := 'a', attr := { bold := true, strike := true } } := by
  refine ⟨{ r := 170, g := 0, b := 0, origin := .eightBit, ctor := some "38;9;1".toList }, ?_⟩
  decide +kernel

/-! ### C28 -/

/-- A slice bound: counted from the end if negative, then clamped to the text. -/
def bound (n : Nat) (i : Int) : Nat := (max 0 (min (n : Int) (if i < 0 then i + n else i))).toNat

/-- C28, slices: `span[i:j]` keeps the colours, hyperlink and styles, and its
characters are those from the lower to the upper bound, for all integers and for
missing bounds. -/
theorem C28_slice (s : Span) (i j : Option Int) :
    let n := s.text.length
    let lo := match i with | some i => bound n i | none => 0
    let hi := match j with | some j => bound n j | none => n
    let t := s.slice i j
    t.fg = s.fg ∧ t.bg = s.bg ∧ t.hyperlink = s.hyperlink ∧ t.style = s.style ∧
    t.len = hi - lo ∧
    ∀ k, t.text[k]? = if lo + k < hi then s.text[lo + k]? else none := by
  intro n lo hi t
  refine ⟨rfl, rfl, rfl, rfl, ?_⟩
  have he : ∀ i : Int, Span.sliceBound n i = bound n i := by
    intro i
    unfold Span.sliceBound bound
    split <;> omega
  have ht : t.text = (s.text.take hi).drop lo := by
    change Span.sliceStr s.text i j = _
    unfold Span.sliceStr
    cases i <;> cases j <;> simp only [lo, hi, he, n]
  have hhi : hi ≤ n := by
    cases j with
    | none => exact Nat.le_refl n
    | some j => simp only [hi, bound]; split <;> omega
  constructor
  · unfold Span.len
    rw [ht, List.length_drop, List.length_take]
    omega
  · intro k
    rw [ht, List.getElem?_drop, List.getElem?_take]

example : let s : Span := { text := "hello".toList, style := { bold := true } }
    (s.slice (some (-3)) none).text = "llo".toList ∧ (s.slice (some 1) (some (-1))).text = "ell".toList ∧
    (s.slice (some 4) (some 2)).text = [] ∧ (s.slice (some (-9)) (some 99)).text = "hello".toList := by
  decide +kernel

/-- C28, single characters: `span[i]` is the character at `i` (from the end if
negative) in the same style, and an `IndexError` outside. -/
theorem C28_item (s : Span) (i : Int) :
    (∀ c, -(s.text.length : Int) ≤ i → i < s.text.length →
      s.text[(if i < 0 then i + s.text.length else i).toNat]? = some c →
      ∃ t, s.item i = .ok t ∧ t.text = [c] ∧ t.fg = s.fg ∧ t.bg = s.bg ∧ t.hyperlink = s.hyperlink ∧
        t.style = s.style) ∧
    (¬ (-(s.text.length : Int) ≤ i ∧ i < s.text.length) → s.item i = .error .indexError) := by
  constructor
  · intro c h1 h2 hc
    refine ⟨s.mutate { text := some [c] }, ?_, rfl, rfl, rfl, rfl, rfl⟩
    unfold Span.item
    simp only
    rw [if_neg (by split <;> omega), hc]
  · intro h
    unfold Span.item
    simp only
    by_cases hi : i < 0
    · rw [if_pos hi, if_pos (by omega)]
    · rw [if_neg hi, if_neg hi, List.getElem?_eq_none (by omega)]

theorem splitGo_ne_nil (sep : Str) (k : Nat) (cur s : Str) : splitGo sep k cur s ≠ [] := by
  induction s generalizing k cur with
  | nil => simp [splitGo]
  | cons c cs ih =>
    cases k with
    | succ k => exact ih k cur
    | zero =>
      rw [splitGo]
      split
      · simp
      · exact ih 0 _

theorem join_cons_of_ne {sep a : Str} {l : List Str} (h : l ≠ []) :
    join sep (a :: l) = a ++ sep ++ join sep l := by
  obtain ⟨b, t, rfl⟩ := List.exists_cons_of_ne_nil h
  rfl

theorem splitGo_join (sep : Str) (hsep : sep ≠ []) (k : Nat) (cur s : Str) :
    join sep (splitGo sep k cur s) = cur ++ s.drop k := by
  induction s generalizing k cur with
  | nil => simp [splitGo, join]
  | cons c cs ih =>
    cases k with
    | succ k => rw [splitGo, ih, List.drop_succ_cons]
    | zero =>
      rw [splitGo]
      split
      · rename_i h
        obtain ⟨r, hr⟩ := List.isPrefixOf_iff_prefix.mp h
        rw [join_cons_of_ne (splitGo_ne_nil _ _ _ _), ih, List.nil_append, List.drop_zero, ← hr]
        cases sep with
        | nil => exact absurd rfl hsep
        | cons x sep =>
          rw [List.cons_append] at hr
          injection hr with h1 h2
          subst h1 h2
          simp
      · rw [ih]; simp

theorem splitGo_no_sep (sep : Str) (hsep : sep ≠ []) (k : Nat) (cur s : Str)
    (hk : k = 0 ∨ cur = []) (h : ∀ i < cur.length, ¬ sep <+: cur.drop i ++ s) :
    ∀ p ∈ splitGo sep k cur s, ¬ sep <:+: p := by
  have hinf : ∀ rest, (∀ i < cur.length, ¬ sep <+: cur.drop i ++ rest) → ¬ sep <:+: cur := by
    intro rest hr ⟨a, b, hab⟩
    apply hr a.length
    · rw [← hab]
      have : sep.length ≠ 0 := by simpa using hsep
      simp only [List.length_append]; omega
    · rw [← hab]
      refine ⟨b ++ rest, ?_⟩
      simp
  induction s generalizing k cur with
  | nil =>
    intro p hp
    rw [splitGo, List.mem_singleton] at hp
    subst hp
    exact hinf [] h
  | cons c cs ih =>
    intro p hp
    cases k with
    | succ k =>
      have hc : cur = [] := by rcases hk with h | h; cases h; exact h
      subst hc
      rw [splitGo] at hp
      exact ih k [] (.inr rfl) (by simp) (by simp [hsep]) p hp
    | zero =>
      rw [splitGo] at hp
      split at hp
      · rcases List.mem_cons.mp hp with rfl | hp
        · exact hinf _ h
        · exact ih _ [] (.inr rfl) (by simp) (by simp [hsep]) p hp
      · rename_i hpre
        have hinv : ∀ i < (cur ++ [c]).length, ¬ sep <+: (cur ++ [c]).drop i ++ cs := by
          intro i hi
          by_cases hic : i < cur.length
          · have := h i hic
            rw [List.drop_append_of_le_length (Nat.le_of_lt hic)]
            simpa using this
          · have : i = cur.length := by simp at hi; omega
            subst this
            simp only [List.drop_left]
            intro hp2
            exact hpre (List.isPrefixOf_iff_prefix.mpr (by simpa using hp2))
        refine ih 0 (cur ++ [c]) (.inl rfl) hinv ?_ p hp
        intro rest hr ⟨a, b, hab⟩
        apply hr a.length
        · rw [← hab]
          have : sep.length ≠ 0 := by simpa using hsep
          simp only [List.length_append]; omega
        · rw [← hab]
          exact ⟨b ++ rest, by simp⟩

/-- C28, splitting: for a non-empty separator the parts joined by it give back the
text, no part contains it, and every part has the colours, hyperlink and styles
of the span. -/
theorem C28_split (s : Span) (sep : Str) (hsep : sep ≠ []) :
    ∃ parts, s.split sep = .ok parts ∧ join sep (parts.map (·.text)) = s.text ∧
      ∀ p ∈ parts, ¬ sep <:+: p.text ∧
        p.fg = s.fg ∧ p.bg = s.bg ∧ p.hyperlink = s.hyperlink ∧ p.style = s.style := by
  refine ⟨(splitS sep s.text).map fun p => s.mutate { text := some p }, ?_, ?_, ?_⟩
  · unfold Span.split
    rw [if_neg (by simpa using hsep)]
  · have : (fun p => (s.mutate { text := some p }).text) = id := rfl
    rw [List.map_map]
    change join sep ((splitS sep s.text).map fun p => (s.mutate { text := some p }).text) = _
    rw [this, List.map_id, splitS, splitGo_join _ hsep]
    simp
  · intro p hp
    obtain ⟨t, ht, rfl⟩ := List.mem_map.mp hp
    exact ⟨splitGo_no_sep sep hsep 0 [] s.text (.inl rfl) (by simp) t ht, rfl, rfl, rfl, rfl⟩

/-- An empty separator is an error, as for `str.split`. -/
theorem C28_split_empty (s : Span) : s.split [] = .error .valueError := rfl

example : let s : Span := { text := "a b  c".toList, style := { bold := true } }
    (s.split).map (List.map (·.text)) = .ok ["a".toList, "b".toList, [], "c".toList] := by decide +kernel

/-! ### C29 -/

/-- C29 except for `reset_after`: every given attribute gets its value, every other
one is kept; `reset_after` is kept if it is `True` or given. -/
theorem C29_mutate_partial (s : Span) (u : Span.Update) :
    let t := s.mutate u
    t.text = u.text.getD s.text ∧ t.fg = u.fg.getD s.fg ∧ t.bg = u.bg.getD s.bg ∧
    t.hyperlink = u.hyperlink.getD s.hyperlink ∧
    t.style.bold = u.bold.getD s.style.bold ∧ t.style.dim = u.dim.getD s.style.dim ∧
    t.style.italic = u.italic.getD s.style.italic ∧
    t.style.underline = u.underline.getD s.style.underline ∧
    t.style.blink = u.blink.getD s.style.blink ∧
    t.style.fastBlink = u.fastBlink.getD s.style.fastBlink ∧
    t.style.invert = u.invert.getD s.style.invert ∧
    t.style.conceal = u.conceal.getD s.style.conceal ∧
    t.style.strike = u.strike.getD s.style.strike ∧
    t.style.isOpaque = u.isOpaque.getD s.style.isOpaque ∧
    (s.resetAfter = true ∨ u.resetAfter ≠ none → t.resetAfter = u.resetAfter.getD s.resetAfter) := by
  refine ⟨rfl, rfl, rfl, rfl, rfl, rfl, rfl, rfl, rfl, rfl, rfl, rfl, rfl, rfl, ?_⟩
  intro h
  cases hu : u.resetAfter with
  | some v => simp [Span.mutate, hu]
  | none =>
    rcases h with h | h
    · simp [Span.mutate, hu, h]
    · exact absurd hu h

/-- C29 fails for `reset_after`: it is not among the copied attributes, so any
mutation of a span without reset gives a span with reset. -/
theorem C29_reset_after_violated (s : Span) (u : Span.Update) (h : u.resetAfter = none) :
    (s.mutate u).resetAfter = true := by simp [Span.mutate, h]

example : ({ text := ['a'], resetAfter := false } : Span).mutate { bold := some true } =
    { text := ['a'], style := { bold := true }, resetAfter := true } := by decide

/-! ### C35 -/

theorem replace_single (a : Char) (new s : Str) :
    replace [a] new s = s.flatMap fun c => if c = a then new else [c] := by
  unfold replace
  induction s with
  | nil => rfl
  | cons c cs ih =>
    rw [replaceGo, List.flatMap_cons]
    by_cases h : c = a
    · rw [if_pos (by simp [h]), if_pos h]
      simpa using ih
    · rw [if_neg (by simpa using fun e : a = c => h e.symm), if_neg h, ih]
      rfl

/-- What one character becomes. -/
def escaped (c : Char) : Str :=
  if c = '&' then "&amp;".toList
  else if c = '<' then "&lt;".toList
  else if c = '>' then "&gt;".toList
  else if c = '"' then "&quot;".toList
  else if c = '\'' then "&#x27;".toList
  else if c = ' ' then "&#160;".toList
  else [c]

theorem escapeHtml_eq (s : Str) : escapeHtml s = s.flatMap escaped := by
  unfold escapeHtml htmlEscape
  simp only [replace_single, List.flatMap_assoc]
  congr 1
  funext c
  unfold escaped
  by_cases h1 : c = '&'
  · subst h1; rfl
  by_cases h2 : c = '<'
  · subst h2; rfl
  by_cases h3 : c = '>'
  · subst h3; rfl
  by_cases h4 : c = '"'
  · subst h4; rfl
  by_cases h5 : c = '\''
  · subst h5; rfl
  by_cases h6 : c = ' '
  · subst h6; rfl
  simp only [if_neg h1, if_neg h2, if_neg h3, if_neg h4, if_neg h5, if_neg h6, List.flatMap_cons,
    List.flatMap_nil, List.append_nil]

theorem decode_escaped (c : Char) (rest : Str) :
    Xml.decodeGo none (escaped c ++ rest) =
      (Xml.decodeGo none rest).map ((if c = ' ' then '\u00a0' else c) :: ·) := by
  unfold escaped
  by_cases h1 : c = '&'
  · subst h1; rfl
  by_cases h2 : c = '<'
  · subst h2; rfl
  by_cases h3 : c = '>'
  · subst h3; rfl
  by_cases h4 : c = '"'
  · subst h4; rfl
  by_cases h5 : c = '\''
  · subst h5; rfl
  by_cases h6 : c = ' '
  · subst h6; rfl
  rw [if_neg h1, if_neg h2, if_neg h3, if_neg h4, if_neg h5, if_neg h6, if_neg h6,
    List.singleton_append, Xml.decodeGo, if_neg h1, if_neg (by simp [h2, h3])]

/-- C35: the text put into the SVG has no raw markup, quote or space character, and
it decodes to the original text with spaces as no-break spaces. -/
theorem C35_svg_text_escaped (text : Str) :
    (∀ c ∈ escapeHtml text, c ≠ '<' ∧ c ≠ '>' ∧ c ≠ '"' ∧ c ≠ '\'' ∧ c ≠ ' ') ∧
    Xml.decode (escapeHtml text) = some (text.map fun c => if c = ' ' then '\u00a0' else c) := by
  rw [escapeHtml_eq]
  constructor
  · intro x hx
    obtain ⟨c, -, hc⟩ := List.mem_flatMap.mp hx
    unfold escaped at hc
    split at hc
    · exact (by decide : ∀ x ∈ "&amp;".toList, x ≠ '<' ∧ x ≠ '>' ∧ x ≠ '"' ∧ x ≠ '\'' ∧ x ≠ ' ') x hc
    split at hc
    · exact (by decide : ∀ x ∈ "&lt;".toList, x ≠ '<' ∧ x ≠ '>' ∧ x ≠ '"' ∧ x ≠ '\'' ∧ x ≠ ' ') x hc
    split at hc
    · exact (by decide : ∀ x ∈ "&gt;".toList, x ≠ '<' ∧ x ≠ '>' ∧ x ≠ '"' ∧ x ≠ '\'' ∧ x ≠ ' ') x hc
    split at hc
    · exact (by decide : ∀ x ∈ "&quot;".toList, x ≠ '<' ∧ x ≠ '>' ∧ x ≠ '"' ∧ x ≠ '\'' ∧ x ≠ ' ') x hc
    split at hc
    · exact (by decide : ∀ x ∈ "&#x27;".toList, x ≠ '<' ∧ x ≠ '>' ∧ x ≠ '"' ∧ x ≠ '\'' ∧ x ≠ ' ') x hc
    split at hc
    · exact (by decide : ∀ x ∈ "&#160;".toList, x ≠ '<' ∧ x ≠ '>' ∧ x ≠ '"' ∧ x ≠ '\'' ∧ x ≠ ' ') x hc
    rw [List.mem_singleton.mp hc]
    exact ⟨by assumption, by assumption, by assumption, by assumption, by assumption⟩
  · induction text with
    | nil => rfl
    | cons c cs ih =>
      rw [List.flatMap_cons, List.map_cons]
      unfold Xml.decode at ih ⊢
      rw [decode_escaped, ih]
      rfl

example : escapeHtml "a <b>&'".toList = "a&#160;&lt;b&gt;&amp;&#x27;".toList := by decide +kernel

end Slate
