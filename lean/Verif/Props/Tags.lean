import Verif.Model.Tags

/-!
# C110 Markup
-/

namespace Slate
open Py

namespace Tags

/-! ## Specification -/

/-- The styles that a tag can name. -/
inductive StyleName where
  | bold | dim | italic | underline | blink | fastBlink | invert | conceal | strike | opaque

/-- The name in a tag. -/
def StyleName.name : StyleName → Str
  | .bold => "bold".toList
  | .dim => "dim".toList
  | .italic => "italic".toList
  | .underline => "underline".toList
  | .blink => "blink".toList
  | .fastBlink => "fast_blink".toList
  | .invert => "invert".toList
  | .conceal => "conceal".toList
  | .strike => "strike".toList
  | .opaque => "opaque".toList

/-- Switching a style on or off. -/
def StyleName.switch (on : Bool) (s : Style) : StyleName → Style
  | .bold => { s with bold := on }
  | .dim => { s with dim := on }
  | .italic => { s with italic := on }
  | .underline => { s with underline := on }
  | .blink => { s with blink := on }
  | .fastBlink => { s with fastBlink := on }
  | .invert => { s with invert := on }
  | .conceal => { s with conceal := on }
  | .strike => { s with strike := on }
  | .opaque => { s with isOpaque := on }

/-- A tag that switches a style on, or with a slash off. -/
def tagText (t : StyleName × Bool) : Str := if t.2 then t.1.name else '/' :: t.1.name

/-- A piece of a document: tags, and the text they are in front of. -/
structure Piece where
  tags : List Str
  text : Str

/-- `[tag tag ...]text` -/
def Piece.source (p : Piece) : Str := '[' :: join [' '] p.tags ++ ']' :: p.text

/-- There is at least one tag, the tags are words, and there is text; no brackets. -/
structure Piece.Ok (p : Piece) : Prop where
  tags : p.tags ≠ []
  word : ∀ t ∈ p.tags, t ≠ [] ∧ ∀ c ∈ t, isSpace c = false ∧ c ≠ '[' ∧ c ≠ ']'
  text : p.text ≠ []
  plain : ∀ c ∈ p.text, c ≠ '[' ∧ c ≠ ']'

/-- A document: text without tags (possibly none), and pieces. -/
def document (first : Str) (pieces : List Piece) : Str := first ++ pieces.flatMap Piece.source

/-- A piece whose tags are styles. -/
def stylePiece (tags : List (StyleName × Bool)) (text : Str) : Piece := ⟨tags.map tagText, text⟩

/-- What a list of style tags means. -/
def switchAll (tags : List (StyleName × Bool)) (s : Style) : Style := tags.foldl (fun s t => t.1.switch t.2 s) s

/-- The spans that a document with style tags denotes: a style is on from the tag that switches it on to the one that
switches it off. -/
def denoted : Style → List (List (StyleName × Bool) × Str) → List Span
  | _, [] => []
  | s, (tags, text) :: rest => { text := text, style := switchAll tags s } :: denoted (switchAll tags s) rest

/-! ## The regular expression on documents -/

theorem plainChar_iff (c : Char) : plainChar c = true ↔ c ≠ '[' ∧ c ≠ ']' := by
  simp [plainChar]

/-- What may follow a text: nothing or a tag. -/
def Follows (rest : Str) : Prop := rest = [] ∨ ∃ r, rest = '[' :: r

theorem plainAt_text {text rest : Str} (h0 : text ≠ []) (hp : ∀ c ∈ text, c ≠ '[' ∧ c ≠ ']') (hr : Follows rest) :
    plainAt (text ++ rest) = some (text, rest) := by
  have hp' : ∀ c ∈ text, plainChar c = true := fun c hc => (plainChar_iff c).mpr (hp c hc)
  have h1 : (text ++ rest).takeWhile plainChar = text := by
    rw [List.takeWhile_append_of_pos hp']
    rcases hr with rfl | ⟨r, rfl⟩
    · simp
    · simp [plainChar]
  have h2 : (text ++ rest).dropWhile plainChar = rest := by
    rw [List.dropWhile_append_of_pos hp']
    rcases hr with rfl | ⟨r, rfl⟩
    · rfl
    · simp [plainChar]
  unfold plainAt
  simp only [h1, h2, if_neg h0]
  rcases hr with rfl | ⟨r, rfl⟩ <;> rfl

theorem bodyAt_body (text rest : Str) (h0 : text ≠ []) (hp : ∀ c ∈ text, c ≠ '[' ∧ c ≠ ']') (hr : Follows rest) :
    ∀ (body acc : Str), acc ++ body ≠ [] → (∀ c ∈ body, c ≠ '\n' ∧ c ≠ ']') →
      bodyAt acc (body ++ ']' :: (text ++ rest)) = some (acc ++ body, text, rest)
  | [], acc, hne, _ => by
    rw [List.append_nil] at hne
    rw [List.nil_append, bodyAt, if_pos ⟨rfl, hne⟩, plainAt_text h0 hp hr, List.append_nil]
  | c :: body, acc, _, hb => by
    obtain ⟨h1, h2⟩ := hb c (by simp)
    rw [List.cons_append, bodyAt, if_neg (fun h => h2 h.1)]
    simp only
    rw [if_neg h1, bodyAt_body text rest h0 hp hr body (acc ++ [c]) (by simp) (fun d hd => hb d (by simp [hd])),
      List.append_assoc]
    rfl

theorem mem_join {sep : Str} {c : Char} : ∀ {l : List Str}, c ∈ join sep l → c ∈ sep ∨ ∃ s ∈ l, c ∈ s
  | [], h => by cases h
  | [a], h => .inr ⟨a, by simp, h⟩
  | a :: b :: t, h => by
    rw [join, List.append_assoc, List.mem_append, List.mem_append] at h
    rcases h with h | h | h
    · exact .inr ⟨a, by simp, h⟩
    · exact .inl h
    · rcases mem_join h with h | ⟨s, hs, h⟩
      · exact .inl h
      · exact .inr ⟨s, by simp [hs], h⟩

theorem join_ne_nil {sep : Str} : ∀ {l : List Str}, l ≠ [] → (∀ s ∈ l, s ≠ []) → join sep l ≠ []
  | [], h, _ => absurd rfl h
  | [a], _, h => h a (by simp)
  | a :: b :: t, _, h => by
    rw [join, List.append_assoc]
    intro he
    exact h a (by simp) (List.append_eq_nil_iff.mp he).1

theorem matchAt_source {p : Piece} (h : p.Ok) {rest : Str} (hr : Follows rest) :
    matchAt (p.source ++ rest) = some (some (join [' '] p.tags), p.text, rest) := by
  have e : p.source ++ rest = '[' :: (join [' '] p.tags ++ ']' :: (p.text ++ rest)) := by
    simp [Piece.source]
  rw [e]
  unfold matchAt
  simp only
  rw [bodyAt_body p.text rest h.text h.plain hr (join [' '] p.tags) []
    (join_ne_nil h.tags fun s hs => (h.word s hs).1) (by
      intro c hc
      rcases mem_join hc with hc | ⟨s, hs, hc⟩
      · rw [List.mem_singleton] at hc; subst hc; decide
      · obtain ⟨h1, -, h2⟩ := (h.word s hs).2 c hc
        exact ⟨by rintro rfl; exact absurd h1 (by decide), h2⟩)]
  simp

theorem follows_pieces (pieces : List Piece) : Follows (pieces.flatMap Piece.source) := by
  cases pieces with
  | nil => exact .inl rfl
  | cons p rest => exact .inr ⟨_, rfl⟩

theorem findGo_pieces : ∀ (pieces : List Piece) (n : Nat), (∀ p ∈ pieces, p.Ok) →
    (pieces.flatMap Piece.source).length ≤ n →
    findGo n (pieces.flatMap Piece.source) = pieces.map fun p => (some (join [' '] p.tags), p.text)
  | [], n, _, _ => by cases n <;> rfl
  | p :: rest, n, h, hn => by
    have hm := matchAt_source (h p (by simp)) (follows_pieces rest)
    rw [List.flatMap_cons] at hn ⊢
    have e : p.source ++ rest.flatMap Piece.source =
        '[' :: ((join [' '] p.tags ++ ']' :: p.text) ++ rest.flatMap Piece.source) := rfl
    cases n with
    | zero => rw [e] at hn; simp at hn
    | succ n =>
      rw [e] at hm ⊢
      rw [findGo, hm]
      simp only [List.map_cons]
      rw [findGo_pieces rest n (fun q hq => h q (by simp [hq])) (by
        rw [e] at hn
        simp only [List.length_cons, List.length_append] at hn ⊢
        omega)]

theorem find_document {first : Str} (hf : ∀ c ∈ first, c ≠ '[' ∧ c ≠ ']') {pieces : List Piece}
    (h : ∀ p ∈ pieces, p.Ok) :
    find (document first pieces) =
      (if first = [] then [] else [(none, first)]) ++ pieces.map fun p => (some (join [' '] p.tags), p.text) := by
  unfold find document
  cases first with
  | nil => exact findGo_pieces pieces _ h (by simp)
  | cons c cs =>
    have hc := hf c (by simp)
    have hp := plainAt_text (text := c :: cs) (by simp) hf (follows_pieces pieces)
    have hm : matchAt (c :: cs ++ pieces.flatMap Piece.source) =
        some (none, c :: cs, pieces.flatMap Piece.source) := by
      unfold matchAt
      rw [hp]
      split
      · rename_i heq
        exact absurd (List.cons.inj heq).1 hc.1
      · rfl
    rw [List.cons_append] at hm ⊢
    rw [List.length_cons, findGo, hm]
    simp only [if_neg (List.cons_ne_nil c cs), List.cons_append, List.nil_append]
    rw [findGo_pieces pieces _ h (by simp)]

/-! ## Words -/

theorem wordsGo_word : ∀ (w cur rest : Str), (∀ c ∈ w, isSpace c = false) →
    wordsGo cur (w ++ rest) = wordsGo (cur ++ w) rest
  | [], cur, rest, _ => by simp
  | c :: w, cur, rest, h => by
    rw [List.cons_append, wordsGo, h c (by simp)]
    simp only [Bool.false_eq_true, if_false]
    rw [wordsGo_word w (cur ++ [c]) rest (fun d hd => h d (by simp [hd])), List.append_assoc]
    rfl

theorem words_join : ∀ (l : List Str), (∀ s ∈ l, s ≠ [] ∧ ∀ c ∈ s, isSpace c = false) → words (join [' '] l) = l
  | [], _ => rfl
  | [a], h => by
    obtain ⟨h1, h2⟩ := h a (by simp)
    have := wordsGo_word a [] [] h2
    rw [List.append_nil, List.nil_append] at this
    rw [join, words, this, wordsGo, if_neg h1]
  | a :: b :: t, h => by
    obtain ⟨h1, h2⟩ := h a (by simp)
    have ih := words_join (b :: t) fun s hs => h s (by simp [hs])
    rw [join, words, List.append_assoc, wordsGo_word a [] _ h2, List.nil_append]
    rw [List.singleton_append, wordsGo, if_pos (by decide), if_neg h1]
    rw [words] at ih
    rw [ih]

theorem words_tags {p : Piece} (h : p.Ok) : words (join [' '] p.tags) = p.tags :=
  words_join _ fun s hs => ⟨(h.word s hs).1, fun c hc => ((h.word s hs).2 c hc).1⟩

/-! ## Style tags -/

theorem setStyle_name (n : StyleName) (v : Bool) (s : Style) : setStyle n.name v s = some (n.switch v s) := by
  cases n <;> rfl

theorem applyTag_of (pr : Char → Bool) {tag name : Str} {unset : Bool} (st : Stack)
    (h1 : startsWith tag ['/'] = unset) (h2 : lstrip (· == '/') tag = name) (h3 : isColor name = false)
    (h4 : (cssColors.lookup (lstrip (· == '@') name)).isSome = false)
    (h5 : name ≠ "fg".toList) (h6 : name ≠ "bg".toList) :
    applyTag pr tag st = .ok (styleTag pr name (!unset) st) := by
  unfold applyTag
  simp only [h1, h2]
  rw [h3, h4, if_neg (by decide), if_neg (fun h => h5 h.2), if_neg (fun h => h6 h.2)]

theorem name_slash (n : StyleName) (on : Bool) :
    startsWith (tagText (n, on)) ['/'] = !on ∧ lstrip (· == '/') (tagText (n, on)) = n.name := by
  cases n <;> cases on <;> decide

theorem name_not_color (n : StyleName) : isColor n.name = false := by
  cases n <;> decide +kernel

theorem name_not_css (n : StyleName) : (cssColors.lookup (lstrip (· == '@') n.name)).isSome = false := by
  cases n <;> decide +kernel

theorem applyTag_style (pr : Char → Bool) (t : StyleName × Bool) (st : Stack) :
    applyTag pr (tagText t) st = .ok ({ st with style := t.1.switch t.2 st.style }, []) := by
  obtain ⟨n, on⟩ := t
  rw [applyTag_of pr st (name_slash n on).1 (name_slash n on).2 (name_not_color n) (name_not_css n)
    (by cases n <;> decide) (by cases n <;> decide), Bool.not_not]
  unfold styleTag
  rw [setStyle_name]

theorem applyTags_style (pr : Char → Bool) : ∀ (tags : List (StyleName × Bool)) (st : Stack),
    applyTags pr (tags.map tagText) st = ({ st with style := switchAll tags st.style }, [], none)
  | [], st => rfl
  | t :: rest, st => by
    rw [List.map_cons, applyTags, applyTag_style]
    simp only
    rw [applyTags_style pr rest]
    rfl

theorem autoForeground_none (contrast : Val → Except PyErr Str) (s : Style) :
    autoForeground contrast { style := s } = .ok ({ style := s }, false) := by
  unfold autoForeground
  cases s.invert <;> rfl

theorem styledGo_style (pr : Char → Bool) (contrast : Val → Except PyErr Str) :
    ∀ (l : List (List (StyleName × Bool) × Str)) (s : Style),
    (∀ e ∈ l, (stylePiece e.1 e.2).Ok) →
    styledGo pr contrast (l.map fun e => (some (join [' '] (stylePiece e.1 e.2).tags), (stylePiece e.1 e.2).text)) { style := s } =
      (denoted s l, [], none)
  | [], s, _ => rfl
  | (tags, text) :: rest, s, h => by
    have hw := words_tags (h (tags, text) (by simp))
    rw [List.map_cons, styledGo]
    simp only [Option.getD_some]
    rw [hw]
    simp only [stylePiece]
    rw [applyTags_style]
    simp only
    rw [autoForeground_none]
    simp only [construct, Option.isSome_none, Bool.or_self, Bool.false_eq_true, if_false]
    have ih := styledGo_style pr contrast rest (switchAll tags s) fun e he => h e (by simp [he])
    simp only [stylePiece] at ih
    rw [ih]
    rfl

/-- **C110**, in part: a document whose tags are style names yields a span for each text, in order, in
the styles that are on there; nothing is lost, nothing is printed, nothing is raised. Missing:
colours (`C110_colours_violated`), two pairs of brackets in a row
(`C110_adjacent_violated`), and brackets in the text (`C110_text_violated`). -/
theorem C110_styles_partial (pr : Char → Bool) (contrast : Val → Except PyErr Str) (first : Str)
    (hf : ∀ c ∈ first, c ≠ '[' ∧ c ≠ ']') (l : List (List (StyleName × Bool) × Str))
    (hl : ∀ e ∈ l, e.1 ≠ [] ∧ e.2 ≠ [] ∧ ∀ c ∈ e.2, c ≠ '[' ∧ c ≠ ']') :
    styled pr contrast (document first (l.map fun e => stylePiece e.1 e.2)) =
      ((if first = [] then [] else [{ text := first }]) ++ denoted {} l, [], none) := by
  have hok : ∀ e ∈ l, (stylePiece e.1 e.2).Ok := by
    intro e he
    obtain ⟨h1, h2, h3⟩ := hl e he
    refine ⟨by simpa [stylePiece] using h1, ?_, h2, h3⟩
    intro t ht
    have key : ∀ n : StyleName, ∀ on : Bool, tagText (n, on) ≠ [] ∧
        ∀ c ∈ tagText (n, on), isSpace c = false ∧ c ≠ '[' ∧ c ≠ ']' := by
      intro n on
      cases n <;> cases on <;> decide +kernel
    simp only [stylePiece, List.mem_map] at ht
    obtain ⟨⟨n, on⟩, -, rfl⟩ := ht
    exact key n on
  unfold styled
  rw [find_document hf (by
    intro p hp
    obtain ⟨e, he, rfl⟩ := List.mem_map.mp hp
    exact hok e he), List.map_map]
  have h := styledGo_style pr contrast l {} hok
  by_cases h0 : first = []
  · rw [if_pos h0, if_pos h0]
    exact h
  · rw [if_neg h0, if_neg h0, List.singleton_append, styledGo]
    have hw : words ((none : Option Str).getD []) = [] := rfl
    rw [hw, applyTags]
    simp only
    rw [show autoForeground contrast ({} : Stack) = .ok ({}, false) from autoForeground_none contrast {}]
    simp only [construct, Option.isSome_none, Bool.or_self, Bool.false_eq_true, if_false]
    have e : ((fun p : Piece => (some (join [' '] p.tags), p.text)) ∘ fun e : List (StyleName × Bool) × Str => stylePiece e.1 e.2) =
        fun e => (some (join [' '] (stylePiece e.1 e.2).tags), (stylePiece e.1 e.2).text) := rfl
    rw [e, show ({} : Stack) = { style := {} } from rfl, h]
    rfl

/-- `a[bold italic]b[/bold]c` -/
example : (styled (fun _ => true) (fun _ => .error .typeError) "a[bold italic]b[/bold]c".toList) =
    ([{ text := ['a'] }, { text := ['b'], style := { bold := true, italic := true } },
      { text := ['c'], style := { italic := true } }], [], none) :=
  C110_styles_partial _ _ ['a'] (by decide)
    [([(.bold, true), (.italic, true)], ['b']), ([(.bold, false)], ['c'])] (by simp)

/-- **C110**, in part: what `mprint` prints for such a document is the spans, one after the other, and a line break. -/
theorem C110_printed_partial (env : Color.Env) (pr : Char → Bool) (contrast : Val → Except PyErr Str) (first : Str)
    (hf : ∀ c ∈ first, c ≠ '[' ∧ c ≠ ']') (l : List (List (StyleName × Bool) × Str))
    (hl : ∀ e ∈ l, e.1 ≠ [] ∧ e.2 ≠ [] ∧ ∀ c ∈ e.2, c ≠ '[' ∧ c ≠ ']') :
    mprint env pr contrast (document first (l.map fun e => stylePiece e.1 e.2)) =
      (first ++ (denoted {} l).flatMap (Span.render env) ++ ['\n'], none) := by
  unfold mprint
  rw [C110_styles_partial pr contrast first hf l hl]
  simp only [List.nil_append, List.flatMap_append]
  congr 2
  by_cases h0 : first = []
  · simp [h0]
  · have : Span.render env { text := first } = first := by
      simp [Span.render, Span.sequences, Span.total, Span.colorCodes, Style.colorless, Style.codes, Style.setters,
        wrapSgr, join, lstrip, rstrip]
    rw [if_neg h0]
    simp [this]

/-! ## Any markup -/

theorem plainAt_sound {s plain rest : Str} (h : plainAt s = some (plain, rest)) :
    s = plain ++ rest ∧ plain ≠ [] ∧ ∀ c ∈ plain, c ≠ '[' ∧ c ≠ ']' := by
  have hs := List.takeWhile_append_dropWhile (p := plainChar) (l := s)
  have hp : ∀ c ∈ s.takeWhile plainChar, c ≠ '[' ∧ c ≠ ']' :=
    fun c hc => (plainChar_iff c).mp (List.all_eq_true.mp List.all_takeWhile c hc)
  unfold plainAt at h
  simp only at h
  split at h
  · cases h
  · rename_i h0
    split at h
    · rename_i hr
      cases h
      exact ⟨by rw [hr, List.append_nil] at hs; rw [List.append_nil]; exact hs.symm, h0, hp⟩
    · rename_i r hr
      cases h
      exact ⟨hs.symm, h0, hp⟩
    · cases h

theorem bodyAt_sound : ∀ (s acc body plain rest : Str), bodyAt acc s = some (body, plain, rest) →
    ∃ pre, s = pre ++ (plain ++ rest) ∧ plain ≠ [] ∧ ∀ c ∈ plain, c ≠ '[' ∧ c ≠ ']'
  | [], _, _, _, _, h => by cases h
  | c :: cs, acc, body, plain, rest, h => by
    rw [bodyAt] at h
    split at h
    · rename_i p r heq
      cases h
      split at heq
      · obtain ⟨h1, h2⟩ := plainAt_sound heq
        exact ⟨[c], by rw [h1]; rfl, h2⟩
      · cases heq
    · split at h
      · cases h
      · obtain ⟨pre, h1, h2⟩ := bodyAt_sound cs _ _ _ _ h
        exact ⟨c :: pre, by rw [h1]; rfl, h2⟩

theorem matchAt_sound {s : Str} {tags : Option Str} {plain rest : Str} (h : matchAt s = some (tags, plain, rest)) :
    ∃ pre, s = pre ++ (plain ++ rest) ∧ plain ≠ [] ∧ ∀ c ∈ plain, c ≠ '[' ∧ c ≠ ']' := by
  have bare : (plainAt s).map (fun r => ((none : Option Str), r.1, r.2)) = some (tags, plain, rest) →
      ∃ pre, s = pre ++ (plain ++ rest) ∧ plain ≠ [] ∧ ∀ c ∈ plain, c ≠ '[' ∧ c ≠ ']' := by
    intro h
    obtain ⟨⟨p, r⟩, h1, h2⟩ := Option.map_eq_some_iff.mp h
    cases h2
    obtain ⟨h3, h4⟩ := plainAt_sound h1
    exact ⟨[], h3, h4⟩
  unfold matchAt at h
  simp only at h
  split at h
  · split at h
    · rename_i heq
      cases h
      obtain ⟨pre, h1, h2⟩ := bodyAt_sound _ _ _ _ _ heq
      exact ⟨'[' :: pre, by rw [h1]; rfl, h2⟩
    · exact bare h
  · exact bare h

theorem findGo_sound : ∀ (n : Nat) (s : Str),
    ((findGo n s).flatMap (·.2)).Sublist s ∧ ∀ e ∈ findGo n s, e.2 ≠ [] ∧ ∀ c ∈ e.2, c ≠ '[' ∧ c ≠ ']'
  | 0, s => by simp [findGo]
  | n + 1, [] => by simp [findGo]
  | n + 1, c :: cs => by
    rw [findGo]
    split
    · rename_i tags plain rest heq
      obtain ⟨pre, h1, h2⟩ := matchAt_sound heq
      obtain ⟨i1, i2⟩ := findGo_sound n rest
      refine ⟨?_, ?_⟩
      · rw [h1, List.flatMap_cons]
        exact ((List.Sublist.refl _).append i1).trans (List.sublist_append_right _ _)
      · intro e he
        rcases List.mem_cons.mp he with rfl | he
        · exact h2
        · exact i2 e he
    · obtain ⟨i1, i2⟩ := findGo_sound n cs
      exact ⟨i1.trans (List.sublist_cons_self _ _), i2⟩

theorem construct_text {st : Stack} {plain : Str} {span : Span} (h : construct st plain = .ok span) :
    span.text = plain ∧ span.fg = none ∧ span.bg = none := by
  unfold construct at h
  split at h
  · cases h
  · cases h; exact ⟨rfl, rfl, rfl⟩

theorem styledGo_texts (pr : Char → Bool) (contrast : Val → Except PyErr Str) :
    ∀ (l : List (Option Str × Str)) (st : Stack),
      (styledGo pr contrast l st).1.map (·.text) <+: l.map (·.2) ∧
      ((styledGo pr contrast l st).2.2 = none → (styledGo pr contrast l st).1.map (·.text) = l.map (·.2)) ∧
      ∀ s ∈ (styledGo pr contrast l st).1, s.fg = none ∧ s.bg = none
  | [], st => by simp [styledGo]
  | (tags, plain) :: rest, st => by
    rw [styledGo]
    split
    · simp
    · split
      · simp
      · split
        · simp
        · rename_i span heq
          obtain ⟨h1, h2⟩ := construct_text heq
          obtain ⟨i1, i2, i3⟩ := styledGo_texts pr contrast rest _
          refine ⟨?_, ?_, ?_⟩
          · simp only [List.map_cons, h1]
            exact (List.prefix_cons_inj _).mpr i1
          · intro hn
            simp only [List.map_cons, h1]
            rw [i2 hn]
          · intro s hs
            rcases List.mem_cons.mp hs with rfl | hs
            · exact h2
            · exact i3 s hs

/-- **C110**, for any markup, well formed or not: nothing is invented. The texts of the spans, one after the other, are
characters of the markup in their order; no text is empty or has a bracket in it, and no span has a colour. -/
theorem C110_text (pr : Char → Bool) (contrast : Val → Except PyErr Str) (markup : Str) :
    ((styled pr contrast markup).1.flatMap (·.text)).Sublist markup ∧
    ∀ s ∈ (styled pr contrast markup).1,
      s.text ≠ [] ∧ (∀ c ∈ s.text, c ≠ '[' ∧ c ≠ ']') ∧ s.fg = none ∧ s.bg = none := by
  obtain ⟨h1, -, h3⟩ := styledGo_texts pr contrast (find markup) {}
  obtain ⟨f1, f2⟩ := findGo_sound markup.length markup
  have e : ∀ l : List Span, l.flatMap (·.text) = (l.map (·.text)).flatten := fun l => by
    rw [List.flatMap_def]
  have e' : ∀ l : List (Option Str × Str), l.flatMap (·.2) = (l.map (·.2)).flatten := fun l => by
    rw [List.flatMap_def]
  refine ⟨?_, ?_⟩
  · rw [e]
    rw [e'] at f1
    obtain ⟨t, ht⟩ := h1
    unfold styled find
    rw [show findGo markup.length markup = find markup from rfl, ← ht, List.flatten_append] at f1
    exact (List.sublist_append_left _ _).trans f1
  · intro s hs
    have : s.text ∈ (find markup).map (·.2) := h1.subset (List.mem_map_of_mem hs)
    obtain ⟨g, hg, hg'⟩ := List.mem_map.mp this
    have := f2 g hg
    rw [hg'] at this
    exact ⟨this.1, this.2, h3 s hs⟩

/-! ## Colours -/

/-- A colour in a tag: an index, a name, or a colour in one of two notations. -/
inductive ColorWord : Str → Prop
  | index (n : Nat) (h : n < 256) : ColorWord (dec n)
  | name (e : Str × Str) (h : e ∈ cssColors) : ColorWord e.1
  | hex (ds : Str) (hl : ds.length = 6) (h : ∀ c ∈ ds, (digitVal 16 c).isSome) : ColorWord ('#' :: ds)
  | rgb (r g b : Nat) (hr : r < 256) (hg : g < 256) (hb : b < 256) :
      ColorWord (dec r ++ ';' :: (dec g ++ ';' :: dec b))

/-- A colour as a tag: with `@` for a background, and possibly with a slash. -/
def ColorTag (t : Str) : Prop :=
  ∃ w, ColorWord w ∧ ∃ slash at' : Bool, t = (if slash then ['/'] else []) ++ ((if at' then ['@'] else []) ++ w)

theorem dec_table : ∀ n ∈ List.range 256, (dec n) ≠ [] ∧ (dec n).length ≤ 3 ∧ (dec n).all isDecChar = true ∧
    (dec n).all (fun c => c != '@' && c != '/' && c != '#') = true := by decide +kernel

theorem css_table : ∀ e ∈ cssColors, (cssColors.lookup e.1).isSome = true ∧ e.1.all (fun c => c != '@' && c != '/') = true := by
  decide +kernel

theorem lstrip_none {p : Char → Bool} : ∀ {s : Str}, (∀ c ∈ s, p c = false) → lstrip p s = s
  | [], _ => rfl
  | c :: cs, h => by unfold lstrip; rw [List.dropWhile_cons_of_neg (by simp [h c (by simp)])]

theorem channel_dec {n : Nat} (h : n < 256) (rest : Str) : channel (dec n ++ ';' :: rest) = some rest := by
  obtain ⟨h1, h2, h3, -⟩ := dec_table n (List.mem_range.mpr h)
  have h3' : ∀ c ∈ dec n, isDecChar c = true := List.all_eq_true.mp h3
  have hs : isDecChar ';' = false := by decide +kernel
  unfold channel
  have t1 : (dec n ++ ';' :: rest).takeWhile isDecChar = dec n := by
    rw [List.takeWhile_append_of_pos h3', List.takeWhile_cons_of_neg (by simp [hs]), List.append_nil]
  have t2 : (dec n ++ ';' :: rest).dropWhile isDecChar = ';' :: rest := by
    rw [List.dropWhile_append_of_pos h3', List.dropWhile_cons_of_neg (by simp [hs])]
  simp only [t1, t2]
  rw [if_neg]
  rintro (h | h)
  · exact h1 (List.length_eq_zero_iff.mp h)
  · omega

theorem optional_at {at' : Bool} {w : Str} (h : ∀ c ∈ w, c ≠ '@') :
    optional '@' ((if at' then ['@'] else []) ++ w) = w := by
  cases at' with
  | true => rfl
  | false =>
    cases w with
    | nil => rfl
    | cons c cs =>
      simp only [Bool.false_eq_true, if_false, List.nil_append, optional]
      rw [if_neg (h c (by simp))]

theorem lstrip_at {at' : Bool} {w : Str} (h : ∀ c ∈ w, c ≠ '@') :
    lstrip (· == '@') ((if at' then ['@'] else []) ++ w) = w := by
  have := lstrip_none (p := (· == '@')) (s := w) (fun c hc => by simpa using h c hc)
  cases at' with
  | true => exact this
  | false => exact this

/-- The characters of a colour are no `@` and no slash. -/
theorem ColorWord.chars {w : Str} (h : ColorWord w) : ∀ c ∈ w, c ≠ '@' ∧ c ≠ '/' := by
  have hdec : ∀ n < 256, ∀ c ∈ dec n, c ≠ '@' ∧ c ≠ '/' := by
    intro n hn c hc
    have := List.all_eq_true.mp (dec_table n (List.mem_range.mpr hn)).2.2.2 c hc
    simp only [Bool.and_eq_true, bne_iff_ne] at this
    exact this.1
  cases h with
  | index n hn => exact hdec n hn
  | name e he =>
    intro c hc
    have := List.all_eq_true.mp (css_table e he).2 c hc
    simpa only [Bool.and_eq_true, bne_iff_ne] using this
  | hex ds hl hd =>
    intro c hc
    rcases List.mem_cons.mp hc with rfl | hc
    · decide
    · have := hd c hc
      constructor <;> rintro rfl <;> revert this <;> decide
  | rgb r g b hr hg hb =>
    intro c hc
    rcases List.mem_append.mp hc with hc | hc
    · exact hdec r hr c hc
    rcases List.mem_cons.mp hc with rfl | hc
    · decide
    rcases List.mem_append.mp hc with hc | hc
    · exact hdec g hg c hc
    rcases List.mem_cons.mp hc with rfl | hc
    · decide
    · exact hdec b hb c hc

/-- The code takes such a tag for a colour. -/
theorem ColorWord.seen {w : Str} (h : ColorWord w) (at' : Bool) :
    (isColor ((if at' then ['@'] else []) ++ w) ||
      (cssColors.lookup (lstrip (· == '@') ((if at' then ['@'] else []) ++ w))).isSome) = true := by
  have hc : ∀ c ∈ w, c ≠ '@' := fun c hc => (h.chars c hc).1
  rw [Bool.or_eq_true]
  cases h with
  | index n hn =>
    left
    obtain ⟨h1, h2, h3, -⟩ := dec_table n (List.mem_range.mpr hn)
    unfold isColor
    simp only [optional_at hc, h3, h2, decide_true, Bool.and_true]
    rw [List.isEmpty_eq_false_iff.mpr h1]
    rfl
  | name e he =>
    right
    rw [lstrip_at hc]
    exact (css_table e he).1
  | hex ds hl hd =>
    left
    unfold isColor
    simp only [optional_at hc]
    have : (ds.take 6).all isHex = true := by
      rw [List.all_eq_true]
      intro c hc
      exact hd c (List.mem_of_mem_take hc)
    have e : optional '#' ('#' :: ds) = ds := rfl
    rw [e, this, hl]
    simp
  | rgb r g b hr hg hb =>
    left
    unfold isColor
    simp only [optional_at hc]
    have : (channel (dec r ++ ';' :: (dec g ++ ';' :: dec b))).bind channel = some (dec b) := by
      rw [channel_dec hr, Option.bind_some, channel_dec hg]
    rw [this]
    obtain ⟨h1, -, h3, -⟩ := dec_table b (List.mem_range.mpr hb)
    rw [Bool.or_eq_true]
    right
    revert h1 h3
    cases dec b with
    | nil => intro h1; exact absurd rfl h1
    | cons d ds =>
      intro _ h3
      exact List.all_eq_true.mp h3 d (by simp)

/-- A colour is set. -/
def Stack.Colored (st : Stack) : Prop := st.fg.isSome = true ∨ st.bg.isSome = true

theorem applyTag_keeps (pr : Char → Bool) {tag : Str} {st st' : Stack} {out : Str}
    (h : applyTag pr tag st = .ok (st', out)) (hc : st.Colored) : st'.Colored := by
  unfold applyTag at h
  simp only at h
  split at h
  · split at h
    · cases h
    · split at h <;> cases h
      · exact .inr rfl
      · exact .inl rfl
  · split at h
    · cases h; exact .inl rfl
    · split at h
      · cases h; exact .inr rfl
      · simp only [Except.ok.injEq] at h
        unfold styleTag at h
        split at h
        · cases h; exact hc
        · split at h
          · cases h; exact .inl rfl
          · split at h
            · cases h; exact .inr rfl
            · cases h; exact hc

theorem applyTag_color (pr : Char → Bool) {tag : Str} {st st' : Stack} {out : Str} (ht : ColorTag tag)
    (h : applyTag pr tag st = .ok (st', out)) : st'.Colored := by
  obtain ⟨w, hw, slash, at', rfl⟩ := ht
  have hs := hw.seen at'
  have hl : lstrip (· == '/') ((if slash then ['/'] else []) ++ ((if at' then ['@'] else []) ++ w)) =
      (if at' then ['@'] else []) ++ w := by
    have : lstrip (· == '/') ((if at' then ['@'] else []) ++ w) = (if at' then ['@'] else []) ++ w := by
      apply lstrip_none
      intro c hc
      rcases List.mem_append.mp hc with hc | hc
      · cases at' with
        | true => simp only [if_true, List.mem_singleton] at hc; subst hc; decide
        | false => cases hc
      · simpa using (hw.chars c hc).2
    cases slash with
    | true => exact this
    | false => exact this
  unfold applyTag at h
  simp only [hl] at h
  rw [if_pos hs] at h
  split at h
  · cases h
  · by_cases hb : startsWith ((if at' then ['@'] else []) ++ w) ['@'] = true
    · rw [if_pos hb] at h
      cases h
      exact .inr rfl
    · rw [if_neg hb] at h
      cases h
      exact .inl rfl

theorem applyTags_color (pr : Char → Bool) : ∀ (tags : List Str) (st : Stack),
    (st.Colored ∨ ∃ t ∈ tags, ColorTag t) →
    (applyTags pr tags st).2.2 ≠ none ∨ (applyTags pr tags st).1.Colored
  | [], st, h => by
    rcases h with h | ⟨t, ht, -⟩
    · exact .inr h
    · cases ht
  | tag :: rest, st, h => by
    rw [applyTags]
    split
    · left; simp
    · rename_i st' out heq
      apply applyTags_color pr rest st'
      rcases h with h | ⟨t, ht, hc⟩
      · exact .inl (applyTag_keeps pr heq h)
      · rcases List.mem_cons.mp ht with rfl | ht
        · exact .inl (applyTag_color pr hc heq)
        · exact .inr ⟨t, ht, hc⟩

theorem styledGo_color (pr : Char → Bool) (contrast : Val → Except PyErr Str) {tags : Option Str} {plain : Str}
    (rest : List (Option Str × Str)) (ht : ∃ t ∈ words (tags.getD []), ColorTag t) :
    ∀ (pre : List (Option Str × Str)) (st : Stack),
    (styledGo pr contrast (pre ++ (tags, plain) :: rest) st).2.2 ≠ none ∧
    (styledGo pr contrast (pre ++ (tags, plain) :: rest) st).1.length ≤ pre.length
  | [], st => by
    have h := applyTags_color pr (words (tags.getD [])) st (.inr ht)
    rw [List.nil_append, styledGo]
    split
    · simp
    · rename_i st' out heq
      rw [heq] at h
      have hc : st'.Colored := h.resolve_left (by simp)
      split
      · simp
      · rename_i st'' delete ha
        have hc' : st''.Colored := by
          unfold autoForeground at ha
          simp only at ha
          split at ha
          · split at ha
            · cases ha
            · cases ha; exact .inl rfl
          · cases ha; exact hc
        have : construct st'' plain = .error .attributeError := by
          unfold construct
          rw [if_pos (by rw [Bool.or_eq_true]; exact hc')]
        rw [this]
        simp
  | (tags', plain') :: pre, st => by
    rw [List.cons_append, styledGo]
    split
    · simp
    · split
      · simp
      · split
        · simp
        · obtain ⟨h1, h2⟩ := styledGo_color pr contrast (plain := plain) rest ht pre _
          exact ⟨h1, by simpa using h2⟩

/-- **C110 violated** for colours, in every document: at the first text that has a colour among its tags (or a text before it) the
generator raises, and yields no span for it. So no markup with a colour can be printed. -/
theorem C110_colours_violated (env : Color.Env) (pr : Char → Bool) (contrast : Val → Except PyErr Str) (first : Str)
    (hf : ∀ c ∈ first, c ≠ '[' ∧ c ≠ ']') (pre : List Piece) (p : Piece) (post : List Piece)
    (hp : ∀ q ∈ pre ++ p :: post, q.Ok) (t : Str) (ht : t ∈ p.tags) (hc : ColorTag t) :
    let r := styled pr contrast (document first (pre ++ p :: post))
    r.2.2 ≠ none ∧ r.1.length ≤ (if first = [] then 0 else 1) + pre.length ∧
    (mprint env pr contrast (document first (pre ++ p :: post))).2 ≠ none := by
  intro r
  have hr : r = styledGo pr contrast (((if first = [] then [] else [(none, first)]) ++
      pre.map fun p => (some (join [' '] p.tags), p.text)) ++ (some (join [' '] p.tags), p.text) ::
      post.map fun p => (some (join [' '] p.tags), p.text)) {} := by
    show styledGo pr contrast (find _) {} = _
    rw [find_document hf hp, List.map_append, List.map_cons, List.append_assoc]
  have hw := words_tags (hp p (by simp))
  obtain ⟨h1, h2⟩ := styledGo_color pr contrast (tags := some (join [' '] p.tags)) (plain := p.text)
    (post.map fun p => (some (join [' '] p.tags), p.text))
    ⟨t, by rw [Option.getD_some, hw]; exact ht, hc⟩ ((if first = [] then [] else [(none, first)]) ++
      pre.map fun p => (some (join [' '] p.tags), p.text)) {}
  rw [← hr] at h1 h2
  refine ⟨h1, ?_, ?_⟩
  · refine h2.trans ?_
    by_cases h0 : first = []
    · simp [h0]
    · simp [h0, Nat.add_comm]
  · unfold mprint
    have hr' : styled pr contrast (document first (pre ++ p :: post)) = r := rfl
    rw [hr']
    revert h1
    rcases r with ⟨a, b, e⟩
    cases e with
    | none => intro h; exact absurd rfl h
    | some e => intro _ h; cases h

/-- `[bold]a[@38 red]b` -/
example : (styled (fun _ => true) (fun _ => .ok []) "[bold]a[@38 red]b".toList) =
    ([{ text := ['a'], style := { bold := true } }], [], some .attributeError) := by decide +kernel

/-- Its second piece is covered by the theorem. -/
example : ColorTag "@38".toList ∧ ColorTag "/red".toList ∧ ColorTag "@#00ff7F".toList ∧ ColorTag "1;20;255".toList := by
  refine ⟨⟨_, .index 38 (by decide), false, true, by decide⟩, ⟨_, .name ("red".toList, "#ff0000".toList) (by decide +kernel),
    true, false, by decide⟩, ⟨_, .hex "00ff7F".toList rfl (by decide), false, true, by decide⟩,
    ⟨_, .rgb 1 20 255 (by decide) (by decide) (by decide), false, false, by decide⟩⟩

/-- **C110 violated** for tags in two pairs of brackets: neither has an effect; `bold][italic` is taken for one tag, which is
reported as unknown. -/
theorem C110_adjacent_violated :
    styled (fun _ => true) (fun _ => .ok []) "[bold][italic]x".toList =
      ([{ text := ['x'] }], "Unknown tag 'bold][italic'\n".toList, none) := by decide +kernel

/-- **C110 violated** for text with brackets in it: text in front of a closing bracket is dropped and nothing is reported, and what
is in brackets is taken for tags. -/
theorem C110_text_violated :
    styled (fun _ => true) (fun _ => .ok []) "a]b[bold]".toList = ([{ text := ['b'] }], [], none) ∧
    styled (fun _ => true) (fun _ => .ok []) "see a[0] or b".toList = ([{ text := "see a".toList }], [], some .attributeError) := by decide +kernel

end Tags
end Slate
