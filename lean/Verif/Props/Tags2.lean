import Verif.Props.Tags

/-!
# C110 Markup: unknown tags, and tags in several pairs of brackets
-/

namespace Slate
open Py

namespace Tags

/-! ## Specification -/

/-- A word that names no style and no colour: it does not begin like a colour (with a digit, `#`, `@` or six hexadecimal digits). -/
structure Unknown (w : Str) : Prop where
  first : ∃ c cs, w = c :: cs ∧ isDecChar c = false ∧ c ≠ '#' ∧ c ≠ '@' ∧ c ≠ '/'
  word : ∀ c ∈ w, isSpace c = false
  hex : ¬ (6 ≤ w.length ∧ ∀ c ∈ w.take 6, (digitVal 16 c).isSome)
  color : ∀ e ∈ cssColors, e.1 ≠ w
  style : ∀ n : StyleName, n.name ≠ w

/-- A tag: a style that is switched on or off, or something else, possibly with a slash. -/
inductive Tag where
  | style (n : StyleName) (on : Bool)
  | unknown (slash : Bool) (w : Str)

/-- The word of a tag, without its slash. -/
def Tag.word : Tag → Str
  | .style n _ => n.name
  | .unknown _ w => w

/-- Whether there is a slash. -/
def Tag.slash : Tag → Bool
  | .style _ on => !on
  | .unknown slash _ => slash

/-- How a tag is written. -/
def Tag.text (t : Tag) : Str := (if t.slash then ['/'] else []) ++ t.word

/-- Words without brackets; `/fg` and `/bg` are no unknown tags. -/
def Tag.Ok : Tag → Prop
  | .style _ _ => True
  | .unknown slash w => Unknown w ∧ (∀ c ∈ w, c ≠ '[' ∧ c ≠ ']') ∧ (slash = true → w ≠ "fg".toList ∧ w ≠ "bg".toList)

/-- What a tag does to the styles. -/
def Tag.switch (s : Style) : Tag → Style
  | .style n on => n.switch on s
  | .unknown _ _ => s

/-- What is reported about a tag; `quote` is how Python prints a string. -/
def Tag.report (quote : Str → Str) : Tag → Str
  | .style _ _ => []
  | .unknown _ w => "Unknown tag ".toList ++ quote w ++ ['\n']

/-- Two tags with `][` between them. -/
def Tag.stuck (t u : Tag) : Tag := .unknown t.slash (t.word ++ [']', '['] ++ u.text)

/-- The last of some tags sticks to the first of those that follow. -/
def stick : List Tag → List Tag → List Tag
  | [], r => r
  | [t], u :: r => t.stuck u :: r
  | [t], [] => [t]
  | t :: g, r => t :: stick g r

/-- The tags of several pairs of brackets as the code reads them. -/
def stickAll : List (List Tag) → List Tag
  | [] => []
  | [g] => g
  | g :: r => stick g (stickAll r)

/-- `[tag tag ...][tag ...]text` -/
def written (p : List (List Tag) × Str) : Str :=
  p.1.flatMap (fun g => '[' :: join [' '] (g.map Tag.text) ++ [']']) ++ p.2

/-- The styles after some tags. -/
def after (tags : List Tag) (s : Style) : Style := tags.foldl Tag.switch s

/-- Spans of texts in the styles of the tags in front of them. -/
def spansOf : Style → List (List Tag × Str) → List Span
  | _, [] => []
  | s, (tags, text) :: rest => { text := text, style := after tags s } :: spansOf (after tags s) rest

/-- What the code sees: some of the tags are stuck together. -/
def seenTags (p : List (List Tag) × Str) : List Tag × Str := (stickAll p.1, p.2)

/-- There is at least one pair of brackets, with a tag in each, and there is a text; no other brackets. -/
structure Fine (p : List (List Tag) × Str) : Prop where
  some : p.1 ≠ []
  tags : ∀ g ∈ p.1, g ≠ [] ∧ ∀ t ∈ g, t.Ok
  text : p.2 ≠ []
  plain : ∀ c ∈ p.2, c ≠ '[' ∧ c ≠ ']'

/-! ## The regular expression -/

/-- Every `]` is followed by `[`. -/
def Closed : Str → Prop
  | [] => True
  | c :: cs => (c = ']' → ∃ p, cs = '[' :: p) ∧ Closed cs

theorem Closed.append : ∀ {a b : Str}, Closed a → Closed b → Closed (a ++ b)
  | [], _, _, h => h
  | c :: cs, b, h, hb => by
    refine ⟨fun hc => ?_, Closed.append h.2 hb⟩
    obtain ⟨p, hp⟩ := h.1 hc
    exact ⟨p ++ b, by rw [hp]; rfl⟩

theorem Closed.plain : ∀ {a : Str}, (∀ c ∈ a, c ≠ ']') → Closed a
  | [], _ => trivial
  | c :: cs, h => ⟨fun hc => absurd hc (h c (by simp)), Closed.plain fun d hd => h d (by simp [hd])⟩

theorem closed_pair : Closed [']', '['] := ⟨fun _ => ⟨[], rfl⟩, fun h => absurd h (by decide), trivial⟩

theorem bodyAt_closed (text rest : Str) (h0 : text ≠ []) (hp : ∀ c ∈ text, c ≠ '[' ∧ c ≠ ']') (hr : Follows rest) :
    ∀ (body acc : Str), acc ++ body ≠ [] → (∀ c ∈ body, c ≠ '\n') → Closed body →
      bodyAt acc (body ++ ']' :: (text ++ rest)) = some (acc ++ body, text, rest)
  | [], acc, hne, _, _ => by
    rw [List.append_nil] at hne
    rw [List.nil_append, bodyAt, if_pos ⟨rfl, hne⟩, plainAt_text h0 hp hr, List.append_nil]
  | c :: body, acc, _, hb, hc => by
    have hnone : (if c = ']' ∧ acc ≠ [] then plainAt (body ++ ']' :: (text ++ rest)) else none) = none := by
      split
      · rename_i h
        obtain ⟨p, hp⟩ := hc.1 h.1
        rw [hp]
        rfl
      · rfl
    rw [List.cons_append, bodyAt, hnone]
    simp only
    rw [if_neg (hb c (by simp)), bodyAt_closed text rest h0 hp hr body (acc ++ [c]) (by simp)
      (fun d hd => hb d (by simp [hd])) hc.2, List.append_assoc]
    rfl

/-- A piece with `][` in its tags. -/
structure Piece.Ok' (p : Piece) : Prop where
  tags : p.tags ≠ []
  word : ∀ t ∈ p.tags, t ≠ [] ∧ ∀ c ∈ t, isSpace c = false
  closed : Closed (join [' '] p.tags)
  text : p.text ≠ []
  plain : ∀ c ∈ p.text, c ≠ '[' ∧ c ≠ ']'

theorem matchAt_source' {p : Piece} (h : p.Ok') {rest : Str} (hr : Follows rest) :
    matchAt (p.source ++ rest) = some (some (join [' '] p.tags), p.text, rest) := by
  have e : p.source ++ rest = '[' :: (join [' '] p.tags ++ ']' :: (p.text ++ rest)) := by
    simp [Piece.source]
  rw [e]
  unfold matchAt
  simp only
  rw [bodyAt_closed p.text rest h.text h.plain hr (join [' '] p.tags) []
    (join_ne_nil h.tags fun s hs => (h.word s hs).1) (by
      intro c hc
      rcases mem_join hc with hc | ⟨s, hs, hc⟩
      · rw [List.mem_singleton] at hc; subst hc; decide
      · rintro rfl; exact absurd ((h.word s hs).2 _ hc) (by decide)) h.closed]
  simp

theorem findGo_pieces' : ∀ (pieces : List Piece) (n : Nat), (∀ p ∈ pieces, p.Ok') →
    (pieces.flatMap Piece.source).length ≤ n →
    findGo n (pieces.flatMap Piece.source) = pieces.map fun p => (some (join [' '] p.tags), p.text)
  | [], n, _, _ => by cases n <;> rfl
  | p :: rest, n, h, hn => by
    have hm := matchAt_source' (h p (by simp)) (follows_pieces rest)
    rw [List.flatMap_cons] at hn ⊢
    have e : p.source ++ rest.flatMap Piece.source =
        '[' :: ((join [' '] p.tags ++ ']' :: p.text) ++ rest.flatMap Piece.source) := rfl
    cases n with
    | zero => rw [e] at hn; simp at hn
    | succ n =>
      rw [e] at hm ⊢
      rw [findGo, hm]
      simp only [List.map_cons]
      rw [findGo_pieces' rest n (fun q hq => h q (by simp [hq])) (by
        rw [e] at hn
        simp only [List.length_cons, List.length_append] at hn ⊢
        omega)]

theorem find_document' {first : Str} (hf : ∀ c ∈ first, c ≠ '[' ∧ c ≠ ']') {pieces : List Piece}
    (h : ∀ p ∈ pieces, p.Ok') :
    find (document first pieces) =
      (if first = [] then [] else [(none, first)]) ++ pieces.map fun p => (some (join [' '] p.tags), p.text) := by
  unfold find document
  cases first with
  | nil => exact findGo_pieces' pieces _ h (by simp)
  | cons c cs =>
    have hc := hf c (by simp)
    have hp := plainAt_text (text := c :: cs) (by simp) hf (follows_pieces pieces)
    have hm : matchAt (c :: cs ++ pieces.flatMap Piece.source) =
        some (none, c :: cs, pieces.flatMap Piece.source) := by
      unfold matchAt
      rw [hp]
      split
      · rename_i heq
        exact absurd (List.cons.inj heq).1 hc.1
      · rfl
    rw [List.cons_append] at hm ⊢
    rw [List.length_cons, findGo, hm]
    simp only [if_neg (List.cons_ne_nil c cs), List.cons_append, List.nil_append]
    rw [findGo_pieces' pieces _ h (by simp)]

/-! ## Tags that stick together -/

/-- What the code can read as it is: like `Tag.Ok`, but with brackets in the word. -/
def Tag.Read : Tag → Prop
  | .style _ _ => True
  | .unknown slash w => Unknown w ∧ (slash = true → w ≠ "fg".toList ∧ w ≠ "bg".toList) ∧ Closed w

theorem Tag.Ok.read : ∀ {t : Tag}, t.Ok → t.Read
  | .style _ _, _ => trivial
  | .unknown _ _, h => ⟨h.1, h.2.2, Closed.plain fun c hc => (h.2.1 c hc).2⟩

theorem name_unknown (n : StyleName) : (∃ c cs, n.name = c :: cs ∧ isDecChar c = false ∧ c ≠ '#' ∧ c ≠ '@' ∧ c ≠ '/') ∧
    (∀ c ∈ n.name, isSpace c = false ∧ c ≠ '[' ∧ c ≠ ']') ∧ ¬ (6 ≤ n.name.length ∧ ∀ c ∈ n.name.take 6, (digitVal 16 c).isSome) := by
  refine ⟨?_, ?_, ?_⟩
  · cases n <;> exact ⟨_, _, rfl, by decide +kernel, by decide, by decide, by decide⟩
  · cases n <;> decide +kernel
  · cases n <;> decide +kernel

theorem css_brackets : ∀ e ∈ cssColors, ']' ∉ e.1 := by decide +kernel

theorem Tag.Read.word {t : Tag} (h : t.Read) : (∃ c cs, t.word = c :: cs ∧ isDecChar c = false ∧ c ≠ '#' ∧ c ≠ '@' ∧ c ≠ '/') ∧
    (∀ c ∈ t.word, isSpace c = false) ∧ ¬ (6 ≤ t.word.length ∧ ∀ c ∈ t.word.take 6, (digitVal 16 c).isSome) ∧ Closed t.word := by
  cases t with
  | style n on =>
    obtain ⟨h1, h2, h3⟩ := name_unknown n
    exact ⟨h1, fun c hc => (h2 c hc).1, h3, Closed.plain fun c hc => (h2 c hc).2.2⟩
  | unknown slash w => exact ⟨h.1.first, h.1.word, h.1.hex, h.2.2⟩

theorem Tag.Read.text {t : Tag} (h : t.Read) : t.text ≠ [] ∧ (∀ c ∈ t.text, isSpace c = false) ∧ Closed t.text := by
  obtain ⟨⟨c, cs, h1, -⟩, h2, -, h4⟩ := h.word
  unfold Tag.text
  refine ⟨by rw [h1]; simp, ?_, Closed.append ?_ h4⟩
  · intro d hd
    rcases List.mem_append.mp hd with hd | hd
    · split at hd
      · rw [List.mem_singleton] at hd; subst hd; decide
      · cases hd
    · exact h2 d hd
  · split
    · exact Closed.plain (by decide)
    · trivial

theorem Tag.Read.stuck {t u : Tag} (ht : t.Read) (hu : u.Read) : (t.stuck u).Read := by
  obtain ⟨⟨c, cs, h1, h1'⟩, h2, h3, h4⟩ := ht.word
  obtain ⟨-, u2, u3⟩ := hu.text
  have hmem : ']' ∈ t.word ++ [']', '['] ++ u.text := by simp
  refine ⟨⟨⟨c, cs ++ [']', '['] ++ u.text, by rw [h1]; simp, h1'⟩, ?_, ?_, ?_, ?_⟩, ?_, ?_⟩
  · intro d hd
    rcases List.mem_append.mp hd with hd | hd
    · rcases List.mem_append.mp hd with hd | hd
      · exact h2 d hd
      · simp only [List.mem_cons, List.not_mem_nil, or_false] at hd
        rcases hd with rfl | rfl <;> decide
    · exact u2 d hd
  · rintro ⟨-, hh⟩
    by_cases hl : 6 ≤ t.word.length
    · apply h3
      refine ⟨hl, ?_⟩
      rw [List.append_assoc, List.take_append_of_le_length hl] at hh
      exact hh
    · have : ']' ∈ (t.word ++ [']', '['] ++ u.text).take 6 := by
        obtain ⟨k, hk⟩ : ∃ k, 6 = t.word.length + (k + 1) := ⟨5 - t.word.length, by omega⟩
        rw [hk, List.append_assoc, List.take_length_add_append]
        simp
      exact absurd (hh _ this) (by decide)
  · intro e he heq
    exact css_brackets e he (heq ▸ hmem)
  · intro n heq
    exact ((name_unknown n).2.1 ']' (heq ▸ hmem)).2.2 rfl
  · intro _
    constructor <;> (intro he; rw [he] at hmem; revert hmem; decide)
  · exact (h4.append closed_pair).append u3

theorem stick_ne_nil : ∀ {g r : List Tag}, g ≠ [] → stick g r ≠ []
  | [], _, h => absurd rfl h
  | [t], [], _ => by simp [stick]
  | [t], u :: r, _ => by simp [stick]
  | t :: t' :: g, r, _ => by simp [stick]

theorem stick_read : ∀ {g r : List Tag}, (∀ t ∈ g, t.Read) → (∀ t ∈ r, t.Read) → ∀ t ∈ stick g r, t.Read
  | [], r, _, hr => hr
  | [t], [], hg, _ => hg
  | [t], u :: r, hg, hr => by
    intro x hx
    rcases List.mem_cons.mp hx with rfl | hx
    · exact (hg t (by simp)).stuck (hr u (by simp))
    · exact hr x (by simp [hx])
  | t :: t' :: g, r, hg, hr => by
    intro x hx
    rw [stick] at hx
    · rcases List.mem_cons.mp hx with rfl | hx
      · exact hg x (by simp)
      · exact stick_read (g := t' :: g) (fun y hy => hg y (by simp [List.mem_cons.mp hy])) hr x hx
    · simp
    · simp

theorem stuck_text (t u : Tag) : (t.stuck u).text = t.text ++ [']', '['] ++ u.text := by
  show (if t.slash then ['/'] else []) ++ (t.word ++ [']', '['] ++ u.text) = _
  rw [show t.text = (if t.slash then ['/'] else []) ++ t.word from rfl]
  simp only [List.append_assoc]

theorem join_cons {sep a : Str} {l : List Str} (h : l ≠ []) : join sep (a :: l) = a ++ sep ++ join sep l := by
  cases l with
  | nil => exact absurd rfl h
  | cons b t => rfl

theorem join_stick : ∀ {g r : List Tag}, g ≠ [] → r ≠ [] →
    join [' '] ((stick g r).map Tag.text) = join [' '] (g.map Tag.text) ++ [']', '['] ++ join [' '] (r.map Tag.text)
  | [], _, h, _ => absurd rfl h
  | [t], [], _, h => absurd rfl h
  | [t], [u], _, _ => by simp [stick, join, stuck_text]
  | [t], u :: u' :: r, _, _ => by
    simp only [stick, List.map_cons, List.map_nil, join, stuck_text, List.append_assoc]
  | t :: t' :: g, r, _, hr => by
    have ih := join_stick (g := t' :: g) (r := r) (by simp) hr
    have hne : (stick (t' :: g) r).map Tag.text ≠ [] := by simpa using stick_ne_nil (by simp)
    rw [stick, List.map_cons, join_cons hne, ih, List.map_cons (a := t), join_cons (l := (t' :: g).map Tag.text) (by simp)]
    · simp only [List.append_assoc]
    · simp
    · simp

theorem stickAll_spec : ∀ (gs : List (List Tag)), gs ≠ [] → (∀ g ∈ gs, g ≠ [] ∧ ∀ t ∈ g, t.Ok) →
    stickAll gs ≠ [] ∧ (∀ t ∈ stickAll gs, t.Read) ∧
    gs.flatMap (fun g => '[' :: join [' '] (g.map Tag.text) ++ [']']) =
      '[' :: join [' '] ((stickAll gs).map Tag.text) ++ [']']
  | [], h, _ => absurd rfl h
  | [g], _, h => by
    obtain ⟨h1, h2⟩ := h g (by simp)
    exact ⟨h1, fun t ht => (h2 t ht).read, by simp [stickAll]⟩
  | g :: g' :: r, _, h => by
    obtain ⟨h1, h2⟩ := h g (by simp)
    obtain ⟨i1, i2, i3⟩ := stickAll_spec (g' :: r) (by simp) (fun x hx => h x (by simp [List.mem_cons.mp hx]))
    refine ⟨stick_ne_nil h1, stick_read (fun t ht => (h2 t ht).read) i2, ?_⟩
    have e : stickAll (g :: g' :: r) = stick g (stickAll (g' :: r)) := rfl
    rw [List.flatMap_cons, i3, e, join_stick h1 i1]
    simp [List.append_assoc]

/-- The piece that the code reads. -/
def asPiece (p : List (List Tag) × Str) : Piece := ⟨(stickAll p.1).map Tag.text, p.2⟩

theorem asPiece_source {p : List (List Tag) × Str} (h : Fine p) : (asPiece p).source = written p := by
  unfold written Piece.source asPiece
  rw [(stickAll_spec p.1 h.some h.tags).2.2]
  simp

theorem closed_join : ∀ {l : List Str}, (∀ s ∈ l, Closed s) → Closed (join [' '] l)
  | [], _ => trivial
  | [a], h => h a (by simp)
  | a :: b :: t, h => by
    rw [join]
    exact ((h a (by simp)).append (Closed.plain (by decide))).append (closed_join fun s hs => h s (by simp [List.mem_cons.mp hs]))

theorem asPiece_ok {p : List (List Tag) × Str} (h : Fine p) : (asPiece p).Ok' := by
  obtain ⟨h1, h2, -⟩ := stickAll_spec p.1 h.some h.tags
  refine ⟨by simpa [asPiece] using h1, ?_, closed_join ?_, h.text, h.plain⟩
  · intro t ht
    obtain ⟨x, hx, rfl⟩ := List.mem_map.mp ht
    exact ⟨(h2 x hx).text.1, (h2 x hx).text.2.1⟩
  · intro t ht
    obtain ⟨x, hx, rfl⟩ := List.mem_map.mp ht
    exact (h2 x hx).text.2.2

/-! ## What the code does with such tags -/

theorem lookup_none_of : ∀ {l : List (Str × Str)} {k : Str}, (∀ e ∈ l, e.1 ≠ k) → l.lookup k = none
  | [], _, _ => rfl
  | (a, b) :: l, k, h => by
    rw [List.lookup_cons]
    have : (k == a) = false := by simpa using fun e => h (a, b) (by simp) e.symm
    rw [this]
    exact lookup_none_of fun e he => h e (by simp [he])

theorem Unknown.not_color {w : Str} (h : Unknown w) :
    isColor w = false ∧ (cssColors.lookup (lstrip (· == '@') w)).isSome = false := by
  obtain ⟨c, cs, hw, hd, h1, h2, -⟩ := h.first
  constructor
  · have ho : optional '@' w = w := by rw [hw, optional, if_neg h2]
    have hh : optional '#' w = w := by rw [hw, optional, if_neg h1]
    have hch : channel w = none := by
      unfold channel
      have : w.takeWhile isDecChar = [] := by rw [hw, List.takeWhile_cons_of_neg (by simp [hd])]
      simp [this]
    unfold isColor
    simp only [ho, hh, hch, Option.bind_none, Bool.or_false, Bool.or_eq_false_iff]
    constructor
    · have : w.all isDecChar = false := by rw [hw, List.all_cons, hd]; rfl
      rw [this, Bool.and_false]
    · rw [Bool.and_eq_false_iff]
      by_cases hl : 6 ≤ w.length
      · right
        rw [Bool.eq_false_iff]
        intro ha
        exact h.hex ⟨hl, fun c hc => List.all_eq_true.mp ha c hc⟩
      · left; simpa using hl
  · have hs : lstrip (· == '@') w = w := by
      rw [hw]; unfold lstrip
      rw [List.dropWhile_cons_of_neg (by simpa using h2)]
    rw [hs, lookup_none_of h.color]
    rfl

theorem setStyle_none {w : Str} {v : Bool} {s : Style} (h : ∀ n : StyleName, n.name ≠ w) : setStyle w v s = none := by
  unfold setStyle
  rw [if_neg (fun e => h .bold e.symm), if_neg (fun e => h .dim e.symm), if_neg (fun e => h .italic e.symm),
    if_neg (fun e => h .underline e.symm), if_neg (fun e => h .blink e.symm), if_neg (fun e => h .fastBlink e.symm),
    if_neg (fun e => h .invert e.symm), if_neg (fun e => h .conceal e.symm), if_neg (fun e => h .strike e.symm),
    if_neg (fun e => h .opaque e.symm)]

theorem applyTag_read (pr : Char → Bool) {t : Tag} (h : t.Read) (s : Style) :
    applyTag pr t.text { style := s } = .ok ({ style := t.switch s }, t.report (reprOf pr)) := by
  cases t with
  | style n on =>
    have e : (Tag.style n on).text = tagText (n, on) := by cases on <;> rfl
    rw [e, applyTag_style]
    rfl
  | unknown slash w =>
    obtain ⟨hu, hfg, -⟩ := h
    obtain ⟨hc1, hc2⟩ := hu.not_color
    obtain ⟨c, cs, hw, -, -, -, hsl⟩ := hu.first
    have h1 : startsWith (Tag.unknown slash w).text ['/'] = slash := by
      cases slash with
      | true => simp [Tag.text, Tag.slash, startsWith]
      | false =>
        rw [show (Tag.unknown false w).text = w from rfl, hw]
        have : ('/' == c) = false := by simpa using hsl.symm
        simp [startsWith, List.isPrefixOf, this]
    have h2 : lstrip (· == '/') (Tag.unknown slash w).text = w := by
      have : lstrip (· == '/') w = w := by
        rw [hw]; unfold lstrip
        rw [List.dropWhile_cons_of_neg (by simpa using hsl)]
      cases slash with
      | true => exact this
      | false => exact this
    unfold applyTag
    simp only [h1, h2, hc1, hc2]
    rw [if_neg (by decide), if_neg (fun h => (hfg h.1).1 h.2), if_neg (fun h => (hfg h.1).2 h.2)]
    unfold styleTag
    rw [setStyle_none hu.style]
    simp only [Option.isSome_none, Bool.false_eq_true, and_false, if_false]
    rfl

theorem applyTags_read (pr : Char → Bool) : ∀ (tags : List Tag) (s : Style), (∀ t ∈ tags, t.Read) →
    applyTags pr (tags.map Tag.text) { style := s } =
      ({ style := after tags s }, tags.flatMap (Tag.report (reprOf pr)), none)
  | [], s, _ => rfl
  | t :: rest, s, h => by
    rw [List.map_cons, applyTags, applyTag_read pr (h t (by simp))]
    simp only
    rw [applyTags_read pr rest _ fun x hx => h x (by simp [hx])]
    rfl

theorem styledGo_read (pr : Char → Bool) (contrast : Val → Except PyErr Str) :
    ∀ (l : List (List (List Tag) × Str)) (s : Style), (∀ p ∈ l, Fine p) →
    styledGo pr contrast ((l.map asPiece).map fun p => (some (join [' '] p.tags), p.text)) { style := s } =
      (spansOf s (l.map seenTags), (l.flatMap fun p => (stickAll p.1).flatMap (Tag.report (reprOf pr))), none)
  | [], s, _ => rfl
  | p :: rest, s, h => by
    have hok := asPiece_ok (h p (by simp))
    have hw : words (join [' '] (asPiece p).tags) = (stickAll p.1).map Tag.text := words_join _ hok.word
    have hr := (stickAll_spec p.1 (h p (by simp)).some (h p (by simp)).tags).2.1
    rw [List.map_cons, List.map_cons, styledGo]
    simp only [Option.getD_some]
    rw [hw, applyTags_read pr _ s hr]
    simp only
    rw [autoForeground_none]
    simp only [construct, Option.isSome_none, Bool.or_self, Bool.false_eq_true, if_false]
    rw [styledGo_read pr contrast rest _ fun q hq => h q (by simp [hq])]
    rfl

/-- **C110**, exactly, for documents in which every tag is a style or unknown and stands in one of any number of pairs of brackets in
front of a text: every text is yielded, in the styles that are on, and every unknown tag is reported, in order; but of two
neighbouring pairs of brackets the last tag of the one and the first tag of the other are read as a single unknown tag. Missing: colours, which
raise (`C110_colours_violated`), and brackets in the text (`C110_bracket_violated`). -/
theorem C110_exact_partial (pr : Char → Bool) (contrast : Val → Except PyErr Str) (first : Str)
    (hf : ∀ c ∈ first, c ≠ '[' ∧ c ≠ ']') (l : List (List (List Tag) × Str)) (hl : ∀ p ∈ l, Fine p) :
    styled pr contrast (first ++ l.flatMap written) =
      ((if first = [] then [] else [{ text := first }]) ++ spansOf {} (l.map seenTags),
        (l.map seenTags).flatMap (fun p => p.1.flatMap (Tag.report (reprOf pr))), none) := by
  have hdoc : first ++ l.flatMap written = document first (l.map asPiece) := by
    unfold document
    congr 1
    rw [List.flatMap_map]
    clear hf
    induction l with
    | nil => rfl
    | cons p rest ih =>
      rw [List.flatMap_cons, List.flatMap_cons, asPiece_source (hl p (by simp)), ih fun q hq => hl q (by simp [hq])]
  have hgo := styledGo_read pr contrast l {} hl
  unfold styled
  rw [hdoc, find_document' hf (by
    intro p hp
    obtain ⟨q, hq, rfl⟩ := List.mem_map.mp hp
    exact asPiece_ok (hl q hq))]
  have hout : (l.map seenTags).flatMap (fun p => p.1.flatMap (Tag.report (reprOf pr))) =
      l.flatMap fun p => (stickAll p.1).flatMap (Tag.report (reprOf pr)) := by
    rw [List.flatMap_map]; rfl
  rw [hout]
  by_cases h0 : first = []
  · rw [if_pos h0, if_pos h0]
    exact hgo
  · rw [if_neg h0, if_neg h0, List.singleton_append, styledGo]
    have hw : words ((none : Option Str).getD []) = [] := rfl
    rw [hw, applyTags]
    simp only
    rw [show autoForeground contrast ({} : Stack) = .ok ({}, false) from autoForeground_none contrast {}]
    simp only [construct, Option.isSome_none, Bool.or_self, Bool.false_eq_true, if_false]
    rw [show ({} : Stack) = { style := {} } from rfl, hgo]
    rfl

/-- **C110**, in part: with all tags of a text in one pair of brackets the spans are those that the document denotes, and exactly the unknown
tags are reported. -/
theorem C110_unknown_partial (pr : Char → Bool) (contrast : Val → Except PyErr Str) (first : Str)
    (hf : ∀ c ∈ first, c ≠ '[' ∧ c ≠ ']') (l : List (List Tag × Str)) (hl : ∀ p ∈ l, Fine ([p.1], p.2)) :
    styled pr contrast (first ++ l.flatMap fun p => written ([p.1], p.2)) =
      ((if first = [] then [] else [{ text := first }]) ++ spansOf {} l,
        l.flatMap (fun p => p.1.flatMap (Tag.report (reprOf pr))), none) := by
  have h := C110_exact_partial pr contrast first hf (l.map fun p => ([p.1], p.2)) (by
    intro p hp
    obtain ⟨q, hq, rfl⟩ := List.mem_map.mp hp
    exact hl q hq)
  rw [List.flatMap_map, List.map_map] at h
  have e : (seenTags ∘ fun p : List Tag × Str => ([p.1], p.2)) = id := rfl
  rw [e, List.map_id] at h
  exact h

/-- `a[bold wow]b[/wow /bold]c` -/
example : styled (fun _ => true) (fun _ => .error .typeError) "a[bold wow]b[/wow /bold]c".toList =
    ([{ text := ['a'] }, { text := ['b'], style := { bold := true } }, { text := ['c'] }],
      "Unknown tag 'wow'\nUnknown tag 'wow'\n".toList, none) := by
  have hu : Unknown "wow".toList := ⟨⟨_, _, rfl, by decide +kernel, by decide, by decide, by decide⟩, by decide +kernel,
    by decide, by decide +kernel, by intro n; cases n <;> decide⟩
  have hok : ∀ b, Tag.Ok (.unknown b "wow".toList) := fun b => ⟨hu, by decide, fun _ => by decide⟩
  have h := C110_unknown_partial (fun _ => true) (fun _ => .error .typeError) ['a'] (by decide)
    [([.style .bold true, .unknown false "wow".toList], ['b']), ([.unknown true "wow".toList, .style .bold false], ['c'])] (by
      intro p hp
      simp only [List.mem_cons, List.not_mem_nil, or_false] at hp
      rcases hp with rfl | rfl
      · refine ⟨by simp, ?_, by simp, by decide⟩
        intro g hg
        rw [List.mem_singleton] at hg
        subst hg
        refine ⟨by simp, ?_⟩
        intro t ht
        simp only [List.mem_cons, List.not_mem_nil, or_false] at ht
        rcases ht with rfl | rfl
        · trivial
        · exact hok _
      · refine ⟨by simp, ?_, by simp, by decide⟩
        intro g hg
        rw [List.mem_singleton] at hg
        subst hg
        refine ⟨by simp, ?_⟩
        intro t ht
        simp only [List.mem_cons, List.not_mem_nil, or_false] at ht
        rcases ht with rfl | rfl
        · exact hok _
        · trivial)
  have e : spansOf {} [([Tag.style .bold true, .unknown false "wow".toList], ['b']), ([.unknown true "wow".toList, .style .bold false], ['c'])] =
      [{ text := ['b'], style := { bold := true } }, { text := ['c'] }] := by decide
  rw [e] at h
  refine Eq.trans h ?_
  decide +kernel

/-- **C110 violated** for tags in two or more pairs of brackets in front of a text, one in each, whatever they are: none has an effect. They
are reported as one unknown tag. -/
theorem C110_brackets_violated (pr : Char → Bool) (contrast : Val → Except PyErr Str) (t u : Tag) (more : List Tag)
    (ht : ∀ x ∈ t :: u :: more, x.Ok) (text : Str) (h0 : text ≠ []) (hp : ∀ c ∈ text, c ≠ '[' ∧ c ≠ ']') :
    ∃ w, styled pr contrast (written ((t :: u :: more).map ([·]), text)) =
      ([{ text := text }], "Unknown tag ".toList ++ reprOf pr w ++ ['\n'], none) := by
  have hfine : Fine ((t :: u :: more).map ([·]), text) := by
    refine ⟨by simp, ?_, h0, hp⟩
    intro g hg
    obtain ⟨x, hx, rfl⟩ := List.mem_map.mp hg
    exact ⟨by simp, fun y hy => by rw [List.mem_singleton] at hy; subst hy; exact ht y hx⟩
  have hstick : ∀ (more : List Tag) (u : Tag), ∃ v, stickAll ((u :: more).map ([·])) = [v] := by
    intro more
    induction more with
    | nil => intro u; exact ⟨u, rfl⟩
    | cons m ms ih =>
      intro u
      obtain ⟨v, hv⟩ := ih m
      refine ⟨u.stuck v, ?_⟩
      show stick [u] (stickAll ((m :: ms).map ([·]))) = _
      rw [hv]
      rfl
  obtain ⟨v, hv⟩ := hstick more u
  have hs : stickAll ((t :: u :: more).map ([·])) = [t.stuck v] := by
    show stick [t] (stickAll ((u :: more).map ([·]))) = _
    rw [hv]
    rfl
  have h := C110_exact_partial pr contrast [] (by simp) [((t :: u :: more).map ([·]), text)] (by simpa using hfine)
  refine ⟨t.word ++ [']', '['] ++ v.text, ?_⟩
  simp only [List.nil_append, List.flatMap_cons, List.flatMap_nil, List.append_nil, if_true, List.map_cons, List.map_nil] at h
  refine h.trans ?_
  have hs' : stickAll ([t] :: [u] :: List.map (fun x => [x]) more) = [t.stuck v] := hs
  simp only [seenTags, hs', List.flatMap_cons, List.flatMap_nil, List.append_nil]
  rfl

/-- `[bold][italic]x` -/
example : ∃ w, styled (fun _ => true) (fun _ => .ok []) "[bold][italic]x".toList =
    ([{ text := ['x'] }], "Unknown tag ".toList ++ reprOf (fun _ => true) w ++ ['\n'], none) :=
  C110_brackets_violated _ _ (.style .bold true) (.style .italic true) [] (by
    intro x hx
    simp only [List.mem_cons, List.not_mem_nil, or_false] at hx
    rcases hx with rfl | rfl <;> trivial) ['x'] (by simp) (by decide)

theorem findGo_lost (u : Str) (hu0 : u ≠ []) (hu : ∀ c ∈ u, c ≠ '[' ∧ c ≠ ']') : ∀ (t : Str) (n : Nat),
    (∀ c ∈ t, c ≠ '[' ∧ c ≠ ']') → t.length + u.length < n → findGo n (t ++ ']' :: u) = [(none, u)]
  | [], n, _, hn => by
    obtain ⟨n, rfl⟩ : ∃ k, n = k + 2 := ⟨n - 2, by
      have := List.length_pos_iff.mpr hu0
      omega⟩
    have hm : matchAt (']' :: u) = none := rfl
    rw [List.nil_append, findGo, hm]
    simp only
    obtain ⟨c, cs, rfl⟩ := List.exists_cons_of_ne_nil hu0
    have hp := plainAt_text (text := c :: cs) (rest := []) (by simp) hu (.inl rfl)
    rw [List.append_nil] at hp
    have hm : matchAt (c :: cs) = some (none, c :: cs, []) := by
      unfold matchAt
      rw [hp]
      split
      · rename_i heq
        exact absurd (List.cons.inj heq).1 (hu c (by simp)).1
      · rfl
    rw [findGo, hm]
    cases n <;> rfl
  | c :: t, n, ht, hn => by
    obtain ⟨n, rfl⟩ : ∃ k, n = k + 1 := ⟨n - 1, by simp only [List.length_cons] at hn; omega⟩
    have hp' : ∀ d ∈ c :: t, plainChar d = true := fun d hd => (plainChar_iff d).mpr (ht d hd)
    have hpl : plainAt (c :: t ++ ']' :: u) = none := by
      have h1 : (c :: t ++ ']' :: u).takeWhile plainChar = c :: t := by
        rw [List.takeWhile_append_of_pos hp', List.takeWhile_cons_of_neg (by decide), List.append_nil]
      have h2 : (c :: t ++ ']' :: u).dropWhile plainChar = ']' :: u := by
        rw [List.dropWhile_append_of_pos hp', List.dropWhile_cons_of_neg (by decide)]
      unfold plainAt
      simp only [h1, h2]
      rw [if_neg (by simp)]
      rfl
    have hm : matchAt (c :: (t ++ ']' :: u)) = none := by
      unfold matchAt
      have hpl' : plainAt (c :: (t ++ ']' :: u)) = none := hpl
      rw [hpl']
      split
      · rename_i heq
        exact absurd (List.cons.inj heq).1 (ht c (by simp)).1
      · rfl
    rw [List.cons_append, findGo, hm]
    exact findGo_lost u hu0 hu t n (fun d hd => ht d (by simp [hd])) (by simp only [List.length_cons] at hn; omega)

/-- **C110 violated** for every text with a closing bracket in it: all that is in front of the bracket is lost, and nothing is reported. -/
theorem C110_bracket_violated (pr : Char → Bool) (contrast : Val → Except PyErr Str) (t u : Str)
    (ht : ∀ c ∈ t, c ≠ '[' ∧ c ≠ ']') (hu0 : u ≠ []) (hu : ∀ c ∈ u, c ≠ '[' ∧ c ≠ ']') :
    styled pr contrast (t ++ ']' :: u) = ([{ text := u }], [], none) := by
  unfold styled find
  rw [findGo_lost u hu0 hu t _ ht (by simp), styledGo]
  have hw : words ((none : Option Str).getD []) = [] := rfl
  rw [hw, applyTags]
  simp only
  rw [show autoForeground contrast ({} : Stack) = .ok ({}, false) from autoForeground_none contrast {}]
  simp [construct, styledGo]

/-- `lost] kept` -/
example : styled (fun _ => true) (fun _ => .ok []) "lost] kept".toList = ([{ text := " kept".toList }], [], none) :=
  C110_bracket_violated _ _ "lost".toList " kept".toList (by decide) (by decide) (by decide)

end Tags
end Slate
