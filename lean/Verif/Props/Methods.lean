import Verif.Model.SpanMethods
import Verif.Props.Span
import Verif.Props.Codes

/-!
# The small methods of spans (C82, C84), equality and hashing (C83)
-/

namespace Slate
open Py Term

/-! ### C82 -/

/-- C82: every `as_*` method gives a span that differs in the attribute named only, with
the value given. Missing: `reset_after`, which becomes true (C29). -/
theorem C82_attribute_partial (s : Span) (v : Bool) (u : Str) (h : s.resetAfter = true) :
    s.asBold v = { s with style := { s.style with bold := v } } ∧
    s.asDim v = { s with style := { s.style with dim := v } } ∧
    s.asItalic v = { s with style := { s.style with italic := v } } ∧
    s.asUnderline v = { s with style := { s.style with underline := v } } ∧
    s.asBlink v = { s with style := { s.style with blink := v } } ∧
    s.asFastBlink v = { s with style := { s.style with fastBlink := v } } ∧
    s.asInvert v = { s with style := { s.style with invert := v } } ∧
    s.asConceal v = { s with style := { s.style with conceal := v } } ∧
    s.asStrike v = { s with style := { s.style with strike := v } } ∧
    s.asHyperlink u = { s with hyperlink := u } := by
  cases s
  subst h
  exact ⟨rfl, rfl, rfl, rfl, rfl, rfl, rfl, rfl, rfl, rfl⟩

example : ({ text := "a".toList, style := { dim := true } } : Span).asBold =
    { text := "a".toList, style := { dim := true, bold := true } } := by decide

/-- C82, colours: `as_color` sets the background for colours of that role, the foreground for
others, and nothing else. -/
theorem C82_color_partial (s : Span) (c : Color) (h : s.resetAfter = true) :
    s.asColor c = if c.isBg then { s with bg := some c } else { s with fg := some c } := by
  cases s
  subst h
  unfold Span.asColor
  cases c.isBg <;> rfl

/-- C82, descriptions: `as_color` of a string or tuple is `as_color` of the colour it
describes, and raises what `color` raises. -/
theorem C82_description (s : Span) (d : Str) (rgb : Int × Int × Int) (a : Option ℚ) :
    (s.asColorStr d = match Color.ofString d with
      | .ok c => .ok (s.asColor c)
      | .error e => .error e) ∧
    (s.asColorTuple rgb a = match Color.ofTuple rgb a with
      | .ok c => .ok (s.asColor c)
      | .error e => .error e) := by
  unfold Span.asColorStr Span.asColorTuple
  constructor
  · cases Color.ofString d <;> rfl
  · cases Color.ofTuple rgb a <;> rfl

example : ∃ t, ({ text := "a".toList } : Span).asColorStr "48;5;1".toList = .ok t ∧ t.fg = none ∧
    t.bg.map (fun c => (c.r, c.g, c.b)) = some (170, 0, 0) := by
  refine ⟨{ text := "a".toList, bg := some ⟨170, 0, 0, true, 1, .eightBit, some "48;5;1".toList⟩ }, ?_⟩
  decide +kernel

/-- C82 fails for `reset_after`, in every method and for every value. -/
theorem C82_reset_violated (s : Span) (v : Bool) (u : Str) (c : Color) (h : s.resetAfter = false) :
    (s.asBold v).resetAfter ≠ s.resetAfter ∧ (s.asDim v).resetAfter ≠ s.resetAfter ∧
    (s.asItalic v).resetAfter ≠ s.resetAfter ∧ (s.asUnderline v).resetAfter ≠ s.resetAfter ∧
    (s.asBlink v).resetAfter ≠ s.resetAfter ∧ (s.asFastBlink v).resetAfter ≠ s.resetAfter ∧
    (s.asInvert v).resetAfter ≠ s.resetAfter ∧ (s.asConceal v).resetAfter ≠ s.resetAfter ∧
    (s.asStrike v).resetAfter ≠ s.resetAfter ∧ (s.asHyperlink u).resetAfter ≠ s.resetAfter ∧
    (s.asColor c).resetAfter ≠ s.resetAfter := by
  rw [h]
  have hc : (s.asColor c).resetAfter = true := by
    unfold Span.asColor
    cases c.isBg <;> rfl
  rw [hc]
  have key : true ≠ false := by decide
  exact ⟨key, key, key, key, key, key, key, key, key, key, key⟩

/-- The styled versions of a span, each with what it changes in a rendition. -/
def styled (s : Span) (v : Bool) : List (Span × (Attr → Attr)) :=
  [(s.asBold v, fun a => { a with bold := v }), (s.asDim v, fun a => { a with dim := v }),
   (s.asItalic v, fun a => { a with italic := v }), (s.asUnderline v, fun a => { a with underline := v }),
   (s.asBlink v, fun a => { a with blink := v }), (s.asFastBlink v, fun a => { a with fastBlink := v }),
   (s.asInvert v, fun a => { a with invert := v }), (s.asConceal v, fun a => { a with conceal := v }),
   (s.asStrike v, fun a => { a with strike := v })]

/-- C82, the look: printing `span.as_bold(v)` shows each character as printing `span` does,
except that it is bold iff `v`; and likewise for the other styles. -/
theorem C82_look (env : Color.Env) (den : Color → TColor) (s : Span) (v : Bool)
    (htext : ∀ c ∈ s.text, Printable c) (hlink : ∀ c ∈ s.hyperlink, c ≠ '\x1b' ∧ c ≠ '\x07')
    (hfg : ∀ x, s.fg = some x → Sendable env x (den x))
    (hbg : ∀ x, s.bg = some x → Sendable env x (den x))
    (st : State) (hm : st.mode = .ground) (hp : st.pen = Attr.clean) (k : Nat) (hk : k < s.text.length)
    (t : Span) (change : Attr → Attr) (ht : (t, change) ∈ styled s v) :
    let plain := (run st (s.render env)).grid st.row (st.col + k)
    let shown := (run st (t.render env)).grid st.row (st.col + k)
    shown = { plain with attr := change plain.attr } := by
  intro plain shown
  have h1 : plain = { ch := s.text[k], attr := charAttr den s false } :=
    (C36_printed_span_partial env den s htext hlink hfg hbg st hm hp).1 k _ (List.getElem?_eq_getElem hk)
  have hsame : t.text = s.text ∧ t.fg = s.fg ∧ t.bg = s.bg ∧ t.hyperlink = s.hyperlink := by
    simp only [styled, List.mem_cons, Prod.mk.injEq, List.not_mem_nil, or_false] at ht
    rcases ht with h | h | h | h | h | h | h | h | h <;> rw [h.1] <;> exact ⟨rfl, rfl, rfl, rfl⟩
  obtain ⟨e1, e2, e3, e4⟩ := hsame
  have h2 : shown = { ch := s.text[k], attr := charAttr den t false } := by
    refine (C36_printed_span_partial env den t (by rw [e1]; exact htext) (by rw [e4]; exact hlink)
      (by rw [e2]; exact hfg) (by rw [e3]; exact hbg) st hm hp).1 k _ ?_
    rw [e1]; exact List.getElem?_eq_getElem hk
  rw [h1, h2]
  have hf : ∀ (c : Option Color) (a : Attr), ∃ f b, paintOpt den c a = { a with fg := f, bg := b } := by
    intro c a
    cases c with
    | none => exact ⟨_, _, rfl⟩
    | some c => unfold paintOpt paint; simp only; split <;> exact ⟨_, _, rfl⟩
  have hb : ∃ f b, paintOpt den s.bg (paintOpt den s.fg Attr.clean) = { Attr.clean with fg := f, bg := b } := by
    obtain ⟨f, b, h⟩ := hf s.fg Attr.clean
    rw [h]
    obtain ⟨f', b', h'⟩ := hf s.bg { Attr.clean with fg := f, bg := b }
    exact ⟨f', b', h'⟩
  obtain ⟨f, b, hb⟩ := hb
  have c1 : charAttr den s false = applyStyle s.style { Attr.clean with fg := f, bg := b } := by
    unfold charAttr; rw [hb]; rfl
  have c2 : charAttr den t false = applyStyle t.style { Attr.clean with fg := f, bg := b } := by
    unfold charAttr; rw [e2, e3, hb]; rfl
  rw [c1, c2]
  simp only [styled, List.mem_cons, Prod.mk.injEq, List.not_mem_nil, or_false] at ht
  rcases ht with h | h | h | h | h | h | h | h | h <;> rw [h.1, h.2] <;> rfl

example : (run { grid := fun _ _ => { ch := ' ', attr := Attr.clean } }
    ((({ text := "ab".toList, style := { italic := true } } : Span).asBold).render {})).grid 1 2 =
    { ch := 'b', attr := { bold := true, italic := true } } := by decide +kernel

/-! ### C84 -/

/-- C84: `t in span` iff some slice of the span has the text `t`. -/
theorem C84_contains (s : Span) (t : Str) :
    s.contains t = true ↔ ∃ i j : Nat, (s.slice (some i) (some j)).text = t := by
  unfold Span.contains
  rw [List.any_eq_true]
  constructor
  · rintro ⟨r, hr, hp⟩
    obtain ⟨a, ha⟩ := (List.mem_tails r s.text).mp hr
    obtain ⟨b, hb⟩ := List.isPrefixOf_iff_prefix.mp hp
    refine ⟨a.length, a.length + t.length, ?_⟩
    have hl : s.text.length = a.length + (t.length + b.length) := by rw [← ha, ← hb]; simp
    simp only [Span.slice, Span.mutate, Option.getD_some, Span.sliceStr, Span.sliceBound]
    rw [if_neg (by omega), if_neg (by omega), Int.toNat_natCast, Int.toNat_natCast, min_eq_left (by omega),
      min_eq_left (by omega), ← ha, ← hb, List.drop_take, List.drop_left]
    simp
  · rintro ⟨i, j, h⟩
    simp only [Span.slice, Span.mutate, Option.getD_some, Span.sliceStr, Span.sliceBound] at h
    rw [if_neg (by omega), if_neg (by omega), Int.toNat_natCast, Int.toNat_natCast] at h
    refine ⟨s.text.drop (min i s.text.length), (List.mem_tails _ _).mpr (List.drop_suffix ..), ?_⟩
    rw [List.isPrefixOf_iff_prefix, ← h, List.drop_take]
    exact List.take_prefix ..

example : ({ text := "hello".toList } : Span).contains "ell".toList = true ∧
    ({ text := "hello".toList } : Span).contains "elo".toList = false := by decide

/-! ### C83 -/

/-- C83, colours: `==` is an equivalence. -/
theorem C83_color_equivalence : (∀ c : Color, c.eq c = true) ∧ (∀ c d : Color, c.eq d = d.eq c) ∧
    ∀ c d e : Color, c.eq d = true → d.eq e = true → c.eq e = true := by
  unfold Color.eq
  refine ⟨by simp, ?_, ?_⟩
  · intro c d
    rw [Bool.eq_iff_iff]
    simp only [Bool.and_eq_true, beq_iff_eq, decide_eq_true_eq]
    constructor <;> rintro ⟨⟨⟨a, b⟩, c⟩, d⟩ <;> exact ⟨⟨⟨a.symm, b.symm⟩, c.symm⟩, d.symm⟩
  · intro c d e
    simp only [Bool.and_eq_true, beq_iff_eq, decide_eq_true_eq]
    rintro ⟨⟨⟨a, b⟩, c⟩, d⟩ ⟨⟨⟨a', b'⟩, c'⟩, d'⟩
    exact ⟨⟨⟨a.trans a', b.trans b'⟩, c.trans c'⟩, d.trans d'⟩

theorem optEq_equivalence : (∀ c, Span.optEq c c = true) ∧ (∀ c d, Span.optEq c d = Span.optEq d c) ∧
    ∀ c d e, Span.optEq c d = true → Span.optEq d e = true → Span.optEq c e = true := by
  obtain ⟨h1, h2, h3⟩ := C83_color_equivalence
  refine ⟨?_, ?_, ?_⟩
  · rintro (_ | c)
    · rfl
    · exact h1 c
  · rintro (_ | c) (_ | d)
    · rfl
    · rfl
    · rfl
    · exact h2 c d
  · rintro (_ | c) (_ | d) (_ | e) h h'
    all_goals first | rfl | (cases h; done) | (cases h'; done) | exact h3 c d e h h'

theorem span_eq_iff (env : Color.Env) (s t : Span) : s.eq env t = true ↔
    (s.text = t.text ∧ (Span.optEq s.fg t.fg = true ∧ Span.optEq s.bg t.bg = true ∧
      s.hyperlink = t.hyperlink ∧ s.style = t.style) ∧ s.resetAfter = t.resetAfter ∧
      s.render env = t.render env ∧ s.sequences env = t.sequences env) := by
  unfold Span.eq Span.attrsEq
  simp only [Bool.and_eq_true, decide_eq_true_eq]
  constructor
  · rintro ⟨⟨⟨⟨⟨a, ⟨⟨b, c⟩, d⟩, e⟩, f⟩, g⟩, i⟩, -⟩
    exact ⟨a, ⟨b, c, d, e⟩, f, g, i⟩
  · rintro ⟨a, ⟨b, c, d, e⟩, f, g, i⟩
    refine ⟨⟨⟨⟨⟨a, ⟨⟨b, c⟩, d⟩, e⟩, f⟩, g⟩, i⟩, ?_⟩
    unfold Span.colorlessSequences; rw [e]

/-- C83, spans: `==` is an equivalence. -/
theorem C83_span_equivalence (env : Color.Env) : (∀ s : Span, s.eq env s = true) ∧
    (∀ s t : Span, s.eq env t = t.eq env s) ∧
    ∀ s t u : Span, s.eq env t = true → t.eq env u = true → s.eq env u = true := by
  obtain ⟨h1, h2, h3⟩ := optEq_equivalence
  refine ⟨?_, ?_, ?_⟩
  · intro s
    rw [span_eq_iff]
    exact ⟨rfl, ⟨h1 _, h1 _, rfl, rfl⟩, rfl, rfl, rfl⟩
  · intro s t
    rw [Bool.eq_iff_iff, span_eq_iff, span_eq_iff, h2 s.fg, h2 s.bg]
    constructor <;> rintro ⟨a, ⟨b, c, d, e⟩, f, g, i⟩ <;>
      exact ⟨a.symm, ⟨b, c, d.symm, e.symm⟩, f.symm, g.symm, i.symm⟩
  · intro s t u
    rw [span_eq_iff, span_eq_iff, span_eq_iff]
    rintro ⟨a, ⟨b, c, d, e⟩, f, g, i⟩ ⟨a', ⟨b', c', d', e'⟩, f', g', i'⟩
    exact ⟨a.trans a', ⟨h3 _ _ _ b b', h3 _ _ _ c c', d.trans d', e.trans e'⟩, f.trans f', g.trans g', i.trans i'⟩

/-- C83, behaviour: equal spans print the same string, have the same length and give the same
characters, with and without colours. -/
theorem C83_equal_spans (env : Color.Env) (s t : Span) (h : s.eq env t = true) :
    s.render env = t.render env ∧ s.len = t.len ∧
    ∀ ex al, s.getCharacters env ex al = t.getCharacters env ex al := by
  obtain ⟨a, ⟨b, c, d, e⟩, f, g, i⟩ := (span_eq_iff env s t).mp h
  refine ⟨g, by unfold Span.len; rw [a], fun ex al => ?_⟩
  unfold Span.getCharacters Span.colorlessSequences
  rw [a, e, f, i]

/-- Two spans that are equal though not built alike: a red given directly and as a code. -/
example : ∃ c, Color.fromAnsi "38;2;1;2;3".toList = .ok c ∧
    ({ text := "a".toList, fg := some c } : Span) ≠ { text := "a".toList, fg := some { r := 1, g := 2, b := 3 } } ∧
    Span.eq {} { text := "a".toList, fg := some c }
      { text := "a".toList, fg := some { r := 1, g := 2, b := 3 } } = true := by
  refine ⟨⟨1, 2, 3, false, 1, .trueColor, some "38;2;1;2;3".toList⟩, ?_⟩
  decide +kernel

/-- C83, hashing: equal colours have equal hashes if they have the same role and were made in the
same way, whatever the hash function of tuples. -/
theorem C83_hash_partial {κ : Type} (h : _ → κ) (c d : Color) (he : c.eq d = true)
    (hr : c.isBg = d.isBg) (ho : c.origin = d.origin) (hc : c.ctor = d.ctor) :
    h c.hashKey = h d.hashKey := by
  unfold Color.eq at he
  simp only [Bool.and_eq_true, beq_iff_eq, decide_eq_true_eq] at he
  obtain ⟨⟨⟨a, b⟩, e⟩, f⟩ := he
  unfold Color.hashKey
  rw [a, b, e, f, hr, ho, hc]

/-- C83 is violated for colours: a colour and the same as a background are equal, but there is
a hash function of tuples (any that separates these two) for which their hashes differ. The
same holds for a colour given directly and by its code. -/
theorem C83_color_hash_violated {κ : Type} (h : _ → κ) (hinj : Function.Injective h) (c : Color) :
    let d := { c with isBg := !c.isBg }
    let e := { c with ctor := match c.ctor with | none => some c.hex | some _ => none }
    c.eq d = true ∧ h c.hashKey ≠ h d.hashKey ∧ c.eq e = true ∧ h c.hashKey ≠ h e.hashKey := by
  refine ⟨by simp [Color.eq], fun he => ?_, by simp [Color.eq], fun he => ?_⟩
  · have := congrArg (fun k => k.2.1) (hinj he)
    simp only [Color.hashKey] at this
    cases hb : c.isBg <;> rw [hb] at this <;> cases this
  · have := congrArg (fun k => k.2.2.2.2) (hinj he)
    simp only [Color.hashKey] at this
    cases hb : c.ctor <;> rw [hb] at this <;> cases this

/-- C83 is violated for spans: two equal ones, whose hashes differ if the hashes of
their colours do. -/
theorem C83_span_hash_violated : ∃ s t : Span, s.eq {} t = true ∧
    s.hashKey id {} ≠ t.hashKey id {} := by
  refine ⟨{ text := "a".toList, fg := some ⟨1, 2, 3, false, 1, .trueColor, some "38;2;1;2;3".toList⟩ },
    { text := "a".toList, fg := some { r := 1, g := 2, b := 3 } }, by decide +kernel, fun h => ?_⟩
  have := congrArg (fun k => k.2.1.map fun c => c.2.2.2.2) h
  revert this
  decide +kernel

end Slate
