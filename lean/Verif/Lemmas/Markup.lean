import Verif.Spec.Markup
import Verif.Model.Svg
import Verif.Lemmas.Str
import Verif.Props.Span
import Verif.Lemmas.Write

/-!
# Reading the elements written by `as_svg`
-/

namespace Slate
open Py Markup

theorem mk_append (s : State) (a b : List Char) : feed s (a ++ b) = feed (feed s a) b := List.foldl_append ..

/-- Attribute values that end where they should. -/
def ValOk (v : Str) : Prop := ∀ c ∈ v, c ≠ '\'' ∧ c ≠ '<'

theorem ValOk.append {a b : Str} (ha : ValOk a) (hb : ValOk b) : ValOk (a ++ b) := by
  intro c hc
  rcases List.mem_append.mp hc with h | h
  · exact ha c h
  · exact hb c h

theorem feed_val (n : List Char) (cur : Elem) (out : List Elem) : ∀ (t v : Str), ValOk t →
    feed ⟨.attrVal n v, cur, out⟩ (t ++ ['\'']) = ⟨.inTag, { cur with attrs := cur.attrs ++ [(n, v ++ t)] }, out⟩
  | [], v, _ => by
    simp [feed, step]
  | c :: t, v, h => by
    have hc := h c (by simp)
    have : step ⟨.attrVal n v, cur, out⟩ c = ⟨.attrVal n (v ++ [c]), cur, out⟩ := by simp [step, hc.1, hc.2]
    show feed (step _ c) (t ++ ['\'']) = _
    rw [this, feed_val n cur out t (v ++ [c]) fun d hd => h d (by simp [hd])]
    simp

theorem feed_attr {m : Mode} {cur : Elem} {out : List Elem} (k : String) (v : Str)
    (hk : feed ⟨m, cur, out⟩ (' ' :: (k.toList ++ "='".toList)) = ⟨.attrVal k.toList [], cur, out⟩) (hv : ValOk v) :
    feed ⟨m, cur, out⟩ (Svg.attr k v) = ⟨.inTag, { cur with attrs := cur.attrs ++ [(k.toList, v)] }, out⟩ := by
  have : Svg.attr k v = (' ' :: (k.toList ++ "='".toList)) ++ (v ++ ['\'']) := by simp [Svg.attr]
  rw [this, mk_append, hk, feed_val _ _ _ _ _ hv]
  simp

theorem feed_body (cur : Elem) (out : List Elem) : ∀ (t : Str), (∀ c ∈ t, c ≠ '<') →
    feed ⟨.body, cur, out⟩ t = ⟨.body, { cur with body := cur.body ++ t }, out⟩
  | [], _ => by simp [feed]
  | c :: t, h => by
    have : step ⟨.body, cur, out⟩ c = ⟨.body, { cur with body := cur.body ++ [c] }, out⟩ := by
      simp [step, h c (by simp)]
    show feed (step _ c) _ = _
    rw [this, feed_body _ out t fun d hd => h d (by simp [hd])]
    simp

theorem valOk_dec (n : Nat) : ValOk (dec n) := by
  intro c hc
  have := dec_isDig hc
  constructor <;> (rintro rfl; exact absurd this (by decide))

theorem valOk_decInt (n : Int) : ValOk (decInt n) := by
  cases n with
  | ofNat n => exact valOk_dec n
  | negSucc n =>
    show ValOk ('-' :: dec (n + 1))
    intro c hc
    rcases List.mem_cons.mp hc with rfl | hc
    · decide
    · exact valOk_dec _ c hc

/-- The formatting of floats uses digits, signs, a point and an exponent. -/
def Svg.Fmt.Ok (fmt : Svg.Fmt) : Prop :=
  ∀ q c, c ∈ fmt.repr q ∨ c ∈ fmt.fixed4 q → isDig c = true ∨ c = '.' ∨ c = '-' ∨ c = '+' ∨ c = 'e'

theorem fmtChar_ok {c : Char} (h : isDig c = true ∨ c = '.' ∨ c = '-' ∨ c = '+' ∨ c = 'e') : c ≠ '\'' ∧ c ≠ '<' := by
  rcases h with h | rfl | rfl | rfl | rfl
  · constructor <;> (rintro rfl; exact absurd h (by decide))
  all_goals decide

theorem valOk_format {fmt : Svg.Fmt} (h : fmt.Ok) (x : Svg.Num) : ValOk (x.format fmt) := by
  cases x with
  | int n => exact valOk_decInt n
  | flt q => exact fun c hc => fmtChar_ok (h q c (.inl hc))

theorem hexDigit_ok : ∀ n < 16, (('0' ≤ hexDigit n ∧ hexDigit n ≤ '9') ∨ ('A' ≤ hexDigit n ∧ hexDigit n ≤ 'F')) ∧
    hexDigit n ≠ '\'' ∧ hexDigit n ≠ '<' := by decide +kernel

theorem isColour_hex {c : Color} (h : c.Valid) : isColour c.hex = true := by
  obtain ⟨h1, h2, h3⟩ := h
  have k : ∀ n < 16, (('0' ≤ hexDigit n && hexDigit n ≤ '9') || ('a' ≤ hexDigit n && hexDigit n ≤ 'f') ||
      ('A' ≤ hexDigit n && hexDigit n ≤ 'F')) = true := by decide +kernel
  simp only [Color.hex, hex2, isColour, List.cons_append, List.nil_append, List.length_cons, List.length_nil, List.all_cons,
    List.all_nil, k (c.r / 16) (by omega), k (c.r % 16) (by omega), k (c.g / 16) (by omega), k (c.g % 16) (by omega),
    k (c.b / 16) (by omega), k (c.b % 16) (by omega)]
  decide

theorem valOk_hex {c : Color} (h : c.Valid) : ValOk c.hex := by
  obtain ⟨h1, h2, h3⟩ := h
  intro d hd
  simp only [Color.hex, hex2, List.cons_append, List.nil_append, List.mem_cons, List.not_mem_nil, or_false] at hd
  rcases hd with rfl | rfl | rfl | rfl | rfl | rfl | rfl
  · decide
  · exact (hexDigit_ok (c.r / 16) (by omega)).2
  · exact (hexDigit_ok (c.r % 16) (by omega)).2
  · exact (hexDigit_ok (c.g / 16) (by omega)).2
  · exact (hexDigit_ok (c.g % 16) (by omega)).2
  · exact (hexDigit_ok (c.b / 16) (by omega)).2
  · exact (hexDigit_ok (c.b % 16) (by omega)).2

open Svg in
/-- The element of the rectangle. -/
def rectElem (fmt : Fmt) (s : Span) (fs : Int) (x y : Num) (dfg dbg : Color) : Elem where
  name := "rect".toList
  attrs := [("x".toList, x.format fmt), ("y".toList, (y.sub (baseline s fs)).format fmt),
    ("fill".toList, (rectFill s dfg dbg).hex),
    ("width".toList, fmt.fixed4 (roundTo 2 (fl (fl (roundTo 4 (fl (fs * charWidth)) * s.text.length) + 1 / 2)))),
    ("height".toList, fmt.repr (roundTo 4 (fl (fs * rectHeight))))]

open Svg in
/-- The element of the text. -/
def textElem (fmt : Fmt) (s : Span) (fs : Int) (x y : Num) (dfg dbg : Color) (cls : Str) : Elem where
  name := "text".toList
  attrs := [("dy".toList, "-0.25em".toList), ("x".toList, x.format fmt), ("y".toList, (y.add (.int fs)).format fmt),
    ("fill".toList, (textFill s dfg dbg).hex), ("class".toList, cls)]
  body := escapeHtml s.text

open Svg in
theorem feed_rect {fmt : Fmt} (hf : fmt.Ok) (s : Span) (fs : Int) (x y : Num) (dfg dbg : Color)
    (hc : (rectFill s dfg dbg).Valid) (out : List Elem) :
    feed ⟨.outside, {}, out⟩ (rectTag fmt s fs x y dfg dbg) = ⟨.outside, {}, out ++ [rectElem fmt s fs x y dfg dbg]⟩ := by
  unfold rectTag
  have v1 : ValOk (fmt.fixed4 (roundTo 2 (fl (fl (roundTo 4 (fl (fs * charWidth)) * s.text.length) + 1 / 2)))) :=
    fun c hc => fmtChar_ok (hf _ c (.inr hc))
  have v2 : ValOk (fmt.repr (roundTo 4 (fl (fs * rectHeight)))) := fun c hc => fmtChar_ok (hf _ c (.inl hc))
  simp only [mk_append]
  rw [show feed ⟨.outside, {}, out⟩ "<rect".toList = ⟨.tagName, { name := "rect".toList }, out⟩ from rfl]
  rw [feed_attr "x" _ rfl (valOk_format hf x), feed_attr "y" _ rfl (valOk_format hf _), feed_attr "fill" _ rfl (valOk_hex hc),
    feed_attr "width" _ rfl v1, feed_attr "height" _ rfl v2]
  rfl

open Svg in
theorem feed_text {fmt : Fmt} (hf : fmt.Ok) (s : Span) (fs : Int) (x y : Num) (dfg dbg : Color)
    (hc : (textFill s dfg dbg).Valid) (cls : Str) (hcls : ValOk cls) (out : List Elem) :
    feed ⟨.outside, {}, out⟩ (textTag fmt s fs x y dfg dbg false (some cls)) =
      ⟨.outside, {}, out ++ [textElem fmt s fs x y dfg dbg cls]⟩ := by
  unfold textTag
  simp only [mk_append, Bool.false_eq_true, if_false]
  rw [show feed ⟨.outside, {}, out⟩ "<text  dy='-0.25em'".toList =
    ⟨.inTag, { name := "text".toList, attrs := [("dy".toList, "-0.25em".toList)] }, out⟩ from rfl]
  rw [feed_attr "x" _ rfl (valOk_format hf x), feed_attr "y" _ rfl (valOk_format hf _), feed_attr "fill" _ rfl (valOk_hex hc),
    show ∀ s, feed s [] = s from fun _ => rfl, feed_attr "class" _ rfl hcls]
  rw [show ∀ cur out, feed ⟨.inTag, cur, out⟩ ['>'] = ⟨.body, cur, out⟩ from fun _ _ => rfl]
  rw [feed_body _ _ _ fun c hc => ((C35_svg_text_escaped s.text).1 c hc).1]
  rfl

open Svg in
theorem feed_asSvg {fmt : Fmt} (hf : fmt.Ok) (s : Span) (fs : Int) (x y : Num) (dfg dbg : Color)
    (hr : (rectFill s dfg dbg).Valid) (ht : (textFill s dfg dbg).Valid) (cls : Str) (hcls : ValOk cls) (out : List Elem) :
    feed ⟨.outside, {}, out⟩ (asSvg fmt s fs (x, y) dfg dbg false (some cls)) =
      ⟨.outside, {}, out ++ [rectElem fmt s fs x.round2 y.round2 dfg dbg, textElem fmt s fs x.round2 y.round2 dfg dbg cls]⟩ := by
  unfold asSvg
  rw [mk_append, feed_rect hf s fs _ _ dfg dbg hr, feed_text hf s fs _ _ dfg dbg ht cls hcls]
  simp

theorem ValOk.join {sep : Str} (hs : ValOk sep) : ∀ {l : List Str}, (∀ v ∈ l, ValOk v) → ValOk (join sep l)
  | [], _ => by simp [Py.join, ValOk]
  | [a], h => by simpa [Py.join] using h a (by simp)
  | a :: b :: t, h => by
    rw [Py.join]
    exact ((h a (by simp)).append hs).append (ValOk.join hs fun v hv => h v (by simp only [List.mem_cons] at hv ⊢; tauto))

instance (v : Str) : Decidable (ValOk v) := inferInstanceAs (Decidable (∀ c ∈ v, _))

open Svg in
theorem valOk_cssOf {s : Span} (h1 : ∀ c, s.fg = some c → c.Valid) (h2 : ∀ c, s.bg = some c → c.Valid) :
    ∀ d ∈ cssOf s, ValOk (declaration d) := by
  intro d hd
  have fill : ∀ o : Option Color, (∀ c, o = some c → c.Valid) → d ∈ cssFill o → ValOk (declaration d) := by
    intro o ho hd
    cases o with
    | none => simp [cssFill] at hd
    | some c =>
      simp only [cssFill, List.mem_singleton] at hd
      subst hd
      exact ((by decide : ValOk ("fill".toList ++ [':']))).append (valOk_hex (ho c rfl))
  have style : ∀ b k v, ValOk (declaration (String.toList k, String.toList v)) → d ∈ cssIf b k v → ValOk (declaration d) := by
    intro b k v hk hd
    unfold cssIf at hd
    split at hd
    · simp only [List.mem_singleton] at hd
      subst hd
      exact hk
    · simp at hd
  unfold cssOf at hd
  simp only [List.mem_append] at hd
  rcases hd with (((hd | hd) | hd) | hd) | hd
  · exact style _ _ _ (by decide) hd
  · exact style _ _ _ (by decide) hd
  · exact style _ _ _ (by decide) hd
  · exact style _ _ _ (by decide) hd
  · split at hd
    · exact fill _ h2 hd
    · exact fill _ h1 hd

open Svg in
/-- The element of the text with inline styles. -/
def inlineElem (fmt : Fmt) (s : Span) (fs : Int) (x y : Num) (dfg dbg : Color) (cls : Option Str) : Elem where
  name := "text".toList
  attrs := [("dy".toList, "-0.25em".toList), ("x".toList, x.format fmt), ("y".toList, (y.add (.int fs)).format fmt),
    ("fill".toList, (textFill s dfg dbg).hex), ("styles".toList, join "; ".toList ((cssOf s).map declaration))] ++
    (match cls with
      | some c => [("class".toList, c)]
      | none => [])
  body := escapeHtml s.text

open Svg in
theorem feed_inline {fmt : Fmt} (hf : fmt.Ok) (s : Span) (fs : Int) (x y : Num) (dfg dbg : Color)
    (h1 : ∀ c, s.fg = some c → c.Valid) (h2 : ∀ c, s.bg = some c → c.Valid)
    (hc : (textFill s dfg dbg).Valid) (cls : Option Str) (hcls : ∀ c, cls = some c → ValOk c) (out : List Elem) :
    feed ⟨.outside, {}, out⟩ (textTag fmt s fs x y dfg dbg true cls) =
      ⟨.outside, {}, out ++ [inlineElem fmt s fs x y dfg dbg cls]⟩ := by
  have hv : ValOk (join "; ".toList ((cssOf s).map declaration)) := by
    refine ValOk.join (by decide) fun v hv => ?_
    obtain ⟨d, hd, rfl⟩ := List.mem_map.mp hv
    exact valOk_cssOf h1 h2 d hd
  unfold textTag
  simp only [mk_append, if_true]
  rw [show feed ⟨.outside, {}, out⟩ "<text  dy='-0.25em'".toList =
    ⟨.inTag, { name := "text".toList, attrs := [("dy".toList, "-0.25em".toList)] }, out⟩ from rfl]
  rw [feed_attr "x" _ rfl (valOk_format hf x), feed_attr "y" _ rfl (valOk_format hf _), feed_attr "fill" _ rfl (valOk_hex hc),
    feed_attr "styles" _ rfl hv]
  cases cls with
  | none =>
    rw [show ∀ s, feed s [] = s from fun _ => rfl]
    rw [show ∀ cur out, feed ⟨.inTag, cur, out⟩ ['>'] = ⟨.body, cur, out⟩ from fun _ _ => rfl]
    rw [feed_body _ _ _ fun c hc => ((C35_svg_text_escaped s.text).1 c hc).1]
    rfl
  | some c =>
    simp only
    rw [feed_attr "class" _ rfl (hcls c rfl)]
    rw [show ∀ cur out, feed ⟨.inTag, cur, out⟩ ['>'] = ⟨.body, cur, out⟩ from fun _ _ => rfl]
    rw [feed_body _ _ _ fun c hc => ((C35_svg_text_escaped s.text).1 c hc).1]
    rfl

end Slate
