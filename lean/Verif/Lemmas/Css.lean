import Verif.Spec.Css
import Verif.Lemmas.Markup

/-!
# Reading the stylesheet of an export
-/

namespace Slate
open Py Css

theorem css_append (s : State) (a b : List Char) : Css.feed s (a ++ b) = Css.feed (Css.feed s a) b := List.foldl_append ..

/-- Class names end where they should. -/
def ClsOk (v : Str) : Prop := ∀ c ∈ v, c ≠ ' ' ∧ c ≠ '\n' ∧ c ≠ '{'

/-- Properties. -/
def PropOk (v : Str) : Prop := ∀ c ∈ v, c ≠ ':' ∧ c ≠ '}' ∧ c ≠ ' ' ∧ c ≠ '\n'

/-- Values. -/
def CssValOk (v : Str) : Prop := ∀ c ∈ v, c ≠ ';' ∧ c ≠ '}'

theorem feed_cls (cur : Rule) (out : List Rule) : ∀ (t n : Str), ClsOk t →
    Css.feed ⟨.selector n, cur, out⟩ t = ⟨.selector (n ++ t), cur, out⟩
  | [], n, _ => by simp [Css.feed]
  | c :: t, n, h => by
    obtain ⟨h1, h2, h3⟩ := h c (by simp)
    have : Css.step ⟨.selector n, cur, out⟩ c = ⟨.selector (n ++ [c]), cur, out⟩ := by simp [Css.step, Css.isSpace, h1, h2, h3]
    show Css.feed (Css.step _ c) t = _
    rw [this, feed_cls cur out t _ fun d hd => h d (by simp [hd])]
    simp

theorem feed_prop (cur : Rule) (out : List Rule) : ∀ (t n : Str), PropOk t →
    Css.feed ⟨.prop n, cur, out⟩ t = ⟨.prop (n ++ t), cur, out⟩
  | [], n, _ => by simp [Css.feed]
  | c :: t, n, h => by
    obtain ⟨h1, h2, h3, h4⟩ := h c (by simp)
    have : Css.step ⟨.prop n, cur, out⟩ c = ⟨.prop (n ++ [c]), cur, out⟩ := by simp [Css.step, Css.isSpace, h1, h2, h3, h4]
    show Css.feed (Css.step _ c) t = _
    rw [this, feed_prop cur out t _ fun d hd => h d (by simp [hd])]
    simp

theorem feed_value (n : Str) (cur : Rule) (out : List Rule) : ∀ (t v : Str), CssValOk t →
    Css.feed ⟨.value n v, cur, out⟩ t = ⟨.value n (v ++ t), cur, out⟩
  | [], v, _ => by simp [Css.feed]
  | c :: t, v, h => by
    obtain ⟨h1, h2⟩ := h c (by simp)
    have : Css.step ⟨.value n v, cur, out⟩ c = ⟨.value n (v ++ [c]), cur, out⟩ := by simp [Css.step, h1, h2]
    show Css.feed (Css.step _ c) t = _
    rw [this, feed_value n cur out t _ fun d hd => h d (by simp [hd])]
    simp

/-- Declarations that can be read back. -/
def DeclsOk (ds : List (Str × Str)) : Prop := ∀ d ∈ ds, PropOk d.1 ∧ CssValOk d.2

theorem feed_declaration (cur : Rule) (out : List Rule) (d : Str × Str) (h : PropOk d.1 ∧ CssValOk d.2) :
    Css.feed ⟨.prop [], cur, out⟩ (Svg.declaration d) = ⟨.value d.1 d.2, cur, out⟩ := by
  unfold Svg.declaration
  rw [css_append, css_append, feed_prop _ _ _ _ h.1]
  rw [show ∀ n cur out, Css.feed ⟨.prop n, cur, out⟩ [':'] = ⟨.value n [], cur, out⟩ from fun _ _ _ => rfl]
  rw [feed_value _ _ _ _ _ h.2]
  simp

/-- What is read after joined declarations and the closing bracket. -/
theorem feed_decls (cls : Str) (out : List Rule) : ∀ (ds : List (Str × Str)) (done : List (Str × Str)), DeclsOk ds →
    Css.feed ⟨.prop [], ⟨cls, done⟩, out⟩ (join ";\n".toList (ds.map Svg.declaration) ++ "}\n".toList) =
      ⟨.outside, ⟨[], []⟩, out ++ [⟨cls, done ++ ds⟩]⟩
  | [], done, _ => by simp [join, Css.feed, Css.step, Css.isSpace]
  | [d], done, h => by
    have hj : join ";\n".toList ([d].map Svg.declaration) = Svg.declaration d := by simp [join]
    rw [hj, css_append, feed_declaration _ _ _ (h d (by simp))]
    simp [Css.feed, Css.step, Css.isSpace]
  | d :: e :: ds, done, h => by
    have hj : join ";\n".toList ((d :: e :: ds).map Svg.declaration) ++ "}\n".toList =
        Svg.declaration d ++ (";\n".toList ++ (join ";\n".toList ((e :: ds).map Svg.declaration) ++ "}\n".toList)) := by
      simp [join]
    rw [hj, css_append, feed_declaration _ _ _ (h d (by simp)), css_append]
    rw [show ∀ n v cur out, Css.feed ⟨.value n v, cur, out⟩ ";\n".toList =
      ⟨.prop [], ⟨cur.cls, cur.decls ++ [(n, v)]⟩, out⟩ from fun _ _ _ _ => rfl]
    rw [feed_decls cls out (e :: ds) _ fun x hx => h x (by simp at hx ⊢; tauto)]
    simp

theorem feed_rule (cls : Str) (hc : ClsOk cls) (s : Span) (hs : DeclsOk (Svg.cssOf s)) (out : List Rule) :
    Css.feed ⟨.outside, ⟨[], []⟩, out⟩ (Svg.rule cls s) = ⟨.outside, ⟨[], []⟩, out ++ [⟨cls, Svg.cssOf s⟩]⟩ := by
  unfold Svg.rule
  simp only [List.append_assoc]
  rw [css_append, show Css.feed ⟨.outside, ⟨[], []⟩, out⟩ ['.'] = ⟨.selector [], ⟨[], []⟩, out⟩ from rfl,
    css_append, feed_cls _ _ _ _ hc, css_append]
  rw [show ∀ n cur out, Css.feed ⟨.selector n, cur, out⟩ " {".toList = ⟨.prop [], ⟨n, []⟩, out⟩ from fun _ _ _ => rfl]
  rw [feed_decls _ _ _ _ hs]
  simp

theorem cssHex {c : Color} (h : c.Valid) : CssValOk c.hex := by
  obtain ⟨h1, h2, h3⟩ := h
  have k : ∀ n < 16, hexDigit n ≠ ';' ∧ hexDigit n ≠ '}' := by decide +kernel
  intro d hd
  simp only [Color.hex, hex2, List.cons_append, List.nil_append, List.mem_cons, List.not_mem_nil, or_false] at hd
  rcases hd with rfl | rfl | rfl | rfl | rfl | rfl | rfl
  · decide
  · exact k (c.r / 16) (by omega)
  · exact k (c.r % 16) (by omega)
  · exact k (c.g / 16) (by omega)
  · exact k (c.g % 16) (by omega)
  · exact k (c.b / 16) (by omega)
  · exact k (c.b % 16) (by omega)

instance (v : Str) : Decidable (PropOk v) := inferInstanceAs (Decidable (∀ c ∈ v, _))
instance (v : Str) : Decidable (CssValOk v) := inferInstanceAs (Decidable (∀ c ∈ v, _))

theorem cssOf_ok {s : Span} (h1 : ∀ c, s.fg = some c → c.Valid) (h2 : ∀ c, s.bg = some c → c.Valid) :
    DeclsOk (Svg.cssOf s) := by
  intro d hd
  have fill : ∀ o : Option Color, (∀ c, o = some c → c.Valid) → d ∈ Svg.cssFill o → PropOk d.1 ∧ CssValOk d.2 := by
    intro o ho hd
    cases o with
    | none => simp [Svg.cssFill] at hd
    | some c =>
      simp only [Svg.cssFill, List.mem_singleton] at hd
      subst hd
      exact ⟨(by decide : PropOk "fill".toList), cssHex (ho c rfl)⟩
  have style : ∀ b k v, PropOk (String.toList k) → CssValOk (String.toList v) → d ∈ Svg.cssIf b k v → PropOk d.1 ∧ CssValOk d.2 := by
    intro b k v hk hv hd
    unfold Svg.cssIf at hd
    split at hd
    · simp only [List.mem_singleton] at hd
      subst hd
      exact ⟨hk, hv⟩
    · simp at hd
  unfold Svg.cssOf at hd
  simp only [List.mem_append] at hd
  rcases hd with (((hd | hd) | hd) | hd) | hd
  · exact style _ _ _ (by decide) (by decide) hd
  · exact style _ _ _ (by decide) (by decide) hd
  · exact style _ _ _ (by decide) (by decide) hd
  · exact style _ _ _ (by decide) (by decide) hd
  · split at hd
    · exact fill _ h2 hd
    · exact fill _ h1 hd

end Slate
