import Verif.Props.Parse

/-!
# Which spans survive rendering and parsing (C25)
-/

namespace Slate
open Py Term

/-! ### What no parsed span has -/

theorem spanOfOpts_reset {plain : Str} {o : Opts} {sp : Span} (h : spanOfOpts plain o = .ok sp) :
    sp.resetAfter = true ∧ sp.hyperlink = [] := by
  unfold spanOfOpts at h
  split at h
  · cases h
  · cases h; exact ⟨rfl, rfl⟩

theorem yieldLoop_reset : ∀ (ms : List (Str × Str × Nat)) (o : Opts) (i : Nat), ∀ sp ∈ (yieldLoop ms o i).1,
    sp.resetAfter = true ∧ sp.hyperlink = []
  | [], _, _ => by simp [yieldLoop]
  | (seq, plain, stop) :: ms, o, i => by
    intro sp hsp
    rw [yieldLoop] at hsp
    split at hsp
    · cases hsp
    · cases hsp
    · rename_i o' _
      split at hsp
      · cases hsp
      · rename_i sp' hs
        rcases List.mem_cons.mp hsp with rfl | hsp
        · exact spanOfOpts_reset hs
        · exact yieldLoop_reset ms o' stop sp hsp

/-- Every span that `yield_from` yields resets and has no hyperlink. -/
theorem yieldFrom_reset (line : Str) : ∀ sp ∈ (yieldFrom line).1, sp.resetAfter = true ∧ sp.hyperlink = [] := by
  intro sp hsp
  unfold yieldFrom at hsp
  have key := yieldLoop_reset (styleMatches (if endsWith line [ESC] then line else line ++ [ESC])) {} 0
  generalize (if endsWith line [ESC] then line else line ++ [ESC]) = l at hsp key
  simp only at hsp
  split at hsp
  · rename_i sps _ _ h
    rw [h] at key
    exact key sp hsp
  · rename_i sps _ h
    rw [h] at key
    split at hsp
    · rcases List.mem_append.mp hsp with hsp | hsp
      · exact key sp hsp
      · rw [List.mem_singleton] at hsp
        subst hsp
        exact ⟨rfl, rfl⟩
    · exact key sp hsp

theorem firstFrom_reset {line : Str} {t : Span} (h : firstFrom line = .ok (some t)) : t.resetAfter = true := by
  have key := yieldFrom_reset line
  unfold firstFrom at h
  split at h
  · rename_i sp sps _ h'
    cases h
    exact (key _ (by rw [h']; exact List.mem_cons_self)).1
  · cases h
  · cases h

/-- **C25 violated**: no span without `reset_after` is given back, whatever its text, its style and the colour space are. -/
theorem C25_reset_violated (env : Color.Env) (s : Span) (h : s.resetAfter = false) (t : Span)
    (ht : firstFrom (s.render env) = .ok (some t)) : t.eq env s = false := by
  have := firstFrom_reset ht
  unfold Span.eq
  simp [this, h]

/-! ### Exactly which spans are given back -/

/-- A colour without its transparency. -/
def Color.solid (c : Color) : Color := { c with alpha := 1 }

theorem ansi_solid (env : Color.Env) (c : Color) : c.solid.ansi env = c.ansi env := by
  rfl

/-- A span whose colours are made opaque. -/
def Span.solid (s : Span) : Span := { s with fg := s.fg.map Color.solid, bg := s.bg.map Color.solid }

theorem render_solid (env : Color.Env) (s : Span) : s.solid.render env = s.render env := by
  have hc : s.solid.colorCodes env = s.colorCodes env := by
    unfold Span.colorCodes Span.solid
    cases s.fg <;> cases s.bg <;> simp [ansi_solid]
  have ht : s.solid.total env = s.total env := by
    unfold Span.total
    rw [hc]; rfl
  have hs : s.solid.sequences env = s.sequences env := by
    unfold Span.sequences
    rw [ht]
  unfold Span.render
  rw [hs]
  rfl

/-- **C25**, exactly: of the spans the property is about, with colours of any transparency, `first_from` gives back those that reset and
whose colours are opaque, and no others. -/
theorem C25_exact (env : Color.Env) (henv : env.space = .trueColor) (s : Span)
    (ht : s.text ≠ [] ∧ ∀ c ∈ s.text, c ≠ '\x1b') (hlink : s.hyperlink = []) (hop : s.style.isOpaque = false)
    (hf : ∀ c, s.fg = some c → Usual c.solid ∧ c.isBg = false)
    (hb : ∀ c, s.bg = some c → Usual c.solid ∧ c.isBg = true) :
    (∃ t, firstFrom (s.render env) = .ok (some t) ∧ t.eq env s = true) ↔
      s.resetAfter = true ∧ (∀ c, s.fg = some c → c.alpha = 1) ∧ (∀ c, s.bg = some c → c.alpha = 1) := by
  constructor
  · rintro ⟨t, h1, h2⟩
    have hr : s.resetAfter = true := by
      cases hr : s.resetAfter with
      | true => rfl
      | false => rw [C25_reset_violated env s hr t h1] at h2; cases h2
    obtain ⟨t', h1', h2'⟩ := C25_parse_rendered_partial env henv s.solid ht hlink hop hr
      (by
        intro c hc
        simp only [Span.solid, Option.map_eq_some_iff] at hc
        obtain ⟨d, hd, rfl⟩ := hc
        exact hf d hd)
      (by
        intro c hc
        simp only [Span.solid, Option.map_eq_some_iff] at hc
        obtain ⟨d, hd, rfl⟩ := hc
        exact hb d hd)
    rw [render_solid, h1] at h1'
    cases h1'
    have key : ∀ u : Span, t.eq env u = true → Span.optEq t.fg u.fg = true ∧ Span.optEq t.bg u.bg = true := by
      intro u hu
      unfold Span.eq Span.attrsEq at hu
      simp only [Bool.and_eq_true] at hu
      tauto
    obtain ⟨a1, a2⟩ := key s h2
    obtain ⟨b1, b2⟩ := key _ h2'
    have two : ∀ (o : Option Color) (p : Option Color), Span.optEq o p = true → Span.optEq o (p.map Color.solid) = true →
        ∀ c, p = some c → c.alpha = 1 := by
      intro o p h1 h2 c hc
      subst hc
      cases o with
      | none => cases h1
      | some d =>
        simp only [Option.map_some, Span.optEq, Color.eq, Color.solid, Bool.and_eq_true, decide_eq_true_eq] at h1 h2
        simp_all
    exact ⟨hr, two _ _ a1 b1, two _ _ a2 b2⟩
  · rintro ⟨hr, ha, hb'⟩
    have same : ∀ c : Color, c.alpha = 1 → c.solid = c := by
      rintro ⟨r, g, b, i, al, o, k⟩ h
      simp only at h
      subst h
      rfl
    refine C25_parse_rendered_partial env henv s ht hlink hop hr ?_ ?_
    · intro c hc
      have := hf c hc
      rwa [same c (ha c hc)] at this
    · intro c hc
      have := hb c hc
      rwa [same c (hb' c hc)] at this

/-- A span with a translucent colour that C25_exact covers. -/
example : Usual (Color.solid { r := 1, g := 2, b := 3, alpha := 1 / 2 }) :=
  ⟨⟨by decide, by decide, by decide⟩, rfl, .inl rfl⟩

end Slate
