import Verif.Lemmas.Display
import Verif.Lemmas.Fill

/-! Which strings and colours end up in cells. -/

namespace Slate
open Py Term

theorem charsGo_getElem? (seqs : Str) (reset : Bool) (text : Str) (k : Nat) :
    (Span.charsGo seqs true reset seqs text)[k]? = text[k]?.map fun c =>
      if k + 1 < text.length then seqs ++ [c]
      else if !seqs.isEmpty && reset then seqs ++ [c] ++ RESET else [c] := by
  induction text generalizing k with
  | nil => simp [Span.charsGo]
  | cons c t ih =>
    cases t with
    | nil => cases k <;> simp [Span.charsGo]
    | cons d t =>
      simp only [Span.charsGo, if_true]
      cases k with
      | zero => simp
      | succ k => simp [ih]

theorem length_cellChars (s : Span) : s.cellChars.length = s.text.length := by
  unfold Span.cellChars
  generalize s.colorlessSequences = seqs
  generalize s.resetAfter = r
  induction s.text with
  | nil => simp [Span.charsGo]
  | cons c t ih =>
    cases t with
    | nil => simp [Span.charsGo]
    | cons d t => simp only [Span.charsGo, if_true, List.length_cons] at ih ⊢; rw [ih]

/-- The conditions on a span under which its cells can be displayed: printable
characters (newlines only in unstyled spans) and displayable colours. -/
structure SpanOk (env : Color.Env) (den : Color → TColor) (s : Span) : Prop where
  text : ∀ c ∈ s.text, Printable c ∨ (c = '\n' ∧ s.style = {})
  fg : ∀ c, s.fg = some c → Sendable env c (den c)
  bg : ∀ c, s.bg = some c → Sendable env c (den c)

theorem wrapSgr_empty : wrapSgr ({} : Style).colorless = [] := by rfl

theorem SpanOk.cellStr {env : Color.Env} {den : Color → TColor} {s : Span} (h : SpanOk env den s)
    {ch : Str} (hm : ch ∈ s.cellChars) (hn : ch ≠ ['\n']) : ∃ st c r, CellStr ch st c r := by
  obtain ⟨k, hk⟩ := List.mem_iff_getElem?.mp hm
  unfold Span.cellChars at hk
  rw [charsGo_getElem?] at hk
  obtain ⟨c, hc, hk⟩ := Option.map_eq_some_iff.mp hk
  have hcm : c ∈ s.text := List.mem_of_getElem? hc
  rcases h.text c hcm with hp | ⟨rfl, hst⟩
  · split at hk
    · exact ⟨s.style, c, false, by rw [← hk]; rfl, hp⟩
    · split at hk
      · exact ⟨s.style, c, true, by rw [← hk]; simp [Span.colorlessSequences], hp⟩
      · exact ⟨{}, c, false, by rw [← hk, wrapSgr_empty]; rfl, hp⟩
  · exfalso
    have e : s.colorlessSequences = [] := by rw [Span.colorlessSequences, hst, wrapSgr_empty]
    rw [e] at hk
    apply hn
    rw [← hk]
    split <;> simp

/-- The matrices only hold displayable content. -/
structure MatsOk (env : Color.Env) (den : Color → TColor) (m : Mats) : Prop where
  char : ∀ x y c, m.wm x y = some c → ∃ st ch r, CellStr c.char st ch r
  fg : ∀ x y c f, m.wm x y = some c → c.fg = some f → Sendable env f (den f)
  bg : ∀ x y c f, m.wm x y = some c → c.bg = some f → Sendable env f (den f)
  am : ∀ x y c, c ∈ m.am x y → Sendable env c (den c)

theorem MatsOk.blank (env : Color.Env) (den : Color → TColor) : MatsOk env den Mats.blank :=
  ⟨by simp [Mats.blank], by simp [Mats.blank], by simp [Mats.blank], by simp [Mats.blank]⟩

theorem MatsOk.setWm {env : Color.Env} {den : Color → TColor} {m : Mats} (h : MatsOk env den m)
    (x y : Nat) (c : WCell) (hc : ∃ st ch r, CellStr c.char st ch r)
    (hf : ∀ f, c.fg = some f → Sendable env f (den f))
    (hb : ∀ f, c.bg = some f → Sendable env f (den f)) :
    MatsOk env den { m with wm := upd m.wm x y (some c) } where
  char x' y' d hd := by
    simp only [upd] at hd
    split at hd
    · injection hd with e; subst e; exact hc
    · exact h.char _ _ _ hd
  fg x' y' d f hd hf' := by
    simp only [upd] at hd
    split at hd
    · injection hd with e; subst e; exact hf f hf'
    · exact h.fg _ _ _ _ hd hf'
  bg x' y' d f hd hf' := by
    simp only [upd] at hd
    split at hd
    · injection hd with e; subst e; exact hb f hf'
    · exact h.bg _ _ _ _ hd hf'
  am := h.am

theorem MatsOk.setAm {env : Color.Env} {den : Color → TColor} {m : Mats} (h : MatsOk env den m)
    (x y : Nat) (l : List Color) (hl : ∀ c ∈ l, Sendable env c (den c)) :
    MatsOk env den { m with am := upd m.am x y l } where
  char := h.char
  fg := h.fg
  bg := h.bg
  am x' y' c hc := by
    simp only [upd] at hc
    split at hc
    · exact hl c hc
    · exact h.am _ _ _ hc

theorem MatsOk.putCell {env : Color.Env} {den : Color → TColor} {m : Mats} (h : MatsOk env den m)
    {s : Span} (hs : SpanOk env den s) {ch : Str} (hch : ch ∈ s.cellChars) (hn : ch ≠ ['\n'])
    (x y : Nat) : MatsOk env den (putCell m s ch x y) := by
  have hc := hs.cellStr hch hn
  unfold Slate.putCell
  split
  · rename_i old hold
    split
    · simp only
      have h1 := h.setWm x y
        { char := if isEmptyChar ch s.style then old.char else ch
          fg := if isEmptyChar ch s.style then old.fg else s.fg
          bg := old.bg
          bleed := decide (ch ≠ if isEmptyChar ch s.style then old.char else ch) }
        (by simp only; split
            · exact h.char _ _ _ hold
            · exact hc)
        (by simp only; intro f; split
            · exact h.fg _ _ _ _ hold
            · exact hs.fg f)
        (by simp only; intro f; exact h.bg _ _ _ _ hold)
      refine h1.setAm x y (m.am x y ++ s.bg.toList) ?_
      intro c hc
      rcases List.mem_append.mp hc with hc | hc
      · exact h.am _ _ _ hc
      · exact hs.bg c (by simpa using hc)
    · exact h.setWm x y _ hc hs.fg hs.bg
  · exact h.setWm x y _ hc hs.fg hs.bg

theorem getBlended_ok {env : Color.Env} {den : Color → TColor} (hden : DenOk env den)
    {a b : Option Color} {t : Rat} (ha : ∀ c, a = some c → Sendable env c (den c))
    (hb : ∀ c, b = some c → Sendable env c (den c)) :
    ∀ c, getBlended a b t = some c → Sendable env c (den c) := by
  intro c hc
  unfold getBlended at hc
  split at hc
  · simp at hc
  · exact ha c hc
  · exact hb c hc
  · split at hc
    · exact hb c hc
    · injection hc with e
      subst e
      exact hden _ rfl

theorem getBlended_isSome {a b : Option Color} {t : Rat} (h : a.isSome) :
    (getBlended a b t).isSome := by
  unfold getBlended
  split
  · simp at h
  · rfl
  · rfl
  · split <;> rfl

/-- The foreground is always set. -/
theorem blend_fold_isSome (bleed : Bool) (stack : List Color) (s : Blend) (h : s.fg.isSome) :
    (stack.foldl (blendStep bleed) s).fg.isSome := by
  induction stack generalizing s with
  | nil => exact h
  | cons c t ih =>
    apply ih
    unfold blendStep
    split
    · split
      · exact h
      · simp only; split
        · exact getBlended_isSome h
        · exact h
    · simp only; split
      · exact getBlended_isSome h
      · exact h

theorem resolve_fg_isSome (tb : Color) (stack : List Color) (c : WCell) :
    (resolveColors tb stack c).1.isSome := by
  have h := blend_fold_isSome c.bleed stack
    { blent := c.bg, fg := some (c.fg.getD Color.white), last := c.bg } rfl
  unfold resolveColors
  simp only
  split
  · split
    · exact getBlended_isSome rfl
    · rfl
  · rename_i hn; rw [hn] at h; simp at h

theorem blend_fold_ok {env : Color.Env} {den : Color → TColor} (hden : DenOk env den)
    (bleed : Bool) (stack : List Color) (s : Blend)
    (hst : ∀ c ∈ stack, Sendable env c (den c))
    (hf : ∀ c, s.fg = some c → Sendable env c (den c))
    (hb : ∀ c, s.blent = some c → Sendable env c (den c)) :
    (∀ c, (stack.foldl (blendStep bleed) s).fg = some c → Sendable env c (den c)) ∧
    (∀ c, (stack.foldl (blendStep bleed) s).blent = some c → Sendable env c (den c)) := by
  induction stack generalizing s with
  | nil => exact ⟨hf, hb⟩
  | cons c t ih =>
    have hc : ∀ d, some c = some d → Sendable env d (den d) := by
      intro d hd; injection hd with e; subst e; exact hst c (by simp)
    have key : (∀ d, (blendStep bleed s c).fg = some d → Sendable env d (den d)) ∧
        (∀ d, (blendStep bleed s c).blent = some d → Sendable env d (den d)) := by
      unfold blendStep
      split
      · split
        · exact ⟨hf, hb⟩
        · refine ⟨?_, getBlended_ok hden hb hc⟩
          simp only; split
          · exact getBlended_ok hden hf hc
          · exact hf
      · refine ⟨?_, getBlended_ok hden hb hc⟩
        simp only; split
        · exact getBlended_ok hden hf hc
        · exact hf
    exact ih _ (fun d hd => hst d (by simp [hd])) key.1 key.2

theorem resolve_ok {env : Color.Env} {den : Color → TColor} (hden : DenOk env den)
    (tb : Color) (stack : List Color) (c : WCell)
    (hst : ∀ c ∈ stack, Sendable env c (den c))
    (hf : ∀ f, c.fg = some f → Sendable env f (den f))
    (hb : ∀ f, c.bg = some f → Sendable env f (den f)) :
    (∀ d, (resolveColors tb stack c).1 = some d → Sendable env d (den d)) ∧
    (∀ d, (resolveColors tb stack c).2 = some d → Sendable env d (den d)) := by
  have h := blend_fold_ok hden c.bleed stack
    { blent := c.bg, fg := some (c.fg.getD Color.white), last := c.bg } hst
    (by
      intro d hd
      simp only [Option.some.injEq] at hd
      subst hd
      cases hcf : c.fg with
      | none => exact hden _ rfl
      | some f => exact hf f hcf) hb
  have hbg : ∀ d, (resolveColors tb stack c).2 = some d → Sendable env d (den d) := by
    unfold resolveColors
    simp only
    intro d
    split
    · rename_i b hbl
      split
      · rename_i ha
        intro hd
        unfold getBlended at hd
        simp only at hd
        rw [if_neg ha] at hd
        injection hd with e; subst e
        exact hden _ rfl
      · intro hd; exact h.2 d (hbl.trans hd)
    · simp
  refine ⟨?_, hbg⟩
  revert hbg
  unfold resolveColors
  simp only
  intro hbg d
  split
  · rename_i f hfl
    split
    · exact fun hd => getBlended_ok hden (fun c hc => h.1 c (hfl.trans hc)) hbg d hd
    · intro hd; exact h.1 d (hfl.trans hd)
  · simp

/-- The string queued by the commit loop prints the stored cell. -/
theorem MatsOk.prints {env : Color.Env} {den : Color → TColor} (hden : DenOk env den) {m : Mats}
    (h : MatsOk env den m) {x y : Nat} {c : WCell} (hc : m.wm x y = some c) (tb : Color) :
    endsWith c.char ['\n'] = false ∧
    Prints (changeStr env (resolveCell tb (m.am x y) c) false)
      (cellGlyph den (resolveCell tb (m.am x y) c)) := by
  obtain ⟨st, ch, r, hcs⟩ := h.char x y c hc
  refine ⟨hcs.endsWith, ?_⟩
  obtain ⟨r1, r2⟩ := resolve_ok hden tb (m.am x y) c (h.am x y)
    (fun f => h.fg x y c f hc) (fun f => h.bg x y c f hc)
  have hs := resolve_fg_isSome tb (m.am x y) c
  apply prints_changeStr (st := st) (c := ch) (reset := r)
  · simp only [resolveCell]; rw [hcs.rstrip]; exact hcs
  · obtain ⟨f, hf⟩ := Option.isSome_iff_exists.mp hs
    exact ⟨f, hf, r1 f hf⟩
  · exact r2

end Slate
