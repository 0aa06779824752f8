import Verif.Spec.Process
import Verif.Lemmas.CacheOn
import Verif.Props.Flow
import Verif.Props.Shape

/-!
# C119: screens do not influence each other
-/

namespace Slate
open Py

/-! ### A cache that is right about some spans -/

theorem CacheOkOn.get_any {P : Span → Prop} {cache : CharCache} (h : CacheOkOn P cache) (s : Span) : CacheOkOn P (cache.get s).2 := by
  unfold CharCache.get
  cases hl : cache.lookup s with
  | none =>
    intro e he hp
    rcases List.mem_cons.mp (List.mem_of_mem_take he) with rfl | hm
    · rfl
    · exact h e hm hp
  | some l =>
    intro e he hp
    rcases List.mem_cons.mp he with rfl | hm
    · exact h _ (mem_of_lookup hl) hp
    · exact h e (List.mem_of_mem_filter hm) hp

theorem CacheOkOn.assign {P : Span → Prop} {cache : CharCache} (h : CacheOkOn P cache) {s : Span} (hs : ¬ P s) (l : List Str) :
    CacheOkOn P (cache.assign s l) := by
  intro e he hp
  obtain ⟨d, hd, rfl⟩ := List.mem_map.mp he
  split at hp
  · exact absurd hp hs
  · rename_i hne
    rw [if_neg hne]
    exact h d hd hp

theorem putSpans_okOn {P : Span → Prop} (spans : List Span) (i : Nat) (p : Pen) (m : Mats) (w : World) (h : CacheOkOn P w.cache)
    (hs : (∀ s ∈ spans, ¬ P s) ∨ (putSpans spans i p m w).2.2.1.scr.offset = w.scr.offset) :
    CacheOkOn P (putSpans spans i p m w).2.2.1.cache := by
  induction spans generalizing i p m w with
  | nil => exact h
  | cons span rest ih =>
    have h2 := h.get_any span
    unfold putSpans at hs ⊢
    simp only at hs ⊢
    split
    · rename_i hcond
      rw [if_pos hcond] at hs
      split
      · exact h2
      · rename_i hne
        rw [if_neg hne] at hs
        split
        · rename_i hcells
          simp only [hcells] at hs
          rcases hs with hs | hs
          · exact h2.assign (hs span (by simp)) _
          · exfalso; have := hcond.2; omega
        · rename_i _ rows hcells
          simp only [hcells] at hs
          rcases hs with hs | hs
          · exact ih _ _ _ _ (h2.assign (hs span (by simp)) _) (.inl fun s hm => hs s (by simp [hm]))
          · exfalso
            have := (putSpans_frame rest (i + 1) _ _ _ |>.offset).trans (le_of_eq hs)
            have := hcond.2
            simp only at *
            omega
    · rename_i hcond
      rw [if_neg hcond] at hs
      exact ih _ _ _ _ h2 (hs.imp (fun hs s hm => hs s (by simp [hm])) id)

theorem putData_okOn {P : Span → Prop} (data : List Entry) (m : Mats) (w : World) (h : CacheOkOn P w.cache)
    (hs : (∀ e ∈ data, ∀ s ∈ e.2, ¬ P s) ∨ (putData data m w).2.1.scr.offset = w.scr.offset) :
    CacheOkOn P (putData data m w).2.1.cache := by
  induction data generalizing m w with
  | nil => exact h
  | cons e rest ih =>
    obtain ⟨c, line⟩ := e
    cases c with
    | none => exact h
    | some xy =>
      have h1 := putSpans_okOn (P := P) line 0 { x := xy.1, y := xy.2, last := (line.length : Int) - 1 } m w h
      have hf := (putSpans_frame line 0 { x := xy.1, y := xy.2, last := (line.length : Int) - 1 } m w).offset
      unfold putData at hs ⊢
      revert h1 hf hs
      rcases putSpans line 0 { x := xy.1, y := xy.2, last := (line.length : Int) - 1 } m w with ⟨p', m', w', e'⟩
      intro h1 hf hs
      cases e' with
      | some e => exact h1 (hs.imp (fun hs => hs (some xy, line) (by simp)) id)
      | none =>
        simp only at hs h1 hf ⊢
        rcases hs with hs | hs
        · exact ih m' w' (h1 (.inl (hs (some xy, line) (by simp)))) (.inl fun e he => hs e (by simp [he]))
        · have := (putData_frame rest m' w').offset
          exact ih m' w' (h1 (.inr (by omega))) (.inr (by omega))

theorem commitCell_offset (env : Color.Env) (tb : Color) (m : Mats) (l : List (Nat × Nat)) (acc : Screen × Except PyErr Nat) :
    (l.foldl (commitCell env tb m) acc).1.offset = acc.1.offset := by
  induction l generalizing acc with
  | nil => rfl
  | cons q l ih =>
    rw [List.foldl_cons, ih]
    obtain ⟨s, r⟩ := acc
    unfold commitCell
    simp only
    split
    · rename_i h; simp only [Prod.mk.injEq] at h; rw [h.1]
    · rename_i h
      simp only [Prod.mk.injEq] at h
      obtain ⟨rfl, rfl⟩ := h
      split
      · rfl
      · split
        · rfl
        · split <;> rfl

theorem writeBulk_offset_eq (env : Color.Env) (data : List Entry) (tb : Color) (force : Bool) (w : World) :
    (writeBulk env data tb force w).1.scr.offset = (putData data Mats.blank w).2.1.scr.offset := by
  unfold writeBulk
  rcases putData data Mats.blank w with ⟨m, w', e⟩
  cases e with
  | some e => rfl
  | none => exact commitCell_offset env tb m _ _

theorem writeBulk_cache_eq (env : Color.Env) (data : List Entry) (tb : Color) (force : Bool) (w : World) :
    (writeBulk env data tb force w).1.cache = (putData data Mats.blank w).2.1.cache := by
  unfold writeBulk
  rcases putData data Mats.blank w with ⟨m, w', e⟩
  cases e with
  | some e => rfl
  | none => rfl

theorem run_okOn {P : Span → Prop} (env : Color.Env) (w : World) (op : Api) (h : CacheOkOn P w.cache)
    (hs : op.Uses (fun s => ¬ P s) (fun _ => True) ∨ (op.run env w).scr.offset = w.scr.offset) : CacheOkOn P (op.run env w).cache := by
  have hwb : ∀ data tb force, ((∀ e ∈ data, ∀ s ∈ e.2, ¬ P s) ∨ (writeBulk env data tb force w).1.scr.offset = w.scr.offset) →
      CacheOkOn P (writeBulk env data tb force w).1.cache := by
    intro data tb force h'
    rw [writeBulk_offset_eq] at h'
    rw [writeBulk_cache_eq]
    exact putData_okOn data _ w h h'
  cases op with
  | write spans cursor tb force => exact hwb _ _ _ (hs.imp (fun h => by simpa using h.1) id)
  | writeBulk data tb force => exact hwb _ _ _ (hs.imp (fun h => h.1) id)
  | clear fill => exact h
  | resize a b fill keep => exact h
  | render origin redraw => exact h
  | getCharacters s => exact h.get_any s

/-! ### Calls that read right lists from different caches -/

theorem putSpans_either {P : Span → Prop} (spans : List Span) (hP : ∀ s ∈ spans, P s) (i : Nat) (p : Pen) (m : Mats) (scr : Screen)
    (c c' : CharCache) (h : CacheOkOn P c) (h' : CacheOkOn P c')
    (ho : (putSpans spans i p m { scr := scr, cache := c }).2.2.1.scr.offset = scr.offset) :
    let r := putSpans spans i p m { scr := scr, cache := c }
    let r' := putSpans spans i p m { scr := scr, cache := c' }
    r'.1 = r.1 ∧ r'.2.1 = r.2.1 ∧ r'.2.2.1.scr = r.2.2.1.scr ∧ r'.2.2.2 = r.2.2.2 := by
  induction spans generalizing i p m c c' with
  | nil => exact ⟨rfl, rfl, rfl, rfl⟩
  | cons span rest ih =>
    obtain ⟨h1, h2⟩ := h.get span (hP span (by simp))
    obtain ⟨h1', h2'⟩ := h'.get span (hP span (by simp))
    unfold putSpans at ho ⊢
    simp only at ho ⊢
    split at ho
    · rename_i hcond
      exfalso
      obtain ⟨_, hy⟩ := hcond
      split at ho
      · simp only at ho; omega
      · split at ho
        · simp only at ho; omega
        · have := (putSpans_frame rest (i + 1) _ _ _ |>.offset).trans (le_of_eq ho)
          simp only at this; omega
    · rename_i hcond
      rw [if_neg hcond, if_neg hcond]
      rw [h1] at ho
      rw [h1, h1']
      exact ih (fun s hs => hP s (by simp [hs])) _ _ _ _ _ h2 h2' ho

theorem putData_either {P : Span → Prop} (data : List Entry) (hP : ∀ e ∈ data, ∀ s ∈ e.2, P s) (m : Mats) (scr : Screen)
    (c c' : CharCache) (h : CacheOkOn P c) (h' : CacheOkOn P c')
    (ho : (putData data m { scr := scr, cache := c }).2.1.scr.offset = scr.offset) :
    let r := putData data m { scr := scr, cache := c }
    let r' := putData data m { scr := scr, cache := c' }
    r'.1 = r.1 ∧ r'.2.1.scr = r.2.1.scr ∧ r'.2.2 = r.2.2 := by
  induction data generalizing m scr c c' with
  | nil => exact ⟨rfl, rfl, rfl⟩
  | cons e rest ih =>
    obtain ⟨q, line⟩ := e
    cases q with
    | none => exact ⟨rfl, rfl, rfl⟩
    | some xy =>
      have hl : ∀ s ∈ line, P s := hP (some xy, line) (by simp)
      have e1 := putSpans_either line hl 0 { x := xy.1, y := xy.2, last := (line.length : Int) - 1 } m scr c c' h h'
      have k1 := putSpans_okOn (P := P) line 0 { x := xy.1, y := xy.2, last := (line.length : Int) - 1 } m { scr := scr, cache := c } h
      have k2 := putSpans_okOn (P := P) line 0 { x := xy.1, y := xy.2, last := (line.length : Int) - 1 } m { scr := scr, cache := c' } h'
      have hf := (putSpans_frame line 0 { x := xy.1, y := xy.2, last := (line.length : Int) - 1 } m { scr := scr, cache := c }).offset
      unfold putData at ho ⊢
      revert e1 k1 k2 hf ho
      rcases putSpans line 0 { x := xy.1, y := xy.2, last := (line.length : Int) - 1 } m { scr := scr, cache := c } with ⟨p1, m1, w1, e1⟩
      rcases putSpans line 0 { x := xy.1, y := xy.2, last := (line.length : Int) - 1 } m { scr := scr, cache := c' } with ⟨p2, m2, w2, e2⟩
      intro he k1 k2 hf ho
      simp only at ho he k1 k2 hf ⊢
      have ho1 : w1.scr.offset = scr.offset := by
        cases e1 with
        | some e => exact ho
        | none =>
          have := (putData_frame rest m1 w1).offset
          simp only at ho
          omega
      obtain ⟨rfl, rfl, hscr, rfl⟩ := he ho1
      have g1 := k1 (.inr ho1)
      have g2 := k2 (.inr (by rw [hscr]; exact ho1))
      obtain ⟨s1, c1⟩ := w1
      obtain ⟨s2, c2⟩ := w2
      simp only at hscr ho1 g1 g2
      subst hscr
      cases e2 with
      | some e => exact ⟨rfl, rfl, rfl⟩
      | none =>
        simp only at ho ⊢
        exact ih (fun e he => hP e (by simp [he])) _ _ _ _ g1 g2 (by rw [ho, ho1])

theorem run_either {P : Span → Prop} (env : Color.Env) (scr : Screen) (c c' : CharCache) (op : Api) (hu : op.Uses P (fun _ => True))
    (h : CacheOkOn P c) (h' : CacheOkOn P c') (ho : (op.run env { scr := scr, cache := c }).scr.offset = scr.offset) :
    (op.run env { scr := scr, cache := c' }).scr = (op.run env { scr := scr, cache := c }).scr := by
  have hwb : ∀ data tb force, (∀ e ∈ data, ∀ s ∈ e.2, P s) →
      (writeBulk env data tb force { scr := scr, cache := c }).1.scr.offset = scr.offset →
      (writeBulk env data tb force { scr := scr, cache := c' }).1.scr = (writeBulk env data tb force { scr := scr, cache := c }).1.scr := by
    intro data tb force hd ho
    rw [writeBulk_offset_eq] at ho
    have := putData_either data hd Mats.blank scr c c' h h' ho
    unfold writeBulk
    revert this
    rcases putData data Mats.blank { scr := scr, cache := c } with ⟨m1, w1, e1⟩
    rcases putData data Mats.blank { scr := scr, cache := c' } with ⟨m2, w2, e2⟩
    rintro ⟨h1, h2, h3⟩
    simp only at h1 h2 h3
    subst h1 h3
    cases e2 with
    | some e => exact h2
    | none => simp only [h2]
  cases op with
  | write spans cursor tb force => exact hwb _ _ _ (by simpa using hu.1) ho
  | writeBulk data tb force => exact hwb _ _ _ hu.1 ho
  | clear fill => rfl
  | resize a b fill keep => rfl
  | render origin redraw => rfl
  | getCharacters s => rfl

theorem callsOn_cons (i : Nat) (c : Nat × Api) (rest : List (Nat × Api)) :
    callsOn i (c :: rest) = if c.1 = i then c.2 :: callsOn i rest else callsOn i rest := by
  unfold callsOn
  rw [List.filter_cons]
  by_cases h : c.1 = i <;> simp [h]

/-- **C119** (partial: not if the screen scrolls, or another one scrolls with a span that the screen is given, `C119_cells_violated`):
a screen that does not scroll is, whatever was called on the others in between, exactly what it would be without them. This includes the
strings that are still to be drawn. -/
theorem C119_calm_partial (env : Color.Env) (P : Span → Prop) (i : Nat) (p : Process) (calls : List (Nat × Api))
    (hs : Shape (p.scr i).width (p.scr i).height (p.scr i).cells) (hc : CacheOkOn P p.cache)
    (hu : ∀ op ∈ callsOn i calls, op.Uses P (fun _ => True)) (hd : Undisturbed env P i p calls)
    (ho : (alone env p i calls).offset = (p.scr i).offset) :
    (p.runAll env calls).scr i = alone env p i calls := by
  suffices key : ∀ (calls : List (Nat × Api)) (p : Process) (cache : CharCache),
      Shape (p.scr i).width (p.scr i).height (p.scr i).cells → CacheOkOn P p.cache → CacheOkOn P cache →
      (∀ op ∈ callsOn i calls, op.Uses P (fun _ => True)) → Undisturbed env P i p calls →
      (Api.runAll env { scr := p.scr i, cache := cache } (callsOn i calls)).scr.offset = (p.scr i).offset →
      (p.runAll env calls).scr i = (Api.runAll env { scr := p.scr i, cache := cache } (callsOn i calls)).scr from
    key calls p [] hs hc (by simp [CacheOkOn]) hu hd ho
  intro calls
  induction calls with
  | nil => intro p cache _ _ _ _ _ _; rfl
  | cons c rest ih =>
    intro p cache hs hc hca hu hd ho
    obtain ⟨j, op⟩ := c
    have hstep : p.runAll env ((j, op) :: rest) = (p.run env (j, op)).runAll env rest := rfl
    rw [hstep]
    obtain ⟨hd1, hd2⟩ := hd
    rw [callsOn_cons] at hu ho ⊢
    by_cases hj : j = i
    · subst hj
      simp only [if_true] at hu ho ⊢
      have e0 : Api.runAll env { scr := p.scr j, cache := cache } (op :: callsOn j rest) =
          Api.runAll env (op.run env { scr := p.scr j, cache := cache }) (callsOn j rest) := rfl
      rw [e0] at ho ⊢
      have m1 := (run_still env { scr := p.scr j, cache := cache } op hs).1
      have m2 := runAll_offset_mono env (callsOn j rest) (op.run env { scr := p.scr j, cache := cache })
        (run_shape env { scr := p.scr j, cache := cache } op hs)
      have o1 : (op.run env { scr := p.scr j, cache := cache }).scr.offset = (p.scr j).offset := by
        simp only at m1
        omega
      have hop := hu op (by simp)
      have e1 : (p.run env (j, op)).scr j = (op.run env { scr := p.scr j, cache := cache }).scr := by
        show Function.update p.scr j (op.run env { scr := p.scr j, cache := p.cache }).scr j = _
        rw [Function.update_self]
        exact run_either env (p.scr j) cache p.cache op hop hca hc o1
      have o2 : (op.run env { scr := p.scr j, cache := p.cache }).scr.offset = (p.scr j).offset := by
        rw [run_either env (p.scr j) cache p.cache op hop hca hc o1, o1]
      have := ih (p.run env (j, op)) (op.run env { scr := p.scr j, cache := cache }).cache
        (by rw [e1]; exact run_shape env { scr := p.scr j, cache := cache } op hs)
        (run_okOn env { scr := p.scr j, cache := p.cache } op hc (.inr o2))
        (run_okOn env { scr := p.scr j, cache := cache } op hca (.inr o1))
        (fun o h => hu o (by simp [h])) hd2
      rw [e1] at this
      exact this (by rw [ho, o1])
    · rw [if_neg hj] at hu ho ⊢
      have e1 : (p.run env (j, op)).scr i = p.scr i := Function.update_of_ne (Ne.symm hj) _ _
      have := ih (p.run env (j, op)) cache (by rw [e1]; exact hs)
        (run_okOn env { scr := p.scr j, cache := p.cache } op hc (by
          rcases hd1 with h | h | h
          · exact absurd h hj
          · exact .inl h
          · refine .inr ?_
            have e2 : (p.run env (j, op)).scr j = (op.run env { scr := p.scr j, cache := p.cache }).scr := Function.update_self _ _ _
            simp only [e2] at h
            exact h)) hca hu hd2
      rw [e1] at this
      exact this ho

/-! ### Screens that scroll -/

/-- Texts without line breaks that hide nothing of a text below them: the background is opaque or missing, or no character is an
invisible space. -/
def Solid (s : Span) : Prop :=
  '\n' ∉ s.text ∧ ((∀ b, s.bg = some b → b.alpha = 1) ∨ s.style.isOpaque = true ∨ ∀ c ∈ s.text, isSpace c = false)

/-- An entry of the matrix without the line breaks at the end of its character. -/
def WCell.bare (c : WCell) : WCell := { c with char := stripNl c.char }

/-- Matrices that differ at most in line breaks. -/
def MatsLike (m m' : Mats) : Prop := ∀ x y, (m.wm x y).map WCell.bare = (m'.wm x y).map WCell.bare ∧ m.am x y = m'.am x y

/-- The character of a text without line breaks, with line breaks at its end. -/
def CharOf (s : Span) (c : Str) : Prop := ∃ j ch, s.text[j]? = some ch ∧ stripNl c = styledChar s j ch

theorem isEmptyChar_solid {s : Span} (hs : Solid s) (ha : bgHasAlpha s.bg = true) {c : Str} (hc : CharOf s c) : isEmptyChar c s.style = false := by
  obtain ⟨j, ch, hj, e⟩ := hc
  have hl : isEmptyChar c s.style = isEmptyChar (styledChar s j ch) s.style := lengthened_empty (l := { span := s, nth := j, char := ch }) e
  have hsub : subAnsi (styledChar s j ch) = [ch] := by
    have := subAnsi_letter { span := s, nth := j, char := ch } [] (by simp)
    rw [List.append_nil] at this
    exact this
  rw [hl]
  unfold isEmptyChar
  rw [hsub, strip_isEmpty]
  rcases hs.2 with h | h | h
  · exfalso
    cases hb : s.bg with
    | none => simp [hb, bgHasAlpha] at ha
    | some b => simp [hb, bgHasAlpha, h b hb] at ha
  · simp [h]
  · simp [h ch (List.mem_of_getElem? hj)]

theorem putCell_like {m m' : Mats} (h : MatsLike m m') {s : Span} (hs : Solid s) {c c' : Str} (hc : CharOf s c) (hc' : CharOf s c')
    (e : stripNl c = stripNl c') (x y : Nat) : MatsLike (putCell m s c x y) (putCell m' s c' x y) := by
  obtain ⟨h1, h2⟩ := h x y
  have hu : ∀ (a a' : WCell), a.bare = a'.bare → ∀ x' y', (upd m.wm x y (some a) x' y').map WCell.bare = (upd m'.wm x y (some a') x' y').map WCell.bare := by
    intro a a' ha x' y'
    unfold upd
    split
    · simp [ha]
    · exact (h x' y').1
  have hplain : ∀ (fg bg : Option Color), WCell.bare { char := c, fg := fg, bg := bg, bleed := false } = WCell.bare { char := c', fg := fg, bg := bg, bleed := false } := by
    intro fg bg
    simp [WCell.bare, e]
  unfold putCell
  cases hm : m.wm x y with
  | none =>
    rw [hm] at h1
    cases hm' : m'.wm x y with
    | none => exact fun x' y' => ⟨hu _ _ (hplain _ _) x' y', (h x' y').2⟩
    | some a => rw [hm'] at h1; simp at h1
  | some a =>
    rw [hm] at h1
    cases hm' : m'.wm x y with
    | none => rw [hm'] at h1; simp at h1
    | some a' =>
      rw [hm'] at h1
      have hb : a.bg = a'.bg := by
        have hbare : a.bare = a'.bare := Option.some.inj h1
        exact show a.bare.bg = a'.bare.bg by rw [hbare]
      simp only
      split
      · rename_i ha
        rw [isEmptyChar_solid hs ha hc, isEmptyChar_solid hs ha hc']
        refine fun x' y' => ⟨hu _ _ (by simp [WCell.bare, e, hb]) x' y', ?_⟩
        simp only [upd, h2]
        split
        · rfl
        · exact (h x' y').2
      · exact fun x' y' => ⟨hu _ _ (hplain _ _) x' y', (h x' y').2⟩

theorem CharOf.ne {s : Span} {c : Str} (h : CharOf s c) : c ≠ ['\n'] := by
  obtain ⟨j, ch, -, hst⟩ := h
  intro e
  rw [e, show stripNl ['\n'] = [] from rfl] at hst
  unfold styledChar at hst
  simp only at hst
  split at hst
  · simp at hst
  · split at hst <;> simp at hst

theorem putChars_like (width height : Nat) {s : Span} (hs : Solid s) (l l' : List Str) (p : Pen) (m m' : Mats) (h : MatsLike m m')
    (hl : ∀ c ∈ l, CharOf s c) (hl' : ∀ c ∈ l', CharOf s c) (e : l.map stripNl = l'.map stripNl) :
    (putChars width height s l p m).1 = (putChars width height s l' p m').1 ∧
    MatsLike (putChars width height s l p m).2 (putChars width height s l' p m').2 := by
  induction l generalizing l' p m m' with
  | nil =>
    cases l' with
    | nil => exact ⟨rfl, h⟩
    | cons c' l' => simp at e
  | cons c l ih =>
    cases l' with
    | nil => simp at e
    | cons c' l' =>
      simp only [List.map_cons, List.cons.injEq] at e
      obtain ⟨e1, e2⟩ := e
      have hempty : l.isEmpty = l'.isEmpty := by
        have := congrArg List.length e2
        simp only [List.length_map] at this
        cases l <;> cases l' <;> simp_all
      unfold putChars
      rw [if_neg (hl c (by simp)).ne, if_neg (hl' c' (by simp)).ne, hempty]
      split
      · exact ⟨rfl, h⟩
      · exact ih l' _ _ _ (putCell_like h hs (hl c (by simp)) (hl' c' (by simp)) e1 _ _) (fun c hc => hl c (by simp [hc]))
          (fun c hc => hl' c (by simp [hc])) e2

theorem charOf_list {s : Span} {l : List Str} (h : l.map stripNl = s.cellChars) : ∀ c ∈ l, CharOf s c := by
  intro c hc
  obtain ⟨j, hj⟩ := List.mem_iff_getElem?.mp hc
  have : s.cellChars[j]? = some (stripNl c) := by rw [← h, List.getElem?_map, hj]; rfl
  rw [cellChars_getElem?] at this
  obtain ⟨ch, h1, h2⟩ := Option.map_eq_some_iff.mp this
  exact ⟨j, ch, h1, h2.symm⟩

/-- Outcomes of a loop that differ at most in line breaks. -/
structure Kin (m m' : Mats) (w w' : World) : Prop where
  mats : MatsLike m m'
  scr : w.scr.Alike w'.scr
  left : CacheRs w.cache
  right : CacheRs w'.cache

theorem putSpans_like (spans : List Span) (hS : ∀ s ∈ spans, Solid s) (i : Nat) (p : Pen) (m m' : Mats) (w w' : World) (h : Kin m m' w w') :
    let r := putSpans spans i p m w
    let r' := putSpans spans i p m' w'
    r.1 = r'.1 ∧ Kin r.2.1 r'.2.1 r.2.2.1 r'.2.2.1 ∧ r.2.2.2 = r'.2.2.2 := by
  induction spans generalizing i p m m' w w' with
  | nil => exact ⟨rfl, h, rfl⟩
  | cons span rest ih =>
    have hsp := hS span (by simp)
    have hr : ∀ s ∈ rest, Solid s := fun s hs => hS s (by simp [hs])
    obtain ⟨g1, g2⟩ := h.left.get span
    obtain ⟨g1', g2'⟩ := h.right.get span
    have g1 := g1 hsp.1
    have g1' := g1' hsp.1
    have ge : (w.cache.get span).1.map stripNl = (w'.cache.get span).1.map stripNl := by rw [g1, g1']
    have gn : (w.cache.get span).1.isEmpty = (w'.cache.get span).1.isEmpty := by
      have := congrArg List.length ge
      simp only [List.length_map] at this
      revert this
      cases (w.cache.get span).1 <;> cases (w'.cache.get span).1 <;> simp
    have a1 := g2.assign span (appendNewline (w.cache.get span).1) (fun hn => by rw [appendNewline_strip]; exact g1)
    have a1' := g2'.assign span (appendNewline (w'.cache.get span).1) (fun hn => by rw [appendNewline_strip]; exact g1')
    have k1 : (appendNewline (w.cache.get span).1).map stripNl = span.cellChars := by rw [appendNewline_strip, g1]
    have k1' : (appendNewline (w'.cache.get span).1).map stripNl = span.cellChars := by rw [appendNewline_strip, g1']
    unfold putSpans
    simp only
    rw [h.scr.offset, h.scr.height, gn, h.scr.width, h.scr.cells]
    split
    · split
      · exact ⟨rfl, ⟨h.mats, ⟨rfl, rfl, rfl, h.scr.cursor, rfl, h.scr.changes⟩, g2, g2'⟩, rfl⟩
      · split
        · exact ⟨rfl, ⟨h.mats, ⟨rfl, rfl, rfl, h.scr.cursor, rfl, h.scr.changes⟩, a1, a1'⟩, rfl⟩
        · obtain ⟨q1, q2⟩ := putChars_like w'.scr.width w'.scr.height hsp (appendNewline (w.cache.get span).1) (appendNewline (w'.cache.get span).1)
            { p with y := p.y - (p.y - (w'.scr.height : Int) + 1) } m m' h.mats (charOf_list k1) (charOf_list k1') (by rw [k1, k1'])
          rw [q1]
          exact ih hr _ _ _ _ _ _ ⟨q2, ⟨rfl, rfl, rfl, h.scr.cursor, rfl, h.scr.changes⟩, a1, a1'⟩
    · obtain ⟨q1, q2⟩ := putChars_like w'.scr.width w'.scr.height hsp (w.cache.get span).1 (w'.cache.get span).1
        { p with y := p.y - w'.scr.offset } m m' h.mats (charOf_list g1) (charOf_list g1') ge
      rw [q1]
      exact ih hr _ _ _ _ _ _ ⟨q2, h.scr, g2, g2'⟩

theorem putData_like (data : List Entry) (hS : ∀ e ∈ data, ∀ s ∈ e.2, Solid s) (m m' : Mats) (w w' : World) (h : Kin m m' w w') :
    let r := putData data m w
    let r' := putData data m' w'
    Kin r.1 r'.1 r.2.1 r'.2.1 ∧ r.2.2 = r'.2.2 := by
  induction data generalizing m m' w w' with
  | nil => exact ⟨h, rfl⟩
  | cons e rest ih =>
    obtain ⟨q, line⟩ := e
    cases q with
    | none => exact ⟨h, rfl⟩
    | some xy =>
      have h1 := putSpans_like line (hS (some xy, line) (by simp)) 0 { x := xy.1, y := xy.2, last := (line.length : Int) - 1 } m m' w w' h
      unfold putData
      revert h1
      rcases putSpans line 0 { x := xy.1, y := xy.2, last := (line.length : Int) - 1 } m w with ⟨p1, m1, w1, e1⟩
      rcases putSpans line 0 { x := xy.1, y := xy.2, last := (line.length : Int) - 1 } m' w' with ⟨p2, m2, w2, e2⟩
      rintro ⟨-, h2, h3⟩
      simp only at h2 h3
      subst h3
      cases e1 with
      | some e => exact ⟨h2, rfl⟩
      | none => exact ih (fun e he => hS e (by simp [he])) _ _ _ _ h2

theorem insert_alike {a b : Changes} (h : List.Forall₂ (fun c d => c.1 = d.1 ∧ AlikeStr c.2 d.2) a b) (k : Nat × Nat) {v v' : Str}
    (hv : AlikeStr v v') : List.Forall₂ (fun c d => c.1 = d.1 ∧ AlikeStr c.2 d.2) (a.insert k v) (b.insert k v') := by
  induction h with
  | nil => exact .cons ⟨rfl, hv⟩ .nil
  | @cons c d a b hcd hab ih =>
    obtain ⟨kc, vc⟩ := c
    obtain ⟨kd, vd⟩ := d
    obtain ⟨rfl, h2⟩ := hcd
    simp only at h2 ⊢
    unfold Changes.insert
    split
    · exact .cons ⟨rfl, hv⟩ hab
    · exact .cons ⟨rfl, h2⟩ ih

theorem changeStr_alike (env : Color.Env) (new : Cell) (a b : Bool) : AlikeStr (changeStr env new a) (changeStr env new b) := by
  have h : ∀ (c : Str) (a : Bool), rstrip (· == '\n') (c ++ (if a then ['\n'] else [])) = rstrip (· == '\n') c := by
    intro c a
    cases a
    · simp
    · simp [rstrip]
  unfold AlikeStr changeStr
  simp only
  rw [h, h]

theorem commitCell_like (env : Color.Env) (tb : Color) {m m' : Mats} (hm : MatsLike m m') (l : List (Nat × Nat))
    (s s' : Screen) (r : Except PyErr Nat) (h : s.Alike s') :
    (l.foldl (commitCell env tb m) (s, r)).1.Alike (l.foldl (commitCell env tb m') (s', r)).1 := by
  induction l generalizing s s' r with
  | nil => exact h
  | cons q l ih =>
    obtain ⟨x, y⟩ := q
    rw [List.foldl_cons, List.foldl_cons]
    cases r with
    | error e => exact ih s s' _ h
    | ok n =>
      obtain ⟨h1, h2⟩ := hm x y
      unfold commitCell
      simp only
      cases hw : m.wm x y with
      | none =>
        rw [hw] at h1
        cases hw' : m'.wm x y with
        | none => exact ih _ _ _ h
        | some a => rw [hw'] at h1; simp at h1
      | some a =>
        rw [hw] at h1
        cases hw' : m'.wm x y with
        | none => rw [hw'] at h1; simp at h1
        | some a' =>
          rw [hw'] at h1
          have hbare : a.bare = a'.bare := Option.some.inj h1
          have hnew : resolveCell tb (m.am x y) a = resolveCell tb (m'.am x y) a' := by
            have e1 : stripNl a.char = stripNl a'.char := congrArg WCell.char hbare
            have e2 : a.fg = a'.fg := show a.bare.fg = a'.bare.fg by rw [hbare]
            have e3 : a.bg = a'.bg := show a.bare.bg = a'.bare.bg by rw [hbare]
            have e4 : a.bleed = a'.bleed := show a.bare.bleed = a'.bare.bleed by rw [hbare]
            unfold resolveCell resolveColors
            simp only [h2, e2, e3, e4]
            rw [show rstrip (· == '\n') a.char = rstrip (· == '\n') a'.char from e1]
          simp only [hnew, h.cells]
          cases hc : cellAt s'.cells x y with
          | none => exact ih _ _ _ h
          | some old =>
            simp only
            split
            · exact ih _ _ _ h
            · exact ih _ _ _ ⟨h.width, h.height, rfl, h.cursor, h.offset,
                insert_alike h.changes (x, y) (changeStr_alike env _ _ _)⟩

theorem Screen.Alike.refl (s : Screen) : s.Alike s :=
  ⟨rfl, rfl, rfl, rfl, rfl, by induction s.changes with | nil => exact .nil | cons a l ih => exact .cons ⟨rfl, rfl⟩ ih⟩

theorem Screen.Alike.resize {s s' : Screen} (h : s.Alike s') (size : Nat × Nat) (fill : Str) (keep : Bool) :
    (s.resize size fill keep).Alike (s'.resize size fill keep) := by
  refine ⟨rfl, rfl, ?_, h.cursor, h.offset, ?_⟩
  · simp only [Screen.resize, h.cells]
  · simp only [Screen.resize]
    have : ∀ (l : List (Nat × Nat)) (a b : Changes), List.Forall₂ (fun c d => c.1 = d.1 ∧ AlikeStr c.2 d.2) a b →
        List.Forall₂ (fun c d => c.1 = d.1 ∧ AlikeStr c.2 d.2) (l.foldl (fun (ch : Changes) p => ch.insert p fill) a)
          (l.foldl (fun (ch : Changes) p => ch.insert p fill) b) := by
      intro l
      induction l with
      | nil => exact fun a b h => h
      | cons q l ih => exact fun a b h => ih _ _ (insert_alike h q rfl)
    exact this _ _ _ h.changes

theorem run_like (env : Color.Env) (op : Api) (hu : op.Uses Solid (fun _ => True)) (w w' : World) (h : w.scr.Alike w'.scr)
    (hc : CacheRs w.cache) (hc' : CacheRs w'.cache) : (op.run env w).scr.Alike (op.run env w').scr := by
  have hwb : ∀ data tb force, (∀ e ∈ data, ∀ s ∈ e.2, Solid s) →
      (writeBulk env data tb force w).1.scr.Alike (writeBulk env data tb force w').1.scr := by
    intro data tb force hd
    have := putData_like data hd Mats.blank Mats.blank w w' ⟨fun _ _ => ⟨rfl, rfl⟩, h, hc, hc'⟩
    unfold writeBulk
    revert this
    rcases putData data Mats.blank w with ⟨m1, w1, e1⟩
    rcases putData data Mats.blank w' with ⟨m2, w2, e2⟩
    rintro ⟨h1, h2⟩
    simp only at h1 h2
    subst h2
    cases e1 with
    | some e => exact h1.scr
    | none =>
      simp only [commit, h1.scr.width, h1.scr.height]
      exact commitCell_like env tb h1.mats _ _ _ _ h1.scr
  cases op with
  | write spans cursor tb force => exact hwb _ _ _ (by simpa using hu.1)
  | writeBulk data tb force => exact hwb _ _ _ hu.1
  | clear fill =>
    have := h.resize (w.scr.width, w.scr.height) fill false
    show (w.scr.clear fill).Alike (w'.scr.clear fill)
    unfold Screen.clear
    rw [← h.width, ← h.height]
    exact ⟨this.width, this.height, this.cells, rfl, this.offset, this.changes⟩
  | resize a b fill keep => exact h.resize (a, b) fill keep
  | render origin redraw =>
    show (w.scr.render origin redraw).1.Alike (w'.scr.render origin redraw).1
    unfold Screen.render
    cases redraw <;> exact ⟨h.width, h.height, h.cells, h.cursor, h.offset, .nil⟩
  | getCharacters s => exact h

/-- **C119** (partial: the line breaks at the ends of the drawn strings differ, `C119_drawn_violated`, and the texts must have no line
breaks, `C119_cells_violated`, nor invisible spaces on translucent backgrounds): whatever is called on the other screens, and however
much any of them scrolls, the screen has the size, cells, cursor and window it would have without them, and the same cells are still to
be drawn, with the same strings up to line breaks at their ends. -/
theorem C119_scroll_partial (env : Color.Env) (i : Nat) (p : Process) (hc : CacheRs p.cache) (calls : List (Nat × Api))
    (hu : ∀ op ∈ callsOn i calls, op.Uses Solid (fun _ => True)) :
    ((p.runAll env calls).scr i).Alike (alone env p i calls) := by
  suffices key : ∀ (calls : List (Nat × Api)) (p : Process) (w : World), (p.scr i).Alike w.scr → CacheRs p.cache → CacheRs w.cache →
      (∀ op ∈ callsOn i calls, op.Uses Solid (fun _ => True)) →
      ((p.runAll env calls).scr i).Alike (Api.runAll env w (callsOn i calls)).scr from
    key calls p { scr := p.scr i } (Screen.Alike.refl _) hc (by simp [CacheRs]) hu
  intro calls
  induction calls with
  | nil => intro p w h _ _ _; exact h
  | cons c rest ih =>
    intro p w h hc hcw hu
    obtain ⟨j, op⟩ := c
    have hstep : p.runAll env ((j, op) :: rest) = (p.run env (j, op)).runAll env rest := rfl
    have hrs : CacheRs (p.run env (j, op)).cache := run_cacheRs env { scr := p.scr j, cache := p.cache } op hc
    rw [hstep]
    rw [callsOn_cons] at hu ⊢
    by_cases hj : j = i
    · subst hj
      simp only [if_true] at hu ⊢
      refine ih (p.run env (j, op)) (op.run env w) ?_ hrs (run_cacheRs env w op hcw) (fun o ho => hu o (by simp [ho]))
      show Screen.Alike (Function.update p.scr j (op.run env { scr := p.scr j, cache := p.cache }).scr j) _
      rw [Function.update_self]
      exact run_like env op (hu op (by simp)) _ _ h hc hcw
    · rw [if_neg hj] at hu ⊢
      have e1 : (p.run env (j, op)).scr i = p.scr i := Function.update_of_ne (Ne.symm hj) _ _
      exact ih (p.run env (j, op)) w (by rw [e1]; exact h) hrs hcw hu

/-- A full redraw prints the same. -/
theorem C119_redraw (a b : Screen) (h : a.Alike b) (origin : Int × Int) : (a.render origin true).2 = (b.render origin true).2 := by
  simp only [Screen.render, if_true, h.cells]

/-! ### Examples -/

/-- Two screens, two spans. -/
def C119ex.start : Process := { scr := fun i => Screen.init (3 + i) 2 }
def C119ex.one : Span := { text := "ab".toList }
def C119ex.two : Span := { text := "c".toList }
def C119ex.put (s : Span) (x y : Int) : Api := .write [s] (some (x, y)) Color.black false

/-- The first screen is given "ab" twice, the second one scrolls with "c" and draws. -/
def C119ex.calls : List (Nat × Api) :=
  [(0, C119ex.put C119ex.one 0 0), (1, C119ex.put C119ex.two 0 5), (1, .render (1, 1) false), (0, C119ex.put C119ex.one 1 1),
   (1, C119ex.put C119ex.two 0 6)]

example : Undisturbed {} (· = C119ex.one) 0 C119ex.start C119ex.calls ∧
    (∀ op ∈ callsOn 0 C119ex.calls, op.Uses (· = C119ex.one) (fun _ => True)) ∧
    (alone {} C119ex.start 0 C119ex.calls).offset = (C119ex.start.scr 0).offset ∧
    ((C119ex.start.runAll {} C119ex.calls).scr 1).offset = 5 := by
  refine ⟨⟨.inl rfl, .inr (.inl ?_), .inr (.inl trivial), .inl rfl, .inr (.inl ?_), trivial⟩, ?_, by decide +kernel, by decide +kernel⟩
  · exact ⟨fun s hs => by rw [List.mem_singleton.mp hs]; decide +kernel, trivial⟩
  · exact ⟨fun s hs => by rw [List.mem_singleton.mp hs]; decide +kernel, trivial⟩
  · intro op hop
    have : op = C119ex.put C119ex.one 0 0 ∨ op = C119ex.put C119ex.one 1 1 := by
      simpa [callsOn, C119ex.calls] using hop
    rcases this with rfl | rfl <;> exact ⟨fun s hs => List.mem_singleton.mp hs, trivial⟩

/-- Both screens scroll with both spans. -/
example : let calls := [(0, C119ex.put C119ex.one 0 3), (1, C119ex.put C119ex.one 0 5), (0, C119ex.put C119ex.two 0 7)]
    (∀ op ∈ callsOn 0 calls, op.Uses Solid (fun _ => True)) ∧ (alone {} C119ex.start 0 calls).offset = 6 := by
  refine ⟨?_, by decide +kernel⟩
  intro op hop
  have : op = C119ex.put C119ex.one 0 3 ∨ op = C119ex.put C119ex.two 0 7 := by
    simpa [callsOn] using hop
  rcases this with rfl | rfl <;>
    exact ⟨fun s hs => by rw [List.mem_singleton.mp hs]; exact ⟨by decide +kernel, .inl (by simp [C119ex.one, C119ex.two])⟩, trivial⟩

/-! ### Violations -/

/-- C119 is violated by what is drawn: after the second screen has scrolled with "c", the first one draws a line break after a "c" of
its own, although it has not scrolled, and its next character appears in the wrong row. -/
theorem C119_drawn_violated :
    let calls := [(1, C119ex.put C119ex.two 0 2), (0, .render (1, 1) false),
      (0, Api.writeBulk [(some (0, 0), [C119ex.two]), (some (1, 0), [{ text := "d".toList }])] Color.black false)]
    ((C119ex.start.runAll {} calls).scr 0).offset = 0 ∧
    ((C119ex.start.runAll {} calls).scr 0).changes.map (·.2) =
      ["\x1b[38;2;255;255;255mc\x1b[0m\n".toList, "\x1b[38;2;255;255;255md\x1b[0m".toList] ∧
    (alone {} C119ex.start 0 calls).changes.map (·.2) =
      ["\x1b[38;2;255;255;255mc\x1b[0m".toList, "\x1b[38;2;255;255;255md\x1b[0m".toList] ∧
    (((C119ex.start.runAll {} calls).scr 0).render (1, 1) false).2 =
      "\x1b[1;1H\x1b[38;2;255;255;255mc\x1b[0m\n\x1b[38;2;255;255;255md\x1b[0m".toList ∧
    ((alone {} C119ex.start 0 calls).render (1, 1) false).2 =
      "\x1b[1;1H\x1b[38;2;255;255;255mc\x1b[0m\x1b[38;2;255;255;255md\x1b[0m".toList := by decide +kernel

/-- C119 is violated by the cells, for texts with line breaks: the second screen has scrolled with "c" and a line break, and the first
one no longer breaks the line there. -/
theorem C119_cells_violated :
    let s : Span := { text := "c\n".toList }
    let calls := [(1, C119ex.put s 0 2), (0, Api.write [s, { text := "d".toList }] (some (0, 0)) Color.black false)]
    let r := (C119ex.start.runAll {} calls).scr 0
    let r' := alone {} C119ex.start 0 calls
    r.offset = 0 ∧ r'.offset = 0 ∧ r.cells.map (·.map (·.char)) = [[['c'], [], ['d']], [[' '], [' '], [' ']]] ∧
    r'.cells.map (·.map (·.char)) = [[['c'], [' '], [' ']], [[' '], ['d'], [' ']]] := by decide +kernel

/-- C119 is violated by the sizes of the cache: a screen that scrolls with a span and then writes it again draws a line break after it,
unless so much was written to another screen in between that the cache has forgotten the span. -/
theorem C119_forgotten_violated :
    let busy := (List.range 128).map fun n => (1, C119ex.put { text := decInt n } 0 0)
    let calls := [(0, C119ex.put C119ex.two 0 2)] ++ busy ++ [(0, .render (1, 1) false), (0, C119ex.put C119ex.two 1 2)]
    ((C119ex.start.runAll {} calls).scr 0).changes.map (·.2) = ["\x1b[38;2;255;255;255mc\x1b[0m".toList] ∧
    (alone {} C119ex.start 0 calls).changes.map (·.2) = ["\x1b[38;2;255;255;255mc\x1b[0m\n".toList] := by decide +kernel

end Slate
