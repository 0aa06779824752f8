import Verif.Props.Process
import Verif.Props.AnySpace

/-!
# C124: where text lands does not depend on how it looks
-/

namespace Slate
open Py Term

/-- Stored strings that show the same character. -/
def VisEq (a b : Str) : Prop := a = b ∨ ∃ c st r st' r', CellStr a st c r ∧ CellStr b st' c r'

/-- Spans of the same printable text that both let text below them show through their
spaces, or both do not. Their styles, colours, hyperlinks and resets may differ. -/
structure SameWords (s s' : Span) : Prop where
  text : s.text = s'.text
  printable : ∀ c ∈ s.text, Printable c
  through : bgHasAlpha s.bg = bgHasAlpha s'.bg
  solid : bgHasAlpha s.bg = true → s.style.isOpaque = s'.style.isOpaque

theorem SameWords.noBreak {s s' : Span} (h : SameWords s s') : '\n' ∉ s.text := fun hm => absurd (h.printable _ hm).1 (by decide)

/-- Strings of the same character of two spans, up to line breaks at their ends. -/
def SameLetter (s s' : Span) (c c' : Str) : Prop :=
  ∃ j ch, s.text[j]? = some ch ∧ stripNl c = styledChar s j ch ∧ stripNl c' = styledChar s' j ch

theorem styledChar_cellStr (s : Span) (j : Nat) {c : Char} (hp : Printable c) : ∃ st r, CellStr (styledChar s j c) st c r := by
  unfold styledChar
  simp only
  split
  · exact ⟨s.style, false, rfl, hp⟩
  · split
    · exact ⟨s.style, true, by simp [RESET], hp⟩
    · exact ⟨{}, false, by rw [wrapSgr_empty]; rfl, hp⟩

theorem SameLetter.visEq {s s' : Span} (h : SameWords s s') {c c' : Str} (hc : SameLetter s s' c c') : VisEq (stripNl c) (stripNl c') := by
  obtain ⟨j, ch, hj, e, e'⟩ := hc
  obtain ⟨st, r, g⟩ := styledChar_cellStr s j (h.printable ch (List.mem_of_getElem? hj))
  obtain ⟨st', r', g'⟩ := styledChar_cellStr s' j (h.printable ch (List.mem_of_getElem? hj))
  exact .inr ⟨ch, st, r, st', r', e ▸ g, e' ▸ g'⟩

theorem isEmptyChar_letter {s : Span} {j : Nat} {ch : Char} {c : Str} (e : stripNl c = styledChar s j ch) :
    isEmptyChar c s.style = (isSpace ch && !s.style.isOpaque) := by
  have hl : isEmptyChar c s.style = isEmptyChar (styledChar s j ch) s.style := lengthened_empty (l := { span := s, nth := j, char := ch }) e
  have hsub : subAnsi (styledChar s j ch) = [ch] := by
    have := subAnsi_letter { span := s, nth := j, char := ch } [] (by simp)
    rw [List.append_nil] at this
    exact this
  rw [hl]
  unfold isEmptyChar
  rw [hsub, strip_isEmpty]
  simp

/-- Matrices that show the same characters. -/
def MatsVis (m m' : Mats) : Prop := ∀ x y, Option.Rel (fun a b : WCell => VisEq (stripNl a.char) (stripNl b.char)) (m.wm x y) (m'.wm x y)

theorem MatsVis.upd {m m' : Mats} (h : MatsVis m m') {a b : WCell} (hab : VisEq (stripNl a.char) (stripNl b.char)) (x y : Nat)
    (am am' : Nat → Nat → List Color) : MatsVis { wm := upd m.wm x y (some a), am := am } { wm := upd m'.wm x y (some b), am := am' } := by
  intro x' y'
  simp only [Slate.upd]
  split
  · exact .some hab
  · exact h x' y'

theorem MatsVis.putCell {m m' : Mats} (h : MatsVis m m') {s s' : Span} (hs : SameWords s s') {c c' : Str} (hc : SameLetter s s' c c')
    (x y : Nat) : MatsVis (putCell m s c x y) (putCell m' s' c' x y) := by
  have hv := hc.visEq hs
  obtain ⟨j, ch, hj, e, e'⟩ := hc
  unfold Slate.putCell
  have hxy := h x y
  rw [← hs.through]
  cases hm : m.wm x y with
  | none =>
    rw [hm] at hxy
    cases hm' : m'.wm x y with
    | none => exact h.upd hv x y _ _
    | some b => rw [hm'] at hxy; cases hxy
  | some a =>
    rw [hm] at hxy
    cases hm' : m'.wm x y with
    | none => rw [hm'] at hxy; cases hxy
    | some b =>
      rw [hm'] at hxy
      cases hxy with
      | some hab =>
        by_cases ha : bgHasAlpha s.bg = true
        · simp only [ha, if_true]
          have he : isEmptyChar c s.style = isEmptyChar c' s'.style := by
            rw [isEmptyChar_letter e, isEmptyChar_letter e', hs.solid ha]
          refine h.upd ?_ x y _ _
          simp only [he]
          split
          · exact hab
          · exact hv
        · simp only [ha]
          exact h.upd hv x y _ _

theorem SameLetter.ne_break {s s' : Span} (h : SameWords s s') {c c' : Str} (hc : SameLetter s s' c c') : c ≠ ['\n'] ∧ c' ≠ ['\n'] := by
  obtain ⟨j, ch, hj, e, e'⟩ := hc
  obtain ⟨st, r, g⟩ := styledChar_cellStr s j (h.printable ch (List.mem_of_getElem? hj))
  obtain ⟨st', r', g'⟩ := styledChar_cellStr s' j (h.printable ch (List.mem_of_getElem? hj))
  have key : ∀ {t : Str} {st : Style} {r : Bool}, CellStr t st ch r → t ≠ [] := by
    intro t st r g ht
    have := g.eq
    rw [ht] at this
    simp at this
  constructor
  · rintro rfl; exact key g e.symm
  · rintro rfl; exact key g' e'.symm

theorem putChars_vis (w h : Nat) {s s' : Span} (hs : SameWords s s') {l l' : List Str} (hl : List.Forall₂ (SameLetter s s') l l')
    (p : Pen) {m m' : Mats} (hm : MatsVis m m') :
    (putChars w h s l p m).1 = (putChars w h s' l' p m').1 ∧ MatsVis (putChars w h s l p m).2 (putChars w h s' l' p m').2 := by
  induction hl generalizing p m m' with
  | nil => exact ⟨rfl, hm⟩
  | @cons c c' l l' hc hl ih =>
    obtain ⟨n1, n2⟩ := hc.ne_break hs
    have hemp : l.isEmpty = l'.isEmpty := by cases hl <;> rfl
    unfold putChars
    split
    · exact ⟨rfl, hm⟩
    · simp only [hemp]
      exact ih _ (hm.putCell hs hc _ _)

theorem sameLetters {s s' : Span} (h : SameWords s s') {l l' : List Str} (hl : l.map stripNl = s.cellChars)
    (hl' : l'.map stripNl = s'.cellChars) : List.Forall₂ (SameLetter s s') l l' := by
  have n1 : l.length = s.text.length := by rw [← length_cellChars, ← hl, List.length_map]
  have n2 : l'.length = s.text.length := by rw [h.text, ← length_cellChars, ← hl', List.length_map]
  rw [List.forall₂_iff_get]
  refine ⟨n1.trans n2.symm, fun i h1 h2 => ?_⟩
  have hi : i < s.text.length := n1 ▸ h1
  have e1 : (l.map stripNl)[i]? = s.cellChars[i]? := by rw [hl]
  have e2 : (l'.map stripNl)[i]? = s'.cellChars[i]? := by rw [hl']
  rw [cellChars_getElem?, List.getElem?_map] at e1 e2
  rw [← h.text] at e2
  rw [List.getElem?_eq_getElem h1, List.getElem?_eq_getElem hi] at e1
  rw [List.getElem?_eq_getElem h2, List.getElem?_eq_getElem hi] at e2
  exact ⟨i, s.text[i], List.getElem?_eq_getElem hi, Option.some.inj e1, Option.some.inj e2⟩

/-- Cells that show the same characters. -/
def GridVis (a b : List (List Cell)) : Prop := List.Forall₂ (List.Forall₂ fun c d : Cell => VisEq c.char d.char) a b

/-- Screens that hold the same characters at the same places. -/
structure Screen.Vis (a b : Screen) : Prop where
  width : a.width = b.width
  height : a.height = b.height
  cursor : a.cursor = b.cursor
  offset : a.offset = b.offset
  cells : GridVis a.cells b.cells

theorem forall₂_replicate {α β : Type} {R : α → β → Prop} {x : α} {y : β} (h : R x y) (n : Nat) :
    List.Forall₂ R (List.replicate n x) (List.replicate n y) := by
  induction n with
  | zero => exact .nil
  | succ n ih => exact .cons h ih

theorem forall₂_isEmpty {α β : Type} {R : α → β → Prop} {l : List α} {l' : List β} (h : List.Forall₂ R l l') : l.isEmpty = l'.isEmpty := by
  cases h <;> rfl

theorem putSpans_vis {spans spans' : List Span} (hs : List.Forall₂ SameWords spans spans') (i : Nat) (p : Pen) {m m' : Mats}
    (hm : MatsVis m m') {w w' : World} (hw : w.scr.Vis w'.scr) (hc : CacheRs w.cache) (hc' : CacheRs w'.cache) :
    MatsVis (putSpans spans i p m w).2.1 (putSpans spans' i p m' w').2.1 ∧
    (putSpans spans i p m w).2.2.1.scr.Vis (putSpans spans' i p m' w').2.2.1.scr ∧
    (putSpans spans i p m w).2.2.2 = (putSpans spans' i p m' w').2.2.2 := by
  induction hs generalizing i p m m' w w' with
  | nil => exact ⟨hm, hw, rfl⟩
  | @cons s s' rest rest' hss hrest ih =>
    obtain ⟨g1, g2⟩ := hc.get s
    obtain ⟨g1', g2'⟩ := hc'.get s'
    have q := g1 hss.noBreak
    have q' := g1' (hss.text ▸ hss.noBreak)
    have hl := sameLetters hss q q'
    have a := g2.assign s (appendNewline (w.cache.get s).1) fun hn => by rw [appendNewline_strip]; exact g1 hn
    have a' := g2'.assign s' (appendNewline (w'.cache.get s').1) fun hn => by rw [appendNewline_strip]; exact g1' hn
    have hla := sameLetters hss ((appendNewline_strip _).trans q) ((appendNewline_strip _).trans q')
    have hemp : (w.cache.get s).1.isEmpty = (w'.cache.get s').1.isEmpty := forall₂_isEmpty hl
    obtain ⟨⟨wd, ht, cells, ch, cur, off⟩, cache⟩ := w
    obtain ⟨⟨wd', ht', cells', ch', cur', off'⟩, cache'⟩ := w'
    obtain ⟨e1, e2, e3, e4, e5⟩ := hw
    simp only at e1 e2 e3 e4 e5 g2 g2' a a' hla hemp hl
    subst e1 e2 e3 e4
    unfold putSpans
    simp only [← hemp]
    split
    · split
      · exact ⟨hm, ⟨rfl, rfl, rfl, rfl, e5⟩, rfl⟩
      · cases e5 with
        | nil => exact ⟨hm, ⟨rfl, rfl, rfl, rfl, .nil⟩, rfl⟩
        | cons er erows =>
          simp only
          obtain ⟨k1, k2⟩ := putChars_vis wd ht hss hla { p with y := p.y - (p.y - (ht : Int) + 1) } hm
          rw [k1]
          exact ih _ _ k2 ⟨rfl, rfl, rfl, rfl, List.rel_append erows (.cons (forall₂_replicate (.inl rfl) _) .nil)⟩ a a'
    · obtain ⟨k1, k2⟩ := putChars_vis wd ht hss hl { p with y := p.y - off } hm
      rw [k1]
      exact ih _ _ k2 ⟨rfl, rfl, rfl, rfl, e5⟩ g2 g2'

/-- Entries of a bulk write with the same positions and words. -/
def SameEntry (e e' : Entry) : Prop := e.1 = e'.1 ∧ List.Forall₂ SameWords e.2 e'.2

theorem putData_vis {data data' : List Entry} (hd : List.Forall₂ SameEntry data data') {m m' : Mats}
    (hm : MatsVis m m') {w w' : World} (hw : w.scr.Vis w'.scr) (hc : CacheRs w.cache) (hc' : CacheRs w'.cache) :
    MatsVis (putData data m w).1 (putData data' m' w').1 ∧
    (putData data m w).2.1.scr.Vis (putData data' m' w').2.1.scr ∧
    (putData data m w).2.2 = (putData data' m' w').2.2 := by
  induction hd generalizing m m' w w' with
  | nil => exact ⟨hm, hw, rfl⟩
  | @cons e e' rest rest' he _ ih =>
    obtain ⟨pos, line⟩ := e
    obtain ⟨pos', line'⟩ := e'
    obtain ⟨h1, h2⟩ := he
    simp only at h1 h2
    subst h1
    cases pos with
    | none => exact ⟨hm, hw, rfl⟩
    | some xy =>
      obtain ⟨x, y⟩ := xy
      unfold putData
      rw [← h2.length_eq]
      have a := putSpans_vis h2 0 { x := x, y := y, last := (line.length : Int) - 1 } hm hw hc hc'
      have b := putSpans_cacheRs line 0 { x := x, y := y, last := (line.length : Int) - 1 } m w hc
      have b' := putSpans_cacheRs line' 0 { x := x, y := y, last := (line.length : Int) - 1 } m' w' hc'
      generalize putSpans line 0 { x := x, y := y, last := (line.length : Int) - 1 } m w = r at *
      generalize putSpans line' 0 { x := x, y := y, last := (line.length : Int) - 1 } m' w' = r' at *
      obtain ⟨p1, m1, w1, e1⟩ := r
      obtain ⟨p2, m2, w2, e2⟩ := r'
      obtain ⟨a1, a2, a3⟩ := a
      simp only at a1 a2 a3 b b'
      subst a3
      cases e1 with
      | some e => exact ⟨a1, a2, rfl⟩
      | none => exact ih a1 a2 b b'

theorem forall₂_at {α β : Type} {R : α → β → Prop} {a : List α} {b : List β} (h : List.Forall₂ R a b) (i : Nat) :
    Option.Rel R a[i]? b[i]? := by
  induction h generalizing i with
  | nil => exact .none
  | cons h _ ih =>
    cases i with
    | zero => exact .some h
    | succ i => exact ih i

theorem forall₂_set {α β : Type} {R : α → β → Prop} {a : List α} {b : List β} (h : List.Forall₂ R a b) (i : Nat) {x : α} {y : β}
    (hxy : R x y) : List.Forall₂ R (a.set i x) (b.set i y) := by
  induction h generalizing i with
  | nil => exact .nil
  | cons h hr ih =>
    cases i with
    | zero => exact .cons hxy hr
    | succ i => exact .cons h (ih i)

theorem GridVis.cellAt {a b : List (List Cell)} (h : GridVis a b) (x y : Nat) :
    Option.Rel (fun c d : Cell => VisEq c.char d.char) (cellAt a x y) (cellAt b x y) := by
  unfold Slate.cellAt
  have := forall₂_at h y
  cases ha : a[y]? with
  | none =>
    rw [ha] at this
    cases hb : b[y]? with
    | none => exact .none
    | some r => rw [hb] at this; cases this
  | some r =>
    rw [ha] at this
    cases hb : b[y]? with
    | none => rw [hb] at this; cases this
    | some r' =>
      rw [hb] at this
      cases this with
      | some hr => exact forall₂_at hr x

theorem GridVis.set {a b : List (List Cell)} (h : GridVis a b) (x y : Nat) {c d : Cell} (hcd : VisEq c.char d.char) :
    GridVis (setCell a x y c) (setCell b x y d) := by
  unfold setCell
  unfold GridVis at *
  induction h generalizing y with
  | nil => simp
  | cons h hr ih =>
    cases y with
    | zero => simpa using List.Forall₂.cons (forall₂_set h x hcd) hr
    | succ y => simpa using List.Forall₂.cons h (ih y)

/-- Storing what is there changes nothing. -/
theorem setCell_self {a : List (List Cell)} {x y : Nat} {c : Cell} (h : cellAt a x y = some c) : setCell a x y c = a := by
  unfold setCell
  apply List.ext_getElem?
  intro i
  rw [List.getElem?_modify]
  by_cases hi : y = i
  · subst hi
    unfold cellAt at h
    cases hr : a[y]? with
    | none => simp
    | some r =>
      rw [hr] at h
      simp only [if_true]
      show some (r.set x c) = some r
      congr 1
      apply List.ext_getElem?
      intro k
      rw [List.getElem?_set]
      split
      · rename_i hk
        subst hk
        obtain ⟨hlt, -⟩ := List.getElem?_eq_some_iff.mp h
        rw [if_pos hlt]
        exact h.symm
      · rfl
  · simp [hi]

theorem Cell.eq_char {a b : Cell} (h : a.eq b = true) : a.char = b.char := by
  simp only [Cell.eq, Bool.and_eq_true] at h
  exact of_decide_eq_true h.1.1

theorem commitCell_vis (env env' : Color.Env) (tb tb' : Color) {m m' : Mats} (hm : MatsVis m m') (a b : Screen × Except PyErr Nat)
    (pos : Nat × Nat) (h : a.1.Vis b.1) (he : ∀ e, a.2 = .error e ↔ b.2 = .error e) :
    (commitCell env tb m a pos).1.Vis (commitCell env' tb' m' b pos).1 ∧
    ∀ e, (commitCell env tb m a pos).2 = .error e ↔ (commitCell env' tb' m' b pos).2 = .error e := by
  obtain ⟨s, r⟩ := a
  obtain ⟨s', r'⟩ := b
  obtain ⟨x, y⟩ := pos
  simp only at h he
  unfold commitCell
  cases r with
  | error e =>
    have : r' = .error e := (he e).mp rfl
    subst this
    exact ⟨h, he⟩
  | ok n =>
    cases r' with
    | error e => exact absurd ((he e).mpr rfl) (by simp)
    | ok n' =>
      simp only
      have hxy := hm x y
      cases hw : m.wm x y with
      | none =>
        rw [hw] at hxy
        cases hw' : m'.wm x y with
        | none => exact ⟨h, by simp⟩
        | some c' => rw [hw'] at hxy; cases hxy
      | some c =>
        rw [hw] at hxy
        cases hw' : m'.wm x y with
        | none => rw [hw'] at hxy; cases hxy
        | some c' =>
          rw [hw'] at hxy
          cases hxy with
          | some hcc =>
            simp only
            have hcell := h.cells.cellAt x y
            cases ho : cellAt s.cells x y with
            | none =>
              rw [ho] at hcell
              cases ho' : cellAt s'.cells x y with
              | none => exact ⟨h, by simp⟩
              | some o' => rw [ho'] at hcell; cases hcell
            | some o =>
              rw [ho] at hcell
              cases ho' : cellAt s'.cells x y with
              | none => rw [ho'] at hcell; cases hcell
              | some o' =>
                have key : ∀ (tb tb' : Color) (st st' : List Color), VisEq (resolveCell tb st c).char (resolveCell tb' st' c').char :=
                  fun _ _ _ _ => hcc
                have kk := key tb tb' (m.am x y) (m'.am x y)
                simp only
                split
                · rename_i g
                  rw [Cell.eq_char g] at kk
                  split
                  · exact ⟨h, by simp⟩
                  · refine ⟨⟨h.width, h.height, h.cursor, h.offset, ?_⟩, by simp⟩
                    have := h.cells.set x y kk
                    rwa [setCell_self ho] at this
                · split
                  · rename_i g
                    rw [Cell.eq_char g] at kk
                    refine ⟨⟨h.width, h.height, h.cursor, h.offset, ?_⟩, by simp⟩
                    have := h.cells.set x y kk
                    rwa [setCell_self ho'] at this
                  · exact ⟨⟨h.width, h.height, h.cursor, h.offset, h.cells.set x y kk⟩, by simp⟩

theorem commit_vis (env env' : Color.Env) (tb tb' : Color) {m m' : Mats} (hm : MatsVis m m') (s s' : Screen) (h : s.Vis s') :
    (commit env tb m s).1.Vis (commit env' tb' m' s').1 ∧
    ∀ e, (commit env tb m s).2 = .error e ↔ (commit env' tb' m' s').2 = .error e := by
  unfold commit
  rw [← h.width, ← h.height]
  have go : ∀ (l : List (Nat × Nat)) (a b : Screen × Except PyErr Nat), a.1.Vis b.1 → (∀ e, a.2 = .error e ↔ b.2 = .error e) →
      (l.foldl (commitCell env tb m) a).1.Vis (l.foldl (commitCell env' tb' m') b).1 ∧
      ∀ e, (l.foldl (commitCell env tb m) a).2 = .error e ↔ (l.foldl (commitCell env' tb' m') b).2 = .error e := by
    intro l
    induction l with
    | nil => exact fun a b h1 h2 => ⟨h1, h2⟩
    | cons p l ih =>
      intro a b h1 h2
      obtain ⟨g1, g2⟩ := commitCell_vis env env' tb tb' hm a b p h1 h2
      exact ih _ _ g1 g2
  exact go _ _ _ h (by simp)

theorem MatsVis.blank : MatsVis Mats.blank Mats.blank := fun _ _ => .none

theorem writeBulk_vis (env env' : Color.Env) {data data' : List Entry} (hd : List.Forall₂ SameEntry data data') (tb tb' : Color)
    (force force' : Bool) {w w' : World} (hw : w.scr.Vis w'.scr) (hc : CacheRs w.cache) (hc' : CacheRs w'.cache) :
    (writeBulk env data tb force w).1.scr.Vis (writeBulk env' data' tb' force' w').1.scr ∧
    ∀ e, (writeBulk env data tb force w).2 = .error e ↔ (writeBulk env' data' tb' force' w').2 = .error e := by
  obtain ⟨a1, a2, a3⟩ := putData_vis hd MatsVis.blank hw hc hc'
  unfold writeBulk
  generalize putData data Mats.blank w = r at *
  generalize putData data' Mats.blank w' = r' at *
  obtain ⟨m, u, e⟩ := r
  obtain ⟨m', u', e'⟩ := r'
  simp only at a1 a2 a3
  subst a3
  cases e with
  | some e => exact ⟨a2, by simp⟩
  | none => exact commit_vis env env' tb tb' a1 u.scr u'.scr a2

/-- Calls that say the same words at the same places. -/
inductive SameCall : Api → Api → Prop
  | write {spans spans' : List Span} (h : List.Forall₂ SameWords spans spans') (cursor : Option (Int × Int)) (tb tb' : Color)
      (force force' : Bool) : SameCall (.write spans cursor tb force) (.write spans' cursor tb' force')
  | writeBulk {data data' : List Entry} (h : List.Forall₂ SameEntry data data') (tb tb' : Color) (force force' : Bool) :
      SameCall (.writeBulk data tb force) (.writeBulk data' tb' force')
  | clear (fill : Str) : SameCall (.clear fill) (.clear fill)
  | resize (a b : Nat) (fill : Str) (keep : Bool) : SameCall (.resize a b fill keep) (.resize a b fill keep)
  | render (origin origin' : Int × Int) (redraw redraw' : Bool) : SameCall (.render origin redraw) (.render origin' redraw')
  | getCharacters (s s' : Span) : SameCall (.getCharacters s) (.getCharacters s')

theorem forall₂_map_same {α β γ : Type} {R : β → γ → Prop} (l : List α) {f : α → β} {g : α → γ} (h : ∀ a, R (f a) (g a)) :
    List.Forall₂ R (l.map f) (l.map g) := by
  induction l with
  | nil => exact .nil
  | cons a l ih => exact .cons (h a) ih

theorem Screen.Vis.resize {a b : Screen} (h : a.Vis b) (size : Nat × Nat) (fill : Str) (keep : Bool) :
    (a.resize size fill keep).Vis (b.resize size fill keep) := by
  obtain ⟨w, ht⟩ := size
  refine ⟨rfl, rfl, h.cursor, h.offset, ?_⟩
  refine forall₂_map_same _ fun y => forall₂_map_same _ fun x => ?_
  split
  · have := h.cells.cellAt x y
    cases ha : cellAt a.cells x y with
    | none =>
      rw [ha] at this
      cases hb : cellAt b.cells x y with
      | none => exact .inl rfl
      | some d => rw [hb] at this; cases this
    | some c =>
      rw [ha] at this
      cases hb : cellAt b.cells x y with
      | none => rw [hb] at this; cases this
      | some d =>
        rw [hb] at this
        cases this with
        | some hv => exact hv
  · exact .inl rfl

theorem SameCall.run_vis {op op' : Api} (h : SameCall op op') (env env' : Color.Env) {w w' : World} (hw : w.scr.Vis w'.scr)
    (hc : CacheRs w.cache) (hc' : CacheRs w'.cache) : (op.run env w).scr.Vis (op'.run env' w').scr := by
  cases h with
  | @write spans spans' h cursor tb tb' force force' =>
    exact (writeBulk_vis env env' (data := [(cursor, spans)]) (data' := [(cursor, spans')]) (.cons ⟨rfl, h⟩ .nil) tb tb' force force'
      hw hc hc').1
  | writeBulk h tb tb' force force' => exact (writeBulk_vis env env' h tb tb' force force' hw hc hc').1
  | clear fill =>
    have := hw.resize (w.scr.width, w.scr.height) fill false
    refine ⟨hw.width, hw.height, rfl, hw.offset, ?_⟩
    simp only [Api.run, Screen.clear]
    rw [← hw.width, ← hw.height]
    exact this.cells
  | resize a b fill keep => exact hw.resize (a, b) fill keep
  | render o o' r r' => cases r <;> cases r' <;> exact ⟨hw.width, hw.height, hw.cursor, hw.offset, hw.cells⟩
  | getCharacters s s' => exact hw

theorem VisEq.glyph {c d : Cell} (h : VisEq c.char d.char) (den den' : Color → TColor) : (cellGlyph den c).ch = (cellGlyph den' d).ch := by
  rcases h with h | ⟨ch, st, r, st', r', h1, h2⟩
  · have := SameText.run (s := { pen := cellAttr den c, grid := fun _ _ => { ch := ' ', attr := Attr.clean } })
      (t := { pen := cellAttr den' d, grid := fun _ _ => { ch := ' ', attr := Attr.clean } })
      ⟨rfl, rfl, rfl, (cellAttr_mono den c).trans (cellAttr_mono den' d).symm, fun _ _ => rfl, fun _ _ => rfl⟩ c.char
    unfold cellGlyph
    rw [← h]
    exact this.ch 1 1
  · rw [h1.glyph, h2.glyph]

/-- **C124**: two histories that say the same words at the same places, in any colours
and styles, with any hyperlinks and terminal backgrounds, drawn at any times and places
and with any colour support. The size, cursor and offset are the same afterwards, the
same characters are in the same cells, and if one next call raises, so does the other,
with the same exception. -/
theorem C124_layout_partial (env env' : Color.Env) (width height : Nat) (cursor : Int × Int) (fill : Str) (ops ops' : List Api)
    (h : List.Forall₂ SameCall ops ops') (den den' : Color → TColor) :
    let u := Api.runAll env { scr := Screen.init width height cursor fill } ops
    let v := Api.runAll env' { scr := Screen.init width height cursor fill } ops'
    u.scr.width = v.scr.width ∧ u.scr.height = v.scr.height ∧ u.scr.cursor = v.scr.cursor ∧ u.scr.offset = v.scr.offset ∧
    (∀ x y, Option.map (fun c => (cellGlyph den c).ch) (cellAt u.scr.cells x y) =
      Option.map (fun c => (cellGlyph den' c).ch) (cellAt v.scr.cells x y)) ∧
    ∀ data data' tb tb' force force', List.Forall₂ SameEntry data data' → ∀ e,
      (writeBulk env data tb force u).2 = .error e ↔ (writeBulk env' data' tb' force' v).2 = .error e := by
  have go : ∀ {ops ops' : List Api}, List.Forall₂ SameCall ops ops' → ∀ w w' : World, w.scr.Vis w'.scr → CacheRs w.cache → CacheRs w'.cache →
      (Api.runAll env w ops).scr.Vis (Api.runAll env' w' ops').scr ∧ CacheRs (Api.runAll env w ops).cache ∧
      CacheRs (Api.runAll env' w' ops').cache := by
    intro ops ops' h
    induction h with
    | nil => exact fun w w' h1 h2 h3 => ⟨h1, h2, h3⟩
    | cons hop _ ih => exact fun w w' h1 h2 h3 => ih _ _ (hop.run_vis env env' h1 h2 h3) (run_cacheRs env w _ h2) (run_cacheRs env' w' _ h3)
  have h0 : (Screen.init width height cursor fill).Vis (Screen.init width height cursor fill) := by
    have : ({ width := 0, height := 0, cells := [], changes := [], cursor := cursor, offset := 0 } : Screen).Vis
        { width := 0, height := 0, cells := [], changes := [], cursor := cursor, offset := 0 } := ⟨rfl, rfl, rfl, rfl, .nil⟩
    exact this.resize _ _ _
  obtain ⟨g1, g2, g3⟩ := go h { scr := Screen.init width height cursor fill } { scr := Screen.init width height cursor fill } h0
    (by intro e he; simp at he) (by intro e he; simp at he)
  intro u v
  refine ⟨g1.width, g1.height, g1.cursor, g1.offset, fun x y => ?_, fun data data' tb tb' force force' hd e =>
    (writeBulk_vis env env' hd tb tb' force force' g1 g2 g3).2 e⟩
  have := g1.cells.cellAt x y
  show Option.map _ (cellAt u.scr.cells x y) = Option.map _ (cellAt v.scr.cells x y)
  cases ha : cellAt u.scr.cells x y with
  | none =>
    rw [show cellAt (Api.runAll env _ ops).scr.cells x y = none from ha] at this
    cases hb : cellAt v.scr.cells x y with
    | none => rfl
    | some d => rw [show cellAt (Api.runAll env' _ ops').scr.cells x y = some d from hb] at this; cases this
  | some c =>
    rw [show cellAt (Api.runAll env _ ops).scr.cells x y = some c from ha] at this
    cases hb : cellAt v.scr.cells x y with
    | none => rw [show cellAt (Api.runAll env' _ ops').scr.cells x y = none from hb] at this; cases this
    | some d =>
      rw [show cellAt (Api.runAll env' _ ops').scr.cells x y = some d from hb] at this
      cases this with
      | some hv => exact congrArg some (hv.glyph den den')

namespace C124ex
/-- A bold red and a plain history; the second line scrolls the screen. -/
def loud : List Api :=
  [.write [{ text := "ab".toList, style := { bold := true }, fg := some { r := 200, g := 0, b := 0 } }, { text := "c d".toList }]
      (some (1, 0)) Color.black false,
   .write [{ text := "ef".toList, style := { underline := true } }] (some (0, 2)) Color.black false]

def plain : List Api :=
  [.write [{ text := "ab".toList }, { text := "c d".toList, bg := some { r := 0, g := 0, b := 90, isBg := true } }]
      (some (1, 0)) Color.black false,
   .write [{ text := "ef".toList, hyperlink := "x".toList }] (some (0, 2)) Color.black true]

example : List.Forall₂ SameCall loud plain ∧
    (Api.runAll {} { scr := Screen.init 4 2 } loud).scr.offset = 1 ∧
    (cellAt (Api.runAll {} { scr := Screen.init 4 2 } loud).scr.cells 0 1).map (fun c => (cellGlyph (fun _ => .default) c).ch) = some 'e' ∧
    cellAt (Api.runAll {} { scr := Screen.init 4 2 } loud).scr.cells 0 1 ≠ cellAt (Api.runAll {} { scr := Screen.init 4 2 } plain).scr.cells 0 1 := by
  refine ⟨?_, by decide +kernel, by decide +kernel, by decide +kernel⟩
  refine List.Forall₂.cons (.write (List.Forall₂.cons ⟨?_, ?_, ?_, ?_⟩ (List.Forall₂.cons ⟨?_, ?_, ?_, ?_⟩ .nil)) _ _ _ _ _)
    (List.Forall₂.cons (.write (List.Forall₂.cons ⟨?_, ?_, ?_, ?_⟩ .nil) _ _ _ _ _) .nil)
  all_goals first | rfl | decide +kernel
end C124ex

/-- **C124 violated**: where the text after a line break lands depends on whether the
text is bold. -/
theorem C124_break_violated :
    let w : World := { scr := Screen.init 4 2 }
    let s : Span := { text := "a\nb".toList }
    let t : Span := { s with style := { bold := true } }
    let look := fun r : World × Except PyErr Nat => fun x y => (cellAt r.1.scr.cells x y).map fun c => (cellGlyph (fun _ => .default) c).ch
    look (write {} [s] (some (0, 0)) Color.black false w) 1 1 = some 'b' ∧
    look (write {} [t] (some (0, 0)) Color.black false w) 1 1 = some ' ' ∧
    look (write {} [t] (some (0, 0)) Color.black false w) 2 0 = some 'b' := by decide +kernel

end Slate
