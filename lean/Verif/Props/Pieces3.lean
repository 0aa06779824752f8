import Verif.Props.Pieces
import Verif.Props.Layers

/-!
# The division of translucent texts, and of all texts of a bulk write (C106)
-/

namespace Slate
open Py Term

namespace Layer

/-- The character with its attributes. -/
def attr (l : Layer) : Attributed := { char := l.char, style := l.span.style, fg := l.span.fg, bg := l.span.bg }

/-- The style of the character ends with its span, and a line break is in none. -/
def Ends (l : Layer) : Prop := (l.span.resetAfter = true ∨ l.span.style = {}) ∧ (l.char = '\n' → l.span.style = {})

/-- The same character in the same style and colours, of two divisions. -/
def Twin (l m : Layer) : Prop := l.attr = m.attr ∧ l.Ends ∧ m.Ends

theorem Twin.char {l m : Layer} (h : Twin l m) : l.char = m.char := congrArg Attributed.char h.1
theorem Twin.style {l m : Layer} (h : Twin l m) : l.span.style = m.span.style := congrArg Attributed.style h.1
theorem Twin.fg {l m : Layer} (h : Twin l m) : l.span.fg = m.span.fg := congrArg Attributed.fg h.1
theorem Twin.bg {l m : Layer} (h : Twin l m) : l.span.bg = m.span.bg := congrArg Attributed.bg h.1

theorem Twin.translucent {l m : Layer} (h : Twin l m) : l.translucent = m.translucent := by
  unfold Layer.translucent; rw [h.bg]

theorem Twin.unseen {l m : Layer} (h : Twin l m) : l.unseen = m.unseen := by
  unfold Layer.unseen; rw [h.translucent, h.char, h.style]

/-- The letter is the character in its style, perhaps with a reset. -/
theorem letter_holds {l : Layer} (h : l.Ends) :
    l.letter = wrapSgr l.span.style.colorless ++ [l.char] ∨ l.letter = wrapSgr l.span.style.colorless ++ l.char :: "\x1b[0m".toList := by
  unfold Layer.letter
  simp only
  split_ifs with h1 h2
  · exact .inl rfl
  · exact .inr (by simp)
  · refine .inl ?_
    have : wrapSgr l.span.style.colorless = [] := by
      rcases h.1 with hr | hr
      · by_contra hh; exact h2 ⟨hh, hr⟩
      · rw [hr]; rfl
    rw [this]; rfl

/-- It is a line break if the character is. -/
theorem letter_break {l : Layer} (h : l.Ends) : l.letter = ['\n'] ↔ l.char = '\n' := by
  constructor
  · intro e
    rcases letter_holds h with h' | h'
    · rw [h'] at e
      have := congrArg List.getLast? e
      simpa using this
    · rw [h'] at e
      have := congrArg List.getLast? e
      simp at this
  · intro e
    have hs := h.2 e
    unfold Layer.letter
    simp only [hs, e]
    have : wrapSgr ({} : Style).colorless = [] := rfl
    simp [this]

/-- What is kept is the letter if it is not a line break. -/
theorem shown_letter {l : Layer} (h : l.Ends) (hc : l.char ≠ '\n') : l.shown = l.letter := by
  unfold Layer.shown
  rw [if_neg]
  rcases letter_holds h with h' | h' <;> rw [h'] <;> simp [hc]

theorem wrapSgr_last (body : Str) : wrapSgr body = [] ∨ (wrapSgr body).getLast? = some 'm' := by
  unfold wrapSgr
  split_ifs
  · exact .inl rfl
  · right
    rw [List.getLast?_append]
    rfl

/-- The last letter of a sequence of codes is an `m`, so the character can be read off. -/
theorem letter_char {l m : Layer} (h : l.Ends) (h' : m.Ends) (e : l.letter = m.letter) (hl : isSpace l.char = true) : isSpace m.char = true := by
  have key : ∀ (a b : Str) (c d : Char), a ++ c :: "\x1b[0m".toList = b ++ d :: "\x1b[0m".toList → c = d := by
    intro a b c d e
    have e2 : a ++ [c] = b ++ [d] := by
      have e3 : (a ++ [c]) ++ "\x1b[0m".toList = (b ++ [d]) ++ "\x1b[0m".toList := by simpa using e
      exact List.append_cancel_right e3
    simpa using congrArg List.getLast? e2
  rcases letter_holds h with h1 | h1 <;> rcases letter_holds h' with h2 | h2 <;> rw [h1, h2] at e
  · have : l.char = m.char := by simpa using congrArg List.getLast? e
    rw [← this]; exact hl
  · have := congrArg List.getLast? e
    simp at this
    rw [this] at hl
    exact absurd hl (by decide +kernel)
  · exfalso
    have e2 : m.char = 'm' := by simpa using (congrArg List.getLast? e).symm
    rw [e2] at e
    have e3 : (wrapSgr l.span.style.colorless ++ l.char :: "\x1b[0".toList) ++ ['m'] = wrapSgr m.span.style.colorless ++ ['m'] := by simpa using e
    have e4 := congrArg List.getLast? (List.append_cancel_right e3)
    rcases wrapSgr_last m.span.style.colorless with h3 | h3 <;> rw [h3] at e4 <;> simp at e4
  · rw [← key _ _ _ _ e]; exact hl

end Layer

open Layer

theorem attributed_layers (line : List Span) : attributed line = (lineLayers line).map Layer.attr := by
  unfold attributed lineLayers
  rw [List.map_flatMap]
  refine List.flatMap_congr fun s _ => ?_
  apply List.ext_getElem?
  intro i
  simp only [List.getElem?_map, List.getElem?_mapIdx, Option.map_map]
  rfl

theorem twins_of {ls ms : List Layer} (h : ls.map Layer.attr = ms.map Layer.attr) (hl : ∀ l ∈ ls, l.Ends) (hm : ∀ l ∈ ms, l.Ends) :
    List.Forall₂ Twin ls ms := by
  induction ls generalizing ms with
  | nil =>
    cases ms with
    | nil => exact .nil
    | cons m ms => simp at h
  | cons l ls ih =>
    cases ms with
    | nil => simp at h
    | cons m ms =>
      simp only [List.map_cons, List.cons.injEq] at h
      exact .cons ⟨h.1, hl l (by simp), hm m (by simp)⟩ (ih h.2 (fun a ha => hl a (by simp [ha])) (fun a ha => hm a (by simp [ha])))

/-- The condition on a line. -/
def LineEnds (line : List Span) : Prop := ∀ s ∈ line, (s.resetAfter = true ∨ s.style = {}) ∧ ('\n' ∈ s.text → s.style = {})

theorem LineEnds.layers {line : List Span} (h : LineEnds line) : ∀ l ∈ lineLayers line, l.Ends := by
  intro l hl
  obtain ⟨s, hs, hl⟩ := List.mem_flatMap.mp hl
  obtain ⟨j, hj, e⟩ := List.mem_mapIdx.mp hl
  subst e
  refine ⟨(h s hs).1, fun e => (h s hs).2 ?_⟩
  have e : s.text[j] = '\n' := e
  rw [← e]
  exact List.getElem_mem hj

theorem lineLayers_twins {line line' : List Span} (h : attributed line = attributed line') (hl : LineEnds line) (hl' : LineEnds line') :
    List.Forall₂ Twin (lineLayers line) (lineLayers line') :=
  twins_of (by rw [← attributed_layers, ← attributed_layers, h]) hl.layers hl'.layers

/-- Twins that take a cell. -/
def Inked (l m : Layer) : Prop := Twin l m ∧ l.char ≠ '\n'

theorem covering_twins (w : Nat) {ls ms : List Layer} (h : List.Forall₂ Twin ls ms) (k : Nat) :
    List.Forall₂ Inked (covering w ls k).toList (covering w ms k).toList := by
  induction h generalizing k with
  | nil => exact .nil
  | @cons l m ls ms hlm _ ih =>
    unfold covering
    by_cases hn : l.char = '\n'
    · rw [if_pos ((letter_break hlm.2.1).2 hn), if_pos ((letter_break hlm.2.2).2 (hlm.char ▸ hn))]
      split_ifs
      · exact .nil
      · exact ih _
    · rw [if_neg (fun e => hn ((letter_break hlm.2.1).1 e)), if_neg (fun e => hn (hlm.char.trans ((letter_break hlm.2.2).1 e)))]
      split_ifs
      · exact .cons ⟨hlm, hn⟩ .nil
      · exact ih _

/-- Two bulk writes of the same texts at the same places, in different divisions. -/
def Redivided (d d' : Data) : Prop :=
  List.Forall₂ (fun e e' => e.1 = e'.1 ∧ attributed e.2 = attributed e'.2 ∧ LineEnds e.2 ∧ LineEnds e'.2) d d'

theorem layersAt_twins (w h : Nat) (off : Int) {d d' : Data} (hd : Redivided d d') (x y : Nat) :
    List.Forall₂ Inked (layersAt w h (raised off d) x y) (layersAt w h (raised off d') x y) := by
  have cons : ∀ (e : (Int × Int) × List Span) (d : List ((Int × Int) × List Span)),
      layersAt w h (e :: d) x y = layersAt w h [e] x y ++ layersAt w h d x y := by
    intro e d
    unfold layersAt
    rw [← List.filterMap_append]
    rfl
  induction hd with
  | nil => exact .nil
  | @cons e e' d d' he _ ih =>
    simp only [raised, List.map_cons] at ih ⊢
    rw [cons, cons (_, e'.2)]
    refine List.rel_append ?_ ih
    rw [← he.1, layersAt_one, layersAt_one]
    split_ifs
    · exact covering_twins w (lineLayers_twins he.2.1 he.2.2.1 he.2.2.2) _
    · exact .nil

theorem find_twins {P : Layer → Bool} (hP : ∀ l m, Inked l m → P l = P m) {ls ms : List Layer} (h : List.Forall₂ Inked ls ms)
    {f g : Layer} (hfg : Inked f g) : Inked ((ls.find? P).getD f) ((ms.find? P).getD g) := by
  induction h with
  | nil => exact hfg
  | @cons l m ls ms hlm _ ih =>
    rw [List.find?_cons, List.find?_cons, ← hP l m hlm]
    cases P l with
    | true => exact hlm
    | false => exact ih

theorem tints_twins {ls ms : List Layer} (h : List.Forall₂ Inked ls ms) : Pile.tints ls = Pile.tints ms := by
  induction h with
  | nil => rfl
  | @cons l m ls ms hlm _ ih =>
    unfold Pile.tints at ih ⊢
    rw [List.filter_cons, List.filter_cons, ← hlm.1.translucent]
    split_ifs
    · rw [List.filterMap_cons, List.filterMap_cons, ih, hlm.1.bg]
    · exact ih

theorem last_twins {ls ms : List Layer} (h : List.Forall₂ Inked ls ms) {f g : Layer} (hfg : Inked f g) : Inked (ls.getLastD f) (ms.getLastD g) := by
  induction h generalizing f g with
  | nil => exact hfg
  | @cons l m ls ms hlm _ ih =>
    rw [List.getLastD_cons, List.getLastD_cons]
    exact ih hlm

/-- Two cells are the same, or hold the same character in the same style, on equal backgrounds and in equal text colours, except that of a
space (which is seen if the space is underlined, `C106_tint_violated`). -/
def AlikeContent (a b : Cell) : Prop :=
  a = b ∨ ∃ st c, Holds a st c ∧ Holds b st c ∧ Span.optEq a.bg b.bg = true ∧ (isSpace c = true ∨ Span.optEq a.fg b.fg = true)

theorem text_top (first : Layer) (above : List Layer) :
    Pile.text first (first :: above) = above.getLastD first ∨ (above.getLastD first).unseen = true := by
  rcases List.eq_nil_or_concat' above with rfl | ⟨init, top, rfl⟩
  · left
    unfold Pile.text
    cases h : first.unseen <;> simp [h]
  · rw [show (init ++ [top]).getLastD first = top by simp]
    unfold Pile.text
    rw [← List.cons_append, List.reverse_append, List.reverse_singleton, List.singleton_append, List.find?_cons]
    cases h : top.unseen <;> simp

/-- The piles of two divisions give alike cells. -/
theorem cell_twins (tb : Color) {f g : Layer} {ls ms : List Layer} (hfg : Inked f g) (h : List.Forall₂ Inked ls ms) :
    let a := Pile.cell tb f ls
    let b := Pile.cell tb g ms
    let t := Pile.text f (f :: ls)
    Holds a t.span.style t.char ∧ Holds b t.span.style t.char ∧ a.bg = b.bg ∧ (isSpace t.char = true ∨ a.fg = b.fg) ∧ (ls = [] → a.fg = b.fg) := by
  intro a b t
  have hall := (List.Forall₂.cons hfg h)
  have hrev := List.rel_reverse hall
  have ht : Inked t (Pile.text g (g :: ms)) := find_twins (fun l m hlm => by rw [hlm.1.unseen]) hrev hfg
  have hg : Inked (Pile.ground f (f :: ls)) (Pile.ground g (g :: ms)) := find_twins (fun l m hlm => by rw [hlm.1.translucent]) hrev hfg
  have htop := last_twins h hfg
  have htn := tints_twins h
  have hb : Pile.back tb f ls = Pile.back tb g ms := by
    unfold Pile.back
    rw [hg.1.bg, htn]
  have hfgs : Pile.ink f ls = Pile.ink g ms → a.fg = b.fg := by
    intro e
    simp only [a, b, Pile.cell, hb, e]
  have hink : (isSpace t.char = true ∨ Pile.ink f ls = Pile.ink g ms) ∧ (ls = [] → Pile.ink f ls = Pile.ink g ms) := by
    have hc : (((ls.getLastD f).letter = t.letter ↔ (ms.getLastD g).letter = (Pile.text g (g :: ms)).letter)) → Pile.ink f ls = Pile.ink g ms := by
      intro hc
      unfold Pile.ink
      simp only
      rw [show (Pile.text f (f :: ls)) = t from rfl, ht.1.fg, hg.1.bg, htn]
      by_cases h1 : (ls.getLastD f).letter = t.letter
      · rw [if_pos h1, if_pos (hc.1 h1)]
      · rw [if_neg h1, if_neg (fun e => h1 (hc.2 e))]
    constructor
    · by_cases hsp : isSpace t.char = true
      · exact .inl hsp
      refine .inr (hc ?_)
      rcases text_top f ls with h1 | h1
      · rcases text_top g ms with h2 | h2
        · rw [← h1, ← h2]
          simp [t]
        · exfalso
          apply hsp
          rw [← htop.1.unseen] at h2
          have : isSpace (ls.getLastD f).char = true := by
            simp only [Layer.unseen, Bool.and_eq_true] at h2
            exact h2.1.2
          rw [show t = ls.getLastD f from h1]
          exact this
      · have hs : isSpace (ls.getLastD f).char = true := by
          simp only [Layer.unseen, Bool.and_eq_true] at h1
          exact h1.1.2
        constructor
        · intro e
          exact absurd (letter_char htop.1.2.1 ht.1.2.1 e hs) hsp
        · intro e
          refine absurd (letter_char htop.1.2.2 ht.1.2.2 e (htop.1.char ▸ hs)) ?_
          rw [← ht.1.char]
          exact hsp
    · intro hn
      subst hn
      cases h
      refine hc ?_
      have e : ∀ l : Layer, Pile.text l [l] = l := by
        intro l
        unfold Pile.text
        cases h : l.unseen <;> simp [h]
      simp only [t, e, List.getLastD_nil]
  have holds : ∀ (l : Layer) (c : Cell), l.Ends → l.char ≠ '\n' → c.char = l.shown → Holds c l.span.style l.char := by
    intro l c he hn hc
    unfold Holds
    rw [hc, shown_letter he hn]
    exact letter_holds he
  refine ⟨holds t a ht.1.2.1 ht.2 rfl, ?_, hb, hink.1.imp id hfgs, fun e => hfgs (hink.2 e)⟩
  have := holds _ b ht.1.2.2 (fun e => ht.2 (ht.1.char.trans e)) rfl
  rwa [← ht.1.style, ← ht.1.char] at this

/-- A cell after the comparison with the previous one. -/
theorem kept_or_old {new old : Cell} {st : Style} {c : Char} (h : Holds new st c) :
    let r := if new.eq old then old else new
    Holds r st c ∧ Span.optEq new.fg r.fg = true ∧ Span.optEq new.bg r.bg = true := by
  intro r
  by_cases he : new.eq old = true
  · have hn : r = old := if_pos he
    rw [hn]
    simp only [Cell.eq, Bool.and_eq_true, decide_eq_true_eq] at he
    refine ⟨?_, he.1.2, he.2⟩
    unfold Holds at h ⊢
    rwa [← he.1.1]
  · have hn : r = new := if_neg he
    rw [hn]
    exact ⟨h, optEq_refl _, optEq_refl _⟩

/-- **C106** for a bulk write (partial: on a screen that has not scrolled, by writes that do not scroll): any number of texts, translucent or
not, over each other in any way. If two bulk writes have the same texts in the same styles and colours at the same places, they leave the same
content in every cell. -/
theorem C106_bulk_partial (env : Color.Env) (tb : Color) (force : Bool) (w : World) (d d' : Data)
    (hs : Shape w.scr.width w.scr.height w.scr.cells) (hok : CacheOkOn d.Has w.cache) (hok' : CacheOkOn d'.Has w.cache)
    (h0 : w.scr.offset = 0) (hd : Redivided d d')
    (hns : (writeBulk env d.entries tb force w).1.scr.offset = 0) (hns' : (writeBulk env d'.entries tb force w).1.scr.offset = 0)
    (x y : Nat) (hx : x < w.scr.width) (hy : y < w.scr.height) :
    ∃ cell cell', cellAt (writeBulk env d.entries tb force w).1.scr.cells x y = some cell ∧
      cellAt (writeBulk env d'.entries tb force w).1.scr.cells x y = some cell' ∧ AlikeContent cell cell' := by
  obtain ⟨old, ho, h1⟩ := C103_flow_partial env tb force d w hs hok (.inl h0) (by rw [hns, h0]) x y hx hy
  obtain ⟨old', ho', h2⟩ := C103_flow_partial env tb force d' w hs hok' (.inl h0) (by rw [hns', h0]) x y hx hy
  rw [ho] at ho'
  injection ho' with ho'
  subst ho'
  refine ⟨_, _, h1, h2, ?_⟩
  have ht := layersAt_twins w.scr.width w.scr.height w.scr.offset hd x y
  revert ht
  generalize layersAt w.scr.width w.scr.height (raised w.scr.offset d) x y = p
  generalize layersAt w.scr.width w.scr.height (raised w.scr.offset d') x y = q
  intro ht
  cases ht with
  | nil => exact .inl rfl
  | @cons f g ls ms hfg h =>
    obtain ⟨a1, a2, a3, a4, -⟩ := cell_twins tb hfg h
    obtain ⟨b1, b2, b3⟩ := kept_or_old (old := old) a1
    obtain ⟨c1, c2, c3⟩ := kept_or_old (old := old) a2
    refine .inr ⟨_, _, b1, c1, optEq_trans (optEq_symm b3) (a3 ▸ c3), a4.imp id fun e => ?_⟩
    exact optEq_trans (optEq_symm b2) (by rw [e]; exact c2)

/-- **C106** for one line (partial in the same way), translucent or not. The colours are equal also under a space. -/
theorem C106_tints_partial (env : Color.Env) (tb : Color) (force : Bool) (w : World)
    (hs : Shape w.scr.width w.scr.height w.scr.cells) (p : Int × Int)
    (line line' : List Span) (hsame : attributed line = attributed line') (hl : LineEnds line) (hl' : LineEnds line')
    (hok : CacheOkOn (· ∈ line ++ line') w.cache) (h0 : w.scr.offset = 0)
    (hns : (write env line (some p) tb force w).1.scr.offset = 0) (hns' : (write env line' (some p) tb force w).1.scr.offset = 0)
    (x y : Nat) (hx : x < w.scr.width) (hy : y < w.scr.height) :
    ∃ cell cell', cellAt (write env line (some p) tb force w).1.scr.cells x y = some cell ∧
      cellAt (write env line' (some p) tb force w).1.scr.cells x y = some cell' ∧ SameContent cell cell' := by
  have hokL : ∀ l : List Span, (∀ s ∈ l, s ∈ line ++ line') → CacheOkOn (Data.Has [(p, l)]) w.cache := by
    intro l hl e he ⟨e', he', hs'⟩
    rw [List.mem_singleton] at he'
    subst he'
    exact hok e he (hl _ hs')
  obtain ⟨old, ho, h1⟩ := C103_flow_partial env tb force [(p, line)] w hs (hokL line (by simp +contextual)) (.inl h0) (hns.trans h0.symm) x y hx hy
  obtain ⟨old', ho', h2⟩ := C103_flow_partial env tb force [(p, line')] w hs (hokL line' (by simp +contextual)) (.inl h0) (hns'.trans h0.symm) x y hx hy
  rw [ho] at ho'
  injection ho' with ho'
  subst ho'
  refine ⟨_, _, h1, h2, ?_⟩
  have ht := layersAt_twins w.scr.width w.scr.height w.scr.offset (d := [(p, line)]) (d' := [(p, line')])
    (.cons ⟨rfl, hsame, hl, hl'⟩ .nil) x y
  have hone : (layersAt w.scr.width w.scr.height (raised w.scr.offset [(p, line)]) x y).length ≤ 1 := by
    simp only [raised, List.map_cons, List.map_nil]
    rw [layersAt_one]
    split_ifs
    · exact Option.length_toList_le
    · simp
  revert ht hone
  generalize layersAt w.scr.width w.scr.height (raised w.scr.offset [(p, line)]) x y = a
  generalize layersAt w.scr.width w.scr.height (raised w.scr.offset [(p, line')]) x y = b
  intro ht hone
  cases ht with
  | nil => exact .inl rfl
  | @cons f g ls ms hfg h =>
    have hn : ls = [] := by
      cases ls with
      | nil => rfl
      | cons _ _ => simp at hone
    obtain ⟨a1, a2, a3, -, a5⟩ := cell_twins tb hfg h
    obtain ⟨b1, b2, b3⟩ := kept_or_old (old := old) a1
    obtain ⟨c1, c2, c3⟩ := kept_or_old (old := old) a2
    exact .inr ⟨_, _, b1, c1, optEq_trans (optEq_symm b2) (a5 hn ▸ c2), optEq_trans (optEq_symm b3) (a3 ▸ c3)⟩

/-- **C106** for a bulk write, end to end (partial in the same way): two divisions of the same texts, written to a new screen and drawn, look the
same in every cell, up to the colours of spaces that are over others. -/
theorem C106_show_partial (env : Color.Env) (den : Color → TColor) (hden : DenOk env den)
    (ox oy : Nat) (hox : 1 ≤ ox) (hoy : 1 ≤ oy) (width height : Nat) (cur : Int × Int) (fill : Char)
    (hfill : Printable fill) (T : State) (hT : T.mode = .ground) (hpen : T.pen = Attr.clean)
    (tb : Color) (force : Bool) (d d' : Data) (hd : Redivided d d')
    (hok : ∀ e ∈ d ++ d', ∀ s ∈ e.2, SpanOk env den s) :
    let show' (d : Data) := execAll env (ox, oy) { w := { scr := Screen.init width height cur [fill] }, term := T }
      [.writeBulk d.entries tb force, .draw]
    (show' d).w.scr.offset = 0 → (show' d').w.scr.offset = 0 → ∀ x y, x < width → y < height →
      let g := (show' d).term.grid (y + oy) (x + ox)
      let g' := (show' d').term.grid (y + oy) (x + ox)
      g.ch = g'.ch ∧ { g.attr with fg := .default, bg := .default } = { g'.attr with fg := .default, bg := .default } ∧ (isSpace g.ch = false → g = g') ∧
      (d.length ≤ 1 → g = g') := by
  intro show' ho ho' x y hx hy g g'
  have hsh : Shape width height (Screen.init width height cur [fill]).cells := resize_shape _ width height [fill] true
  have hops : ∀ l : Data, (∀ e ∈ l, e ∈ d ++ d') →
      ∀ op ∈ [Op.writeBulk l.entries tb force], OpOk (SpanOk env den) op := by
    intro l hl op hop
    rw [List.mem_singleton.mp hop]
    intro e he s hs
    obtain ⟨e', he', rfl⟩ := List.mem_map.mp he
    exact hok e' (hl e' he') s hs
  obtain ⟨a, ha1, ha2⟩ := C01_draw_shows_screen env den hden ox oy hox hoy width height cur fill hfill []
    (by intro e he; simp at he) T hT hpen [.writeBulk d.entries tb force] (hops d (by simp +contextual)) ho x y hx hy
  obtain ⟨b, hb1, hb2⟩ := C01_draw_shows_screen env den hden ox oy hox hoy width height cur fill hfill []
    (by intro e he; simp at he) T hT hpen [.writeBulk d'.entries tb force] (hops d' (by simp +contextual)) ho' x y hx hy
  obtain ⟨old, hold, h1⟩ := C103_flow_partial env tb force d { scr := Screen.init width height cur [fill] } hsh
    (by intro e he; simp at he) (.inl rfl) ho x y hx hy
  obtain ⟨old', hold', h2⟩ := C103_flow_partial env tb force d' { scr := Screen.init width height cur [fill] } hsh
    (by intro e he; simp at he) (.inl rfl) ho' x y hx hy
  have e1 : old = { char := [fill] } := by
    have := hold.symm.trans (init_cellAt width height cur [fill] x y hx hy)
    injection this
  have e2 : old' = { char := [fill] } := by
    have := hold'.symm.trans (init_cellAt width height cur [fill] x y hx hy)
    injection this
  have f1 := Option.some.inj (ha1.symm.trans h1)
  have f2 := Option.some.inj (hb1.symm.trans h2)
  change a = (match layersAt width height (raised 0 d) x y with
          | [] => old
          | first :: above => if (Pile.cell tb first above).eq old then old else Pile.cell tb first above) at f1
  change b = (match layersAt width height (raised 0 d') x y with
          | [] => old'
          | first :: above => if (Pile.cell tb first above).eq old' then old' else Pile.cell tb first above) at f2
  rw [show g = cellGlyph den a from ha2, show g' = cellGlyph den b from hb2, f1, f2, e1, e2]
  have hne : ∀ f l, (Pile.cell tb f l).eq { char := [fill] } = false := by
    intro f l
    simp [Pile.cell, Cell.eq, Span.optEq]
  have ht := layersAt_twins width height 0 hd x y
  have hpr : ∀ t ∈ layersAt width height (raised 0 d) x y, t.char ∈ t.span.text ∧ ∃ e ∈ d, t.span ∈ e.2 := by
    intro t hm
    obtain ⟨e, he, hc⟩ := List.mem_filterMap.mp hm
    obtain ⟨e0, he0, rfl⟩ := List.mem_map.mp he
    split_ifs at hc
    have hmem : ∀ (ls : List Layer) k, covering width ls k = some t → t ∈ ls := by
      intro ls
      induction ls with
      | nil => intro k h; simp [covering] at h
      | cons l ls ih =>
        intro k h
        unfold covering at h
        split_ifs at h
        · exact List.mem_cons_of_mem _ (ih _ h)
        · injection h with h; rw [h]; exact List.mem_cons_self
        · exact List.mem_cons_of_mem _ (ih _ h)
    obtain ⟨s, hs, hl⟩ := List.mem_flatMap.mp (hmem _ _ hc)
    obtain ⟨j, hj, e⟩ := List.mem_mapIdx.mp hl
    subst e
    exact ⟨List.getElem_mem hj, e0, he0, hs⟩
  have hlen : (layersAt width height (raised 0 d) x y).length ≤ d.length := by
    unfold layersAt
    refine (List.length_filterMap_le _ _).trans ?_
    simp [raised]
  revert ht hpr hlen
  show List.Forall₂ Inked (layersAt width height (raised 0 d) x y) _ → _
  generalize layersAt width height (raised 0 d) x y = p
  generalize layersAt width height (raised 0 d') x y = q
  intro ht hpr hlen
  cases ht with
  | nil => exact ⟨rfl, rfl, fun _ => rfl, fun _ => rfl⟩
  | @cons f m ls ms hfm h =>
    simp only [hne, Bool.false_eq_true, if_false]
    obtain ⟨a1, a2, a3, a4, a5⟩ := cell_twins tb hfm h
    have hin : Inked (Pile.text f (f :: ls)) (Pile.text m (m :: ms)) :=
      find_twins (fun l m hlm => by rw [hlm.1.unseen]) (List.rel_reverse (List.Forall₂.cons hfm h)) hfm
    have hmem : Pile.text f (f :: ls) ∈ f :: ls := by
      unfold Pile.text
      cases hf : (f :: ls).reverse.find? (fun l => !l.unseen) with
      | none => exact List.mem_cons_self
      | some l => exact List.mem_reverse.mp (List.mem_of_find?_eq_some hf)
    obtain ⟨hc, e, he, hsp⟩ := hpr _ hmem
    have hprint : Printable (Pile.text f (f :: ls)).char := by
      rcases (hok e (by simp [he]) _ hsp).text _ hc with h | h
      · exact h
      · exact absurd h.1 hin.2
    have glyph : ∀ c : Cell, Holds c (Pile.text f (f :: ls)).span.style (Pile.text f (f :: ls)).char →
        cellGlyph den c = { ch := (Pile.text f (f :: ls)).char, attr := applyStyle (Pile.text f (f :: ls)).span.style (cellAttr den c) } := by
      intro c hc
      rcases hc with h | h
      · exact CellStr.glyph (reset := false) ⟨by rw [h]; rfl, hprint⟩ den
      · exact CellStr.glyph (reset := true) ⟨by rw [h]; rfl, hprint⟩ den
    rw [glyph _ a1, glyph _ a2]
    have hfull : (Pile.cell tb f ls).fg = (Pile.cell tb m ms).fg →
        cellAttr den (Pile.cell tb f ls) = cellAttr den (Pile.cell tb m ms) := by
      intro e
      unfold cellAttr
      rw [e, a3]
    refine ⟨rfl, ?_, ?_, ?_⟩
    · have hp : ∀ c : Cell, { cellAttr den c with fg := .default, bg := .default } = Attr.clean := by
        intro c
        unfold cellAttr paintOpt paint
        cases c.bg <;> cases c.fg <;> simp only <;> (try split_ifs) <;> rfl
      have hq : ∀ (st : Style) (a b : Attr), ({ a with fg := .default, bg := .default } : Attr) = { b with fg := .default, bg := .default } →
          ({ applyStyle st a with fg := .default, bg := .default } : Attr) = { applyStyle st b with fg := .default, bg := .default } := by
        intro st a b e
        have e2 := congrArg (applyStyle st) e
        exact e2
      exact hq _ _ _ ((hp _).trans (hp _).symm)
    · intro hs
      rcases a4 with h | h
      · exact absurd h (by simpa using hs)
      · rw [hfull h]
    · intro hl
      have : ls = [] := by
        cases ls with
        | nil => rfl
        | cons _ _ => simp at hlen; omega
      rw [hfull (a5 this)]

/-- **C106 violated** in a bulk write by translucent underlined spaces over underlined spaces: whether the line below is tinted depends on
whether the string of the upper space ends with a reset, that is on whether another space of the same span follows. -/
theorem C106_tint_violated :
    let w : World := { scr := Screen.init 2 1 }
    let below : Span := { text := "  ".toList, style := { underline := true }, fg := some Color.white, bg := some Color.black }
    let above : Span := { text := "  ".toList, style := { underline := true }, bg := some { r := 255, g := 0, b := 0, alpha := 1 / 2 } }
    let r := writeBulk {} (Data.entries [((0, 0), [below]), ((0, 0), [above])]) Color.black false w
    let r' := writeBulk {} (Data.entries [((0, 0), [below]), ((0, 0), above.items)]) Color.black false w
    attributed above.items = attributed [above] ∧ r.1.scr.offset = 0 ∧ r'.1.scr.offset = 0 ∧
    (cellAt r.1.scr.cells 0 0).bind (·.fg.map fun c => (c.r, c.g, c.b)) = some (255, 255, 255) ∧
    (cellAt r'.1.scr.cells 0 0).bind (·.fg.map fun c => (c.r, c.g, c.b)) = some (255, 102, 102) :=
  ⟨attributed_items _, by decide +kernel⟩

/-- Two translucent texts over each other in two divisions each. -/
example : let w : World := { scr := Screen.init 3 2 }
    let s : Span := { text := "abcd".toList, style := { bold := true }, bg := some { r := 0, g := 0, b := 255, alpha := 1 / 2 } }
    let t : Span := { text := " x ".toList, bg := some { r := 255, g := 0, b := 0, alpha := 1 / 2 } }
    let d : Data := [((0, 0), [s]), ((1, 0), [t])]
    let d' : Data := [((0, 0), s.items), ((1, 0), [t.slice none (some 1), t.slice (some 1) none])]
    Redivided d d' ∧ (writeBulk {} d.entries Color.black false w).1.scr.offset = 0 ∧ (writeBulk {} d'.entries Color.black false w).1.scr.offset = 0 ∧
    (cellAt (writeBulk {} d.entries Color.black false w).1.scr.cells 1 0).map (·.char) = some "\x1b[1mb".toList ∧
    (cellAt (writeBulk {} d'.entries Color.black false w).1.scr.cells 1 0).map (·.char) = some "\x1b[1mb\x1b[0m".toList := by
  refine ⟨.cons ⟨rfl, (attributed_items _).symm, ?_, ?_⟩ (.cons ⟨rfl, (attributed_slices _ _).symm, ?_, ?_⟩ .nil), by decide +kernel⟩ <;>
    (unfold LineEnds; decide +kernel)

end Slate
