import Verif.Props.BulkScroll
import Verif.Props.General
import Verif.Spec.Flow

/-!
# C103: bulk writes that scroll, whatever they hold
-/

namespace Slate
open Py

/-! ### Line breaks at the end of a character -/

theorem stripNl_append (c : Str) : ∃ n : Str, (∀ a ∈ n, a = '\n') ∧ c = stripNl c ++ n := by
  refine ⟨(c.reverse.takeWhile (· == '\n')).reverse, ?_, ?_⟩
  · intro a ha
    have : ∀ l : Str, ∀ b ∈ l.takeWhile (· == '\n'), b = '\n' := by
      intro l
      induction l with
      | nil => simp
      | cons d l ih =>
        intro b hb
        rw [List.takeWhile_cons] at hb
        split at hb
        · rename_i hd
          rcases List.mem_cons.mp hb with rfl | hb
          · simpa using hd
          · exact ih b hb
        · simp at hb
    exact this _ a (List.mem_reverse.mp ha)
  · unfold stripNl rstrip
    rw [← List.reverse_append, List.takeWhile_append_dropWhile, List.reverse_reverse]

theorem strip_isEmpty (s : Str) : (strip s).isEmpty = s.all isSpace := by
  have hl : ∀ t : Str, (t.dropWhile isSpace).isEmpty = t.all isSpace := by
    intro t
    induction t with
    | nil => rfl
    | cons a t ih =>
      by_cases h : isSpace a = true
      · simpa [List.dropWhile_cons, h] using ih
      · simp [h]
  have hd : ∀ t : Str, (t.dropWhile isSpace).all isSpace = t.all isSpace := by
    intro t
    induction t with
    | nil => rfl
    | cons a t ih =>
      by_cases h : isSpace a = true
      · simpa [List.dropWhile_cons, h] using ih
      · simp [h]
  unfold strip rstrip lstrip
  rw [List.isEmpty_reverse, hl, List.all_reverse, hd]

theorem subAnsi_letter (l : Layer) (n : Str) (hn : ∀ a ∈ n, a = '\n') : subAnsi (l.letter ++ n) = l.char :: n := by
  have hn0 : subAnsi n = n := by
    have := subAnsi_text (text := n) [] (fun c hc => by rw [hn c hc]; decide)
    simpa using this
  have hk : ∀ rest, (rest = n ∨ rest = RESET ++ n) → subAnsi (l.char :: rest) = l.char :: subAnsi rest := by
    intro rest hr
    by_cases h : l.char = '\x1b'
    · rw [h]
      apply subAnsi_keep
      rcases hr with rfl | rfl
      · cases rest with
        | nil => rfl
        | cons a t => rw [hn a (by simp)]; rfl
      · rfl
    · exact subAnsi_text (text := [l.char]) rest (by simpa using h)
  have hb : ∀ c ∈ l.span.style.colorless, BodyChar c := colorless_bodyChar _
  have hw := fun rest => subAnsi_wrapSgr (body := l.span.style.colorless) rest hb
  unfold Layer.letter
  simp only
  split_ifs
  · rw [List.append_assoc, hw]
    show subAnsi (l.char :: n) = _
    rw [hk n (.inl rfl), hn0]
  · rw [List.append_assoc, List.append_assoc, hw, show "\x1b[0m".toList = RESET from rfl]
    show subAnsi (l.char :: (RESET ++ n)) = _
    rw [hk _ (.inr rfl), subAnsi_reset, hn0]
  · show subAnsi (l.char :: n) = _
    rw [hk n (.inl rfl), hn0]

theorem lengthened_empty {l : Layer} {c : Str} (hc : stripNl c = l.letter) : isEmptyChar c l.span.style = isEmptyChar l.letter l.span.style := by
  obtain ⟨n, hn, h⟩ := stripNl_append c
  rw [hc] at h
  have e := subAnsi_letter l [] (by simp)
  rw [List.append_nil] at e
  unfold isEmptyChar
  rw [h, subAnsi_letter l n hn, e, strip_isEmpty, strip_isEmpty]
  have : n.all isSpace = true := by
    rw [List.all_eq_true]
    intro a ha
    rw [hn a ha]
    decide
  simp [this]

/-! ### A pile of characters with line breaks at their ends -/

theorem lengthened_slot (ps : List (Str × Layer)) (hps : ∀ p ∈ ps, stripNl p.1 = p.2.letter) (hne : ps ≠ []) :
    ∃ (a b : WCell) (st : List Color),
      ps.foldl (fun (s : Slot) p => s.put p.2.span p.1) (none, []) = (some a, st) ∧
      ps.foldl (fun (s : Slot) p => s.put p.2.span p.2.letter) (none, []) = (some b, st) ∧
      stripNl a.char = b.char ∧ a.fg = b.fg ∧ a.bg = b.bg ∧
      (a.bleed = b.bleed ∨ 1 < ps.length ∧ b.bleed = false ∧ ∀ p, ps.getLast? = some p → p.2.unseen = true) := by
  induction ps using List.reverseRecOn with
  | nil => exact absurd rfl hne
  | append_singleton ps p ih =>
    have hp := hps p (by simp)
    simp only [List.foldl_append, List.foldl_cons, List.foldl_nil]
    by_cases h0 : ps = []
    · subst h0
      exact ⟨_, _, _, rfl, rfl, hp, rfl, rfl, .inl rfl⟩
    · obtain ⟨a, b, st, h1, h2, h3, h4, h5, -⟩ := ih (fun q hq => hps q (by simp [hq])) h0
      rw [h1, h2]
      unfold Slot.put
      simp only
      by_cases ht : bgHasAlpha p.2.span.bg = true
      · rw [if_pos ht, if_pos ht]
        have he := lengthened_empty hp
        rw [he]
        by_cases hu : isEmptyChar p.2.letter p.2.span.style = true
        · simp only [hu, if_true]
          refine ⟨_, _, _, rfl, rfl, h3, h4, h5, ?_⟩
          simp only
          by_cases hl : p.2.letter = b.char
          · right
            refine ⟨?_, by simp [hl], ?_⟩
            · have := List.length_pos_of_ne_nil h0
              simp; omega
            · intro q hq
              rw [List.getLast?_concat] at hq
              injection hq with hq
              rw [← hq, ← letter_empty (by rw [← translucent_eq]; exact ht)]
              exact hu
          · left
            have : p.1 ≠ a.char := by
              intro e
              rw [← h3, ← hp, e] at hl
              exact hl rfl
            simp [hl, this]
        · simp only [hu]
          exact ⟨_, _, _, rfl, rfl, by simpa using hp, rfl, h5, .inl (by simp)⟩
      · rw [if_neg ht, if_neg ht]
        exact ⟨_, _, _, rfl, rfl, hp, rfl, rfl, .inl rfl⟩

theorem fold_pairs (T : List Hit) (L : List Layer) (h : T.map (fun t => (t.span, stripNl t.char)) = L.map fun l => (l.span, l.letter)) :
    ∃ ps : List (Str × Layer), ps.map (·.2) = L ∧ (∀ p ∈ ps, stripNl p.1 = p.2.letter) ∧
      ∀ s : Slot, T.foldl (fun s t => Slot.put s t.span t.char) s = ps.foldl (fun (s : Slot) p => s.put p.2.span p.1) s := by
  induction T generalizing L with
  | nil =>
    cases L with
    | nil => exact ⟨[], rfl, by simp, fun _ => rfl⟩
    | cons l L => simp at h
  | cons t T ih =>
    cases L with
    | nil => simp at h
    | cons l L =>
      rw [List.map_cons, List.map_cons, List.cons.injEq, Prod.mk.injEq] at h
      obtain ⟨⟨h1, h2⟩, h3⟩ := h
      obtain ⟨ps, p1, p2, p3⟩ := ih L h3
      refine ⟨(t.char, l) :: ps, by simp [p1], ?_, ?_⟩
      · intro p hp
        rcases List.mem_cons.mp hp with rfl | hp
        · exact h2
        · exact p2 p hp
      · intro s
        rw [List.foldl_cons, List.foldl_cons, p3, h1]

/-! ### Where the spans go -/

theorem behind_pen {w h : Nat} {s : Span} (hne : s.text ≠ []) {chars : List Str} (hl : chars.length = s.text.length) (hn : ∀ c ∈ chars, c ≠ ['\n'])
    (x row mark : Int) (m : Mats) :
    (putChars w h s chars { x := x, y := row, last := mark } m).1 =
      { x := (behind w h s.text.length x row mark).1, y := (behind w h s.text.length x row mark).2.1, last := (behind w h s.text.length x row mark).2.2 } := by
  have hpos := List.length_pos_of_ne_nil hne
  unfold behind
  split_ifs with hin
  · obtain ⟨h1, h2, h3, h4⟩ := hin
    obtain ⟨a, rfl⟩ := Int.eq_ofNat_of_zero_le h1
    obtain ⟨b, rfl⟩ := Int.eq_ofNat_of_zero_le h3
    have hw : 0 < w := by omega
    have ha : a < w := by omega
    have hb : b < h := by omega
    have hmod : (b * w + a) % w = a := by rw [Nat.mul_comm, Nat.mul_add_mod, Nat.mod_eq_of_lt ha]
    have hdiv : (b * w + a) / w = b := by rw [Nat.mul_comm, Nat.mul_add_div hw, Nat.div_eq_of_lt ha]; rfl
    have hpen : ({ x := (a : Int), y := (b : Int), last := mark } : Pen) = penAt w (b * w + a) mark := by
      simp [penAt, hmod, hdiv]
    have hlt : b * w + a < h * w := by
      calc b * w + a < b * w + w := by omega
        _ = (b + 1) * w := by rw [Nat.add_mul]; omega
        _ ≤ h * w := Nat.mul_le_mul_right _ hb
    have hto : ((b : Int) * (w : Int) + (a : Int)).toNat = b * w + a := by
      rw [show (b : Int) * (w : Int) + (a : Int) = ((b * w + a : Nat) : Int) by push_cast; rfl]; exact Int.toNat_natCast _
    rw [hpen, putChars_index hw h s chars hn _ (le_of_lt hlt), hto, hl, if_neg (by omega)]
    split_ifs with hc
    · rw [Nat.min_eq_left hc]; simp only [if_pos hc]; rfl
    · rw [Nat.min_eq_right (by omega)]
      simp only [if_neg hc]
      simp [penAt, Nat.mul_div_cancel _ hw]
  · cases chars with
    | nil => rfl
    | cons c cs => unfold putChars; rw [if_pos (by simp only; omega)]

/-- The rows of a screen that is moved up twice. -/
theorem liftedCell_twice {w h k : Nat} {cells cells' : List (List Cell)} {n : Nat}
    (hc : ∀ x y, x < w → y < h → cellAt cells' x y = liftedCell h n cells x y) {x y : Nat} (hx : x < w) :
    liftedCell h k cells' x y = liftedCell h (n + k) cells x y := by
  unfold liftedCell
  split_ifs with h1 h2 h2
  · rw [hc x _ hx h1]; unfold liftedCell; rw [if_pos (by omega)]; congr 1; omega
  · rw [hc x _ hx h1]; unfold liftedCell; rw [if_neg (by omega)]
  · omega
  · rfl

theorem dataHits_single (w h : Nat) (x row : Int) (s : Span) (D : Data) : dataHits w h 0 (((x, row), [s]) :: D) =
    charHits w h s s.cellChars x row ++ dataHits w h 0 D := by
  simp [dataHits, lineHits, startPen]

theorem flowHits_append (w h : Nat) (D E : Data) : dataHits w h 0 (D ++ E) = dataHits w h 0 D ++ dataHits w h 0 E := by
  simp [dataHits]

/-- What the first phase of a bulk write did to a screen: the characters it put, up to line breaks at their ends, where the screen is now and how far it was
moved. -/
structure Flowed (w w' : World) (hits : List Hit) (lines : Data) (off : Int) (moves : Nat) : Prop where
  width : w'.scr.width = w.scr.width
  height : w'.scr.height = w.scr.height
  changes : w'.scr.changes = w.scr.changes
  cursor : w'.scr.cursor = w.scr.cursor
  offset : w'.scr.offset = off
  shape : Shape w'.scr.width w'.scr.height w'.scr.cells
  cells : ∀ x y, x < w.scr.width → y < w.scr.height → cellAt w'.scr.cells x y = liftedCell w.scr.height moves w.scr.cells x y
  hits : hits.map Hit.bare = dataHits w.scr.width w.scr.height 0 lines
  cache : CacheRs w'.cache

theorem Flowed.trans {w w' w'' : World} {a b : List Hit} {D E : Data} {o o' : Int} {n n' : Nat} (h1 : Flowed w w' a D o n) (h2 : Flowed w' w'' b E o' n') :
    Flowed w w'' (a ++ b) (D ++ E) o' (n + n') where
  width := h2.width.trans h1.width
  height := h2.height.trans h1.height
  changes := h2.changes.trans h1.changes
  cursor := h2.cursor.trans h1.cursor
  offset := h2.offset
  shape := h2.shape
  cells := by
    intro x y hx hy
    rw [h2.cells x y (by rw [h1.width]; exact hx) (by rw [h1.height]; exact hy), h1.height]
    exact liftedCell_twice h1.cells hx
  hits := by rw [List.map_append, h1.hits, h2.hits, h1.width, h1.height, flowHits_append]
  cache := h2.cache

theorem putSpans_flow (spans : List Span) (hd : ∀ s ∈ spans, '\n' ∉ s.text ∧ s.text ≠ []) : ∀ (k : Nat) (x y mark : Int) (m : Mats) (w : World),
    CacheRs w.cache → Shape w.scr.width w.scr.height w.scr.cells → 0 < w.scr.height →
    ∃ (hits : List Hit) (p' : Pen) (w' : World), putSpans spans k { x := x, y := y, last := mark } m w = (p', hits.foldl Hit.put m, w', none) ∧
      Flowed w w' hits (flowLine w.scr.width w.scr.height k mark w.scr.offset (x, y) spans).1
        (flowLine w.scr.width w.scr.height k mark w.scr.offset (x, y) spans).2.1 (flowLine w.scr.width w.scr.height k mark w.scr.offset (x, y) spans).2.2 := by
  induction spans with
  | nil =>
    intro k x y mark m w hrs hs hh
    exact ⟨[], _, w, rfl, rfl, rfl, rfl, rfl, rfl, hs, fun x y _ hy => (liftedCell_zero x y hy).symm, rfl, hrs⟩
  | cons s ss ih =>
    intro k x y mark m w hrs hs hh
    obtain ⟨hnl, hne⟩ := hd s (List.mem_cons_self ..)
    have ih := ih fun s hs => hd s (List.mem_cons_of_mem _ hs)
    obtain ⟨hg, hrs'⟩ := hrs.get s
    have hg := hg hnl
    have hlen : (w.cache.get s).1.length = s.text.length := by
      have := congrArg List.length hg
      rwa [List.length_map, length_cellChars] at this
    by_cases hsc : (k : Int) = mark ∧ w.scr.offset + (w.scr.height : Int) ≤ y
    · obtain ⟨row0, rows, hcells⟩ : ∃ row0 rows, w.scr.cells = row0 :: rows := by
        cases hc : w.scr.cells with
        | nil => have := hs.rows; rw [hc] at this; simp at this; omega
        | cons a l => exact ⟨a, l, rfl⟩
      have hpos : (w.cache.get s).1.isEmpty = false := by
        have := List.length_pos_of_ne_nil hne
        rw [List.isEmpty_eq_false_iff]
        intro h0; rw [h0] at hlen; simp at hlen; omega
      let chars := appendNewline (w.cache.get s).1
      let w2 : World := { scr := { w.scr with offset := y - w.scr.height + 1, cells := rows ++ [List.replicate w.scr.width { char := [] }] }
                          cache := (w.cache.get s).2.assign s chars }
      have hg2 : chars.map stripNl = s.cellChars := by rw [appendNewline_strip]; exact hg
      have hlen2 : chars.length = s.text.length := by
        have := congrArg List.length hg2
        rwa [List.length_map, length_cellChars] at this
      obtain ⟨c1, c2⟩ := chars_no_break hnl hg2
      have hs2 : Shape w2.scr.width w2.scr.height w2.scr.cells := by
        have hs' := hs
        rw [hcells] at hs'
        exact hs'.scroll _
      have hrs2 : CacheRs w2.cache := hrs'.assign s chars fun _ => hg2
      have hfl : Flowed w w2 (charHits w.scr.width w.scr.height s chars x ((w.scr.height : Int) - 1)) [((x, (w.scr.height : Int) - 1), [s])]
          (y - w.scr.height + 1) 1 := by
        refine ⟨rfl, rfl, rfl, rfl, rfl, hs2, ?_, ?_, hrs2⟩
        · intro a b ha hb
          unfold liftedCell
          have : cellAt w2.scr.cells a b = if b + 1 = w.scr.height then some { char := [] } else cellAt w.scr.cells a (b + 1) := by
            rw [hcells]
            exact cellAt_scroll (hcells ▸ hs) _ a b ha
          rw [this]
          split_ifs <;> first | rfl | omega
        · rw [charHits_bare _ _ _ _ c1 c2, hg2, dataHits_single]
          simp [dataHits]
      have e1 : (y - (y - (w.scr.height : Int) + 1)) = (w.scr.height : Int) - 1 := by omega
      have hput : putSpans (s :: ss) k { x := x, y := y, last := mark } m w =
          putSpans ss (k + 1) (putChars w.scr.width w.scr.height s chars { x := x, y := (w.scr.height : Int) - 1, last := mark } m).1
            (putChars w.scr.width w.scr.height s chars { x := x, y := (w.scr.height : Int) - 1, last := mark } m).2 w2 := by
        simp only [putSpans]
        rw [if_pos ⟨hsc.1, by have := hsc.2; show y - w.scr.offset > (w.scr.height : Int) - 1; omega⟩]
        simp only [hpos, Bool.false_eq_true, if_false, hcells, e1]
        rfl
      rw [hput, behind_pen hne hlen2 c1, putChars_hits]
      obtain ⟨hits, p', w', h1, h2⟩ := ih (k + 1) (behind w.scr.width w.scr.height s.text.length x ((w.scr.height : Int) - 1) mark).1
        (behind w.scr.width w.scr.height s.text.length x ((w.scr.height : Int) - 1) mark).2.1
        (behind w.scr.width w.scr.height s.text.length x ((w.scr.height : Int) - 1) mark).2.2
        ((charHits w.scr.width w.scr.height s chars x ((w.scr.height : Int) - 1)).foldl Hit.put m) w2 hrs2 hs2 hh
      refine ⟨_ ++ hits, p', w', by rw [h1, List.foldl_append], ?_⟩
      have := hfl.trans h2
      rw [flowLine]
      simp only [if_pos hsc]
      exact this
    · obtain ⟨c1, c2⟩ := chars_no_break hnl hg
      let w2 : World := { w with cache := (w.cache.get s).2 }
      have hfl : Flowed w w2 (charHits w.scr.width w.scr.height s (w.cache.get s).1 x (y - w.scr.offset)) [((x, y - w.scr.offset), [s])]
          w.scr.offset 0 := by
        refine ⟨rfl, rfl, rfl, rfl, rfl, hs, fun a b _ hb => (liftedCell_zero a b hb).symm, ?_, hrs'⟩
        rw [charHits_bare _ _ _ _ c1 c2, hg, dataHits_single]
        simp [dataHits]
      have hput : putSpans (s :: ss) k { x := x, y := y, last := mark } m w =
          putSpans ss (k + 1) (putChars w.scr.width w.scr.height s (w.cache.get s).1 { x := x, y := y - w.scr.offset, last := mark } m).1
            (putChars w.scr.width w.scr.height s (w.cache.get s).1 { x := x, y := y - w.scr.offset, last := mark } m).2 w2 := by
        simp only [putSpans]
        rw [if_neg fun h => hsc ⟨h.1, by have : y - w.scr.offset > (w.scr.height : Int) - 1 := h.2; omega⟩]
      rw [hput, behind_pen hne hlen c1, putChars_hits]
      obtain ⟨hits, p', w', h1, h2⟩ := ih (k + 1) (behind w.scr.width w.scr.height s.text.length x (y - w.scr.offset) mark).1
        (behind w.scr.width w.scr.height s.text.length x (y - w.scr.offset) mark).2.1
        (behind w.scr.width w.scr.height s.text.length x (y - w.scr.offset) mark).2.2
        ((charHits w.scr.width w.scr.height s (w.cache.get s).1 x (y - w.scr.offset)).foldl Hit.put m) w2 hrs' hs hh
      refine ⟨_ ++ hits, p', w', by rw [h1, List.foldl_append], ?_⟩
      have := hfl.trans h2
      rw [flowLine]
      simp only [if_neg hsc]
      exact this

theorem putData_flow (d : Data) (hd : ∀ e ∈ d, ∀ s ∈ e.2, '\n' ∉ s.text ∧ s.text ≠ []) : ∀ (m : Mats) (w : World),
    CacheRs w.cache → Shape w.scr.width w.scr.height w.scr.cells → 0 < w.scr.height →
    ∃ (hits : List Hit) (w' : World), putData d.entries m w = (hits.foldl Hit.put m, w', none) ∧
      Flowed w w' hits (flow w.scr.width w.scr.height w.scr.offset d).1
        (flow w.scr.width w.scr.height w.scr.offset d).2.1 (flow w.scr.width w.scr.height w.scr.offset d).2.2 := by
  induction d with
  | nil =>
    intro m w hrs hs hh
    exact ⟨[], w, rfl, rfl, rfl, rfl, rfl, rfl, hs, fun x y _ hy => (liftedCell_zero x y hy).symm, rfl, hrs⟩
  | cons e d ih =>
    intro m w hrs hs hh
    obtain ⟨⟨x, y⟩, line⟩ := e
    obtain ⟨a, p, w1, h1, h2⟩ := putSpans_flow line (hd _ (List.mem_cons_self ..)) 0 x y ((line.length : Int) - 1) m w hrs hs hh
    obtain ⟨b, w2, g1, g2⟩ := ih (fun e he => hd e (List.mem_cons_of_mem _ he)) (a.foldl Hit.put m) w1 h2.cache h2.shape (by rw [h2.height]; exact hh)
    rw [h2.width, h2.height, h2.offset] at g2
    refine ⟨a ++ b, w2, ?_, h2.trans g2⟩
    have hent : Data.entries (((x, y), line) :: d) = (some (x, y), line) :: Data.entries d := rfl
    rw [hent, putData, h1]
    simp only
    rw [g1, List.foldl_append]

/-! ### The cells -/

theorem resolve_near (tb : Color) (above : List Layer) {a b : WCell} (h1 : stripNl a.char = b.char) (h2 : a.fg = b.fg) (h3 : a.bg = b.bg) :
    (resolveCell tb (Pile.tints above) a).char = stripNl b.char ∧
    (resolveCell tb (Pile.tints above) a).bg = (resolveCell tb (Pile.tints above) b).bg ∧
    (a.bleed = b.bleed → (resolveCell tb (Pile.tints above) a).fg = (resolveCell tb (Pile.tints above) b).fg) := by
  have hB : (resolveCell tb (Pile.tints above) a).bg = (resolveCell tb (Pile.tints above) b).bg := by
    unfold resolveCell resolveColors
    obtain ⟨_, ha⟩ := blend_fold a.bleed (Pile.tints above) (tints_alpha above) a.bg (a.fg.getD Color.white) a.bg
    obtain ⟨_, hb⟩ := blend_fold b.bleed (Pile.tints above) (tints_alpha above) b.bg (b.fg.getD Color.white) b.bg
    rw [h3] at ha ⊢
    simp only [ha, hb]
  refine ⟨?_, hB, ?_⟩
  · show stripNl a.char = stripNl b.char
    rw [← h1]
    simp only [stripNl, rstrip, List.reverse_reverse, dropWhile_twice]
  · intro hbl
    unfold resolveCell resolveColors
    simp only [hbl, h2, h3]

/-- **C103** for all calls without line breaks in their texts, also those that scroll, after every history (partial: a pile shows also the tints below its
topmost opaque layer, C103_hidden_violated). `flow` says where the spans go and how often the screen moves; every cell then shows the pile of the characters
that fall on it, or what was there before, moved up. (The colour of a space over an equal space is left open: it depends on how often the two spans scrolled before,
because of the line breaks in the cache.) -/
theorem C103_scroll_partial (env : Color.Env) (width height : Nat) (cur : Int × Int) (fill : Str) (ops : List Api) (d : Data)
    (hd : ∀ e ∈ d, ∀ s ∈ e.2, '\n' ∉ s.text ∧ s.text ≠ []) (tb : Color) (force : Bool) :
    let w := Api.runAll env { scr := Screen.init width height cur fill } ops
    let r := writeBulk env d.entries tb force w
    let f := flow w.scr.width w.scr.height w.scr.offset d
    0 < w.scr.height →
    (∃ n, r.2 = .ok n) ∧ r.1.scr.offset = f.2.1 ∧
    ∀ x y, x < w.scr.width → y < w.scr.height →
      ∃ old, liftedCell w.scr.height f.2.2 w.scr.cells x y = some old ∧
        match layersAt w.scr.width w.scr.height f.1 x y with
        | [] => cellAt r.1.scr.cells x y = some old
        | first :: above => ∃ new : Cell, new.char = (Pile.cell tb first above).char ∧ new.bg = (Pile.cell tb first above).bg ∧
            (above = [] ∨ (above.getLastD first).unseen = false ∨ (above.getLastD first).letter ≠ (Pile.text first (first :: above)).letter →
              new = Pile.cell tb first above) ∧
            cellAt r.1.scr.cells x y = some (if new.eq old then old else new) := by
  intro w r f hh
  have hs : Shape w.scr.width w.scr.height w.scr.cells := runAll_shape env ops _ (resize_shape _ _ _ _ _)
  have hrs : CacheRs w.cache := runAll_cacheRs env ops _ (by intro e he; simp at he)
  obtain ⟨hits, w', h1, hfl⟩ := putData_flow d hd Mats.blank w hrs hs hh
  have hr : r = ({ w' with scr := (commit env tb (hits.foldl Hit.put Mats.blank) w'.scr).1 }, (commit env tb (hits.foldl Hit.put Mats.blank) w'.scr).2) := by
    simp only [r, writeBulk, h1]
  obtain ⟨n, hn, hwr⟩ := commit_wrote env tb (hits.foldl Hit.put Mats.blank) w'.scr hfl.shape
  refine ⟨⟨n, by rw [hr]; exact hn⟩, by rw [hr]; exact hwr.offset.trans hfl.offset, ?_⟩
  intro x y hx hy
  obtain ⟨old, ho⟩ := hfl.shape.exists_cell (x := x) (y := y) (by rw [hfl.width]; exact hx) (by rw [hfl.height]; exact hy)
  refine ⟨old, by rw [← hfl.cells x y hx hy, ho], ?_⟩
  have hc := hwr.cell x y
  have hslot := foldl_put_slot hits Mats.blank x y
  have hlay := dataHits_layers f.1 hx hy
  rw [← hfl.hits, List.filter_map, List.map_map] at hlay
  obtain ⟨ps, p1, p2, p3⟩ := fold_pairs (hits.filter (Hit.isAt x y)) (layersAt w.scr.width w.scr.height f.1 x y) hlay
  have hb : ((Mats.blank.wm x y, Mats.blank.am x y) : Slot) = (none, []) := rfl
  rw [p3, hb] at hslot
  have hr' : r.1.scr.cells = (commit env tb (hits.foldl Hit.put Mats.blank) w'.scr).1.cells := by rw [hr]
  rw [hr']
  unfold outcome at hc
  cases hl : layersAt w.scr.width w.scr.height f.1 x y with
  | nil =>
    have hps : ps = [] := by rw [hl] at p1; exact List.map_eq_nil_iff.mp p1
    rw [hps] at hslot
    have := (Prod.mk.inj hslot).1
    simp only at this hc
    rw [this] at hc
    simp only
    rw [hc]
    simpa using ho
  | cons first above =>
    have hps : ps ≠ [] := by rintro rfl; rw [hl] at p1; simp at p1
    obtain ⟨a, b, st, q1, q2, q3, q4, q5, q6⟩ := lengthened_slot ps p2 hps
    have hfold : ps.foldl (fun (s : Slot) p => s.put p.2.span p.2.letter) (none, []) =
        (ps.map (·.2)).foldl (fun (s : Slot) l => s.put l.span l.letter) (none, []) := by rw [List.foldl_map]
    rw [hfold, p1, hl, pile_slot first above] at q2
    obtain ⟨e1, e2⟩ := Prod.mk.inj q2
    injection e1 with e1
    rw [q1] at hslot
    obtain ⟨g1, g2⟩ := Prod.mk.inj hslot
    rw [← e2] at g2
    simp only [g1, g2, ho] at hc
    obtain ⟨z1, z2, z3⟩ := resolve_near tb above q3 q4 q5
    have hcell := pile_cell tb first above
    rw [e1] at hcell
    rw [hcell] at z2 z3
    have z1' : (resolveCell tb (Pile.tints above) a).char = (Pile.cell tb first above).char := by rw [z1, ← hcell]; rfl
    refine ⟨resolveCell tb (Pile.tints above) a, z1', z2, ?_, ?_⟩
    · intro hex
      have hbl : a.bleed = b.bleed := by
        rcases q6 with h | ⟨hlen, hbf, hun⟩
        · exact h
        · exfalso
          have hlast : ((ps.map (·.2)).getLast?) = some (above.getLastD first) := by
            rw [p1, hl]
            cases above with
            | nil => rfl
            | cons c cs => simp [List.getLast?_cons]
          rw [List.getLast?_map] at hlast
          obtain ⟨p, hp1, hp2⟩ := Option.map_eq_some_iff.mp hlast
          have hu := hun p hp1
          rw [hp2] at hu
          rcases hex with h | h | h
          · have := congrArg List.length p1
            rw [hl, h, List.length_map] at this
            simp at this
            omega
          · rw [hu] at h; exact absurd h (by simp)
          · rw [← e1] at hbf
            simp only [decide_eq_false_iff_not] at hbf
            exact hbf h
      have z3 := z3 hbl
      revert z1' z2 z3
      generalize resolveCell tb (Pile.tints above) a = u
      generalize Pile.cell tb first above = v
      intro k1 k2 k3
      cases u; cases v
      simp only at k1 k2 k3
      rw [k1, k2, k3]
    · rw [hc]
      split_ifs <;> simp

/-- The hypotheses are met by a call with a translucent span and a line of two spans, of which the second one scrolls a screen of two rows: the first line
of the call is not moved, the old content is. -/
example :
    let w := Api.runAll {} { scr := Screen.init 2 2 } [.write [{ text := ['o'] }] (some (1, 1)) Color.black false]
    let tint : Color := { Color.white with alpha := 1 / 2 }
    let d : Data := [((0, 0), [{ text := ['a'] }]), ((0, 0), [{ text := [' '], bg := some tint }]),
      ((0, 1), [{ text := ['b', 'c'] }, { text := ['d'] }])]
    let r := writeBulk {} d.entries Color.black false w
    (∀ e ∈ d, ∀ s ∈ e.2, '\n' ∉ s.text ∧ s.text ≠ []) ∧ 0 < w.scr.height ∧
    ((flow 2 2 0 d).1.map (·.1) = [(0, 0), (0, 0), (0, 1), (0, 1)]) ∧ (flow 2 2 0 d).2 = (1, 1) ∧
    r.1.scr.cells.map (·.map (·.char)) = [[['a'], ['o']], [['d'], ['c']]] := by
  decide +kernel

end Slate
