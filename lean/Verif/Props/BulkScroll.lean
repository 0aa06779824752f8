import Verif.Props.Layers
import Verif.Props.Drift
import Verif.Spec.Scrolls

/-!
# C117: bulk writes that scroll

`write_bulk` collects the characters of a call in a matrix and writes them at the end. When a line of the call scrolls, the rows of the screen are moved
up, but not the rows of the matrix.
-/

namespace Slate
open Py

/-- The lines of a bulk write that are one span each. -/
def singles (d : List ((Int × Int) × Span)) : Data := d.map fun e => (e.1, [e.2])

/-- A hit without line breaks at the end of its characters. -/
def Hit.bare (t : Hit) : Hit := { t with char := stripNl t.char }

theorem charHits_bare (w h : Nat) (s : Span) (chars : List Str) (h1 : ∀ c ∈ chars, c ≠ ['\n']) (h2 : ∀ c ∈ chars, stripNl c ≠ ['\n']) :
    ∀ x y : Int, (charHits w h s chars x y).map Hit.bare = charHits w h s (chars.map stripNl) x y := by
  induction chars with
  | nil => intro x y; rfl
  | cons c cs ih =>
    intro x y
    have i := ih (fun c hc => h1 c (by simp [hc])) (fun c hc => h2 c (by simp [hc]))
    rw [List.map_cons]
    unfold charHits
    rw [if_neg (h1 c (by simp)), if_neg (h2 c (by simp))]
    split_ifs
    · rfl
    · rw [List.map_cons, i]; rfl
    · rw [List.map_cons, i]; rfl

/-- Characters of a text without line breaks, up to line breaks at their ends. -/
theorem chars_no_break {s : Span} (hnl : '\n' ∉ s.text) {chars : List Str} (hch : chars.map stripNl = s.cellChars) :
    (∀ c ∈ chars, c ≠ ['\n']) ∧ ∀ c ∈ chars, stripNl c ≠ ['\n'] := by
  have hs : ∀ c ∈ chars, ∃ j ch, s.text[j]? = some ch ∧ stripNl c = styledChar s j ch := by
    intro c hc
    obtain ⟨j, hj⟩ := List.mem_iff_getElem?.mp hc
    have h : s.cellChars[j]? = some (stripNl c) := by rw [← hch, List.getElem?_map, hj]; rfl
    rw [cellChars_getElem?] at h
    obtain ⟨ch, h1, h2⟩ := Option.map_eq_some_iff.mp h
    exact ⟨j, ch, h1, h2.symm⟩
  constructor
  · rintro c hc rfl
    obtain ⟨j, ch, -, h2⟩ := hs _ hc
    rw [show stripNl ['\n'] = [] from rfl] at h2
    unfold styledChar at h2
    simp only at h2
    split at h2
    · simp at h2
    · split at h2 <;> simp at h2
  · intro c hc e
    have : stripNl (stripNl c) = stripNl c := by
      obtain ⟨j, ch, h1, h2⟩ := hs _ hc
      rw [h2]
      exact rstrip_styledChar hnl h1
    rw [e] at this
    exact absurd this (by decide)

theorem liftedCell_zero {h : Nat} {cells : List (List Cell)} (x y : Nat) (hy : y < h) : liftedCell h 0 cells x y = cellAt cells x y := by
  unfold liftedCell
  rw [if_pos (by omega)]
  rfl

/-- The first phase of a bulk write of single spans. -/
theorem putData_singles (d : List ((Int × Int) × Span)) (hd : ∀ e ∈ d, '\n' ∉ e.2.text ∧ e.2.text ≠ []) : ∀ (m : Mats) (w : World),
    CacheRs w.cache → Shape w.scr.width w.scr.height w.scr.cells → 0 < w.scr.height →
    ∃ (hits : List Hit) (w' : World), putData (singles d).entries m w = (hits.foldl Hit.put m, w', none) ∧
      w'.scr.width = w.scr.width ∧ w'.scr.height = w.scr.height ∧ w'.scr.changes = w.scr.changes ∧ w'.scr.cursor = w.scr.cursor ∧
      w'.scr.offset = offsetAfter w.scr.height w.scr.offset d ∧ Shape w.scr.width w.scr.height w'.scr.cells ∧
      (∀ x y, x < w.scr.width → y < w.scr.height → cellAt w'.scr.cells x y = liftedCell w.scr.height (scrollsOf w.scr.height w.scr.offset d) w.scr.cells x y) ∧
      hits.map Hit.bare = dataHits w.scr.width w.scr.height 0 (landed w.scr.height w.scr.offset d) ∧ ∀ t ∈ hits, ∃ e ∈ d, t.span = e.2 := by
  induction d with
  | nil =>
    intro m w _ hs _
    exact ⟨[], w, rfl, rfl, rfl, rfl, rfl, rfl, hs, fun x y _ hy => (liftedCell_zero x y hy).symm, rfl, by simp⟩
  | cons e d ih =>
    intro m w hrs hs hh
    obtain ⟨⟨x, y⟩, s⟩ := e
    obtain ⟨hnl, hne⟩ := hd _ (List.mem_cons_self ..)
    simp only at hnl hne
    have ih := ih fun e he => hd e (List.mem_cons_of_mem _ he)
    obtain ⟨hg, hrs'⟩ := hrs.get s
    have hg := hg hnl
    have hdh : ∀ (y' : Int) (D : Data), dataHits w.scr.width w.scr.height 0 (((x, y'), [s]) :: D) =
        charHits w.scr.width w.scr.height s s.cellChars x y' ++ dataHits w.scr.width w.scr.height 0 D := by
      intro y' D
      simp [dataHits, lineHits, startPen]
    have hspan : ∀ (chars : List Str) (y' : Int) (hits : List Hit), (∀ t ∈ hits, ∃ e ∈ d, t.span = e.2) →
        ∀ t ∈ charHits w.scr.width w.scr.height s chars x y' ++ hits, ∃ e ∈ ((x, y), s) :: d, t.span = e.2 := by
      intro chars y' hits hh t ht
      rcases List.mem_append.mp ht with ht | ht
      · exact ⟨_, List.mem_cons_self .., (charHits_inside _ _ _ _ _ _ t ht).2.2.1⟩
      · obtain ⟨e, he, h⟩ := hh t ht
        exact ⟨e, List.mem_cons_of_mem _ he, h⟩
    have hent : (singles (((x, y), s) :: d)).entries = (some (x, y), [s]) :: (singles d).entries := rfl
    by_cases hy : y < w.scr.offset + w.scr.height
    · have hput : ∀ rest, putData ((some (x, y), [s]) :: rest) m w =
          putData rest (putChars w.scr.width w.scr.height s (w.cache.get s).1 { x := x, y := y - w.scr.offset, last := 0 } m).2
            { w with cache := (w.cache.get s).2 } := by
        intro rest
        simp only [putData, putSpans, List.length_cons, List.length_nil]
        rw [if_neg (by omega)]
        rfl
      obtain ⟨hits, w', h1, h2, h3, h4, h5, h6, h7, h8, h9, h10⟩ := ih
        (putChars w.scr.width w.scr.height s (w.cache.get s).1 { x := x, y := y - w.scr.offset, last := 0 } m).2 { w with cache := (w.cache.get s).2 } hrs' hs hh
      refine ⟨charHits w.scr.width w.scr.height s (w.cache.get s).1 x (y - w.scr.offset) ++ hits, w', ?_, h2, h3, h4, h5, ?_, h7, ?_, ?_, hspan _ _ _ h10⟩
      · rw [hent, hput, h1, putChars_hits, List.foldl_append]
      · rw [h6, offsetAfter, if_pos hy]
      · intro a b ha hb
        rw [h8 a b ha hb, scrollsOf, if_pos hy]
      · obtain ⟨c1, c2⟩ := chars_no_break hnl hg
        rw [landed, if_pos hy, hdh, List.map_append, h9, charHits_bare _ _ _ _ c1 c2, hg]
    · obtain ⟨row0, rows, hcells⟩ : ∃ row0 rows, w.scr.cells = row0 :: rows := by
        cases hc : w.scr.cells with
        | nil => have := hs.rows; rw [hc] at this; simp at this; omega
        | cons a l => exact ⟨a, l, rfl⟩
      have hlenpos : (w.cache.get s).1.isEmpty = false := by
        have h1 : ((w.cache.get s).1.map stripNl).length = s.text.length := by rw [hg, length_cellChars]
        rw [List.length_map] at h1
        have := List.length_pos_of_ne_nil hne
        rw [List.isEmpty_eq_false_iff]
        intro hh; rw [hh] at h1; simp at h1; omega
      let chars := appendNewline (w.cache.get s).1
      let w2 : World := { scr := { w.scr with offset := y - w.scr.height + 1, cells := rows ++ [List.replicate w.scr.width { char := [] }] }
                          cache := (w.cache.get s).2.assign s chars }
      have hg2 : chars.map stripNl = s.cellChars := by rw [appendNewline_strip]; exact hg
      have hput : ∀ rest, putData ((some (x, y), [s]) :: rest) m w =
          putData rest (putChars w.scr.width w.scr.height s chars { x := x, y := (w.scr.height : Int) - 1, last := 0 } m).2 w2 := by
        intro rest
        have e1 : (y - (y - (w.scr.height : Int) + 1)) = (w.scr.height : Int) - 1 := by omega
        simp only [putData, putSpans, List.length_cons, List.length_nil]
        rw [if_pos ⟨by simp, by omega⟩]
        simp only [hlenpos, Bool.false_eq_true, if_false, hcells, e1]
        rfl
      have hs2 : Shape w2.scr.width w2.scr.height w2.scr.cells := by
        have hs' := hs
        rw [hcells] at hs'
        exact hs'.scroll _
      obtain ⟨hits, w', h1, h2, h3, h4, h5, h6, h7, h8, h9, h10⟩ := ih
        (putChars w.scr.width w.scr.height s chars { x := x, y := (w.scr.height : Int) - 1, last := 0 } m).2 w2 (hrs'.assign s chars fun _ => hg2) hs2 hh
      refine ⟨charHits w.scr.width w.scr.height s chars x ((w.scr.height : Int) - 1) ++ hits, w', ?_, h2, h3, h4, h5, ?_, h7, ?_, ?_, hspan _ _ _ h10⟩
      · rw [hent, hput, h1, putChars_hits, List.foldl_append]
      · rw [h6, offsetAfter, if_neg hy]
      · intro a b ha hb
        rw [h8 a b ha hb, scrollsOf, if_neg hy]
        unfold liftedCell
        have hc2 : ∀ b, cellAt w2.scr.cells a b = if b + 1 = w.scr.height then some { char := [] } else cellAt w.scr.cells a (b + 1) := by
          intro b
          rw [hcells]
          exact cellAt_scroll (hcells ▸ hs) _ a b ha
        show (if b + scrollsOf w.scr.height (y - w.scr.height + 1) d < w.scr.height then
          cellAt w2.scr.cells a (b + scrollsOf w.scr.height (y - w.scr.height + 1) d) else _) = _
        rw [hc2, ← Nat.add_assoc]
        split_ifs <;> first | rfl | omega
      · obtain ⟨c1, c2⟩ := chars_no_break hnl hg2
        rw [landed, if_neg hy, hdh, List.map_append, h9, charHits_bare _ _ _ _ c1 c2, hg2]

theorem dropWhile_twice {α : Type} (p : α → Bool) (l : List α) : (l.dropWhile p).dropWhile p = l.dropWhile p := by
  induction l with
  | nil => rfl
  | cons a l ih =>
    rw [List.dropWhile_cons]
    split_ifs with h
    · exact ih
    · rw [List.dropWhile_cons, if_neg h]

theorem lastHit_bare (hits : List Hit) (x y : Nat) : lastHit (hits.map Hit.bare) x y = (lastHit hits x y).map Hit.bare := by
  unfold lastHit
  rw [← List.map_reverse, List.find?_map]
  rfl

theorem lastHit_layers {w h : Nat} (d : Data) {x y : Nat} (hx : x < w) (hy : y < h) :
    (lastHit (dataHits w h 0 d) x y).map (fun t => (t.span, t.char)) = (layersAt w h d x y).getLast?.map fun l => (l.span, l.letter) := by
  rw [← List.getLast?_map, ← dataHits_layers d hx hy, List.getLast?_map]
  congr 1
  unfold lastHit
  rw [← List.head?_filter, List.filter_reverse, List.head?_reverse]

/-- **C117** (partial: texts of one opaque span without line breaks; the property fails as soon as two of them are involved in a scroll). What a bulk
write that scrolls leaves on any screen: each cell shows the last text of the call that landed on it, or else what was there before, moved up by one row
for each scroll. The texts of the call are not moved. -/
theorem C117_cells_partial (env : Color.Env) (width height : Nat) (cur : Int × Int) (fill : Str) (ops : List Api) (d : List ((Int × Int) × Span))
    (hd : ∀ e ∈ d, '\n' ∉ e.2.text ∧ e.2.text ≠ []) (hop : ∀ e ∈ d, ∀ b, e.2.bg = some b → b.alpha = 1) (tb : Color) (force : Bool) :
    let w := Api.runAll env { scr := Screen.init width height cur fill } ops
    let r := writeBulk env (singles d).entries tb force w
    0 < w.scr.height →
    (∃ n, r.2 = .ok n) ∧ r.1.scr.offset = offsetAfter w.scr.height w.scr.offset d ∧
    ∀ x y, x < w.scr.width → y < w.scr.height →
      ∃ old, liftedCell w.scr.height (scrollsOf w.scr.height w.scr.offset d) w.scr.cells x y = some old ∧
        cellAt r.1.scr.cells x y =
          some (match (layersAt w.scr.width w.scr.height (landed w.scr.height w.scr.offset d) x y).getLast? with
            | none => old
            | some l => if (storedCell l.span l.shown).eq old then old else storedCell l.span l.shown) := by
  intro w r hh
  have hs : Shape w.scr.width w.scr.height w.scr.cells := runAll_shape env ops _ (resize_shape _ _ _ _ _)
  have hrs : CacheRs w.cache := runAll_cacheRs env ops _ (by intro e he; simp at he)
  obtain ⟨hits, w', h1, h2, h3, -, -, h6, h7, h8, h9, h10⟩ := putData_singles d hd Mats.blank w hrs hs hh
  have hr : r = ({ w' with scr := (commit env tb (hits.foldl Hit.put Mats.blank) w'.scr).1 }, (commit env tb (hits.foldl Hit.put Mats.blank) w'.scr).2) := by
    simp only [r, writeBulk, h1]
  have hs' : Shape w'.scr.width w'.scr.height w'.scr.cells := by rw [h2, h3]; exact h7
  obtain ⟨n, hn, hwr⟩ := commit_wrote env tb (hits.foldl Hit.put Mats.blank) w'.scr hs'
  have hop' : ∀ t ∈ hits, ∀ b, t.span.bg = some b → b.alpha = 1 := by
    intro t ht
    obtain ⟨e, he, h⟩ := h10 t ht
    rw [h]
    exact hop e he
  refine ⟨⟨n, by rw [hr]; exact hn⟩, by rw [hr, ← h6]; exact hwr.offset, ?_⟩
  intro x y hx hy
  have hold := h8 x y hx hy
  obtain ⟨old, ho⟩ := h7.exists_cell hx hy
  refine ⟨old, by rw [← hold, ho], ?_⟩
  obtain ⟨p1, p2⟩ := wrote_opaque hwr rfl hop' x y
  have hl := lastHit_layers (landed w.scr.height w.scr.offset d) hx hy
  rw [← h9, lastHit_bare, Option.map_map] at hl
  rw [hr]
  cases hlast : (layersAt w.scr.width w.scr.height (landed w.scr.height w.scr.offset d) x y).getLast? with
  | none =>
    rw [hlast] at hl
    simp only [Option.map_none, Option.map_eq_none_iff] at hl
    rw [p1 hl, ho]
  | some l =>
    rw [hlast] at hl
    simp only [Option.map_some] at hl
    obtain ⟨t, ht, e⟩ := Option.map_eq_some_iff.mp hl
    simp only [Function.comp, Hit.bare, Prod.mk.injEq] at e
    have := p2 t ht old ho
    have hst : rstrip (· == '\n') t.char = l.shown := by
      have e2 := e.2
      rw [← rstrip_letter, ← e2]
      simp only [stripNl, rstrip, List.reverse_reverse, dropWhile_twice]
    rw [e.1, hst] at this
    exact this

/-- The hypotheses are met by a call of three lines on a screen of two rows: the first line is not moved although the third one scrolls. -/
example :
    let w := Api.runAll {} { scr := Screen.init 2 2 } [.write [{ text := ['o'] }] (some (1, 1)) Color.black false]
    let d : List ((Int × Int) × Span) := [((0, 0), { text := ['a'] }), ((0, 1), { text := ['b'] }), ((0, 2), { text := ['c'] })]
    let r := writeBulk {} (singles d).entries Color.black false w
    (∀ e ∈ d, '\n' ∉ e.2.text ∧ e.2.text ≠ []) ∧ 0 < w.scr.height ∧ scrollsOf 2 0 d = 1 ∧
    r.1.scr.cells.map (·.map (·.char)) = [[['a'], ['o']], [['c'], []]] := by
  decide +kernel

/-! ## Logs -/

/-- The lines of a log: line `k` is written at logical row `k`. -/
def logLines (ls : List Span) : List ((Int × Int) × Span) := ls.mapIdx fun k s => ((0, (k : Int)), s)

/-- The lines of a log from number `k` on. -/
def logFrom : Nat → List Span → List ((Int × Int) × Span)
  | _, [] => []
  | k, s :: ls => ((0, (k : Int)), s) :: logFrom (k + 1) ls

theorem logLines_from (ls : List Span) : logLines ls = logFrom 0 ls := by
  have h : ∀ k, (ls.mapIdx fun i s => (((0 : Int), ((k + i : Nat) : Int)), s)) = logFrom k ls := by
    induction ls with
    | nil => intro k; rfl
    | cons s ls ih =>
      intro k
      rw [List.mapIdx_cons, logFrom, ← ih (k + 1)]
      simp only [Nat.add_zero, List.cons.injEq, true_and]
      congr 1
      funext i s
      congr 3
      omega
  rw [← h 0]
  unfold logLines
  congr 1
  funext i s
  simp

theorem logFrom_lands (h : Nat) (hh : 0 < h) (ls : List Span) : ∀ k : Nat,
    landed h ((k - h : Nat) : Int) (logFrom k ls) = (ls.mapIdx fun i s => (((0 : Int), ((min (k + i) (h - 1) : Nat) : Int)), [s])) ∧
    offsetAfter h ((k - h : Nat) : Int) (logFrom k ls) = ((k + ls.length - h : Nat) : Int) ∧
    scrollsOf h ((k - h : Nat) : Int) (logFrom k ls) = (k + ls.length - h) - (k - h) := by
  induction ls with
  | nil => intro k; exact ⟨rfl, rfl, by simp [logFrom, scrollsOf]⟩
  | cons s ls ih =>
    intro k
    obtain ⟨i1, i2, i3⟩ := ih (k + 1)
    have hm : (fun (i : Nat) (s : Span) => (((0 : Int), ((min (k + 1 + i) (h - 1) : Nat) : Int)), [s])) =
        fun i s => (((0 : Int), ((min (k + (i + 1)) (h - 1) : Nat) : Int)), [s]) := by
      funext i s
      rw [show k + 1 + i = k + (i + 1) by omega]
    rw [hm] at i1
    rw [logFrom, landed, offsetAfter, scrollsOf, List.mapIdx_cons]
    by_cases hk : k < h
    · have e : ((k + 1 - h : Nat) : Int) = ((k - h : Nat) : Int) := by omega
      rw [e] at i1 i2 i3
      rw [if_pos (by omega), if_pos (by omega), if_pos (by omega), i1, i2, i3]
      refine ⟨?_, by simp only [List.length_cons]; omega, by simp only [List.length_cons]; omega⟩
      congr 3
      omega
    · have e : ((k + 1 - h : Nat) : Int) = (k : Int) - h + 1 := by omega
      rw [e] at i1 i2 i3
      rw [if_neg (by omega), if_neg (by omega), if_neg (by omega), i1, i2, i3]
      refine ⟨?_, by simp only [List.length_cons]; omega, by simp only [List.length_cons]; omega⟩
      congr 3
      omega

theorem covering_plain {w : Nat} {ls : List Layer} (h : ∀ l ∈ ls, l.letter ≠ ['\n']) : ∀ k, covering w ls k = ls[k]? := by
  induction ls with
  | nil => intro k; simp [covering]
  | cons l ls ih =>
    intro k
    rw [covering, if_neg (h l (by simp))]
    cases k with
    | zero => simp
    | succ k => simpa using ih (fun l hl => h l (by simp [hl])) k

theorem lineLayers_plain {s : Span} (hnl : '\n' ∉ s.text) : ∀ l ∈ lineLayers [s], l.letter ≠ ['\n'] := by
  intro l hl
  have hm : l.letter ∈ s.cellChars := by rw [cellChars_letters]; exact List.mem_map_of_mem hl
  exact (chars_no_break hnl (cellChars_strip hnl)).1 _ hm

/-- The cells that a line covers which fits into a row. -/
theorem layersAt_row {w h row : Nat} {s : Span} (hnl : '\n' ∉ s.text) (hlen : s.text.length ≤ w) (hrow : row < h) {x y : Nat} (hx : x < w) (hy : y < h) :
    layersAt w h [(((0 : Int), (row : Int)), [s])] x y = (if y = row then (s.text[x]?).map fun c => (⟨s, x, c⟩ : Layer) else none).toList := by
  have hlay : ∀ k, (lineLayers [s])[k]? = (s.text[k]?).map fun c => (⟨s, k, c⟩ : Layer) := by
    intro k
    simp [lineLayers, List.getElem?_mapIdx]
  have hw : 0 < w := by omega
  have := layersAt_index hx hy (row * w) [s]
  rw [Nat.mul_mod_left, Nat.mul_div_cancel _ hw] at this
  rw [show ((0 : Int), (row : Int)) = (((0 : Nat) : Int), (row : Int)) from rfl, this, covering_plain (lineLayers_plain hnl), hlay]
  congr 1
  by_cases e : y = row
  · subst e
    rw [if_pos (by omega), if_pos rfl, show y * w + x - y * w = x by omega]
  · rw [if_neg e]
    split_ifs with h1
    · have hlt : row < y := by
        by_contra hc
        have := Nat.mul_le_mul_right w (show y + 1 ≤ row by omega)
        rw [Nat.add_mul, Nat.one_mul] at this
        omega
      have := Nat.mul_le_mul_right w (show row + 1 ≤ y by omega)
      rw [Nat.add_mul, Nat.one_mul] at this
      rw [List.getElem?_eq_none (by omega)]
      rfl
    · rfl

theorem layersAt_nil {w h : Nat} {d : Data} {x y : Nat} (hd : ∀ e ∈ d, layersAt w h [e] x y = []) : layersAt w h d x y = [] := by
  induction d with
  | nil => rfl
  | cons e d ih =>
    rw [show e :: d = [e] ++ d from rfl, layersAt_append, hd e (by simp), ih fun e he => hd e (by simp [he])]
    rfl

/-- **C117** (partial: logs of lines that fit into a row). What a log that is written by one call leaves on a new screen: the first `height - 1`
lines stay where they were written, and all others are piled up in the last row. -/
theorem C117_log_partial (env : Color.Env) (width height : Nat) (hh : 0 < height) (cur : Int × Int) (fill : Str) (tb : Color) (force : Bool)
    (ls : List Span) (hls : ∀ s ∈ ls, '\n' ∉ s.text ∧ s.text ≠ [] ∧ s.text.length ≤ width ∧ ∀ b, s.bg = some b → b.alpha = 1) :
    let r := writeBulk env (singles (logLines ls)).entries tb force { scr := Screen.init width height cur fill }
    (∃ n, r.2 = .ok n) ∧ r.1.scr.offset = ((ls.length - height : Nat) : Int) ∧
    (∀ k s j c, ls[k]? = some s → k + 1 < height → s.text[j]? = some c → cellAt r.1.scr.cells j k = some (storedCell s (styledChar s j c))) ∧
    (∀ k s j c, ls[k]? = some s → height ≤ k + 1 → s.text[j]? = some c → (∀ k' s', k < k' → ls[k']? = some s' → s'.text.length ≤ j) →
      cellAt r.1.scr.cells j (height - 1) = some (storedCell s (styledChar s j c))) := by
  intro r
  obtain ⟨l1, l2, l3⟩ := logFrom_lands height hh ls 0
  rw [← logLines_from] at l1 l2 l3
  have hmem : ∀ e ∈ logLines ls, e.2 ∈ ls := by
    intro e he
    obtain ⟨i, hi, rfl⟩ := List.mem_mapIdx.mp he
    exact List.getElem_mem hi
  obtain ⟨h1, h2, h3⟩ := C117_cells_partial env width height cur fill [] (logLines ls) (fun e he => ⟨(hls _ (hmem e he)).1, (hls _ (hmem e he)).2.1⟩)
    (fun e he => (hls _ (hmem e he)).2.2.2) tb force hh
  have hoff : (Api.runAll env { scr := Screen.init width height cur fill } []).scr.offset = ((0 - height : Nat) : Int) := by
    simp [Api.runAll, Screen.init, Screen.resize]
  have hhei : (Api.runAll env { scr := Screen.init width height cur fill } []).scr.height = height := rfl
  have hwid : (Api.runAll env { scr := Screen.init width height cur fill } []).scr.width = width := rfl
  rw [hoff, hhei, hwid, l1, l3] at h3
  rw [hoff, hhei, l2] at h2
  have key : ∀ k s j c, ls[k]? = some s → s.text[j]? = some c → (∀ k' s', k < k' → min k' (height - 1) = min k (height - 1) → ls[k']? = some s' → s'.text.length ≤ j) →
      cellAt r.1.scr.cells j (min k (height - 1)) = some (storedCell s (styledChar s j c)) := by
    intro k s j c hk hj hlast
    obtain ⟨hnl, -, hlen, -⟩ := hls s (List.mem_of_getElem? hk)
    have hjl := (List.getElem?_eq_some_iff.mp hj).1
    obtain ⟨old, ho, hc⟩ := h3 j (min k (height - 1)) (by omega) (by omega)
    have hlay : (layersAt width height (ls.mapIdx fun i s => (((0 : Int), ((min (0 + i) (height - 1) : Nat) : Int)), [s])) j (min k (height - 1))).getLast? =
        some ⟨s, j, c⟩ := by
      have hkl := (List.getElem?_eq_some_iff.mp hk).1
      have hsplit : ls = ls.take k ++ ([s] ++ ls.drop (k + 1)) := by
        conv_lhs => rw [← List.take_append_drop k ls, List.drop_eq_getElem_cons hkl, (List.getElem?_eq_some_iff.mp hk).2]
        rfl
      have hm : (ls.mapIdx fun i s => (((0 : Int), ((min (0 + i) (height - 1) : Nat) : Int)), [s])) =
          ((ls.take k).mapIdx fun i s => (((0 : Int), ((min (0 + i) (height - 1) : Nat) : Int)), [s])) ++
          ([(((0 : Int), ((min k (height - 1) : Nat) : Int)), [s])] ++
            (ls.drop (k + 1)).mapIdx fun i s => (((0 : Int), ((min (k + 1 + i) (height - 1) : Nat) : Int)), [s])) := by
        conv_lhs => rw [hsplit]
        rw [List.mapIdx_append]
        congr 1
        have e : (ls.take k).length = k := by rw [List.length_take]; omega
        rw [e, List.singleton_append, List.mapIdx_cons, List.singleton_append]
        congr 1
        · simp
        · congr 1
          funext i s
          congr 3
          omega
      rw [hm, layersAt_append, layersAt_append, layersAt_nil (d := (ls.drop (k + 1)).mapIdx _), List.append_nil,
        layersAt_row hnl hlen (by omega) (by omega) (by omega), if_pos rfl, hj]
      · simp
      · intro e he
        obtain ⟨i, hi, rfl⟩ := List.mem_mapIdx.mp he
        rw [List.length_drop] at hi
        rw [List.getElem_drop]
        have hk' : ls[k + 1 + i]? = some ls[k + 1 + i] := List.getElem?_eq_getElem (by omega)
        obtain ⟨hnl', -, hlen', -⟩ := hls _ (List.mem_of_getElem? hk')
        rw [layersAt_row hnl' hlen' (by omega) (by omega) (by omega)]
        split_ifs with e
        · rw [List.getElem?_eq_none (hlast (k + 1 + i) _ (by omega) e.symm hk')]
          rfl
        · rfl
    rw [hlay] at hc
    simp only at hc
    have hshown : (⟨s, j, c⟩ : Layer).shown = styledChar s j c := by
      rw [← rstrip_letter]
      exact rstrip_styledChar hnl hj
    have hne : (storedCell s (styledChar s j c)).eq old = false := by
      obtain ⟨f, hf⟩ := storedCell_fg s (styledChar s j c)
      have hfg : old.fg = none := by
        unfold liftedCell at ho
        split_ifs at ho with h
        · have := init_cellAt width height cur fill j (min k (height - 1) + (0 + ls.length - height - (0 - height))) (by omega) h
          have ho : cellAt (Screen.init width height cur fill).cells j (min k (height - 1) + (0 + ls.length - height - (0 - height))) = some old := ho
          rw [this] at ho
          injection ho with ho
          rw [← ho]
        · injection ho with ho
          rw [← ho]
      simp [Cell.eq, hf, hfg, Span.optEq]
    rw [hshown, hne] at hc
    exact hc
  refine ⟨h1, by rw [Nat.zero_add] at h2; exact h2, ?_, ?_⟩
  · intro k s j c hk hkh hj
    have := key k s j c hk hj (fun k' s' h1 h2 _ => by omega)
    rwa [show min k (height - 1) = k by omega] at this
  · intro k s j c hk hkh hj hl
    have := key k s j c hk hj (fun k' s' h1 _ h3 => hl k' s' h1 h3)
    rwa [show min k (height - 1) = height - 1 by omega] at this

/-- **C117 violated** by every log that is longer than the screen: written by one call, it shows its first lines, where writing each line by a call of its own
shows the last ones. So the screens differ wherever these lines do. -/
theorem C117_log_violated (env : Color.Env) (width height : Nat) (hw : 0 < width) (hh : 0 < height) (cur : Int × Int) (fill : Str) (tb : Color) (force : Bool)
    (ls : List Span) (hls : ∀ s ∈ ls, '\n' ∉ s.text ∧ s.text ≠ [] ∧ s.text.length ≤ width ∧ ∀ b, s.bg = some b → b.alpha = 1)
    (k j : Nat) (s t : Span) (c d : Char) (hk : k + 1 < height) (hs : ls[k]? = some s) (ht : ls[k + (ls.length - height)]? = some t)
    (hc : s.text[j]? = some c) (hd : t.text[j]? = some d) :
    let once := (writeBulk env (singles (logLines ls)).entries tb force { scr := Screen.init width height cur fill }).1
    let each := Api.runAll env { scr := Screen.init width height cur fill } (logHistory tb force ls)
    once.scr.offset = each.scr.offset ∧ cellAt once.scr.cells j k = some (storedCell s (styledChar s j c)) ∧
      cellAt each.scr.cells j k = some (storedCell t (styledChar t j d)) := by
  intro once each
  obtain ⟨-, h2, h3, -⟩ := C117_log_partial env width height hh cur fill tb force ls hls
  obtain ⟨-, -, g3, g4, -⟩ := C16_log_partial env width height hw hh cur fill tb force ls hls
  refine ⟨h2.trans g3.symm, h3 k s j c hs hk hc, ?_⟩
  have := g4 (k + (ls.length - height)) t j d ht (by omega) hd
  rwa [Nat.add_sub_cancel] at this

/-- The hypotheses are met by a log of four lines on a screen of two rows, which shows lines 0 and 3 instead of lines 2 and 3. -/
example :
    let ls : List Span := [{ text := ['a'] }, { text := ['b'] }, { text := ['c'] }, { text := ['d'] }]
    let once := (writeBulk {} (singles (logLines ls)).entries Color.black false { scr := Screen.init 1 2 }).1
    let each := Api.runAll {} { scr := Screen.init 1 2 } (logHistory Color.black false ls)
    (∀ s ∈ ls, '\n' ∉ s.text ∧ s.text ≠ [] ∧ s.text.length ≤ 1 ∧ s.bg = none) ∧ 0 + 1 < 2 ∧ 2 < ls.length ∧
    once.scr.cells.map (·.map (·.char)) = [[['a']], [['d']]] ∧ each.scr.cells.map (·.map (·.char)) = [[['c']], [['d']]] := by
  decide +kernel

end Slate
