import Verif.Lemmas.LogDraw
import Verif.Props.Bounded

/-!
# C99 for logs: what a terminal with margins shows when line `k` of a log is written at row `k` and drawn

`C99_margins_partial` covers the histories that do not scroll. Here is the usual way to make a screen scroll, for logs of any length,
screens of any size and terminals with or without rows below the screen.
-/

namespace Slate
open Py Term

/-! ## The terminal -/

/-- The grid after the characters of a line were printed from the left edge of row `row` of a screen at `(ox, oy)`. -/
def typed (den : Color → TColor) (ox oy : Nat) (s : Span) (row : Nat) (g : Nat → Nat → Glyph) : Nat → Nat → Glyph := fun r c =>
  if r = row + oy ∧ ox ≤ c then
    match s.text[c - ox]? with
    | some ch => cellGlyph den (storedCell s (styledChar s (c - ox) ch))
    | none => g r c
  else g r c

/-- The grid of a terminal of `H` rows after it scrolled by one row. -/
def movedUp (H : Nat) (g : Nat → Nat → Glyph) : Nat → Nat → Glyph := fun r c =>
  if r < H then g (r + 1) c else if r = H then { ch := ' ', attr := Attr.clean } else g r c

/-- What a terminal of `H` rows shows after the lines `k`, `k + 1`, ... of a log were written and drawn, by a screen of `h` rows at
`(ox, oy)`: a line that finds a free row goes there. Every other line is printed over the bottom row of the screen; if that is the last
row of the terminal, the terminal scrolls *afterwards*. -/
def logShows (den : Color → TColor) (ox oy H h : Nat) : Nat → List Span → (Nat → Nat → Glyph) → Nat → Nat → Glyph
  | _, [], g => g
  | k, s :: rest, g =>
    logShows den ox oy H h (k + 1) rest
      (if k < h then typed den ox oy s k g
       else if oy + h = H + 1 then movedUp H (typed den ox oy s (h - 1) g)
       else typed den ox oy s (h - 1) g)

/-- The calls: line `k` is written at row `k` and drawn. -/
def logCalls (tb : Color) (force : Bool) : Nat → List Span → List Op
  | _, [] => []
  | k, s :: rest => .write [s] (some (0, (k : Int))) tb force :: .draw :: logCalls tb force (k + 1) rest

/-! ## Drawing one line -/

/-- Drawing a line that was queued. -/
theorem draw_line {env : Color.Env} {den : Color → TColor} (hden : DenOk env den) {ox oy W H row : Nat} (hx : 1 ≤ ox) (hy : 1 ≤ oy)
    {scr : Screen} {s : Span} {nl : Bool} (hch : scr.changes.gather = lineChanges env s row nl) (hok : SpanOk env den s)
    (hnl : '\n' ∉ s.text) (hne : s.text ≠ []) (hW : ox + s.text.length ≤ W + 1) (hH : row + oy ≤ H)
    (T : State) (hm : T.mode = .ground) (hp : T.pen = Attr.clean) (g : Nat → Nat → Glyph)
    (hg : ∀ r c, Within W H r c → T.grid r c = g r c) :
    let T' := boundedRun W H T (scr.render (ox, oy)).2
    T'.mode = .ground ∧ T'.pen = Attr.clean ∧
    ∀ r c, Within W H r c → T'.grid r c =
      (if nl ∧ row + oy = H then movedUp H (typed den ox oy s row g) else typed den ox oy s row g) r c := by
  intro T'
  let G : Nat × Nat → Glyph := fun k => match s.text[k.1]? with
    | some ch => cellGlyph den (storedCell s (styledChar s k.1 ch))
    | none => { ch := ' ', attr := Attr.clean }
  have hmem : ∀ e ∈ lineChanges env s row false, e.1.2 = row ∧ e.1.1 < s.text.length ∧ Prints e.2 (G e.1) := by
    intro e he
    obtain ⟨j, hj⟩ := List.mem_iff_getElem?.mp he
    rw [lineChanges_getElem?] at hj
    obtain ⟨c, hc, rfl⟩ := Option.map_eq_some_iff.mp hj
    refine ⟨rfl, (List.getElem?_eq_some_iff.mp hc).1, ?_⟩
    simp only [G, hc, Bool.false_and]
    exact prints_storedCell hden hok hnl hc
  have hpr : ∀ e ∈ lineChanges env s row false, Prints e.2 (G e.1) := fun e he => (hmem e he).2.2
  have hlne : lineChanges env s row false ≠ [] := by
    intro h
    have := lineChanges_length env s row false
    rw [h] at this
    exact hne (List.length_eq_zero_iff.mp this.symm)
  obtain ⟨r1, r2, r3, r4, r5⟩ := run_renderGo ox oy hx hy G _ hpr none T hm hp (by simp)
  have r6 := run_renderGo_row ox oy hx hy G _ hpr row (fun e he => (hmem e he).1) none T hm hp (by simp) (.inl hlne)
  have hflat : Flat (renderGo (ox, oy) none (lineChanges env s row false)) := by
    have key : ∀ (l : Changes) (prev : Option (Int × Int)), (∀ e ∈ l, Flat e.2) → Flat (renderGo (ox, oy) prev l) := by
      intro l
      induction l with
      | nil => exact fun _ _ => .nil
      | cons e l ih =>
        obtain ⟨⟨x, y⟩, str⟩ := e
        intro prev hl
        unfold renderGo
        refine Flat.append (Flat.append ?_ (hl ((x, y), str) (by simp))) (ih _ fun e he => hl e (by simp [he]))
        split
        · split
          · exact .nil
          · exact flat_cursor _ _
        · exact flat_cursor _ _
    exact key _ _ fun e he => (hpr e he).flat
  have hal : Alike W H T T := ⟨rfl, rfl, fun _ => ⟨rfl, rfl⟩, fun _ => rfl, fun _ _ _ => rfl⟩
  have ha := hal.run _ hflat.not_mem.1 hflat.not_mem.2 _ r5 (by
    intro p hp
    obtain ⟨k, hk, rfl⟩ := List.mem_map.mp hp
    rw [lineChanges_keys] at hk
    obtain ⟨j, hj, rfl⟩ := List.mem_map.mp hk
    have := List.mem_range.mp hj
    unfold Within
    simp only
    omega)
  generalize hA : renderGo (ox, oy) none (lineChanges env s row false) = A at *
  generalize hU : run T A = U at *
  generalize hB : boundedRun W H T A = B at *
  have bm : B.mode = .ground := by rw [ha.mode, r1]
  have bp : B.pen = Attr.clean := by rw [ha.pen, r2]
  have br : B.row = row + oy := by rw [ha.row (by rw [r6]; exact hH), r6]
  have bg : ∀ r c, Within W H r c → B.grid r c = typed den ox oy s row g r c := by
    intro r c hrc
    rw [ha.grid r c hrc]
    unfold typed
    by_cases h1 : r = row + oy ∧ ox ≤ c
    · rw [if_pos h1]
      obtain ⟨rfl, h2⟩ := h1
      cases hc : s.text[c - ox]? with
      | some ch =>
        have hk := r3 (c - ox, row) (by
          rw [lineChanges_keys]
          exact List.mem_map.mpr ⟨c - ox, List.mem_range.mpr (List.getElem?_eq_some_iff.mp hc).1, rfl⟩)
        simp only [G, hc] at hk
        rw [Nat.sub_add_cancel h2] at hk
        exact hk
      | none =>
        rw [r4 _ _ (fun k hk => by
          rw [lineChanges_keys] at hk
          obtain ⟨j, hj, rfl⟩ := List.mem_map.mp hk
          have := List.mem_range.mp hj
          have := List.getElem?_eq_none_iff.mp hc
          simp only
          omega)]
        exact hg _ _ hrc
    · rw [if_neg h1, r4 _ _ (fun k hk => by
          rw [lineChanges_keys] at hk
          obtain ⟨j, hj, rfl⟩ := List.mem_map.mp hk
          simp only
          omega)]
      exact hg _ _ hrc
  -- the end of the output
  have hend : ∀ S : State, S.mode = .ground → S.pen = Attr.clean → ∀ P : List Char, boundedRun W H T P = S →
      boundedRun W H T (if endsWith P RESET then P else P ++ RESET) = S := by
    intro S s1 s2 P hP
    split
    · exact hP
    · rw [boundedRun_append, hP, boundedRun_reset W H S s1 s2]
  have hbuf : (scr.render (ox, oy)).2 =
      if endsWith (A ++ (if nl then ['\n'] else [])) RESET then A ++ (if nl then ['\n'] else [])
      else A ++ (if nl then ['\n'] else []) ++ RESET := by
    unfold Screen.render
    simp only [Bool.false_eq_true, if_false]
    rw [hch, renderGo_lineChanges env s hne row nl, hA]
  cases nl with
  | false =>
    have e : T' = B := by
      simp only [T', hbuf]
      exact hend B bm bp _ (by simpa using hB)
    rw [e]
    refine ⟨bm, bp, ?_⟩
    simpa using bg
  | true =>
    have e0 : boundedRun W H T (A ++ ['\n']) = lineFeed H B := by
      rw [boundedRun_append, hB]
      simp only [boundedRun, List.foldl_cons, List.foldl_nil]
      unfold boundedStep
      rw [bm]
      simp
    have lm : (lineFeed H B).mode = .ground := by unfold lineFeed; split <;> exact bm
    have lp : (lineFeed H B).pen = Attr.clean := by unfold lineFeed; split <;> exact bp
    have e : T' = lineFeed H B := by
      simp only [T', hbuf]
      exact hend _ lm lp _ e0
    rw [e]
    refine ⟨lm, lp, ?_⟩
    intro r c hrc
    unfold lineFeed
    rw [br]
    by_cases h : row + oy = H
    · rw [if_neg (by omega), if_pos (by simp [h])]
      unfold movedUp
      simp only
      unfold Within at hrc
      split_ifs with h1
      · exact bg _ _ ⟨by omega, by omega, by omega, by omega⟩
      · rfl
      · omega
    · rw [if_pos (by omega), if_neg (by simp [h])]
      exact bg r c hrc

/-! ## Writing one line -/

/-- The screen after `k` lines of a log. -/
structure LogAt (w h k : Nat) (W : World) : Prop where
  width : W.scr.width = w
  height : W.scr.height = h
  shape : Shape w h W.scr.cells
  offset : W.scr.offset = ((k - h : Nat) : Int)
  queue : W.scr.changes = []
  free : ∀ x y, x < w → k ≤ y → y < h → ∃ c, cellAt W.scr.cells x y = some c ∧ c.fg = none
  cache : ∃ B, CacheWithin W.cache B ∧ (k ≤ h → ∀ s, B s = 0)

/-- Writing a line of a log: the queue, the cells, and the next state. -/
theorem LogAt.write {env : Color.Env} {den : Color → TColor} {w h k : Nat} {W : World} (hi : LogAt w h k W) (hw : 0 < w) (hh : 0 < h)
    {s : Span} (hok : SpanOk env den s) (hnl : '\n' ∉ s.text) (hne : s.text ≠ []) (hop : ∀ b, s.bg = some b → b.alpha = 1)
    (hlen : s.text.length ≤ w) (tb : Color) (force : Bool) (origin : Int × Int) :
    let W' := (Slate.write env [s] (some (0, (k : Int))) tb force W).1
    W'.scr.changes.gather = lineChanges env s (if k < h then k else h - 1) (decide (h ≤ k)) ∧
    LogAt w h (k + 1) { W' with scr := (W'.scr.render origin).1 } ∧
    (∀ x y, x < w → y < (if k < h then k else h - 1) →
      cellAt W'.scr.cells x y = cellAt W.scr.cells x (y + if k < h then 0 else 1)) ∧
    (∀ j c, s.text[j]? = some c →
      cellAt W'.scr.cells j (if k < h then k else h - 1) = some (storedCell s (styledChar s j c))) := by
  intro W'
  obtain ⟨i1, i2, i3, i4, i5, i6, B, i7, i8⟩ := hi
  have hs : Shape W.scr.width W.scr.height W.scr.cells := by rw [i1, i2]; exact i3
  have hcast : ∀ cs, Shape W.scr.width W.scr.height cs → Shape w h cs := fun cs hc => by rw [← i1, ← i2]; exact hc
  obtain ⟨⟨n, hn, hget⟩, hwc⟩ := i7.get s
  by_cases hk : k < h
  · -- a free row
    have hn0 : n = 0 := by have := i8 (by omega) s; omega
    subst hn0
    let m := (putChars W.scr.width W.scr.height s (W.cache.get s).1 { x := 0, y := (k : Int), last := 0 } Mats.blank).2
    have hput : putData [(some (0, (k : Int)), [s])] Mats.blank W = (m, { scr := W.scr, cache := (W.cache.get s).2 }, none) := by
      have e1 : (k : Int) - W.scr.offset = (k : Int) := by rw [i4]; omega
      simp only [putData, putSpans, List.length_cons, List.length_nil]
      rw [if_neg (by omega)]
      simp only [e1]
      rfl
    have hr : Slate.write env [s] (some (0, (k : Int))) tb force W =
        ({ scr := (commit env tb m W.scr).1, cache := (W.cache.get s).2 }, (commit env tb m W.scr).2) := by
      simp only [Slate.write, writeBulk, hput]
    obtain ⟨cnt, -, hwr⟩ := commit_wrote env tb m W.scr hs
    have hm : m = (charHits W.scr.width W.scr.height s (lengthened s.cellChars 0) (0 : Int) (k : Int)).foldl Hit.put Mats.blank := by
      simp only [m]
      rw [putChars_hits, hget]
    have e : W' = { scr := (commit env tb m W.scr).1, cache := (W.cache.get s).2 } := by simp only [W', hr]
    rw [hm] at hwr e
    obtain ⟨q1, q2, q3⟩ := line_wrote hwr hok hnl hop (by rw [i1]; exact hlen) (by rw [i1]; exact hw) (by rw [i2]; exact hk)
      (fun j hj => i6 j k (by omega) (le_refl _) hk) i5
    have hd : decide (h ≤ k) = false := by simp; omega
    rw [e]
    simp only [if_pos hk, hd]
    refine ⟨q1, ⟨?_, ?_, ?_, ?_, rfl, ?_, B, hwc, fun _ => i8 (by omega)⟩, ?_, q3⟩
    · exact hwr.width.trans i1
    · exact hwr.height.trans i2
    · exact hcast _ hwr.shape
    · have := hwr.offset
      rw [i4] at this
      refine this.trans ?_
      omega
    · intro x y hx h1 h2
      show ∃ c, cellAt (commit env tb _ W.scr).1.cells x y = some c ∧ c.fg = none
      rw [q2 x y (by omega)]
      exact i6 x y hx (by omega) h2
    · intro x y hx hy
      rw [q2 x y (by omega)]
      rfl
  · -- the screen is full
    obtain ⟨row0, rows, hcells⟩ : ∃ row0 rows, W.scr.cells = row0 :: rows := by
      cases hc : W.scr.cells with
      | nil => have := i3.rows; rw [hc] at this; simp at this; omega
      | cons a l => exact ⟨a, l, rfl⟩
    have hs2 : Shape W.scr.width W.scr.height (rows ++ [List.replicate W.scr.width { char := [] }]) := by
      rw [hcells] at hs; exact hs.scroll _
    let chars := appendNewline (W.cache.get s).1
    let scr2 : Screen := { W.scr with offset := (k : Int) - W.scr.height + 1,
                                      cells := rows ++ [List.replicate W.scr.width { char := [] }] }
    let m := (putChars W.scr.width W.scr.height s chars { x := 0, y := ((W.scr.height - 1 : Nat) : Int), last := 0 } Mats.blank).2
    have hchars : chars = lengthened s.cellChars (n + 1) := by
      simp only [chars]
      rw [hget, appendNewline_lengthened]
    have hlenpos : (W.cache.get s).1.isEmpty = false := by
      rw [hget, List.isEmpty_eq_false_iff]
      intro h0
      have := congrArg (·[0]?) h0
      simp only [lengthened_getElem?, cellChars_getElem?] at this
      cases ht : s.text with
      | nil => exact hne ht
      | cons a l => rw [ht] at this; simp at this
    have hput : putData [(some (0, (k : Int)), [s])] Mats.blank W =
        (m, { scr := scr2, cache := (W.cache.get s).2.assign s chars }, none) := by
      have e1 : ((k : Int) - ((k : Int) - (W.scr.height : Int) + 1)) = ((W.scr.height - 1 : Nat) : Int) := by omega
      simp only [putData, putSpans, List.length_cons, List.length_nil]
      rw [if_pos (by constructor <;> simp <;> omega)]
      simp only [hlenpos, Bool.false_eq_true, if_false, hcells, e1]
      rfl
    have hr : Slate.write env [s] (some (0, (k : Int))) tb force W =
        ({ scr := (commit env tb m scr2).1, cache := (W.cache.get s).2.assign s chars }, (commit env tb m scr2).2) := by
      simp only [Slate.write, writeBulk, hput]
    obtain ⟨cnt, -, hwr⟩ := commit_wrote env tb m scr2 hs2
    have hm : m = (charHits scr2.width scr2.height s (lengthened s.cellChars (n + 1)) (0 : Int) ((h - 1 : Nat) : Int)).foldl Hit.put
        Mats.blank := by
      simp only [m]
      rw [putChars_hits, hchars, i2]
    have e : W' = { scr := (commit env tb m scr2).1, cache := (W.cache.get s).2.assign s chars } := by simp only [W', hr]
    rw [hm] at hwr e
    have hold : ∀ x y, x < w → cellAt scr2.cells x y = if y + 1 = h then some { char := [] } else cellAt W.scr.cells x (y + 1) := by
      intro x y hx
      rw [hcells, ← i2]
      exact cellAt_scroll (hcells ▸ hs) _ x y (by rw [i1]; exact hx)
    have w2 : scr2.width = w := i1
    have h2 : scr2.height = h := i2
    obtain ⟨q1, q2, q3⟩ := line_wrote hwr hok hnl hop (by rw [w2]; exact hlen) (by rw [w2]; exact hw) (by rw [h2]; omega)
      (fun j hj => ⟨{ char := [] }, by rw [hold _ _ (by omega), if_pos (by omega)], rfl⟩) i5
    have hd : decide (h ≤ k) = true := by simp; omega
    have hd' : decide (0 < n + 1) = true := by simp
    rw [hd'] at q1
    rw [e]
    simp only [if_neg hk, hd]
    refine ⟨q1, ⟨?_, ?_, ?_, ?_, rfl, ?_, fun t => B t + if s = t then 1 else 0, ?_, fun hle => by omega⟩, ?_, q3⟩
    · exact hwr.width.trans i1
    · exact hwr.height.trans i2
    · exact hcast _ hwr.shape
    · refine hwr.offset.trans ?_
      show (k : Int) - W.scr.height + 1 = _
      rw [i2]
      omega
    · intro x y hx h1 h2'
      omega
    · exact (hwc.mono fun t => Nat.le_add_right _ _).assign ⟨n + 1, by simpa using hn, hchars⟩
    · intro x y hx hy
      rw [q2 x y (by omega), hold x y hx, if_neg (by omega)]

/-! ## The log -/

/-- A line that fits into a row. -/
structure LineOk (env : Color.Env) (den : Color → TColor) (w : Nat) (s : Span) : Prop where
  span : SpanOk env den s
  oneLine : '\n' ∉ s.text
  nonempty : s.text ≠ []
  solid : ∀ b, s.bg = some b → b.alpha = 1
  fits : s.text.length ≤ w

theorem log_from {env : Color.Env} {den : Color → TColor} (hden : DenOk env den) {ox oy W H w h : Nat} (hx : 1 ≤ ox) (hy : 1 ≤ oy)
    (hW : ox + w ≤ W + 1) (hH : oy + h ≤ H + 1) (hw : 0 < w) (hh : 0 < h) (tb : Color) (force : Bool) (ls : List Span)
    (hls : ∀ s ∈ ls, LineOk env den w s) (k : Nat) (sys : Sys) (hi : LogAt w h k sys.w)
    (hm : sys.term.mode = .ground) (hp : sys.term.pen = Attr.clean) (g : Nat → Nat → Glyph)
    (hg : ∀ r c, Within W H r c → sys.term.grid r c = g r c) :
    let sys' := boundedExecAll W H env (ox, oy) sys (logCalls tb force k ls)
    (∀ r c, Within W H r c → sys'.term.grid r c = logShows den ox oy H h k ls g r c) ∧
    LogAt w h (k + ls.length) sys'.w ∧
    (∀ x y, x < w → y + (k + ls.length - h - (k - h)) < min k h →
      cellAt sys'.w.scr.cells x y = cellAt sys.w.scr.cells x (y + (k + ls.length - h - (k - h)))) ∧
    (∀ i s j c, ls[i]? = some s → k + ls.length - h ≤ k + i → s.text[j]? = some c →
      cellAt sys'.w.scr.cells j (k + i - (k + ls.length - h)) = some (storedCell s (styledChar s j c))) := by
  induction ls generalizing k sys g with
  | nil =>
    intro sys'
    refine ⟨hg, hi, ?_, by simp⟩
    intro x y _ _
    have : k + ([] : List Span).length - h - (k - h) = 0 := by simp
    rw [this]
    rfl
  | cons s ls ih =>
    intro sys'
    obtain ⟨l1, l2, l3, l4, l5⟩ := hls s (by simp)
    obtain ⟨a1, a2, a3, a4⟩ := hi.write hw hh l1 l2 l3 l4 l5 tb force ((ox : Int), (oy : Int))
    obtain ⟨d1, d2, d3⟩ := draw_line hden hx hy a1 l1 l2 l3 (by omega) (W := W) (H := H) (by split <;> omega) sys.term hm hp g hg
    have b := ih (fun s hs => hls s (by simp [hs])) (k + 1)
      { w := { (Slate.write env [s] (some (0, (k : Int))) tb force sys.w).1 with
                scr := ((Slate.write env [s] (some (0, (k : Int))) tb force sys.w).1.scr.render ((ox : Int), (oy : Int))).1 },
        term := boundedRun W H sys.term
          ((Slate.write env [s] (some (0, (k : Int))) tb force sys.w).1.scr.render ((ox : Int), (oy : Int))).2 }
      a2 d1 d2 (if k < h then typed den ox oy s k g
       else if oy + h = H + 1 then movedUp H (typed den ox oy s (h - 1) g)
       else typed den ox oy s (h - 1) g) (by
        intro r c hrc
        simp only
        rw [d3 r c hrc]
        by_cases hk : k < h
        · have e' : ¬ h ≤ k := by omega
          simp [hk, e']
        · have e : (h - 1 + oy = H) = (oy + h = H + 1) := by apply propext; omega
          have e' : h ≤ k := by omega
          simp [hk, e, e'])
    obtain ⟨b1, b2, b3, b4⟩ := b
    simp only [List.length_cons]
    have ek : k + (ls.length + 1) = k + 1 + ls.length := by omega
    rw [ek]
    refine ⟨b1, b2, ?_, ?_⟩
    · intro x y hxw hyk
      by_cases hk : k < h
      · have e1 : k + 1 + ls.length - h - (k - h) = k + 1 + ls.length - h - (k + 1 - h) := by omega
        rw [e1] at hyk ⊢
        refine (b3 x y hxw (by omega)).trans ?_
        have := a3 x (y + (k + 1 + ls.length - h - (k + 1 - h))) hxw (by rw [if_pos hk]; omega)
        rw [if_pos hk] at this
        exact this
      · have e1 : k + 1 + ls.length - h - (k - h) = k + 1 + ls.length - h - (k + 1 - h) + 1 := by omega
        rw [e1] at hyk ⊢
        refine (b3 x y hxw (by omega)).trans ?_
        have := a3 x (y + (k + 1 + ls.length - h - (k + 1 - h))) hxw (by rw [if_neg hk]; omega)
        rw [if_neg hk] at this
        exact this
    · intro i t j c hi' hge hj
      cases i with
      | zero =>
        simp only [List.getElem?_cons_zero, Option.some.injEq] at hi'
        subst hi'
        have hjl := (List.getElem?_eq_some_iff.mp hj).1
        have h4 := a4 j c hj
        rw [← h4]
        by_cases hk : k < h
        · rw [if_pos hk]
          have hb := b3 j (k - (k + 1 + ls.length - h)) (by omega) (by omega)
          have he : k - (k + 1 + ls.length - h) + (k + 1 + ls.length - h - (k + 1 - h)) = k := by omega
          rw [he] at hb
          exact hb
        · rw [if_neg hk]
          have hb := b3 j (k - (k + 1 + ls.length - h)) (by omega) (by omega)
          have he : k - (k + 1 + ls.length - h) + (k + 1 + ls.length - h - (k + 1 - h)) = h - 1 := by omega
          rw [he] at hb
          exact hb
      | succ i =>
        have := b4 i t j c (by simpa using hi') (by omega) hj
        rw [show k + (i + 1) = k + 1 + i by omega]
        exact this

/-- The grid after an empty screen of `w` columns and `h` rows was drawn at `(ox, oy)`. -/
def emptied (ox oy w h : Nat) (fill : Char) (g : Nat → Nat → Glyph) : Nat → Nat → Glyph := fun r c =>
  if oy ≤ r ∧ r < oy + h ∧ ox ≤ c ∧ c < ox + w then { ch := fill, attr := Attr.clean } else g r c

/-- The first draw. -/
theorem first_draw {ox oy W H w h : Nat} (hx : 1 ≤ ox) (hy : 1 ≤ oy) (hW : ox + w ≤ W + 1) (hH : oy + h ≤ H + 1) (cur : Int × Int)
    {fill : Char} (hfill : Printable fill) (T : State) (hm : T.mode = .ground) (hp : T.pen = Attr.clean) :
    let T' := boundedRun W H T ((Screen.init w h cur [fill]).render (ox, oy)).2
    T'.mode = .ground ∧ T'.pen = Attr.clean ∧
    ∀ r c, Within W H r c → T'.grid r c = emptied ox oy w h fill T.grid r c := by
  intro T'
  have hs := Sync.init (fun _ => TColor.default) ox oy w h cur hfill T hm hp
  have ha := Alike.draw (W := W) (H := H) hx hy hs hW hH ⟨rfl, rfl, fun _ => ⟨rfl, rfl⟩, fun _ => rfl, fun _ _ _ => rfl⟩
  have hlook : ∀ k : Nat × Nat, List.lookup k (Screen.init w h cur [fill]).changes = if k ∈ positions w h then some [fill] else none :=
    fun k => foldl_insert_lookup (positions w h) [fill] [] k
  have hgl : cellGlyph (fun _ => TColor.default) { char := [fill] } = { ch := fill, attr := Attr.clean } := by
    unfold cellGlyph
    rw [show ∀ s : State, run s [fill] = step s fill from fun _ => rfl, step_print _ _ rfl hfill]
    rfl
  have hpr := prints_fill (fun _ => TColor.default) hfill
  rw [hgl] at hpr
  have hkeys : ∀ k, k ∈ (Screen.init w h cur [fill]).changes.keys ↔ k.1 < w ∧ k.2 < h := by
    intro k
    rw [← Changes.lookup_isSome, hlook, ← mem_positions (w := w) (h := h)]
    by_cases hk : k ∈ positions w h <;> simp [hk]
  obtain ⟨r1, r2, r3, r4, -⟩ := run_render ox oy hx hy (fun _ => { ch := fill, attr := Attr.clean }) (Screen.init w h cur [fill]) (by
    rintro ⟨k, str⟩ he
    have := hlook k
    rw [(Changes.lookup_eq_some_iff _ hs.nodup _ _).mpr he] at this
    split at this
    · injection this with this
      subst this
      exact hpr
    · cases this) T hm hp
  refine ⟨by rw [ha.mode, r1], by rw [ha.pen, r2], ?_⟩
  intro r c hrc
  rw [ha.grid r c hrc]
  unfold emptied
  split_ifs with hin
  · have := r3 (c - ox, r - oy) ((hkeys _).mpr (by constructor <;> simp only <;> omega))
    simp only at this
    rw [Nat.sub_add_cancel (by omega), Nat.sub_add_cancel (by omega)] at this
    exact this
  · refine r4 r c fun k hk => ?_
    have := (hkeys k).mp hk
    omega

/-- **C99**, partial (logs): on a terminal with margins that the screen fits into, after an empty screen was drawn and the lines of a log of any
length were written and drawn one after the other, the terminal shows exactly what `logShows` says, and the screen stores the last lines,
one per row. -/
theorem C99_log_partial (env : Color.Env) (den : Color → TColor) (hden : DenOk env den) (ox oy W H w h : Nat) (hx : 1 ≤ ox) (hy : 1 ≤ oy)
    (hW : ox + w ≤ W + 1) (hH : oy + h ≤ H + 1) (hw : 0 < w) (hh : 0 < h) (cur : Int × Int) (fill : Char) (hfill : Printable fill)
    (cache : CharCache) (hcache : CacheOk cache) (T : State) (hT : T.mode = .ground) (hpen : T.pen = Attr.clean) (tb : Color)
    (force : Bool) (ls : List Span) (hls : ∀ s ∈ ls, LineOk env den w s) :
    let sys := boundedExecAll W H env (ox, oy) { w := { scr := Screen.init w h cur [fill], cache := cache }, term := T }
      (.draw :: logCalls tb force 0 ls)
    (∀ r c, Within W H r c → sys.term.grid r c = logShows den ox oy H h 0 ls (emptied ox oy w h fill T.grid) r c) ∧
    (∀ i s j c, ls[i]? = some s → ls.length - h ≤ i → s.text[j]? = some c →
      cellAt sys.w.scr.cells j (i - (ls.length - h)) = some (storedCell s (styledChar s j c))) := by
  intro sys
  have h0 : LogAt w h 0 { scr := ((Screen.init w h cur [fill]).render ((ox : Int), (oy : Int))).1, cache := cache } := by
    refine ⟨rfl, rfl, resize_shape _ _ _ _ _, ?_, rfl, ?_, fun _ => 0, ?_, fun _ _ => rfl⟩
    · show (0 : Int) = _
      simp
    · intro x y hx _ hy
      exact ⟨_, init_cellAt w h cur [fill] x y hx hy, rfl⟩
    · intro e he
      exact ⟨0, le_refl _, by rw [lengthened_zero]; exact hcache e he⟩
  obtain ⟨d1, d2, d3⟩ := first_draw hx hy hW hH cur hfill T hT hpen
  obtain ⟨r1, -, -, r4⟩ := log_from hden hx hy hW hH hw hh tb force ls hls 0
    { w := { scr := ((Screen.init w h cur [fill]).render ((ox : Int), (oy : Int))).1, cache := cache },
      term := boundedRun W H T ((Screen.init w h cur [fill]).render ((ox : Int), (oy : Int))).2 } h0 d1 d2
    (emptied ox oy w h fill T.grid) d3
  refine ⟨r1, ?_⟩
  intro i s j c hi hge hj
  have := r4 i s j c hi (by omega) hj
  simp only [Nat.zero_add] at this
  exact this

/-! ## In closed form -/

/-- How a character of a line looks. -/
def lineGlyph (den : Color → TColor) (s : Span) (j : Nat) (c : Char) : Glyph := cellGlyph den (storedCell s (styledChar s j c))

theorem logShows_append (den : Color → TColor) (ox oy H h : Nat) (ls : List Span) (s : Span) (k : Nat) (g : Nat → Nat → Glyph) :
    logShows den ox oy H h k (ls ++ [s]) g = logShows den ox oy H h (k + ls.length) [s] (logShows den ox oy H h k ls g) := by
  induction ls generalizing k g with
  | nil => rfl
  | cons t ls ih =>
    simp only [List.cons_append, List.length_cons]
    rw [logShows, ih, show k + 1 + ls.length = k + (ls.length + 1) by omega]
    rfl

theorem typed_at (den : Color → TColor) (ox oy : Nat) (s : Span) (row : Nat) (g : Nat → Nat → Glyph) {j : Nat} {c : Char}
    (hj : s.text[j]? = some c) : typed den ox oy s row g (row + oy) (j + ox) = lineGlyph den s j c := by
  unfold typed
  rw [if_pos ⟨rfl, by omega⟩, Nat.add_sub_cancel, hj]
  rfl

theorem typed_other (den : Color → TColor) (ox oy : Nat) (s : Span) (row : Nat) (g : Nat → Nat → Glyph) {r c : Nat} (hr : r ≠ row + oy) :
    typed den ox oy s row g r c = g r c := by
  unfold typed
  rw [if_neg (by omega)]

/-- A terminal with rows below the screen: the first lines stay where they are, and the last line is in the bottom row. -/
theorem logShows_taller (den : Color → TColor) (ox oy H h : Nat) (hh : 0 < h) (hH : oy + h ≤ H) (g : Nat → Nat → Glyph) (ls : List Span)
    (i : Nat) (s : Span) (j : Nat) (c : Char) (hi : ls[i]? = some s) (hj : s.text[j]? = some c)
    (hlast : i + 1 < h ∨ i + 1 = ls.length) :
    logShows den ox oy H h 0 ls g (min i (h - 1) + oy) (j + ox) = lineGlyph den s j c := by
  induction ls using List.reverseRecOn generalizing i s j c with
  | nil => simp at hi
  | append_singleton ls t ih =>
    rw [logShows_append, Nat.zero_add]
    have hstep : logShows den ox oy H h ls.length [t] (logShows den ox oy H h 0 ls g) =
        typed den ox oy t (min ls.length (h - 1)) (logShows den ox oy H h 0 ls g) := by
      simp only [logShows]
      by_cases hk : ls.length < h
      · rw [if_pos hk, show min ls.length (h - 1) = ls.length by omega]
      · rw [if_neg hk, if_neg (by omega), show min ls.length (h - 1) = h - 1 by omega]
    rw [hstep]
    by_cases e : i = ls.length
    · subst e
      have : t = s := by simpa using hi
      subst this
      exact typed_at den ox oy t _ _ hj
    · have hlt : i < ls.length := by
        have := (List.getElem?_eq_some_iff.mp hi).1
        simp at this; omega
      rw [List.getElem?_append_left hlt] at hi
      have hlast' : i + 1 < h := by
        rcases hlast with h' | h'
        · exact h'
        · simp at h'; omega
      rw [typed_other den ox oy t _ _ (by omega)]
      exact ih i s j c hi hj (.inl hlast')

/-- A terminal that ends with the screen. -/
theorem logShows_same (den : Color → TColor) (ox oy H h : Nat) (hh : 0 < h) (hH : oy + h = H + 1) (g : Nat → Nat → Glyph)
    (ls : List Span) :
    (∀ i s j c, ls[i]? = some s → s.text[j]? = some c →
      (i < h → ls.length - h ≤ i → (ls.length ≤ h ∨ i + 1 < h) →
        logShows den ox oy H h 0 ls g (i - (ls.length - h) + oy) (j + ox) = lineGlyph den s j c) ∧
      (h ≤ i → ls.length - h + 1 ≤ i →
        logShows den ox oy H h 0 ls g (i - (ls.length - h + 1) + oy) (j + ox) = lineGlyph den s j c)) ∧
    (h < ls.length → ∀ c, logShows den ox oy H h 0 ls g (h - 1 + oy) c = { ch := ' ', attr := Attr.clean }) := by
  induction ls using List.reverseRecOn with
  | nil => simp
  | append_singleton ls t ih =>
    obtain ⟨ih1, ih2⟩ := ih
    rw [logShows_append, Nat.zero_add]
    generalize hD : logShows den ox oy H h 0 ls g = D at *
    simp only [logShows, List.length_append, List.length_singleton]
    by_cases hk : ls.length < h
    · rw [if_pos hk]
      refine ⟨?_, fun h' => by omega⟩
      intro i s j c hi hj
      refine ⟨?_, ?_⟩
      · intro _ _ _
        rw [show i - (ls.length + 1 - h) = i by omega]
        by_cases e : i = ls.length
        · subst e
          have : t = s := by simpa using hi
          subst this
          exact typed_at den ox oy t _ _ hj
        · have hlt : i < ls.length := by
            have := (List.getElem?_eq_some_iff.mp hi).1
            simp at this; omega
          rw [List.getElem?_append_left hlt] at hi
          rw [typed_other den ox oy t _ _ (by omega)]
          have := (ih1 i s j c hi hj).1 (by omega) (by omega) (.inl (by omega))
          rw [show i - (ls.length - h) = i by omega] at this
          exact this
      · intro h1 h2
        have := (List.getElem?_eq_some_iff.mp hi).1
        simp at this; omega
    · rw [if_neg hk, if_pos hH]
      have hup : ∀ y c, y + 1 < h → movedUp H (typed den ox oy t (h - 1) D) (y + oy) c = typed den ox oy t (h - 1) D (y + 1 + oy) c := by
        intro y c hy
        unfold movedUp
        rw [if_pos (by omega), show y + oy + 1 = y + 1 + oy by omega]
      constructor
      · intro i s j c hi hj
        have hil : i < ls.length + 1 := by
          have := (List.getElem?_eq_some_iff.mp hi).1
          simpa using this
        constructor
        · intro h1 h2 h3
          have hlt : i < ls.length := by omega
          rw [List.getElem?_append_left hlt] at hi
          rw [hup _ _ (by omega), typed_other den ox oy t _ _ (by omega)]
          have := (ih1 i s j c hi hj).1 (by omega) (by omega) (.inr (by omega))
          rw [show i - (ls.length + 1 - h) + 1 = i - (ls.length - h) by omega]
          exact this
        · intro h1 h2
          rw [hup _ _ (by omega)]
          by_cases e : i = ls.length
          · subst e
            have : t = s := by simpa using hi
            subst this
            rw [show ls.length - (ls.length + 1 - h + 1) + 1 = h - 1 by omega]
            exact typed_at den ox oy t _ _ hj
          · have hlt : i < ls.length := by omega
            rw [List.getElem?_append_left hlt] at hi
            rw [typed_other den ox oy t _ _ (by omega)]
            have := (ih1 i s j c hi hj).2 (by omega) (by omega)
            rw [show i - (ls.length + 1 - h + 1) + 1 = i - (ls.length - h + 1) by omega]
            exact this
      · intro _ c
        unfold movedUp
        rw [if_neg (by omega), if_pos (by omega)]

/-- **C99 violated** for every log that is longer than the screen, on a terminal that ends with the screen: the last row is blank although
the screen stores the last line there, and the lines after the first screenful are shown one row too high. (The line that filled the
last row of the first screenful is not shown anywhere.) -/
theorem C99_log_violated (env : Color.Env) (den : Color → TColor) (hden : DenOk env den) (ox oy W H w h : Nat) (hx : 1 ≤ ox) (hy : 1 ≤ oy)
    (hW : ox + w ≤ W + 1) (hH : oy + h = H + 1) (hw : 0 < w) (hh : 0 < h) (cur : Int × Int) (fill : Char)
    (hfill : Printable fill) (cache : CharCache) (hcache : CacheOk cache) (T : State) (hT : T.mode = .ground) (hpen : T.pen = Attr.clean) (tb : Color) (force : Bool)
    (ls : List Span) (hls : ∀ s ∈ ls, LineOk env den w s) (hlong : h < ls.length) :
    let sys := boundedExecAll W H env (ox, oy) { w := { scr := Screen.init w h cur [fill], cache := cache }, term := T }
      (.draw :: logCalls tb force 0 ls)
    (∀ i s j c, ls[i]? = some s → s.text[j]? = some c → ls.length - h ≤ i →
      cellAt sys.w.scr.cells j (i - (ls.length - h)) = some (storedCell s (styledChar s j c)) ∧
      (i + 1 < h → sys.term.grid (i - (ls.length - h) + oy) (j + ox) = lineGlyph den s j c) ∧
      (h ≤ i → ls.length - h < i → sys.term.grid (i - (ls.length - h) - 1 + oy) (j + ox) = lineGlyph den s j c)) ∧
    (∀ x, x < w → sys.term.grid (h - 1 + oy) (x + ox) = { ch := ' ', attr := Attr.clean }) := by
  intro sys
  obtain ⟨r1, r2⟩ := C99_log_partial env den hden ox oy W H w h hx hy hW (by omega) hw hh cur fill hfill cache hcache T hT hpen tb force ls hls
  obtain ⟨q1, q2⟩ := logShows_same den ox oy H h hh hH (emptied ox oy w h fill T.grid) ls
  refine ⟨?_, ?_⟩
  · intro i s j c hi hj hge
    have hil := (List.getElem?_eq_some_iff.mp hi).1
    have hjl := (List.getElem?_eq_some_iff.mp hj).1
    have hsl := (hls s (List.mem_of_getElem? hi)).fits
    refine ⟨r2 i s j c hi hge hj, ?_, ?_⟩
    · intro h1
      refine (r1 _ _ ?_).trans ((q1 i s j c hi hj).1 (by omega) hge (.inr h1))
      unfold Within; omega
    · intro h1 h2
      rw [show i - (ls.length - h) - 1 = i - (ls.length - h + 1) by omega]
      refine (r1 _ _ ?_).trans ((q1 i s j c hi hj).2 h1 (by omega))
      unfold Within; omega
  · intro x hxw
    refine (r1 _ _ ?_).trans (q2 hlong _)
    unfold Within; omega

/-- **C99 violated** for every log that is longer than the screen, on a terminal with rows below the screen: the screen stores the last
lines, the terminal shows the first ones, except in the bottom row. -/
theorem C99_log_taller_violated (env : Color.Env) (den : Color → TColor) (hden : DenOk env den) (ox oy W H w h : Nat) (hx : 1 ≤ ox)
    (hy : 1 ≤ oy) (hW : ox + w ≤ W + 1) (hH : oy + h ≤ H) (hw : 0 < w) (hh : 0 < h) (cur : Int × Int) (fill : Char)
    (hfill : Printable fill) (cache : CharCache) (hcache : CacheOk cache) (T : State) (hT : T.mode = .ground) (hpen : T.pen = Attr.clean) (tb : Color) (force : Bool)
    (ls : List Span) (hls : ∀ s ∈ ls, LineOk env den w s) (hlong : h < ls.length) :
    let sys := boundedExecAll W H env (ox, oy) { w := { scr := Screen.init w h cur [fill], cache := cache }, term := T }
      (.draw :: logCalls tb force 0 ls)
    (∀ y s j c, y < h → ls[ls.length - h + y]? = some s → s.text[j]? = some c →
      cellAt sys.w.scr.cells j y = some (storedCell s (styledChar s j c))) ∧
    (∀ y s j c, y + 1 < h → ls[y]? = some s → s.text[j]? = some c → sys.term.grid (y + oy) (j + ox) = lineGlyph den s j c) ∧
    (∀ s j c, ls.getLast? = some s → s.text[j]? = some c → sys.term.grid (h - 1 + oy) (j + ox) = lineGlyph den s j c) := by
  intro sys
  obtain ⟨r1, r2⟩ := C99_log_partial env den hden ox oy W H w h hx hy hW (by omega) hw hh cur fill hfill cache hcache T hT hpen tb force ls hls
  refine ⟨?_, ?_, ?_⟩
  · intro y s j c _ hi hj
    have := r2 _ s j c hi (by omega) hj
    rw [Nat.add_sub_cancel_left] at this
    exact this
  · intro y s j c hyh hi hj
    have hjl := (List.getElem?_eq_some_iff.mp hj).1
    have hsl := (hls s (List.mem_of_getElem? hi)).fits
    have := logShows_taller den ox oy H h hh hH (emptied ox oy w h fill T.grid) ls y s j c hi hj (.inl hyh)
    rw [show min y (h - 1) = y by omega] at this
    refine (r1 _ _ ?_).trans this
    unfold Within; omega
  · intro s j c hi hj
    rw [List.getLast?_eq_getElem?] at hi
    have hjl := (List.getElem?_eq_some_iff.mp hj).1
    have hsl := (hls s (List.mem_of_getElem? hi)).fits
    have := logShows_taller den ox oy H h hh hH (emptied ox oy w h fill T.grid) ls _ s j c hi hj (.inr (by omega))
    rw [show min (ls.length - 1) (h - 1) = h - 1 by omega] at this
    refine (r1 _ _ ?_).trans this
    unfold Within; omega

/-! ## Cases that meet the hypotheses -/

namespace C99ex
/-- Lines of plain text. -/
def lines (ls : List String) : List Span := ls.map fun l => { text := l.toList }

theorem lines_ok (w : Nat) (ls : List String) (h : ∀ l ∈ ls, (∀ c ∈ l.toList, Printable c) ∧ l.toList ≠ [] ∧ l.toList.length ≤ w) :
    ∀ s ∈ lines ls, LineOk {} trueColor w s := by
  intro s hs
  obtain ⟨l, hl, rfl⟩ := List.mem_map.mp hs
  obtain ⟨h1, h2, h3⟩ := h l hl
  refine ⟨⟨fun c hc => .inl (h1 c hc), by simp, by simp⟩, ?_, h2, by simp, h3⟩
  intro hm
  exact absurd (h1 _ hm).1 (by decide)
end C99ex

open C99ex in
/-- Six lines on a screen of three rows: what the screen stores, what a terminal of three rows shows, and what a taller one shows. -/
example : let ls := lines ["l0", "l1", "l2", "l3", "l4", "l5"]
    (∀ s ∈ ls, LineOk {} trueColor 2 s) ∧ 3 < ls.length ∧
    (let run := fun H => boundedExecAll 2 H {} (1, 1) { w := { scr := Screen.init 2 3 }, term := blank } (.draw :: logCalls Color.black false 0 ls)
     stored (run 3).w.scr = [[['l'], ['3']], [['l'], ['4']], [['l'], ['5']]] ∧
     shown 2 3 (run 3).term = ["l4".toList, "l5".toList, "  ".toList] ∧
     shown 2 3 (run 4).term = ["l0".toList, "l1".toList, "l5".toList]) := by
  refine ⟨lines_ok 2 _ ?_, by decide, by decide +kernel⟩
  unfold Printable
  decide +kernel

end Slate
