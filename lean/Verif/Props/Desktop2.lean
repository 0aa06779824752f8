import Verif.Props.Desktop
import Verif.Props.Shared
import Verif.Props.Apart
import Verif.Lemmas.LogDraw

/-!
# C121: every screen that scrolls with a character disturbs all other screens of the terminal
-/

namespace Slate
open Py Term

/-- Everything about writing one character inside the window, into a cell that holds another one. -/
theorem write_one_all (env : Color.Env) (tb : Color) (force : Bool) (w : World) (hs : Shape w.scr.width w.scr.height w.scr.cells) (s : Span)
    (g : Str) (hg : (w.cache.get s).1 = [g]) (hnl : g ≠ ['\n']) (x y : Nat) (hx : x < w.scr.width) (hy : y < w.scr.height)
    (hold : ∀ old, cellAt w.scr.cells x y = some old → old.char ≠ rstrip (· == '\n') g)
    (hbg : ∀ b, s.bg = some b → b.alpha = 1) :
    let w' := (write env [s] (some ((x : Int), (y : Int) + w.scr.offset)) tb force w).1
    let new := storedCell s (rstrip (· == '\n') g)
    w'.cache = (w.cache.get s).2 ∧ w'.scr.width = w.scr.width ∧ w'.scr.height = w.scr.height ∧ w'.scr.offset = w.scr.offset ∧
    Shape w.scr.width w.scr.height w'.scr.cells ∧ (w.scr.changes.keys.Nodup → w'.scr.changes.keys.Nodup) ∧
    (∀ x' y', cellAt w'.scr.cells x' y' = if (x', y') = (x, y) then some new else cellAt w.scr.cells x' y') ∧
    ∀ k, List.lookup k w'.scr.changes = if k = (x, y) then some (changeStr env new (endsWith g ['\n'])) else List.lookup k w.scr.changes := by
  intro w' new
  have hput : putData [(some ((x : Int), (y : Int) + w.scr.offset), [s])] Mats.blank w =
      (putCell Mats.blank s g x y, { w with cache := (w.cache.get s).2 }, none) := by
    unfold putData putSpans
    simp only
    rw [if_neg (by omega)]
    simp only [putSpans, putData, hg]
    unfold putChars
    rw [if_neg (by simp only; omega), if_neg hnl]
    simp only [putChars, show (y : Int) + w.scr.offset - w.scr.offset = (y : Int) by omega, Int.toNat_natCast]
  have hw' : w' = { scr := (commit env tb (putCell Mats.blank s g x y) w.scr).1, cache := (w.cache.get s).2 } := by
    show (write env [s] (some ((x : Int), (y : Int) + w.scr.offset)) tb force w).1 = _
    unfold write writeBulk
    rw [hput]
  obtain ⟨n, -, h⟩ := commit_wrote env tb (putCell Mats.blank s g x y) w.scr hs
  have hres : resolveCell tb [] { char := g, fg := s.fg, bg := s.bg, bleed := false } = new := resolveCell_opaque tb _ hbg
  obtain ⟨old, ho⟩ : ∃ old, cellAt w.scr.cells x y = some old := hs.exists_cell hx hy
  have hout : outcome tb (putCell Mats.blank s g x y) w.scr (x, y) = some (new, endsWith g ['\n']) := by
    unfold outcome putCell Mats.blank
    simp only [upd, and_self, if_true, ho, hres]
    rw [if_neg]
    intro he
    apply hold old ho
    simp only [Cell.eq, Bool.and_eq_true, decide_eq_true_eq] at he
    exact he.1.1.symm
  have hnone : ∀ k, k ≠ (x, y) → outcome tb (putCell Mats.blank s g x y) w.scr k = none := by
    rintro ⟨a, b⟩ hk
    have hab : ¬ (a = x ∧ b = y) := fun hh => hk (by rw [hh.1, hh.2])
    unfold outcome putCell Mats.blank
    simp only [upd, if_neg hab]
  rw [hw']
  refine ⟨rfl, h.width, h.height, h.offset, h.shape, h.nodup, fun x' y' => ?_, fun k => ?_⟩
  · rw [h.cell]
    by_cases hk : (x', y') = (x, y)
    · rw [if_pos hk, hk, hout]; rfl
    · rw [if_neg hk, hnone _ hk]; rfl
  · rw [h.pending]
    by_cases hk : k = (x, y)
    · rw [if_pos hk, hk, hout]; rfl
    · rw [if_neg hk, hnone k hk]; rfl

/-- A line break between two neighbouring cells moves the second one to the beginning of the next row. -/
theorem run_break (ox oy : Nat) (hox : 1 ≤ ox) (hoy : 1 ≤ oy) (s : Screen) (hnd : s.changes.keys.Nodup) (x y : Nat) (a b : Str)
    (hl : ∀ k, List.lookup k s.changes = if k = (x + 1, y) then some b else if k = (x, y) then some (a ++ ['\n']) else none)
    (g g' : Glyph) (ha : Prints a g) (hb : Prints b g') (T : State) (hm : T.mode = .ground) (hp : T.pen = Attr.clean) :
    (run T (s.render (ox, oy)).2).grid = setGrid (setGrid T.grid (y + oy) (x + ox) g) (y + oy + 1) 1 g' := by
  have hg : s.changes.gather = [((x, y), a ++ ['\n']), ((x + 1, y), b)] := by
    have e : Changes.gather [((x, y), a ++ ['\n']), ((x + 1, y), b)] = [((x, y), a ++ ['\n']), ((x + 1, y), b)] := by
      unfold Changes.gather
      apply List.Pairwise.insertionSort_eq
      simp [Changes.le]
    rw [← e]
    refine gather_congr hnd (by simp [Changes.keys]) fun k => ?_
    rw [hl]
    obtain ⟨k1, k2⟩ := k
    by_cases h1 : (k1, k2) = (x + 1, y)
    · cases h1
      rw [if_pos rfl, List.lookup_cons, beq_eq_false_iff_ne.mpr (by simp), List.lookup_cons_self]
    · by_cases h2 : (k1, k2) = (x, y)
      · cases h2
        rw [if_neg h1, if_pos rfl, List.lookup_cons_self]
      · rw [if_neg h1, if_neg h2, List.lookup_cons, beq_eq_false_iff_ne.mpr h2, List.lookup_cons, beq_eq_false_iff_ne.mpr h1]
        rfl
  have hgo : ∃ T' : State, run T (renderGo (ox, oy) none s.changes.gather) = T' ∧ T'.mode = .ground ∧ T'.pen = Attr.clean ∧
      T'.grid = setGrid (setGrid T.grid (y + oy) (x + ox) g) (y + oy + 1) 1 g' := by
    have e : renderGo (ox, oy) none s.changes.gather =
        cursorTo ((x + ox : Nat) : Int) ((y + oy : Nat) : Int) ++ (a ++ ('\n' :: b)) := by
      rw [hg]
      simp only [renderGo]
      rw [if_pos (show ((x + 1 : Nat) : Int) + (ox : Int) = (x : Int) + ox + 1 ∧ True by
        push_cast; exact ⟨by omega, trivial⟩)]
      push_cast
      simp
    rw [e, cursorTo_nat, run_cup _ _ _ _ hm, run_append,
      ha.run { T with row := max 1 (y + oy), col := max 1 (x + ox) } hm hp, run_cons]
    have hstep : ∀ S : State, S.mode = .ground → step S '\n' = { S with row := S.row + 1, col := 1 } := by
      intro S hS
      unfold step
      rw [hS]
      simp
    rw [hstep _ (by exact hm)]
    refine ⟨_, hb.run _ (by exact hm) (by exact hp), hm, hp, ?_⟩
    simp only
    rw [show max 1 (y + oy) = y + oy by omega, show max 1 (x + ox) = x + ox by omega]
  obtain ⟨T', h1, h2, h3, h4⟩ := hgo
  have hrun : run T (s.render (ox, oy)).2 = T' := by
    unfold Screen.render
    simp only [Bool.false_eq_true, if_false]
    split
    · exact h1
    · rw [run_append, h1]
      have := run_reset T' [] h2
      rw [List.append_nil] at this
      rw [this, ← h3]; rfl
  rw [hrun, h4]

theorem one_char (s : Span) (c : Char) (hc : s.text = [c]) (hnl : c ≠ '\n') :
    s.cellChars = [styledChar s 0 c] ∧ rstrip (· == '\n') (styledChar s 0 c) = styledChar s 0 c ∧
    rstrip (· == '\n') (styledChar s 0 c ++ ['\n']) = styledChar s 0 c ∧ styledChar s 0 c ≠ ['\n'] ∧ styledChar s 0 c ≠ [] := by
  have hstrip : rstrip (· == '\n') (styledChar s 0 c) = styledChar s 0 c :=
    rstrip_styledChar (by rw [hc]; simp [hnl.symm]) (j := 0) (by rw [hc]; rfl)
  refine ⟨?_, hstrip, by rw [rstrip_append_singleton rfl, hstrip], ?_, ?_⟩
  · apply List.ext_getElem?
    intro k
    rw [cellChars_getElem?, hc]
    cases k <;> simp
  · intro h
    rw [h] at hstrip
    exact absurd hstrip (by decide)
  · unfold styledChar
    simp only
    split
    · simp
    · split <;> simp

theorem Desktop.after_other (env : Color.Env) (org : Nat → Nat × Nat) (d : Desktop) (i j : Nat) (hij : i ≠ j) (op : Op) (ops : List Op) :
    let o := exec env ((org j).1, (org j).2) { w := { scr := d.scr j, cache := d.cache }, term := d.term } op
    let r := execAll env ((org i).1, (org i).2) { w := { scr := d.scr i, cache := o.w.cache }, term := o.term } ops
    let d' := d.runAll env org ((j, op) :: ops.map fun p => (i, p))
    d'.scr i = r.w.scr ∧ d'.term = r.term := by
  have key : ∀ (ops : List Op) (d : Desktop),
      let r := execAll env ((org i).1, (org i).2) { w := { scr := d.scr i, cache := d.cache }, term := d.term } ops
      (d.runAll env org (ops.map fun p => (i, p))).scr i = r.w.scr ∧ (d.runAll env org (ops.map fun p => (i, p))).term = r.term := by
    intro ops
    induction ops with
    | nil => intro d; exact ⟨rfl, rfl⟩
    | cons p ops ih =>
      intro d
      have := ih (d.run env org (i, p))
      rw [Desktop.run_self] at this
      exact this
  have := key ops (d.run env org (j, op))
  rw [Desktop.run_other env org d i j op hij] at this
  exact this

/-- C121 is violated whenever another screen scrolls with a character: if the character is then written to this screen and something next
to it, the second one is not shown at its place, where the terminal goes on showing what was there before, but at the beginning
of the next row. -/
theorem C121_every_violated (env : Color.Env) (den : Color → TColor) (hden : DenOk env den) (org : Nat → Nat × Nat) (d : Desktop)
    (i j : Nat) (hij : i ≠ j) (horg : 1 ≤ (org i).1 ∧ 1 ≤ (org i).2) (hsync : Sync den (org i).1 (org i).2 (d.scr i) d.term)
    (hcache : CacheOk d.cache) (s t : Span) (c e : Char) (hs : s.text = [c]) (ht : t.text = [e]) (hst : t ≠ s) (hc : c ≠ '\n') (he : e ≠ '\n')
    (hsok : SpanOk env den s) (htok : SpanOk env den t) (hsb : ∀ b, s.bg = some b → b.alpha = 1) (htb : ∀ b, t.bg = some b → b.alpha = 1)
    (tb : Color) (force : Bool) (x y : Nat) (hx : x + 1 < (d.scr i).width) (hy : y < (d.scr i).height)
    (hold : ∀ old, cellAt (d.scr i).cells x y = some old → old.char ≠ styledChar s 0 c)
    (hold' : ∀ old, cellAt (d.scr i).cells (x + 1) y = some old → old.char ≠ styledChar t 0 e)
    (x' y' : Int) (hy' : (d.scr j).offset + (d.scr j).height ≤ y') :
    let d' := d.runAll env org [(j, .write [s] (some (x', y')) tb force), (i, .draw),
      (i, .write [s] (some ((x : Int), (y : Int) + (d.scr i).offset)) tb force),
      (i, .write [t] (some (((x + 1 : Nat) : Int), (y : Int) + (d.scr i).offset)) tb force), (i, .draw)]
    ∃ old new, cellAt (d.scr i).cells (x + 1) y = some old ∧ cellAt (d'.scr i).cells (x + 1) y = some new ∧
      new.char = styledChar t 0 e ∧ d'.term.grid (y + (org i).2) (x + 1 + (org i).1) = cellGlyph den old ∧
      d'.term.grid (y + (org i).2 + 1) 1 = cellGlyph den new := by
  intro d'
  obtain ⟨cs1, cs2, cs3, cs4, cs5⟩ := one_char s c hs hc
  obtain ⟨ct1, ct2, -, ct4, -⟩ := one_char t e ht he
  have hD := hsync.draw horg.1 horg.2
  -- the cache after the other screen has scrolled
  obtain ⟨k1, hk1⟩ : ∃ k1, k1 = (write env [s] (some (x', y')) tb force { scr := d.scr j, cache := d.cache }).1.cache := ⟨_, rfl⟩
  have hget : (d.cache.get s).1 = s.cellChars := ((hcache.on fun _ => True).get s trivial).1
  have hk1s : (k1.get s).1 = [styledChar s 0 c ++ ['\n']] := by
    have hsc := (C18_scroll_violated env { scr := d.scr j, cache := d.cache } s
      (by show (d.cache.get s).1 ≠ []; rw [hget, cs1]; simp) tb force x' y' hy').1
    rw [hk1]
    refine Eq.trans (b := appendNewline (d.cache.get s).1) hsc ?_
    rw [hget, cs1]; rfl
  have hk1t : CacheOkOn (fun u => u ≠ s) k1 := by
    rw [hk1]
    exact run_okOn env { scr := d.scr j, cache := d.cache } (.write [s] (some (x', y')) tb force) (hcache.on _)
      (.inl ⟨by simp, trivial⟩)
  -- the first draw
  obtain ⟨T1, hT1⟩ : ∃ T1, T1 = run d.term ((d.scr i).render ((org i).1, (org i).2)).2 := ⟨_, rfl⟩
  obtain ⟨s1, hs1⟩ : ∃ s1, s1 = ((d.scr i).render ((org i).1, (org i).2)).1 := ⟨_, rfl⟩
  rw [← hT1, ← hs1] at hD
  have r1 : s1.width = (d.scr i).width := by rw [hs1]; rfl
  have r2 : s1.height = (d.scr i).height := by rw [hs1]; rfl
  have r3 : s1.offset = (d.scr i).offset := by rw [hs1]; rfl
  have r4 : s1.cells = (d.scr i).cells := by rw [hs1]; rfl
  have r5 : s1.changes = [] := by rw [hs1]; rfl
  have w2 := write_one_all env tb force { scr := s1, cache := k1 } hD.shape s _ hk1s
    (by intro hh; have := congrArg List.length hh; simp at this; exact cs5 this) x y
    (by show x < s1.width; rw [r1]; omega) (by show y < s1.height; rw [r2]; exact hy) (by rw [cs3]; show ∀ old, cellAt s1.cells x y = _ → _; rw [r4]; exact hold) hsb
  simp only [r1, r2, r3, r4, r5] at w2
  obtain ⟨v2, hv2⟩ : ∃ v2, v2 = (write env [s] (some ((x : Int), (y : Int) + (d.scr i).offset)) tb force { scr := s1, cache := k1 }).1 := ⟨_, rfl⟩
  rw [← hv2] at w2
  obtain ⟨a1, a2, a3, a4, a5, a6, a7, a8⟩ := w2
  have hk2t : (v2.cache.get t).1 = [styledChar t 0 e] := by
    rw [a1, ((hk1t.get_any s).get t hst).1, ct1]
  have w3 := write_one_all env tb force v2 (by rw [a2, a3]; exact a5) t _ hk2t ct4 (x + 1) y (by rw [a2]; exact hx) (by rw [a3]; exact hy)
    (by rw [ct2, a7, if_neg (by simp)]; exact hold') htb
  rw [a4] at w3
  obtain ⟨v3, hv3⟩ : ∃ v3, v3 = (write env [t] (some (((x + 1 : Nat) : Int), (y : Int) + (d.scr i).offset)) tb force v2).1 := ⟨_, rfl⟩
  simp only [← hv3] at w3
  obtain ⟨-, -, -, -, -, b6, b7, b8⟩ := w3
  obtain ⟨hscr, hterm⟩ : d'.scr i = (v3.scr.render ((org i).1, (org i).2)).1 ∧ d'.term = run T1 (v3.scr.render ((org i).1, (org i).2)).2 := by
    have := Desktop.after_other env org d i j hij (.write [s] (some (x', y')) tb force) [.draw,
      .write [s] (some ((x : Int), (y : Int) + (d.scr i).offset)) tb force,
      .write [t] (some (((x + 1 : Nat) : Int), (y : Int) + (d.scr i).offset)) tb force, .draw]
    simp only [execAll, exec, List.foldl_cons, List.foldl_nil, List.map_cons, List.map_nil, ← hk1, ← hs1, ← hT1] at this
    rw [← hv2, ← hv3] at this
    exact this
  clear_value d'
  have hp1 := prints_storedCell hden hsok (by rw [hs]; simp [hc.symm]) (j := 0) (c := c) (by rw [hs]; rfl)
  have hp2 := prints_storedCell hden htok (by rw [ht]; simp [he.symm]) (j := 0) (c := e) (by rw [ht]; rfl)
  obtain ⟨old, ho⟩ := hsync.shape.exists_cell hx hy
  refine ⟨old, storedCell t (styledChar t 0 e), ho, ?_, rfl, ?_⟩
  · rw [hscr]
    show cellAt v3.scr.cells (x + 1) y = _
    refine (b7 (x + 1) y).trans ?_
    rw [if_pos rfl, ct2]
  · have hend : endsWith (styledChar t 0 e) ['\n'] = false := by
      by_contra hne
      rw [Bool.not_eq_false] at hne
      simp only [endsWith, List.isSuffixOf_iff_suffix] at hne
      obtain ⟨u, hu⟩ := hne
      rw [← hu, rstrip_append_singleton rfl] at ct2
      have h1 := congrArg List.length ct2
      have h2 : (rstrip (· == '\n') u).length ≤ u.length := by
        unfold rstrip
        rw [List.length_reverse]
        exact (List.dropWhile_sublist _).length_le.trans (by rw [List.length_reverse])
      simp at h1
      omega
    have hg := run_break (org i).1 (org i).2 horg.1 horg.2 v3.scr (b6 (a6 (by simp [Changes.keys]))) x y
      (changeStr env (storedCell s (styledChar s 0 c)) false) (changeStr env (storedCell t (styledChar t 0 e)) false)
      (by
        intro k
        refine (b8 k).trans ?_
        rw [ct2, hend, a8, cs3]
        by_cases h1 : k = (x + 1, y)
        · rw [if_pos h1, if_pos h1]
        · rw [if_neg h1, if_neg h1]
          by_cases h2 : k = (x, y)
          · rw [if_pos h2, if_pos h2]
            have e1 : endsWith (styledChar s 0 c ++ ['\n']) ['\n'] = true := by
              simp [endsWith, List.isSuffixOf_iff_suffix]
            rw [e1]
            simp [changeStr]
          · rw [if_neg h2, if_neg h2]; rfl)
      _ _ hp1 hp2 T1 hD.ground hD.clean
    rw [hterm, hg]
    refine ⟨?_, ?_⟩
    · unfold setGrid
      rw [if_neg (by omega), if_neg (by omega)]
      exact hD.shown (x + 1) y old (by rw [r5]; rfl) (by rw [r4]; exact ho)
    · unfold setGrid
      rw [if_pos ⟨rfl, rfl⟩]

/-- Two new screens of 3 columns and 1 row, below each other: "a" is written below the second one, then "a" and "b" into the first. The
hypotheses of the theorem hold, and the "b" is in the row of the second screen. -/
example :
    let s : Span := { text := ['a'] }
    let t : Span := { text := ['b'] }
    let d := C121ex.new
    let d' := Desktop.runAll {} C121ex.org d [(1, .write [s] (some (0, 1)) Color.black false), (0, .draw),
      (0, .write [s] (some (0, 0)) Color.black false), (0, .write [t] (some (1, 0)) Color.black false), (0, .draw)]
    t ≠ s ∧ (d.scr 1).offset + (d.scr 1).height ≤ 1 ∧ cellAt (d.scr 0).cells 0 0 = some { char := [' '] } ∧
    cellAt (d.scr 0).cells 1 0 = some { char := [' '] } ∧ styledChar s 0 'a' = ['a'] ∧ styledChar t 0 'b' = ['b'] ∧
    (d'.term.grid 1 2).ch = ' ' ∧ (d'.term.grid 2 1).ch = 'b' := by
  decide +kernel

example : Sync (fun c => .rgb c.r c.g c.b) 1 1 (C121ex.new.scr 0) C121ex.new.term :=
  Sync.init _ 1 1 3 1 _ (c := ' ') (by decide) _ rfl rfl

end Slate
