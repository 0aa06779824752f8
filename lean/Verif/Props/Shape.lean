import Verif.Lemmas.Api
import Verif.Props.Bulk

/-!
# C06, C07, C10 - C14, C18: shape, exceptions, resize, cursor, force, cache
-/

namespace Slate
open Py Term

/-! ## C06 The cell matrix always has the advertised shape -/

/-- The facts about size and contents that every call preserves. -/
theorem run_shape (env : Color.Env) (w : World) (op : Api)
    (hs : Shape w.scr.width w.scr.height w.scr.cells) :
    Shape (op.run env w).scr.width (op.run env w).scr.height (op.run env w).scr.cells := by
  have hwb : ∀ data tb force, Shape (writeBulk env data tb force w).1.scr.width
      (writeBulk env data tb force w).1.scr.height (writeBulk env data tb force w).1.scr.cells := by
    intro data tb force
    obtain ⟨h1, h2, -, -, h5, -⟩ := writeBulk_frame env data tb force w hs
    rw [h1, h2]; exact h5
  cases op with
  | write spans cursor tb force => exact hwb _ _ _
  | writeBulk data tb force => exact hwb _ _ _
  | clear fill => exact resize_shape _ _ _ _ _
  | resize a b fill keep => exact resize_shape _ _ _ _ _
  | render origin redraw => cases redraw <;> exact hs
  | getCharacters s => exact hs

/-- **C06**: after any history of calls with any arguments - including calls that
scrolled and calls that raised - on a freshly made screen (with any state of the
character cache) there are exactly `height` rows of exactly `width` cells. -/
theorem C06_shape (env : Color.Env) (width height : Nat) (cur : Int × Int) (fill : Str)
    (cache : CharCache) (ops : List Api) :
    let s := (Api.runAll env { scr := Screen.init width height cur fill, cache := cache } ops).scr
    s.cells.length = s.height ∧ ∀ row ∈ s.cells, row.length = s.width := by
  have : ∀ (ops : List Api) (w : World), Shape w.scr.width w.scr.height w.scr.cells →
      Shape (Api.runAll env w ops).scr.width (Api.runAll env w ops).scr.height
        (Api.runAll env w ops).scr.cells := by
    intro ops
    induction ops with
    | nil => exact fun w h => h
    | cons op ops ih => exact fun w h => ih _ (run_shape env w op h)
  have h := this ops { scr := Screen.init width height cur fill, cache := cache }
    (resize_shape _ _ _ _ _)
  exact ⟨h.rows, h.cols⟩

/-- The same invariant, for use with other properties. -/
theorem runAll_shape (env : Color.Env) (ops : List Api) (w : World)
    (h : Shape w.scr.width w.scr.height w.scr.cells) :
    Shape (Api.runAll env w ops).scr.width (Api.runAll env w ops).scr.height
      (Api.runAll env w ops).scr.cells := by
  induction ops generalizing w with
  | nil => exact h
  | cons op ops ih => exact ih _ (run_shape env w op h)

-- a history that scrolls, raises and resizes
example : let ops : List Api :=
      [.write [{ text := "ab".toList }] (some (0, 5)) Color.black false,
       .write [{ text := [] }] (some (0, 9)) Color.black false,
       .write [{ text := "ab".toList }] none Color.black false,
       .resize 3 1 ['.'] true]
    let s := (Api.runAll {} { scr := Screen.init 2 2 } ops).scr
    s.offset = 8 ∧ s.cells.length = 1 ∧ s.width = 3 := by decide +kernel

/-! ## C07 Writing at an explicit position raises only in the scroll case -/

theorem run_cacheLen (env : Color.Env) (w : World) (op : Api)
    (hs : Shape w.scr.width w.scr.height w.scr.cells) (hc : CacheLen w.cache) :
    CacheLen (op.run env w).cache := by
  cases op with
  | write spans cursor tb force => exact (writeBulk_error env _ tb force w hs hc).1
  | writeBulk data tb force => exact (writeBulk_error env _ tb force w hs hc).1
  | clear fill => exact hc
  | resize a b fill keep => exact hc
  | render origin redraw => exact hc
  | getCharacters s => exact (hc.get s).2

/-- **C07**: on every screen reachable by any history, a `write_bulk` whose entries all
have a position can only raise `IndexError`; and if it does, it has scrolled
(the offset grew), and an empty span was written or the screen has no rows. -/
theorem C07_exceptions (env : Color.Env) (width height : Nat) (cur : Int × Int) (fill : Str)
    (ops : List Api) (data : List Entry) (tb : Color) (force : Bool)
    (hdata : ∀ e ∈ data, e.1 ≠ none) (e : PyErr) :
    let w := Api.runAll env { scr := Screen.init width height cur fill } ops
    (writeBulk env data tb force w).2 = .error e →
      e = .indexError ∧ w.scr.offset < (writeBulk env data tb force w).1.scr.offset ∧
      (w.scr.height = 0 ∨ ∃ en ∈ data, ∃ s ∈ en.2, s.text = []) := by
  intro w he
  have hinv : ∀ (ops : List Api) (w : World), Shape w.scr.width w.scr.height w.scr.cells →
      CacheLen w.cache → CacheLen (Api.runAll env w ops).cache := by
    intro ops
    induction ops with
    | nil => exact fun w _ h => h
    | cons op ops ih =>
      exact fun w hs h => ih _ (run_shape env w op hs) (run_cacheLen env w op hs h)
  have hs0 : Shape width height (Screen.init width height cur fill).cells := resize_shape _ _ _ _ _
  have hs : Shape w.scr.width w.scr.height w.scr.cells :=
    runAll_shape env ops { scr := Screen.init width height cur fill } hs0
  have hc : CacheLen w.cache := hinv ops { scr := Screen.init width height cur fill } hs0
    (by intro e he; simp at he)
  rcases (writeBulk_error env data tb force w hs hc).2 e he with ⟨-, en, h1, h2⟩ | ⟨h1, h2, h3⟩
  · exact absurd h2 (hdata en h1)
  · exact ⟨h1, h3, h2⟩

/-- The exception does occur: an empty span below the bottom, and any span on a screen
without rows. -/
theorem C07_raises :
    (write {} [{ text := [] }] (some (0, 2)) Color.black false { scr := Screen.init 3 2 }).2 =
      .error .indexError ∧
    (write {} [{ text := ['a'] }] (some (0, 0)) Color.black false { scr := Screen.init 3 0 }).2 =
      .error .indexError := by decide +kernel

-- wild positions do not raise
example : (writeBulk {} [(some (-7, 1000), [{ text := ['a'] }]), (some (9, -3), [{ text := ['b'] }]),
    (some (0, 0), [])] Color.black false { scr := Screen.init 3 2 }).2 = .ok 0 := by decide +kernel

/-! ## C10 Resize keeps the overlap and fills the rest -/

/-- **C10**: for all old and new sizes and all contents: the new size is the requested
one, cells in the overlap are unchanged, every other cell of the new area is the
plain fill character; nothing lies outside the new area. -/
theorem C10_resize (s : Screen) (hs : Shape s.width s.height s.cells) (w h : Nat) (fill : Str) :
    (s.resize (w, h) fill).width = w ∧ (s.resize (w, h) fill).height = h ∧
    (s.resize (w, h) fill).cursor = s.cursor ∧
    (∀ x y, x < w → y < h → x < s.width → y < s.height →
      cellAt (s.resize (w, h) fill).cells x y = cellAt s.cells x y) ∧
    (∀ x y, x < w → y < h → ¬ (x < s.width ∧ y < s.height) →
      cellAt (s.resize (w, h) fill).cells x y = some { char := fill, fg := none, bg := none }) ∧
    (∀ x y, ¬ (x < w ∧ y < h) → cellAt (s.resize (w, h) fill).cells x y = none) := by
  refine ⟨rfl, rfl, rfl, ?_, ?_, ?_⟩
  · intro x y hx hy hx' hy'
    obtain ⟨c, hc⟩ := hs.exists_cell hx' hy'
    rw [resize_cellAt s w h fill true x y hx hy, hc]
    rfl
  · intro x y hx hy hn
    rw [resize_cellAt s w h fill true x y hx hy, hs.cellAt_none hn]
    rfl
  · intro x y hn
    exact (resize_shape s w h fill true).cellAt_none hn

-- growing to the right while losing a row
example : let s := (write {} [{ text := "abcd".toList }] (some (0, 0)) Color.black false
      { scr := Screen.init 2 2 }).1.scr
    Shape s.width s.height s.cells ∧
    cellAt (s.resize (3, 1) ['.']).cells 0 0 = some (storedCell { text := "abcd".toList } ['a']) ∧
    cellAt (s.resize (3, 1) ['.']).cells 2 0 = some { char := ['.'] } := by
  refine ⟨⟨by decide +kernel, by decide +kernel⟩, by decide +kernel, by decide +kernel⟩

/-! ## C11 A draw after a resize shows the kept content -/

/-- **C11** (partial: the full statement fails, `C11_violated`). For every screen in step
with the terminal (by `Sync.execAll` every history gives one), what a draw after
a `resize` shows is the fill character in every cell of the new area, so the
terminal shows a cell as it is stored exactly if the cell looks like the plain
fill character - in particular in the whole area that was added. -/
theorem C11_resize_then_draw_partial (den : Color → TColor) (ox oy : Nat) (hox : 1 ≤ ox)
    (hoy : 1 ≤ oy) (s : Screen) (T : State) (h : Sync den ox oy s T) (w' h' : Nat) (fill : Char)
    (hf : Printable fill) :
    let s' := s.resize (w', h') [fill]
    let T' := run T (s'.render (ox, oy)).2
    (∀ x y, x < w' → y < h' →
      T'.grid (y + oy) (x + ox) = { ch := fill, attr := Attr.clean }) ∧
    (∀ x y cell, cellAt s'.cells x y = some cell →
      (T'.grid (y + oy) (x + ox) = cellGlyph den cell ↔
        cellGlyph den cell = { ch := fill, attr := Attr.clean })) ∧
    (∀ x y, x < w' → y < h' → ¬ (x < s.width ∧ y < s.height) →
      ∃ cell, cellAt s'.cells x y = some cell ∧ T'.grid (y + oy) (x + ox) = cellGlyph den cell) := by
  intro s' T'
  have hfillg : cellGlyph den { char := [fill] } = { ch := fill, attr := Attr.clean } := by
    have hcs : CellStr [fill] {} fill false := ⟨by rw [wrapSgr_empty]; simp, hf⟩
    rw [CellStr.glyph (cell := { char := [fill] }) hcs den]
    rfl
  have hnd : s'.changes.keys.Nodup := foldl_insert_nodup _ _ _ h.nodup
  have hlk : ∀ k, List.lookup k s'.changes =
      if k ∈ positions w' h' then some [fill] else List.lookup k s.changes :=
    fun k => foldl_insert_lookup _ _ _ _
  -- what each pending string prints
  have hpr : ∀ e ∈ s'.changes, Prints e.2 (if e.1 ∈ positions w' h' then
      { ch := fill, attr := Attr.clean }
      else cellGlyph den ((cellAt s.cells e.1.1 e.1.2).getD { char := [] })) := by
    rintro ⟨⟨x, y⟩, str⟩ he
    have hl := (Changes.lookup_eq_some_iff _ hnd _ _).mpr he
    rw [hlk] at hl
    simp only
    split at hl
    · rename_i hp
      rw [if_pos hp]
      injection hl with hl
      subst hl
      rw [← hfillg]
      exact prints_fill den hf
    · rename_i hp
      rw [if_neg hp]
      have hk : (x, y) ∈ s.changes.keys := by
        rw [← Changes.lookup_isSome, hl]; rfl
      obtain ⟨b1, b2⟩ := h.inside _ hk
      obtain ⟨cell, hcell⟩ := h.shape.exists_cell b1 b2
      simp only [hcell, Option.getD_some]
      exact h.pend x y str cell hl hcell
  obtain ⟨-, -, r3, -⟩ := run_render ox oy hox hoy
    (fun k => if k ∈ positions w' h' then { ch := fill, attr := Attr.clean }
      else cellGlyph den ((cellAt s.cells k.1 k.2).getD { char := [] })) s' hpr T h.ground h.clean
  have key : ∀ x y, x < w' → y < h' →
      T'.grid (y + oy) (x + ox) = { ch := fill, attr := Attr.clean } := by
    intro x y hx hy
    have hp : (x, y) ∈ positions w' h' := mem_positions.mpr ⟨hx, hy⟩
    have := r3 (x, y) (by rw [← Changes.lookup_isSome, hlk, if_pos hp]; rfl)
    rw [if_pos hp] at this
    exact this
  refine ⟨key, ?_, ?_⟩
  · intro x y cell hc
    have hb := (resize_shape s w' h' [fill] true).cellAt_isSome (x := x) (y := y) |>.mp
      (Option.isSome_iff_exists.mpr ⟨cell, hc⟩)
    rw [key x y hb.1 hb.2]
    exact eq_comm
  · intro x y hx hy hn
    have hc := (C10_resize s h.shape w' h' [fill]).2.2.2.2.1 x y hx hy hn
    exact ⟨_, hc, by rw [key x y hx hy, hfillg]⟩

-- the hypothesis is met by every fresh screen
example : Sync (denOf {}) 1 1 (Screen.init 4 3 (0, 0) ['.'])
    { grid := fun _ _ => { ch := '?', attr := Attr.clean } } :=
  Sync.init _ _ _ _ _ _ (by decide) _ rfl rfl

/-- **C11 violated**: "a" is written and drawn, the screen grows by one column and is
drawn again: the screen still stores "a" in the top left cell, the terminal shows
a blank there. -/
theorem C11_violated :
    let s0 : Sys := { w := { scr := Screen.init 2 1 },
                      term := { grid := fun _ _ => { ch := '?', attr := Attr.clean } } }
    let s1 := execAll {} (1, 1) s0 [.write [{ text := ['a'] }] (some (0, 0)) Color.black false, .draw]
    let scr := s1.w.scr.resize (3, 1)
    let T := run s1.term (scr.render (1, 1)).2
    s1.term.grid 1 1 = { ch := 'a', attr := { fg := .rgb 255 255 255 } } ∧
    cellAt scr.cells 0 0 = some { char := ['a'], fg := some Color.white } ∧
    T.grid 1 1 = { ch := ' ', attr := Attr.clean } := by
  decide +kernel

/-! ## C12 A draw never addresses a cell outside the screen -/

/-- Every pending change lies inside the screen. -/
def Inside (s : Screen) : Prop := ∀ k ∈ s.changes.keys, k.1 < s.width ∧ k.2 < s.height

/-- A resize that cannot leave stale pending changes behind: nothing is pending, or
the screen does not shrink. -/
def ResizeSafe (w : World) : Api → Prop
  | .resize a b _ _ => w.scr.changes = [] ∨ (w.scr.width ≤ a ∧ w.scr.height ≤ b)
  | _ => True

theorem run_inside (env : Color.Env) (w : World) (op : Api) (hr : ResizeSafe w op)
    (hs : Shape w.scr.width w.scr.height w.scr.cells) (hi : Inside w.scr) :
    Inside (op.run env w).scr := by
  have hwb : ∀ data tb force, Inside (writeBulk env data tb force w).1.scr := by
    intro data tb force k hk
    obtain ⟨h1, h2, -, -, -, h6⟩ := writeBulk_frame env data tb force w hs
    rw [h1, h2]
    rcases h6 k hk with h | h
    · exact hi k h
    · exact h
  cases op with
  | write spans cursor tb force => exact hwb _ _ _
  | writeBulk data tb force => exact hwb _ _ _
  | clear fill =>
    intro k hk
    rcases (foldl_insert_keys _ _ _ _).mp hk with h | h
    · exact mem_positions.mp h
    · exact hi k h
  | resize a b fill keep =>
    intro k hk
    rcases (foldl_insert_keys _ _ _ _).mp hk with h | h
    · exact mem_positions.mp h
    · rcases hr with hr | ⟨hr1, hr2⟩
      · rw [hr] at h; simp [Changes.keys] at h
      · obtain ⟨h1, h2⟩ := hi k h
        exact ⟨lt_of_lt_of_le h1 hr1, lt_of_lt_of_le h2 hr2⟩
  | render origin redraw => cases redraw <;> (intro k hk; simp [Api.run, Screen.render, Changes.keys] at hk)
  | getCharacters s => exact hi

/-- **C12** (partial: fails when the screen shrinks while changes are pending,
`C12_violated`). In every history - with writes that scroll or raise, clears, and
renders - in which the screen only shrinks when nothing is pending, every position
addressed by a draw lies inside the screen: `render` is `renderGo` over a list of
positions inside, each addressed at that position plus the origin. -/
theorem C12_inside_partial (env : Color.Env) (width height : Nat) (cur : Int × Int) (fill : Str)
    (cache : CharCache) (ops : List Api)
    (hsafe : ∀ pre op post, ops = pre ++ op :: post →
      ResizeSafe (Api.runAll env { scr := Screen.init width height cur fill, cache := cache } pre) op) :
    Inside (Api.runAll env { scr := Screen.init width height cur fill, cache := cache } ops).scr := by
  have : ∀ (ops : List Api) (w : World), Shape w.scr.width w.scr.height w.scr.cells → Inside w.scr →
      (∀ pre op post, ops = pre ++ op :: post → ResizeSafe (Api.runAll env w pre) op) →
      Inside (Api.runAll env w ops).scr := by
    intro ops
    induction ops with
    | nil => exact fun w _ h _ => h
    | cons op ops ih =>
      intro w hs hi hr
      refine ih _ (run_shape env w op hs) (run_inside env w op (hr [] op ops rfl) hs hi) ?_
      intro pre op' post h
      exact hr (op :: pre) op' post (by rw [h]; rfl)
  refine this ops _ (resize_shape _ _ _ _ _) ?_ hsafe
  intro k hk
  rcases (foldl_insert_keys _ _ _ _).mp hk with h | h
  · exact mem_positions.mp h
  · simp [Changes.keys] at h

/-- ... and on the terminal: for a screen in step with the terminal a draw prints to
cells of the screen area only. -/
theorem C12_draw_stays_inside_partial (den : Color → TColor) (ox oy : Nat) (hox : 1 ≤ ox)
    (hoy : 1 ≤ oy) (s : Screen) (T : State) (h : Sync den ox oy s T) (r c : Nat)
    (hout : ¬ (oy ≤ r ∧ r < oy + s.height ∧ ox ≤ c ∧ c < ox + s.width)) :
    (run T (s.render (ox, oy)).2).grid r c = T.grid r c ∧
    ∀ p ∈ (run T (s.render (ox, oy)).2).log, p ∈ T.log ∨
      (oy ≤ p.1 ∧ p.1 < oy + s.height ∧ ox ≤ p.2 ∧ p.2 < ox + s.width) := by
  have hpr : ∀ e ∈ s.changes, Prints e.2
      (cellGlyph den ((cellAt s.cells e.1.1 e.1.2).getD { char := [] })) := by
    rintro ⟨⟨x, y⟩, str⟩ he
    have hk : (x, y) ∈ s.changes.keys := List.mem_map_of_mem (f := (·.1)) he
    obtain ⟨b1, b2⟩ := h.inside _ hk
    obtain ⟨cell, hcell⟩ := h.shape.exists_cell b1 b2
    simp only [hcell, Option.getD_some]
    exact h.pend x y str cell ((Changes.lookup_eq_some_iff _ h.nodup _ _).mpr he) hcell
  obtain ⟨-, -, -, r4, r5⟩ := run_render ox oy hox hoy
    (fun k => cellGlyph den ((cellAt s.cells k.1 k.2).getD { char := [] })) s hpr T h.ground h.clean
  constructor
  · apply r4
    rintro k hk ⟨rfl, rfl⟩
    have := h.inside k hk
    omega
  · intro p hp
    rw [r5] at hp
    rcases List.mem_append.mp hp with hp | hp
    · exact .inl hp
    · obtain ⟨k, hk, rfl⟩ := List.mem_map.mp hp
      have := h.inside k ((mem_gather_keys _ _).mp hk)
      right
      simp only
      omega

/-- **C12 violated**: a fresh 3x2 screen shrunk to 1x1 before its first draw addresses
row 2, column 3 of the terminal. -/
theorem C12_violated :
    let s := (Screen.init 3 2).resize (1, 1)
    let T := run { grid := fun _ _ => { ch := '?', attr := Attr.clean } } (s.render (1, 1)).2
    s.width = 1 ∧ s.height = 1 ∧ (2, 3) ∈ T.log := by decide +kernel

-- a history meeting the hypothesis, with a shrinking resize after a draw
example : let ops : List Api := [.render (1, 1) false, .resize 1 1 [' '] true,
      .write [{ text := ['a'] }] (some (0, 0)) Color.black false, .resize 4 4 [' '] true]
    ∀ pre op post, ops = pre ++ op :: post →
      ResizeSafe (Api.runAll {} { scr := Screen.init 3 2 } pre) op := by
  intro ops pre op post h
  match pre, h with
  | [], h => simp only [ops, List.nil_append, List.cons.injEq] at h; obtain ⟨rfl, -⟩ := h; trivial
  | [a], h =>
    simp only [ops, List.cons_append, List.nil_append, List.cons.injEq] at h
    obtain ⟨rfl, rfl, -⟩ := h; exact .inl rfl
  | [a, b], h =>
    simp only [ops, List.cons_append, List.nil_append, List.cons.injEq] at h
    obtain ⟨-, -, rfl, -⟩ := h; trivial
  | [a, b, c], h =>
    simp only [ops, List.cons_append, List.nil_append, List.cons.injEq] at h
    obtain ⟨rfl, rfl, rfl, rfl, -⟩ := h; right; decide +kernel
  | a :: b :: c :: d :: l, h =>
    have := congrArg List.length h
    simp [ops] at this

/-! ## C13 A write without a cursor continues where the last write ended -/

/-- **C13 violated**, for every screen and every write: without a cursor `write` raises
`TypeError` and changes nothing, and no write (successful or not) moves the
cursor. -/
theorem C13_violated (env : Color.Env) (tb : Color) (force : Bool) (w : World)
    (hs : Shape w.scr.width w.scr.height w.scr.cells) (spans : List Span) :
    ((write env spans none tb force w).2 = .error .typeError ∧
      (write env spans none tb force w).1 = w) ∧
    ∀ c, (write env spans c tb force w).1.scr.cursor = w.scr.cursor := by
  refine ⟨⟨rfl, rfl⟩, fun c => ?_⟩
  exact (writeBulk_frame env [(c, spans)] tb force w hs).2.2.1

/-- A concrete instance: the text is stored, yet the cursor still is at the origin. -/
theorem C13_violated_example :
    let w : World := { scr := Screen.init 3 1 }
    let r := write {} [{ text := ['a'] }] (some (0, 0)) Color.black false w
    r.2 = .ok 1 ∧ r.1.scr.cursor = (0, 0) ∧
    (write {} [{ text := ['b'] }] none Color.black false r.1).2 = .error .typeError := by
  decide +kernel

/-! ## C14 force_overwrite -/

/-- **C14 violated**, in general: the flag makes no difference at all. -/
theorem C14_force_ignored (env : Color.Env) (data : List Entry) (tb : Color) (w : World) :
    writeBulk env data tb true w = writeBulk env data tb false w := rfl

/-- **C14 violated**: rewriting an unchanged cell with `force_overwrite` returns 0 and
queues nothing. -/
theorem C14_violated :
    let w := (write {} [{ text := ['a'] }] (some (0, 0)) Color.black false
      { scr := Screen.init 2 1 }).1
    let w := { w with scr := (w.scr.render (1, 1)).1 }
    let r := write {} [{ text := ['a'] }] (some (0, 0)) Color.black true w
    r.2 = .ok 0 ∧ r.1.scr.changes = [] := by decide +kernel

/-- **C14** (partial: cells that do change). With the flag, every covered cell whose
content differs from what it held is counted and queued. -/
theorem C14_changed_cells_partial (env : Color.Env) (data : List Entry) (tb : Color) (w : World)
    (hs : Shape w.scr.width w.scr.height w.scr.cells) (hok : CacheOk w.cache)
    (n : Nat) (hr : (writeBulk env data tb true w).2 = .ok n)
    (ho : (writeBulk env data tb true w).1.scr.offset = w.scr.offset) (x y : Nat)
    (hd : Differs w.scr (writeBulk env data tb true w).1.scr (x, y)) :
    (x, y) ∈ (writeBulk env data tb true w).1.scr.changes.keys ∧ 1 ≤ n := by
  classical
  obtain ⟨hn, -⟩ := C03_return_counts_changes env data tb true w hs hok n hr ho
  have hb : x < w.scr.width ∧ y < w.scr.height := by
    obtain ⟨a, -, h1, -⟩ := hd
    exact hs.cellAt_isSome.mp (Option.isSome_iff_exists.mpr ⟨a, h1⟩)
  constructor
  · obtain ⟨-, h2⟩ := writeBulk_still env data tb true w hs hok ho
    rcases h2 with ⟨h2, -⟩ | ⟨d, -, -, h3⟩
    · rw [hr] at h2; cases h2
    · rw [← Changes.lookup_isSome, h3.pending]
      have := (outcome_isSome_iff h3 (x, y)).mpr hd
      obtain ⟨r, hr⟩ := Option.isSome_iff_exists.mp this
      rw [hr]; rfl
  · rw [hn]
    exact Finset.card_pos.mpr ⟨(x, y), by simp [hb, hd]⟩

example : let w : World := { scr := Screen.init 2 1 }
    let r := writeBulk {} [(some (0, 0), [{ text := ['a'] }])] Color.black true w
    r.2 = .ok 1 ∧ r.1.scr.offset = w.scr.offset := by decide +kernel

/-! ## C18 Span.get_characters is a function of the span -/

/-- What a call of `get_characters` with the arguments of the screen returns. -/
def getCharacters (w : World) (s : Span) : List Str := (w.cache.get s).1

/-- No call of the history scrolled. -/
theorem run_still (env : Color.Env) (w : World) (op : Api)
    (hs : Shape w.scr.width w.scr.height w.scr.cells) :
    w.scr.offset ≤ (op.run env w).scr.offset ∧
    ((op.run env w).scr.offset = w.scr.offset → CacheOk w.cache → CacheOk (op.run env w).cache) := by
  have hwb : ∀ data tb force, w.scr.offset ≤ (writeBulk env data tb force w).1.scr.offset ∧
      ((writeBulk env data tb force w).1.scr.offset = w.scr.offset → CacheOk w.cache →
        CacheOk (writeBulk env data tb force w).1.cache) := fun data tb force =>
    ⟨writeBulk_offset_mono env data tb force w hs,
      fun ho hc => (writeBulk_still env data tb force w hs hc ho).1⟩
  cases op with
  | write spans cursor tb force => exact hwb _ _ _
  | writeBulk data tb force => exact hwb _ _ _
  | clear fill => exact ⟨le_refl _, fun _ h => h⟩
  | resize a b fill keep => exact ⟨le_refl _, fun _ h => h⟩
  | render origin redraw => cases redraw <;> exact ⟨le_refl _, fun _ h => h⟩
  | getCharacters s => exact ⟨le_refl _, fun _ h => (h.get s).2⟩

theorem runAll_offset_mono (env : Color.Env) (ops : List Api) (w : World)
    (hs : Shape w.scr.width w.scr.height w.scr.cells) :
    w.scr.offset ≤ (Api.runAll env w ops).scr.offset := by
  induction ops generalizing w with
  | nil => exact le_refl _
  | cons op ops ih =>
    exact le_trans (run_still env w op hs).1 (ih _ (run_shape env w op hs))

/-- **C18** (partial: fails after scrolling, `C18_violated`). After every history that
did not scroll, `get_characters` of any span returns the list computed from the
span alone. -/
theorem C18_get_characters_partial (env : Color.Env) (width height : Nat) (cur : Int × Int)
    (fill : Str) (ops : List Api)
    (ho : (Api.runAll env { scr := Screen.init width height cur fill } ops).scr.offset = 0)
    (s : Span) :
    getCharacters (Api.runAll env { scr := Screen.init width height cur fill } ops) s =
      s.cellChars := by
  have : ∀ (ops : List Api) (w : World), Shape w.scr.width w.scr.height w.scr.cells →
      CacheOk w.cache → (Api.runAll env w ops).scr.offset = w.scr.offset →
      CacheOk (Api.runAll env w ops).cache := by
    intro ops
    induction ops with
    | nil => exact fun w _ h _ => h
    | cons op ops ih =>
      intro w hs hc ho
      obtain ⟨h1, h2⟩ := run_still env w op hs
      have h3 := runAll_offset_mono env ops (op.run env w) (run_shape env w op hs)
      have ho' : (Api.runAll env (op.run env w) ops).scr.offset = w.scr.offset := ho
      have e : (op.run env w).scr.offset = w.scr.offset := by omega
      exact ih _ (run_shape env w op hs) (h2 e hc) (by rw [ho', e])
  have hc := this ops { scr := Screen.init width height cur fill } (resize_shape _ _ _ _ _)
    (by intro e he; simp at he) ho
  exact (hc.get s).1

example : (Api.runAll {} { scr := Screen.init 3 2 }
    [.write [{ text := "ab".toList }] (some (0, 1)) Color.black false, .render (1, 1) false,
     .getCharacters { text := "xyz".toList }]).scr.offset = 0 := by decide +kernel

/-- **C18 violated**: after the span "a" was written below the bottom, `get_characters`
of an equal span returns "a\n" instead of "a" - and each further scroll by an equal
span adds another newline. -/
theorem C18_violated :
    let s : Span := { text := ['a'] }
    let w0 : World := { scr := Screen.init 3 1 }
    let w1 := (write {} [s] (some (0, 1)) Color.black false w0).1
    let w2 := (write {} [s] (some (0, 2)) Color.black false w1).1
    getCharacters w0 s = [['a']] ∧ getCharacters w1 s = [['a', '\n']] ∧
    getCharacters w2 s = [['a', '\n', '\n']] := by decide +kernel

end Slate
