import Verif.Model.Playground
import Verif.Spec.Playground
import Verif.Props.Commands
import Verif.Props.Breaks
import Verif.Props.Redraw
import Verif.Props.Terminal
import Verif.Props.Parse
import Verif.Props.Report

/-!
# C91: the mouse playground, from the input to the display
-/

namespace Slate
open Py Term Core

namespace Playground

/-- The stored cell of a canvas position. -/
def cellOf : Option Char → Cell
  | none => { char := [' '] }
  | some c => { char := [c], fg := some Color.white }

/-- The screen holds the canvas, and the terminal shows it or is going to. -/
structure Inv (env : Color.Env) (den : Color → TColor) (width height : Nat) (cv : Canvas) (w : World) (T : State) :
    Prop where
  sync : Sync den 1 1 w.scr T
  cache : CacheOk w.cache
  offset : w.scr.offset = 0
  width_eq : w.scr.width = width
  height_eq : w.scr.height = height
  cells : ∀ x y, x < width → y < height → cellAt w.scr.cells x y = some (cellOf (cv (y * width + x)))

theorem mod_div_index {x y w : Nat} (hx : x < w) : (y * w + x) % w = x ∧ (y * w + x) / w = y := by
  have hw : 0 < w := by omega
  constructor
  · rw [Nat.mul_comm, Nat.mul_add_mod, Nat.mod_eq_of_lt hx]
  · rw [Nat.mul_comm, Nat.mul_add_div hw, Nat.div_eq_of_lt hx, Nat.add_zero]

theorem index_lt {x y w h : Nat} (hx : x < w) (hy : y < h) : y * w + x < h * w := by
  calc y * w + x < y * w + w := by omega
    _ = (y + 1) * w := by ring
    _ ≤ h * w := Nat.mul_le_mul_right _ hy

theorem cellOf_eq {o : Option Char} {c : Char} (h : (cellOf (some c)).eq (cellOf o) = true) :
    cellOf o = cellOf (some c) := by
  cases o with
  | none => simp [cellOf, Cell.eq, Span.optEq] at h
  | some d =>
    simp only [cellOf, Cell.eq, Bool.and_eq_true, decide_eq_true_eq, List.cons.injEq, and_true] at h
    rw [h.1.1]

/-- Writing a printable text from the cell (x, y) on. -/
theorem Inv.write {env : Color.Env} {den : Color → TColor} (hden : DenOk env den) {width height : Nat} {cv : Canvas}
    {w : World} {T : State} (h : Inv env den width height cv w T) (bg : Color) (t : Str) (ht : t ≠ [])
    (hp : ∀ c ∈ t, Printable c) (x y : Nat) (hx : x < width) (hy : y < height) :
    ∃ w' n, writeAt env bg t [(x : Int), (y : Int)] w = (w', .ok n) ∧
      Inv env den width height (cv.put t (y * width + x)) w' T := by
  have hesc : ∀ c ∈ t, c ≠ '\x1b' := by
    intro c hc e; subst e; exact absurd (hp _ hc) (by decide)
  have hnl : '\n' ∉ t := fun hm => absurd (hp _ hm) (by decide)
  have hwr : writeAt env bg t [(x : Int), (y : Int)] w =
      Slate.write env [{ text := t }] (some ((x : Int), (y : Int))) bg false w := by
    unfold writeAt
    simp only
    rw [C66_write, C30_plain_line t ⟨ht, hesc⟩]
    exact terminal_write_spans env _ _ bg false w
  rw [hwr]
  obtain ⟨hsync, hcache, hoff, rfl, rfl, hcells⟩ := h
  obtain ⟨⟨n, hok⟩, ho, hin, hout⟩ := C05_placement_partial env bg false w hsync.shape hcache hoff x y hx hy
    [{ text := t }] (by simpa using hnl) (by simp) (by simp)
  obtain ⟨hs', hc'⟩ := Sync.exec hden (Nat.le_refl 1) (Nat.le_refl 1) (s := { w := w, term := T }) hsync hcache
    (op := .write [{ text := t }] (some ((x : Int), (y : Int))) bg false)
    (by
      intro s hs
      simp only [List.mem_singleton] at hs
      subst hs
      exact ⟨fun c hc => .inl (hp c hc), by simp, by simp⟩)
    (by
      show (Slate.write env _ _ bg false w).1.scr.offset = w.scr.offset
      rw [ho, hoff])
  obtain ⟨f1, f2, -⟩ := exec_frame env (1, 1) { w := w, term := T }
    (.write [{ text := t }] (some ((x : Int), (y : Int))) bg false) hsync.shape
  refine ⟨_, n, Prod.ext rfl hok, hs', hc', ho, f1, f2, ?_⟩
  intro x' y' hx' hy'
  obtain ⟨hm, hd⟩ := mod_div_index (y := y') hx'
  simp only [Canvas.put]
  by_cases hk : y * w.scr.width + x ≤ y' * w.scr.width + x' ∧
      y' * w.scr.width + x' < y * w.scr.width + x + t.length
  · rw [if_pos hk]
    obtain ⟨c, hc⟩ : ∃ c, t[y' * w.scr.width + x' - (y * w.scr.width + x)]? = some c :=
      ⟨_, List.getElem?_eq_getElem (by omega)⟩
    have hi : y * w.scr.width + x + (([] : List Span).map Span.len).sum +
        (y' * w.scr.width + x' - (y * w.scr.width + x)) = y' * w.scr.width + x' := by
      simp; omega
    obtain ⟨old, hold, hnew⟩ := hin [] { text := t } [] rfl _ c hc (by rw [hi]; exact index_lt hx' hy')
    rw [hi, hm, hd] at hold hnew
    rw [hnew, hc]
    have hst : storedCell { text := t } (styledChar { text := t } (y' * w.scr.width + x' - (y * w.scr.width + x)) c) =
        cellOf (some c) := by
      rw [styledChar_plain rfl]; rfl
    rw [hst]
    rw [hcells x' y' hx' hy'] at hold
    injection hold with hold
    subst hold
    split
    · rename_i he; rw [cellOf_eq he]
    · rfl
  · rw [if_neg hk]
    rw [hout x' y' hx' (by
      simp only [List.map_cons, List.map_nil, List.sum_cons, List.sum_nil, Span.len]
      omega)]
    exact hcells x' y' hx' hy'

/-- Drawing. -/
theorem Inv.draw {env : Color.Env} {den : Color → TColor} {width height : Nat} {cv : Canvas}
    {w : World} {T : State} (h : Inv env den width height cv w T) :
    ∃ w' out, Playground.draw false w = (w', out) ∧ Inv env den width height cv w' (run T out) ∧ w'.scr.changes = [] :=
  ⟨_, _, rfl, ⟨h.sync.draw (Nat.le_refl 1) (Nat.le_refl 1), h.cache, h.offset, h.width_eq, h.height_eq, h.cells⟩, rfl⟩

/-- Clearing and redrawing. -/
theorem Inv.clear {env : Color.Env} {den : Color → TColor} {width height : Nat} {cv : Canvas}
    {w : World} {T : State} (h : Inv env den width height cv w T) :
    Inv env den width height Canvas.empty (Playground.draw true { w with scr := w.scr.clear [' '] }).1
      (run T (Playground.draw true { w with scr := w.scr.clear [' '] }).2) := by
  have hs := h.sync.clear (c := ' ') (by decide)
  have hcell : ∀ x y cell, cellAt (w.scr.clear [' ']).cells x y = some cell → cell = { char := [' '] } := by
    intro x y cell hc
    obtain ⟨hx, hy⟩ := hs.shape.cellAt_isSome.mp (Option.isSome_of_eq_some hc)
    have := clear_cellAt w.scr [' '] x y hx hy
    rw [this] at hc
    exact (Option.some.inj hc).symm
  have hstr : CellStr [' '] {} ' ' false := ⟨rfl, by decide⟩
  have hfaith : ∀ row ∈ (w.scr.clear [' ']).cells, ∀ cell ∈ row, Faithful cell := by
    intro row hrow cell hc
    obtain ⟨y, hy⟩ := List.mem_iff_getElem?.mp hrow
    obtain ⟨x, hx⟩ := List.mem_iff_getElem?.mp hc
    rw [hcell x y cell (by simp [cellAt, hy, hx])]
    exact ⟨rfl, rfl, {}, ' ', false, hstr, .inr rfl⟩
  have hone : ∀ row ∈ (w.scr.clear [' ']).cells, ∀ cell ∈ row, OneChar cell := by
    intro row hrow cell hc
    obtain ⟨-, -, st, c, r, h, -⟩ := hfaith row hrow cell hc
    exact ⟨st, c, r, h⟩
  obtain ⟨r1, -, -, r4⟩ := run_redrawGo den 1 1 (Nat.le_refl 1) (Nat.le_refl 1) (w.scr.clear [' ']).cells
    (w.scr.clear [' ']).width hs.shape.cols T h.sync.ground hone
  obtain ⟨r5, r6⟩ := r4 ⟨h.sync.clean, hfaith⟩
  refine ⟨⟨hs.shape, List.nodup_nil, fun k hk => absurd hk List.not_mem_nil,
    r1, r5, fun _ _ _ _ h _ => by simp [Playground.draw, Screen.render] at h, fun x y cell _ hc => r6 x y cell hc⟩, h.cache, h.offset, h.width_eq,
    h.height_eq, ?_⟩
  intro x y hx hy
  exact clear_cellAt w.scr [' '] x y (h.width_eq ▸ hx) (h.height_eq ▸ hy)

/-! ## The loop -/

theorem key_sent {width height : Nat} {s name : Str} (h : (Act.key name).Sent width height s) :
    (∃ k, getch true false (.text s) = .ok k ∧ k.str = .ok name) ∧ name ≠ [] ∧ startsWith name "mouse:".toList = false := by
  obtain ⟨-, ⟨names, hm⟩ | ⟨rfl, hne, ht, hs, hmo⟩⟩ := h
  · have hn : ∀ p ∈ posixKeyNames, p.2.head? ≠ some [] ∧
        ∀ n ∈ p.2, startsWith n "mouse:".toList = false := by decide +kernel
    refine ⟨⟨_, C54_table _ hm, rfl⟩, ?_, (hn _ hm).2 name (by simp)⟩
    rintro rfl
    exact (hn _ hm).1 rfl
  · refine ⟨⟨_, other_key ht hs, rfl⟩, hne, ?_⟩
    rw [Bool.eq_false_iff]
    intro e
    exact hmo (List.isPrefixOf_iff_prefix.mp e)

theorem printable_name (b x y : Nat) (pressed : Bool) (e : MouseEv) (he : mouseEv b = some e) :
    startsWith (mouseName b x y pressed e) "mouse:".toList = true ∧
    mouseName b x y pressed e ≠ "ctrl-c".toList ∧ mouseName b x y pressed e ≠ ['c'] ∧ mouseName b x y pressed e ≠ [] ∧
    splitC ';' ((splitC '@' (mouseName b x y pressed e)).getLastD []) = [dec x, dec y] := by
  have h0 : mouseName b x y pressed e =
      'm' :: 'o' :: 'u' :: 's' :: 'e' :: ':' :: ((mouseModifiers b ++ e.name pressed) ++ ['@'] ++ dec x ++ [';'] ++ dec y) := rfl
  have hat : ∀ b, b < 96 → ∀ e ∈ mouseEv b, ∀ p : Bool, '@' ∉ mouseModifiers b ++ e.name p := by decide +kernel
  refine ⟨by rw [h0]; rfl, by rw [h0]; intro h; exact absurd (List.cons.inj h).1 (by decide),
    by rw [h0]; intro h; exact absurd (List.cons.inj h).1 (by decide), by rw [h0]; simp, ?_⟩
  have h1 : mouseName b x y pressed e =
      ("mouse:".toList ++ (mouseModifiers b ++ e.name pressed)) ++ '@' :: (dec x ++ ';' :: dec y) := by
    unfold mouseName
    simp only [List.append_assoc, List.cons_append, List.nil_append]
  have hn : '@' ∉ "mouse:".toList ++ (mouseModifiers b ++ e.name pressed) := by
    rw [List.mem_append, not_or]
    exact ⟨by decide, hat b (mouseEv_lt he) e he pressed⟩
  have hn2 : '@' ∉ dec x ++ ';' :: dec y := by
    simp only [List.mem_append, List.mem_cons, not_or]
    exact ⟨dec_not_mem (by decide), by decide, dec_not_mem (by decide)⟩
  rw [h1, splitC_append _ hn, splitC_of_not_mem hn2]
  show splitC ';' (dec x ++ ';' :: dec y) = _
  rw [splitC_append _ (dec_not_mem (by decide)), splitC_of_not_mem (dec_not_mem (by decide))]

theorem coords_dec (x y : Nat) (hx : 1 ≤ x) (hy : 1 ≤ y) (hx' : x < intLimit) (hy' : y < intLimit) :
    coords [dec x, dec y] = .ok [((x - 1 : Nat) : Int), ((y - 1 : Nat) : Int)] := by
  simp only [coords, int_dec (dec_limit hx'), int_dec (dec_limit hy')]
  congr 2
  · omega
  · congr 1; omega

theorem printable_message (pr : Char → Bool) (hpr : ∀ c, pr c = true → Printable c) (a : Str)
    (ha : ∀ c ∈ a, Printable c) (s : Str) : ∀ c ∈ a ++ reprOf pr s ++ [' '], Printable c := by
  intro c hc
  simp only [List.mem_append, List.mem_singleton] at hc
  rcases hc with (hc | hc) | rfl
  · exact ha c hc
  · exact printable_reprOf pr hpr s c hc
  · decide

/-- One iteration does to the display what the act should do. -/
theorem Inv.step {env : Color.Env} {den : Color → TColor} (hden : DenOk env den) (pr : Char → Bool)
    (hpr : ∀ c, pr c = true → Printable c) (bg : Color) {width height : Nat} (hw : 1 ≤ width) (hh : 2 ≤ height)
    (hsize : width < intLimit ∧ height < intLimit)
    {cv : Canvas} {w : World} {T : State} (h : Inv env den width height cv w T) (s : Str) (a : Act)
    (ha : a.Sent width height s) :
    ∃ w' out, Playground.step env pr bg (.text s) w = (w', out, .next) ∧
      Inv env den width height (a.paint (reprOf pr) width cv) w' (run T out) ∧ w'.scr.changes = [] := by
  cases a with
  | key name =>
    obtain ⟨⟨k, hk1, hk2⟩, hne, hmo⟩ := key_sent ha
    obtain ⟨hcc, -⟩ := ha
    obtain ⟨w1, o1, h1, hinv⟩ : ∃ w1 o1, (if name = ['c'] then Playground.draw true { w with scr := w.scr.clear [' '] }
        else (w, [])) = (w1, o1) ∧
        Inv env den width height (if name = ['c'] then Canvas.empty else cv) w1 (run T o1) := by
      split
      · exact ⟨_, _, rfl, h.clear⟩
      · exact ⟨_, _, rfl, h⟩
    obtain ⟨w2, n, h2, hinv2⟩ := hinv.write hden bg (" Keyboard: ".toList ++ reprOf pr name ++ [' ']) (by simp)
      (printable_message pr hpr _ (by decide) name) 0 0 (by omega) (by omega)
    obtain ⟨w3, o3, h3, hinv3, hch⟩ := hinv2.draw
    refine ⟨w3, o1 ++ o3, ?_, ?_, hch⟩
    · unfold Playground.step
      rw [hk1]
      simp only [hk2, if_neg hne]
      unfold body
      rw [if_neg hcc, h1]
      simp only [hmo, if_true]
      rw [show ([0, 0] : List Int) = [((0 : Nat) : Int), ((0 : Nat) : Int)] from rfl, h2]
      simp only [h3]
    · rw [run_append]
      simpa only [Act.paint, Nat.zero_mul, Nat.zero_add] using hinv3
  | mouse b x y pressed =>
    obtain ⟨rfl, he, hx1, hx2, hy1, hy2⟩ := ha
    obtain ⟨e, he⟩ := Option.isSome_iff_exists.mp he
    obtain ⟨n1, n2, n3, n4, n5⟩ := printable_name b x y pressed e he
    have hk1 : getch true false (.text (mouseReport b x y pressed)) = .ok ⟨[mouseName b x y pressed e]⟩ :=
      C54_mouse b x y pressed e he
    obtain ⟨w2, n, h2, hinv2⟩ := h.write hden bg (" Mouse: ".toList ++ reprOf pr (mouseName b x y pressed e) ++ [' '])
      (by simp) (printable_message pr hpr _ (by decide) _) 0 1 (by omega) (by omega)
    obtain ⟨w3, m, h3, hinv3⟩ := hinv2.write hden bg ['X'] (by simp) (by decide) (x - 1) (y - 1) (by omega) (by omega)
    obtain ⟨w4, o4, h4, hinv4, hch⟩ := hinv3.draw
    refine ⟨w4, o4, ?_, ?_, hch⟩
    · unfold Playground.step
      rw [hk1]
      simp only [Key.str, if_neg n4]
      unfold body
      rw [if_neg n2, if_neg n3]
      simp only [n1, Bool.true_eq_false, if_false, List.nil_append]
      unfold mouse
      rw [show ([0, 1] : List Int) = [((0 : Nat) : Int), ((1 : Nat) : Int)] from rfl, h2]
      simp only [n5, coords_dec x y hx1 hy1 (by omega) (by omega), h3, h4]
    · simpa only [Act.paint, he, Nat.one_mul, Nat.add_zero] using hinv4

theorem Inv.init (env : Color.Env) (den : Color → TColor) (width height : Nat) (cache : CharCache)
    (hcache : CacheOk cache) (T : State) (hT : T.mode = .ground) (hpen : T.pen = Attr.clean) :
    Inv env den width height Canvas.empty { scr := Screen.init width height, cache := cache } T :=
  ⟨Sync.init den 1 1 width height (0, 0) (by decide) T hT hpen, hcache, rfl, rfl, rfl,
    fun x y hx hy => init_cellAt width height (0, 0) [' '] x y hx hy⟩

theorem Inv.loop {env : Color.Env} {den : Color → TColor} (hden : DenOk env den) (pr : Char → Bool)
    (hpr : ∀ c, pr c = true → Printable c) (bg : Color) {width height : Nat} (hw : 1 ≤ width) (hh : 2 ≤ height)
    (hsize : width < intLimit ∧ height < intLimit)
    {acts : List Act} {texts : List Str} (ha : List.Forall₂ (fun a s => a.Sent width height s) acts texts)
    {cv : Canvas} {w : World} {T : State} (h : Inv env den width height cv w T) :
    ∃ w' out, (∀ more, Playground.loop env pr bg (texts.map .text ++ more) w =
        ((Playground.loop env pr bg more w').1, out ++ (Playground.loop env pr bg more w').2.1,
          (Playground.loop env pr bg more w').2.2)) ∧
      Inv env den width height (acts.foldl (Act.paint (reprOf pr) width) cv) w' (run T out) ∧
      (acts ≠ [] → w'.scr.changes = []) := by
  induction ha generalizing cv w T with
  | nil => exact ⟨w, [], fun more => rfl, h, fun h => absurd rfl h⟩
  | @cons a s acts texts h1 _ ih =>
    obtain ⟨w1, o1, hs, hinv, hch⟩ := h.step hden pr hpr bg hw hh hsize s a h1
    obtain ⟨w2, o2, hl, hinv2, hch2⟩ := ih hinv
    refine ⟨w2, o1 ++ o2, ?_, ?_, fun _ => ?_⟩
    · intro more
      rw [List.map_cons, List.cons_append, Playground.loop, hs]
      simp only [hl more, List.append_assoc]
    · rw [run_append]; exact hinv2
    · cases acts with
      | nil =>
        cases texts with
        | nil =>
          have := hl []
          simp only [List.map_nil, List.append_nil, Playground.loop, Prod.mk.injEq] at this
          rw [← this.1]; exact hch
        | cons t ts => rename_i h; cases h
      | cons b bs => exact hch2 (by simp)

theorem glyph_cellOf (den : Color → TColor) (o : Option Char) (h : ∀ c, o = some c → Printable c) :
    cellGlyph den (cellOf o) = look { Attr.clean with fg := den Color.white } o := by
  cases o with
  | none => rfl
  | some c =>
    have := C01_cell_look den {} c false (h c rfl) (some Color.white) none
    exact this

theorem Canvas.put_printable {cv : Canvas} (h : ∀ k c, cv k = some c → Printable c) {t : Str}
    (ht : ∀ c ∈ t, Printable c) (i : Nat) : ∀ k c, cv.put t i k = some c → Printable c := by
  intro k c hc
  unfold Canvas.put at hc
  split at hc
  · exact ht c (List.mem_of_getElem? hc)
  · exact h k c hc

theorem paint_printable (pr : Char → Bool) (hpr : ∀ c, pr c = true → Printable c) (width : Nat) (acts : List Act)
    {cv : Canvas} (h : ∀ k c, cv k = some c → Printable c) :
    ∀ k c, acts.foldl (Act.paint (reprOf pr) width) cv k = some c → Printable c := by
  induction acts generalizing cv with
  | nil => exact h
  | cons a acts ih =>
    refine ih ?_
    cases a with
    | key name =>
      refine Canvas.put_printable ?_ (printable_message pr hpr _ (by decide) name) 0
      split
      · intro k c hc; cases hc
      · exact h
    | mouse b x y pressed =>
      simp only [Act.paint]
      cases mouseEv b with
      | none => exact h
      | some e => exact Canvas.put_printable (Canvas.put_printable h (printable_message pr hpr _ (by decide) _) _) (by decide) _

end Playground

open Playground

/-! ## C91 -/

/-- **C91** (partial: other inputs end the loop with an exception or misplace the mark, and names are not erased, see
below). On a new screen of at least one column and two rows (and of numbers that Python reads, at most 4300 digits), for every sequence of keys and of mouse events inside the
screen, sent as a terminal sends them: the loop does not end, and the terminal shows exactly what the acts paint, in
the colour that stands for white. -/
theorem C91_session_partial (env : Color.Env) (den : Color → TColor) (hden : DenOk env den) (pr : Char → Bool)
    (hpr : ∀ c, pr c = true → Printable c) (bg : Color) (width height : Nat) (hw : 1 ≤ width) (hh : 2 ≤ height)
    (hsize : width < intLimit ∧ height < intLimit)
    (cache : CharCache) (hcache : CacheOk cache) (T : State) (hT : T.mode = .ground) (hpen : T.pen = Attr.clean)
    (acts : List Act) (texts : List Str) (ha : List.Forall₂ (fun a s => a.Sent width height s) acts texts)
    (hne : acts ≠ []) :
    ∃ w out, loop env pr bg (texts.map .text) { scr := Screen.init width height, cache := cache } = (w, out, .next) ∧
      ∀ x y, x < width → y < height → (run T out).grid (y + 1) (x + 1) =
        look { Attr.clean with fg := den Color.white }
          (acts.foldl (Act.paint (reprOf pr) width) Canvas.empty (y * width + x)) := by
  obtain ⟨w, out, hl, hinv, hch⟩ := (Inv.init env den width height cache hcache T hT hpen).loop hden pr hpr bg hw hh hsize ha
  refine ⟨w, out, ?_, ?_⟩
  · have := hl []
    simpa [Playground.loop] using this
  · intro x y hx hy
    rw [hinv.sync.shown x y _ (by rw [hch hne]; rfl) (hinv.cells x y hx hy)]
    refine glyph_cellOf den _ ?_
    exact paint_printable pr hpr width acts (by intro k c hc; cases hc) _

/-- **C91**: in particular, after a mouse event there is an X in the cell where the mouse is, whatever happened
before. -/
theorem C91_mark (env : Color.Env) (den : Color → TColor) (hden : DenOk env den) (pr : Char → Bool)
    (hpr : ∀ c, pr c = true → Printable c) (bg : Color) (width height : Nat) (hw : 1 ≤ width) (hh : 2 ≤ height)
    (hsize : width < intLimit ∧ height < intLimit)
    (T : State) (hT : T.mode = .ground) (hpen : T.pen = Attr.clean)
    (acts : List Act) (texts : List Str) (ha : List.Forall₂ (fun a s => a.Sent width height s) acts texts)
    (b x y : Nat) (pressed : Bool) (hb : (mouseEv b).isSome) (hx : 1 ≤ x ∧ x ≤ width) (hy : 1 ≤ y ∧ y ≤ height) :
    ∃ w out, loop env pr bg (texts.map .text ++ [.text (mouseReport b x y pressed)])
        { scr := Screen.init width height } = (w, out, .next) ∧
      (run T out).grid y x = { ch := 'X', attr := { Attr.clean with fg := den Color.white } } := by
  have hm : (Act.mouse b x y pressed).Sent width height (mouseReport b x y pressed) :=
    ⟨rfl, hb, hx.1, hx.2, hy.1, hy.2⟩
  obtain ⟨w, out, h1, h2⟩ := C91_session_partial env den hden pr hpr bg width height hw hh hsize [] (by intro e he; simp at he)
    T hT hpen (acts ++ [.mouse b x y pressed]) (texts ++ [mouseReport b x y pressed])
    (List.rel_append ha (.cons hm .nil)) (by simp)
  refine ⟨w, out, by simpa using h1, ?_⟩
  have := h2 (x - 1) (y - 1) (by omega) (by omega)
  rw [show y - 1 + 1 = y by omega, show x - 1 + 1 = x by omega] at this
  rw [this, List.foldl_append]
  obtain ⟨e, he⟩ := Option.isSome_iff_exists.mp hb
  simp only [List.foldl_cons, List.foldl_nil, Act.paint, he]
  simp [Canvas.put, look]

/-- **C91**: ctrl-c ends the loop, as a key or as a signal, and so does empty input; nothing more is sent. -/
theorem C91_end (env : Color.Env) (den : Color → TColor) (hden : DenOk env den) (pr : Char → Bool)
    (hpr : ∀ c, pr c = true → Printable c) (bg : Color) (width height : Nat) (hw : 1 ≤ width) (hh : 2 ≤ height)
    (hsize : width < intLimit ∧ height < intLimit)
    (acts : List Act) (texts : List Str) (ha : List.Forall₂ (fun a s => a.Sent width height s) acts texts)
    (last : Input) (hlast : last = .interrupt ∨ last = .text ['\x03'] ∨ last = .text []) (more : List Input) :
    ∃ w out, loop env pr bg (texts.map .text) { scr := Screen.init width height } = (w, out, .next) ∧
      loop env pr bg (texts.map .text ++ last :: more) { scr := Screen.init width height } = (w, out, .stop) := by
  obtain ⟨w, out, hl, -⟩ := (Inv.init env den width height [] (by intro e he; simp at he)
    { grid := fun _ _ => { ch := ' ', attr := Attr.clean } } rfl rfl).loop hden pr hpr bg hw hh hsize ha
  refine ⟨w, out, ?_, ?_⟩
  · have := hl []
    simpa [Playground.loop] using this
  · have hstep : Playground.step env pr bg last w = (w, [], .stop) := by
      have hk : getch true false last = .ok ⟨["ctrl-c".toList]⟩ ∨ getch true false last = .ok ⟨[[]]⟩ := by
        rcases hlast with rfl | rfl | rfl <;> decide +kernel
      unfold Playground.step
      rcases hk with hk | hk <;> rw [hk] <;> rfl
    have hloop : Playground.loop env pr bg (last :: more) w = (w, [], .stop) := by
      rw [Playground.loop, hstep]
    rw [hl, hloop]
    simp

/-- **C91 violated**: a button that the library has no name for ends the loop with a `KeyError`, for instance the
middle one (1). -/
theorem C91_button_violated (env : Color.Env) (pr : Char → Bool) (bg : Color) (w : World) (b x y : Nat)
    (pressed : Bool) (hb : mouseEv b = none) (more : List Input) :
    loop env pr bg (.text (mouseReport b x y pressed) :: more) w = (w, [], .raised .keyError) ∧ mouseEv 1 = none := by
  have hg : getch true false (.text (mouseReport b x y pressed)) = .error .keyError := by
    have hesc : '\x1b' ∉ ['[', '<'] ++ (dec b ++ ';' :: (dec x ++ ';' :: (dec y ++ [if pressed then 'M' else 'm']))) := by
      simp only [List.mem_append, List.mem_cons, not_or]
      refine ⟨by decide, dec_not_mem (by decide), by decide, dec_not_mem (by decide), by decide, dec_not_mem (by decide), ?_⟩
      cases pressed <;> decide
    refine (C54_exceptions _ (['[', '<'] ++ (dec b ++ ';' :: (dec x ++ ';' :: (dec y ++ [if pressed then 'M' else 'm']))))
      (.inl ⟨[], by simp [mouseReport], ?_⟩) .keyError).mpr
      ⟨dec b, dec x, dec y ++ [if pressed then 'M' else 'm'], ⟨['[', '<'], by simp, rfl, ?_, dec_not_mem (by decide),
        dec_not_mem (by decide), ?_⟩, .inr ⟨by simp, ?_, rfl⟩⟩
    · intro h
      exact hesc (h.subset (List.mem_singleton_self _))
    · intro c hc
      have hd := dec_isDig (List.mem_of_mem_head? hc)
      refine ⟨?_, ?_, ?_⟩ <;> rintro rfl <;> exact absurd hd (by decide)
    · simp only [List.mem_append, not_or]
      refine ⟨dec_not_mem (by decide), ?_⟩
      cases pressed <;> decide
    · rintro ⟨b', e, h, he⟩
      rw [dec_inj h] at hb
      rw [hb] at he; cases he
  refine ⟨?_, rfl⟩
  rw [Playground.loop, Playground.step, hg]

/-- **C91 violated**: pasting the text "mouse:" ends the loop with a `ValueError`. -/
theorem C91_paste_violated (env : Color.Env) (den : Color → TColor) (hden : DenOk env den) (pr : Char → Bool)
    (hpr : ∀ c, pr c = true → Printable c) (bg : Color) (width height : Nat) (hw : 1 ≤ width) (hh : 2 ≤ height)
    (more : List Input) :
    ∃ w, loop env pr bg (.text "mouse:".toList :: more) { scr := Screen.init width height } =
      (w, [], .raised .valueError) := by
  have hk : getch true false (.text "mouse:".toList) = .ok ⟨["mouse:".toList]⟩ := by decide +kernel
  obtain ⟨w2, n, h2, -⟩ := (Inv.init env den width height [] (by intro e he; simp at he)
    { grid := fun _ _ => { ch := ' ', attr := Attr.clean } } rfl rfl).write hden bg
      (" Mouse: ".toList ++ reprOf pr "mouse:".toList ++ [' ']) (by simp)
      (printable_message pr hpr _ (by decide) _) 0 1 (by omega) (by omega)
  refine ⟨w2, ?_⟩
  rw [Playground.loop, Playground.step, hk]
  have hc : coords (splitC ';' ((splitC '@' "mouse:".toList).getLastD [])) = .error .valueError := by decide +kernel
  have hm : mouse env pr bg "mouse:".toList { scr := Screen.init width height } = (w2, .error .valueError) := by
    unfold mouse
    rw [show ([0, 1] : List Int) = [((0 : Nat) : Int), ((1 : Nat) : Int)] from rfl, h2]
    simp only [hc]
  have hb : body env pr bg "mouse:".toList { scr := Screen.init width height } = (w2, [], .raised .valueError) := by
    unfold body
    rw [if_neg (by decide), if_neg (by decide)]
    simp only [show startsWith "mouse:".toList "mouse:".toList = true from by decide, Bool.true_eq_false, if_false, hm]
  simp only [Key.str, if_neg (show "mouse:".toList ≠ [] by decide), hb]

/-- **C91 violated**: the name of a key is not erased before the next one is written. After backspace and "a" the first row
reads `Keyboard: 'a' kspace'`. -/
theorem C91_stale_violated :
    let w : World := { scr := Screen.init 24 2 }
    let T : State := { grid := fun _ _ => { ch := ' ', attr := Attr.clean } }
    let r := loop {} (fun _ => true) Color.black [.text ['\x7f'], .text ['a']] w
    r.2.2 = .next ∧
    (List.range 24).map (fun x => ((run T r.2.1).grid 1 (x + 1)).ch) = " Keyboard: 'a' kspace'  ".toList := by
  decide +kernel

/-- **C91 violated**: after the window has grown, the screen is not resized, and an event below the screen is marked in its last
row (and the message torn apart by a line break). -/
theorem C91_below_violated :
    let w : World := { scr := Screen.init 4 2 }
    let T : State := { grid := fun _ _ => { ch := ' ', attr := Attr.clean } }
    let r := loop {} (fun _ => true) Color.black [.text (mouseReport 0 2 3 true)] w
    r.2.2 = .next ∧ ((run T r.2.1).grid 3 2).ch ≠ 'X' ∧ ((run T r.2.1).grid 2 2).ch = 'X' := by
  decide +kernel

/-- A session: a typed character, an arrow key, a click, moving, "c" to clear, another click. -/
example : List.Forall₂ (fun a s => Act.Sent 20 4 s a)
    [.key ['a'], .key "up".toList, .mouse 0 3 4 true, .mouse 35 20 1 true, .key ['c'], .mouse 16 1 1 false]
    [['a'], "\x1b[A".toList, "\x1b[<0;3;4M".toList, "\x1b[<35;20;1M".toList, ['c'], "\x1b[<16;1;1m".toList] := by
  have single : ∀ c : Char, (∀ p ∈ posixKeyNames, p.1 ≠ [c]) → c ≠ '\x1b' → [c] ≠ "ctrl-c".toList →
      (Act.key [c]).Sent 20 4 [c] := by
    intro c h1 h2 h3
    refine ⟨h3, .inr ⟨rfl, by simp, h1, ?_, ?_⟩⟩
    · rintro t (⟨pre, h, -⟩ | ⟨-, rfl⟩)
      · have h1 := congrArg List.length h
        have := List.count_le_length (a := ';') (l := t)
        simp at h1; omega
      · have := List.count_le_length (a := ';') (l := [c])
        simp only [List.length_singleton] at this; omega
    · intro h
      have := h.length_le
      simp at this
  refine .cons (single 'a' (by decide +kernel) (by decide) (by decide)) (.cons ⟨by decide, .inl ⟨["arrow-up".toList], by decide +kernel⟩⟩
    (.cons ⟨by decide, rfl, by omega, by omega, by omega, by omega⟩ (.cons ⟨by decide, rfl, by omega, by omega, by omega, by omega⟩
    (.cons (single 'c' (by decide +kernel) (by decide) (by decide)) (.cons ⟨by decide, rfl, by omega, by omega, by omega, by omega⟩ .nil)))))

end Slate
