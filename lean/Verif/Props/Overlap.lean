import Verif.Props.Desktop3

/-!
# C122: screens on top of each other
-/

namespace Slate
open Py Term

/-- `Sync` without what the terminal shows. -/
structure HalfSync (den : Color → TColor) (s : Screen) (T : State) : Prop where
  shape : Shape s.width s.height s.cells
  nodup : s.changes.keys.Nodup
  inside : ∀ k ∈ s.changes.keys, k.1 < s.width ∧ k.2 < s.height
  ground : T.mode = .ground
  clean : T.pen = Attr.clean
  pend : ∀ x y str cell, List.lookup (x, y) s.changes = some str → cellAt s.cells x y = some cell → Prints str (cellGlyph den cell)

theorem Sync.halfSync {den : Color → TColor} {ox oy : Nat} {s : Screen} {T : State} (h : Sync den ox oy s T) : HalfSync den s T :=
  ⟨h.shape, h.nodup, h.inside, h.ground, h.clean, h.pend⟩

/-- Some terminal shows the screen. -/
theorem HalfSync.sync {den : Color → TColor} {s : Screen} {T : State} (h : HalfSync den s T) (ox oy : Nat) :
    ∃ g, Sync den ox oy s { T with grid := g } := by
  refine ⟨fun r c => ((cellAt s.cells (c - ox) (r - oy)).map (cellGlyph den)).getD (T.grid r c),
    ⟨h.shape, h.nodup, h.inside, h.ground, h.clean, h.pend, fun x y cell _ hc => ?_⟩⟩
  show ((cellAt s.cells (x + ox - ox) (y + oy - oy)).map (cellGlyph den)).getD _ = _
  rw [Nat.add_sub_cancel, Nat.add_sub_cancel, hc]
  rfl

/-- Everything is still to be drawn. -/
def AllPending (s : Screen) : Prop := ∀ x y, x < s.width → y < s.height → List.lookup (x, y) s.changes ≠ none

theorem HalfSync.full {den : Color → TColor} {s : Screen} {T : State} (h : HalfSync den s T) (ha : AllPending s) (ox oy : Nat) :
    Sync den ox oy s T :=
  ⟨h.shape, h.nodup, h.inside, h.ground, h.clean, h.pend, fun x y cell hl hc => by
    obtain ⟨b1, b2⟩ := h.shape.cellAt_isSome.mp (by rw [hc]; rfl)
    exact absurd hl (ha x y b1 b2)⟩

theorem HalfSync.exec {env : Color.Env} {den : Color → TColor} (hden : DenOk env den) {ox oy : Nat} (hx : 1 ≤ ox) (hy : 1 ≤ oy) {s : Sys}
    (h : HalfSync den s.w.scr s.term) (hc : CacheOk s.w.cache) {op : Op} (hop : OpOk (SpanOk env den) op)
    (ho : (Slate.exec env (ox, oy) s op).w.scr.offset = s.w.scr.offset) :
    HalfSync den (Slate.exec env (ox, oy) s op).w.scr (Slate.exec env (ox, oy) s op).term ∧ CacheOk (Slate.exec env (ox, oy) s op).w.cache := by
  obtain ⟨g, hg⟩ := h.sync ox oy
  obtain ⟨h1, h2⟩ := Sync.exec hden hx hy (s := { w := s.w, term := { s.term with grid := g } }) hg hc (op := op) hop (by
    cases op <;> exact ho)
  cases op with
  | write => exact ⟨⟨h1.shape, h1.nodup, h1.inside, h.ground, h.clean, h1.pend⟩, h2⟩
  | writeBulk => exact ⟨⟨h1.shape, h1.nodup, h1.inside, h.ground, h.clean, h1.pend⟩, h2⟩
  | clear => exact ⟨⟨h1.shape, h1.nodup, h1.inside, h.ground, h.clean, h1.pend⟩, h2⟩
  | draw =>
    have hpr : ∀ e ∈ s.w.scr.changes, Prints e.2 (cellGlyph den ((cellAt s.w.scr.cells e.1.1 e.1.2).getD { char := [] })) := by
      rintro ⟨⟨x, y⟩, str⟩ he
      have hk : (x, y) ∈ s.w.scr.changes.keys := List.mem_map_of_mem (f := (·.1)) he
      obtain ⟨b1, b2⟩ := h.inside _ hk
      obtain ⟨cell, hcell⟩ := h.shape.exists_cell b1 b2
      simp only [hcell, Option.getD_some]
      exact h.pend x y str cell ((Changes.lookup_eq_some_iff _ h.nodup _ _).mpr he) hcell
    obtain ⟨r1, r2, -⟩ := run_render ox oy hx hy
      (fun k => cellGlyph den ((cellAt s.w.scr.cells k.1 k.2).getD { char := [] })) s.w.scr hpr s.term h.ground h.clean
    exact ⟨⟨h1.shape, h1.nodup, h1.inside, r1, r2, h1.pend⟩, h2⟩

theorem clear_allPending (s : Screen) (c : Char) : AllPending (s.clear [c]) := by
  intro x y hx hy
  show List.lookup (x, y) ((positions s.width s.height).foldl (fun (ch : Changes) p => ch.insert p [c]) s.changes) ≠ none
  rw [foldl_insert_lookup, if_pos (mem_positions.mpr ⟨hx, hy⟩)]
  simp

theorem exec_allPending {env : Color.Env} {o : Int × Int} {s : Sys} (hs : Shape s.w.scr.width s.w.scr.height s.w.scr.cells)
    (hc : CacheOk s.w.cache) (ha : AllPending s.w.scr) {op : Op} (hd : op ≠ .draw)
    (ho : (Slate.exec env o s op).w.scr.offset = s.w.scr.offset) : AllPending (Slate.exec env o s op).w.scr := by
  have hwb : ∀ data tb force, (writeBulk env data tb force s.w).1.scr.offset = s.w.scr.offset →
      AllPending (writeBulk env data tb force s.w).1.scr := by
    intro data tb force ho
    rcases (writeBulk_still env data tb force s.w hs hc ho).2 with ⟨-, h2, -⟩ | ⟨d, -, -, h2⟩
    · rw [h2]; exact ha
    · intro x y hx hy
      rw [h2.width] at hx
      rw [h2.height] at hy
      rw [h2.pending]
      cases outcome tb (fillData s.w.scr.width s.w.scr.height s.w.scr.offset d Mats.blank) s.w.scr (x, y) with
      | none => exact ha x y hx hy
      | some r => simp
  cases op with
  | write => exact hwb _ _ _ ho
  | writeBulk => exact hwb _ _ _ ho
  | clear => exact clear_allPending _ _
  | draw => exact absurd rfl hd

section
variable (env : Color.Env) (org size : Nat → Nat × Nat) (cur : Nat → Int × Int) (fill : Nat → Char) (T : State)

/-- Screens that do not scroll, on top of each other or not. -/
theorem Desktop.halves (den : Color → TColor) (hden : DenOk env den) (horg : ∀ i, 1 ≤ (org i).1 ∧ 1 ≤ (org i).2)
    (hfill : ∀ i, Printable (fill i)) (hT : T.mode = .ground) (hpen : T.pen = Attr.clean) (calls : List (Nat × Op))
    (hops : ∀ c ∈ calls, OpOk (SpanOk env den) c.2)
    (ho : ∀ i, (((Desktop.new size cur fill T).runAll env org calls).scr i).offset = 0) :
    let d := (Desktop.new size cur fill T).runAll env org calls
    (∀ i, HalfSync den (d.scr i) d.term) ∧ CacheOk d.cache ∧
    ∀ i pre mid f, calls = pre ++ (i, .clear f) :: mid → (∀ c ∈ mid, c ≠ (i, .draw)) → AllPending (d.scr i) := by
  induction calls using List.reverseRecOn with
  | nil =>
    refine ⟨fun i => (Sync.init den 1 1 _ _ (cur i) (hfill i) T hT hpen).halfSync, (by intro e he; cases he), ?_⟩
    intro i pre mid f h
    simp at h
  | append_singleton calls c ih =>
    obtain ⟨j, op⟩ := c
    have hsz := fun i => Desktop.runAll_shape env org size cur fill T calls i
    rw [Desktop.runAll_snoc] at ho ⊢
    generalize (Desktop.new size cur fill T).runAll env org calls = d at ih ho hsz ⊢
    simp only at hsz
    have hshape : Shape (d.scr j).width (d.scr j).height (d.scr j).cells := by
      rw [(hsz j).1, (hsz j).2.1]; exact (hsz j).2.2.1
    obtain ⟨f1, f2, f3, -⟩ := exec_frame env ((org j).1, (org j).2) { w := { scr := d.scr j, cache := d.cache }, term := d.term } op hshape
    have hoj := ho j
    rw [Desktop.run_self] at hoj
    have hdj : (d.scr j).offset = 0 := by
      have f3' : (d.scr j).offset ≤ _ := f3
      rw [hoj] at f3'
      have := (hsz j).2.2.2
      omega
    have hd : ∀ i, (d.scr i).offset = 0 := by
      intro i
      by_cases hij : i = j
      · rw [hij]; exact hdj
      · rw [← Desktop.run_other env org d i j op hij]; exact ho i
    obtain ⟨hhalf, hcache, hall⟩ := ih (fun c hc => hops c (by simp [hc])) hd
    obtain ⟨g1, g2⟩ := HalfSync.exec hden (horg j).1 (horg j).2 (s := { w := { scr := d.scr j, cache := d.cache }, term := d.term })
      (hhalf j) hcache (op := op) (hops (j, op) (by simp)) (by rw [hoj]; exact hdj.symm)
    refine ⟨fun i => ?_, g2, ?_⟩
    · by_cases hij : i = j
      · subst hij
        rw [Desktop.run_self]
        exact g1
      · rw [Desktop.run_other env org d i j op hij]
        have hs := hhalf i
        exact ⟨hs.shape, hs.nodup, hs.inside, g1.ground, g1.clean, hs.pend⟩
    · intro i pre mid f hcalls hmid
      rcases List.eq_nil_or_concat mid with rfl | ⟨mid', c', rfl⟩
      · obtain ⟨-, h2⟩ := List.append_inj' hcalls rfl
        simp only [List.cons.injEq, Prod.mk.injEq, and_true] at h2
        obtain ⟨rfl, rfl⟩ := h2
        rw [Desktop.run_self]
        exact clear_allPending _ _
      · rw [List.concat_eq_append, ← List.cons_append, ← List.append_assoc] at hcalls
        obtain ⟨h1, h2⟩ := List.append_inj' hcalls rfl
        simp only [List.cons.injEq, and_true] at h2
        subst h2
        have hp := hall i pre mid' f h1 fun c hc => hmid c (by simp [hc])
        by_cases hij : i = j
        · subst hij
          rw [Desktop.run_self]
          refine exec_allPending hshape hcache hp ?_ (by rw [hoj]; exact hdj.symm)
          rintro rfl
          exact hmid (i, .draw) (by simp) rfl
        · rw [Desktop.run_other env org d i j op hij]
          exact hp

/-- **C122** (partial: only for a screen that was cleared, `C122_hidden_violated`): whatever other screens have drawn at its place, a screen that
is cleared and later drawn is shown completely, also if the others drew after the clear. -/
theorem C122_cleared_partial (den : Color → TColor) (hden : DenOk env den) (horg : ∀ i, 1 ≤ (org i).1 ∧ 1 ≤ (org i).2)
    (hfill : ∀ i, Printable (fill i)) (hT : T.mode = .ground) (hpen : T.pen = Attr.clean) (i : Nat) (f : Char) (pre mid : List (Nat × Op))
    (hmid : ∀ c ∈ mid, c ≠ (i, .draw)) (hops : ∀ c ∈ pre ++ (i, .clear f) :: mid, OpOk (SpanOk env den) c.2) :
    let d := Desktop.runAll env org { scr := fun i => Screen.init (size i).1 (size i).2 (cur i) [fill i], term := T }
      (pre ++ (i, .clear f) :: mid ++ [(i, .draw)])
    (∀ j, (d.scr j).offset = 0) →
    ∀ x y, x < (size i).1 → y < (size i).2 → ∃ cell, cellAt (d.scr i).cells x y = some cell ∧
      d.term.grid (y + (org i).2) (x + (org i).1) = cellGlyph den cell := by
  intro d ho x y hx hy
  have hd : d = ((Desktop.new size cur fill T).runAll env org (pre ++ (i, .clear f) :: mid)).run env org (i, .draw) :=
    Desktop.runAll_snoc env org _ _ _
  have ho' : ∀ j, (((Desktop.new size cur fill T).runAll env org (pre ++ (i, .clear f) :: mid)).scr j).offset = 0 := by
    intro j
    have := ho j
    rw [hd] at this
    by_cases hij : j = i
    · subst hij
      rw [Desktop.run_self] at this
      exact this
    · rw [Desktop.run_other env org _ j i .draw hij] at this
      exact this
  obtain ⟨h1, -, h3⟩ := Desktop.halves env org size cur fill T den hden horg hfill hT hpen _ hops ho'
  obtain ⟨-, -, hsh, -⟩ := Desktop.runAll_shape env org size cur fill T (pre ++ (i, .clear f) :: mid) i
  generalize (Desktop.new size cur fill T).runAll env org (pre ++ (i, .clear f) :: mid) = e at hd h1 h3 hsh
  have hs := ((h1 i).full (h3 i pre mid f rfl hmid) (org i).1 (org i).2).draw (horg i).1 (horg i).2
  obtain ⟨cell, hcell⟩ := hsh.exists_cell hx hy
  refine ⟨cell, ?_, ?_⟩
  · rw [hd, Desktop.run_self]
    exact hcell
  · rw [hd]
    exact hs.shown x y cell rfl hcell

end

/-- C122 is violated by every screen that has been drawn: after that, whatever other screens draw at its place and whatever else happens to the
terminal, drawing it again changes nothing on the terminal. -/
theorem C122_hidden_violated (env : Color.Env) (org : Nat → Nat × Nat) (d : Desktop) (i : Nat) (others : List (Nat × Op))
    (hothers : ∀ c ∈ others, c.1 ≠ i) :
    let d1 := (d.run env org (i, .draw)).runAll env org others
    d1.term.mode = .ground → (d1.run env org (i, .draw)).term.grid = d1.term.grid := by
  intro d1 hm
  have h1 : (d1.scr i).changes = [] := by
    rw [show d1.scr i = (d.run env org (i, .draw)).scr i from Desktop.runAll_others env org _ i others hothers, Desktop.run_self]
    rfl
  show (run d1.term ((d1.scr i).render ((org i).1, (org i).2)).2).grid = _
  have e : ((d1.scr i).render ((org i).1, (org i).2)).2 = RESET := by
    unfold Screen.render
    rw [h1]
    rfl
  rw [e]
  have := run_reset d1.term [] hm
  rw [List.append_nil] at this
  rw [this]
  rfl

/-- Two screens of 3 columns and 1 row in the same place: the second one covers the first, which comes back only after a clear. -/
def C122ex.org (_ : Nat) : Nat × Nat := (1, 1)
def C122ex.covered : List (Nat × Op) :=
  [(0, C121ex.put ['a', 'b'] 0 0), (0, .draw), (1, C121ex.put ['x'] 1 0), (1, .draw)]

example :
    let shown := fun calls => let d := Desktop.runAll {} C122ex.org C121ex.new calls
      [d.term.grid 1 1, d.term.grid 1 2, d.term.grid 1 3].map (·.ch)
    shown (C122ex.covered ++ [(0, .draw)]) = [' ', 'x', ' '] ∧
    shown (C122ex.covered ++ [(0, .clear '.')] ++ [(0, C121ex.put ['a', 'b'] 0 0), (1, C121ex.put ['y'] 2 0), (1, .draw)] ++ [(0, .draw)]) =
      ['a', 'b', '.'] := by
  decide +kernel

end Slate
