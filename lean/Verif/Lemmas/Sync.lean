import Verif.Spec.History
import Verif.Lemmas.Write

/-! The invariant connecting screen and terminal. -/

namespace Slate
open Py Term

/-- Every cell is either pending with a string that prints it, or shown. -/
structure Sync (den : Color → TColor) (ox oy : Nat) (s : Screen) (T : State) : Prop where
  shape : Shape s.width s.height s.cells
  nodup : s.changes.keys.Nodup
  inside : ∀ k ∈ s.changes.keys, k.1 < s.width ∧ k.2 < s.height
  ground : T.mode = .ground
  clean : T.pen = Attr.clean
  pend : ∀ x y str cell, List.lookup (x, y) s.changes = some str →
    cellAt s.cells x y = some cell → Prints str (cellGlyph den cell)
  shown : ∀ x y cell, List.lookup (x, y) s.changes = none →
    cellAt s.cells x y = some cell → T.grid (y + oy) (x + ox) = cellGlyph den cell

/-! #### resize / clear / init -/

theorem foldl_insert_lookup (ps : List (Nat × Nat)) (fill : Str) (ch : Changes) (k : Nat × Nat) :
    List.lookup k (ps.foldl (fun (ch : Changes) p => ch.insert p fill) ch) =
      if k ∈ ps then some fill else List.lookup k ch := by
  induction ps generalizing ch with
  | nil => simp
  | cons p ps ih =>
    rw [List.foldl_cons, ih, Changes.lookup_insert]
    by_cases h1 : k ∈ ps
    · simp [h1]
    · by_cases h2 : k = p <;> simp [h1, h2]

theorem foldl_insert_nodup (ps : List (Nat × Nat)) (fill : Str) (ch : Changes)
    (h : ch.keys.Nodup) : Changes.keys (ps.foldl (fun (ch : Changes) p => ch.insert p fill) ch) |>.Nodup := by
  induction ps generalizing ch with
  | nil => exact h
  | cons p ps ih => exact ih _ (Changes.nodup_insert _ _ _ h)

theorem foldl_insert_keys (ps : List (Nat × Nat)) (fill : Str) (ch : Changes) (k : Nat × Nat) :
    k ∈ Changes.keys (ps.foldl (fun (ch : Changes) p => ch.insert p fill) ch) ↔ k ∈ ps ∨ k ∈ ch.keys := by
  rw [← Changes.lookup_isSome, foldl_insert_lookup, ← Changes.lookup_isSome]
  by_cases h : k ∈ ps <;> simp [h]

theorem resize_shape (s : Screen) (w h : Nat) (fill : Str) (keep : Bool) :
    Shape w h (s.resize (w, h) fill keep).cells where
  rows := by simp [Screen.resize]
  cols := by
    intro row hr
    simp only [Screen.resize, List.mem_map, List.mem_range] at hr
    obtain ⟨y, -, rfl⟩ := hr
    simp

theorem resize_cellAt (s : Screen) (w h : Nat) (fill : Str) (keep : Bool) (x y : Nat)
    (hx : x < w) (hy : y < h) :
    cellAt (s.resize (w, h) fill keep).cells x y = some
      (if keep then (cellAt s.cells x y).getD { char := fill } else { char := fill }) := by
  unfold cellAt Screen.resize
  simp only [List.getElem?_map, List.getElem?_range hy, Option.map_some, List.getElem?_range hx]
  rfl

theorem clear_cellAt (s : Screen) (fill : Str) (x y : Nat) (hx : x < s.width) (hy : y < s.height) :
    cellAt (s.clear fill).cells x y = some { char := fill } := by
  have := resize_cellAt s s.width s.height fill false x y hx hy
  simpa [Screen.clear] using this

theorem init_cellAt (w h : Nat) (cur : Int × Int) (fill : Str) (x y : Nat) (hx : x < w)
    (hy : y < h) : cellAt (Screen.init w h cur fill).cells x y = some { char := fill } := by
  unfold Screen.init
  rw [resize_cellAt _ w h fill true x y hx hy]
  simp [cellAt]

theorem Sync.clear {den : Color → TColor} {ox oy : Nat} {s : Screen} {T : State}
    (h : Sync den ox oy s T) {c : Char} (hc : Printable c) : Sync den ox oy (s.clear [c]) T where
  shape := resize_shape s s.width s.height [c] false
  nodup := foldl_insert_nodup _ _ _ h.nodup
  inside := by
    intro k hk
    rcases (foldl_insert_keys _ _ _ _).mp hk with hk | hk
    · exact mem_positions.mp hk
    · exact h.inside k hk
  ground := h.ground
  clean := h.clean
  pend := by
    intro x y str cell hl hcell
    have hb := (resize_shape s s.width s.height [c] false).cellAt_isSome (x := x) (y := y) |>.mp
      (Option.isSome_iff_exists.mpr ⟨cell, hcell⟩)
    have := clear_cellAt s [c] x y hb.1 hb.2
    rw [hcell] at this
    injection this with this
    subst this
    have hl' := foldl_insert_lookup (positions s.width s.height) [c] s.changes (x, y)
    rw [if_pos (mem_positions.mpr hb)] at hl'
    have : str = [c] := by
      have e : some str = some [c] := hl.symm.trans hl'
      injection e
    subst this
    exact prints_fill den hc
  shown := by
    intro x y cell hl hcell
    have hb := (resize_shape s s.width s.height [c] false).cellAt_isSome (x := x) (y := y) |>.mp
      (Option.isSome_iff_exists.mpr ⟨cell, hcell⟩)
    have hl' := foldl_insert_lookup (positions s.width s.height) [c] s.changes (x, y)
    rw [if_pos (mem_positions.mpr hb)] at hl'
    have e : none = some [c] := hl.symm.trans hl'
    simp at e

theorem Sync.init (den : Color → TColor) (ox oy w h : Nat) (cur : Int × Int) {c : Char}
    (hc : Printable c) (T : State) (hg : T.mode = .ground) (hp : T.pen = Attr.clean) :
    Sync den ox oy (Screen.init w h cur [c]) T where
  shape := resize_shape _ w h [c] true
  nodup := foldl_insert_nodup _ _ _ (by simp [Changes.keys])
  inside := by
    intro k hk
    rcases (foldl_insert_keys _ _ _ _).mp hk with hk | hk
    · exact mem_positions.mp hk
    · simp [Changes.keys] at hk
  ground := hg
  clean := hp
  pend := by
    intro x y str cell hl hcell
    have hb := (resize_shape _ w h [c] true).cellAt_isSome (x := x) (y := y) |>.mp
      (Option.isSome_iff_exists.mpr ⟨cell, hcell⟩)
    have := init_cellAt w h cur [c] x y hb.1 hb.2
    rw [hcell] at this
    injection this with this
    subst this
    have hl' := foldl_insert_lookup (positions w h) [c] [] (x, y)
    rw [if_pos (mem_positions.mpr hb)] at hl'
    have : str = [c] := by
      have e : some str = some [c] := hl.symm.trans hl'
      injection e
    subst this
    exact prints_fill den hc
  shown := by
    intro x y cell hl hcell
    have hb := (resize_shape _ w h [c] true).cellAt_isSome (x := x) (y := y) |>.mp
      (Option.isSome_iff_exists.mpr ⟨cell, hcell⟩)
    have hl' := foldl_insert_lookup (positions w h) [c] [] (x, y)
    rw [if_pos (mem_positions.mpr hb)] at hl'
    have e : none = some [c] := hl.symm.trans hl'
    simp at e

/-! #### writes -/

theorem fillData_ok {env : Color.Env} {den : Color → TColor} (w h : Nat) (off : Int)
    (d : List ((Int × Int) × List Span)) (hd : ∀ e ∈ d, ∀ s ∈ e.2, SpanOk env den s) :
    MatsOk env den (fillData w h off d Mats.blank) := by
  apply fillData_inv (MatsOk env den)
  · intro m sp ch x y ⟨e, he, hs⟩ hch hn _ _ hm
    exact hm.putCell (hd e he sp hs) hch hn x y
  · exact .blank env den

theorem Sync.wrote {env : Color.Env} {den : Color → TColor} (hden : DenOk env den) {ox oy : Nat}
    {s s' : Screen} {T : State} (h : Sync den ox oy s T) {tb : Color} {m : Mats}
    (hm : MatsOk env den m) (hw : Wrote env tb m s s') : Sync den ox oy s' T where
  shape := by rw [hw.width, hw.height]; exact hw.shape
  nodup := hw.nodup h.nodup
  inside := by
    intro k hk
    rw [hw.width, hw.height]
    rw [← Changes.lookup_isSome, hw.pending] at hk
    cases ho : outcome tb m s k with
    | none =>
      rw [ho] at hk
      simp only [Option.map_none, Option.none_or] at hk
      exact h.inside k ((Changes.lookup_isSome _ _).mp hk)
    | some r =>
      have : (cellAt s.cells k.1 k.2).isSome := by
        unfold outcome at ho
        split at ho
        · simp at ho
        · simp only at ho
          split at ho
          · simp at ho
          · rename_i hh; simp [hh]
      exact h.shape.cellAt_isSome.mp this
  ground := h.ground
  clean := h.clean
  pend := by
    intro x y str cell hl hcell
    rw [hw.pending] at hl
    rw [hw.cell] at hcell
    cases ho : outcome tb m s (x, y) with
    | none =>
      rw [ho] at hl hcell
      exact h.pend x y str cell (by simpa using hl) (by simpa using hcell)
    | some r =>
      obtain ⟨new, nl⟩ := r
      rw [ho] at hl hcell
      simp only [Option.map_some, Option.some_or, Option.some.injEq] at hl hcell
      subst hl hcell
      unfold outcome at ho
      split at ho
      · simp at ho
      · rename_i c hc
        simp only at ho
        split at ho
        · simp at ho
        · split at ho
          · simp at ho
          · simp only [Option.some.injEq, Prod.mk.injEq] at ho
            obtain ⟨rfl, rfl⟩ := ho
            obtain ⟨h1, h2⟩ := hm.prints hden hc tb
            rw [h1]; exact h2
  shown := by
    intro x y cell hl hcell
    rw [hw.pending] at hl
    rw [hw.cell] at hcell
    cases ho : outcome tb m s (x, y) with
    | none =>
      rw [ho] at hl hcell
      exact h.shown x y cell (by simpa using hl) (by simpa using hcell)
    | some r => rw [ho] at hl; simp at hl

/-! #### draws -/

theorem Sync.draw {den : Color → TColor} {ox oy : Nat} (hx : 1 ≤ ox) (hy : 1 ≤ oy) {s : Screen}
    {T : State} (h : Sync den ox oy s T) :
    Sync den ox oy (s.render (ox, oy)).1 (run T (s.render (ox, oy)).2) := by
  have hpr : ∀ e ∈ s.changes, Prints e.2
      (cellGlyph den ((cellAt s.cells e.1.1 e.1.2).getD { char := [] })) := by
    rintro ⟨⟨x, y⟩, str⟩ he
    have hk : (x, y) ∈ s.changes.keys := List.mem_map_of_mem (f := (·.1)) he
    obtain ⟨b1, b2⟩ := h.inside _ hk
    obtain ⟨cell, hcell⟩ := h.shape.exists_cell b1 b2
    simp only [hcell, Option.getD_some]
    exact h.pend x y str cell ((Changes.lookup_eq_some_iff _ h.nodup _ _).mpr he) hcell
  obtain ⟨r1, r2, r3, r4, -⟩ := run_render ox oy hx hy
    (fun k => cellGlyph den ((cellAt s.cells k.1 k.2).getD { char := [] })) s hpr T h.ground h.clean
  have ecells : (s.render ((ox : Int), (oy : Int))).1 = { s with changes := [] } := by
    simp [Screen.render]
  rw [ecells]
  refine ⟨h.shape, by simp [Changes.keys], by simp [Changes.keys], r1, r2, by simp, ?_⟩
  intro x y cell _ hcell
  simp only at hcell
  by_cases hk : (x, y) ∈ s.changes.keys
  · have := r3 _ hk
    simpa [hcell] using this
  · have hl : List.lookup (x, y) s.changes = none := by
      rw [← Option.not_isSome_iff_eq_none, Changes.lookup_isSome]; exact hk
    rw [r4 (y + oy) (x + ox), h.shown x y cell hl hcell]
    intro k hkk ⟨e1, e2⟩
    apply hk
    have : k = (x, y) := by ext <;> simp <;> omega
    rwa [← this]

end Slate

namespace Slate
open Py Term

/-! #### histories -/

theorem exec_frame (env : Color.Env) (o : Int × Int) (s : Sys) (op : Op)
    (hs : Shape s.w.scr.width s.w.scr.height s.w.scr.cells) :
    (exec env o s op).w.scr.width = s.w.scr.width ∧
    (exec env o s op).w.scr.height = s.w.scr.height ∧
    s.w.scr.offset ≤ (exec env o s op).w.scr.offset ∧
    Shape s.w.scr.width s.w.scr.height (exec env o s op).w.scr.cells := by
  have hwb : ∀ data tb force, (writeBulk env data tb force s.w).1.scr.width = s.w.scr.width ∧
      (writeBulk env data tb force s.w).1.scr.height = s.w.scr.height ∧
      s.w.scr.offset ≤ (writeBulk env data tb force s.w).1.scr.offset ∧
      Shape s.w.scr.width s.w.scr.height (writeBulk env data tb force s.w).1.scr.cells := by
    intro data tb force
    have hf := putData_frame data Mats.blank s.w
    unfold writeBulk
    revert hf
    rcases putData data Mats.blank s.w with ⟨m, w', e⟩
    intro hf
    have hsh := hf.shape _ _ rfl hs
    simp only at hf hsh
    cases e with
    | some e => exact ⟨hf.width, hf.height, hf.offset, hsh⟩
    | none =>
      obtain ⟨s', e, c1, c2, c3, -, c5, -⟩ := commit_spec env tb m w'.scr
        (by rw [hf.width, hf.height]; exact hsh)
      simp only [e]
      rw [hf.width, hf.height] at c5
      exact ⟨c1.trans hf.width, c2.trans hf.height, c3 ▸ hf.offset, c5⟩
  cases op with
  | write spans cursor tb force => exact hwb _ _ _
  | writeBulk data tb force => exact hwb _ _ _
  | clear fill => exact ⟨rfl, rfl, le_refl _, resize_shape _ _ _ _ _⟩
  | draw => simp only [exec, Screen.render]; exact ⟨rfl, rfl, le_refl _, hs⟩

theorem execAll_frame (env : Color.Env) (o : Int × Int) (s : Sys) (ops : List Op)
    (hs : Shape s.w.scr.width s.w.scr.height s.w.scr.cells) :
    (execAll env o s ops).w.scr.width = s.w.scr.width ∧
    (execAll env o s ops).w.scr.height = s.w.scr.height ∧
    s.w.scr.offset ≤ (execAll env o s ops).w.scr.offset ∧
    Shape s.w.scr.width s.w.scr.height (execAll env o s ops).w.scr.cells := by
  induction ops generalizing s with
  | nil => exact ⟨rfl, rfl, le_refl _, hs⟩
  | cons op ops ih =>
    obtain ⟨h1, h2, h3, h4⟩ := exec_frame env o s op hs
    obtain ⟨i1, i2, i3, i4⟩ := ih (exec env o s op) (by rw [h1, h2]; exact h4)
    rw [h1, h2] at i4
    exact ⟨i1.trans h1, i2.trans h2, le_trans h3 i3, i4⟩

/-- The invariant survives every operation that does not scroll. -/
theorem Sync.exec {env : Color.Env} {den : Color → TColor} (hden : DenOk env den) {ox oy : Nat}
    (hx : 1 ≤ ox) (hy : 1 ≤ oy) {s : Sys} (h : Sync den ox oy s.w.scr s.term)
    (hc : CacheOk s.w.cache) {op : Op} (hop : OpOk (SpanOk env den) op)
    (ho : (Slate.exec env (ox, oy) s op).w.scr.offset = s.w.scr.offset) :
    Sync den ox oy (Slate.exec env (ox, oy) s op).w.scr (Slate.exec env (ox, oy) s op).term ∧
    CacheOk (Slate.exec env (ox, oy) s op).w.cache := by
  have hwb : ∀ data tb force, (∀ e ∈ data, ∀ s ∈ e.2, SpanOk env den s) →
      (writeBulk env data tb force s.w).1.scr.offset = s.w.scr.offset →
      Sync den ox oy (writeBulk env data tb force s.w).1.scr s.term ∧
      CacheOk (writeBulk env data tb force s.w).1.cache := by
    intro data tb force hd ho
    obtain ⟨h1, h2⟩ := writeBulk_still env data tb force s.w h.shape hc ho
    refine ⟨?_, h1⟩
    rcases h2 with ⟨-, h2, -⟩ | ⟨d, rfl, -, h2⟩
    · rw [h2]; exact h
    · refine h.wrote hden (fillData_ok _ _ _ d ?_) h2
      intro e he sp hsp
      exact hd (some e.1, e.2) (List.mem_map_of_mem (f := fun e => (some e.1, e.2)) he) sp hsp
  cases op with
  | write spans cursor tb force =>
    refine hwb [(cursor, spans)] tb force ?_ ho
    intro e he sp hsp
    simp only [List.mem_singleton] at he
    subst he
    exact hop sp hsp
  | writeBulk data tb force => exact hwb data tb force hop ho
  | clear fill => exact ⟨h.clear hop, hc⟩
  | draw => exact ⟨h.draw hx hy, hc⟩

theorem Sync.execAll {env : Color.Env} {den : Color → TColor} (hden : DenOk env den) {ox oy : Nat}
    (hx : 1 ≤ ox) (hy : 1 ≤ oy) (ops : List Op) (s : Sys) (h : Sync den ox oy s.w.scr s.term)
    (hc : CacheOk s.w.cache) (hops : ∀ op ∈ ops, OpOk (SpanOk env den) op)
    (ho : (Slate.execAll env (ox, oy) s ops).w.scr.offset = s.w.scr.offset) :
    Sync den ox oy (Slate.execAll env (ox, oy) s ops).w.scr
      (Slate.execAll env (ox, oy) s ops).term ∧
    CacheOk (Slate.execAll env (ox, oy) s ops).w.cache := by
  induction ops generalizing s with
  | nil => exact ⟨h, hc⟩
  | cons op ops ih =>
    obtain ⟨f1, f2, f3, f4⟩ := exec_frame env (ox, oy) s op h.shape
    obtain ⟨-, -, g3, -⟩ := execAll_frame env (ox, oy) (Slate.exec env (ox, oy) s op) ops
      (by rw [f1, f2]; exact f4)
    have ho' : (Slate.execAll env (ox, oy) (Slate.exec env (ox, oy) s op) ops).w.scr.offset =
      s.w.scr.offset := ho
    have e1 : (Slate.exec env (ox, oy) s op).w.scr.offset = s.w.scr.offset := by omega
    obtain ⟨i1, i2⟩ := h.exec hden hx hy hc (hops op (by simp)) e1
    exact ih _ i1 i2 (fun op hop => hops op (by simp [hop])) (by rw [ho', e1])

end Slate
