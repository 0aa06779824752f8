import Verif.Spec.Sized
import Verif.Lemmas.Sync
import Verif.Lemmas.Bounded
import Verif.Props.Draw

/-!
# C11, C12: histories in which the screen is resized
-/

namespace Slate
open Py Term

/-- `G` is what the terminal will show after the next draw. Unlike in `Sync`, changes may be pending outside of the screen. -/
structure Follows (ox oy : Nat) (s : Screen) (T : State) (G : Nat → Nat → Glyph) : Prop where
  shape : Shape s.width s.height s.cells
  nodup : s.changes.keys.Nodup
  ground : T.mode = .ground
  clean : T.pen = Attr.clean
  pend : ∀ k str, List.lookup k s.changes = some str → Prints str (G k.1 k.2)
  shown : ∀ x y, x < s.width → y < s.height → List.lookup (x, y) s.changes = none → T.grid (y + oy) (x + ox) = G x y

/-- The fill character, in no style. -/
def plain (c : Char) : Glyph := { ch := c, attr := Attr.clean }

theorem plain_eq (den : Color → TColor) {c : Char} (hc : Printable c) : cellGlyph den { char := [c] } = plain c := by
  have hcs : CellStr [c] {} c false := ⟨by rw [wrapSgr_empty]; simp, hc⟩
  rw [CellStr.glyph (cell := { char := [c] }) hcs den]
  rfl

theorem prints_plain {c : Char} (hc : Printable c) : Prints [c] (plain c) := by
  have := prints_fill (trueColor) hc
  rwa [plain_eq _ hc] at this

theorem Follows.resize {ox oy : Nat} {s : Screen} {T : State} {G : Nat → Nat → Glyph} (h : Follows ox oy s T G)
    (w' h' : Nat) {fill : Char} (hf : Printable fill) (keep : Bool) :
    Follows ox oy (s.resize (w', h') [fill] keep) T fun x y => if x < w' ∧ y < h' then plain fill else G x y where
  shape := resize_shape _ _ _ _ _
  nodup := foldl_insert_nodup _ _ _ h.nodup
  ground := h.ground
  clean := h.clean
  pend k str hl := by
    have e := foldl_insert_lookup (positions w' h') [fill] s.changes k
    replace hl : List.lookup k ((positions w' h').foldl (fun (ch : Changes) p => ch.insert p [fill]) s.changes) = some str := hl
    rw [e] at hl
    by_cases hk : k ∈ positions w' h'
    · rw [if_pos hk] at hl
      rw [← Option.some.inj hl]
      have := mem_positions.mp hk
      rw [if_pos this]
      exact prints_plain hf
    · rw [if_neg hk] at hl
      rw [if_neg fun c => hk (mem_positions.mpr c)]
      exact h.pend k str hl
  shown x y hx hy hl := by
    have e := foldl_insert_lookup (positions w' h') [fill] s.changes (x, y)
    rw [if_pos (mem_positions.mpr ⟨hx, hy⟩)] at e
    have : none = some [fill] := hl.symm.trans e
    simp at this

theorem Follows.wrote {env : Color.Env} {den : Color → TColor} (hden : DenOk env den) {ox oy : Nat} {s s' : Screen} {T : State}
    {G : Nat → Nat → Glyph} (h : Follows ox oy s T G) {tb : Color} {m : Mats} (hm : MatsOk env den m) (hw : Wrote env tb m s s') :
    Follows ox oy s' T fun x y => match outcome tb m s (x, y) with
      | some r => cellGlyph den r.1
      | none => G x y where
  shape := by rw [hw.width, hw.height]; exact hw.shape
  nodup := hw.nodup h.nodup
  ground := h.ground
  clean := h.clean
  pend k str hl := by
    rw [hw.pending] at hl
    cases ho : outcome tb m s k with
    | none =>
      rw [ho] at hl
      exact h.pend k str (by simpa using hl)
    | some r =>
      obtain ⟨new, nl⟩ := r
      rw [ho] at hl
      simp only [Option.map_some, Option.some_or, Option.some.injEq] at hl
      subst hl
      unfold outcome at ho
      split at ho
      · simp at ho
      · rename_i c hc
        simp only at ho
        split at ho
        · simp at ho
        · split at ho
          · simp at ho
          · simp only [Option.some.injEq, Prod.mk.injEq] at ho
            obtain ⟨rfl, rfl⟩ := ho
            obtain ⟨h1, h2⟩ := hm.prints hden hc tb
            rw [h1]; exact h2
  shown x y hx hy hl := by
    rw [hw.width] at hx
    rw [hw.height] at hy
    rw [hw.pending] at hl
    cases ho : outcome tb m s (x, y) with
    | none =>
      rw [ho] at hl
      exact h.shown x y hx hy (by simpa using hl)
    | some r => rw [ho] at hl; simp at hl

theorem Follows.draw {ox oy : Nat} (hx : 1 ≤ ox) (hy : 1 ≤ oy) {s : Screen} {T : State} {G : Nat → Nat → Glyph}
    (h : Follows ox oy s T G) : Follows ox oy (s.render (ox, oy)).1 (run T (s.render (ox, oy)).2) G := by
  have hpr : ∀ e ∈ s.changes, Prints e.2 (G e.1.1 e.1.2) := by
    rintro ⟨k, str⟩ he
    exact h.pend k str ((Changes.lookup_eq_some_iff _ h.nodup _ _).mpr he)
  obtain ⟨r1, r2, r3, r4, -⟩ := run_render ox oy hx hy (fun k => G k.1 k.2) s hpr T h.ground h.clean
  have ecells : (s.render ((ox : Int), (oy : Int))).1 = { s with changes := [] } := by simp [Screen.render]
  rw [ecells]
  refine ⟨h.shape, by simp [Changes.keys], r1, r2, by simp, ?_⟩
  intro x y hxw hyh _
  by_cases hk : (x, y) ∈ s.changes.keys
  · exact r3 _ hk
  · have hl : List.lookup (x, y) s.changes = none := by
      rw [← Option.not_isSome_iff_eq_none, Changes.lookup_isSome]; exact hk
    rw [r4 (y + oy) (x + ox), h.shown x y hxw hyh hl]
    intro k hkk ⟨e1, e2⟩
    apply hk
    have : k = (x, y) := by ext <;> simp <;> omega
    rwa [← this]

/-- What an operation does to the cells and to what will be shown. -/
theorem Follows.exec {env : Color.Env} {den : Color → TColor} (hden : DenOk env den) {ox oy : Nat} (hx : 1 ≤ ox) (hy : 1 ≤ oy)
    {s : Sys} {G : Nat → Nat → Glyph} (h : Follows ox oy s.w.scr s.term G) (hc : CacheOk s.w.cache) {op : Op}
    (hop : OpOk (SpanOk env den) op) (ho : (Slate.exec env (ox, oy) s op).w.scr.offset = s.w.scr.offset) :
    ∃ G', Follows ox oy (Slate.exec env (ox, oy) s op).w.scr (Slate.exec env (ox, oy) s op).term G' ∧
      CacheOk (Slate.exec env (ox, oy) s op).w.cache ∧
      ((∃ f, op = .clear f) → ∀ x y, x < s.w.scr.width → y < s.w.scr.height →
        ∃ c, cellAt (Slate.exec env (ox, oy) s op).w.scr.cells x y = some c ∧ G' x y = cellGlyph den c) ∧
      ((¬ ∃ f, op = .clear f) → ∀ x y,
        (cellAt (Slate.exec env (ox, oy) s op).w.scr.cells x y = cellAt s.w.scr.cells x y ∧ G' x y = G x y) ∨
        ∃ c, cellAt (Slate.exec env (ox, oy) s op).w.scr.cells x y = some c ∧ cellAt s.w.scr.cells x y ≠ some c ∧
          G' x y = cellGlyph den c) := by
  have hwb : ∀ data tb force, (∀ e ∈ data, ∀ s ∈ e.2, SpanOk env den s) →
      (writeBulk env data tb force s.w).1.scr.offset = s.w.scr.offset →
      ∃ G', Follows ox oy (writeBulk env data tb force s.w).1.scr s.term G' ∧
      CacheOk (writeBulk env data tb force s.w).1.cache ∧ ∀ x y,
        (cellAt (writeBulk env data tb force s.w).1.scr.cells x y = cellAt s.w.scr.cells x y ∧ G' x y = G x y) ∨
        ∃ c, cellAt (writeBulk env data tb force s.w).1.scr.cells x y = some c ∧ cellAt s.w.scr.cells x y ≠ some c ∧
          G' x y = cellGlyph den c := by
    intro data tb force hd ho
    obtain ⟨h1, h2⟩ := writeBulk_still env data tb force s.w h.shape hc ho
    rcases h2 with ⟨-, h2, -⟩ | ⟨d, rfl, -, h2⟩
    · exact ⟨G, by rw [h2]; exact h, h1, fun x y => .inl ⟨by rw [h2], rfl⟩⟩
    · have hm := fillData_ok (env := env) (den := den) s.w.scr.width s.w.scr.height s.w.scr.offset d (by
        intro e he sp hsp
        exact hd (some e.1, e.2) (List.mem_map_of_mem (f := fun e => (some e.1, e.2)) he) sp hsp)
      refine ⟨_, h.wrote hden hm h2, h1, fun x y => ?_⟩
      rw [h2.cell]
      cases hout : outcome tb (fillData s.w.scr.width s.w.scr.height s.w.scr.offset d Mats.blank) s.w.scr (x, y) with
      | none => exact .inl ⟨by simp, by simp⟩
      | some r =>
        refine .inr ⟨r.1, by simp, ?_, by simp⟩
        unfold outcome at hout
        split at hout
        · simp at hout
        · simp only at hout
          split at hout
          · simp at hout
          · rename_i old hold
            split at hout
            · simp at hout
            · rename_i hne
              rw [hold, ← Option.some.inj hout]
              rintro e
              rw [Option.some.inj e] at hne
              exact hne (Cell.eq_refl _)
  cases op with
  | write spans cursor tb force =>
    obtain ⟨G', a, b, c⟩ := hwb [(cursor, spans)] tb force (by
      intro e he sp hsp
      rw [List.mem_singleton.mp he] at hsp
      exact hop sp hsp) ho
    exact ⟨G', a, b, (by rintro ⟨f, hf⟩; cases hf), fun _ => c⟩
  | writeBulk data tb force =>
    obtain ⟨G', a, b, c⟩ := hwb data tb force hop ho
    exact ⟨G', a, b, (by rintro ⟨f, hf⟩; cases hf), fun _ => c⟩
  | clear fill =>
    have hf := h.resize s.w.scr.width s.w.scr.height (fill := fill) hop false
    refine ⟨fun x y => if x < s.w.scr.width ∧ y < s.w.scr.height then plain fill else G x y,
      ⟨hf.shape, hf.nodup, hf.ground, hf.clean, hf.pend, hf.shown⟩, hc, fun _ x y hxw hyh => ?_,
      fun hn => absurd ⟨fill, rfl⟩ hn⟩
    refine ⟨_, clear_cellAt s.w.scr [fill] x y hxw hyh, ?_⟩
    beta_reduce
    rw [if_pos ⟨hxw, hyh⟩, plain_eq den hop]
  | draw => exact ⟨G, h.draw hx hy, hc, (by rintro ⟨f, hf⟩; cases hf), fun _ x y => .inl ⟨rfl, rfl⟩⟩

/-- Along a history without resizes: a cell is shown as it is stored once it was touched, and until then as at the beginning. -/
theorem Follows.touched {env : Color.Env} {den : Color → TColor} (hden : DenOk env den) {ox oy : Nat} (hx : 1 ≤ ox) (hy : 1 ≤ oy)
    {s : Sys} {G : Nat → Nat → Glyph} (h : Follows ox oy s.w.scr s.term G) (hc : CacheOk s.w.cache) (ops : List Op)
    (hops : ∀ op ∈ ops, OpOk (SpanOk env den) op)
    (ho : (Slate.execAll env (ox, oy) s ops).w.scr.offset = s.w.scr.offset) :
    ∃ G', Follows ox oy (Slate.execAll env (ox, oy) s ops).w.scr (Slate.execAll env (ox, oy) s ops).term G' ∧
      CacheOk (Slate.execAll env (ox, oy) s ops).w.cache ∧
      ∀ x y c, x < s.w.scr.width → y < s.w.scr.height → cellAt s.w.scr.cells x y = some c →
        (ChangedSince env (ox, oy) s ops x y c → ∃ c', cellAt (Slate.execAll env (ox, oy) s ops).w.scr.cells x y = some c' ∧
          G' x y = cellGlyph den c') ∧
        (¬ ChangedSince env (ox, oy) s ops x y c →
          cellAt (Slate.execAll env (ox, oy) s ops).w.scr.cells x y = some c ∧ G' x y = G x y) := by
  induction ops using List.reverseRecOn with
  | nil =>
    refine ⟨G, h, hc, fun x y c _ _ hcell => ⟨?_, fun _ => ⟨hcell, rfl⟩⟩⟩
    rintro (⟨f, hf⟩ | ⟨p, q, hpq, hne⟩)
    · simp at hf
    · obtain ⟨rfl, rfl⟩ := List.append_eq_nil_iff.mp hpq.symm
      exact absurd hcell hne
  | append_singleton ops op ih =>
    have e : Slate.execAll env (ox, oy) s (ops ++ [op]) = Slate.exec env (ox, oy) (Slate.execAll env (ox, oy) s ops) op := by
      simp [Slate.execAll]
    obtain ⟨f1, f2, f3, f4⟩ := execAll_frame env (ox, oy) s ops h.shape
    obtain ⟨g1, g2, g3, g4⟩ := exec_frame env (ox, oy) (Slate.execAll env (ox, oy) s ops) op (by rw [f1, f2]; exact f4)
    rw [e] at ho ⊢
    obtain ⟨G1, i1, i2, i3⟩ := ih (fun o ho => hops o (by simp [ho])) (by omega)
    obtain ⟨G2, j1, j2, j3, j4⟩ := i1.exec hden hx hy i2 (hops op (by simp)) (by omega)
    refine ⟨G2, j1, j2, fun x y c hxw hyh hcell => ?_⟩
    obtain ⟨k1, k2⟩ := i3 x y c hxw hyh hcell
    -- touched before, or by this operation
    have hmono : ChangedSince env (ox, oy) s ops x y c → ChangedSince env (ox, oy) s (ops ++ [op]) x y c := by
      rintro (⟨f, hf⟩ | ⟨p, q, hpq, hne⟩)
      · exact .inl ⟨f, by simp [hf]⟩
      · exact .inr ⟨p, q ++ [op], by rw [hpq, List.append_assoc], hne⟩
    by_cases hclear : ∃ f, op = .clear f
    · obtain ⟨c', a, b⟩ := j3 hclear x y (by rw [f1]; exact hxw) (by rw [f2]; exact hyh)
      refine ⟨fun _ => ⟨c', a, b⟩, fun hn => ?_⟩
      obtain ⟨f, rfl⟩ := hclear
      exact absurd (.inl ⟨f, by simp⟩) hn
    · rcases j4 hclear x y with ⟨a, b⟩ | ⟨c', a, hne, b⟩
      · refine ⟨?_, fun hn => ?_⟩
        · intro ht
          have ht' : ChangedSince env (ox, oy) s ops x y c := by
            rcases ht with ⟨f, hf⟩ | ⟨p, q, hpq, hne⟩
            · rcases List.mem_append.mp hf with hf | hf
              · exact .inl ⟨f, hf⟩
              · exact absurd ⟨f, (List.mem_singleton.mp hf).symm⟩ hclear
            · rcases List.eq_nil_or_concat q with rfl | ⟨q', o, rfl⟩
              · rw [List.append_nil] at hpq
                rw [← hpq, e, a] at hne
                exact .inr ⟨ops, [], by simp, hne⟩
              · rw [List.concat_eq_append, ← List.append_assoc] at hpq
                exact .inr ⟨p, q', (List.append_inj' hpq rfl).1, hne⟩
          obtain ⟨c', d1, d2⟩ := k1 ht'
          exact ⟨c', by rw [a, d1], by rw [b, d2]⟩
        · obtain ⟨d1, d2⟩ := k2 fun ht => hn (hmono ht)
          exact ⟨by rw [a, d1], by rw [b, d2]⟩
      · refine ⟨fun _ => ⟨c', a, b⟩, fun hn => ?_⟩
        obtain ⟨d1, -⟩ := k2 fun ht => hn (hmono ht)
        refine absurd (.inr ⟨ops ++ [op], [], by simp, ?_⟩) hn
        rw [e, a]
        intro hcc
        rw [d1] at hne
        exact hne hcc.symm

theorem sized_frame (env : Color.Env) (o : Int × Int) (op : SizedOp) (s : Sys)
    (hs : Shape s.w.scr.width s.w.scr.height s.w.scr.cells) :
    Shape (execSized env o s op).w.scr.width (execSized env o s op).w.scr.height (execSized env o s op).w.scr.cells ∧
    s.w.scr.offset ≤ (execSized env o s op).w.scr.offset := by
  cases op with
  | op op =>
    obtain ⟨f1, f2, f3, f4⟩ := exec_frame env o s op hs
    exact ⟨by rw [← f1, ← f2] at f4; exact f4, f3⟩
  | resize w h fill keep => exact ⟨resize_shape _ _ _ _ _, le_refl _⟩

theorem sizedAll_frame (env : Color.Env) (o : Int × Int) : ∀ (ops : List SizedOp) (s : Sys),
    Shape s.w.scr.width s.w.scr.height s.w.scr.cells → s.w.scr.offset ≤ (execSizedAll env o s ops).w.scr.offset
  | [], _, _ => le_refl _
  | op :: ops, s, hs => by
    obtain ⟨f1, f2⟩ := sized_frame env o op s hs
    exact f2.trans (sizedAll_frame env o ops _ f1)

/-- Some `G` is always followed. -/
theorem Follows.sized {env : Color.Env} {den : Color → TColor} (hden : DenOk env den) {ox oy : Nat} (hx : 1 ≤ ox) (hy : 1 ≤ oy) :
    ∀ (ops : List SizedOp) (s : Sys) (G : Nat → Nat → Glyph), Follows ox oy s.w.scr s.term G → CacheOk s.w.cache →
    (∀ op ∈ ops, SizedOk (SpanOk env den) op) → (execSizedAll env (ox, oy) s ops).w.scr.offset = s.w.scr.offset →
    ∃ G', Follows ox oy (execSizedAll env (ox, oy) s ops).w.scr (execSizedAll env (ox, oy) s ops).term G' ∧
      CacheOk (execSizedAll env (ox, oy) s ops).w.cache
  | [], _, G, h, hc, _, _ => ⟨G, h, hc⟩
  | op :: ops, s, G, h, hc, hops, ho => by
    obtain ⟨f1, f2⟩ := sized_frame env (ox, oy) op s h.shape
    have f3 := sizedAll_frame env (ox, oy) ops _ f1
    have ho' : (execSizedAll env (ox, oy) (execSized env (ox, oy) s op) ops).w.scr.offset = s.w.scr.offset := ho
    have e1 : (execSized env (ox, oy) s op).w.scr.offset = s.w.scr.offset := by omega
    have key : ∃ G', Follows ox oy (execSized env (ox, oy) s op).w.scr (execSized env (ox, oy) s op).term G' ∧
        CacheOk (execSized env (ox, oy) s op).w.cache := by
      cases op with
      | op op =>
        obtain ⟨G', a, b, -⟩ := h.exec hden hx hy hc (hops (.op op) (by simp)) e1
        exact ⟨G', a, b⟩
      | resize w h' fill keep => exact ⟨_, h.resize w h' (hops (.resize w h' fill keep) (by simp)) keep, hc⟩
    obtain ⟨G', a, b⟩ := key
    exact Follows.sized hden hx hy ops _ G' a b (fun o ho => hops o (by simp [ho])) (by rw [e1]; exact ho')

/-- **C11**, partial, but exactly what happens: after any history with any number of resizes (before, `pre`, including ones that shrink the screen while changes are
pending) that did not scroll, a draw shows a cell as it is stored if it was changed since the last resize. If not, its content is
what the resize kept, and the terminal shows the fill character of the resize there. -/
theorem C11_exact_partial (env : Color.Env) (den : Color → TColor) (hden : DenOk env den)
    (ox oy : Nat) (hx : 1 ≤ ox) (hy : 1 ≤ oy) (w h : Nat) (cur : Int × Int) (fill : Char) (hfill : Printable fill)
    (cache : CharCache) (hcache : CacheOk cache) (T : State) (hT : T.mode = .ground) (hpen : T.pen = Attr.clean)
    (pre : List SizedOp) (hpre : ∀ op ∈ pre, SizedOk (SpanOk env den) op) (w' h' : Nat) (fill' : Char) (hfill' : Printable fill')
    (keep : Bool) (post : List Op) (hpost : ∀ op ∈ post, OpOk (SpanOk env den) op) :
    let s1 := execSizedAll env (ox, oy) { w := { scr := Screen.init w h cur [fill], cache := cache }, term := T }
      (pre ++ [.resize w' h' fill' keep])
    let s2 := execAll env (ox, oy) s1 (post ++ [.draw])
    s2.w.scr.offset = 0 →
    ∀ x y, x < w' → y < h' → ∃ c c', cellAt s1.w.scr.cells x y = some c ∧ cellAt s2.w.scr.cells x y = some c' ∧
      (ChangedSince env (ox, oy) s1 post x y c → s2.term.grid (y + oy) (x + ox) = cellGlyph den c') ∧
      (¬ ChangedSince env (ox, oy) s1 post x y c → c' = c ∧ s2.term.grid (y + oy) (x + ox) = { ch := fill', attr := Attr.clean }) := by
  intro s1 s2 ho x y hxw hyh
  have hinit := Sync.init den ox oy w h cur hfill T hT hpen
  have hF : Follows ox oy (Screen.init w h cur [fill]) T fun x y =>
      cellGlyph den ((cellAt (Screen.init w h cur [fill]).cells x y).getD { char := [] }) := by
    refine ⟨hinit.shape, hinit.nodup, hinit.ground, hinit.clean, fun k str hl => ?_, fun x y hx hy hl => ?_⟩
    · have hk : k ∈ (Screen.init w h cur [fill]).changes.keys := (Changes.lookup_isSome _ _).mp (by simp [hl])
      obtain ⟨b1, b2⟩ := hinit.inside k hk
      obtain ⟨cell, hcell⟩ := hinit.shape.exists_cell b1 b2
      simp only [hcell, Option.getD_some]
      exact hinit.pend k.1 k.2 str cell hl hcell
    · obtain ⟨cell, hcell⟩ := hinit.shape.exists_cell hx hy
      simp only [hcell, Option.getD_some]
      exact hinit.shown x y cell hl hcell
  -- offsets
  have hpre0 : Shape (Screen.init w h cur [fill]).width (Screen.init w h cur [fill]).height (Screen.init w h cur [fill]).cells :=
    hinit.shape
  have eA : s1 = execSized env (ox, oy) (execSizedAll env (ox, oy)
      { w := { scr := Screen.init w h cur [fill], cache := cache }, term := T } pre) (.resize w' h' fill' keep) := by
    simp [s1, execSizedAll]
  have o1 := sizedAll_frame env (ox, oy) pre { w := { scr := Screen.init w h cur [fill], cache := cache }, term := T } hpre0
  have e0 : (Screen.init w h cur [fill]).offset = 0 := rfl
  simp only [e0] at o1
  have hs1 : s1.w.scr.offset = (execSizedAll env (ox, oy)
      { w := { scr := Screen.init w h cur [fill], cache := cache }, term := T } pre).w.scr.offset := by rw [eA]; rfl
  have hsh1 : Shape s1.w.scr.width s1.w.scr.height s1.w.scr.cells := by rw [eA]; exact resize_shape _ _ _ _ _
  have hw1 : s1.w.scr.width = w' := by rw [eA]; rfl
  have hh1 : s1.w.scr.height = h' := by rw [eA]; rfl
  obtain ⟨-, -, o2, -⟩ := execAll_frame env (ox, oy) s1 (post ++ [.draw]) hsh1
  have o2' : s1.w.scr.offset ≤ 0 := by
    have : s2.w.scr.offset = 0 := ho
    rw [← this]
    exact o2
  obtain ⟨G0, p1, p2⟩ := Follows.sized hden hx hy pre { w := { scr := Screen.init w h cur [fill], cache := cache }, term := T } _
    hF hcache hpre (by simp only [e0]; omega)
  have q1 : Follows ox oy s1.w.scr s1.term fun x y => if x < w' ∧ y < h' then plain fill' else G0 x y := by
    rw [eA]; exact p1.resize w' h' hfill' keep
  have q2 : CacheOk s1.w.cache := by rw [eA]; exact p2
  have hops : ∀ op ∈ post ++ [.draw], OpOk (SpanOk env den) op := by
    intro op hop
    rcases List.mem_append.mp hop with hop | hop
    · exact hpost op hop
    · rw [List.mem_singleton.mp hop]; trivial
  obtain ⟨G2, r1, -, r3⟩ := q1.touched hden hx hy q2 (post ++ [.draw]) hops (by
    have : s2.w.scr.offset = 0 := ho
    show s2.w.scr.offset = _
    omega)
  obtain ⟨c, hc⟩ := hsh1.exists_cell (x := x) (y := y) (by omega) (by omega)
  obtain ⟨t1, t2⟩ := r3 x y c (by omega) (by omega) hc
  -- the draw at the end touches nothing
  have hT' : ChangedSince env (ox, oy) s1 (post ++ [.draw]) x y c ↔ ChangedSince env (ox, oy) s1 post x y c := by
    have e : execAll env (ox, oy) s1 (post ++ [.draw]) = exec env (ox, oy) (execAll env (ox, oy) s1 post) .draw := by simp [execAll]
    constructor
    · rintro (⟨f, hf⟩ | ⟨p, q, hpq, hne⟩)
      · refine .inl ⟨f, ?_⟩
        rcases List.mem_append.mp hf with hf | hf
        · exact hf
        · cases List.mem_singleton.mp hf
      · rcases List.eq_nil_or_concat q with rfl | ⟨q', o, rfl⟩
        · rw [List.append_nil] at hpq
          rw [← hpq, e] at hne
          exact .inr ⟨post, [], by simp, hne⟩
        · rw [List.concat_eq_append, ← List.append_assoc] at hpq
          exact .inr ⟨p, q', (List.append_inj' hpq rfl).1, hne⟩
    · rintro (⟨f, hf⟩ | ⟨p, q, hpq, hne⟩)
      · exact .inl ⟨f, by simp [hf]⟩
      · exact .inr ⟨p, q ++ [.draw], by rw [hpq, List.append_assoc], hne⟩
  rw [hT'] at t1 t2
  obtain ⟨fw, fh, -, fs⟩ := execAll_frame env (ox, oy) s1 (post ++ [.draw]) hsh1
  have hshown : s2.term.grid (y + oy) (x + ox) = G2 x y := by
    refine r1.shown x y (by show x < s2.w.scr.width; rw [show s2.w.scr.width = s1.w.scr.width from fw]; omega)
      (by show y < s2.w.scr.height; rw [show s2.w.scr.height = s1.w.scr.height from fh]; omega) ?_
    have e : execAll env (ox, oy) s1 (post ++ [.draw]) = exec env (ox, oy) (execAll env (ox, oy) s1 post) .draw := by simp [execAll]
    rw [e]
    rfl
  by_cases ht : ChangedSince env (ox, oy) s1 post x y c
  · obtain ⟨c', u1, u2⟩ := t1 ht
    exact ⟨c, c', hc, u1, fun _ => by rw [hshown, u2], fun hn => absurd ht hn⟩
  · obtain ⟨u1, u2⟩ := t2 ht
    refine ⟨c, c, hc, u1, fun h => absurd h ht, fun _ => ⟨rfl, ?_⟩⟩
    rw [hshown, u2, if_pos ⟨hxw, hyh⟩]
    rfl

/-- A screen of 3x2 on which `abc` was written in the last row, then cut to one row. -/
def C11ex.pre : List SizedOp := [.op (.write [{ text := "abc".toList }] (some (0, 1)) .black false)]

/-- `C11_exact_partial` applies: a screen of 3x2 with text in the last row is resized to 3x1 (the changes of the last row are still
pending), then `x` is written in the middle; the three cells are `.` (not changed, and kept as a space), `x` (changed) and `.`. -/
example :
    let s1 := execSizedAll {} (1, 1) { w := { scr := Screen.init 3 2 }, term := { grid := fun _ _ => { ch := ' ', attr := Attr.clean } } }
      (C11ex.pre ++ [.resize 3 1 '.' true])
    let s2 := execAll {} (1, 1) s1 ([.write [{ text := ['x'] }] (some (1, 0)) .black false] ++ [.draw])
    s2.w.scr.offset = 0 ∧ (cellAt s2.w.scr.cells 0 0).map (·.char) = some [' '] ∧ (s2.term.grid 1 1).ch = '.' ∧
    (cellAt s2.w.scr.cells 1 0).map (·.char) = some ['x'] ∧ (s2.term.grid 1 2).ch = 'x' ∧
    (∀ op ∈ C11ex.pre ++ [.resize 3 1 '.' true], SizedOk (SpanOk {} trueColor) op) := by
  refine ⟨by decide +kernel, by decide +kernel, by decide +kernel, by decide +kernel, by decide +kernel, ?_⟩
  intro op hop
  simp only [C11ex.pre, List.cons_append, List.nil_append, List.mem_cons, List.not_mem_nil, or_false] at hop
  rcases hop with rfl | rfl
  · intro s hs
    rw [List.mem_singleton.mp hs]
    exact ⟨fun c hc => .inl (by revert c; unfold Printable; decide +kernel), by simp, by simp⟩
  · show Printable '.'
    unfold Printable
    decide +kernel

/-- C12 is violated, and a terminal with margins shows it: when a screen of 3x2 is cut to 3x1 together with the terminal, the changes
of the row that is gone are sent all the same, and the terminal puts them in its last row. It shows `abc`; the screen stores
three spaces and has nothing left to draw. -/
theorem C12_clamped_violated :
    let blank : State := { grid := fun _ _ => { ch := ' ', attr := Attr.clean } }
    let s1 := execSizedAll {} (1, 1) { w := { scr := Screen.init 3 2 }, term := blank } (C11ex.pre ++ [.resize 3 1 ' ' true])
    let s2 := boundedExecAll 3 1 {} (1, 1) s1 [.draw]
    s2.w.scr.cells.map (·.map (·.char)) = [[[' '], [' '], [' ']]] ∧ s2.w.scr.changes = [] ∧
    (s2.term.grid 1 1).ch = 'a' ∧ (s2.term.grid 1 2).ch = 'b' ∧ (s2.term.grid 1 3).ch = 'c' := by
  decide +kernel

end Slate
