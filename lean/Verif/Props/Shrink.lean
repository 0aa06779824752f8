import Verif.Props.Sized

/-!
# What a draw addresses after a resize (C12)
-/

namespace Slate
open Py Term

/-- The positions where the terminal prints something when it is sent `out`. -/
def printedAt (T : State) (out : Str) : List (Nat × Nat) := (run { T with log := [] } out).log

theorem Follows.printed {ox oy : Nat} (hx : 1 ≤ ox) (hy : 1 ≤ oy) {s : Screen} {T : State} {G : Nat → Nat → Glyph} (h : Follows ox oy s T G)
    (x y : Nat) : (y + oy, x + ox) ∈ printedAt T (s.render (ox, oy)).2 ↔ (x, y) ∈ s.changes.keys := by
  have hpr : ∀ e ∈ s.changes, Prints e.2 (G e.1.1 e.1.2) := by
    rintro ⟨k, str⟩ he
    exact h.pend k str ((Changes.lookup_eq_some_iff _ h.nodup _ _).mpr he)
  obtain ⟨-, -, -, -, r⟩ := run_render ox oy hx hy (fun k => G k.1 k.2) s hpr { T with log := [] } h.ground h.clean
  rw [printedAt, r, List.nil_append, List.mem_map]
  constructor
  · rintro ⟨k, hk, e⟩
    rw [mem_gather_keys] at hk
    have : k = (x, y) := by
      simp only [Prod.mk.injEq] at e
      ext <;> simp only <;> omega
    rwa [this] at hk
  · intro hk
    exact ⟨(x, y), (mem_gather_keys _ _).mpr hk, rfl⟩

theorem resize_keys (s : Screen) (w h : Nat) (fill : Str) (keep : Bool) (k : Nat × Nat) :
    k ∈ (s.resize (w, h) fill keep).changes.keys ↔ (k.1 < w ∧ k.2 < h) ∨ k ∈ s.changes.keys := by
  have e : List.lookup k (s.resize (w, h) fill keep).changes = if k ∈ positions w h then some fill else List.lookup k s.changes :=
    foldl_insert_lookup (positions w h) fill s.changes k
  rw [← Changes.lookup_isSome, ← Changes.lookup_isSome, e, ← mem_positions]
  split <;> simp_all

/-- **C12**, exactly, for all histories with any number of resizes that did not scroll: a draw after a resize prints in every cell of
the new area, and outside of it exactly in those cells in which a draw before the resize would have printed. So changes that were
pending when the screen shrank are drawn outside of it. -/
theorem C12_exact_partial (env : Color.Env) (den : Color → TColor) (hden : DenOk env den)
    (ox oy : Nat) (hx : 1 ≤ ox) (hy : 1 ≤ oy) (w h : Nat) (cur : Int × Int) (fill : Char) (hfill : Printable fill)
    (cache : CharCache) (hcache : CacheOk cache) (T : State) (hT : T.mode = .ground) (hpen : T.pen = Attr.clean)
    (ops : List SizedOp) (hops : ∀ op ∈ ops, SizedOk (SpanOk env den) op) (w' h' : Nat) (fill' : Char) (hfill' : Printable fill')
    (keep : Bool) :
    let s := execSizedAll env (ox, oy) { w := { scr := Screen.init w h cur [fill], cache := cache }, term := T } ops
    s.w.scr.offset = 0 →
    ∀ x y, (y + oy, x + ox) ∈ printedAt s.term ((s.w.scr.resize (w', h') [fill'] keep).render (ox, oy)).2 ↔
      (x < w' ∧ y < h') ∨ (y + oy, x + ox) ∈ printedAt s.term (s.w.scr.render (ox, oy)).2 := by
  intro s ho x y
  have hinit := Sync.init den ox oy w h cur hfill T hT hpen
  have hF : Follows ox oy (Screen.init w h cur [fill]) T fun x y =>
      cellGlyph den ((cellAt (Screen.init w h cur [fill]).cells x y).getD { char := [] }) := by
    refine ⟨hinit.shape, hinit.nodup, hinit.ground, hinit.clean, fun k str hl => ?_, fun x y hx hy hl => ?_⟩
    · have hk : k ∈ (Screen.init w h cur [fill]).changes.keys := (Changes.lookup_isSome _ _).mp (by simp [hl])
      obtain ⟨b1, b2⟩ := hinit.inside k hk
      obtain ⟨cell, hcell⟩ := hinit.shape.exists_cell b1 b2
      simp only [hcell, Option.getD_some]
      exact hinit.pend k.1 k.2 str cell hl hcell
    · obtain ⟨cell, hcell⟩ := hinit.shape.exists_cell hx hy
      simp only [hcell, Option.getD_some]
      exact hinit.shown x y cell hl hcell
  obtain ⟨G, p1, -⟩ := Follows.sized hden hx hy ops { w := { scr := Screen.init w h cur [fill], cache := cache }, term := T } _ hF hcache hops ho
  rw [(p1.resize w' h' hfill' keep).printed hx hy, p1.printed hx hy]
  exact resize_keys _ _ _ _ _ (x, y)

/-- C12 is violated whenever a screen is made smaller before it was first drawn: every cell that is not left is drawn. -/
theorem C12_fresh_violated (ox oy : Nat) (hx : 1 ≤ ox) (hy : 1 ≤ oy) (w h w' h' : Nat) (cur : Int × Int) (fill fill' : Char)
    (hfill : Printable fill) (hfill' : Printable fill') (keep : Bool) (T : State) (hT : T.mode = .ground) (hpen : T.pen = Attr.clean)
    (x y : Nat) (hxw : x < w) (hyh : y < h) (hout : ¬ (x < w' ∧ y < h')) :
    let s := (Screen.init w h cur [fill]).resize (w', h') [fill'] keep
    ¬ (x < s.width ∧ y < s.height) ∧ (y + oy, x + ox) ∈ printedAt T (s.render (ox, oy)).2 := by
  intro s
  refine ⟨hout, ?_⟩
  have h1 := C12_exact_partial {} (denOf {}) (denOk {}) ox oy hx hy w h cur fill hfill [] (by intro e he; simp at he) T hT hpen [] (by simp)
    w' h' fill' hfill' keep rfl x y
  refine h1.mpr (.inr ?_)
  have h2 := C12_exact_partial {} (denOf {}) (denOk {}) ox oy hx hy 0 0 cur fill hfill [] (by intro e he; simp at he) T hT hpen [] (by simp)
    w h fill hfill true rfl x y
  refine h2.mpr (.inl ⟨hxw, hyh⟩)

/-- A screen of six cells made smaller. -/
example : let s := (Screen.init 3 2).resize (2, 1)
    (2, 3) ∈ printedAt { grid := fun _ _ => { ch := ' ', attr := Attr.clean } } (s.render (1, 1)).2 := by
  exact (C12_fresh_violated 1 1 (by omega) (by omega) 3 2 2 1 (0, 0) ' ' ' ' (by decide) (by decide) true _ rfl rfl 2 1 (by omega) (by omega) (by omega)).2

end Slate
