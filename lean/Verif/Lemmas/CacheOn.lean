import Verif.Lemmas.AnyCache

/-!
# Writes that do not scroll, if the cache is right about the spans that are written

After a scroll the cache is wrong about the span that scrolled (C18), but about no other one.
-/

namespace Slate
open Py

/-- Every list that is cached for one of the spans is what `get_characters` computes. -/
def CacheOkOn (P : Span → Prop) (cache : CharCache) : Prop := ∀ e ∈ cache, P e.1 → e.2 = e.1.cellChars

theorem CacheOk.on {cache : CharCache} (h : CacheOk cache) (P : Span → Prop) : CacheOkOn P cache := fun e he _ => h e he

theorem CacheOkOn.get {P : Span → Prop} {cache : CharCache} (h : CacheOkOn P cache) (s : Span) (hs : P s) :
    (cache.get s).1 = s.cellChars ∧ CacheOkOn P (cache.get s).2 := by
  unfold CharCache.get
  cases hl : cache.lookup s with
  | none =>
    refine ⟨rfl, ?_⟩
    intro e he hp
    rcases List.mem_cons.mp (List.mem_of_mem_take he) with rfl | hm
    · rfl
    · exact h e hm hp
  | some l =>
    have hl' : l = s.cellChars := h _ (mem_of_lookup hl) hs
    refine ⟨hl', ?_⟩
    intro e he hp
    rcases List.mem_cons.mp he with rfl | hm
    · exact hl'
    · exact h e (List.mem_of_mem_filter hm) hp

theorem resolveSpans_on {P : Span → Prop} (c : CharCache) (hc : CacheOkOn P c) (L : List Span) (hL : ∀ s ∈ L, P s) :
    (resolveSpans c L).1 = L.map (fun s => (s, s.cellChars)) ∧ CacheOkOn P (resolveSpans c L).2 := by
  induction L generalizing c with
  | nil => exact ⟨rfl, hc⟩
  | cons s L ih =>
    obtain ⟨h1, h2⟩ := hc.get s (hL s (by simp))
    obtain ⟨h3, h4⟩ := ih _ h2 fun s hs => hL s (by simp [hs])
    simp only [resolveSpans, List.map_cons, h1, h3]
    exact ⟨trivial, h4⟩

theorem resolve_on {P : Span → Prop} (c : CharCache) (hc : CacheOkOn P c) (d : Data) (hd : ∀ e ∈ d, ∀ s ∈ e.2, P s) :
    (resolve c d).1 = d.map (fun e => (e.1, e.2.map fun s => (s, s.cellChars))) ∧ CacheOkOn P (resolve c d).2 := by
  induction d generalizing c with
  | nil => exact ⟨rfl, hc⟩
  | cons e d ih =>
    obtain ⟨xy, line⟩ := e
    obtain ⟨h1, h2⟩ := resolveSpans_on c hc line (hd (xy, line) (by simp))
    obtain ⟨h3, h4⟩ := ih _ h2 fun e he => hd e (by simp [he])
    simp only [resolve, List.map_cons, h1, h3]
    exact ⟨trivial, h4⟩

/-- Two caches that are right about the spans make no difference. -/
theorem writeBulk_on {P : Span → Prop} (env : Color.Env) (d : Data) (tb : Color) (force : Bool) (w w' : World) (hscr : w'.scr = w.scr)
    (hs : Shape w.scr.width w.scr.height w.scr.cells) (hc : CacheOkOn P w.cache) (hc' : CacheOkOn P w'.cache) (hd : ∀ e ∈ d, ∀ s ∈ e.2, P s)
    (ho : (writeBulk env d.entries tb force w).1.scr.offset = w.scr.offset) :
    (writeBulk env d.entries tb force w').1.scr = (writeBulk env d.entries tb force w).1.scr ∧
    (writeBulk env d.entries tb force w').2 = (writeBulk env d.entries tb force w).2 ∧
    CacheOkOn P (writeBulk env d.entries tb force w).1.cache ∧ CacheOkOn P (writeBulk env d.entries tb force w').1.cache := by
  obtain ⟨r1, r2⟩ := resolve_on w.cache hc d hd
  obtain ⟨r1', r2'⟩ := resolve_on w'.cache hc' d hd
  have h1 := fill_still hs ho
  have h2 := putData_any_congr d Mats.blank Mats.blank w w' (by rw [hscr]) (by rw [hscr]) (by rw [hscr]) (by rw [r1, r1']) h1
  have e1 := putData_any d Mats.blank w h1
  have e2 := putData_any d Mats.blank w' h2
  unfold writeBulk
  rw [e1, e2, r1, r1', hscr]
  exact ⟨rfl, rfl, r2, r2'⟩

/-- The world with an empty cache. -/
def World.fresh (w : World) : World := { w with cache := [] }

theorem World.fresh_scr (w : World) : w.fresh.scr = w.scr := rfl

theorem World.fresh_ok (w : World) : CacheOk w.fresh.cache := by intro e he; cases he

/-- The spans of a bulk write. -/
def Data.Has (d : Data) (s : Span) : Prop := ∃ e ∈ d, s ∈ e.2

/-- A write that does not scroll is one with an empty cache. -/
theorem writeBulk_fresh (env : Color.Env) (d : Data) (tb : Color) (force : Bool) (w : World)
    (hs : Shape w.scr.width w.scr.height w.scr.cells) (hc : CacheOkOn d.Has w.cache)
    (ho : (writeBulk env d.entries tb force w).1.scr.offset = w.scr.offset) :
    (writeBulk env d.entries tb force w).1.scr = (writeBulk env d.entries tb force w.fresh).1.scr ∧
    (writeBulk env d.entries tb force w).2 = (writeBulk env d.entries tb force w.fresh).2 := by
  obtain ⟨h1, h2, -⟩ := writeBulk_on env d tb force w w.fresh rfl hs hc (w.fresh_ok.on _) (fun e he s hs => ⟨e, he, hs⟩) ho
  exact ⟨h1.symm, h2.symm⟩

end Slate
