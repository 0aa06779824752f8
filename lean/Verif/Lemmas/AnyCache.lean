import Verif.Props.Bulk

/-!
# Writes that do not scroll, whatever the cache of `Span.get_characters` holds

After a scroll the cache can hold lists that differ from what `get_characters` computes (C18). The lemmas here follow the lists that
are read from the cache.
-/

namespace Slate
open Py

/-- The lists that successive calls of `get_characters` return, and the cache afterwards. -/
def resolveSpans : CharCache → List Span → List (Span × List Str) × CharCache
  | c, [] => ([], c)
  | c, s :: rest =>
    let q := resolveSpans (c.get s).2 rest
    ((s, (c.get s).1) :: q.1, q.2)

/-- Lines with the lists of characters of their spans. -/
abbrev Resolved := List ((Int × Int) × List (Span × List Str))

/-- The same for the lines of a bulk write. -/
def resolve : CharCache → Data → Resolved × CharCache
  | c, [] => ([], c)
  | c, (xy, line) :: rest =>
    let q := resolve (resolveSpans c line).2 rest
    ((xy, (resolveSpans c line).1) :: q.1, q.2)

/-- Where the characters of a line go. -/
def lineHitsR (w h : Nat) (off : Int) : List (Span × List Str) → Pen → List Hit
  | [], _ => []
  | (span, chars) :: rest, p =>
    charHits w h span chars p.x (p.y - off) ++
      lineHitsR w h off rest (putChars w h span chars { p with y := p.y - off } Mats.blank).1

/-- The pen with which a line starts. -/
def startPenR (e : (Int × Int) × List (Span × List Str)) : Pen := { x := e.1.1, y := e.1.2, last := (e.2.length : Int) - 1 }

/-- Where the characters of a bulk write go. -/
def dataHitsR (w h : Nat) (off : Int) (r : Resolved) : List Hit := r.flatMap fun e => lineHitsR w h off e.2 (startPenR e)

/-- The pen after a line. -/
def penR (w h : Nat) (off : Int) : List (Span × List Str) → Pen → Pen
  | [], p => p
  | (span, chars) :: rest, p => penR w h off rest (putChars w h span chars { p with y := p.y - off } Mats.blank).1

theorem resolveSpans_length (c : CharCache) (spans : List Span) : (resolveSpans c spans).1.length = spans.length := by
  induction spans generalizing c with
  | nil => rfl
  | cons s rest ih => simp [resolveSpans, ih]

theorem resolveSpans_fst (c : CharCache) (spans : List Span) : (resolveSpans c spans).1.map (·.1) = spans := by
  induction spans generalizing c with
  | nil => rfl
  | cons s rest ih => simp [resolveSpans, ih]

theorem putSpans_any (spans : List Span) (i : Nat) (p : Pen) (m : Mats) (w : World)
    (h : (putSpans spans i p m w).2.2.1.scr.offset = w.scr.offset) :
    putSpans spans i p m w = (penR w.scr.width w.scr.height w.scr.offset (resolveSpans w.cache spans).1 p,
      (lineHitsR w.scr.width w.scr.height w.scr.offset (resolveSpans w.cache spans).1 p).foldl Hit.put m,
      { w with cache := (resolveSpans w.cache spans).2 }, none) := by
  induction spans generalizing i p m w with
  | nil => rfl
  | cons span rest ih =>
    unfold putSpans at h ⊢
    simp only at h ⊢
    split at h
    · rename_i hcond
      obtain ⟨_, hy⟩ := hcond
      exfalso
      split at h
      · simp only at h; omega
      · split at h
        · simp only at h; omega
        · have := (putSpans_frame rest (i + 1) _ _ _ |>.offset).trans (le_of_eq h)
          simp only at this; omega
    · rename_i hcond
      rw [if_neg hcond, ih (i + 1) _ _ { w with cache := (w.cache.get span).2 } h]
      simp only [resolveSpans, penR, lineHitsR, List.foldl_append, putChars_hits]
      rw [putChars_pen _ _ _ _ _ m Mats.blank]

/-- Whether a line scrolls depends on the size, the offset and the lists of characters. -/
theorem putSpans_any_congr (spans : List Span) (i : Nat) (p : Pen) (m m' : Mats) (w w' : World)
    (hw : w'.scr.width = w.scr.width) (hh : w'.scr.height = w.scr.height) (ho : w'.scr.offset = w.scr.offset)
    (hr : (resolveSpans w'.cache spans).1 = (resolveSpans w.cache spans).1)
    (h : (putSpans spans i p m w).2.2.1.scr.offset = w.scr.offset) :
    (putSpans spans i p m' w').2.2.1.scr.offset = w'.scr.offset := by
  induction spans generalizing i p m m' w w' with
  | nil => rfl
  | cons span rest ih =>
    simp only [resolveSpans, List.cons.injEq, Prod.mk.injEq, true_and] at hr
    obtain ⟨hr1, hr2⟩ := hr
    unfold putSpans at h ⊢
    simp only at h ⊢
    split at h
    · rename_i hcond
      obtain ⟨_, hy⟩ := hcond
      exfalso
      split at h
      · simp only at h; omega
      · split at h
        · simp only at h; omega
        · have := (putSpans_frame rest (i + 1) _ _ _ |>.offset).trans (le_of_eq h)
          simp only at this; omega
    · rename_i hcond
      rw [hh, ho, if_neg hcond]
      have key := ih (i + 1) _ _
        (putChars w.scr.width w.scr.height span (w.cache.get span).1 { p with y := p.y - w.scr.offset } m').2
        { w with cache := (w.cache.get span).2 } { w' with cache := (w'.cache.get span).2 } hw hh ho hr2 h
      rw [putChars_pen _ _ _ _ _ m m'] at key
      rw [hr1, hw]
      exact key.trans ho

theorem putData_any (d : Data) (m : Mats) (w : World) (h : (putData d.entries m w).2.1.scr.offset = w.scr.offset) :
    putData d.entries m w = ((dataHitsR w.scr.width w.scr.height w.scr.offset (resolve w.cache d).1).foldl Hit.put m,
      { w with cache := (resolve w.cache d).2 }, none) := by
  induction d generalizing m w with
  | nil => rfl
  | cons e rest ih =>
    obtain ⟨⟨x, y⟩, line⟩ := e
    have hf := putSpans_frame line 0 { x := x, y := y, last := (line.length : Int) - 1 } m w
    have hs := putSpans_any line 0 { x := x, y := y, last := (line.length : Int) - 1 } m w
    have hstep : putData (Data.entries (((x, y), line) :: rest)) m w =
        match putSpans line 0 { x := x, y := y, last := (line.length : Int) - 1 } m w with
        | (_, m, w, some e) => (m, w, some e)
        | (_, m, w, none) => putData (Data.entries rest) m w := by
      rw [show Data.entries (((x, y), line) :: rest) = (some (x, y), line) :: Data.entries rest from rfl, putData]
      rfl
    have h1 : (putSpans line 0 { x := x, y := y, last := (line.length : Int) - 1 } m w).2.2.1.scr.offset = w.scr.offset := by
      rw [hstep] at h
      revert hf h
      rcases putSpans line 0 { x := x, y := y, last := (line.length : Int) - 1 } m w with ⟨p1, m1, w1, e1⟩
      intro h hf
      simp only at h hf ⊢
      cases e1 with
      | some e => exact h
      | none =>
        have := (putData_frame (Data.entries rest) m1 w1).offset
        have := hf.offset
        simp only at h
        omega
    rw [hstep, hs h1] at h ⊢
    simp only at h ⊢
    rw [ih _ _ h]
    simp only [resolve, dataHitsR, List.flatMap_cons, List.foldl_append, startPenR, resolveSpans_length]

/-- Whether a bulk write scrolls depends on the size, the offset and the lists of characters. -/
theorem putData_any_congr (d : Data) (m m' : Mats) (w w' : World)
    (hw : w'.scr.width = w.scr.width) (hh : w'.scr.height = w.scr.height) (ho : w'.scr.offset = w.scr.offset)
    (hr : (resolve w'.cache d).1 = (resolve w.cache d).1)
    (h : (putData d.entries m w).2.1.scr.offset = w.scr.offset) :
    (putData d.entries m' w').2.1.scr.offset = w'.scr.offset := by
  induction d generalizing m m' w w' with
  | nil => rfl
  | cons e rest ih =>
    obtain ⟨⟨x, y⟩, line⟩ := e
    simp only [resolve, List.cons.injEq, Prod.mk.injEq, true_and] at hr
    obtain ⟨hr1, hr2⟩ := hr
    have hstep : ∀ m w, putData (Data.entries (((x, y), line) :: rest)) m w =
        match putSpans line 0 { x := x, y := y, last := (line.length : Int) - 1 } m w with
        | (_, m, w, some e) => (m, w, some e)
        | (_, m, w, none) => putData (Data.entries rest) m w := by
      intro m w
      rw [show Data.entries (((x, y), line) :: rest) = (some (x, y), line) :: Data.entries rest from rfl, putData]
      rfl
    have h1 : (putSpans line 0 { x := x, y := y, last := (line.length : Int) - 1 } m w).2.2.1.scr.offset = w.scr.offset := by
      have hf := putSpans_frame line 0 { x := x, y := y, last := (line.length : Int) - 1 } m w
      rw [hstep] at h
      revert hf h
      rcases putSpans line 0 { x := x, y := y, last := (line.length : Int) - 1 } m w with ⟨p1, m1, w1, e1⟩
      intro h hf
      simp only at h hf ⊢
      cases e1 with
      | some e => exact h
      | none =>
        have := (putData_frame (Data.entries rest) m1 w1).offset
        have := hf.offset
        simp only at h
        omega
    have h2 := putSpans_any_congr line 0 { x := x, y := y, last := (line.length : Int) - 1 } m m' w w' hw hh ho hr1 h1
    rw [hstep, putSpans_any _ _ _ _ _ h1] at h
    rw [hstep, putSpans_any _ _ _ _ _ h2]
    simp only at h ⊢
    exact ih _ _ { w with cache := (resolveSpans w.cache line).2 } { w' with cache := (resolveSpans w'.cache line).2 } hw hh ho hr2 h

/-- Without a position the exception is a `TypeError`; nothing else is raised without scrolling. -/
theorem putData_any_error (data : List Entry) (m : Mats) (w : World) (h : (putData data m w).2.1.scr.offset = w.scr.offset) :
    ((putData data m w).2.2 = some .typeError ∧ ∃ e ∈ data, e.1 = none) ∨
    ((putData data m w).2.2 = none ∧ ∃ d : Data, data = d.entries) := by
  induction data generalizing m w with
  | nil => exact .inr ⟨rfl, [], rfl⟩
  | cons e rest ih =>
    obtain ⟨c, line⟩ := e
    cases c with
    | none => exact .inl ⟨rfl, _, List.mem_cons_self .., rfl⟩
    | some xy =>
      obtain ⟨x, y⟩ := xy
      have hf := putSpans_frame line 0 { x := x, y := y, last := (line.length : Int) - 1 } m w
      have hs := putSpans_any line 0 { x := x, y := y, last := (line.length : Int) - 1 } m w
      unfold putData at h ⊢
      revert hf hs h
      rcases putSpans line 0 { x := x, y := y, last := (line.length : Int) - 1 } m w with ⟨p', m', w', e'⟩
      intro hf hs h
      simp only at h hf hs ⊢
      cases e' with
      | some e =>
        have := hs h
        simp at this
      | none =>
        simp only at h ⊢
        have := (putData_frame rest m' w').offset
        have := hf.offset
        rcases ih m' w' (by omega) with ⟨h1, e, he, hn⟩ | ⟨h1, d, rfl⟩
        · exact .inl ⟨h1, e, by simp [he], hn⟩
        · exact .inr ⟨h1, ((x, y), line) :: d, rfl⟩

/-- A write that does not scroll, with any cache. -/
theorem writeBulk_any (env : Color.Env) (d : Data) (tb : Color) (force : Bool)
    (w : World) (hs : Shape w.scr.width w.scr.height w.scr.cells)
    (h : (writeBulk env d.entries tb force w).1.scr.offset = w.scr.offset) :
    (writeBulk env d.entries tb force w).1.cache = (resolve w.cache d).2 ∧
    (writeBulk env d.entries tb force w).2 = .ok ((positions w.scr.width w.scr.height).countP
      fun p => (outcome tb ((dataHitsR w.scr.width w.scr.height w.scr.offset (resolve w.cache d).1).foldl Hit.put Mats.blank)
        w.scr p).isSome) ∧
    Wrote env tb ((dataHitsR w.scr.width w.scr.height w.scr.offset (resolve w.cache d).1).foldl Hit.put Mats.blank) w.scr
      (writeBulk env d.entries tb force w).1.scr := by
  have hfill := fill_still hs h
  have hd := putData_any d Mats.blank w hfill
  unfold writeBulk
  rw [hd]
  simp only
  obtain ⟨s', e, c1, c2, c3, c4, c5, c6, c7, c8⟩ := commit_spec env tb
    ((dataHitsR w.scr.width w.scr.height w.scr.offset (resolve w.cache d).1).foldl Hit.put Mats.blank) w.scr hs
  rw [e]
  exact ⟨trivial, rfl, c1, c2, c3, c4, c5, c6, c7, c8⟩

/-- An exception without scrolling leaves the screen as it was. -/
theorem writeBulk_any_error (env : Color.Env) (data : List Entry) (tb : Color) (force : Bool)
    (w : World) (hs : Shape w.scr.width w.scr.height w.scr.cells)
    (h : (writeBulk env data tb force w).1.scr.offset = w.scr.offset) :
    ((writeBulk env data tb force w).2 = .error .typeError ∧ (writeBulk env data tb force w).1.scr = w.scr) ∨
    ∃ d : Data, data = d.entries := by
  have hfill := fill_still hs h
  rcases putData_any_error data Mats.blank w hfill with ⟨h1, -⟩ | ⟨-, h1⟩
  · left
    have hf := (putData_frame data Mats.blank w).still hfill
    unfold writeBulk
    revert h1 hf
    rcases putData data Mats.blank w with ⟨m, w', e⟩
    intro h1 hf
    simp only at h1 hf
    subst h1
    exact ⟨rfl, hf.1⟩
  · exact .inr h1

end Slate
