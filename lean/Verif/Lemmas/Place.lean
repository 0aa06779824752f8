import Verif.Lemmas.Layout
import Verif.Lemmas.Cells

/-! Placement of newline-free lines, and the effect of opaque hits. -/

namespace Slate
open Py

/-! ### Opaque hits -/

/-- The write-matrix entry of a character with an opaque (or no) background. -/
def Hit.wcell (t : Hit) : WCell :=
  { char := t.char, fg := t.span.fg, bg := t.span.bg, bleed := false }

/-- Whether a hit is at a position. -/
def Hit.isAt (x y : Nat) (t : Hit) : Bool := decide (t.x = x) && decide (t.y = y)

/-- The last hit at a position. -/
def lastHit (hits : List Hit) (x y : Nat) : Option Hit := hits.reverse.find? (Hit.isAt x y)

theorem Hit.put_opaque {m : Mats} {t : Hit} (h : bgHasAlpha t.span.bg = false) (x y : Nat) :
    (t.put m).wm x y = (if t.isAt x y then some t.wcell else m.wm x y) ∧ (t.put m).am = m.am := by
  have hc : (t.isAt x y = true) ↔ (x = t.x ∧ y = t.y) := by
    simp only [Hit.isAt, Bool.and_eq_true, decide_eq_true_eq]
    exact ⟨fun h => ⟨h.1.symm, h.2.symm⟩, fun h => ⟨h.1.symm, h.2.symm⟩⟩
  unfold Hit.put putCell
  split
  · rw [h]
    refine ⟨?_, rfl⟩
    simp only [upd, hc, Bool.false_eq_true, if_false]
    rfl
  · refine ⟨?_, rfl⟩
    simp only [upd, hc]
    rfl

theorem foldl_put_opaque (hits : List Hit) (hop : ∀ t ∈ hits, bgHasAlpha t.span.bg = false)
    (m : Mats) (x y : Nat) :
    (hits.foldl Hit.put m).wm x y = ((lastHit hits x y).map Hit.wcell).or (m.wm x y) ∧
    (hits.foldl Hit.put m).am = m.am := by
  induction hits using List.reverseRecOn with
  | nil => simp [lastHit]
  | append_singleton l t ih =>
    obtain ⟨i1, i2⟩ := ih fun t ht => hop t (by simp [ht])
    obtain ⟨p1, p2⟩ := Hit.put_opaque (m := l.foldl Hit.put m) (hop t (by simp)) x y
    simp only [List.foldl_append, List.foldl_cons, List.foldl_nil, p1, p2, i2, and_true]
    simp only [lastHit, List.reverse_append, List.reverse_singleton, List.singleton_append,
      List.find?_cons]
    cases hat : t.isAt x y with
    | true => simp
    | false => simp only [Bool.false_eq_true, if_false]; rw [i1]; rfl

/-! ### Newline-free characters -/

theorem next_pos {w i : Nat} (hw : 0 < w) :
    (if w ≤ i % w + 1 then (0, i / w + 1) else (i % w + 1, i / w)) = ((i + 1) % w, (i + 1) / w) := by
  have h1 := Nat.div_add_mod i w
  have h2 := Nat.mod_lt i hw
  generalize i / w = q at *
  generalize i % w = r at *
  subst h1
  split
  · have e : w * q + r + 1 = 0 + w * (q + 1) := by rw [Nat.mul_add]; omega
    rw [e, Nat.add_mul_mod_self_left, Nat.add_mul_div_left _ _ hw]
    simp
  · have e : w * q + r + 1 = (r + 1) + w * q := by omega
    rw [e, Nat.add_mul_mod_self_left, Nat.add_mul_div_left _ _ hw,
      Nat.mod_eq_of_lt (by omega), Nat.div_eq_of_lt (by omega)]
    simp

/-- The hit of a character placed at a row-major index. -/
def hitAt (w : Nat) (span : Span) (i : Nat) (c : Str) : Hit :=
  { x := i % w, y := i / w, span := span, char := c }

theorem inb_iff {w h i : Nat} (hw : 0 < w) :
    ((w : Int) ≤ ((i % w : Nat) : Int) ∨ ((i % w : Nat) : Int) < 0 ∨
      (h : Int) ≤ ((i / w : Nat) : Int) ∨ ((i / w : Nat) : Int) < 0) ↔ h * w ≤ i := by
  have h2 := Nat.mod_lt i hw
  rw [← Nat.le_div_iff_mul_le hw]
  generalize i / w = q at *
  generalize i % w = r at *
  omega

theorem charHits_index {w : Nat} (hw : 0 < w) (h : Nat) (span : Span) (chars : List Str)
    (hn : ∀ c ∈ chars, c ≠ ['\n']) (i : Nat) :
    charHits w h span chars ((i % w : Nat) : Int) ((i / w : Nat) : Int) =
      (chars.take (h * w - i)).mapIdx fun k c => hitAt w span (i + k) c := by
  induction chars generalizing i with
  | nil => simp [charHits]
  | cons c rest ih =>
    unfold charHits
    rw [if_congr (inb_iff hw) rfl rfl]
    split
    · rename_i hi
      rw [Nat.sub_eq_zero_of_le hi]; rfl
    · rename_i hi
      rw [if_neg (hn c (by simp))]
      have e : h * w - i = (h * w - (i + 1)) + 1 := by omega
      have np := next_pos (i := i) hw
      have ih' := ih (fun c hc => hn c (by simp [hc])) (i + 1)
      rw [e, List.take_succ_cons, List.mapIdx_cons]
      congr 1
      rw [show (fun k c => hitAt w span (i + (k + 1)) c) = fun k c => hitAt w span (i + 1 + k) c by
        funext k c; congr 1; omega, ← ih']
      by_cases hc : w ≤ i % w + 1
      · rw [if_pos hc] at np
        rw [if_pos (by exact_mod_cast hc)]
        obtain ⟨e1, e2⟩ := Prod.mk.inj np
        rw [← e1, ← e2]; simp
      · rw [if_neg hc] at np
        rw [if_neg (by exact_mod_cast hc)]
        obtain ⟨e1, e2⟩ := Prod.mk.inj np
        rw [← e1, ← e2]; simp

/-- The pen at a row-major index. -/
def penAt (w i : Nat) (last : Int) : Pen :=
  { x := ((i % w : Nat) : Int), y := ((i / w : Nat) : Int), last := last }

theorem putChars_index {w : Nat} (hw : 0 < w) (h : Nat) (span : Span) (chars : List Str)
    (hn : ∀ c ∈ chars, c ≠ ['\n']) (i : Nat) (hi : i ≤ h * w) (last : Int) (m : Mats) :
    (putChars w h span chars (penAt w i last) m).1 =
      penAt w (min (i + chars.length) (h * w))
        (if chars.length = 0 ∨ i = h * w then last
         else if i + chars.length ≤ h * w then 1 else 0) := by
  induction chars generalizing i last m with
  | nil => simp [putChars, hi]
  | cons c rest ih =>
    unfold putChars
    by_cases hge : h * w ≤ i
    · have hb : (w : Int) ≤ (penAt w i last).x ∨ (penAt w i last).x < 0 ∨
        (h : Int) ≤ (penAt w i last).y ∨ (penAt w i last).y < 0 := (inb_iff hw).mpr hge
      have : i = h * w := by omega
      subst this
      rw [if_pos hb]
      simp
    · have hb : ¬ ((w : Int) ≤ (penAt w i last).x ∨ (penAt w i last).x < 0 ∨
        (h : Int) ≤ (penAt w i last).y ∨ (penAt w i last).y < 0) := fun hh => hge ((inb_iff hw).mp hh)
      rw [if_neg hb, if_neg (hn c (by simp))]
      have np := next_pos (i := i) hw
      have ih' := fun m => ih (fun c hc => hn c (by simp [hc])) (i + 1) (by omega)
        (if rest.isEmpty then 1 else 0) m
      have e : (if (w : Int) ≤ (penAt w i last).x + 1 then ((0 : Int), (penAt w i last).y + 1)
          else ((penAt w i last).x + 1, (penAt w i last).y)) =
          ((((i + 1) % w : Nat) : Int), (((i + 1) / w : Nat) : Int)) := by
        have hx : (penAt w i last).x = ((i % w : Nat) : Int) := rfl
        have hy : (penAt w i last).y = ((i / w : Nat) : Int) := rfl
        rw [hx, hy]
        by_cases hc : w ≤ i % w + 1
        · rw [if_pos hc] at np
          rw [if_pos (by exact_mod_cast hc)]
          obtain ⟨e1, e2⟩ := Prod.mk.inj np
          rw [← e1, ← e2]; simp
        · rw [if_neg hc] at np
          rw [if_neg (by exact_mod_cast hc)]
          obtain ⟨e1, e2⟩ := Prod.mk.inj np
          rw [← e1, ← e2]; simp
      simp only [e]
      refine (ih' _).trans ?_
      simp only [List.length_cons]
      rw [show i + 1 + rest.length = i + (rest.length + 1) by omega]
      congr 1
      rw [if_neg (show ¬ (rest.length + 1 = 0 ∨ i = h * w) by omega)]
      cases rest with
      | nil => simp; omega
      | cons d t =>
        simp only [List.length_cons, List.isEmpty_cons]
        split
        · rename_i hx
          have : ¬ (i + (t.length + 1 + 1) ≤ h * w) := by omega
          simp [this]
        · rfl

theorem mem_cellChars {s : Span} (hnl : '\n' ∉ s.text) : ∀ c ∈ s.cellChars, c ≠ ['\n'] := by
  intro c hc
  obtain ⟨k, hk⟩ := List.mem_iff_getElem?.mp hc
  unfold Span.cellChars at hk
  rw [charsGo_getElem?] at hk
  obtain ⟨ch, hch, hk⟩ := Option.map_eq_some_iff.mp hk
  have hm : ch ∈ s.text := List.mem_of_getElem? hch
  intro e
  rw [e] at hk
  have hne : ch ≠ '\n' := fun h => hnl (h ▸ hm)
  split at hk
  · have := congrArg List.getLast? hk
    simp at this; exact hne this
  · split at hk
    · have := congrArg List.length hk
      simp [RESET] at this
    · simp at hk; exact hne hk

/-- The styled characters of a line, each with its span. -/
def lineChars (spans : List Span) : List (Span × Str) :=
  spans.flatMap fun s => s.cellChars.map fun c => (s, c)

theorem length_lineChars (spans : List Span) :
    (lineChars spans).length = (spans.map Span.len).sum := by
  induction spans with
  | nil => rfl
  | cons s rest ih =>
    simp only [lineChars, List.flatMap_cons, List.length_append, List.length_map,
      length_cellChars, List.map_cons, List.sum_cons] at ih ⊢
    rw [ih]; rfl

/-- A newline-free line fills consecutive row-major positions. -/
theorem lineHits_index {w : Nat} (hw : 0 < w) (h : Nat) (spans : List Span)
    (hn : ∀ s ∈ spans, '\n' ∉ s.text) (i : Nat) (hi : i ≤ h * w) (last : Int) :
    lineHits w h 0 spans (penAt w i last) =
      ((lineChars spans).take (h * w - i)).mapIdx fun k c => hitAt w c.1 (i + k) c.2 := by
  induction spans generalizing i last with
  | nil => simp [lineHits, lineChars]
  | cons s rest ih =>
    have hcs := mem_cellChars (hn s (by simp))
    unfold lineHits
    have e0 : ({ penAt w i last with y := (penAt w i last).y - 0 } : Pen) = penAt w i last := by
      simp
    rw [e0, putChars_index hw h s s.cellChars hcs i hi last,
      ih (fun s hs => hn s (by simp [hs])) _ (by omega)]
    have e1 := charHits_index hw h s s.cellChars hcs i
    simp only [penAt, Int.sub_zero]
    rw [e1]
    simp only [lineChars, List.flatMap_cons, List.take_append, List.length_map]
    rw [List.mapIdx_append]
    congr 1
    · rw [← List.map_take]
      apply List.ext_getElem (by simp)
      intro n h1 h2
      simp
    · simp only [List.length_take, List.length_map]
      by_cases hle : i + s.cellChars.length ≤ h * w
      · rw [Nat.min_eq_left hle, Nat.min_eq_right (by omega)]
        rw [show h * w - (i + s.cellChars.length) = h * w - i - s.cellChars.length by omega]
        congr 1
        funext k c
        congr 1
        omega
      · rw [Nat.min_eq_right (by omega), Nat.sub_self, show h * w - i - s.cellChars.length = 0 by omega]
        simp

/-- Starting inside the screen, a newline-free line does not scroll unless its first
span ends exactly in the bottom right corner and another span follows. -/
theorem putSpans_no_scroll {w : World} (hw : 0 < w.scr.width) (h0 : w.scr.offset = 0)
    (hok : CacheOk w.cache) (spans : List Span) (hn : ∀ s ∈ spans, '\n' ∉ s.text) (i0 : Nat)
    (hi : i0 < w.scr.height * w.scr.width)
    (hcorner : ∀ s t rest, spans = s :: t :: rest → i0 + s.len ≠ w.scr.height * w.scr.width)
    (m : Mats) :
    (putSpans spans 0 (penAt w.scr.width i0 ((spans.length : Int) - 1)) m w).2.2.1.scr.offset
      = w.scr.offset := by
  -- general step: no scroll while inside, or when the index differs from `last`
  have step : ∀ (spans : List Span) (hn : ∀ s ∈ spans, '\n' ∉ s.text) (i : Nat) (last : Int)
      (k : Nat) (m : Mats) (c : CharCache), CacheOk c →
      i ≤ w.scr.height * w.scr.width →
      (spans ≠ [] → i = w.scr.height * w.scr.width →
        (last = 0 ∨ last = 1) ∧ 1 ≤ k ∧ (k = 1 → last ≠ 1)) →
      (∀ s t rest, spans = s :: t :: rest → k = 0 → i + s.len ≠ w.scr.height * w.scr.width) →
      (putSpans spans k (penAt w.scr.width i last) m { scr := w.scr, cache := c }).2.2.1.scr.offset
        = w.scr.offset := by
    intro spans
    induction spans with
    | nil => intros; rfl
    | cons s rest ih =>
      intro hn i last k m c hok' hi hend hcor
      obtain ⟨hch, hg⟩ := hok'.get s
      have hcs := mem_cellChars (hn s (by simp))
      unfold putSpans
      simp only
      rw [hch]
      have hcond : ¬ ((k : Int) = (penAt w.scr.width i last).last ∧
          (penAt w.scr.width i last).y - w.scr.offset > (w.scr.height : Int) - 1) := by
        rintro ⟨h1, h2⟩
        simp only [penAt, h0] at h1 h2
        have hge : w.scr.height ≤ i / w.scr.width := by omega
        rw [Nat.le_div_iff_mul_le hw] at hge
        obtain ⟨h3, h4, h5⟩ := hend (by simp) (by omega)
        rcases h3 with h3 | h3
        · omega
        · exact h5 (by omega) h3
      rw [if_neg hcond]
      have e0 : ({ penAt w.scr.width i last with
          y := (penAt w.scr.width i last).y - w.scr.offset } : Pen) =
        penAt w.scr.width i last := by simp [h0]
      rw [e0, putChars_index hw w.scr.height s s.cellChars hcs i hi last]
      apply ih (fun s hs => hn s (by simp [hs])) _ _ _ _ _ hg (by omega)
      · rw [length_cellChars]
        intro hne he
        by_cases hfull : i = w.scr.height * w.scr.width
        · obtain ⟨q1, q2, q3⟩ := hend (by simp) hfull
          rw [if_pos (.inr hfull)]
          exact ⟨q1, by omega, by omega⟩
        · have hlen : s.text.length ≠ 0 := by omega
          rw [if_neg (by omega)]
          refine ⟨by split <;> simp, by omega, ?_⟩
          intro hk1
          split
          · have : i + s.text.length = w.scr.height * w.scr.width := by omega
            intro _
            cases rest with
            | nil => exact hne rfl
            | cons t rest => exact hcor s t rest rfl (by omega) this
          · simp
      · intro _ _ _ _ hk; omega
  exact step spans hn i0 _ 0 m w.cache hok (by omega) (by intro _ h; omega)
    (fun s t rest h _ => hcorner s t rest h)

end Slate
