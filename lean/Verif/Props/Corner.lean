import Verif.Props.Write

/-!
# C05: the corner condition is exact

`C05_placement_partial` asks that the first span of a line of several spans does not
end exactly in the bottom right corner of the screen. Every call that breaks this
condition scrolls.
-/

namespace Slate
open Py Term

/-- The fill phase of a line whose first span ends in the bottom right corner scrolls
at the second span, and raises if that one is empty. -/
theorem putSpans_corner {w : World} (hw : 0 < w.scr.width) (h0 : w.scr.offset = 0)
    (hok : CacheOk w.cache) (s t : Span) (rest : List Span) (hn : '\n' ∉ s.text) (i : Nat)
    (hi : i < w.scr.height * w.scr.width) (hc : i + s.text.length = w.scr.height * w.scr.width)
    (last : Int) (m : Mats) :
    let r := putSpans (s :: t :: rest) 0 (penAt w.scr.width i last) m w
    1 ≤ r.2.2.1.scr.offset ∧ (t.text = [] → r.2.2.2 = some .indexError) := by
  intro r
  obtain ⟨hch, hg⟩ := hok.get s
  have hcs := mem_cellChars hn
  have hdiv : i / w.scr.width < w.scr.height := by
    rw [Nat.div_lt_iff_lt_mul hw]; exact hi
  have e0 : ({ penAt w.scr.width i last with
      y := (penAt w.scr.width i last).y - w.scr.offset } : Pen) =
    penAt w.scr.width i last := by simp [h0]
  have hpen := putChars_index hw w.scr.height s s.cellChars hcs i (by omega) last m
  rw [length_cellChars, hc, if_neg (show ¬ (s.text.length = 0 ∨ i = w.scr.height * w.scr.width) by
    omega), if_pos (le_refl _), Nat.min_self] at hpen
  obtain ⟨m', hm'⟩ : ∃ m', m' = (putChars w.scr.width w.scr.height s s.cellChars
    (penAt w.scr.width i last) m).2 := ⟨_, rfl⟩
  have hr : r = putSpans (t :: rest) 1 (penAt w.scr.width (w.scr.height * w.scr.width) 1) m'
      { w with cache := (w.cache.get s).2 } := by
    show putSpans (s :: t :: rest) 0 (penAt w.scr.width i last) m w = _
    rw [putSpans]
    simp only
    rw [hch, if_neg (by
      rintro ⟨-, h2⟩
      simp only [penAt, h0] at h2
      omega), e0, hpen, ← hm']
  have hyd : (w.scr.height * w.scr.width) / w.scr.width = w.scr.height := Nat.mul_div_cancel _ hw
  have hcond : ((1 : Nat) : Int) = (penAt w.scr.width (w.scr.height * w.scr.width) 1).last ∧
      (penAt w.scr.width (w.scr.height * w.scr.width) 1).y - w.scr.offset >
        (w.scr.height : Int) - 1 := by
    refine ⟨rfl, ?_⟩
    simp only [penAt, h0, hyd]
    omega
  obtain ⟨hch2, -⟩ := hg.get t
  have hy : (penAt w.scr.width (w.scr.height * w.scr.width) 1).y - (w.scr.height : Int) + 1 = 1 := by
    simp only [penAt, hyd]; omega
  rw [hr]
  unfold putSpans
  simp only
  rw [if_pos hcond, hch2]
  constructor
  · split
    · simp only; omega
    · split
      · simp only; omega
      · refine le_trans ?_ (putSpans_frame _ _ _ _ _).offset
        simp only; omega
  · intro ht
    have : t.cellChars.isEmpty = true := by
      rw [List.isEmpty_iff, ← List.length_eq_zero_iff, length_cellChars, ht]; rfl
    rw [if_pos this]

/-- **C05** (exact condition). On a screen that has not scrolled, every write of two or
more spans at an in-bounds cursor whose first span ends exactly in the bottom right
corner scrolls, whatever the later spans are; if the second span is empty the call
raises `IndexError` and the scrolled state stays. So the corner condition of
`C05_placement_partial` cannot be weakened. -/
theorem C05_corner_violated (env : Color.Env) (tb : Color) (force : Bool) (w : World)
    (hs : Shape w.scr.width w.scr.height w.scr.cells) (hok : CacheOk w.cache)
    (h0 : w.scr.offset = 0) (x y : Nat) (hx : x < w.scr.width) (hy : y < w.scr.height)
    (s t : Span) (rest : List Span) (hnl : '\n' ∉ s.text)
    (hcorner : y * w.scr.width + x + s.text.length = w.scr.height * w.scr.width) :
    let r := write env (s :: t :: rest) (some ((x : Int), (y : Int))) tb force w
    0 < r.1.scr.offset ∧ (t.text = [] → r.2 = .error .indexError) := by
  intro r
  have hw : 0 < w.scr.width := by omega
  have hi : y * w.scr.width + x < w.scr.height * w.scr.width := by
    calc y * w.scr.width + x < y * w.scr.width + w.scr.width := by omega
      _ = (y + 1) * w.scr.width := by rw [Nat.add_mul]; omega
      _ ≤ w.scr.height * w.scr.width := Nat.mul_le_mul_right _ hy
  have hmod : (y * w.scr.width + x) % w.scr.width = x := by
    rw [Nat.mul_comm, Nat.mul_add_mod, Nat.mod_eq_of_lt hx]
  have hdiv : (y * w.scr.width + x) / w.scr.width = y := by
    rw [Nat.mul_comm, Nat.mul_add_div hw, Nat.div_eq_of_lt hx]; rfl
  have hpen : ({ x := (x : Int), y := (y : Int), last := ((s :: t :: rest).length : Int) - 1 } : Pen) =
      penAt w.scr.width (y * w.scr.width + x) (((s :: t :: rest).length : Int) - 1) := by
    simp [penAt, hmod, hdiv]
  obtain ⟨h1, h2⟩ := putSpans_corner hw h0 hok s t rest hnl _ hi hcorner
    (((s :: t :: rest).length : Int) - 1) Mats.blank
  rw [← hpen] at h1 h2
  have hf := putSpans_frame (s :: t :: rest) 0
    { x := (x : Int), y := (y : Int), last := ((s :: t :: rest).length : Int) - 1 } Mats.blank w
  have hr : r = writeBulk env [(some ((x : Int), (y : Int)), s :: t :: rest)] tb force w := rfl
  rw [hr]
  unfold writeBulk putData
  revert h1 h2 hf
  rcases putSpans (s :: t :: rest) 0
    { x := (x : Int), y := (y : Int), last := ((s :: t :: rest).length : Int) - 1 } Mats.blank w
    with ⟨p, m, w', e⟩
  intro h1 h2 hf
  simp only at h1 h2 hf
  cases e with
  | some e =>
    refine ⟨by simp only; omega, fun ht => ?_⟩
    simp only [Option.some.injEq] at h2
    simp only [h2 ht]
  | none =>
    refine ⟨?_, fun ht => by cases h2 ht⟩
    simp only [putData]
    obtain ⟨s', e, -, -, ho', -⟩ := commit_spec env tb m w'.scr
      (by rw [hf.width, hf.height]; exact hf.shape _ _ rfl hs)
    rw [e]
    simp only
    omega

/-- "ef" ends in the corner of a 3x2 screen and more spans follow: one has text, and
in the second call it is empty. -/
example :
    let w : World := { scr := Screen.init 3 2 }
    let s : Span := { text := "ef".toList }
    let t : Span := { text := "gh".toList, style := { bold := true } }
    (0 < (write {} [s, t, s] (some (1, 1)) Color.black false w).1.scr.offset) ∧
    (write {} [s, { text := [] }, t] (some (1, 1)) Color.black false w).2 = .error .indexError :=
  ⟨(C05_corner_violated {} Color.black false { scr := Screen.init 3 2 }
      (resize_shape _ _ _ _ _) (by intro e he; cases he) rfl 1 1 (by decide) (by decide)
      _ _ _ (by decide) (by decide)).1,
    (C05_corner_violated {} Color.black false { scr := Screen.init 3 2 }
      (resize_shape _ _ _ _ _) (by intro e he; cases he) rfl 1 1 (by decide) (by decide)
      _ _ _ (by decide) (by decide)).2 rfl⟩

end Slate
