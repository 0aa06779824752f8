import Verif.Props.Flow
import Verif.Props.Blend
import Verif.Props.Redraw

/-!
# What hides what in a bulk write, for all histories (C19)
-/

namespace Slate
open Py

/-- A pile without translucent layers above the first is like its last layer alone. -/
theorem C19_top (tb : Color) (first : Layer) (above : List Layer) (hop : ∀ l ∈ above, l.translucent = false) :
    Pile.cell tb first above = Pile.cell tb (above.getLastD first) [] := by
  have ht : Pile.tints above = [] := by
    unfold Pile.tints
    rw [List.filter_eq_nil_iff.mpr (by simpa using hop)]
    rfl
  have hpick : ∀ (P : Layer → Bool), (∀ l ∈ above, P l = true) →
      ((first :: above).reverse.find? P).getD first = above.getLastD first := by
    intro P hP
    rcases List.eq_nil_or_concat above with rfl | ⟨l', o, rfl⟩
    · cases hf : P first <;> simp [hf]
    · have : P o = true := hP o (by simp)
      simp [this]
  have hg : Pile.ground first (first :: above) = above.getLastD first := hpick _ fun l hl => by simp [hop l hl]
  have hx : Pile.text first (first :: above) = above.getLastD first := hpick _ fun l hl => by simp [Layer.unseen, hop l hl]
  have hg1 : ∀ l : Layer, Pile.ground l [l] = l := by
    intro l
    unfold Pile.ground
    cases h : l.translucent <;> simp [h]
  have hx1 : ∀ l : Layer, Pile.text l [l] = l := by
    intro l
    unfold Pile.text
    cases h : l.unseen <;> simp [h]
  have hb : Pile.back tb first above = Pile.back tb (above.getLastD first) [] := by
    unfold Pile.back
    rw [hg, hg1, ht]
    rfl
  have hi : Pile.ink first above = Pile.ink (above.getLastD first) [] := by
    unfold Pile.ink
    rw [hg, hg1, ht, hx, hx1]
    rfl
  unfold Pile.cell
  simp only [hb, hi, hx, hx1]

/-- The cell of a single opaque layer has the character, the background and, if it is opaque, the colour of its span. -/
theorem cell_alone (tb : Color) (l : Layer) (hl : l.translucent = false) : Pile.cell tb l [] = storedCell l.span l.shown := by
  have hg : Pile.ground l [l] = l := by simp [Pile.ground, hl]
  have hx : Pile.text l [l] = l := by simp [Pile.text, Layer.unseen, hl]
  have hb : Pile.back tb l [] = l.span.bg := by
    unfold Pile.back
    rw [hg]
    cases h : l.span.bg with
    | none => rfl
    | some b =>
      have : b.alpha = 1 := by simpa [Layer.translucent, h] using hl
      simp [Pile.tints, Pile.fresh, this]
  have hi : Pile.ink l [] = l.span.fg.getD Color.white := by
    unfold Pile.ink
    rw [hx]
    simp
  unfold Pile.cell storedCell
  simp only [hb, hi, hx]
  congr 1
  cases hf : l.span.fg with
  | none => simp [show Color.white.alpha = 1 from rfl]
  | some f =>
    simp only [Option.getD_some]
    by_cases ha : f.alpha = 1
    · simp [ha]
    · rw [if_neg ha, if_neg ha]
      cases hbb : l.span.bg with
      | none => rfl
      | some b =>
        have : b.alpha = 1 := by simpa [Layer.translucent, hbb] using hl
        simp [this]

/-- **C19** (partial: above the lowest text of the cell nothing may be translucent, `C19_tints_violated`): for every history and every call whose texts
have no line breaks, also one that scrolls. The last text on a cell is shown as if it was alone. -/
theorem C19_scroll_partial (env : Color.Env) (width height : Nat) (cur : Int × Int) (fill : Str) (ops : List Api) (d : Data)
    (hd : ∀ e ∈ d, ∀ s ∈ e.2, '\n' ∉ s.text ∧ s.text ≠ []) (tb : Color) (force : Bool) (x y : Nat) (first : Layer) (above : List Layer) :
    let w := Api.runAll env { scr := Screen.init width height cur fill } ops
    let r := writeBulk env d.entries tb force w
    let f := flow w.scr.width w.scr.height w.scr.offset d
    x < w.scr.width → y < w.scr.height →
    layersAt w.scr.width w.scr.height f.1 x y = first :: above → (∀ l ∈ above, l.translucent = false) →
    ∃ old cell, liftedCell w.scr.height f.2.2 w.scr.cells x y = some old ∧ cellAt r.1.scr.cells x y = some cell ∧
      cell = (if (Pile.cell tb (above.getLastD first) []).eq old then old else Pile.cell tb (above.getLastD first) []) ∧
      ((above.getLastD first).translucent = false →
        Pile.cell tb (above.getLastD first) [] = storedCell (above.getLastD first).span (above.getLastD first).shown) := by
  intro w r f hx hy hl hop
  obtain ⟨-, -, h⟩ := C103_scroll_partial env width height cur fill ops d hd tb force (Nat.lt_of_le_of_lt (Nat.zero_le y) hy)
  obtain ⟨old, ho, h⟩ := h x y hx hy
  have hl' : layersAt w.scr.width w.scr.height (flow w.scr.width w.scr.height w.scr.offset d).1 x y = first :: above := hl
  rw [hl'] at h
  obtain ⟨new, -, -, h3, h4⟩ := h
  have e : new = Pile.cell tb first above := by
    refine h3 ?_
    rcases List.eq_nil_or_concat above with rfl | ⟨l', o, rfl⟩
    · exact .inl rfl
    · right; left
      have : o.translucent = false := hop o (by simp)
      simp [Layer.unseen, this]
  rw [e, C19_top tb first above hop] at h4
  exact ⟨old, _, ho, h4, rfl, cell_alone tb _⟩

theorem fresh_last (t : Color) : ∀ (cs : List Color) (g : Option Color), cs.getLast? = some t →
    (∃ b, g = some b ∧ b.eq t = true ∧ Pile.fresh g cs = []) ∨ ∃ init c, Pile.fresh g cs = init ++ [c] ∧ c.eq t = true := by
  have step : ∀ (c : Color) (cs : List Color) (b : Color), c.eq b = true → (c :: cs).getLast? = some t → cs = [] → b.eq t = true := by
    rintro c cs b h1 h2 rfl
    simp only [List.getLast?_singleton, Option.some.injEq] at h2
    subst h2
    simp [Color.eq] at h1 ⊢
    tauto
  have refl : ∀ c : Color, c.eq c = true := by intro c; simp [Color.eq]
  intro cs
  induction cs with
  | nil => intro g h; simp at h
  | cons c cs ih =>
    intro g h
    by_cases hn : cs = []
    · cases g with
      | none =>
        right
        subst hn
        simp only [List.getLast?_singleton, Option.some.injEq] at h
        exact ⟨[], c, rfl, by rw [h]; exact refl t⟩
      | some b =>
        by_cases he : c.eq b = true
        · left
          refine ⟨b, rfl, step c cs b he h hn, ?_⟩
          subst hn
          simp [Pile.fresh, he]
        · right
          subst hn
          simp only [List.getLast?_singleton, Option.some.injEq] at h
          exact ⟨[], c, by simp [Pile.fresh, he], by rw [h]; exact refl t⟩
    · have h' : cs.getLast? = some t := by
        cases cs with
        | nil => exact absurd rfl hn
        | cons a l => simpa using h
      have later : (∃ init k, c :: Pile.fresh (some c) cs = init ++ [k] ∧ k.eq t = true) := by
        rcases ih (some c) h' with ⟨b, h1, h2, h3⟩ | ⟨init, k, h1, h2⟩
        · injection h1 with h1
          exact ⟨[], c, by rw [h3]; rfl, by rw [h1]; exact h2⟩
        · exact ⟨c :: init, k, by rw [h1]; rfl, h2⟩
      cases g with
      | none => exact .inr later
      | some b =>
        by_cases he : c.eq b = true
        · have hf : Pile.fresh (some b) (c :: cs) = Pile.fresh (some b) cs := by simp [Pile.fresh, he]
          rw [hf]
          exact ih (some b) h'
        · have hf : Pile.fresh (some b) (c :: cs) = c :: Pile.fresh (some c) cs := by simp [Pile.fresh, he]
          rw [hf]
          exact .inr later

theorem fl_tenth : (1 : Rat) / 10 ≤ fl (1 / 10) := by decide +kernel

/-- A tint of at least nine tenths over a colour gives the tint. -/
theorem over_strong {b c : Color} (hb : b.Valid) (hc : c.Valid) (ha : 9 / 10 ≤ c.alpha) :
    let o := Pile.over (some b) c
    o.r = c.r ∧ o.g = c.g ∧ o.b = c.b ∧ o.alpha = 1 := by
  have h1 : min (fl (c.alpha + fl (1 / 10))) 1 = 1 := by
    refine min_eq_right ?_
    have := fl_mono (x := 1) (y := c.alpha + fl (1 / 10)) (by have := fl_tenth; linarith)
    rwa [fl_one] at this
  simp only [Pile.over, h1, Color.blend, blendChan_one hb.1 hc.1, blendChan_one hb.2.1 hc.2.1, blendChan_one hb.2.2 hc.2.2, Int.toNat_natCast]
  simp

theorem fresh_sub (x : Color) : ∀ (cs : List Color) (g : Option Color), x ∈ Pile.fresh g cs → x ∈ cs := by
  intro cs
  induction cs with
  | nil => intro g h; cases g <;> simp [Pile.fresh] at h
  | cons c cs ih =>
    intro g h
    cases g with
    | none =>
      rcases List.mem_cons.mp h with h | h
      · rw [h]; exact List.mem_cons_self
      · exact List.mem_cons_of_mem _ (ih _ h)
    | some b =>
      unfold Pile.fresh at h
      split_ifs at h
      · exact List.mem_cons_of_mem _ (ih _ h)
      · rcases List.mem_cons.mp h with h | h
        · rw [h]; exact List.mem_cons_self
        · exact List.mem_cons_of_mem _ (ih _ h)

theorem over_valid : ∀ (cs : List Color) (g : Option Color), (∀ c ∈ cs, c.Valid) → (∀ b, g = some b → b.Valid) →
    ∀ b, cs.foldl (fun b c => some (Pile.over b c)) g = some b → b.Valid := by
  intro cs
  induction cs with
  | nil => intro g _ hg b h; exact hg b h
  | cons c cs ih =>
    intro g hc hg b h
    refine ih (some (Pile.over g c)) (fun a ha => hc a (by simp [ha])) ?_ b h
    intro a ha
    injection ha with ha
    subst ha
    cases g with
    | none => exact hc c (by simp)
    | some b => exact blend_valid _ _ _ _

/-- What is behind a cell if the last of the tints above its first layer is an almost opaque one: the tint, whatever opaque layers follow. -/
theorem back_strong (tb : Color) (htb : tb.Valid) (first : Layer) (above : List Layer)
    (hval : ∀ l ∈ first :: above, ∀ b, l.span.bg = some b → b.Valid) (t : Color) (ht : (Pile.tints above).getLast? = some t)
    (ha : 9 / 10 ≤ t.alpha) :
    ∃ c, Pile.back tb first above = some c ∧ c.r = t.r ∧ c.g = t.g ∧ c.b = t.b ∧ c.alpha = 1 := by
  have hgv : ∀ b, (Pile.ground first (first :: above)).span.bg = some b → b.Valid := by
    have hm : Pile.ground first (first :: above) ∈ first :: above := by
      unfold Pile.ground
      cases hf : (first :: above).reverse.find? (fun l => !l.translucent) with
      | none => exact List.mem_cons_self
      | some l => exact List.mem_reverse.mp (List.mem_of_find?_eq_some hf)
    exact hval _ hm
  have htv : ∀ c ∈ Pile.tints above, c.Valid := by
    intro c hc
    obtain ⟨l, hl, e⟩ := List.mem_filterMap.mp hc
    exact hval l (List.mem_cons_of_mem _ (List.mem_of_mem_filter hl)) c e
  have fin : ∀ c : Color, c.Valid → c.eq t = true →
      let r := if c.alpha = 1 then c else Pile.over (some tb) c
      r.r = t.r ∧ r.g = t.g ∧ r.b = t.b ∧ r.alpha = 1 := by
    intro c hc he
    simp only [Color.eq, Bool.and_eq_true, beq_iff_eq, decide_eq_true_eq] at he
    obtain ⟨⟨⟨e1, e2⟩, e3⟩, e4⟩ := he
    by_cases h1 : c.alpha = 1
    · simp only [h1, if_true]
      exact ⟨e1, e2, e3, trivial⟩
    · simp only [h1, if_false]
      obtain ⟨o1, o2, o3, o4⟩ := over_strong htb hc (by rw [e4]; exact ha)
      exact ⟨o1.trans e1, o2.trans e2, o3.trans e3, o4⟩
  unfold Pile.back
  simp only
  rcases fresh_last t (Pile.tints above) (Pile.ground first (first :: above)).span.bg ht with ⟨b, h1, h2, h3⟩ | ⟨init, c, h1, h2⟩
  · rw [h3, h1]
    exact ⟨_, rfl, fin b (hgv b h1) h2⟩
  · have hsub := fun x => fresh_sub x (Pile.tints above) (Pile.ground first (first :: above)).span.bg
    rw [h1] at hsub ⊢
    have hcv : c.Valid := htv c (hsub c (by simp))
    have hbase := over_valid init (Pile.ground first (first :: above)).span.bg (fun a ha => htv a (hsub a (by simp [ha]))) hgv
    rw [List.foldl_append, List.foldl_cons, List.foldl_nil]
    revert hbase
    generalize init.foldl (fun b c => some (Pile.over b c)) (Pile.ground first (first :: above)).span.bg = base
    intro hbase
    cases base with
    | none => exact ⟨_, rfl, fin c hcv h2⟩
    | some b =>
      have h2' := h2
      simp only [Color.eq, Bool.and_eq_true, beq_iff_eq, decide_eq_true_eq] at h2'
      obtain ⟨⟨⟨e1, e2⟩, e3⟩, e4⟩ := h2'
      obtain ⟨o1, o2, o3, o4⟩ := over_strong (hbase b rfl) hcv (by rw [e4]; exact ha)
      refine ⟨_, rfl, ?_⟩
      simp only [o4, if_true]
      exact ⟨o1.trans e1, o2.trans e2, o3.trans e3, trivial⟩

/-- The layers of a cell are characters of the spans that are written. -/
theorem layersAt_mem {w h : Nat} {d : List ((Int × Int) × List Span)} {x y : Nat} {t : Layer} (hm : t ∈ layersAt w h d x y) :
    t.char ∈ t.span.text ∧ ∃ e ∈ d, t.span ∈ e.2 := by
  obtain ⟨e, he, hc⟩ := List.mem_filterMap.mp hm
  split_ifs at hc
  obtain ⟨s, hs, hl⟩ := List.mem_flatMap.mp (covering_mem hc).1
  obtain ⟨j, hj, e'⟩ := List.mem_mapIdx.mp hl
  subst e'
  exact ⟨List.getElem_mem hj, e, he, hs⟩

theorem flowLine_mem (w h : Nat) (line : List Span) : ∀ (k : Nat) (mark off : Int) (p : Int × Int),
    ∀ e ∈ (flowLine w h k mark off p line).1, ∀ s ∈ e.2, s ∈ line := by
  induction line with
  | nil => intro k mark off p e he; simp [flowLine] at he
  | cons a line ih =>
    intro k mark off p e he s hs
    unfold flowLine at he
    rcases List.mem_cons.mp he with he | he
    · subst he
      rw [List.mem_singleton.mp hs]
      exact List.mem_cons_self
    · exact List.mem_cons_of_mem _ (ih _ _ _ _ e he s hs)

theorem flow_mem (w h : Nat) (d : List ((Int × Int) × List Span)) : ∀ (off : Int),
    ∀ e ∈ (flow w h off d).1, ∀ s ∈ e.2, ∃ e' ∈ d, s ∈ e'.2 := by
  induction d with
  | nil => intro off e he; simp [flow] at he
  | cons a d ih =>
    intro off e he s hs
    unfold flow at he
    rcases List.mem_append.mp he with he | he
    · exact ⟨a, List.mem_cons_self, flowLine_mem w h _ _ _ _ _ e he s hs⟩
    · obtain ⟨e', h1, h2⟩ := ih _ e he s hs
      exact ⟨e', List.mem_cons_of_mem _ h1, h2⟩

/-- **C19 violated** for all opaque texts that are written over a tint of at least nine tenths, in every history and every call without line breaks: not the
background of the opaque text is behind the cell, but that of the tint below it. -/
theorem C19_tints_violated (env : Color.Env) (width height : Nat) (cur : Int × Int) (fill : Str) (ops : List Api) (d : Data)
    (hd : ∀ e ∈ d, ∀ s ∈ e.2, '\n' ∉ s.text ∧ s.text ≠ []) (tb : Color) (htb : tb.Valid) (force : Bool) (x y : Nat)
    (first : Layer) (above : List Layer) (tint top : Layer) (t : Color)
    (hval : ∀ e ∈ d, ∀ s ∈ e.2, ∀ b, s.bg = some b → b.Valid)
    (htint : tint.span.bg = some t) (ha : 9 / 10 ≤ t.alpha) (ha1 : t.alpha ≠ 1) (htop : top.translucent = false) :
    let w := Api.runAll env { scr := Screen.init width height cur fill } ops
    let r := writeBulk env d.entries tb force w
    x < w.scr.width → y < w.scr.height →
    layersAt w.scr.width w.scr.height (flow w.scr.width w.scr.height w.scr.offset d).1 x y = first :: above ++ [tint, top] →
    ∃ cell b, cellAt r.1.scr.cells x y = some cell ∧ cell.bg = some b ∧ b.r = t.r ∧ b.g = t.g ∧ b.b = t.b ∧ b.alpha = 1 := by
  intro w r hx hy hl
  obtain ⟨-, -, h⟩ := C103_scroll_partial env width height cur fill ops d hd tb force (Nat.lt_of_le_of_lt (Nat.zero_le y) hy)
  obtain ⟨old, ho, h⟩ := h x y hx hy
  have hl' : layersAt w.scr.width w.scr.height (flow w.scr.width w.scr.height w.scr.offset d).1 x y = first :: (above ++ [tint, top]) := hl
  rw [hl'] at h
  obtain ⟨new, -, h2, -, h4⟩ := h
  have htt : tint.translucent = true := by simp [Layer.translucent, htint, ha1]
  obtain ⟨c, c1, c2, c3, c4, c5⟩ := back_strong tb htb first (above ++ [tint, top]) (by
      intro l hm b hb
      rw [← hl'] at hm
      obtain ⟨-, e, he, hs⟩ := layersAt_mem hm
      obtain ⟨e', he', hs'⟩ := flow_mem _ _ _ _ e he _ hs
      exact hval e' he' _ hs' b hb) t (by
      unfold Pile.tints
      rw [List.filter_append, List.filterMap_append]
      simp [htt, htop, htint]) ha
  have hb : new.bg = some c := h2.trans c1
  by_cases he : new.eq old = true
  · rw [if_pos he] at h4
    simp only [Cell.eq, Bool.and_eq_true, hb] at he
    have ho := he.2
    cases hob : old.bg with
    | none => rw [hob] at ho; simp [Span.optEq] at ho
    | some b =>
      rw [hob] at ho
      simp only [Span.optEq, Color.eq, Bool.and_eq_true, beq_iff_eq, decide_eq_true_eq] at ho
      obtain ⟨⟨⟨e1, e2⟩, e3⟩, e4⟩ := ho
      exact ⟨old, b, h4, hob, e1 ▸ c2, e2 ▸ c3, e3 ▸ c4, e4 ▸ c5⟩
  · rw [if_neg he] at h4
    exact ⟨new, c, h4, hb, c2, c3, c4, c5⟩

/-- Three texts, the second one a tint, over each other in the third row of a screen of two rows: the screen scrolls by one row. -/
example :
    let tint : Span := { text := "b".toList, bg := some { r := 0, g := 0, b := 200, isBg := true, alpha := 9 / 10 } }
    let top : Span := { text := "c".toList, bg := some { r := 200, g := 0, b := 0, isBg := true } }
    let d : Data := [((0, 2), [{ text := "a".toList }]), ((0, 2), [tint]), ((0, 2), [top])]
    let w : World := { scr := Screen.init 1 2 }
    layersAt 1 2 (flow 1 2 0 d).1 0 1 = [⟨{ text := "a".toList }, 0, 'a'⟩] ++ [⟨tint, 0, 'b'⟩, ⟨top, 0, 'c'⟩] ∧
    (writeBulk {} d.entries Color.black false w).1.scr.offset = 1 ∧
    (cellAt (writeBulk {} d.entries Color.black false w).1.scr.cells 0 1).map (fun c => (c.char, c.bg.map fun b => (b.r, b.g, b.b))) =
      some ("c".toList, some (0, 0, 200)) := by
  refine ⟨?_, ?_⟩
  · rfl
  · decide +kernel

/-- The same without the tint. -/
example :
    let top : Span := { text := "c".toList, bg := some { r := 200, g := 0, b := 0, isBg := true } }
    let d : Data := [((0, 2), [{ text := "a".toList }]), ((0, 2), [top])]
    let w : World := { scr := Screen.init 1 2 }
    layersAt 1 2 (flow 1 2 0 d).1 0 1 = [⟨{ text := "a".toList }, 0, 'a'⟩, ⟨top, 0, 'c'⟩] ∧
    (cellAt (writeBulk {} d.entries Color.black false w).1.scr.cells 0 1).map (fun c => (c.char, c.bg.map fun b => (b.r, b.g, b.b))) =
      some ("c".toList, some (200, 0, 0)) := by
  refine ⟨?_, ?_⟩
  · rfl
  · decide +kernel

end Slate
