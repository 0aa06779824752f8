import Verif.Model.AnsiCache
import Verif.Props.Codes
import Verif.Props.Write

/-!
# Changing the colour space (C47); writes that change the look (C48)
-/

namespace Slate
open Py Term

/-! ## C47 -/

/-- The objects a history leaves untouched. -/
theorem step_objs (grey : Nat → Nat → Nat → Nat) (w : ColorWorld) (op : ColorOp) (i : Nat) (o : ColorObj)
    (h : w.objs[i]? = some o) :
    ∃ o', (w.step grey op).objs[i]? = some o' ∧ o'.color = o.color ∧
      (o'.memo = o.memo ∨ o.memo = none ∧ op = .use i ∧
        o'.memo = some (o.color.ansi { space := w.term.get, grey := grey })) := by
  cases op with
  | setSpace new => exact ⟨o, h, rfl, .inl rfl⟩
  | make c =>
    refine ⟨o, ?_, rfl, .inl rfl⟩
    simp only [ColorWorld.step]
    rw [List.getElem?_append_left]
    · exact h
    · exact (List.getElem?_eq_some_iff.mp h).1
  | use j =>
    simp only [ColorWorld.step, ColorWorld.useObj]
    cases hj : w.objs[j]? with
    | none => exact ⟨o, h, rfl, .inl rfl⟩
    | some p =>
      simp only
      cases hm : p.memo with
      | some s => exact ⟨o, h, rfl, .inl rfl⟩
      | none =>
        simp only
        by_cases hij : j = i
        · subst hij
          rw [h] at hj
          injection hj with hj
          subst hj
          refine ⟨{ o with memo := some (o.color.ansi { space := w.term.get, grey := grey }) }, ?_, rfl, .inr ⟨hm, rfl, rfl⟩⟩
          rw [List.getElem?_set_self (List.getElem?_eq_some_iff.mp h).1]
        · refine ⟨o, ?_, rfl, .inl rfl⟩
          rw [List.getElem?_set_ne hij]
          exact h

/-- Once an object has emitted a code, it emits the same code for ever. -/
theorem run_memo (grey : Nat → Nat → Nat → Nat) (w : ColorWorld) (ops : List ColorOp) (i : Nat) (o : ColorObj)
    (s : Str) (h : w.objs[i]? = some o) (hm : o.memo = some s) :
    ∃ o', (w.run grey ops).objs[i]? = some o' ∧ o'.memo = some s := by
  induction ops generalizing w o with
  | nil => exact ⟨o, h, hm⟩
  | cons op ops ih =>
    obtain ⟨o', h1, -, h3⟩ := step_objs grey w op i o h
    refine ih (w.step grey op) o' h1 ?_
    rcases h3 with h3 | ⟨h3, -⟩
    · rw [h3, hm]
    · rw [hm] at h3; cases h3

/-- As long as it is not used, an object keeps no code. -/
theorem run_fresh (grey : Nat → Nat → Nat → Nat) (w : ColorWorld) (ops : List ColorOp) (i : Nat) (o : ColorObj)
    (h : w.objs[i]? = some o) (hm : o.memo = none) (hu : ∀ op ∈ ops, op ≠ .use i) :
    ∃ o', (w.run grey ops).objs[i]? = some o' ∧ o'.memo = none ∧ o'.color = o.color := by
  induction ops generalizing w o with
  | nil => exact ⟨o, h, hm, rfl⟩
  | cons op ops ih =>
    obtain ⟨o', h1, h2, h3⟩ := step_objs grey w op i o h
    obtain ⟨o'', k1, k2, k3⟩ := ih (w.step grey op) o' h1 (by
      rcases h3 with h3 | ⟨-, h3, -⟩
      · rw [h3, hm]
      · exact absurd h3 (hu op (by simp))) (fun p hp => hu p (by simp [hp]))
    exact ⟨o'', k1, k2, k3.trans h2⟩

theorem useObj_fresh (grey : Nat → Nat → Nat → Nat) (w : ColorWorld) (i : Nat) (o : ColorObj)
    (h : w.objs[i]? = some o) (hm : o.memo = none) :
    (w.useObj grey i).2 = some (o.color.ansi { space := w.term.get, grey := grey }) ∧
    ∃ o', (w.useObj grey i).1.objs[i]? = some o' ∧
      o'.memo = some (o.color.ansi { space := w.term.get, grey := grey }) := by
  have e : w.useObj grey i = ({ w with objs := w.objs.set i { o with memo := some (o.color.ansi { space := w.term.get, grey := grey }) } },
      some (o.color.ansi { space := w.term.get, grey := grey })) := by
    simp only [ColorWorld.useObj, h, hm]
  rw [e]
  refine ⟨rfl, _, List.getElem?_set_self (List.getElem?_eq_some_iff.mp h).1, rfl⟩

/-- C47: after `terminal.color_space = new`, a colour that has not been used before emits
the code of the new colour space, whatever happened before and in between (as long as
the colour space is not changed again).
Missing: a colour that has been used keeps its code (`C47_stale`, `C47_violated`). -/
theorem C47_first_use_partial (grey : Nat → Nat → Nat → Nat) (before after : List ColorOp) (new : ColorSpace)
    (i : Nat) (o : ColorObj)
    (hi : ((({} : ColorWorld).run grey before).step grey (.setSpace (some new))).objs[i]? = some o)
    (hm : o.memo = none) (hu : ∀ op ∈ after, op ≠ .use i ∧ ∀ n, op ≠ .setSpace n) :
    let w := ((({} : ColorWorld).run grey before).step grey (.setSpace (some new))).run grey after
    (w.useObj grey i).2 = some (o.color.ansi { space := new, grey := grey }) := by
  intro w
  obtain ⟨o', h1, h2, h3⟩ := run_fresh grey _ after i o hi hm (fun op hop => (hu op hop).1)
  have ht : w.term.get = new := by
    have : ∀ (w : ColorWorld) (ops : List ColorOp), (∀ op ∈ ops, ∀ n, op ≠ .setSpace n) →
        (w.run grey ops).term = w.term := by
      intro w ops
      induction ops generalizing w with
      | nil => intro _; rfl
      | cons op ops ih =>
        intro h
        have e1 : (w.step grey op).term = w.term := by
          cases op with
          | setSpace n => exact absurd rfl (h _ (by simp) n)
          | make c => rfl
          | use j =>
            simp only [ColorWorld.step, ColorWorld.useObj]
            split
            · rfl
            · split <;> rfl
        exact (ih (w.step grey op) (fun p hp => h p (by simp [hp]))).trans e1
    have h' := this ((({} : ColorWorld).run grey before).step grey (.setSpace (some new))) after
      (fun op hop => (hu op hop).2)
    simp only [w]
    rw [h']
    rfl
  have := (useObj_fresh grey w i o' h1 h2).1
  rw [this, h3, ht]

/-- A case meeting the hypotheses: the second colour is first used after the change. -/
example : let grey := fun _ _ _ => 232
    let w := (({} : ColorWorld).run grey [.make { r := 170, g := 0, b := 0 }, .use 0,
      .make { r := 0, g := 170, b := 0 }]).step grey (.setSpace (some .standard))
    (∃ o, w.objs[1]? = some o ∧ o.memo = none) ∧ (w.useObj grey 1).2 = some "32".toList :=
  ⟨⟨_, rfl, rfl⟩, by decide +kernel⟩

/-- C47, what happens instead: a colour emits the code of the colour space at its first
use, for ever. -/
theorem C47_stale (grey : Nat → Nat → Nat → Nat) (w : ColorWorld) (i : Nat) (o : ColorObj)
    (h : w.objs[i]? = some o) (hm : o.memo = none) (ops : List ColorOp) :
    (((w.useObj grey i).1.run grey ops).useObj grey i).2 =
      some (o.color.ansi { space := w.term.get, grey := grey }) := by
  obtain ⟨-, o', h1, h2⟩ := useObj_fresh grey w i o h hm
  obtain ⟨o'', k1, k2⟩ := run_memo grey _ ops i o' _ h1 h2
  simp only [ColorWorld.useObj] at k1 k2 ⊢
  rw [k1]
  simp only [k2]

/-- C47 without changes of the colour space: the cache is invisible. (This is what allows
the rest of the model to use the uncached `Color.ansi`.) -/
theorem C47_constant_space (grey : Nat → Nat → Nat → Nat) (w : ColorWorld) (ops : List ColorOp)
    (hw : ∀ (i : Nat) (o : ColorObj) (s : Str), w.objs[i]? = some o → o.memo = some s → s = o.color.ansi { space := w.term.get, grey := grey })
    (hops : ∀ op ∈ ops, ∀ n, op ≠ .setSpace n) (i : Nat) (o : ColorObj)
    (h : (w.run grey ops).objs[i]? = some o) :
    ((w.run grey ops).useObj grey i).2 = some (o.color.ansi { space := w.term.get, grey := grey }) := by
  have key : ∀ (ops : List ColorOp) (w : ColorWorld),
      (∀ (i : Nat) (o : ColorObj) (s : Str), w.objs[i]? = some o → o.memo = some s → s = o.color.ansi { space := w.term.get, grey := grey }) →
      (∀ op ∈ ops, ∀ n, op ≠ .setSpace n) →
      (∀ (i : Nat) (o : ColorObj) (s : Str), (w.run grey ops).objs[i]? = some o → o.memo = some s →
        s = o.color.ansi { space := w.term.get, grey := grey }) ∧ (w.run grey ops).term = w.term := by
    intro ops
    induction ops with
    | nil => intro w hw _; exact ⟨hw, rfl⟩
    | cons op ops ih =>
      intro w hw h
      have e1 : (w.step grey op).term = w.term := by
        cases op with
        | setSpace n => exact absurd rfl (h _ (by simp) n)
        | make c => rfl
        | use j =>
          simp only [ColorWorld.step, ColorWorld.useObj]
          split
          · rfl
          · split <;> rfl
      have e2 : ∀ (i : Nat) (o : ColorObj) (s : Str), (w.step grey op).objs[i]? = some o → o.memo = some s →
          s = o.color.ansi { space := (w.step grey op).term.get, grey := grey } := by
        rw [e1]
        intro i o s hi hs
        by_cases hlt : i < w.objs.length
        · obtain ⟨o', k1, k2, k3⟩ := step_objs grey w op i w.objs[i] (List.getElem?_eq_getElem hlt)
          rw [hi] at k1
          injection k1 with k1
          subst k1
          rcases k3 with k3 | ⟨-, -, k3⟩
          · rw [k2]
            exact hw i _ s (List.getElem?_eq_getElem hlt) (by rw [← k3]; exact hs)
          · rw [k3] at hs
            injection hs with hs
            rw [← hs, k2]
        · -- the object is new
          cases op with
          | setSpace n => exact absurd rfl (h _ (by simp) n)
          | make c =>
            simp only [ColorWorld.step] at hi
            rw [List.getElem?_append_right (by omega)] at hi
            have : o = { color := c } := by
              cases hz : i - w.objs.length with
              | zero => rw [hz] at hi; simpa using hi.symm
              | succ n => rw [hz] at hi; simp at hi
            rw [this] at hs
            cases hs
          | use j =>
            simp only [ColorWorld.step, ColorWorld.useObj] at hi
            split at hi
            · exact hw i o s hi hs
            · split at hi
              · exact hw i o s hi hs
              · have := (List.getElem?_eq_some_iff.mp hi).1
                simp at this
                omega
      obtain ⟨i1, i2⟩ := ih (w.step grey op) e2 (fun p hp => h p (by simp [hp]))
      rw [e1] at i1 i2
      exact ⟨i1, i2⟩
  obtain ⟨k1, k2⟩ := key ops w hw hops
  simp only [ColorWorld.useObj, h]
  cases hm : o.memo with
  | none => simp only; rw [k2]
  | some s => simp only; rw [k1 i o s h hm]

/-- C47 is violated: a red used in true colour, then `color_space = STANDARD`. -/
theorem C47_violated :
    let grey := fun _ _ _ => 232
    let w := ({} : ColorWorld).run grey [.setSpace (some .trueColor), .make { r := 170, g := 0, b := 0 }, .use 0,
      .setSpace (some .standard)]
    w.term.get = .standard ∧ (w.useObj grey 0).2 = some "38;2;170;0;0".toList ∧
      Color.ansi { space := .standard } { r := 170, g := 0, b := 0 } = "31".toList := by
  decide +kernel

/-! ## C48 -/

theorem denOf_eq {env : Color.Env} {c d : Color} (h : c.eq d = true) : denOf env c = denOf env d := by
  simp only [Color.eq, Bool.and_eq_true, beq_iff_eq, decide_eq_true_eq] at h
  obtain ⟨⟨⟨h1, h2⟩, h3⟩, -⟩ := h
  unfold denOf
  cases env.space
  · simp only [h1, h2, h3]
  · simp only [h1, h2, h3]
  · simp only [Color.cubeIndex, h1, h2, h3]
  · simp only [h1, h2, h3]

/-- Two cells use colours in the same roles. -/
def RolesAgree (a b : Cell) : Prop :=
  (∀ c d, a.fg = some c → b.fg = some d → c.isBg = d.isBg) ∧
  (∀ c d, a.bg = some c → b.bg = some d → c.isBg = d.isBg)

theorem paintOpt_eq {env : Color.Env} {a b : Option Color} (h : Span.optEq a b = true)
    (hr : ∀ c d, a = some c → b = some d → c.isBg = d.isBg) (x : Attr) :
    paintOpt (denOf env) a x = paintOpt (denOf env) b x := by
  cases a with
  | none => cases b with
    | none => rfl
    | some d => cases h
  | some c => cases b with
    | none => cases h
    | some d =>
      simp only [paintOpt]
      rw [hr c d rfl rfl, denOf_eq h]

/-- Equal cells look the same if their colours have the same roles. -/
theorem cellGlyph_eq {env : Color.Env} {a b : Cell} (h : a.eq b = true) (hr : RolesAgree a b) :
    cellGlyph (denOf env) a = cellGlyph (denOf env) b := by
  simp only [Cell.eq, Bool.and_eq_true, decide_eq_true_eq] at h
  obtain ⟨⟨h1, h2⟩, h3⟩ := h
  have e : cellAttr (denOf env) a = cellAttr (denOf env) b := by
    unfold cellAttr
    rw [paintOpt_eq h2 hr.1, paintOpt_eq h3 hr.2]
  unfold cellGlyph
  rw [e, h1]

/-- C48: after any unscrolled history, a write of (newline-free, opaque) spans and a draw,
every written cell shows what was written, whatever it showed before, provided the
colours of the write have the roles of the colours stored there.
Missing: a change of the role only, or of the code of a colour with the same RGB value
(`C48_role_violated`, `C48_code_violated`). -/
theorem C48_written_is_shown_partial (env : Color.Env) (ox oy : Nat) (hox : 1 ≤ ox) (hoy : 1 ≤ oy)
    (width height : Nat) (cur : Int × Int) (fill : Char) (hfill : Printable fill)
    (T : State) (hT : T.mode = .ground) (hpen : T.pen = Attr.clean)
    (ops : List Op) (hops : ∀ op ∈ ops, OpOk (SpanOk env (denOf env)) op)
    (x y : Nat) (hx : x < width) (hy : y < height) (spans : List Span)
    (hok : ∀ s ∈ spans, SpanOk env (denOf env) s) (hnl : ∀ s ∈ spans, '\n' ∉ s.text)
    (hop : ∀ s ∈ spans, ∀ b, s.bg = some b → b.alpha = 1)
    (hcorner : ∀ s t rest, spans = s :: t :: rest →
      y * width + x + s.text.length ≠ height * width) (tb : Color) (force : Bool)
    (pre : List Span) (s : Span) (post : List Span) (hsp : spans = pre ++ s :: post)
    (j : Nat) (c : Char) (hj : s.text[j]? = some c) :
    let sys := execAll env (ox, oy) { w := { scr := Screen.init width height cur [fill] }, term := T } ops
    let i := y * width + x + (pre.map Span.len).sum + j
    sys.w.scr.offset = 0 →
    (∀ old, cellAt sys.w.scr.cells (i % width) (i / width) = some old →
      RolesAgree (storedCell s (styledChar s j c)) old) →
    i < height * width →
    (execAll env (ox, oy) sys [.write spans (some ((x : Int), (y : Int))) tb force, .draw]).term.grid
        (i / width + oy) (i % width + ox) =
      cellGlyph (denOf env) (storedCell s (styledChar s j c)) := by
  intro sys i ho hroles hi
  have hw : 0 < width := by omega
  have h0 := Sync.init (denOf env) ox oy width height cur hfill T hT hpen
  obtain ⟨f1, f2, -, f4⟩ := execAll_frame env (ox, oy)
    { w := { scr := Screen.init width height cur [fill] }, term := T } ops h0.shape
  obtain ⟨-, hcache⟩ := Sync.execAll (denOk env) hox hoy ops
    { w := { scr := Screen.init width height cur [fill] }, term := T } h0
    (by intro e he; simp at he) hops ho
  have g1 : sys.w.scr.width = width := f1
  have g2 : sys.w.scr.height = height := f2
  obtain ⟨-, ho', hcell, -⟩ := C05_placement_partial env tb force sys.w
    (by rw [g1, g2]; exact f4) hcache ho x y (by rw [g1]; exact hx) (by rw [g2]; exact hy) spans hnl hop
    (by rw [g1, g2]; exact hcorner)
  rw [g1, g2] at hcell
  obtain ⟨old, hold, hnew⟩ := hcell pre s post hsp j c hj hi
  have hdraw := C01_draw_shows_screen env (denOf env) (denOk env) ox oy hox hoy width height cur fill hfill []
    (by intro e he; simp at he) T hT hpen (ops ++ [.write spans (some ((x : Int), (y : Int))) tb force])
    (by
      intro op hop'
      rcases List.mem_append.mp hop' with hop' | hop'
      · exact hops op hop'
      · simp only [List.mem_singleton] at hop'; subst hop'; exact hok)
  have hexec : execAll env (ox, oy) { w := { scr := Screen.init width height cur [fill] }, term := T }
      (ops ++ [.write spans (some ((x : Int), (y : Int))) tb force] ++ [.draw]) =
      execAll env (ox, oy) sys [.write spans (some ((x : Int), (y : Int))) tb force, .draw] := by
    simp only [sys, execAll, List.foldl_append, List.foldl_cons, List.foldl_nil]
  rw [hexec] at hdraw
  obtain ⟨cell, hc1, hc2⟩ := hdraw ho' (i % width) (i / width) (Nat.mod_lt i hw)
    (by rw [Nat.div_lt_iff_lt_mul hw]; exact hi)
  refine hc2.trans ?_
  have hc1' : cellAt (write env spans (some ((x : Int), (y : Int))) tb force sys.w).1.scr.cells
      (i % width) (i / width) = some cell := hc1
  have hcelleq := hc1'.symm.trans hnew
  injection hcelleq with hcelleq
  rw [hcelleq]
  split
  · rename_i heq
    exact (cellGlyph_eq heq (hroles old hold)).symm
  · rfl

/-- A case meeting the hypotheses: red letters drawn, the second rewritten in green. -/
example :
    let red : Color := ⟨255, 0, 0, false, 1, .trueColor, none⟩
    let green : Color := ⟨0, 255, 0, false, 1, .trueColor, none⟩
    let ops : List Op := [.write [{ text := "ab".toList, fg := some red }] (some (0, 0)) Color.black false, .draw]
    let s : Span := { text := ['b'], fg := some green }
    let sys := execAll {} (1, 1) { w := { scr := Screen.init 2 1 }, term := { grid := fun _ _ => ⟨' ', Attr.clean⟩ } } ops
    sys.w.scr.offset = 0 ∧
      ∃ old, cellAt sys.w.scr.cells 1 0 = some old ∧ old.fg = some red ∧ old.bg = none ∧
        RolesAgree (storedCell s (styledChar s 0 'b')) old := by
  refine ⟨by decide +kernel, ⟨['b'], some ⟨255, 0, 0, false, 1, .trueColor, none⟩, none⟩, by decide +kernel, rfl, rfl, ?_, ?_⟩
  · intro c d hc hd
    simp only [storedCell, Option.some.injEq, if_true] at hc hd
    rw [← hc, ← hd]
  · intro c d hc hd
    cases hd

/-- C48 is violated for roles: red as a foreground, drawn; then the same red as a
"foreground" of background role. The second write changes nothing and queues
nothing, though its code is `48;2;255;0;0` and the one displayed is `38;2;255;0;0`. -/
theorem C48_role_violated :
    let red : Color := { r := 255, g := 0, b := 0 }
    let redBg : Color := { r := 255, g := 0, b := 0, isBg := true }
    let w := (write {} [{ text := ['a'], fg := some red }] (some (0, 0)) Color.black false
      { scr := Screen.init 2 1 }).1
    let w := { w with scr := (w.scr.render (1, 1)).1 }
    let r := write {} [{ text := ['a'], fg := some redBg }] (some (0, 0)) Color.black false w
    red.ansi {} = "38;2;255;0;0".toList ∧ redBg.ansi {} = "48;2;255;0;0".toList ∧
      r.2 = .ok 0 ∧ r.1.scr.changes = [] := by decide +kernel

/-- C48 is violated for codes: the standard red is displayed as the code 31 (whose look
the user configures), the same RGB value written directly is not drawn. -/
theorem C48_code_violated :
    ∃ c, Color.fromAnsi "31".toList = .ok c ∧
    let d : Color := { r := 170, g := 0, b := 0 }
    let w := (write {} [{ text := ['a'], fg := some c }] (some (0, 0)) Color.black false
      { scr := Screen.init 2 1 }).1
    let w := { w with scr := (w.scr.render (1, 1)).1 }
    let r := write {} [{ text := ['a'], fg := some d }] (some (0, 0)) Color.black false w
    c.ansi {} = "31".toList ∧ d.ansi {} = "38;2;170;0;0".toList ∧
      r.2 = .ok 0 ∧ r.1.scr.changes = [] :=
  ⟨⟨170, 0, 0, false, 1, .standard, some "31".toList⟩, by decide +kernel, by decide +kernel⟩

end Slate
