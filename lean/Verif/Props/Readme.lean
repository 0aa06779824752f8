import Verif.Model.Readme
import Verif.Props.Resize
import Verif.Props.Count
import Verif.Props.Shape

/-!
# The first example of the README
-/

namespace Slate
open Py Term

namespace Readme

/-- **C108 violated**: on every terminal that has rows the first write of the example raises `TypeError`, and nothing is written. -/
theorem C108_readme_violated (env : Color.Env) (bg : Color) (width height : Nat) (w : World) :
    fill env bg none (content width (height + 1)) (height + 1) w = (w, .error .typeError) := rfl

/-- What a cell of the first screen looks like. -/
def cross (env : Color.Env) : Glyph :=
  { ch := 'X', attr := { bold := true, fg := denOf env { r := 51, g := 51, b := 51 }, bg := denOf env { r := 25, g := 25, b := 25, isBg := true } } }

/-- What a cell with a zero looks like. -/
def zero (env : Color.Env) : Glyph := { ch := '0', attr := { fg := denOf env Color.white } }

/-- The stored cell of a column. -/
def xcell (width x : Nat) : Cell := storedCell (line width) (styledChar (line width) x 'X')

/-- The stored zero. -/
def zcell : Cell := { char := ['0'], fg := some Color.white }

theorem line_fg (width : Nat) : (line width).fg = some { r := 51, g := 51, b := 51 } := by
  have : Color.lighten Color.black 2 = { r := 51, g := 51, b := 51 } := by decide +kernel
  rw [line, this]

theorem line_bg (width : Nat) : (line width).bg = some { r := 25, g := 25, b := 25, isBg := true } := by
  have : Color.lighten { Color.black with isBg := true } 1 = { r := 25, g := 25, b := 25, isBg := true } := by decide +kernel
  rw [line, this]

theorem xcell_glyph (env : Color.Env) (width x : Nat) : cellGlyph (denOf env) (xcell width x) = cross env := by
  have hs : wrapSgr (line width).style.colorless = "\x1b[1m".toList := by
    show wrapSgr ({ bold := true } : Style).colorless = _
    decide +kernel
  have hr : (line width).resetAfter = true := rfl
  unfold xcell storedCell styledChar
  rw [line_fg, line_bg, hs, hr]
  split
  · rfl
  · rfl

theorem line_ok (env : Color.Env) (width : Nat) : SpanOk env (denOf env) (line width) where
  text := by
    intro c hc
    have := List.eq_of_mem_replicate hc
    subst this
    exact .inl (by decide)
  fg := by
    intro c hc
    rw [line_fg, Option.some.injEq] at hc
    subst hc
    exact denOk env _ rfl
  bg := by
    intro c hc
    rw [line_bg, Option.some.injEq] at hc
    subst hc
    exact denOk env _ rfl

theorem xcell_eq_self (width x : Nat) : (xcell width x).eq (xcell width x) = true := by
  unfold xcell storedCell
  rw [line_fg, line_bg]
  simp [Cell.eq, Span.optEq, Color.eq]

/-- One write of the whole content. -/
theorem content_write (env : Color.Env) (bg : Color) (width height : Nat) (w : World) (hW : 0 < width) (hH : 0 < height)
    (hw : w.scr.width = width) (hh : w.scr.height = height) (hs : Shape width height w.scr.cells) (hok : CacheOk w.cache)
    (h0 : w.scr.offset = 0)
    (hold : ∀ x y cell, cellAt w.scr.cells x y = some cell → cell = xcell width x ∨ cell.fg = none) :
    ∃ w' n, Terminal.write env (.spans (content width height)) (some (0, 0)) bg w = (w', .ok n) ∧
      w'.scr.width = width ∧ w'.scr.height = height ∧ w'.scr.offset = 0 ∧ Shape width height w'.scr.cells ∧ CacheOk w'.cache ∧
      (∀ x y, x < width → y < height → cellAt w'.scr.cells x y = some (xcell width x)) ∧
      (∀ T : State, Sync (denOf env) 1 1 w.scr T → Sync (denOf env) 1 1 w'.scr T) := by
  subst hw hh
  rw [terminal_write_spans env _ _ bg false]
  have hmem : ∀ s ∈ content w.scr.width w.scr.height, s = line w.scr.width := fun s hs => List.eq_of_mem_replicate hs
  have hnl : ∀ s ∈ content w.scr.width w.scr.height, '\n' ∉ s.text := by
    intro s hs
    rw [hmem s hs]
    intro h
    have := List.eq_of_mem_replicate h
    cases this
  have hlen : (line w.scr.width).text.length = w.scr.width := by simp [line]
  obtain ⟨⟨n, hn⟩, ho, hcell, -⟩ := C05_placement_partial env bg false w hs hok h0 0 0 hW hH (content w.scr.width w.scr.height) hnl
    (by
      intro s hs b hb
      rw [hmem s hs, line_bg, Option.some.injEq] at hb
      subst hb
      rfl)
    (by
      intro s t rest h
      have hl := congrArg List.length h
      simp only [content, List.length_replicate, List.length_cons] at hl
      have := hmem s (by rw [h]; simp)
      rw [this, hlen]
      rw [hl]
      have : w.scr.width * 2 ≤ (rest.length + 1 + 1) * w.scr.width := by
        rw [Nat.mul_comm]; exact Nat.mul_le_mul_right _ (by omega)
      omega)
  obtain ⟨f1, f2, -, -, f5, -⟩ := writeBulk_frame env [(some (0, 0), content w.scr.width w.scr.height)] bg false w hs
  obtain ⟨g1, -⟩ := writeBulk_still env [(some (0, 0), content w.scr.width w.scr.height)] bg false w hs hok
    (ho.trans h0.symm)
  refine ⟨_, n, Prod.ext rfl hn, f1, f2, ho, f5, g1, ?_, ?_⟩
  · intro x y hx hy
    have hsplit : content w.scr.width w.scr.height =
        List.replicate y (line w.scr.width) ++ line w.scr.width :: List.replicate (w.scr.height - y - 1) (line w.scr.width) := by
      rw [← List.replicate_succ, content, ← List.replicate_add]
      congr 1; omega
    have h := hcell _ _ _ hsplit x 'X' (by simp [line, hx])
    have hsum : ((List.replicate y (line w.scr.width)).map Span.len).sum = y * w.scr.width := by
      rw [List.map_replicate, List.sum_replicate, Span.len, hlen]; rfl
    simp only [hsum, Nat.zero_mul, Nat.zero_add] at h
    have hi : y * w.scr.width + x < w.scr.height * w.scr.width := by
      calc y * w.scr.width + x < y * w.scr.width + w.scr.width := by omega
        _ = (y + 1) * w.scr.width := by rw [Nat.add_mul]; omega
        _ ≤ w.scr.height * w.scr.width := Nat.mul_le_mul_right _ hy
    have hmod : (y * w.scr.width + x) % w.scr.width = x := by
      rw [Nat.mul_comm, Nat.mul_add_mod, Nat.mod_eq_of_lt hx]
    have hdiv : (y * w.scr.width + x) / w.scr.width = y := by
      rw [Nat.mul_comm, Nat.mul_add_div (by omega), Nat.div_eq_of_lt hx, Nat.add_zero]
    rw [hmod, hdiv] at h
    obtain ⟨old, h1, h2⟩ := h hi
    refine Eq.trans h2 ?_
    rcases hold x y old h1 with rfl | hfg
    · have e := xcell_eq_self w.scr.width x
      unfold xcell at e ⊢
      rw [if_pos e]
    · rw [if_neg]
      · rfl
      · unfold storedCell
        rw [line_fg]
        simp [Cell.eq, hfg, Span.optEq]
  · intro T hT
    exact (Sync.exec (denOk env) le_rfl le_rfl (s := { w := w, term := T }) hT hok
      (op := .write (content w.scr.width w.scr.height) (some (0, 0)) bg false)
      (fun s hs => hmem s hs ▸ line_ok env _) (ho.trans h0.symm)).1

/-- All of them. -/
theorem fill_spec (env : Color.Env) (bg : Color) (width height n : Nat) (w : World) (hW : 0 < width) (hH : 0 < height)
    (hw : w.scr.width = width) (hh : w.scr.height = height) (hs : Shape width height w.scr.cells) (hok : CacheOk w.cache)
    (h0 : w.scr.offset = 0)
    (hold : ∀ x y cell, cellAt w.scr.cells x y = some cell → cell = xcell width x ∨ cell.fg = none) :
    ∃ w', fill env bg (some (0, 0)) (content width height) (n + 1) w = (w', .ok ()) ∧
      w'.scr.width = width ∧ w'.scr.height = height ∧ w'.scr.offset = 0 ∧ Shape width height w'.scr.cells ∧ CacheOk w'.cache ∧
      (∀ x y, x < width → y < height → cellAt w'.scr.cells x y = some (xcell width x)) ∧
      (∀ T : State, Sync (denOf env) 1 1 w.scr T → Sync (denOf env) 1 1 w'.scr T) := by
  induction n generalizing w with
  | zero =>
    obtain ⟨w1, n, e, a⟩ := content_write env bg width height w hW hH hw hh hs hok h0 hold
    exact ⟨w1, by rw [fill, e]; rfl, a⟩
  | succ n ih =>
    obtain ⟨w1, _, e, a1, a2, a3, a4, a5, a6, a7⟩ := content_write env bg width height w hW hH hw hh hs hok h0 hold
    obtain ⟨w2, e2, b1, b2, b3, b4, b5, b6, b7⟩ := ih w1 a1 a2 a4 a5 a3 (by
      intro x y cell hc
      have hxy := a4.cellAt_isSome.mp (show (cellAt w1.scr.cells x y).isSome by rw [hc]; rfl)
      rw [a6 x y hxy.1 hxy.2, Option.some.injEq] at hc
      exact .inl hc.symm)
    refine ⟨w2, ?_, b1, b2, b3, b4, b5, b6, fun T hT => b7 T (a7 T hT)⟩
    rw [fill, e]
    exact e2

theorem zero_span (env : Color.Env) (bg : Color) (pos : Int × Int) (w : World) :
    Terminal.write env (.str ['0']) (some pos) bg w = Slate.write env [{ text := ['0'] }] (some pos) bg false w := by
  have h0 : listOf (yieldFrom ['0']) = .ok [{ text := ['0'] }] := by decide +kernel
  rw [C66_write, h0]
  exact terminal_write_spans env [{ text := ['0'] }] (some pos) bg false w

/-- The loop of zeros. -/
theorem zeros_spec (env : Color.Env) (bg : Color) (width height : Nat) (ps : List (Nat × Nat))
    (hps : ∀ p ∈ ps, p.1 < width ∧ p.2 < height) (w : World) (T : State) (done : List (Nat × Nat))
    (hw : w.scr.width = width) (hh : w.scr.height = height) (hs : Shape width height w.scr.cells) (hok : CacheOk w.cache)
    (h0 : w.scr.offset = 0) (hc : w.scr.changes = []) (hT : Sync (denOf env) 1 1 w.scr T)
    (hcell : ∀ x y, x < width → y < height → cellAt w.scr.cells x y = some (if (x, y) ∈ done then zcell else xcell width x)) :
    ∃ w' out ns, zeros env bg ps w = (w', out, .ok ns) ∧ (∀ n ∈ ns, n ≤ 1) ∧ ns.length = ps.length ∧
      ∀ x y, x < width → y < height →
        (run T out).grid (y + 1) (x + 1) = if (x, y) ∈ done ∨ (x, y) ∈ ps then zero env else cross env := by
  induction ps generalizing w T done with
  | nil =>
    refine ⟨w, [], [], rfl, by simp, rfl, ?_⟩
    intro x y hx hy
    have h := hT.shown x y _ (by rw [hc]; rfl) (hcell x y hx hy)
    rw [run, List.foldl_nil, h]
    by_cases hd : (x, y) ∈ done
    · rw [if_pos hd, if_pos (.inl hd)]; rfl
    · rw [if_neg hd, if_neg (by simpa using hd), xcell_glyph]
  | cons p ps ih =>
    obtain ⟨x0, y0⟩ := p
    obtain ⟨hx0, hy0⟩ := hps (x0, y0) (by simp)
    obtain ⟨w1, n, e1, a1, a2, a3, a4, a5, ⟨old, a6, a6'⟩, a7, a8⟩ := Resize.write_char_spec env bg width height x0 y0 { text := ['0'] } '0' rfl
      (by decide) ⟨by simp [show Printable '0' by decide], by simp, by simp⟩ (by simp) w hw hh hs hok h0 hx0 hy0
    have hzc : storedCell { text := ['0'] } (styledChar { text := ['0'] } 0 '0') = zcell := by decide +kernel
    rw [hzc] at a6'
    have hn : n ≤ 1 := by
      have hlen : CacheLen w.cache := by
        intro e he
        rw [hok e he, length_cellChars]
      have := (writeBulk_count env [(some ((x0 : Int), (y0 : Int)), [{ text := ['0'] }])] bg false w hlen).2 n (by
        have := congrArg Prod.snd e1; exact this)
      simpa [charCount] using this
    have hcell1 : ∀ x y, x < width → y < height →
        cellAt w1.scr.cells x y = some (if (x, y) ∈ (x0, y0) :: done then zcell else xcell width x) := by
      intro x y hx hy
      by_cases hxy : (x, y) = (x0, y0)
      · cases hxy
        have hin : (x0, y0) ∈ (x0, y0) :: done := by simp
        rw [a6']
        simp only [hin, if_true]
        rw [hcell x0 y0 hx hy, Option.some.injEq] at a6
        have hne : zcell.eq (xcell width x0) = false := by
          unfold xcell storedCell zcell
          rw [line_fg, line_bg]
          simp [Cell.eq, Span.optEq]
        rw [← a6]
        by_cases hd : (x0, y0) ∈ done
        · rw [if_pos hd, ite_self]
        · rw [if_neg hd, hne]
          rfl
      · rw [a7 x y hx hxy, hcell x y hx hy]
        simp only [List.mem_cons, hxy, false_or]
    have hdraw := (a8 T hT).draw le_rfl le_rfl
    obtain ⟨w2, out, ns, e2, b1, b2, b3⟩ := ih (fun q hq => hps q (by simp [hq])) { w1 with scr := (w1.scr.render (1, 1)).1 }
      (run T (w1.scr.render (1, 1)).2) ((x0, y0) :: done) a1 a2 a4 a5 a3 rfl hdraw hcell1
    refine ⟨w2, (w1.scr.render (1, 1)).2 ++ out, n :: ns, ?_, by simpa using ⟨hn, b1⟩, by simp [b2], ?_⟩
    · rw [zeros, zero_span, e1]
      simp only
      rw [e2]
    · intro x y hx hy
      rw [run_append, b3 x y hx hy]
      congr 1
      simp only [List.mem_cons, eq_iff_iff]
      tauto

/-- **C108** (partial: with the cursor that the README leaves out; without it, `C108_readme_violated`). On a new screen of any size the
content can be written as often as there are rows, a draw shows it, and whatever positions are chosen, each zero reports at most one change, the
terminal shows zeros where they were written, and everything else is as it was. -/
theorem C108_demo_partial (env : Color.Env) (bg : Color) (width height : Nat) (hW : 0 < width) (hH : 0 < height) (cur : Int × Int)
    (c : Char) (hc : Printable c) (T : State) (hT : T.mode = .ground) (hpen : T.pen = Attr.clean) :
    ∃ w1, fill env bg (some (0, 0)) (content width height) height { scr := Screen.init width height cur [c] } = (w1, .ok ()) ∧
      let r := w1.scr.render (1, 1)
      (∀ x y, x < width → y < height → (run T r.2).grid (y + 1) (x + 1) = cross env) ∧
      ∀ ps : List (Nat × Nat), (∀ p ∈ ps, p.1 < width ∧ p.2 < height) →
        ∃ w2 out ns, zeros env bg ps { w1 with scr := r.1 } = (w2, out, .ok ns) ∧ (∀ n ∈ ns, n ≤ 1) ∧ ns.length = ps.length ∧
          ∀ x y, x < width → y < height →
            (run T (r.2 ++ out)).grid (y + 1) (x + 1) = if (x, y) ∈ ps then zero env else cross env := by
  have h0 := Sync.init (denOf env) 1 1 width height cur hc T hT hpen
  obtain ⟨n, rfl⟩ : ∃ n, height = n + 1 := ⟨height - 1, by omega⟩
  obtain ⟨w1, e, a1, a2, a3, a4, a5, a6, a7⟩ := fill_spec env bg width (n + 1) n { scr := Screen.init width (n + 1) cur [c] } hW hH rfl rfl
    h0.shape (by intro e he; simp at he) rfl (by
      intro x y cell hcell
      right
      have hxy := h0.shape.cellAt_isSome.mp (show (cellAt (Screen.init width (n + 1) cur [c]).cells x y).isSome by rw [hcell]; rfl)
      rw [init_cellAt width (n + 1) cur [c] x y hxy.1 hxy.2, Option.some.injEq] at hcell
      rw [← hcell])
  refine ⟨w1, e, ?_⟩
  intro r
  have hd := (a7 T h0).draw le_rfl le_rfl
  refine ⟨?_, ?_⟩
  · intro x y hx hy
    exact (hd.shown x y _ rfl (a6 x y hx hy)).trans (xcell_glyph env width x)
  · intro ps hps
    obtain ⟨w2, out, ns, e2, b1, b2, b3⟩ := zeros_spec env bg width (n + 1) ps hps { w1 with scr := r.1 } (run T r.2) [] a1 a2 a4 a5 a3 rfl hd
      (by intro x y hx hy; rw [if_neg (by simp)]; exact a6 x y hx hy)
    refine ⟨w2, out, ns, e2, b1, b2, ?_⟩
    intro x y hx hy
    rw [run_append, b3 x y hx hy]
    simp

/-- The demo on a terminal of two rows and three columns: two zeros, one of them twice. -/
example :
    let env : Color.Env := { space := .trueColor, grey := fun _ _ _ => 0 }
    let w1 := (fill env Color.black (some (0, 0)) (content 3 2) 2 { scr := Screen.init 3 2 }).1
    (zeros env Color.black [(1, 0), (2, 1), (1, 0)] { w1 with scr := (w1.scr.render (1, 1)).1 }).2.2 = .ok [1, 1, 0] := by
  decide +kernel

end Readme
end Slate
