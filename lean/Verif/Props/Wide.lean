import Verif.Spec.Wide
import Verif.Props.Traffic
import Verif.Props.Often

/-!
# C101: characters of two columns
-/

namespace Slate
open Py Term Traffic

/-- Strings over ASCII and the characters in `A`. -/
def Over (A : Char → Prop) (t : Str) : Prop := ∀ c ∈ t, c.toNat < 128 ∨ A c

variable {A : Char → Prop}

theorem Over.nil : Over A [] := fun _ h => absurd h (by simp)

theorem Over.append {a b : Str} (ha : Over A a) (hb : Over A b) : Over A (a ++ b) := by
  intro c hc
  rcases List.mem_append.mp hc with h | h
  · exact ha c h
  · exact hb c h

theorem Over.sub {a b : Str} (hb : Over A b) (h : ∀ c ∈ a, c ∈ b) : Over A a := fun c hc => hb c (h c hc)

theorem over_ascii {t : Str} (h : (t.all fun c => decide (c.toNat < 128)) = true) : Over A t :=
  fun c hc => .inl (by simpa using List.all_eq_true.mp h c hc)

theorem over_params {t : Str} (h : Params t) : Over A t := by
  intro c hc
  rcases h c hc with h | rfl
  · exact .inl (by omega)
  · exact .inl (by decide)

theorem over_dec (n : Nat) : Over A (dec n) := over_params (params_dec n)

theorem over_decInt (i : Int) : Over A (decInt i) := by
  unfold decInt
  split
  · exact over_dec _
  · exact Over.append (a := ['-']) (over_ascii (by decide)) (over_dec _)

theorem over_cursor (x y : Int) : Over A (cursorTo x y) := by
  unfold cursorTo
  exact ((((over_ascii (by decide)).append (over_decInt y)).append (over_ascii (by decide))).append (over_decInt x)).append
    (over_ascii (by decide))

theorem over_reset : Over A RESET := over_ascii (by decide)

theorem over_wrap {code : Str} (h : Params code) : Over A (['\x1b', '['] ++ code ++ ['m']) :=
  ((over_ascii (by decide)).append (over_params h)).append (over_ascii (by decide))

theorem over_style (st : Style) : Over A (wrapSgr st.colorless) := by
  unfold wrapSgr
  split
  · exact .nil
  · rw [colorless_eq]
    exact over_wrap (params_join fun s hs => by obtain ⟨n, -, rfl⟩ := List.mem_map.mp hs; exact params_dec n)

theorem closed_over (env : Color.Env) (A : Char → Prop) : Closed env (Over A) (PlainCode env) (PlainCode env) (fun _ => True) where
  nil := .nil
  strip s h := by
    refine h.sub fun c hc => ?_
    have : ∀ l : Str, c ∈ l.dropWhile (· == '\n') → c ∈ l := fun l h => (List.dropWhile_sublist _).mem h
    simpa using this s.reverse (by simpa [rstrip] using hc)
  feed _ h := h.append (over_ascii (by decide))
  change cell n h hf hb := by
    unfold changeStr
    simp only
    have hcode : Params (join [';'] (cell.fg.toList.map (Color.ansi env) ++ cell.bg.toList.map (Color.ansi env))) := by
      refine params_join fun s hs => ?_
      rcases List.mem_append.mp hs with hs | hs <;> obtain ⟨c, hc, rfl⟩ := List.mem_map.mp hs
      · exact hf c (by simpa using hc)
      · exact hb c (by simpa using hc)
    refine Over.append ?_ ?_
    · split
      · exact h
      · exact ((over_wrap hcode).append h).append over_reset
    · split
      · exact over_ascii (by decide)
      · exact .nil
  white := .of_sendable (denOk env _ rfl)
  sub _ _ _ _ h _ := h
  mixF _ _ _ _ _ _ := .of_sendable (denOk env _ rfl)
  mixB _ _ _ _ _ _ := .of_sendable (denOk env _ rfl)
  mixG _ _ _ _ _ _ := .of_sendable (denOk env _ rfl)

theorem charsGo_over (seqs : Str) (hq : Over A seqs) (reset : Bool) : ∀ text : Str, Over A text →
    ∀ t ∈ Span.charsGo seqs true reset seqs text, Over A t
  | [], _, t, ht => by simp [Span.charsGo] at ht
  | [c], h, t, ht => by
    rw [Span.charsGo, List.mem_singleton] at ht
    rw [ht]
    split
    · exact (hq.append h).append over_reset
    · exact h
  | c :: d :: r, h, t, ht => by
    rw [Span.charsGo, if_pos rfl] at ht
    rcases List.mem_cons.mp ht with rfl | ht
    · exact hq.append (h.sub (by simp))
    · exact charsGo_over seqs hq reset (d :: r) (h.sub fun x hx => by simp [hx]) t ht

theorem over_renderGo (origin : Int × Int) : ∀ (l : Changes) (prev : Option (Int × Int)),
    (∀ e ∈ l, Over A e.2) → Over A (renderGo origin prev l)
  | [], _, _ => .nil
  | ((x, y), str) :: l, prev, h => by
    rw [renderGo_cons]
    refine Over.append (Over.append ?_ (h ((x, y), str) (by simp))) (over_renderGo origin l _ fun e he => h e (by simp [he]))
    unfold moveStr
    split
    · split
      · exact .nil
      · exact over_cursor _ _
    · exact over_cursor _ _

theorem over_render (s : Screen) (origin : Int × Int) (h : ∀ e ∈ s.changes, Over A e.2) : Over A (s.render origin).2 := by
  have hb := over_renderGo origin s.changes.gather none fun e he => h e ((mem_gather _ _).mp he)
  unfold Screen.render
  simp only [Bool.false_eq_true, if_false]
  split
  · exact hb
  · exact hb.append over_reset

/-- Without wide characters the two terminals do the same. -/
theorem wideRun_eq (wide : Char → Bool) : ∀ (cs : Str) (T : State), (∀ c ∈ cs, wide c = false) → wideRun wide T cs = run T cs
  | [], _, _ => rfl
  | c :: cs, T, h => by
    have e : wideStep wide T c = step T c := by
      unfold wideStep
      rw [if_neg]
      rintro ⟨-, -, -, hw⟩
      exact absurd (h c (by simp)) (by simp [hw])
    show wideRun wide (wideStep wide T c) cs = run (step T c) cs
    rw [e]
    exact wideRun_eq wide cs _ fun d hd => h d (by simp [hd])

/-- No wide characters are written or filled in. -/
def Op.Narrow (wide : Char → Bool) : Op → Prop
  | .write spans _ _ _ => ∀ s ∈ spans, ∀ c ∈ s.text, wide c = false
  | .writeBulk data _ _ => ∀ e ∈ data, ∀ s ∈ e.2, ∀ c ∈ s.text, wide c = false
  | .clear fill => wide fill = false
  | .draw => True

/-- A history without wide characters does the same on both terminals. -/
theorem wideExecAll_eq (env : Color.Env) (den : Color → TColor) (wide : Char → Bool)
    (hascii : ∀ c : Char, c.toNat < 128 → wide c = false) (origin : Int × Int) :
    ∀ (ops : List Op) (s : Sys), (∀ op ∈ ops, OpOk (SpanOk env den) op) → (∀ op ∈ ops, op.Narrow wide) →
    WorldIn (Over fun c => wide c = false) (PlainCode env) (PlainCode env) s.w →
    wideExecAll wide env origin s ops = execAll env origin s ops
  | [], _, _, _, _ => rfl
  | op :: ops, s, hops, hn, hw => by
    have hspan : ∀ t : Span, SpanOk env den t → (∀ c ∈ t.text, wide c = false) →
        SpanIn (Over fun c => wide c = false) (PlainCode env) (PlainCode env) t := fun t h h' =>
      ⟨charsGo_over _ (over_style t.style) _ _ fun c hc => .inr (h' c hc), fun c hc => .of_sendable (h.fg c hc),
        fun c hc => .of_sendable (h.bg c hc)⟩
    have h1 := hops op (by simp)
    have h2 := hn op (by simp)
    have e : wideExec wide env origin s op = exec env origin s op := by
      cases op with
      | draw =>
        have hr : ∀ c ∈ (s.w.scr.render origin).2, wide c = false := by
          intro c hc
          rcases over_render s.w.scr origin (fun e he => hw.scr.changes e he) c hc with h | h
          · exact hascii c h
          · exact h
        show Sys.mk _ _ = Sys.mk _ _
        rw [wideRun_eq wide _ _ hr]
      | write => rfl
      | writeBulk => rfl
      | clear => rfl
    have hw' : WorldIn (Over fun c => wide c = false) (PlainCode env) (PlainCode env) (exec env origin s op).w := by
      rw [exec_api]
      refine run_in (closed_over env _) (op.api origin) s.w ?_ ?_ hw
      · cases op with
        | write spans cursor tb force => exact ⟨fun t ht => hspan t (h1 t ht) (h2 t ht), trivial⟩
        | writeBulk data tb force => exact ⟨fun d hd t ht => hspan t (h1 d hd t ht) (h2 d hd t ht), trivial⟩
        | clear fill => trivial
        | draw => trivial
      · cases op with
        | clear fill => exact fun c hc => .inr (by rw [List.mem_singleton.mp hc]; exact h2)
        | _ => trivial
    show wideExecAll wide env origin (wideExec wide env origin s op) ops = execAll env origin (exec env origin s op) ops
    rw [e]
    exact wideExecAll_eq env den wide hascii origin ops _ (fun o ho => hops o (by simp [ho])) (fun o ho => hn o (by simp [ho])) hw'

/-- **C101**, partial: on a terminal where some characters (none of them ASCII) take two columns, histories in which none of these is
written are shown as they are stored. What is missing: every one of the characters (`C101_wide_violated`). -/
theorem C101_narrow_partial (env : Color.Env) (den : Color → TColor) (hden : DenOk env den)
    (wide : Char → Bool) (hascii : ∀ c : Char, c.toNat < 128 → wide c = false)
    (ox oy : Nat) (hx : 1 ≤ ox) (hy : 1 ≤ oy) (w h : Nat)
    (cur : Int × Int) (fill : Char) (hfill : Printable fill) (hnf : wide fill = false)
    (T : State) (hT : T.mode = .ground) (hpen : T.pen = Attr.clean)
    (ops : List Op) (hops : ∀ op ∈ ops, OpOk (SpanOk env den) op) (hn : ∀ op ∈ ops, op.Narrow wide) :
    let sys := wideExecAll wide env (ox, oy) { w := { scr := Screen.init w h cur [fill] }, term := T } (ops ++ [.draw])
    sys.w.scr.offset = 0 →
    ∀ x y, x < w → y < h → ∃ cell, cellAt sys.w.scr.cells x y = some cell ∧
      sys.term.grid (y + oy) (x + ox) = cellGlyph den cell := by
  have e := wideExecAll_eq env den wide hascii (ox, oy) (ops ++ [.draw])
    { w := { scr := Screen.init w h cur [fill] }, term := T }
    (by
      intro op hop
      rcases List.mem_append.mp hop with h | h
      · exact hops op h
      · rw [List.mem_singleton.mp h]; trivial)
    (by
      intro op hop
      rcases List.mem_append.mp hop with h | h
      · exact hn op h
      · rw [List.mem_singleton.mp h]; trivial)
    ⟨init_in _ _ _ _ fun c hc => .inr (by rw [List.mem_singleton.mp hc]; exact hnf), by intro e he; simp at he⟩
  rw [e]
  exact C01_draw_shows_screen env den hden ox oy hx hy w h cur fill hfill [] (by intro e he; simp at he) T hT hpen ops hops

/-- The hypotheses are met: on a terminal with wide ideographs, a history with a character outside of ASCII. -/
example : let wide : Char → Bool := fun c => decide (0x4E00 ≤ c.toNat ∧ c.toNat ≤ 0x9FFF)
    let ops : List Op := [.write [{ text := "aé".toList }] (some (0, 0)) Color.black false]
    (∀ c : Char, c.toNat < 128 → wide c = false) ∧ wide '世' = true ∧ (∀ op ∈ ops, OpOk (SpanOk {} trueColor) op) ∧
    (∀ op ∈ ops, op.Narrow wide) ∧
    (let sys := wideExecAll wide {} (1, 1)
      { w := { scr := Screen.init 2 1 }, term := { grid := fun _ _ => { ch := ' ', attr := Attr.clean } } } (ops ++ [.draw])
     sys.w.scr.offset = 0 ∧ (sys.term.grid 1 2).ch = 'é') := by
  intro wide ops
  refine ⟨fun c hc => ?_, by decide, ?_, ?_, by decide +kernel⟩
  · simp only [wide, decide_eq_false_iff_not]
    omega
  · intro op hop
    rw [List.mem_singleton.mp hop]
    intro s hs
    rw [List.mem_singleton.mp hs]
    exact ⟨fun c hc => .inl (by revert c; unfold Printable; decide +kernel), by simp, by simp⟩
  · intro op hop
    rw [List.mem_singleton.mp hop]
    intro s hs
    rw [List.mem_singleton.mp hs]
    decide

/-- Writing two characters into a screen of two cells: what is stored in the second one and what is sent. -/
theorem sentFor_two (c d : Char) (hc : c ≠ '\n') (hd : d ≠ '\n') :
    cellAt (write {} [{ text := [c, d] }] (some (0, 0)) Color.black false { scr := Screen.init 2 1 }).1.scr.cells 1 0 =
      some { char := [d], fg := some Color.white } ∧
    sentFor {} [c, d] 2 = "\x1b[1;1H".toList ++ ("\x1b[38;2;255;255;255m".toList ++ [c] ++ RESET) ++
      ("\x1b[38;2;255;255;255m".toList ++ [d] ++ RESET) := by
  have h1 : CharCache.get [] { text := [c, d] } = ([[c], [d]], [({ text := [c, d] }, [[c], [d]])]) := rfl
  have h2 : rstrip (· == '\n') [c] = [c] := by simp [rstrip, hc]
  have h3 : rstrip (· == '\n') [d] = [d] := by simp [rstrip, hd]
  have h4 : endsWith [c] ['\n'] = false := by simp [endsWith, List.isSuffixOf, List.isPrefixOf, hc.symm]
  have h5 : endsWith [d] ['\n'] = false := by simp [endsWith, List.isSuffixOf, List.isPrefixOf, hd.symm]
  have h6 : Color.white.alpha = 1 := by decide +kernel
  have h7 : ∀ t, Cell.eq { char := t, fg := some Color.white } { char := [' '] } = false := by intro t; simp [Cell.eq, Span.optEq]
  constructor
  · simp [write, writeBulk, putData, putSpans, h1, putChars, hc, hd, Screen.init, Screen.resize, putCell, Mats.blank, upd,
      commit, positions, List.range, List.range.loop, commitCell, resolveCell, resolveColors, h2, h3, h4, h5, h6, h7, cellAt, setCell]
  · simp [sentFor, write, writeBulk, putData, putSpans, h1, putChars, hc, hd, Screen.init, Screen.resize, putCell, Mats.blank, upd,
      commit, positions, List.range, List.range.loop, commitCell, resolveCell, resolveColors, h2, h3, h4, h5, h6, h7, cellAt, setCell]
    rfl

/-- C101 is violated by every wide character: what is written after it is shown one column too far to the right, outside of the
screen if it is in its last column. -/
theorem C101_wide_violated (wide : Char → Bool) (hascii : ∀ c : Char, c.toNat < 128 → wide c = false) (c d : Char)
    (hc : wide c = true) (hpc : Printable c) (hd : wide d = false) (hpd : Printable d) (T : State) (hT : T.mode = .ground) :
    let T' := wideRun wide T (sentFor {} [c, d] 2)
    cellAt (write {} [{ text := [c, d] }] (some (0, 0)) Color.black false { scr := Screen.init 2 1 }).1.scr.cells 1 0 =
      some { char := [d], fg := some Color.white } ∧
    (T'.grid 1 2).ch = c ∧ (T'.grid 1 3).ch = d := by
  have hcn : c ≠ '\n' := by rintro rfl; exact absurd hpc.1 (by decide)
  have hdn : d ≠ '\n' := by rintro rfl; exact absurd hpd.1 (by decide)
  have hce : c ≠ '\x1b' := by rintro rfl; exact absurd hpc.1 (by decide)
  have hde : d ≠ '\x1b' := by rintro rfl; exact absurd hpd.1 (by decide)
  have hdr : d ≠ '\r' := by rintro rfl; exact absurd hpd.1 (by decide)
  intro T'
  have app : ∀ (a b : Str) (U : State), wideRun wide U (a ++ b) = wideRun wide (wideRun wide U a) b := fun a b U => List.foldl_append
  have asc : ∀ (t : Str) (U : State), (t.all fun c => decide (c.toNat < 128)) = true → wideRun wide U t = run U t :=
    fun t U h => wideRun_eq wide t U fun e he => hascii e (by simpa using List.all_eq_true.mp h e he)
  have e : T' = wideRun wide T (sentFor {} [c, d] 2) := rfl
  rw [(sentFor_two c d hcn hdn).2] at e
  simp only [app] at e
  have hA : ∀ U : State, U.mode = .ground → wideRun wide U "\x1b[1;1H".toList = { U with row := 1, col := 1 } := by
    intro U hU
    rw [asc _ _ (by decide)]
    exact run_cup U 1 1 [] hU
  have hB : ∀ U : State, U.mode = .ground → wideRun wide U "\x1b[38;2;255;255;255m".toList =
      { U with pen := sgr [38, 2, 255, 255, 255] U.pen } := by
    intro U hU
    rw [asc _ _ (by decide)]
    exact run_sgr U 38 [2, 255, 255, 255] [] hU
  have hR : ∀ U : State, U.mode = .ground → wideRun wide U RESET = { U with pen := Attr.clean } := by
    intro U hU
    rw [asc _ _ (by decide)]
    simpa using run_reset U [] hU
  have hC : ∀ U : State, U.mode = .ground → wideRun wide U [c] = { U with
      grid := fun r k => if r = U.row ∧ (k = U.col ∨ k = U.col + 1) then { ch := c, attr := U.pen } else U.grid r k
      col := U.col + 2
      log := U.log ++ [(U.row, U.col), (U.row, U.col + 1)] } := by
    intro U hU
    show wideStep wide U c = _
    unfold wideStep
    rw [if_pos ⟨hU, hce, hpc, hc⟩]
  have hD : ∀ U : State, U.mode = .ground → (wideRun wide U [d]).grid = fun r k =>
      if r = U.row ∧ k = U.col then { ch := d, attr := U.pen } else U.grid r k := by
    intro U hU
    rw [wideRun_eq wide [d] U (by simpa using hd)]
    show (step U d).grid = _
    funext r k
    simp [step, hU, hde, hdn, hdr, hpd, setGrid]
  have hDm : ∀ U : State, U.mode = .ground → (wideRun wide U [d]).mode = .ground := by
    intro U hU
    rw [wideRun_eq wide [d] U (by simpa using hd)]
    show (step U d).mode = _
    simp [step, hU, hde, hdn, hdr, hpd]
  simp only [hA, hB, hC, hR, hDm, hT] at e
  refine ⟨(sentFor_two c d hcn hdn).1, ?_⟩
  rw [e]
  simp [hD]

end Slate
