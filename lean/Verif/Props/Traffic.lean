import Verif.Lemmas.Everywhere
import Verif.Spec.Traffic
import Verif.Props.Blocks

/-!
# C95: what is sent to the terminal only paints
-/

namespace Traffic
open Slate Slate.Py Term

theorem Paints.nil : Paints [] := ⟨[], by simp, rfl⟩

theorem Piece.paints {t : List Char} (h : Piece t) : Paints t := ⟨[t], by simpa using h, by simp⟩

theorem Paints.append {a b : List Char} (ha : Paints a) (hb : Paints b) : Paints (a ++ b) := by
  obtain ⟨p, hp, rfl⟩ := ha
  obtain ⟨q, hq, rfl⟩ := hb
  refine ⟨p ++ q, ?_, by simp⟩
  intro x hx
  rcases List.mem_append.mp hx with h | h
  · exact hp x h
  · exact hq x h

theorem paints_text {t : List Char} (h : ∀ c ∈ t, Printable c ∨ c = '\n') : Paints t := by
  induction t with
  | nil => exact .nil
  | cons c t ih =>
    have hc : Paints [c] := by
      rcases h c (by simp) with h | rfl
      · exact (Piece.print c h).paints
      · exact Piece.break.paints
    exact hc.append (ih fun d hd => h d (by simp [hd]))

theorem params_dec (n : Nat) : Params (dec n) := by
  intro c hc
  exact .inl ((isDig_iff c).mp (dec_isDig hc))

theorem number_dec (n : Nat) : Number (dec n) := ⟨dec_ne_nil n, fun c hc => (isDig_iff c).mp (dec_isDig hc)⟩

theorem params_join {l : List (List Char)} (h : ∀ s ∈ l, Params s) : Params (join [';'] l) := by
  induction l with
  | nil => simp [join, Params]
  | cons a l ih =>
    cases l with
    | nil => simpa [join] using h a (by simp)
    | cons b l =>
      have hj : join [';'] (a :: b :: l) = a ++ [';'] ++ join [';'] (b :: l) := rfl
      rw [hj]
      intro c hc
      rcases List.mem_append.mp hc with hc | hc
      · rcases List.mem_append.mp hc with hc | hc
        · exact h a (by simp) c hc
        · exact .inr (List.mem_singleton.mp hc)
      · exact ih (fun s hs => h s (by simp [hs])) c hc

theorem paints_reset : Paints RESET :=
  (Piece.rendition ['0'] (by intro c hc; rw [List.mem_singleton.mp hc]; exact .inl (by decide))).paints

theorem paints_style (st : Style) : Paints (wrapSgr st.colorless) := by
  unfold wrapSgr
  split
  · exact .nil
  · refine (Piece.rendition _ ?_).paints
    rw [colorless_eq]
    exact params_join fun s hs => by obtain ⟨n, -, rfl⟩ := List.mem_map.mp hs; exact params_dec n

theorem paints_cursorTo (x y : Int) (hx : 0 ≤ x) (hy : 0 ≤ y) : Paints (cursorTo x y) := by
  obtain ⟨a, rfl⟩ := Int.eq_ofNat_of_zero_le hx
  obtain ⟨b, rfl⟩ := Int.eq_ofNat_of_zero_le hy
  exact (Piece.position _ _ (number_dec b) (number_dec a)).paints

/-- The last character of a piece that is not a line break. -/
theorem Piece.last {p : List Char} (h : Piece p) (hn : p ≠ ['\n']) : ∃ a c, p = a ++ [c] ∧ c ≠ '\n' := by
  cases h with
  | print c h => exact ⟨[], c, rfl, by rintro rfl; exact absurd h.1 (by decide)⟩
  | «break» => exact absurd rfl hn
  | position r c hr hc => exact ⟨_, 'H', rfl, by decide⟩
  | rendition ps h => exact ⟨_, 'm', rfl, by decide⟩

theorem rstrip_concat (a : List Char) (c : Char) :
    rstrip (· == '\n') (a ++ [c]) = if c = '\n' then rstrip (· == '\n') a else a ++ [c] := by
  unfold rstrip
  rw [List.reverse_append, List.reverse_singleton, List.singleton_append, List.dropWhile_cons]
  by_cases h : c = '\n'
  · simp [h]
  · simp [h]

theorem Paints.strip {t : List Char} (h : Paints t) : Paints (rstrip (· == '\n') t) := by
  obtain ⟨l, hl, rfl⟩ := h
  induction l using List.reverseRecOn with
  | nil => exact .nil
  | append_singleton l p ih =>
    have hp := hl p (by simp)
    have hl' : ∀ q ∈ l, Piece q := fun q hq => hl q (by simp [hq])
    rw [List.flatten_append, List.flatten_singleton]
    by_cases hn : p = ['\n']
    · rw [hn, rstrip_concat, if_pos rfl]
      exact ih hl'
    · obtain ⟨a, c, rfl, hc⟩ := hp.last hn
      rw [← List.append_assoc, rstrip_concat, if_neg hc, List.append_assoc]
      exact Paints.append ⟨l, hl', rfl⟩ hp.paints

end Traffic

namespace Slate
open Py Term Traffic

/-- Colours whose code consists of digits and semicolons. -/
def PlainCode (env : Color.Env) (c : Color) : Prop := Params (c.ansi env)

theorem PlainCode.of_sendable {env : Color.Env} {c : Color} {t : TColor} (h : Sendable env c t) : PlainCode env c := by
  obtain ⟨n, ns, h, -⟩ := h
  unfold PlainCode
  rw [h]
  exact params_join fun s hs => by obtain ⟨n, -, rfl⟩ := List.mem_map.mp hs; exact params_dec n

theorem closed_paints (env : Color.Env) : Closed env Paints (PlainCode env) (PlainCode env) (fun _ => True) where
  nil := .nil
  strip _ h := h.strip
  feed _ h := h.append Piece.break.paints
  change cell n h hf hb := by
    unfold changeStr
    simp only
    have hcode : Params (join [';'] (cell.fg.toList.map (Color.ansi env) ++ cell.bg.toList.map (Color.ansi env))) := by
      refine params_join fun s hs => ?_
      rcases List.mem_append.mp hs with hs | hs <;> obtain ⟨c, hc, rfl⟩ := List.mem_map.mp hs
      · exact hf c (by simpa using hc)
      · exact hb c (by simpa using hc)
    refine Paints.append ?_ ?_
    · split
      · exact h
      · exact ((Piece.rendition _ hcode).paints.append h).append paints_reset
    · split
      · exact Piece.break.paints
      · exact .nil
  white := .of_sendable (denOk env _ rfl)
  sub _ _ _ _ h _ := h
  mixF _ _ _ _ _ _ := .of_sendable (denOk env _ rfl)
  mixB _ _ _ _ _ _ := .of_sendable (denOk env _ rfl)
  mixG _ _ _ _ _ _ := .of_sendable (denOk env _ rfl)

theorem charsGo_paints (seqs : Str) (hq : Paints seqs) (reset : Bool) : ∀ text : Str, (∀ c ∈ text, Printable c ∨ c = '\n') →
    ∀ t ∈ Span.charsGo seqs true reset seqs text, Paints t
  | [], _, t, ht => by simp [Span.charsGo] at ht
  | [c], h, t, ht => by
    have hc : Paints [c] := paints_text h
    rw [Span.charsGo, List.mem_singleton] at ht
    rw [ht]
    split
    · exact (hq.append hc).append paints_reset
    · exact hc
  | c :: d :: r, h, t, ht => by
    rw [Span.charsGo, if_pos rfl] at ht
    rcases List.mem_cons.mp ht with rfl | ht
    · exact hq.append (paints_text fun x hx => by rw [List.mem_singleton.mp hx]; exact h c (by simp))
    · exact charsGo_paints seqs hq reset (d :: r) (fun x hx => h x (by simp [hx])) t ht

/-- Spans of printable characters and line breaks, with plain colour codes, in any style. -/
structure Tame (env : Color.Env) (s : Span) : Prop where
  text : ∀ c ∈ s.text, Printable c ∨ c = '\n'
  fg : ∀ c, s.fg = some c → PlainCode env c
  bg : ∀ c, s.bg = some c → PlainCode env c

theorem Tame.spanIn {env : Color.Env} {s : Span} (h : Tame env s) : SpanIn Paints (PlainCode env) (PlainCode env) s :=
  ⟨charsGo_paints _ (paints_style s.style) _ _ h.text, h.fg, h.bg⟩

theorem paints_renderGo (origin : Int × Int) (hx : 0 ≤ origin.1) (hy : 0 ≤ origin.2) : ∀ (l : Changes) (prev : Option (Int × Int)),
    (∀ e ∈ l, Paints e.2) → Paints (renderGo origin prev l)
  | [], _, _ => .nil
  | ((x, y), str) :: l, prev, h => by
    rw [renderGo_cons]
    refine Paints.append (Paints.append ?_ (h ((x, y), str) (by simp))) (paints_renderGo origin hx hy l _ fun e he => h e (by simp [he]))
    have hc : Paints (cursorTo (x + origin.1) (y + origin.2)) := paints_cursorTo _ _ (by omega) (by omega)
    unfold moveStr
    split
    · split
      · exact .nil
      · exact hc
    · exact hc

theorem paints_redrawGo (x : Int) (hx : 0 ≤ x) : ∀ (rows : List (List Cell)) (y : Int), 0 ≤ y →
    (∀ row ∈ rows, ∀ c ∈ row, Paints c.char) → Paints (redrawGo x y rows)
  | [], _, _, _ => .nil
  | row :: rows, y, hy, h => by
    rw [redrawGo]
    refine Paints.append (Paints.append (paints_cursorTo _ _ hx hy) ?_) (paints_redrawGo x hx rows (y + 1) (by omega)
      fun r hr => h r (by simp [hr]))
    have : ∀ l : List Cell, (∀ c ∈ l, Paints c.char) → Paints (l.flatMap (·.char)) := by
      intro l
      induction l with
      | nil => exact fun _ => .nil
      | cons c l ih =>
        intro hl
        rw [List.flatMap_cons]
        exact (hl c (by simp)).append (ih fun d hd => hl d (by simp [hd]))
    exact this row (h row (by simp))

theorem paints_render {env : Color.Env} (s : Screen) (origin : Int × Int) (redraw : Bool) (hx : 0 ≤ origin.1) (hy : 0 ≤ origin.2)
    (h : ScreenIn Paints (PlainCode env) (PlainCode env) s) : Paints (s.render origin redraw).2 := by
  unfold Screen.render
  split
  · exact paints_redrawGo _ hx _ _ hy fun row hr c hc => (h.cells row hr c hc).char
  · have hb := paints_renderGo origin hx hy s.changes.gather none fun e he => h.changes e ((mem_gather _ _).mp he)
    simp only
    split
    · exact hb
    · exact hb.append paints_reset

/-- **C95** for printable text and line breaks: after any history of calls, including ones that scroll the screen and ones that raise, a
draw (or redraw) only sends printed characters, line breaks, cursor positions and graphic rendition. -/
theorem C95_sent_partial (env : Color.Env) (width height : Nat) (cursor : Int × Int) (fill : Str)
    (hfill : ∀ c ∈ fill, Printable c ∨ c = '\n') (ops : List Api) (hu : ∀ op ∈ ops, op.Uses (Tame env) fun _ => True)
    (hf : ∀ op ∈ ops, op.Fills fun t => ∀ c ∈ t, Printable c ∨ c = '\n') (origin : Int × Int) (redraw : Bool)
    (hx : 0 ≤ origin.1) (hy : 0 ≤ origin.2) :
    Paints ((Api.runAll env { scr := Screen.init width height cursor fill } ops).scr.render origin redraw).2 := by
  refine paints_render _ _ _ hx hy (runAll_in (closed_paints env) ops _ ?_ ?_ ⟨init_in _ _ _ _ (paints_text hfill), ?_⟩).scr
  · intro op hop
    have := hu op hop
    cases op with
    | write spans cursor tb force => exact ⟨fun s hs => (this.1 s hs).spanIn, trivial⟩
    | writeBulk data tb force => exact ⟨fun e he s hs => (this.1 e he s hs).spanIn, trivial⟩
    | _ => trivial
  · intro op hop
    have := hf op hop
    cases op with
    | clear fill => exact paints_text this
    | resize a b fill keep => exact paints_text this
    | _ => trivial
  · intro e he
    simp at he

/-- The hypotheses are met by a history that scrolls, raises and redraws. -/
example :
    let ops : List Api := [
      .write [{ text := "ab".toList, style := { bold := true } }] (some (0, 5)) Color.black false,
      .write [{ text := "x".toList }] none Color.black false,
      .render (1, 1) true,
      .resize 4 2 ['.'] true,
      .write [{ text := "c\nd".toList, fg := some { r := 1, g := 2, b := 3 } }] (some (1, 0)) Color.black false]
    (∀ op ∈ ops, op.Uses (Tame {}) fun _ => True) ∧ (∀ op ∈ ops, op.Fills fun t => ∀ c ∈ t, Printable c ∨ c = '\n') := by
  intro ops
  have hplain : ∀ t : Str, (∀ c ∈ t, Printable c ∨ c = '\n') → ∀ st : Style, Tame {} { text := t, style := st } :=
    fun t h st => ⟨h, by simp, by simp⟩
  have hcol : Tame {} { text := "c\nd".toList, fg := some { r := 1, g := 2, b := 3 } } := by
    refine ⟨by decide, ?_, by simp⟩
    intro c hc
    rw [← Option.some.inj hc]
    exact .of_sendable (denOk {} _ rfl)
  have h1 := hplain "ab".toList (by decide) { bold := true }
  have h2 := hplain "x".toList (by decide) {}
  refine ⟨?_, ?_⟩
  · intro op hop
    simp only [ops, List.mem_cons, List.not_mem_nil, or_false] at hop
    rcases hop with rfl | rfl | rfl | rfl | rfl
    · exact ⟨by simpa using h1, trivial⟩
    · exact ⟨by simpa using h2, trivial⟩
    · trivial
    · trivial
    · exact ⟨by simpa using hcol, trivial⟩
  · intro op hop
    simp only [ops, List.mem_cons, List.not_mem_nil, or_false] at hop
    rcases hop with rfl | rfl | rfl | rfl | rfl <;> first | trivial | exact (by decide : ∀ c ∈ ['.'], Printable c ∨ c = '\n')

/-- In particular such histories of draws switch no mode and leave the title alone; `C61_draws_are_tame` has this for screens that have
not scrolled. -/
theorem Paints.quiet {t : Str} (h : Paints t) : Modes.Quiet t := by
  obtain ⟨l, hl, rfl⟩ := h
  have hp : ∀ ps : Str, Params ps → ∀ c ∈ ps, ParamChar c := by
    intro ps h c hc
    rcases h c hc with h | rfl
    · exact ⟨by omega, by omega⟩
    · exact ⟨by decide, by decide⟩
  have hn : ∀ ps : Str, Number ps → Params ps := fun ps h c hc => .inl (h.2 c hc)
  induction l with
  | nil => exact .nil
  | cons p l ih =>
    rw [List.flatten_cons]
    refine Modes.Quiet.append ?_ (ih fun q hq => hl q (by simp [hq]))
    cases hl p (by simp) with
    | print c h =>
      refine Modes.quiet_plain _ fun d hd => ?_
      rw [List.mem_singleton.mp hd]
      rintro rfl
      exact absurd h.1 (by decide)
    | «break» => exact Modes.quiet_plain _ (by decide)
    | position r c hr hc =>
      have e : ['\x1b', '['] ++ r ++ [';'] ++ c ++ ['H'] = '\x1b' :: '[' :: ((r ++ [';'] ++ c) ++ ['H']) := by simp
      rw [e]
      refine Modes.quiet_csi _ 'H' (hp _ ?_) (by decide) (by decide) (by decide) (by decide)
      intro d hd
      rcases List.mem_append.mp hd with hd | hd
      · rcases List.mem_append.mp hd with hd | hd
        · exact hn _ hr d hd
        · exact .inr (List.mem_singleton.mp hd)
      · exact hn _ hc d hd
    | rendition ps h => exact Modes.quiet_csi _ 'm' (hp _ h) (by decide) (by decide) (by decide) (by decide)

/-- **C61**, draws, for every history of calls with printable text. -/
theorem C61_all_draws_are_tame (env : Color.Env) (width height : Nat) (cursor : Int × Int) (fill : Str)
    (hfill : ∀ c ∈ fill, Printable c ∨ c = '\n') (ops : List Api) (hu : ∀ op ∈ ops, op.Uses (Tame env) fun _ => True)
    (hf : ∀ op ∈ ops, op.Fills fun t => ∀ c ∈ t, Printable c ∨ c = '\n') (origin : Int × Int) (redraw : Bool)
    (hx : 0 ≤ origin.1) (hy : 0 ≤ origin.2) :
    Block.Tame (.write ((Api.runAll env { scr := Screen.init width height cursor fill } ops).scr.render origin redraw).2) :=
  Paints.quiet (C95_sent_partial env width height cursor fill hfill ops hu hf origin redraw hx hy)

/-! ### Violations -/

/-- What is sent for a screen with one cell, after a text was written there. -/
def sentFor (env : Color.Env) (text : Str) (width : Nat) : Str :=
  ((write env [{ text := text }] (some (0, 0)) Color.black false { scr := Screen.init width 1 }).1.scr.render (1, 1)).2

/-- In what a screen may send, every escape character is followed by a bracket. -/
def escOk : List Char → Bool
  | [] => true
  | c :: t => (c != '\x1b' || t.head? == some '[') && escOk t

theorem escOk_append : ∀ a b : List Char, escOk a = true → escOk b = true → escOk (a ++ b) = true
  | [], _, _, hb => hb
  | c :: t, b, ha, hb => by
    rw [List.cons_append, escOk]
    rw [escOk, Bool.and_eq_true] at ha
    rw [Bool.and_eq_true]
    refine ⟨?_, escOk_append t b ha.2 hb⟩
    cases t with
    | nil =>
      have : c != '\x1b' := by simpa using ha.1
      simp [this]
    | cons d t => simpa using ha.1

theorem escOk_plain : ∀ t : List Char, (∀ c ∈ t, c ≠ '\x1b') → escOk t = true
  | [], _ => rfl
  | c :: t, h => by
    rw [escOk, Bool.and_eq_true]
    exact ⟨by simp [h c (by simp)], escOk_plain t fun d hd => h d (by simp [hd])⟩

theorem Paints.facts {t : Str} (h : Paints t) : escOk t = true ∧ ∀ c ∈ t, Printable c ∨ c = '\n' ∨ c = '\x1b' := by
  obtain ⟨l, hl, rfl⟩ := h
  have hp : ∀ ps : Str, Params ps → ∀ c ∈ ps, c ≠ '\x1b' ∧ Printable c := by
    intro ps h c hc
    rcases h c hc with h | rfl
    · exact ⟨by rintro rfl; exact absurd h.1 (by decide), by omega, by omega⟩
    · exact ⟨by decide, by decide⟩
  have hn : ∀ ps : Str, Number ps → Params ps := fun ps h c hc => .inl (h.2 c hc)
  have hcsi : ∀ (ps : Str) (f : Char), f = 'H' ∨ f = 'm' → Params ps →
      escOk ('\x1b' :: '[' :: (ps ++ [f])) = true ∧ ∀ c ∈ '\x1b' :: '[' :: (ps ++ [f]), Printable c ∨ c = '\n' ∨ c = '\x1b' := by
    intro ps f hf h
    have hf' : f ≠ '\x1b' ∧ Printable f := by rcases hf with rfl | rfl <;> exact ⟨by decide, by decide⟩
    have hq : ∀ c ∈ '[' :: (ps ++ [f]), c ≠ '\x1b' ∧ Printable c := by
      intro c hc
      rcases List.mem_cons.mp hc with rfl | hc
      · exact ⟨by decide, by decide⟩
      · rcases List.mem_append.mp hc with hc | hc
        · exact hp ps h c hc
        · rw [List.mem_singleton.mp hc]; exact hf'
    refine ⟨?_, ?_⟩
    · rw [escOk, Bool.and_eq_true]
      exact ⟨rfl, escOk_plain _ fun c hc => (hq c hc).1⟩
    · intro c hc
      rcases List.mem_cons.mp hc with rfl | hc
      · exact .inr (.inr rfl)
      · exact .inl (hq c hc).2
  induction l with
  | nil => exact ⟨rfl, by simp⟩
  | cons p l ih =>
    obtain ⟨i1, i2⟩ := ih fun q hq => hl q (by simp [hq])
    rw [List.flatten_cons]
    have key : escOk p = true ∧ ∀ c ∈ p, Printable c ∨ c = '\n' ∨ c = '\x1b' := by
      cases hl p (by simp) with
      | print c h =>
        refine ⟨escOk_plain _ fun d hd => ?_, fun d hd => .inl ?_⟩
        · rw [List.mem_singleton.mp hd]
          rintro rfl
          exact absurd h.1 (by decide)
        · rw [List.mem_singleton.mp hd]; exact h
      | «break» => exact ⟨by decide, by decide⟩
      | position r c hr hc =>
        have e : ['\x1b', '['] ++ r ++ [';'] ++ c ++ ['H'] = '\x1b' :: '[' :: ((r ++ [';'] ++ c) ++ ['H']) := by simp
        rw [e]
        refine hcsi _ 'H' (.inl rfl) ?_
        intro d hd
        rcases List.mem_append.mp hd with hd | hd
        · rcases List.mem_append.mp hd with hd | hd
          · exact hn _ hr d hd
          · exact .inr (List.mem_singleton.mp hd)
        · exact hn _ hc d hd
      | rendition ps h => exact hcsi ps 'm' (.inr rfl) h
    refine ⟨escOk_append _ _ key.1 i1, ?_⟩
    intro c hc
    rcases List.mem_append.mp hc with hc | hc
    · exact key.2 c hc
    · exact i2 c hc

/-- C95 is violated by every control character: written and drawn, it is sent to the terminal as it is. -/
theorem C95_sent_violated (c : Char) (hp : ¬ Printable c) (hn : c ≠ '\n') : ¬ Paints (sentFor {} [c] 1) := by
  have table : ∀ n < 160, ¬ Printable (Char.ofNat n) → Char.ofNat n ≠ '\n' →
      (escOk (sentFor {} [Char.ofNat n] 1) &&
        (sentFor {} [Char.ofNat n] 1).all fun d => decide (Printable d ∨ d = '\n' ∨ d = '\x1b')) = false := by decide +kernel
  have := table c.toNat (by unfold Printable at hp; omega)
  rw [Char.ofNat_toNat] at this
  intro h
  obtain ⟨h1, h2⟩ := Paints.facts h
  have h3 := this hp hn
  rw [h1, Bool.true_and] at h3
  rw [List.all_eq_true.mpr fun d hd => decide_eq_true (h2 d hd)] at h3
  exact absurd h3 (by decide)

/-- C95 is violated by every control character also for what is around it: the text after it is not shown in its cell. -/
theorem C95_shift_violated (c : Char) (hp : ¬ Printable c) (hn : c ≠ '\n') :
    ((Term.run { grid := fun _ _ => ⟨' ', {}⟩ } (sentFor {} ['a', c, 'b'] 3)).grid 1 3).ch ≠ 'b' := by
  have table : ∀ n < 160, ¬ Printable (Char.ofNat n) → Char.ofNat n ≠ '\n' →
      ((Term.run { grid := fun _ _ => ⟨' ', {}⟩ } (sentFor {} ['a', Char.ofNat n, 'b'] 3)).grid 1 3).ch ≠ 'b' := by
    decide +kernel
  have hlt : c.toNat < 160 := by
    unfold Printable at hp
    omega
  have := table c.toNat hlt
  rw [Char.ofNat_toNat] at this
  exact this hp hn

/-- In a redraw, which sends the cells without their colours, C95 is violated by whole commands: text that sets the title of the terminal
sets it when it is redrawn. -/
theorem C95_title_violated :
    let scr := (write {} [{ text := "\x1b]0;evil\x07".toList }] (some (0, 0)) Color.black false { scr := Screen.init 9 1 }).1.scr
    (Modes.feed {} (scr.render (1, 1) true).2).title = "evil".toList := by decide +kernel

end Slate
