import Verif.Model.Terminal
import Verif.Props.Tty

/-!
# `Terminal.write`, `write_bulk` and `draw`: C66, C23
-/

namespace Slate
open Py Terminal Prog

/-! ## C66 Writing strings -/

/-- Specification: `list(g)`. -/
def listOf (g : List Span × Option PyErr) : Except PyErr (List Span) :=
  match g.2 with
  | none => .ok g.1
  | some e => .error e

theorem putItems_spans : ∀ (data : List Entry) (m : Mats) (w : World),
    putItems (data.map fun e => (e.1, Data.spans e.2)) m w = putData data m w
  | [], m, w => rfl
  | (none, _) :: rest, m, w => rfl
  | (some pos, l) :: rest, m, w => by
    obtain ⟨x, y⟩ := pos
    simp only [List.map_cons, putItems, putData]
    rcases putSpans l 0 { x := x, y := y, last := (l.length : Int) - 1 } m w with ⟨c, m', w', e⟩
    cases e with
    | some e => rfl
    | none => exact putItems_spans rest m' w'

/-- Lists of spans: the functions of the terminal are those of the screen. -/
theorem terminal_writeBulk_spans (env : Color.Env) (data : List ((Int × Int) × List Span)) (bg : Color)
    (force : Bool) (w : World) :
    Terminal.writeBulk env (data.map fun e => (e.1, .spans e.2)) bg w =
      Slate.writeBulk env (data.map fun e => (some e.1, e.2)) bg force w := by
  have h := putItems_spans (data.map fun e => (some e.1, e.2)) Mats.blank w
  rw [List.map_map] at h
  unfold Terminal.writeBulk screenWriteBulk Slate.writeBulk
  rw [List.map_map]
  rw [show ((fun e : (Int × Int) × Data => (some e.1, e.2)) ∘ fun e : (Int × Int) × List Span => (e.1, Data.spans e.2)) =
    ((fun e : Entry => (e.1, Data.spans e.2)) ∘ fun e : (Int × Int) × List Span => (some e.1, e.2)) from rfl, h]
  rcases putData _ _ _ with ⟨m, w, e⟩
  cases e <;> rfl

theorem terminal_write_spans (env : Color.Env) (l : List Span) (cursor : Option (Int × Int)) (bg : Color)
    (force : Bool) (w : World) :
    Terminal.write env (.spans l) cursor bg w = Slate.write env l cursor bg force w := by
  have h := putItems_spans [(cursor, l)] Mats.blank w
  unfold Terminal.write screenWriteBulk Slate.write Slate.writeBulk
  simp only [List.map_cons, List.map_nil] at h
  simp only [h]
  rcases putData _ _ _ with ⟨m, w, e⟩
  cases e <;> rfl

/-- **C66**, `write`: for every string and every position, writing the string behaves as
writing the list of the spans that `Span.yield_from` yields, and if building that list raises, the write
raises the same exception and changes nothing. -/
theorem C66_write (env : Color.Env) (s : Str) (pos : Int × Int) (bg : Color) (w : World) :
    Terminal.write env (.str s) (some pos) bg w =
      match listOf (yieldFrom s) with
      | .ok l => Terminal.write env (.spans l) (some pos) bg w
      | .error e => (w, .error e) := by
  rcases h : yieldFrom s with ⟨l, e⟩
  cases e with
  | none => simp only [listOf, Terminal.write, h, screenWriteBulk, putItems]
  | some e => simp only [listOf, Terminal.write, h, screenWriteBulk, putItems]

/-- A string with a style: two spans, three cells. -/
example : ∃ w, Terminal.write { space := .trueColor, grey := fun _ => 0 } (.str "\x1b[1mab\x1b[3mc".toList) (some (0, 0)) Color.black
      { scr := Screen.init 4 1, cache := [] } = (w, .ok 3) ∧ listOf (yieldFrom "\x1b[1mab\x1b[3mc".toList) =
      .ok [{ text := ['a', 'b'], style := { bold := true } }, { text := ['c'], style := { bold := true, italic := true } }] := by
  refine ⟨_, Prod.ext rfl ?_, ?_⟩ <;> decide +kernel

/-- **C66**, `write` without a position: strings and lists fail alike (see C11). -/
theorem C66_write_no_cursor (env : Color.Env) (d : Data) (bg : Color) (w : World) :
    Terminal.write env d none bg w = (w, .error .typeError) := by
  cases d <;> rfl

/-- C66 is violated by `write_bulk`: a non-empty string raises `AttributeError`, whatever the string, the
position and the screen, although the same string can be written with `write`. -/
theorem C66_bulk_violated (env : Color.Env) (c : Char) (s : Str) (pos : Int × Int) (bg : Color) (w : World) :
    Terminal.writeBulk env [(pos, .str (c :: s))] bg w = (w, .error .attributeError) := rfl

/-- The same behind other entries: the entries before may scroll the screen, nothing is stored. -/
theorem C66_bulk_never_ok (env : Color.Env) (before after : List ((Int × Int) × Data)) (c : Char) (s : Str)
    (pos : Int × Int) (bg : Color) (w : World) :
    ∃ e, (Terminal.writeBulk env (before ++ (pos, .str (c :: s)) :: after) bg w).2 = .error e := by
  have key : ∀ (b : List ((Int × Int) × Data)) (m : Mats) (w : World),
      ∃ m' w' e, putItems ((b ++ (pos, .str (c :: s)) :: after).map fun e => (some e.1, e.2)) m w = (m', w', some e) := by
    intro b
    induction b with
    | nil => intro m w; exact ⟨m, w, _, rfl⟩
    | cons x b ih =>
      intro m w
      obtain ⟨p, d⟩ := x
      have hgo : ∀ l : List Span, ∃ m' w' e, (match putData [(some p, l)] m w with
          | (m, w, some e) => (m, w, some e)
          | (m, w, none) => putItems ((b ++ (pos, .str (c :: s)) :: after).map fun e => (some e.1, e.2)) m w) = (m', w', some e) := by
        intro l
        rcases putData [(some p, l)] m w with ⟨m', w', e⟩
        cases e with
        | some e => exact ⟨_, _, _, rfl⟩
        | none => exact ih m' w'
      simp only [List.cons_append, List.map_cons, putItems]
      cases d with
      | spans l => exact hgo l
      | span t => exact hgo t.items
      | gen g =>
        obtain ⟨l, e⟩ := g
        cases e with
        | none => exact hgo l
        | some e => exact ⟨_, _, _, rfl⟩
      | str t =>
        cases t with
        | nil => exact hgo []
        | cons c t => exact ⟨_, _, _, rfl⟩
  obtain ⟨m', w', e, h⟩ := key before Mats.blank w
  refine ⟨e, ?_⟩
  unfold Terminal.writeBulk screenWriteBulk
  rw [h]

/-- C66, `write_bulk`, in part: parsing the strings first gives the behaviour asked for, since lists and
generators of spans are written alike. Missing: strings that are not parsed by the caller, for which
the property fails (`C66_bulk_violated`). -/
theorem C66_bulk_partial (env : Color.Env) (data : List ((Int × Int) × Str)) (bg : Color) (w : World)
    (h : ∀ e ∈ data, (yieldFrom e.2).2 = none) :
    Terminal.writeBulk env (data.map fun e => (e.1, .gen (yieldFrom e.2))) bg w =
      Slate.writeBulk env (data.map fun e => (some e.1, (yieldFrom e.2).1)) bg false w := by
  have h1 := terminal_writeBulk_spans env (data.map fun e => (e.1, (yieldFrom e.2).1)) bg false w
  rw [List.map_map, List.map_map] at h1
  refine Eq.trans ?_ h1
  have key : ∀ (data : List ((Int × Int) × Str)) (m : Mats) (w : World), (∀ e ∈ data, (yieldFrom e.2).2 = none) →
      putItems (data.map fun e => (some e.1, Data.gen (yieldFrom e.2))) m w =
      putItems (data.map fun e => (some e.1, Data.spans (yieldFrom e.2).1)) m w := by
    intro data
    induction data with
    | nil => intro m w _; rfl
    | cons x data ih =>
      intro m w hd
      have hx := hd x (by simp)
      rcases hy : yieldFrom x.2 with ⟨l, e⟩
      rw [hy] at hx
      simp only at hx
      subst hx
      simp only [List.map_cons, putItems, hy]
      rcases putData [(some x.1, l)] m w with ⟨m', w', e⟩
      cases e with
      | some e => rfl
      | none => exact ih m' w' fun e he => hd e (by simp [he])
  unfold Terminal.writeBulk screenWriteBulk
  rw [List.map_map, List.map_map]
  have := key data Mats.blank w h
  simp only [Function.comp_def] at this ⊢
  rw [this]

example : ∀ e ∈ [((0, 0), "a\x1b[1mb".toList), ((3, 1), "\x1b[31mc".toList)], (yieldFrom (e : (Int × Int) × Str).2).2 = none := by
  decide +kernel

/-! ## C23 A failed draw -/

/-- C23 is violated, for every screen and all pending changes: `draw` can raise (when it opens `screen.txt`)
such that nothing reaches the stream and the pending changes are lost: the next draw, completed,
sends a reset and nothing else. -/
theorem C23_violated (origin : Int × Int) (d : Drawing) (e : PyErr) :
    ∃ t, Exec (drawProg origin false) d (some e) t ∧ t.stream = d.stream ∧
      ∀ o u, Exec (drawProg origin false) { t with ansi := [] } o u → o = none → u.stream = d.stream ++ RESET := by
  refine ⟨_, .seq _ _ _ _ _ _ (.act ..) (.seqErr _ _ _ _ _ (.actBefore _ _ _ _ _ trivial)), rfl, ?_⟩
  rintro o u h rfl
  unfold drawProg at h
  rcases exec_seq.mp h with ⟨a, h1, h⟩ | ⟨h, -⟩
  · rcases exec_seq.mp h with ⟨b, h2, h⟩ | ⟨h, -⟩
    · rcases exec_seq.mp h with ⟨c, h3, h4⟩ | ⟨h, -⟩
      · rcases exec_risky h1 with ⟨-, h⟩ | rfl
        · exact absurd rfl h
        rcases exec_risky h2 with ⟨-, h⟩ | rfl
        · exact absurd rfl h
        rcases exec_risky h3 with ⟨-, h⟩ | rfl
        · exact absurd rfl h
        rcases exec_risky h4 with ⟨-, h⟩ | rfl
        · exact absurd rfl h
        rfl
      · exact absurd rfl h
    · exact absurd rfl h
  · exact absurd rfl h

/-- Pending changes that would have been sent. -/
example : ((Screen.init 1 1).render (1, 1) false).2 = "\x1b[1;1H \x1b[0m".toList := by decide +kernel

/-- C23, in part: what every execution of `draw` leaves behind, at every crash point. Either the output
reached the stream completely, or nothing did; in every case the contents of the screen are
untouched, so that a draw with `redraw` afterwards sends the complete screen, as if the failed
draw had not been attempted; and if `draw` raised before rendering, nothing happened, so the next draw sends the
same output as the failed one would have. Missing: the pending changes after a failure between
rendering and sending (`C23_violated`). -/
theorem C23_partial (origin : Int × Int) (redraw : Bool) (d t : Drawing) (o : Option PyErr)
    (h : Exec (drawProg origin redraw) d o t) :
    (t.stream = d.stream ++ (d.scr.render origin redraw).2 ∨ (t.stream = d.stream ∧ o ≠ none)) ∧
    (o = none → t.stream = d.stream ++ (d.scr.render origin redraw).2) ∧
    (∀ origin', (t.scr.render origin' true).2 = (d.scr.render origin' true).2) ∧
    (t.scr.cells = d.scr.cells ∧ t.scr.width = d.scr.width ∧ t.scr.height = d.scr.height ∧
      t.scr.cursor = d.scr.cursor ∧ t.scr.offset = d.scr.offset) ∧
    (t = d ∨ t.scr.changes = []) := by
  have hc : ∀ (origin : Int × Int) (redraw : Bool) (s : Screen), (s.render origin redraw).1 = { s with changes := [] } := by
    intro o r s; unfold Screen.render; cases r <;> rfl
  have hr : ∀ (origin' : Int × Int) (s : Screen), (s.render origin' true).2 = redrawGo origin'.1 origin'.2 s.cells := fun _ _ => rfl
  unfold drawProg at h
  have rendered : ∀ t : Drawing, t.scr = (d.scr.render origin redraw).1 →
      (∀ origin', (t.scr.render origin' true).2 = (d.scr.render origin' true).2) ∧
      (t.scr.cells = d.scr.cells ∧ t.scr.width = d.scr.width ∧ t.scr.height = d.scr.height ∧
        t.scr.cursor = d.scr.cursor ∧ t.scr.offset = d.scr.offset) ∧
      (t = d ∨ t.scr.changes = []) := by
    intro t h1
    rw [h1, hc]
    exact ⟨fun _ => rfl, ⟨rfl, rfl, rfl, rfl, rfl⟩, .inr rfl⟩
  rcases exec_seq.mp h with ⟨a, h1, h⟩ | ⟨ho, h1⟩
  · rcases exec_risky h1 with ⟨-, hx⟩ | rfl
    · exact absurd rfl hx
    rcases exec_seq.mp h with ⟨b, h2, h⟩ | ⟨ho, h2⟩
    · rcases exec_risky h2 with ⟨-, hx⟩ | rfl
      · exact absurd rfl hx
      rcases exec_seq.mp h with ⟨c, h3, h4⟩ | ⟨ho, h3⟩
      · rcases exec_risky h3 with ⟨-, hx⟩ | rfl
        · exact absurd rfl hx
        rcases exec_risky h4 with ⟨rfl, hx⟩ | rfl
        · exact ⟨.inr ⟨rfl, hx⟩, fun h => absurd h hx, rendered _ rfl⟩
        · exact ⟨.inl rfl, fun _ => rfl, rendered _ rfl⟩
      · rcases exec_risky h3 with ⟨rfl, hx⟩ | rfl
        · exact ⟨.inr ⟨rfl, ho⟩, fun h => absurd h ho, rendered _ rfl⟩
        · exact ⟨.inr ⟨rfl, ho⟩, fun h => absurd h ho, rendered _ rfl⟩
    · rcases exec_risky h2 with ⟨rfl, hx⟩ | rfl
      · exact ⟨.inr ⟨rfl, ho⟩, fun h => absurd h ho, rendered _ rfl⟩
      · exact ⟨.inr ⟨rfl, ho⟩, fun h => absurd h ho, rendered _ rfl⟩
  · rcases exec_risky h1 with ⟨rfl, hx⟩ | rfl
    · exact ⟨.inr ⟨rfl, ho⟩, fun h => absurd h ho, fun _ => rfl, ⟨rfl, rfl, rfl, rfl, rfl⟩, .inl rfl⟩
    · exact ⟨.inr ⟨rfl, ho⟩, fun h => absurd h ho, rendered _ rfl⟩

end Slate
