import Verif.Model.Properties
import Verif.Props.Size
import Verif.Spec.Api

/-!
# C109 The properties of a terminal, and C13: the cursor is never used
-/

namespace Slate
open Py Terminal

/-! ## C109 -/

/-- Reading `width` and then `height`. -/
def dimensions (os : Nat → Nat × Nat) (ls : List (Nat × Nat → Reaction)) (depth : Nat) (s : Terminal.State) :
    Terminal.State × Except PyErr (Nat × Nat) :=
  match Terminal.width os ls depth s with
  | (s, .error e) => (s, .error e)
  | (s, .ok w) =>
    match Terminal.height os ls depth s with
    | (s, .error e) => (s, .error e)
    | (s, .ok h) => (s, .ok (w, h))

/-- **C109**, what `width` and `height` are: each asks the system once. The width is that of the
first answer and the height that of the second, the listeners hear of each answer that differs from
the one before, and the screen ends with the size of the second. -/
theorem C109_dimensions (os : Nat → Nat × Nat) (fs : List Answer) (hf : ∀ f ∈ fs, f.Fine) (depth : Nat)
    (s : Terminal.State) (p : Nat × Nat) (hp : s.prev = some p) (hs : (s.scr.width, s.scr.height) = p) :
    let r := dimensions os (fs.map Answer.reaction) (depth + 1) s
    r.2 = .ok ((os s.clock).1, (os (s.clock + 1)).2) ∧
    (r.1.scr.width, r.1.scr.height) = os (s.clock + 1) ∧
    r.1.calls = s.calls ++ (if os s.clock = p then [] else (List.range fs.length).map (·, os s.clock)) ++
      (if os (s.clock + 1) = os s.clock then [] else (List.range fs.length).map (·, os (s.clock + 1))) := by
  have h1 := size_fine os fs hf depth s p hp
  have h2 := size_fine os fs hf depth
    { prev := some (os s.clock), clock := s.clock + 1,
      scr := if os s.clock = p then s.scr else s.scr.resize (os s.clock),
      calls := s.calls ++ if os s.clock = p then [] else (List.range fs.length).map (·, os s.clock) }
    (os s.clock) rfl
  intro r
  have hr : r = dimensions os (fs.map Answer.reaction) (depth + 1) s := rfl
  rw [hr]
  simp only [dimensions, Terminal.width, Terminal.height, h1, Except.map, h2]
  refine ⟨trivial, ?_, trivial⟩
  by_cases e1 : os s.clock = p
  · by_cases e2 : os (s.clock + 1) = os s.clock
    · simp only [e2, e1, if_true]; exact hs
    · simp only [if_neg e2]; rfl
  · by_cases e2 : os (s.clock + 1) = os s.clock
    · simp only [e2, if_true, if_neg e1]; rfl
    · simp only [if_neg e2]; rfl

/-- **C109**, in part: if the size does not change between the two, `width` and `height` are the
size of the terminal and of the screen. Missing: a size that changes in between, see
`C109_mixed_violated`. -/
theorem C109_dimensions_partial (os : Nat → Nat × Nat) (fs : List Answer) (hf : ∀ f ∈ fs, f.Fine) (depth : Nat)
    (s : Terminal.State) (p : Nat × Nat) (hp : s.prev = some p) (hs : (s.scr.width, s.scr.height) = p)
    (hstill : os (s.clock + 1) = os s.clock) :
    let r := dimensions os (fs.map Answer.reaction) (depth + 1) s
    r.2 = .ok (os s.clock) ∧ (r.1.scr.width, r.1.scr.height) = os s.clock := by
  obtain ⟨h1, h2, -⟩ := C109_dimensions os fs hf depth s p hp hs
  exact ⟨by rw [h1, hstill], by rw [h2, hstill]⟩

/-- The terminal was made at 4×2 and is 6×3 since. -/
example :
    let os : Nat → Nat × Nat := fun i => if i = 0 then (4, 2) else (6, 3)
    (dimensions os [] 1 (create os)).2 = .ok (6, 3) := rfl

/-- **C109 violated**: a terminal that is resized between the two queries seems to have a size that
it never had. It has 4 columns and 2 rows, then 6 columns and 3 rows; what is read is 4 by 3. -/
theorem C109_mixed_violated :
    let os : Nat → Nat × Nat := fun i => if i ≤ 1 then (4, 2) else (6, 3)
    (dimensions os [] 1 (create os)).2 = .ok (4, 3) ∧ ∀ i, os i ≠ (4, 3) := by
  refine ⟨rfl, fun i => ?_⟩
  simp only
  split <;> decide

/-- **C109**, the stream: `isatty` is what the stream says, and a closed stream (`ValueError`) is
not a tty. -/
theorem C109_isatty (answer : Except PyErr Bool) :
    isatty answer = .ok true ↔ answer = .ok true := by
  unfold isatty
  constructor
  · intro h
    split at h
    · cases h
    · exact h
  · rintro rfl; rfl

theorem C109_isatty_closed : isatty (.error .valueError) = .ok false := rfl

/-- **C109**, the bell: the terminal shows the same as before, in the same state, whatever it shows. -/
theorem C109_bell (c : Tty.Console) (T : Term.State) (hT : T.mode = .ground) :
    ∃ sent, (bell c).out = c.out ++ sent ∧ (bell c).echo = c.echo ∧ Term.run T sent = T := by
  refine ⟨['\x07'], rfl, rfl, ?_⟩
  have hp : ¬ Term.Printable '\x07' := by decide
  simp only [Term.run, List.foldl_cons, List.foldl_nil, Term.step, hT]
  rw [if_neg (by decide), if_neg (by decide), if_neg (by decide), if_neg hp]

/-- **C109**, the cursor: what is set is what is read, and setting it changes nothing else. -/
theorem C109_cursor (new : Int × Int) (w : World) :
    cursor (setCursor new w) = new ∧
    (setCursor new w).scr.cells = w.scr.cells ∧ (setCursor new w).scr.changes = w.scr.changes ∧
    (setCursor new w).cache = w.cache ∧ (setCursor new w).scr.width = w.scr.width ∧
    (setCursor new w).scr.height = w.scr.height ∧ (setCursor new w).scr.offset = w.scr.offset :=
  ⟨rfl, rfl, rfl, rfl, rfl, rfl, rfl⟩

/-! ## C13: the cursor of the screen is never used -/

theorem putSpans_aim (spans : List Span) (i : Nat) (p : Pen) (m : Mats) (c : Int × Int) (w : World) :
    (putSpans spans i p m (setCursor c w)).1 = (putSpans spans i p m w).1 ∧
    (putSpans spans i p m (setCursor c w)).2.1 = (putSpans spans i p m w).2.1 ∧
    (putSpans spans i p m (setCursor c w)).2.2.1 = setCursor c (putSpans spans i p m w).2.2.1 ∧
    (putSpans spans i p m (setCursor c w)).2.2.2 = (putSpans spans i p m w).2.2.2 := by
  induction spans generalizing i p m w with
  | nil => exact ⟨rfl, rfl, rfl, rfl⟩
  | cons s rest ih =>
    obtain ⟨scr, cache⟩ := w
    obtain ⟨wd, ht, cells, ch, cur, off⟩ := scr
    unfold putSpans
    simp only [setCursor]
    by_cases h : (i : Int) = p.last ∧ p.y - off > (ht : Int) - 1
    · simp only [eq_true h, if_true]
      by_cases hc : (cache.get s).1.isEmpty = true
      · simp only [eq_true hc, if_true]
        exact ⟨trivial, trivial, trivial, trivial⟩
      · simp only [eq_false hc, if_false]
        cases cells with
        | nil => exact ⟨rfl, rfl, rfl, rfl⟩
        | cons r rows =>
          exact ih (i + 1) _ _
            { scr := { width := wd, height := ht, cells := rows ++ [List.replicate wd { char := [] }], changes := ch, cursor := cur,
                       offset := p.y - ht + 1 },
              cache := (cache.get s).2.assign s (appendNewline (cache.get s).1) }
    · simp only [eq_false h, if_false]
      exact ih (i + 1) _ _
        { scr := { width := wd, height := ht, cells := cells, changes := ch, cursor := cur, offset := off }, cache := (cache.get s).2 }

theorem putData_aim (data : List Entry) (m : Mats) (c : Int × Int) (w : World) :
    (putData data m (setCursor c w)).1 = (putData data m w).1 ∧
    (putData data m (setCursor c w)).2.1 = setCursor c (putData data m w).2.1 ∧
    (putData data m (setCursor c w)).2.2 = (putData data m w).2.2 := by
  induction data generalizing m w with
  | nil => exact ⟨rfl, rfl, rfl⟩
  | cons e rest ih =>
    obtain ⟨pos, line⟩ := e
    cases pos with
    | none => exact ⟨rfl, rfl, rfl⟩
    | some xy =>
      obtain ⟨x, y⟩ := xy
      unfold putData
      obtain ⟨-, h2, h3, h4⟩ := putSpans_aim line 0 { x := x, y := y, last := (line.length : Int) - 1 } m c w
      generalize putSpans line 0 { x := x, y := y, last := (line.length : Int) - 1 } m (setCursor c w) = r at *
      generalize putSpans line 0 { x := x, y := y, last := (line.length : Int) - 1 } m w = r' at *
      obtain ⟨p, m', w', e⟩ := r
      obtain ⟨p', m'', w'', e'⟩ := r'
      simp only at h2 h3 h4
      subst h2 h3 h4
      cases e with
      | some e => exact ⟨rfl, rfl, rfl⟩
      | none => exact ih _ _

theorem commit_aim (env : Color.Env) (tb : Color) (m : Mats) (c : Int × Int) (s : Screen) :
    commit env tb m { s with cursor := c } =
      ({ (commit env tb m s).1 with cursor := c }, (commit env tb m s).2) := by
  unfold commit
  have go : ∀ (l : List (Nat × Nat)) (a : Screen × Except PyErr Nat),
      l.foldl (commitCell env tb m) ({ a.1 with cursor := c }, a.2) =
        ({ (l.foldl (commitCell env tb m) a).1 with cursor := c }, (l.foldl (commitCell env tb m) a).2) := by
    intro l
    induction l with
    | nil => exact fun a => rfl
    | cons p l ih =>
      intro a
      rw [List.foldl_cons, List.foldl_cons, ← ih]
      congr 1
      obtain ⟨s, r⟩ := a
      obtain ⟨x, y⟩ := p
      unfold commitCell
      cases r with
      | error e => rfl
      | ok n =>
        simp only
        cases m.wm x y with
        | none => rfl
        | some d =>
          simp only
          cases cellAt s.cells x y with
          | none => rfl
          | some old => simp only; split <;> rfl
  exact go _ (s, .ok 0)

theorem writeBulk_aim (env : Color.Env) (data : List Entry) (tb : Color) (force : Bool) (c : Int × Int) (w : World) :
    writeBulk env data tb force (setCursor c w) =
      (setCursor c (writeBulk env data tb force w).1, (writeBulk env data tb force w).2) := by
  obtain ⟨a1, a2, a3⟩ := putData_aim data Mats.blank c w
  unfold writeBulk
  generalize putData data Mats.blank w = r at *
  generalize putData data Mats.blank (setCursor c w) = r' at *
  obtain ⟨m, u, e⟩ := r
  obtain ⟨m', u', e'⟩ := r'
  simp only at a1 a2 a3
  subst a1 a2 a3
  cases e' with
  | some e => rfl
  | none =>
    simp only
    have : (setCursor c u).scr = { u.scr with cursor := c } := rfl
    rw [this, commit_aim]
    rfl

/-- What a caller sees of a call: a return value or exception, a rendered string, or characters. -/
inductive Outcome where
  | count (r : Except PyErr Nat)
  | text (s : Str)
  | chars (l : List Str)
  | none

/-- What is seen of a call. -/
def Api.seen (env : Color.Env) (w : World) : Api → Outcome
  | .write spans cursor tb force => .count (Slate.write env spans cursor tb force w).2
  | .writeBulk data tb force => .count (Slate.writeBulk env data tb force w).2
  | .clear _ => .none
  | .resize _ _ _ _ => .none
  | .render origin redraw => .text (w.scr.render origin redraw).2
  | .getCharacters s => .chars (w.cache.get s).1

/-- A history in which the cursor is set now and then (`some c`) between calls: the state at the end
and everything that was seen. -/
def history (env : Color.Env) : List (Api ⊕ (Int × Int)) → World → World × List Outcome
  | [], w => (w, [])
  | .inl a :: rest, w =>
    let r := history env rest (a.run env w)
    (r.1, a.seen env w :: r.2)
  | .inr c :: rest, w => history env rest (setCursor c w)

/-- Only the calls. -/
def calls : List (Api ⊕ (Int × Int)) → List (Api ⊕ (Int × Int)) := List.filter Sum.isLeft

theorem Api.run_aim (env : Color.Env) (c : Int × Int) (w : World) (a : Api) :
    ∃ c', a.run env (setCursor c w) = setCursor c' (a.run env w) ∧ a.seen env (setCursor c w) = a.seen env w := by
  cases a with
  | write spans cursor tb force =>
    have h := writeBulk_aim env [(cursor, spans)] tb force c w
    refine ⟨c, ?_, ?_⟩
    · exact congrArg Prod.fst h
    · exact congrArg (fun r => Outcome.count r.2) h
  | writeBulk data tb force =>
    have h := writeBulk_aim env data tb force c w
    refine ⟨c, ?_, ?_⟩
    · exact congrArg Prod.fst h
    · exact congrArg (fun r => Outcome.count r.2) h
  | clear fill => exact ⟨(0, 0), rfl, rfl⟩
  | resize a b fill keep => exact ⟨c, rfl, rfl⟩
  | render origin redraw =>
    refine ⟨c, ?_, ?_⟩
    · cases redraw <;> rfl
    · cases redraw <;> rfl
  | getCharacters s => exact ⟨c, rfl, rfl⟩

/-- **C109**, the cursor: no call moves it, whether it succeeds or raises; `clear` puts it at (0, 0). -/
theorem C109_cursor_kept (env : Color.Env) (w : World) (a : Api) :
    cursor (a.run env w) = match a with
      | .clear _ => (0, 0)
      | _ => cursor w := by
  have aim : ∀ data tb force, cursor (Slate.writeBulk env data tb force w).1 = cursor w := by
    intro data tb force
    have h := congrArg (fun r => cursor r.1) (writeBulk_aim env data tb force w.scr.cursor w)
    exact h
  cases a with
  | write spans c tb force => exact aim _ _ _
  | writeBulk data tb force => exact aim _ _ _
  | clear fill => rfl
  | resize _ _ _ _ => rfl
  | render origin redraw => cases redraw <;> rfl
  | getCharacters s => rfl

/-- **C13 violated**, in the strongest form: the cursor is never used. In any history of calls,
setting the cursor (`terminal.cursor = …`) any number of times in between makes no difference to
anything a caller sees, nor to the cells, the pending changes, the size, the scroll offset or the
cache at the end. -/
theorem C13_unused_violated (env : Color.Env) (h : List (Api ⊕ (Int × Int))) (w : World) :
    (history env h w).2 = (history env (calls h) w).2 ∧
    ∃ c, (history env h w).1 = setCursor c (history env (calls h) w).1 := by
  suffices hh : ∀ (h : List (Api ⊕ (Int × Int))) (c : Int × Int) (w : World),
      (history env h (setCursor c w)).2 = (history env (calls h) w).2 ∧
      ∃ c', (history env h (setCursor c w)).1 = setCursor c' (history env (calls h) w).1 from
    hh h w.scr.cursor w
  intro h
  induction h with
  | nil => exact fun c w => ⟨rfl, c, rfl⟩
  | cons e rest ih =>
    intro c w
    cases e with
    | inl a =>
      obtain ⟨c', h1, h2⟩ := Api.run_aim env c w a
      obtain ⟨i1, i2⟩ := ih c' (a.run env w)
      refine ⟨?_, ?_⟩
      · show a.seen env (setCursor c w) :: (history env rest (a.run env (setCursor c w))).2 = _
        rw [h1, h2, i1]
        rfl
      · show ∃ c', (history env rest (a.run env (setCursor c w))).1 = _
        rw [h1]
        exact i2
    | inr d => exact ih d w

/-- The cursor is set to (1, 0) before a write without a cursor, which raises all the same, and
before a draw. -/
example :
    let s : Span := { text := ['a'] }
    let h : List (Api ⊕ (Int × Int)) :=
      [.inl (.write [s] (some (0, 0)) Color.black false), .inr (1, 0), .inl (.write [s] none Color.black false),
        .inr (2, 0), .inl (.render (1, 1) false)]
    let w : World := { scr := Screen.init 3 1 }
    (history {} h w).1.scr.cursor = (2, 0) ∧ (history {} (calls h) w).1.scr.cursor = (0, 0) ∧
    ∃ out, (history {} h w).2 = [.count (.ok 1), .count (.error .typeError), .text out] ∧ out ≠ [] := by
  refine ⟨by decide +kernel, by decide +kernel, _, rfl, by decide +kernel⟩

end Slate
