import Verif.Model.Session
import Verif.Props.Input
import Verif.Props.Terminal
import Verif.Props.Draw

/-!
# C92: constructing a terminal, and what its methods send and read
-/

namespace Slate
open Py Term Core

namespace Session

/-! ### The queries -/

/-- A query shows nothing. -/
theorem run_query (layer : Layer) (T : Term.State) (hT : T.mode = .ground) : run T (query layer) = T := by
  obtain ⟨mode, row, col, pen, grid, log⟩ := T
  cases hT
  cases layer <;> rfl

theorem askQuietly_tty (layer : Layer) (s : State) (ht : s.tty = true) :
    askQuietly layer s = match s.inputs with
      | [] => none
      | inp :: rest => some ({ s with
          inputs := rest
          out := s.out ++ query layer
          echo := true }, getDefaultColor true layer inp) := by
  obtain ⟨w, b, f, tty, echo, inputs, out⟩ := s
  cases ht
  cases inputs <;> rfl

theorem askQuietly_no_tty (layer : Layer) (s : State) (ht : s.tty = false) :
    askQuietly layer s = some (s, defaultDefault layer) := by
  obtain ⟨w, b, f, tty, echo, inputs, out⟩ := s
  cases ht
  rfl

theorem background_cached (s : State) (c : Color) (h : s.background = some c) : background s = some (s, .ok c) := by
  unfold background; rw [h]

theorem construct_tty (width height : Nat) (cache : CharCache) (echo : Bool) (i₁ i₂ : Input) (rest : List Input) :
    ∃ b f, getDefaultColor true .back i₁ = .ok b ∧ getDefaultColor true .fore i₂ = .ok f ∧
      construct width height cache true echo (i₁ :: i₂ :: rest) = some
        ({ w := { scr := Screen.init width height, cache := cache }
           background := some b
           foreground := some f
           tty := true
           echo := true
           inputs := rest
           out := query .back ++ query .fore }, .ok ()) := by
  obtain ⟨b, hb, -⟩ := C58_always_valid true .back i₁
  obtain ⟨f, hf, -⟩ := C58_always_valid true .fore i₂
  refine ⟨b, f, hb, hf, ?_⟩
  unfold construct background
  rw [askQuietly_tty _ _ rfl]
  simp only [hb]
  unfold foreground
  rw [askQuietly_tty _ _ rfl]
  simp only [hf]
  rfl

theorem construct_no_tty (width height : Nat) (cache : CharCache) (echo : Bool) (inputs : List Input) :
    ∃ b f, defaultDefault .back = .ok b ∧ defaultDefault .fore = .ok f ∧
      construct width height cache false echo inputs = some
        ({ w := { scr := Screen.init width height, cache := cache }
           background := some b
           foreground := some f
           tty := false
           echo := echo
           inputs := inputs
           out := [] }, .ok ()) := by
  refine ⟨_, _, default_defaults.2, default_defaults.1, ?_⟩
  unfold construct background
  rw [askQuietly_no_tty _ _ rfl]
  simp only [default_defaults.2]
  unfold foreground
  rw [askQuietly_no_tty _ _ rfl]
  simp only [default_defaults.1]

end Session

open Session

/-! ### The constructor -/

theorem answers_queries (fore back : Nat × Nat × Nat) : paletteAnswers fore back (query .back ++ query .fore) =
    [paletteReply ['1', '1'] back.1 back.2.1 back.2.2, paletteReply ['1', '0'] fore.1 fore.2.1 fore.2.2] := rfl

/-- **C92**, the constructor, partial: on a tty whose answers to what the constructor sends are the first input that arrives,
the two properties are the colours of the terminal, whatever input follows is still to be read, and the display is as before.
What is missing: the echo setting is not kept (`C92_echo_violated`), and input that was typed before is taken for the
reply (`C92_typed_violated`). -/
theorem C92_construct_partial (width height : Nat) (cache : CharCache) (echo : Bool) (rest : List Input)
    (br bg bb fr fg fb : Nat) (h1 : br < 65536) (h2 : bg < 65536) (h3 : bb < 65536) (h4 : fr < 65536) (h5 : fg < 65536)
    (h6 : fb < 65536) :
    ∃ s b f replies, construct width height cache true echo (replies.map .text ++ rest) = some (s, .ok ()) ∧
      paletteAnswers (fr, fg, fb) (br, bg, bb) s.out = replies ∧
      s.background = some b ∧ (b.r, b.g, b.b) = (br / 256, bg / 256, bb / 256) ∧
      s.foreground = some f ∧ (f.r, f.g, f.b) = (fr / 256, fg / 256, fb / 256) ∧
      s.inputs = rest ∧ s.w.scr = Screen.init width height ∧
      ∀ T : Term.State, T.mode = .ground → run T s.out = T := by
  obtain ⟨b, f, hb, hf, he⟩ := construct_tty width height cache echo (.text (paletteReply ['1', '1'] br bg bb))
    (.text (paletteReply ['1', '0'] fr fg fb)) rest
  obtain ⟨b', hb', b1, b2, b3, -⟩ := C58_reply .back .back br bg bb h1 h2 h3
  obtain ⟨f', hf', f1, f2, f3, -⟩ := C58_reply .fore .fore fr fg fb h4 h5 h6
  have eb : b' = b := by
    have := hb'.symm.trans hb
    injection this
  have ef : f' = f := by
    have := hf'.symm.trans hf
    injection this
  subst eb ef
  refine ⟨_, _, _, [_, _], he, answers_queries _ _, rfl, by rw [b1, b2, b3], rfl, by rw [f1, f2, f3], rfl, rfl, ?_⟩
  intro T hT
  rw [run_append, run_query _ _ hT, run_query _ _ hT]

/-- The replies in `C92_construct_partial` are the only ones: input that begins with the answers to what the constructor has
sent begins with the background and then the foreground colour. -/
theorem C92_answers (width height : Nat) (cache : CharCache) (echo : Bool) (rest : List Input) (fore back : Nat × Nat × Nat)
    (replies : List Str) (s : Session.State) (r : Except PyErr Unit)
    (h : construct width height cache true echo (replies.map .text ++ rest) = some (s, r))
    (hr : paletteAnswers fore back s.out = replies) :
    replies = [paletteReply ['1', '1'] back.1 back.2.1 back.2.2, paletteReply ['1', '0'] fore.1 fore.2.1 fore.2.2] ∧
      s.inputs = rest := by
  have hout : ∀ i₁ i₂ l, replies.map Input.text ++ rest = i₁ :: i₂ :: l →
      s.out = query .back ++ query .fore ∧ s.inputs = l := by
    intro i₁ i₂ l e
    obtain ⟨b, f, -, -, he⟩ := construct_tty width height cache echo i₁ i₂ l
    rw [e, he] at h
    injection h with h
    injection h with h _
    subst h
    exact ⟨rfl, rfl⟩
  have hlen : ∃ i₁ i₂ l, replies.map Input.text ++ rest = i₁ :: i₂ :: l := by
    cases e : replies.map Input.text ++ rest with
    | nil =>
      rw [e] at h
      simp [construct, background, askQuietly_tty] at h
    | cons i t =>
      cases t with
      | cons j l => exact ⟨i, j, l, rfl⟩
      | nil =>
        rw [e] at h
        obtain ⟨b, hb, -⟩ := C58_always_valid true .back i
        unfold construct background at h
        rw [askQuietly_tty _ _ rfl] at h
        simp only [hb] at h
        unfold foreground at h
        rw [askQuietly_tty _ _ rfl] at h
        simp at h
  obtain ⟨i₁, i₂, l, e⟩ := hlen
  obtain ⟨ho, hi⟩ := hout i₁ i₂ l e
  rw [ho, answers_queries] at hr
  refine ⟨hr.symm, ?_⟩
  rw [hi]
  rw [← hr] at e
  simp only [List.map_cons, List.map_nil, List.cons_append, List.nil_append, List.cons.injEq] at e
  exact e.2.2.symm

/-- A dark background and light text; then the user types. -/
example : ∃ s b f, construct 80 24 [] true true
    (.text "\x1b]11;rgb:1e1e/1e1e/2020\x1b\\".toList :: .text "\x1b]10;rgb:d0d0/d0d0/ffff\x1b\\".toList ::
      [.text ['a']]) = some (s, .ok ()) ∧
    s.background = some b ∧ (b.r, b.g, b.b) = (30, 30, 32) ∧ s.foreground = some f ∧ (f.r, f.g, f.b) = (208, 208, 255) ∧
    s.inputs = [.text ['a']] := by
  obtain ⟨s, b, f, replies, h, hr, hb, hbv, hf, hfv, hi, -⟩ := C92_construct_partial 80 24 [] true [.text ['a']] 0x1e1e 0x1e1e
    0x2020 0xd0d0 0xd0d0 0xffff (by decide) (by decide) (by decide) (by decide) (by decide) (by decide)
  obtain ⟨rfl, -⟩ := C92_answers 80 24 [] true [.text ['a']] (0xd0d0, 0xd0d0, 0xffff) (0x1e1e, 0x1e1e, 0x2020) replies s _ h hr
  exact ⟨s, b, f, h, hb, hbv, hf, hfv, hi⟩

/-- Without a tty the constructor sends nothing, reads nothing and leaves the echo setting alone. -/
theorem C92_no_tty (width height : Nat) (cache : CharCache) (echo : Bool) (inputs : List Input) :
    ∃ s, construct width height cache false echo inputs = some (s, .ok ()) ∧ s.out = [] ∧ s.inputs = inputs ∧
      s.echo = echo ∧ s.background.isSome ∧ s.foreground.isSome := by
  obtain ⟨b, f, -, -, h⟩ := construct_no_tty width height cache echo inputs
  exact ⟨_, h, rfl, rfl, rfl, rfl, rfl⟩

/-- The constructor never raises, and it fails to return exactly on a tty that gives fewer than two inputs. -/
theorem C92_returns (width height : Nat) (cache : CharCache) (tty echo : Bool) (inputs : List Input) :
    (construct width height cache tty echo inputs = none ↔ tty = true ∧ inputs.length < 2) ∧
    ∀ s e, construct width height cache tty echo inputs = some (s, .error e) → False := by
  cases tty with
  | false =>
    obtain ⟨b, f, -, -, h⟩ := construct_no_tty width height cache echo inputs
    rw [h]
    simp
  | true =>
    match inputs with
    | i₁ :: i₂ :: rest =>
      obtain ⟨b, f, -, -, h⟩ := construct_tty width height cache echo i₁ i₂ rest
      rw [h]
      simp
    | [] => exact ⟨by simp [construct, background, askQuietly_tty], by simp [construct, background, askQuietly_tty]⟩
    | [i] =>
      have : construct width height cache true echo [i] = none := by
        obtain ⟨b, hb, -⟩ := C58_always_valid true .back i
        unfold construct background
        rw [askQuietly_tty _ _ rfl]
        simp only [hb]
        unfold foreground
        rw [askQuietly_tty _ _ rfl]
      rw [this]
      simp

/-- C92 is violated: on a tty the constructor turns the echo on, also if it was off. -/
theorem C92_echo_violated (width height : Nat) (cache : CharCache) (echo : Bool) (i₁ i₂ : Input) (rest : List Input) :
    ∃ s, construct width height cache true echo (i₁ :: i₂ :: rest) = some (s, .ok ()) ∧ s.echo = true := by
  obtain ⟨b, f, -, -, h⟩ := construct_tty width height cache echo i₁ i₂ rest
  exact ⟨_, h, rfl⟩

/-- C92 is violated: if a key was typed before the replies, it is lost, the background is not found out, the foreground
colour is the **background** colour of the terminal, and the reply about the foreground is left for the application to read as
a key. -/
theorem C92_typed_violated (width height : Nat) (cache : CharCache) (echo : Bool) (rest : List Input) (key : Char)
    (hkey : key ≠ '\x1b') (br bg bb fr fg fb : Nat) (h1 : br < 65536) (h2 : bg < 65536) (h3 : bb < 65536) :
    ∃ s b f, construct width height cache true echo
        (.text [key] :: .text (paletteReply ['1', '1'] br bg bb) :: .text (paletteReply ['1', '0'] fr fg fb) :: rest) =
          some (s, .ok ()) ∧
      s.background = some b ∧ defaultDefault .back = .ok b ∧
      s.foreground = some f ∧ (f.r, f.g, f.b) = (br / 256, bg / 256, bb / 256) ∧
      s.inputs = .text (paletteReply ['1', '0'] fr fg fb) :: rest := by
  obtain ⟨b, f, hb, hf, he⟩ := construct_tty width height cache echo (.text [key])
    (.text (paletteReply ['1', '1'] br bg bb)) (.text (paletteReply ['1', '0'] fr fg fb) :: rest)
  obtain ⟨f', hf', f1, f2, f3, -⟩ := C58_reply .fore .back br bg bb h1 h2 h3
  have ef : f' = f := by
    have := hf'.symm.trans hf
    injection this
  subst ef
  have hk : getDefaultColor true .back (.text [key]) = defaultDefault .back :=
    (C58_other .back [key] (by
      intro l r g b rest _ _ _ h
      simp only [paletteReply, List.cons_append, List.nil_append, List.append_assoc, List.cons.injEq] at h
      exact hkey h.1)).1
  exact ⟨_, _, _, he, rfl, hk.symm.trans hb, rfl, by rw [f1, f2, f3], rfl⟩

/-- A blue terminal: after a typed key, the library takes blue for the colour of the text. -/
example : ∃ s f, construct 80 24 [] true true [.text ['a'], .text "\x1b]11;rgb:0000/0000/ffff\x1b\\".toList,
      .text "\x1b]10;rgb:ffff/ffff/ffff\x1b\\".toList] = some (s, .ok ()) ∧
    s.foreground = some f ∧ (f.r, f.g, f.b) = (0, 0, 255) := by
  obtain ⟨s, b, f, h, -, -, hf, hfv, -⟩ := C92_typed_violated 80 24 [] true [] 'a' (by decide) 0 0 0xffff 0xffff 0xffff 0xffff
    (by decide) (by decide) (by decide)
  exact ⟨s, f, h, hf, hfv⟩

/-! ### The calls afterwards -/

/-- What a call sends: only `draw` sends anything. -/
def Session.Call.silent : Call → Prop
  | .draw => False
  | _ => True

/-- The parts of the state that no call changes. -/
def Session.Kept (s s' : Session.State) : Prop :=
  s'.background = s.background ∧ s'.foreground = s.foreground ∧ s'.tty = s.tty ∧ s'.echo = s.echo ∧ s'.inputs = s.inputs

theorem Session.call_effect (env : Color.Env) (op : Call) (s : Session.State) (c : Color) (h : s.background = some c) :
    ∃ s' r, call env op s = some (s', r) ∧ Kept s s' ∧ (op.silent → s'.out = s.out) := by
  have hw : ∀ f, ∃ s' r, onScreen f s = some (s', r) ∧ Kept s s' ∧ s'.out = s.out := by
    intro f
    unfold onScreen
    rw [background_cached s c h]
    exact ⟨_, _, rfl, ⟨rfl, rfl, rfl, rfl, rfl⟩, rfl⟩
  cases op with
  | write d cursor => obtain ⟨s', r, h1, h2, h3⟩ := hw (Terminal.write env d cursor); exact ⟨s', r, h1, h2, fun _ => h3⟩
  | writeBulk data => obtain ⟨s', r, h1, h2, h3⟩ := hw (Terminal.writeBulk env data); exact ⟨s', r, h1, h2, fun _ => h3⟩
  | clear fill => exact ⟨_, _, rfl, ⟨rfl, rfl, rfl, rfl, rfl⟩, fun _ => rfl⟩
  | draw => exact ⟨_, _, rfl, ⟨rfl, rfl, rfl, rfl, rfl⟩, fun h => h.elim⟩

/-- **C92**, afterwards: once the terminal is constructed, every sequence of calls returns; no call reads input, changes the
echo setting or the colours; and only `draw` sends anything. -/
theorem C92_calls (env : Color.Env) (ops : List Call) (width height : Nat) (cache : CharCache) (tty echo : Bool)
    (inputs : List Input) (s : Session.State) (h : construct width height cache tty echo inputs = some (s, .ok ())) :
    ∃ s', calls env ops s = some s' ∧ Kept s s' ∧ ((∀ op ∈ ops, op.silent) → s'.out = s.out) := by
  have hb : ∃ c, s.background = some c := by
    cases tty with
    | false =>
      obtain ⟨b, f, -, -, he⟩ := construct_no_tty width height cache echo inputs
      rw [he] at h
      injection h with h
      injection h with h _
      exact ⟨b, by rw [← h]⟩
    | true =>
      match inputs with
      | i₁ :: i₂ :: rest =>
        obtain ⟨b, f, -, -, he⟩ := construct_tty width height cache echo i₁ i₂ rest
        rw [he] at h
        injection h with h
        injection h with h _
        exact ⟨b, by rw [← h]⟩
      | [] =>
        have := (C92_returns width height cache true echo []).1.mpr ⟨rfl, by simp⟩
        rw [this] at h; cases h
      | [i] =>
        have := (C92_returns width height cache true echo [i]).1.mpr ⟨rfl, by simp⟩
        rw [this] at h; cases h
  obtain ⟨c, hc⟩ := hb
  clear h
  induction ops generalizing s with
  | nil => exact ⟨s, rfl, ⟨rfl, rfl, rfl, rfl, rfl⟩, fun _ => rfl⟩
  | cons op ops ih =>
    obtain ⟨s₁, r, h1, ⟨k1, k2, k3, k4, k5⟩, h2⟩ := call_effect env op s c hc
    obtain ⟨s', h3, ⟨l1, l2, l3, l4, l5⟩, h4⟩ := ih s₁ (k1.trans hc)
    refine ⟨s', ?_, ⟨l1.trans k1, l2.trans k2, l3.trans k3, l4.trans k4, l5.trans k5⟩, ?_⟩
    · simp only [calls, h1]
      exact h3
    · intro hs
      rw [h4 (fun op hop => hs op (by simp [hop])), h2 (hs op (by simp))]

/-! ### The display -/

namespace Session

/-- The spans that a piece of data consists of, as far as they exist. -/
def dataSpans : Terminal.Data → List Span
  | .spans l => l
  | .span s => s.items
  | .gen (l, _) => l
  | .str s => (yieldFrom s).1

/-- The entries that a list of data comes down to; an entry that raises is replaced by one without a position, which raises as
well. -/
def entriesOf : List (Option (Int × Int) × Terminal.Data) → List Entry
  | [] => []
  | (none, _) :: _ => [(none, [])]
  | (some pos, d) :: rest =>
    match d with
    | .spans l => (some pos, l) :: entriesOf rest
    | .span s => (some pos, s.items) :: entriesOf rest
    | .gen (l, none) => (some pos, l) :: entriesOf rest
    | .gen (_, some _) => [(none, [])]
    | .str [] => (some pos, []) :: entriesOf rest
    | .str (_ :: _) => [(none, [])]

theorem putItems_entries (data : List (Option (Int × Int) × Terminal.Data)) (m : Mats) (w : World) :
    (Terminal.putItems data m w).1 = (putData (entriesOf data) m w).1 ∧
    (Terminal.putItems data m w).2.1 = (putData (entriesOf data) m w).2.1 ∧
    ((Terminal.putItems data m w).2.2 = none ↔ (putData (entriesOf data) m w).2.2 = none) := by
  induction data generalizing m w with
  | nil => exact ⟨rfl, rfl, Iff.rfl⟩
  | cons e data ih =>
    obtain ⟨pos, d⟩ := e
    cases pos with
    | none => exact ⟨rfl, rfl, by simp [Terminal.putItems, entriesOf, putData]⟩
    | some pos =>
      obtain ⟨x, y⟩ := pos
      have key : ∀ l : List Span,
          let r := (match putData [(some (x, y), l)] m w with
            | (m, w, some e) => (m, w, some e)
            | (m, w, none) => Terminal.putItems data m w)
          r.1 = (putData ((some (x, y), l) :: entriesOf data) m w).1 ∧
          r.2.1 = (putData ((some (x, y), l) :: entriesOf data) m w).2.1 ∧
          (r.2.2 = none ↔ (putData ((some (x, y), l) :: entriesOf data) m w).2.2 = none) := by
        intro l
        simp only [putData]
        rcases putSpans l 0 { x := x, y := y, last := (l.length : Int) - 1 } m w with ⟨c, m', w', e⟩
        cases e with
        | some e => exact ⟨rfl, rfl, Iff.rfl⟩
        | none => exact ih m' w'
      have bad : ∀ err : PyErr, ((m, w, some err) : Mats × World × Option PyErr).1 = (putData [(none, [])] m w).1 ∧
          ((m, w, some err) : Mats × World × Option PyErr).2.1 = (putData [(none, [])] m w).2.1 ∧
          (((m, w, some err) : Mats × World × Option PyErr).2.2 = none ↔ (putData [(none, [])] m w).2.2 = none) := by
        intro err
        exact ⟨rfl, rfl, by simp [putData]⟩
      match d with
      | .spans l => exact key l
      | .span s => exact key s.items
      | .gen (l, none) => exact key l
      | .gen (l, some err) => exact bad err
      | .str [] => exact key []
      | .str (c :: s) => exact bad .attributeError

theorem screenWriteBulk_entries (env : Color.Env) (data : List (Option (Int × Int) × Terminal.Data)) (tb : Color)
    (w : World) : (Terminal.screenWriteBulk env data tb w).1 = (Slate.writeBulk env (entriesOf data) tb false w).1 := by
  have h := putItems_entries data Mats.blank w
  unfold Terminal.screenWriteBulk Slate.writeBulk
  revert h
  rcases Terminal.putItems data Mats.blank w with ⟨m, w', e⟩
  rcases putData (entriesOf data) Mats.blank w with ⟨m', w'', e'⟩
  rintro ⟨rfl, rfl, h⟩
  cases e with
  | none =>
    have := h.mp rfl
    simp only at this
    subst this
    rfl
  | some e =>
    cases e' with
    | none => exact absurd (h.mpr rfl) (by simp)
    | some e' => rfl

theorem entriesOf_spans {P : Span → Prop} {data : List (Option (Int × Int) × Terminal.Data)}
    (h : ∀ e ∈ data, ∀ s ∈ dataSpans e.2, P s) : ∀ e ∈ entriesOf data, ∀ s ∈ e.2, P s := by
  induction data with
  | nil => simp [entriesOf]
  | cons e data ih =>
    obtain ⟨pos, d⟩ := e
    have ih' := ih (fun e he => h e (by simp [he]))
    have h0 := h (pos, d) (by simp)
    cases pos with
    | none => simp [entriesOf]
    | some pos =>
      match d with
      | .spans l =>
        intro e he
        simp only [entriesOf, List.mem_cons] at he
        rcases he with rfl | he
        · exact h0
        · exact ih' e he
      | .span t =>
        intro e he
        simp only [entriesOf, List.mem_cons] at he
        rcases he with rfl | he
        · exact h0
        · exact ih' e he
      | .gen (l, none) =>
        intro e he
        simp only [entriesOf, List.mem_cons] at he
        rcases he with rfl | he
        · exact h0
        · exact ih' e he
      | .gen (l, some err) => simp [entriesOf]
      | .str [] =>
        intro e he
        simp only [entriesOf, List.mem_cons] at he
        rcases he with rfl | he
        · simp
        · exact ih' e he
      | .str (c :: s) => simp [entriesOf]

/-- Everything a call writes can be displayed. -/
def CallOk (P : Span → Prop) : Call → Prop
  | .write d _ => ∀ s ∈ dataSpans d, P s
  | .writeBulk data => ∀ e ∈ data, ∀ s ∈ dataSpans e.2, P s
  | .clear fill => Printable fill
  | .draw => True

/-- A call is an operation on the screen and the display. -/
theorem call_exec (env : Color.Env) (P : Span → Prop) (op : Call) (hop : CallOk P op) (s : State) (c : Color)
    (hc : s.background = some c) (T : Term.State) :
    ∃ (op' : Op) (s' : State) (r : Except PyErr Nat), call env op s = some (s', r) ∧ OpOk P op' ∧
      s'.background = some c ∧
      (Slate.exec env (1, 1) { w := s.w, term := run T s.out } op') = { w := s'.w, term := run T s'.out } := by
  cases op with
  | clear fill => exact ⟨.clear fill, _, _, rfl, hop, hc, rfl⟩
  | draw => exact ⟨.draw, _, _, rfl, hop, hc, by simp only [Slate.exec, run_append]⟩
  | writeBulk data =>
    have hcall : call env (.writeBulk data) s = some ({ s with w := (Terminal.writeBulk env data (c.asBackground true none) s.w).1 },
        (Terminal.writeBulk env data (c.asBackground true none) s.w).2) := by
      simp only [call, onScreen, background_cached s c hc]
    refine ⟨.writeBulk (entriesOf (data.map fun e => (some e.1, e.2))) (c.asBackground true none) false, _, _, hcall, ?_, ?_, ?_⟩
    · apply entriesOf_spans
      intro e he
      obtain ⟨e', he', rfl⟩ := List.mem_map.mp he
      exact hop e' he'
    · exact hc
    · simp only [Slate.exec, Terminal.writeBulk, screenWriteBulk_entries]
  | write d cursor =>
    let d' : Terminal.Data := match d with
      | .str s => .gen (yieldFrom s)
      | d => d
    have hcall : call env (.write d cursor) s = some ({ s with w := (Terminal.write env d cursor (c.asBackground true none) s.w).1 },
        (Terminal.write env d cursor (c.asBackground true none) s.w).2) := by
      simp only [call, onScreen, background_cached s c hc]
    refine ⟨.writeBulk (entriesOf [(cursor, d')]) (c.asBackground true none) false, _, _, hcall, ?_, ?_, ?_⟩
    · apply entriesOf_spans
      intro e he
      simp only [List.mem_singleton] at he
      subst he
      cases d <;> exact hop
    · exact hc
    · have e : Terminal.write env d cursor (c.asBackground true none) s.w =
          Terminal.screenWriteBulk env [(cursor, d')] (c.asBackground true none) s.w := by
        cases d <;> rfl
      simp only [Slate.exec, e, screenWriteBulk_entries]

theorem calls_exec (env : Color.Env) (P : Span → Prop) (ops : List Call) (hops : ∀ op ∈ ops, CallOk P op) (s : State)
    (c : Color) (hc : s.background = some c) (T : Term.State) :
    ∃ (ops' : List Op) (s' : State), calls env ops s = some s' ∧ (∀ op ∈ ops', OpOk P op) ∧
      Slate.execAll env (1, 1) { w := s.w, term := run T s.out } ops' = { w := s'.w, term := run T s'.out } := by
  induction ops generalizing s with
  | nil => exact ⟨[], s, rfl, by simp, rfl⟩
  | cons op ops ih =>
    obtain ⟨op', s₁, r, h1, h2, h3, h4⟩ := call_exec env P op (hops op (by simp)) s c hc T
    obtain ⟨ops', s', g1, g2, g3⟩ := ih (fun op hop => hops op (by simp [hop])) s₁ h3
    refine ⟨op' :: ops', s', ?_, ?_, ?_⟩
    · simp only [calls, h1]; exact g1
    · intro o ho
      rcases List.mem_cons.mp ho with rfl | ho
      · exact h2
      · exact g2 o ho
    · show Slate.execAll env (1, 1) (Slate.exec env (1, 1) _ op') ops' = _
      rw [h4]; exact g3

theorem calls_append (env : Color.Env) (a b : List Call) (s : State) :
    calls env (a ++ b) s = (calls env a s).bind (calls env b) := by
  induction a generalizing s with
  | nil => rfl
  | cons op a ih =>
    simp only [List.cons_append, calls]
    cases call env op s with
    | none => rfl
    | some r => exact ih r.1

end Session

/-- **C92**, the display: from the constructor on, over every sequence of calls of `write`, `write_bulk`, `clear` and `draw`, with spans,
generators and strings, also if calls raise, everything the library has sent (queries and drawings) makes the terminal show,
after a final `draw`, exactly the cells of the screen, as long as the screen has not scrolled. -/
theorem C92_display (env : Color.Env) (den : Color → TColor) (hden : DenOk env den) (width height : Nat)
    (cache : CharCache) (hcache : CacheOk cache) (tty echo : Bool) (inputs : List Input) (s : Session.State)
    (hs : construct width height cache tty echo inputs = some (s, .ok ()))
    (ops : List Call) (hops : ∀ op ∈ ops, CallOk (SpanOk env den) op)
    (T : Term.State) (hT : T.mode = .ground) (hpen : T.pen = Attr.clean) :
    ∃ s', calls env (ops ++ [.draw]) s = some s' ∧
      (s'.w.scr.offset = 0 → ∀ x y, x < width → y < height → ∃ cell, cellAt s'.w.scr.cells x y = some cell ∧
        (run T s'.out).grid (y + 1) (x + 1) = cellGlyph den cell) := by
  have hstart : ∃ c, s.background = some c ∧ s.w = { scr := Screen.init width height, cache := cache } ∧ run T s.out = T := by
    cases tty with
    | false =>
      obtain ⟨b, f, -, -, he⟩ := construct_no_tty width height cache echo inputs
      rw [he] at hs
      injection hs with hs
      injection hs with hs _
      subst hs
      exact ⟨b, rfl, rfl, rfl⟩
    | true =>
      match inputs with
      | i₁ :: i₂ :: rest =>
        obtain ⟨b, f, -, -, he⟩ := construct_tty width height cache echo i₁ i₂ rest
        rw [he] at hs
        injection hs with hs
        injection hs with hs _
        subst hs
        exact ⟨b, rfl, rfl, by simp only [run_append, run_query _ _ hT]⟩
      | [] =>
        have := (C92_returns width height cache true echo []).1.mpr ⟨rfl, by simp⟩
        rw [this] at hs; cases hs
      | [i] =>
        have := (C92_returns width height cache true echo [i]).1.mpr ⟨rfl, by simp⟩
        rw [this] at hs; cases hs
  obtain ⟨c, hc, hw, hout⟩ := hstart
  obtain ⟨ops', s₁, h1, h2, h3⟩ := calls_exec env (SpanOk env den) ops hops s c hc T
  refine ⟨_, by rw [calls_append, h1]; rfl, ?_⟩
  intro ho x y hx hy
  have := C01_draw_shows_screen env den hden 1 1 (Nat.le_refl 1) (Nat.le_refl 1) width height (0, 0) ' ' (by decide) cache hcache T hT hpen
    ops' h2
  rw [hw, hout] at h3
  have e : Slate.execAll env (1, 1) { w := { scr := Screen.init width height, cache := cache }, term := T } (ops' ++ [.draw]) =
      Slate.exec env (1, 1) { w := s₁.w, term := run T s₁.out } .draw := by
    rw [← h3]
    simp [Slate.execAll]
  have h4 := this (by
    show (Slate.execAll env (1, 1) { w := { scr := Screen.init width height, cache := cache }, term := T } (ops' ++ [.draw])).w.scr.offset = 0
    rw [e]; exact ho) x y hx hy
  obtain ⟨cell, h5, h6⟩ := h4
  refine ⟨cell, ?_, ?_⟩
  · have h5' : cellAt (Slate.execAll env (1, 1) { w := { scr := Screen.init width height, cache := cache }, term := T }
        (ops' ++ [.draw])).w.scr.cells x y = some cell := h5
    rw [e] at h5'
    exact h5'
  · have h6' : (Slate.execAll env (1, 1) { w := { scr := Screen.init width height, cache := cache }, term := T }
        (ops' ++ [.draw])).term.grid (y + 1) (x + 1) = cellGlyph den cell := h6
    rw [e] at h6'
    simpa only [run_append, Slate.exec] using h6'

namespace C92ex
/-- A string with a style, a generator that raises, a bulk write that raises, a draw, a text in red. -/
def ops : List Call :=
  [.write (.str "\x1b[1mab".toList) (some (1, 0)), .write (.gen ([{ text := ['q'] }], some .valueError)) (some (0, 0)),
    .writeBulk [((0, 0), .spans [{ text := ['z'] }]), ((0, 1), .str ['y'])], .draw,
    .write (.spans [{ text := "red".toList, fg := some { r := 200, g := 0, b := 0 } }]) (some (1, 1))]

/-- The calls return, the two writes raise, and the screen does not scroll. -/
example : ((construct 4 2 [] true true [.text ['a'], .text ['b']]).bind fun r =>
      calls { space := .trueColor, grey := fun _ => 0 } (ops ++ [.draw]) r.1).map
        (fun s => (s.w.scr.offset, s.w.scr.cells.map fun r => r.map fun c => String.ofList c.char, s.inputs.length)) =
    some (0, [[" ", "\x1b[1ma", "\x1b[1mb\x1b[0m", " "], [" ", "r", "e", "d"]], 0) := by decide +kernel

/-- The hypothesis on the calls holds. -/
example : ∀ op ∈ ops, CallOk (SpanOk { space := .trueColor, grey := fun _ => 0 } (denOf { space := .trueColor, grey := fun _ => 0 })) op := by
  have key : ∀ s : Span, ((∀ c ∈ s.text, Printable c) ∧ s.bg = none ∧ ∀ c, s.fg = some c → c.ctor = none) →
      SpanOk { space := .trueColor, grey := fun _ => 0 } (denOf { space := .trueColor, grey := fun _ => 0 }) s := fun s hs =>
    ⟨fun c hc => .inl (hs.1 c hc), fun c hc => sendable_of_hex _ c (.inl (hs.2.2 c hc)), fun c hc => by simp [hs.2.1] at hc⟩
  have e1 : dataSpans (.str "\x1b[1mab".toList) = [{ text := ['a', 'b'], style := { bold := true } }] := by decide +kernel
  have e2 : dataSpans (.str ['y']) = [{ text := ['y'] }] := by decide +kernel
  have one : ∀ (d : Terminal.Data) (sp : Span), dataSpans d = [sp] →
      ((∀ c ∈ sp.text, Printable c) ∧ sp.bg = none ∧ ∀ c, sp.fg = some c → c.ctor = none) → ∀ s ∈ dataSpans d,
      SpanOk { space := .trueColor, grey := fun _ => 0 } (denOf { space := .trueColor, grey := fun _ => 0 }) s := by
    intro d sp h hs s hm
    rw [h, List.mem_singleton] at hm
    subst hm
    exact key s hs
  intro op hop
  simp only [ops, List.mem_cons, List.not_mem_nil, or_false] at hop
  rcases hop with rfl | rfl | rfl | rfl | rfl
  · exact one _ _ e1 ⟨by decide, rfl, by simp⟩
  · exact one _ _ rfl ⟨by decide, rfl, by simp⟩
  · intro e he
    simp only [List.mem_cons, List.not_mem_nil, or_false] at he
    rcases he with rfl | rfl
    · exact one _ _ rfl ⟨by decide, rfl, by simp⟩
    · exact one _ _ e2 ⟨by decide, rfl, by simp⟩
  · trivial
  · refine one _ _ rfl ⟨by decide, rfl, ?_⟩
    intro c hc
    injection hc with hc
    rw [← hc]
end C92ex

end Slate
