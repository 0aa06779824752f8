import Verif.Lemmas.Everywhere
import Verif.Props.Blend

/-!
# C97, C98: the roles of stored colours, and between which colours they lie
-/

namespace Slate
open Py Term

/-! ## C97 Foregrounds colour the text and backgrounds what is behind it -/

/-- A colour that paints text. -/
def Color.Text (c : Color) : Prop := c.isBg = false ∧ c.alpha = 1

/-- A colour that paints the background. -/
def Color.Behind (c : Color) : Prop := c.isBg = true

theorem closed_roles (env : Color.Env) : Closed env (fun _ => True) Color.Text Color.Behind Color.Behind where
  nil := trivial
  strip _ _ := trivial
  feed _ _ := trivial
  change _ _ _ _ _ := trivial
  white := ⟨rfl, rfl⟩
  sub _ _ ha hn _ _ := absurd ha.2 hn
  mixF _ _ _ ha _ _ := ⟨ha.1, rfl⟩
  mixB _ _ _ ha _ _ := ha
  mixG _ _ _ ha _ _ := ha

/-- The colours of a span are in their roles. -/
structure Span.InRole (s : Span) : Prop where
  fg : ∀ c, s.fg = some c → c.Text
  bg : ∀ c, s.bg = some c → c.Behind

theorem Span.InRole.spanIn {s : Span} (h : s.InRole) : SpanIn (fun _ => True) Color.Text Color.Behind s :=
  ⟨fun _ _ => trivial, h.fg, h.bg⟩

theorem Api.Uses.imp {P P' : Span → Prop} {Q Q' : Color → Prop} (hP : ∀ s, P s → P' s) (hQ : ∀ c, Q c → Q' c) {op : Api}
    (h : op.Uses P Q) : op.Uses P' Q' := by
  cases op with
  | write spans _ tb _ => exact ⟨fun s hs => hP s (h.1 s hs), hQ tb h.2⟩
  | writeBulk data tb _ => exact ⟨fun e he s hs => hP s (h.1 e he s hs), hQ tb h.2⟩
  | clear _ => trivial
  | resize _ _ _ _ => trivial
  | render _ _ => trivial
  | getCharacters _ => trivial

theorem Api.fills_true (op : Api) : op.Fills fun _ => True := by cases op <;> trivial

theorem CacheIn.trivial_text {F B : Color → Prop} (cache : CharCache) : CacheIn (fun _ => True) F B cache :=
  fun _ _ _ _ _ => trivial

/-- **C97**, partial: in every state reached by any history of calls (scrolling and raising ones included), with spans whose opaque
foregrounds have the foreground role, whose backgrounds, translucent or not, have the background role and with a terminal
background in that role: every stored foreground colours the text and every stored background what is behind it, so the rendition
of a cell has exactly the stored foreground as the colour of the text and the stored background behind it.
What is missing: translucent foregrounds (`C97_translucent_violated`), and the default terminal background of `Screen.write`
(`C97_default_violated`). -/
theorem C97_roles_partial (env : Color.Env) (den : Color → TColor) (width height : Nat) (cur : Int × Int) (fill : Str)
    (cache : CharCache) (ops : List Api) (h : ∀ op ∈ ops, op.Uses Span.InRole Color.Behind) :
    ∀ row ∈ (Api.runAll env { scr := Screen.init width height cur fill, cache := cache } ops).scr.cells, ∀ cell ∈ row,
      (∀ c, cell.fg = some c → c.isBg = false) ∧ (∀ c, cell.bg = some c → c.isBg = true) ∧
      (cellAttr den cell).fg = (cell.fg.map den).getD .default ∧ (cellAttr den cell).bg = (cell.bg.map den).getD .default := by
  have key := runAll_in (closed_roles env) ops { scr := Screen.init width height cur fill, cache := cache }
    (fun op hop => (h op hop).imp (fun _ hs => hs.spanIn) (fun _ hc => hc)) (fun op _ => op.fills_true)
    ⟨init_in _ _ _ _ trivial, CacheIn.trivial_text _⟩
  intro row hrow cell hcell
  obtain ⟨-, hf, hb⟩ := key.scr.cells row hrow cell hcell
  refine ⟨fun c hc => (hf c hc).1, hb, ?_, ?_⟩
  · unfold cellAttr
    cases hbg : cell.bg with
    | none =>
      cases hfg : cell.fg with
      | none => rfl
      | some f => simp [paintOpt, paint, (hf f hfg).1]
    | some b =>
      have : b.isBg = true := hb b hbg
      cases hfg : cell.fg with
      | none => simp [paintOpt, paint, this, Attr.clean]
      | some f => simp [paintOpt, paint, this, (hf f hfg).1]
  · unfold cellAttr
    cases hbg : cell.bg with
    | none =>
      cases hfg : cell.fg with
      | none => rfl
      | some f => simp [paintOpt, paint, (hf f hfg).1, Attr.clean]
    | some b =>
      have : b.isBg = true := hb b hbg
      simp [paintOpt, paint, this]

/-- Text under a translucent layer, on a screen that scrolls. -/
example : let ops : List Api := [
      .writeBulk [(some (0, 3), [{ text := "ab".toList, fg := some { r := 9, g := 9, b := 9 },
                                   bg := some { r := 0, g := 0, b := 90, isBg := true } }]),
        (some (0, 1), [{ text := "  ".toList, bg := some { r := 200, g := 0, b := 0, isBg := true, alpha := 1 / 2 } }])]
        { r := 0, g := 0, b := 0, isBg := true } false]
    (∀ op ∈ ops, op.Uses Span.InRole Color.Behind) ∧
    ((Api.runAll {} { scr := Screen.init 2 2 } ops).scr.cells.map fun row => row.map fun c => c.bg.isSome) =
      [[false, false], [true, true]] := by
  refine ⟨?_, by decide +kernel⟩
  intro op hop
  simp only [List.mem_singleton] at hop
  subst hop
  refine ⟨?_, rfl⟩
  intro e he s hs
  simp only [List.mem_cons, List.not_mem_nil, or_false] at he
  rcases he with rfl | rfl
  all_goals
    simp only [List.mem_singleton] at hs
    subst hs
    refine ⟨?_, ?_⟩ <;> simp [Color.Text, Color.Behind]

/-- C97 is violated: a translucent foreground over any background is stored as that background, in the background role; the cell
is sent with two background codes and the colour of its text is not set. -/
theorem C97_translucent_violated :
    let f : Color := { r := 255, g := 0, b := 0, alpha := 1 / 2 }
    let b : Color := { r := 0, g := 0, b := 90, isBg := true }
    let w := (write {} [{ text := ['x'], fg := some f, bg := some b }] (some (0, 0)) { r := 0, g := 0, b := 0, isBg := true } false
      { scr := Screen.init 1 1 }).1
    (cellAt w.scr.cells 0 0).map (fun c => (c.fg.map (·.isBg), c.bg.map (·.isBg))) = some (some true, some true) ∧
    w.scr.changes.lookup (0, 0) = some "\x1b[48;2;0;0;90;48;2;0;0;90mx\x1b[0m".toList ∧
    (cellAt w.scr.cells 0 0).map (fun c => (cellAttr trueColor c).fg) = some .default := by
  decide +kernel

/-- C97 is violated by the default terminal background of `Screen.write` and `Screen.write_bulk`, `Color.black()`, which has the
foreground role: under a translucent background it makes a stored background that colours the text. -/
theorem C97_default_violated :
    let b : Color := { r := 200, g := 0, b := 0, isBg := true, alpha := 1 / 2 }
    let w := (write {} [{ text := ['x'], fg := some { r := 0, g := 255, b := 0 }, bg := some b }] (some (0, 0)) Color.black false
      { scr := Screen.init 1 1 }).1
    w.scr.changes.lookup (0, 0) = some "\x1b[38;2;0;255;0;38;2;120;0;0mx\x1b[0m".toList ∧
    (cellAt w.scr.cells 0 0).map (fun c => ((cellAttr trueColor c).fg, (cellAttr trueColor c).bg)) =
      some (.rgb 120 0 0, .default) := by
  decide +kernel

/-! ## C98 Stored colours lie between the given ones -/

/-- A box of colours: an interval for each channel. -/
structure Box where
  lo : Nat × Nat × Nat
  hi : Nat × Nat × Nat

/-- A valid colour in the box. -/
def Box.Has (B : Box) (c : Color) : Prop :=
  c.Valid ∧ (B.lo.1 ≤ c.r ∧ c.r ≤ B.hi.1) ∧ (B.lo.2.1 ≤ c.g ∧ c.g ≤ B.hi.2.1) ∧ (B.lo.2.2 ≤ c.b ∧ c.b ≤ B.hi.2.2)

theorem between_in {lo hi a b x : Nat} (h : Between a b x) (ha : lo ≤ a ∧ a ≤ hi) (hb : lo ≤ b ∧ b ≤ hi) : lo ≤ x ∧ x ≤ hi := by
  unfold Between at h
  omega

theorem Box.Has.blend {B : Box} {a b : Color} (ha : B.Has a) (hb : B.Has b) {α : Rat} (h0 : 0 ≤ α) (h1 : α ≤ 1) :
    B.Has (a.blend b α) := by
  obtain ⟨h2, h3, h4⟩ := C39_between a b ha.1 hb.1 α h0 h1 none
  exact ⟨C39_clamped a b α none, between_in h2 ha.2.1 hb.2.1, between_in h3 ha.2.2.1 hb.2.2.1, between_in h4 ha.2.2.2 hb.2.2.2⟩

theorem mix_range {a : Rat} (ha : 0 ≤ a) {t : Rat} (ht : t = 0 ∨ t = fl (1 / 10)) :
    0 ≤ min (fl (a + t)) 1 ∧ min (fl (a + t)) 1 ≤ 1 := by
  refine ⟨le_min (fl_nonneg ?_) (by norm_num), min_le_right _ _⟩
  rcases ht with rfl | rfl
  · simpa using ha
  · exact add_nonneg ha (fl_nonneg (by norm_num))

theorem closed_box (env : Color.Env) (FB BB : Box) (hw : FB.Has Color.white) (hsub : ∀ c, BB.Has c → FB.Has c) :
    Closed env (fun _ => True) FB.Has (fun c => BB.Has c ∧ 0 ≤ c.alpha) BB.Has where
  nil := trivial
  strip _ _ := trivial
  feed _ _ := trivial
  change _ _ _ _ _ := trivial
  white := hw
  sub a b _ _ hb _ := hsub b hb.1
  mixF a b t ha hb ht := ha.blend (hsub b hb.1) (mix_range hb.2 ht).1 (mix_range hb.2 ht).2
  mixB a b t ha hb ht := ⟨ha.1.blend hb.1 (mix_range hb.2 ht).1 (mix_range hb.2 ht).2, by simp [Color.blend]⟩
  mixG a b t ha hb ht := ⟨ha.blend hb.1 (mix_range hb.2 ht).1 (mix_range hb.2 ht).2, by simp [Color.blend]⟩

/-- **C98**: in every state reached by any history of calls (scrolling and raising ones included), whatever alphas of at least 0 the
colours have, every channel of a stored background lies in every interval that contains the channels of all backgrounds and of the
terminal background; every channel of a stored foreground lies in every interval that contains them, the channels of all
foregrounds and white (the foreground of spans without one). -/
theorem C98_between (env : Color.Env) (FB BB : Box) (hw : FB.Has Color.white) (hsub : ∀ c, BB.Has c → FB.Has c)
    (width height : Nat) (cur : Int × Int) (fill : Str) (cache : CharCache) (ops : List Api)
    (h : ∀ op ∈ ops, op.Uses (fun s => (∀ c, s.fg = some c → FB.Has c) ∧ ∀ c, s.bg = some c → BB.Has c ∧ 0 ≤ c.alpha) BB.Has) :
    ∀ row ∈ (Api.runAll env { scr := Screen.init width height cur fill, cache := cache } ops).scr.cells, ∀ cell ∈ row,
      (∀ c, cell.fg = some c → FB.Has c) ∧ (∀ c, cell.bg = some c → BB.Has c) := by
  have key := runAll_in (closed_box env FB BB hw hsub) ops { scr := Screen.init width height cur fill, cache := cache }
    (fun op hop => (h op hop).imp (fun _ hs => ⟨fun _ _ => trivial, hs.1, hs.2⟩) (fun _ hc => hc)) (fun op _ => op.fills_true)
    ⟨init_in _ _ _ _ trivial, CacheIn.trivial_text _⟩
  intro row hrow cell hcell
  obtain ⟨-, hf, hb⟩ := key.scr.cells row hrow cell hcell
  exact ⟨hf, fun c hc => (hb c hc).1⟩

/-- Only reds and blues behind the text: no stored background has any green. -/
example (env : Color.Env) (width height : Nat) (ops : List Api)
    (h : ∀ op ∈ ops, op.Uses (fun s => (∀ c, s.fg = some c → c.Valid) ∧
      ∀ c, s.bg = some c → c.Valid ∧ c.g = 0 ∧ 0 ≤ c.alpha) fun c => c.Valid ∧ c.g = 0) :
    ∀ row ∈ (Api.runAll env { scr := Screen.init width height } ops).scr.cells, ∀ cell ∈ row, ∀ c, cell.bg = some c → c.g = 0 := by
  intro row hrow cell hcell c hc
  have := (C98_between env ⟨(0, 0, 0), (255, 255, 255)⟩ ⟨(0, 0, 0), (255, 0, 255)⟩
    (by unfold Box.Has Color.Valid; decide)
    (by
      intro c hc
      obtain ⟨⟨h1, h2, h3⟩, h4, h5, h6⟩ := hc
      exact ⟨⟨h1, h2, h3⟩, ⟨by simp, h1⟩, ⟨by simp, h2⟩, by simp, h3⟩)
    width height _ _ _ ops (fun op hop => (h op hop).imp
      (fun s hs => ⟨fun c hc => by
          obtain ⟨h1, h2, h3⟩ := hs.1 c hc
          exact ⟨⟨h1, h2, h3⟩, ⟨by simp, h1⟩, ⟨by simp, h2⟩, by simp, h3⟩,
        fun c hc => by
          obtain ⟨⟨h1, h2, h3⟩, h4, h5⟩ := hs.2 c hc
          exact ⟨⟨⟨h1, h2, h3⟩, ⟨by simp, h1⟩, ⟨by simp, by simp [h4]⟩, by simp, h3⟩, h5⟩⟩)
      (fun c hc => by
        obtain ⟨⟨h1, h2, h3⟩, h4⟩ := hc
        exact ⟨⟨h1, h2, h3⟩, ⟨by simp, h1⟩, ⟨by simp, by simp [h4]⟩, by simp, h3⟩)) row hrow cell hcell).2 c hc
  have := this.2.2.1.2
  simpa using this

end Slate
