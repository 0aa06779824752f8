import Verif.Props.AnySpace
import Verif.Lemmas.Everywhere
import Verif.Props.Traffic
import Verif.Props.Print

/-!
# C123: the same text is shown in every colour space, whatever is called
-/

namespace Slate
open Py Term

/-- Strings with the same effect up to colours. -/
def TextEq (a b : Str) : Prop := ∀ s t : State, SameText s t → SameText (run s a) (run t b)

theorem TextEq.refl (a : Str) : TextEq a a := fun _ _ h => h.run a

theorem TextEq.append {a a' b b' : Str} (h : TextEq a a') (h' : TextEq b b') : TextEq (a ++ b) (a' ++ b') := by
  intro s t hst
  rw [run_append, run_append]
  exact h' _ _ (h _ _ hst)

theorem run_esc (s : State) (rest : Str) (h : s.mode ≠ .str) (h' : s.mode ≠ .strEsc) :
    run s ('\x1b' :: rest) = run { s with mode := .ground } ('\x1b' :: rest) := by
  obtain ⟨m, r, c, p, g, l⟩ := s
  cases m with
  | ground => rfl
  | esc => rfl
  | csi ps => rfl
  | str => exact absurd rfl h
  | strEsc => exact absurd rfl h'

theorem run_str_plain (s : State) (h : s.mode = .str) (cs : Str) (hc : ∀ c ∈ cs, c ≠ '\x1b' ∧ c ≠ '\x07') : run s cs = s := by
  induction cs with
  | nil => rfl
  | cons c cs ih =>
    obtain ⟨h1, h2⟩ := hc c (by simp)
    show run (step s c) cs = s
    have : step s c = s := by
      unfold step
      rw [h]
      simp only [h1, h2, if_false]
    rw [this]
    exact ih fun d hd => hc d (by simp [hd])

theorem run_str_seq (s : State) (h : s.mode = .str ∨ s.mode = .strEsc) (cs : Str) (hc : ∀ c ∈ cs, c ≠ '\x1b' ∧ c ≠ '\x07') :
    run s ('\x1b' :: '[' :: cs) = { s with mode := .str } := by
  have : step (step s '\x1b') '[' = { s with mode := .str } := by
    obtain ⟨m, r, c, p, g, l⟩ := s
    rcases h with h | h <;> simp only at h <;> subst h <;> rfl
  show run (step (step s '\x1b') '[') cs = _
  rw [this]
  exact run_str_plain _ rfl cs hc

theorem join_dec_plain (ns : List Nat) : ∀ c ∈ join [';'] (ns.map dec) ++ ['m'], c ≠ '\x1b' ∧ c ≠ '\x07' := by
  intro c hc
  rcases List.mem_append.mp hc with hc | hc
  · have : Traffic.Params (join [';'] (ns.map dec)) :=
      Traffic.params_join fun s hs => by obtain ⟨n, -, rfl⟩ := List.mem_map.mp hs; exact Traffic.params_dec n
    rcases this c hc with ⟨h, -⟩ | rfl
    · constructor <;> (rintro rfl; exact absurd h (by decide))
    · decide
  · rw [List.mem_singleton.mp hc]; decide

/-- Rendition sequences that differ in colours only. -/
theorem TextEq.sgr {n : Nat} {ns : List Nat} {k : Nat} {ks : List Nat}
    (h : ∀ a b, Attr.mono a = Attr.mono b → Attr.mono (sgr (n :: ns) a) = Attr.mono (sgr (k :: ks) b)) :
    TextEq ('\x1b' :: '[' :: (join [';'] ((n :: ns).map dec) ++ ['m'])) ('\x1b' :: '[' :: (join [';'] ((k :: ks).map dec) ++ ['m'])) := by
  intro s t hst
  by_cases hm : s.mode = .str ∨ s.mode = .strEsc
  · rw [run_str_seq s hm _ (join_dec_plain _), run_str_seq t (hst.mode ▸ hm) _ (join_dec_plain _)]
    exact ⟨rfl, hst.row, hst.col, hst.pen, hst.ch, hst.attr⟩
  · rw [not_or] at hm
    rw [run_esc s _ hm.1 hm.2, run_esc t _ (hst.mode ▸ hm.1) (hst.mode ▸ hm.2), run_sgr _ n ns [] rfl, run_sgr _ k ks [] rfl]
    exact ⟨rfl, hst.row, hst.col, h _ _ hst.pen, hst.ch, hst.attr⟩

theorem run_reset_reset (s : State) : run (run s RESET) RESET = run s RESET := by
  by_cases hm : s.mode = .str ∨ s.mode = .strEsc
  · have h1 : run s RESET = { s with mode := .str } := run_str_seq s hm "0m".toList (by decide)
    rw [h1]
    exact run_str_seq _ (.inl rfl) "0m".toList (by decide)
  · rw [not_or] at hm
    have h1 : run s RESET = { s with mode := .ground, pen := Attr.clean } := by
      show run s ('\x1b' :: _) = _
      rw [run_esc s _ hm.1 hm.2]
      rfl
    rw [h1]
    rfl

/-- Colours that were made from their channels, from a hex string or from a code of a
terminal, in whichever role and transparency. -/
def Color.Known (c : Color) : Prop :=
  c.ctor = none ∨ (∃ t, c.ctor = some ('#' :: t)) ∨ ∃ ns, CodeNums ns ∧ c.ctor = some (codeStr ns)

/-- Their code is that of some colour. -/
theorem Color.Known.code {c : Color} (h : c.Known) (env : Color.Env) : ∃ n ns b t, c.ansi env = join [';'] ((n :: ns).map dec) ∧
    ∀ rest a, sgr (n :: ns ++ rest) a = sgr rest (paint b t a) := by
  rcases h with h | h | ⟨ns, hns, h⟩
  · obtain ⟨n, ns, h1, h2⟩ := sendable_of_hex env c (.inl h)
    exact ⟨n, ns, _, _, h1, h2⟩
  · obtain ⟨n, ns, h1, h2⟩ := sendable_of_hex env c (.inr h)
    exact ⟨n, ns, _, _, h1, h2⟩
  · unfold Color.ansi
    rw [h]
    simp only
    split
    · have h1 := codeDen_code env hns
      obtain ⟨n, ns', rfl⟩ := List.exists_cons_of_ne_nil (show ns ≠ [] by cases hns <;> simp)
      exact ⟨n, ns', _, _, rfl, h1⟩
    · obtain ⟨n, ns, h1, h2⟩ := convert_sendable env c
      exact ⟨n, ns, _, _, h1, h2⟩

theorem paint_mono (b : Bool) (t : TColor) (a : Attr) : Attr.mono (paint b t a) = Attr.mono a := by
  cases b <;> rfl

theorem textEq_changeStr (env env' : Color.Env) (cell : Cell) (nl : Bool) (hf : ∀ c, cell.fg = some c → c.Known)
    (hb : ∀ c, cell.bg = some c → c.Known) : TextEq (changeStr env cell nl) (changeStr env' cell nl) := by
  by_cases hn : cell.fg = none ∧ cell.bg = none
  · have : changeStr env cell nl = changeStr env' cell nl := by simp [changeStr, hn]
    rw [this]
    exact .refl _
  have key : ∀ env : Color.Env, ∃ n ns, join [';'] (cell.fg.toList.map (Color.ansi env) ++ cell.bg.toList.map (Color.ansi env)) =
      join [';'] ((n :: ns).map dec) ∧ ∀ a, Attr.mono (sgr (n :: ns) a) = Attr.mono a := by
    intro env
    cases h1 : cell.fg with
    | none =>
      cases h2 : cell.bg with
      | none => exact absurd ⟨h1, h2⟩ hn
      | some b =>
        obtain ⟨n, ns, bb, tt, hcode, hsgr⟩ := (hb b h2).code env
        refine ⟨n, ns, by simp [join, hcode], fun a => ?_⟩
        have := hsgr [] a
        rw [List.append_nil] at this
        rw [this]
        simp only [sgr, paint_mono]
    | some f =>
      obtain ⟨n, ns, bb, tt, hcode, hsgr⟩ := (hf f h1).code env
      cases h2 : cell.bg with
      | none =>
        refine ⟨n, ns, by simp [join, hcode], fun a => ?_⟩
        have := hsgr [] a
        rw [List.append_nil] at this
        rw [this]
        simp only [sgr, paint_mono]
      | some b =>
        obtain ⟨n', ns', bb', tt', hcode', hsgr'⟩ := (hb b h2).code env
        refine ⟨n, ns ++ (n' :: ns'), ?_, fun a => ?_⟩
        · simp only [Option.toList_some, List.map_cons, List.map_nil, List.singleton_append, join, hcode, hcode']
          have := join_append (sep := [';']) ((n :: ns).map dec) ((n' :: ns').map dec) (by simp) (by simp)
          rw [← List.map_append] at this
          simpa using this.symm
        · rw [← List.cons_append, hsgr]
          have := hsgr' [] (paint bb tt a)
          rw [List.append_nil] at this
          rw [this]
          simp only [sgr, paint_mono]
  obtain ⟨n, ns, e1, g1⟩ := key env
  obtain ⟨k, ks, e2, g2⟩ := key env'
  have ne : ∀ (k : Nat) (ks : List Nat), (join [';'] ((k :: ks).map dec)).isEmpty = false := by
    intro k ks
    cases ks <;> simp [join, dec_ne_nil]
  unfold changeStr
  simp only [e1, e2, ne, Bool.false_eq_true, if_false]
  have hc : TextEq (['\x1b', '['] ++ join [';'] ((n :: ns).map dec) ++ ['m']) (['\x1b', '['] ++ join [';'] ((k :: ks).map dec) ++ ['m']) :=
    TextEq.sgr fun a b h => by rw [g1, g2]; exact h
  exact ((hc.append (.refl _)).append (.refl _)).append (.refl _)

/-- Pending changes at the same positions whose strings differ in colours only. -/
def Twins (a b : Changes) : Prop := ∃ c : List ((Nat × Nat) × Str × Str), a = c.map (fun e => (e.1, e.2.1)) ∧
  b = c.map (fun e => (e.1, e.2.2)) ∧ ∀ e ∈ c, TextEq e.2.1 e.2.2

theorem Twins.refl (a : Changes) : Twins a a :=
  ⟨a.map fun e => (e.1, e.2, e.2), by simp [Function.comp_def], by simp [Function.comp_def], by
    intro e he
    obtain ⟨x, -, rfl⟩ := List.mem_map.mp he
    exact .refl _⟩

theorem Twins.insert {a b : Changes} (h : Twins a b) (k : Nat × Nat) {v v' : Str} (hv : TextEq v v') : Twins (a.insert k v) (b.insert k v') := by
  obtain ⟨c, rfl, rfl, hc⟩ := h
  induction c with
  | nil => exact ⟨[(k, v, v')], rfl, rfl, by simpa using hv⟩
  | cons e c ih =>
    obtain ⟨k', w, w'⟩ := e
    have hc' : ∀ e ∈ c, TextEq e.2.1 e.2.2 := fun e he => hc e (by simp [he])
    simp only [List.map_cons, Changes.insert]
    by_cases hk : k' = k
    · simp only [hk, if_true]
      refine ⟨(k, v, v') :: c, rfl, rfl, ?_⟩
      intro e he
      rcases List.mem_cons.mp he with rfl | he
      · exact hv
      · exact hc' e he
    · simp only [hk, if_false]
      obtain ⟨d, d1, d2, d3⟩ := ih hc'
      refine ⟨(k', w, w') :: d, by rw [List.map_cons, ← d1], by rw [List.map_cons, ← d2], ?_⟩
      intro e he
      rcases List.mem_cons.mp he with rfl | he
      · exact hc _ (by simp)
      · exact d3 e he

theorem Twins.keys {a b : Changes} (h : Twins a b) : a.keys = b.keys := by
  obtain ⟨c, rfl, rfl, -⟩ := h
  simp [Changes.keys, Function.comp_def]

theorem Twins.gather {a b : Changes} (h : Twins a b) : Twins a.gather b.gather := by
  obtain ⟨c, rfl, rfl, hc⟩ := h
  refine ⟨c.insertionSort (fun x y => Changes.le (x.1, x.2.1) (y.1, y.2.1)), ?_, ?_, ?_⟩
  · exact (List.map_insertionSort _ (fun x y => Changes.le x y = true) _ c fun _ _ _ _ => Iff.rfl).symm
  · exact (List.map_insertionSort _ (fun x y => Changes.le x y = true) _ c fun _ _ _ _ => Iff.rfl).symm
  · intro e he
    exact hc e ((List.perm_insertionSort _ c).mem_iff.mp he)

theorem Twins.renderGo {a b : Changes} (h : Twins a b) (o : Int × Int) (prev : Option (Int × Int)) :
    TextEq (renderGo o prev a) (renderGo o prev b) := by
  obtain ⟨c, rfl, rfl, hc⟩ := h
  induction c generalizing prev with
  | nil => exact .refl _
  | cons e c ih =>
    obtain ⟨⟨x, y⟩, v, v'⟩ := e
    simp only [List.map_cons, Slate.renderGo]
    exact ((TextEq.refl _).append (hc ((x, y), v, v') (by simp))).append (ih _ fun e he => hc e (by simp [he]))

/-- Screens that hold the same and whose pending strings differ in colours only. -/
structure Screen.Twin (a b : Screen) : Prop where
  same : a.forget = b.forget
  changes : Twins a.changes b.changes
  cells : ∀ row ∈ a.cells, ∀ c ∈ row, CellIn (fun _ => True) Color.Known Color.Known c

theorem TextEq.reset {a b : Str} (h : TextEq a b) :
    TextEq (if endsWith a RESET then a else a ++ RESET) (if endsWith b RESET then b else b ++ RESET) := by
  have key : ∀ (a : Str) (s : State), run s (if endsWith a RESET then a else a ++ RESET) = run s (a ++ RESET) := by
    intro a s
    split
    · rename_i h
      obtain ⟨t, rfl⟩ := List.isSuffixOf_iff_suffix.mp h
      rw [run_append, run_append, run_append, run_reset_reset]
    · rfl
  intro s t hst
  rw [key, key]
  exact h.append (.refl _) s t hst

theorem Screen.Twin.render {a b : Screen} (h : a.Twin b) (o : Int × Int) (redraw : Bool) :
    TextEq (a.render o redraw).2 (b.render o redraw).2 := by
  have hc : a.cells = b.cells := congrArg (fun s => s.cells) h.same
  cases redraw with
  | true =>
    show TextEq (redrawGo o.1 o.2 a.cells) (redrawGo o.1 o.2 b.cells)
    rw [hc]
    exact .refl _
  | false => exact (h.changes.gather.renderGo o none).reset

/-! ### All calls -/

theorem closed_known (env : Color.Env) : Closed env (fun _ => True) Color.Known Color.Known (fun _ => True) where
  nil := trivial
  strip _ _ := trivial
  feed _ _ := trivial
  change _ _ _ _ _ := trivial
  white := .inl rfl
  sub _ _ _ _ h _ := h
  mixF _ _ _ _ _ _ := .inl rfl
  mixB _ _ _ _ _ _ := .inl rfl
  mixG _ _ _ _ _ _ := .inl rfl

/-- A span in such colours. -/
def Span.Known (s : Span) : Prop := ∀ c, s.fg = some c ∨ s.bg = some c → c.Known

theorem Span.Known.spanIn {s : Span} (h : s.Known) : SpanIn (fun _ => True) Color.Known Color.Known s :=
  ⟨fun _ _ => trivial, fun c hc => h c (.inl hc), fun c hc => h c (.inr hc)⟩

theorem Screen.Twin.screenIn {a b : Screen} (h : a.Twin b) : ScreenIn (fun _ => True) Color.Known Color.Known a :=
  ⟨h.cells, fun _ _ => trivial⟩

theorem commitCell_twin (env env' : Color.Env) (tb : Color) {m : Mats} (hm : MatsIn (fun _ => True) Color.Known Color.Known m)
    (a b : Screen × Except PyErr Nat) (pos : Nat × Nat) (h1 : a.1.Twin b.1) (h2 : a.2 = b.2) :
    (commitCell env tb m a pos).1.Twin (commitCell env' tb m b pos).1 ∧
    (commitCell env tb m a pos).2 = (commitCell env' tb m b pos).2 := by
  obtain ⟨k1, k2⟩ := commitCell_akin env env' tb m a b pos ⟨h1.same, h1.changes.keys⟩ h2
  refine ⟨⟨k1.1, ?_, (commitCell_in (closed_known env) tb trivial hm a pos h1.screenIn).cells⟩, k2⟩
  obtain ⟨s, r⟩ := a
  obtain ⟨s', r'⟩ := b
  simp only at h1 h2
  subst h2
  have hc : s.cells = s'.cells := congrArg (fun s => s.cells) h1.same
  obtain ⟨x, y⟩ := pos
  unfold commitCell
  cases r with
  | error e => exact h1.changes
  | ok n =>
    simp only
    cases hw : m.wm x y with
    | none => exact h1.changes
    | some c =>
      simp only [hc]
      cases cellAt s'.cells x y with
      | none => exact h1.changes
      | some old =>
        simp only
        split
        · exact h1.changes
        · obtain ⟨q1, q2⟩ := resolve_in (closed_known env) tb trivial (m.am x y) c (hm.am x y) (fun f => hm.fg x y c f hw)
            (fun f => hm.bg x y c f hw)
          exact h1.changes.insert _ (textEq_changeStr env env' _ _ q1 q2)

theorem commit_twin (env env' : Color.Env) (tb : Color) {m : Mats} (hm : MatsIn (fun _ => True) Color.Known Color.Known m)
    (s s' : Screen) (h : s.Twin s') : (commit env tb m s).1.Twin (commit env' tb m s').1 := by
  have hw : s.width = s'.width := congrArg (fun s => s.width) h.same
  have hh : s.height = s'.height := congrArg (fun s => s.height) h.same
  unfold commit
  rw [hw, hh]
  have go : ∀ (l : List (Nat × Nat)) (a b : Screen × Except PyErr Nat), a.1.Twin b.1 → a.2 = b.2 →
      (l.foldl (commitCell env tb m) a).1.Twin (l.foldl (commitCell env' tb m) b).1 := by
    intro l
    induction l with
    | nil => exact fun a b h1 _ => h1
    | cons p l ih =>
      intro a b h1 h2
      obtain ⟨g1, g2⟩ := commitCell_twin env env' tb hm a b p h1 h2
      exact ih _ _ g1 g2
  exact go _ _ _ h rfl

/-- Screens with their caches that hold the same and whose pending strings differ in
colours only. -/
structure World.Twin (a b : World) : Prop where
  scr : a.scr.Twin b.scr
  cache : a.cache = b.cache

theorem World.Twin.akin {a b : World} (h : a.Twin b) : a.Akin b := ⟨⟨h.scr.same, h.scr.changes.keys⟩, h.cache⟩

theorem cacheIn_true (c : CharCache) : CacheIn (fun _ => True) Color.Known Color.Known c := fun _ _ _ _ _ => trivial

theorem writeBulk_twin (env env' : Color.Env) (data : List Entry) (tb : Color) (force : Bool) (w w' : World) (h : w.Twin w')
    (hd : ∀ e ∈ data, ∀ s ∈ e.2, s.Known) :
    (writeBulk env data tb force w).1.Twin (writeBulk env' data tb force w').1 := by
  obtain ⟨a1, a2, a3⟩ := putData_forget data Mats.blank w
  obtain ⟨b1, b2, b3⟩ := putData_forget data Mats.blank w'
  have hf : w.forget = w'.forget := World.forget_eq.mpr ⟨h.scr.same, h.cache⟩
  have k1 := putData_changes data Mats.blank w
  have k2 := putData_changes data Mats.blank w'
  have hin := putData_in (closed_known env) data Mats.blank w (fun e he s hs => (hd e he s hs).spanIn) .blank h.scr.screenIn
    (cacheIn_true _)
  rw [hf, b1] at a1
  rw [hf, b2] at a2
  rw [hf, b3] at a3
  unfold writeBulk
  generalize putData data Mats.blank w = r at *
  generalize putData data Mats.blank w' = r' at *
  obtain ⟨m, u, e⟩ := r
  obtain ⟨m', u', e'⟩ := r'
  simp only at a1 a2 a3 k1 k2 hin
  subst a1 a3
  obtain ⟨c1, c2⟩ := World.forget_eq.mp a2
  have hk : u.scr.Twin u'.scr := ⟨c1.symm, by rw [k1, k2]; exact h.scr.changes, hin.2.1.cells⟩
  cases e' with
  | some e => exact ⟨hk, c2.symm⟩
  | none => exact ⟨commit_twin env env' tb hin.1 u.scr u'.scr hk, c2.symm⟩

theorem Twins.fill (ps : List (Nat × Nat)) (fill : Str) {a b : Changes} (h : Twins a b) :
    Twins (ps.foldl (fun (ch : Changes) p => ch.insert p fill) a) (ps.foldl (fun (ch : Changes) p => ch.insert p fill) b) := by
  induction ps generalizing a b with
  | nil => exact h
  | cons p ps ih => exact ih (h.insert p (.refl fill))

theorem Api.run_twin (env env' : Color.Env) (op : Api) (hop : op.Uses Span.Known fun _ => True) (w w' : World) (h : w.Twin w') :
    (op.run env w).Twin (op.run env' w') := by
  have hk := Api.run_akin env env' op w w' h.akin
  have hin : ScreenIn (fun _ => True) Color.Known Color.Known (op.run env w).scr := by
    refine (run_in (closed_known env) op w ?_ ?_ ⟨h.scr.screenIn, cacheIn_true _⟩).scr
    · cases op with
      | write spans cursor tb force => exact ⟨fun s hs => (hop.1 s hs).spanIn, trivial⟩
      | writeBulk data tb force => exact ⟨fun e he s hs => (hop.1 e he s hs).spanIn, trivial⟩
      | _ => trivial
    · cases op <;> trivial
  refine ⟨⟨hk.1.1, ?_, hin.cells⟩, hk.2⟩
  have h1 := h.scr.same
  simp only [Screen.forget, Screen.mk.injEq] at h1
  cases op with
  | write spans cursor tb force =>
    exact (writeBulk_twin env env' _ tb force w w' h fun e he => by rw [List.mem_singleton.mp he]; exact hop.1).scr.changes
  | writeBulk data tb force => exact (writeBulk_twin env env' data tb force w w' h hop.1).scr.changes
  | clear fill =>
    simp only [Api.run, Screen.clear, Screen.resize, h1]
    exact h.scr.changes.fill _ _
  | resize a b fill keep => exact h.scr.changes.fill _ _
  | render origin redraw => cases redraw <;> exact .refl _
  | getCharacters s => exact h.scr.changes

/-- A call, seen on a terminal: what is drawn is sent to it. -/
def Api.watch (env : Color.Env) (s : World × State) (op : Api) : World × State :=
  (op.run env s.1, match op with
    | .render origin redraw => Term.run s.2 (s.1.scr.render origin redraw).2
    | _ => s.2)

/-- **C123**, what is shown, for every history: two terminals that show the same text, a
screen that is drawn on both, and a history of arbitrary calls, each of them under two
colour environments. Its texts, fill strings and places are arbitrary, it may scroll,
resize, redraw and raise; its colours are made from channels, hex strings or codes of a terminal.
Both terminals always show the same text in the same styles, with the cursor at the
same place. -/
theorem C123_history (w : World) (T T' : State) (hT : SameText T T') (calls : List (Color.Env × Color.Env × Api))
    (hw : ∀ row ∈ w.scr.cells, ∀ cell ∈ row, ∀ c, cell.fg = some c ∨ cell.bg = some c → c.Known)
    (hu : ∀ c ∈ calls, c.2.2.Uses Span.Known fun _ => True) :
    SameText (calls.foldl (fun s c => Api.watch c.1 s c.2.2) (w, T)).2 (calls.foldl (fun s c => Api.watch c.2.1 s c.2.2) (w, T')).2 := by
  have go : ∀ (calls : List (Color.Env × Color.Env × Api)) (a b : World × State), (∀ c ∈ calls, c.2.2.Uses Span.Known fun _ => True) →
      a.1.Twin b.1 → SameText a.2 b.2 →
      SameText (calls.foldl (fun s c => Api.watch c.1 s c.2.2) a).2 (calls.foldl (fun s c => Api.watch c.2.1 s c.2.2) b).2 := by
    intro calls
    induction calls with
    | nil => exact fun a b _ _ h => h
    | cons c calls ih =>
      intro a b hu h1 h2
      obtain ⟨env, env', op⟩ := c
      refine ih _ _ (fun c hc => hu c (by simp [hc])) (Api.run_twin env env' op (hu (env, env', op) (by simp)) _ _ h1) ?_
      cases op with
      | render origin redraw => exact h1.scr.render origin redraw _ _ h2
      | _ => exact h2
  exact go calls (w, T) (w, T') hu ⟨⟨rfl, .refl _, fun row hr c hc =>
    ⟨trivial, fun d hd => hw row hr c hc d (.inl hd), fun d hd => hw row hr c hc d (.inr hd)⟩⟩, rfl⟩ hT

namespace C123ex
/-- A continuation that draws, scrolls and clears. -/
def more : List (Color.Env × Color.Env × Api) :=
  [({}, { space := .eightBit }, .render (1, 1) false),
   ({}, { space := .standard }, .write [{ text := "fg".toList, fg := some (codeColor [31]) }] (some (0, 3)) Color.black false),
   ({}, { space := .standard }, .render (1, 1) false),
   ({ space := .noColor }, {}, .clear ['.'])]

def story : List (Color.Env × Color.Env × Api) := calls ++ more

def term : State := { grid := fun _ _ => ⟨'?', {}⟩ }

/-- The hypotheses are met by a new screen and a history that scrolls, changes the
colour space and clears; the terminals differ in the end. -/
example : (∀ c ∈ story, c.2.2.Uses Span.Known fun _ => True) ∧
    (∀ row ∈ blank.scr.cells, ∀ cell ∈ row, ∀ c, cell.fg = some c ∨ cell.bg = some c → c.Known) ∧
    (story.foldl (fun s c => Api.watch c.1 s c.2.2) (blank, term)).1.scr.offset = 2 ∧
    (story.foldl (fun s c => Api.watch c.1 s c.2.2) (blank, term)).2.grid 1 2 ≠
      (story.foldl (fun s c => Api.watch c.2.1 s c.2.2) (blank, term)).2.grid 1 2 := by
  refine ⟨?_, ?_, by decide +kernel, by decide +kernel⟩
  · simp [story, calls, more, Api.Uses, Span.Known, Color.Known]
    exact .inr (.inr ⟨[31], .std 31 (by decide), rfl⟩)
  · intro row hr cell hc c h
    have := (init_in (T := fun _ => True) (F := fun _ => False) (B := fun _ => False) 4 2 (0, 0) [' '] trivial).cells row hr cell hc
    exact (h.elim (this.fg c) (this.bg c)).elim
end C123ex

end Slate
