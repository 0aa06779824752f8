import Verif.Lemmas.Forget
import Verif.Props.Draw

/-!
# C123: the colour support of the terminal influences colours only
-/

namespace Slate
open Py Term

/-! ### What a screen holds -/

/-- Equal up to the strings of the pending changes. -/
def Screen.Akin (a b : Screen) : Prop := a.forget = b.forget ∧ a.changes.keys = b.changes.keys

theorem Changes.keys_insert_congr (k : Nat × Nat) (v v' : Str) (a b : Changes) (h : a.keys = b.keys) :
    (a.insert k v).keys = (b.insert k v').keys := by
  induction a generalizing b with
  | nil =>
    cases b with
    | nil => rfl
    | cons e b => simp [Changes.keys] at h
  | cons e a ih =>
    cases b with
    | nil => simp [Changes.keys] at h
    | cons f b =>
      obtain ⟨k1, v1⟩ := e
      obtain ⟨k2, v2⟩ := f
      simp only [Changes.keys, List.map_cons, List.cons.injEq] at h
      obtain ⟨rfl, h⟩ := h
      unfold Changes.insert
      by_cases hk : k1 = k
      · simp only [hk, if_true, Changes.keys, List.map_cons, h]
      · simp only [hk, if_false, Changes.keys, List.map_cons]
        exact congrArg _ (ih b h)

theorem foldl_insert_keys_congr (ps : List (Nat × Nat)) (fill : Str) (a b : Changes) (h : a.keys = b.keys) :
    (ps.foldl (fun (ch : Changes) p => ch.insert p fill) a).keys = (ps.foldl (fun (ch : Changes) p => ch.insert p fill) b).keys := by
  induction ps generalizing a b with
  | nil => exact h
  | cons p ps ih => exact ih _ _ (Changes.keys_insert_congr p fill fill a b h)

theorem commitCell_akin (env env' : Color.Env) (tb : Color) (m : Mats) (a b : Screen × Except PyErr Nat) (pos : Nat × Nat)
    (h1 : a.1.Akin b.1) (h2 : a.2 = b.2) :
    (commitCell env tb m a pos).1.Akin (commitCell env' tb m b pos).1 ∧
    (commitCell env tb m a pos).2 = (commitCell env' tb m b pos).2 := by
  obtain ⟨s, r⟩ := a
  obtain ⟨s', r'⟩ := b
  simp only at h1 h2
  subst h2
  have hc : s.cells = s'.cells := congrArg (fun s => s.cells) h1.1
  obtain ⟨x, y⟩ := pos
  unfold commitCell
  cases r with
  | error e => exact ⟨h1, rfl⟩
  | ok n =>
    simp only
    cases m.wm x y with
    | none => exact ⟨h1, rfl⟩
    | some c =>
      simp only [hc]
      cases cellAt s'.cells x y with
      | none => exact ⟨h1, rfl⟩
      | some old =>
        simp only
        split
        · exact ⟨h1, rfl⟩
        · refine ⟨⟨?_, Changes.keys_insert_congr _ _ _ _ _ h1.2⟩, rfl⟩
          have h1 := h1.1
          simp only [Screen.forget, Screen.mk.injEq] at h1 ⊢
          simp only [h1, and_self]

theorem commit_akin (env env' : Color.Env) (tb : Color) (m : Mats) (s s' : Screen) (h : s.Akin s') :
    (commit env tb m s).1.Akin (commit env' tb m s').1 ∧ (commit env tb m s).2 = (commit env' tb m s').2 := by
  have hw : s.width = s'.width := congrArg (fun s => s.width) h.1
  have hh : s.height = s'.height := congrArg (fun s => s.height) h.1
  unfold commit
  rw [hw, hh]
  have go : ∀ (l : List (Nat × Nat)) (a b : Screen × Except PyErr Nat), a.1.Akin b.1 → a.2 = b.2 →
      (l.foldl (commitCell env tb m) a).1.Akin (l.foldl (commitCell env' tb m) b).1 ∧
      (l.foldl (commitCell env tb m) a).2 = (l.foldl (commitCell env' tb m) b).2 := by
    intro l
    induction l with
    | nil => exact fun a b h1 h2 => ⟨h1, h2⟩
    | cons p l ih =>
      intro a b h1 h2
      obtain ⟨g1, g2⟩ := commitCell_akin env env' tb m a b p h1 h2
      exact ih _ _ g1 g2
  exact go _ _ _ h rfl

theorem putSpans_changes (spans : List Span) (i : Nat) (p : Pen) (m : Mats) (w : World) :
    (putSpans spans i p m w).2.2.1.scr.changes = w.scr.changes := by
  induction spans generalizing i p m w with
  | nil => rfl
  | cons s rest ih =>
    obtain ⟨scr, cache⟩ := w
    obtain ⟨wd, ht, cells, ch, cur, off⟩ := scr
    unfold putSpans
    simp only
    by_cases h : (i : Int) = p.last ∧ p.y - off > (ht : Int) - 1
    · simp only [eq_true h, if_true]
      by_cases hc : (cache.get s).1.isEmpty = true
      · simp only [eq_true hc, if_true]
      · simp only [eq_false hc, if_false]
        cases cells with
        | nil => rfl
        | cons r rows => simp only [ih]
    · simp only [eq_false h, if_false, ih]

theorem putData_changes (data : List Entry) (m : Mats) (w : World) :
    (putData data m w).2.1.scr.changes = w.scr.changes := by
  induction data generalizing m w with
  | nil => rfl
  | cons e rest ih =>
    obtain ⟨pos, line⟩ := e
    cases pos with
    | none => rfl
    | some xy =>
      obtain ⟨x, y⟩ := xy
      unfold putData
      have h := putSpans_changes line 0 { x := x, y := y, last := (line.length : Int) - 1 } m w
      generalize putSpans line 0 { x := x, y := y, last := (line.length : Int) - 1 } m w = r at *
      obtain ⟨p, m', w', e⟩ := r
      cases e with
      | some e => exact h
      | none => exact (ih _ _).trans h

/-- Equal up to the strings of the pending changes. -/
def World.Akin (a b : World) : Prop := a.scr.Akin b.scr ∧ a.cache = b.cache

theorem writeBulk_akin (env env' : Color.Env) (data : List Entry) (tb : Color) (force : Bool) (w w' : World) (h : w.Akin w') :
    (writeBulk env data tb force w).1.Akin (writeBulk env' data tb force w').1 ∧
    (writeBulk env data tb force w).2 = (writeBulk env' data tb force w').2 := by
  obtain ⟨a1, a2, a3⟩ := putData_forget data Mats.blank w
  obtain ⟨b1, b2, b3⟩ := putData_forget data Mats.blank w'
  have hf : w.forget = w'.forget := World.forget_eq.mpr ⟨h.1.1, h.2⟩
  have k1 := putData_changes data Mats.blank w
  have k2 := putData_changes data Mats.blank w'
  rw [hf, b1] at a1
  rw [hf, b2] at a2
  rw [hf, b3] at a3
  unfold writeBulk
  generalize putData data Mats.blank w = r at *
  generalize putData data Mats.blank w' = r' at *
  obtain ⟨m, u, e⟩ := r
  obtain ⟨m', u', e'⟩ := r'
  simp only at a1 a2 a3 k1 k2
  subst a1 a3
  obtain ⟨c1, c2⟩ := World.forget_eq.mp a2
  have hk : u.scr.Akin u'.scr := ⟨c1.symm, by rw [k1, k2]; exact h.1.2⟩
  cases e' with
  | some e => exact ⟨⟨hk, c2.symm⟩, rfl⟩
  | none =>
    obtain ⟨d1, d2⟩ := commit_akin env env' tb m' u.scr u'.scr hk
    exact ⟨⟨d1, c2.symm⟩, d2⟩

theorem Api.run_akin (env env' : Color.Env) (op : Api) (w w' : World) (h : w.Akin w') :
    (op.run env w).Akin (op.run env' w') := by
  obtain ⟨⟨h1, h3⟩, h2⟩ := h
  cases op with
  | write spans cursor tb force => exact (writeBulk_akin env env' _ tb force w w' ⟨⟨h1, h3⟩, h2⟩).1
  | writeBulk data tb force => exact (writeBulk_akin env env' data tb force w w' ⟨⟨h1, h3⟩, h2⟩).1
  | clear fill =>
    simp only [Screen.forget, Screen.mk.injEq] at h1
    refine ⟨⟨?_, ?_⟩, h2⟩
    · simp only [Api.run, Screen.forget, Screen.clear, Screen.resize, h1]
    · simp only [Api.run, Screen.clear, Screen.resize, h1]
      exact foldl_insert_keys_congr _ _ _ _ h3
  | resize a b fill keep =>
    simp only [Screen.forget, Screen.mk.injEq] at h1
    refine ⟨⟨?_, ?_⟩, h2⟩
    · simp only [Api.run, Screen.forget, Screen.resize, h1]
    · simp only [Api.run, Screen.resize]
      exact foldl_insert_keys_congr _ _ _ _ h3
  | render origin redraw =>
    simp only [Screen.forget, Screen.mk.injEq] at h1
    refine ⟨⟨?_, ?_⟩, h2⟩ <;> cases redraw <;> simp [Api.run, Screen.forget, Screen.render, h1]
  | getCharacters s => exact ⟨⟨h1, h3⟩, by simp only [Api.run, h2]⟩

/-- **C123**, what is stored: a history of arbitrary calls, each of them under two
colour environments (`calls`; the environment may change from call to call, as the
colour space of a terminal can be assigned). Both give the same cells, size, cursor,
offset and cache, the same positions are pending in the same order, and every later
write has the same result, be it a number of changes or an exception. -/
theorem C123_cells (w : World) (calls : List (Color.Env × Color.Env × Api)) :
    let u := calls.foldl (fun w c => Api.run c.1 w c.2.2) w
    let v := calls.foldl (fun w c => Api.run c.2.1 w c.2.2) w
    u.scr.cells = v.scr.cells ∧ u.scr.width = v.scr.width ∧ u.scr.height = v.scr.height ∧ u.scr.cursor = v.scr.cursor ∧
    u.scr.offset = v.scr.offset ∧ u.cache = v.cache ∧ u.scr.changes.map (·.1) = v.scr.changes.map (·.1) ∧
    ∀ env env' data tb force, (writeBulk env data tb force u).2 = (writeBulk env' data tb force v).2 := by
  have go : ∀ (calls : List (Color.Env × Color.Env × Api)) (a b : World), a.Akin b →
      (calls.foldl (fun w c => Api.run c.1 w c.2.2) a).Akin (calls.foldl (fun w c => Api.run c.2.1 w c.2.2) b) := by
    intro calls
    induction calls with
    | nil => exact fun a b h => h
    | cons c calls ih => exact fun a b h => ih _ _ (Api.run_akin _ _ _ _ _ h)
  have h := go calls w w ⟨⟨rfl, rfl⟩, rfl⟩
  intro u v
  have h1 := h.1.1
  simp only [Screen.forget, Screen.mk.injEq] at h1
  exact ⟨h1.2.2.1, h1.1, h1.2.1, h1.2.2.2.2.1, h1.2.2.2.2.2, h.2, h.1.2, fun env env' data tb force =>
    (writeBulk_akin env env' data tb force u v h).2⟩

/-! ### What a terminal shows -/

/-- A rendition without its colours. -/
def Attr.mono (a : Attr) : Attr := { a with fg := .default, bg := .default }

theorem sgr1_mono (n : Nat) (a b : Attr) (h : Attr.mono a = Attr.mono b) : Attr.mono (sgr1 n a) = Attr.mono (sgr1 n b) := by
  simp only [Attr.mono, Attr.mk.injEq] at h
  unfold sgr1
  split <;> (try simp only [Attr.mono, h])
  split_ifs <;> simp only [h]

theorem sgr_mono (ns : List Nat) (a b : Attr) (h : Attr.mono a = Attr.mono b) : Attr.mono (sgr ns a) = Attr.mono (sgr ns b) := by
  fun_induction sgr ns a generalizing b with
  | case1 a => simpa [sgr] using h
  | case2 n rest a ih => rw [sgr]; exact ih _ h
  | case3 n rest a ih => rw [sgr]; exact ih _ h
  | case4 r g b' rest a ih => rw [sgr]; exact ih _ h
  | case5 r g b' rest a ih => rw [sgr]; exact ih _ h
  | case6 n rest a h1 h2 h3 h4 ih => rw [sgr] <;> first | exact ih _ (sgr1_mono n _ _ h) | assumption

/-- Terminals that differ in colours only. -/
structure SameText (s t : State) : Prop where
  mode : s.mode = t.mode
  row : s.row = t.row
  col : s.col = t.col
  pen : Attr.mono s.pen = Attr.mono t.pen
  ch : ∀ r c, (s.grid r c).ch = (t.grid r c).ch
  attr : ∀ r c, Attr.mono (s.grid r c).attr = Attr.mono (t.grid r c).attr

theorem SameText.step {s t : State} (h : SameText s t) (c : Char) : SameText (step s c) (step t c) := by
  obtain ⟨m, r, cl, p, g, l⟩ := s
  obtain ⟨m', r', cl', p', g', l'⟩ := t
  obtain ⟨h1, h2, h3, h4, h5, h6⟩ := h
  simp only at h1 h2 h3 h4 h5 h6
  subst h1 h2 h3
  unfold Term.step
  cases m with
  | ground =>
    simp only
    split_ifs
    · exact ⟨rfl, rfl, rfl, h4, h5, h6⟩
    · exact ⟨rfl, rfl, rfl, h4, h5, h6⟩
    · exact ⟨rfl, rfl, rfl, h4, h5, h6⟩
    · refine ⟨rfl, rfl, rfl, h4, fun a b => ?_, fun a b => ?_⟩
      · simp only [setGrid]; split_ifs
        · rfl
        · exact h5 a b
      · simp only [setGrid]; split_ifs
        · exact h4
        · exact h6 a b
    · exact ⟨rfl, rfl, rfl, h4, h5, h6⟩
  | esc => simp only; split_ifs <;> exact ⟨rfl, rfl, rfl, h4, h5, h6⟩
  | csi ps =>
    simp only
    split_ifs
    · exact ⟨rfl, rfl, rfl, h4, h5, h6⟩
    · unfold dispatch
      cases params 0 ps with
      | none => exact ⟨rfl, rfl, rfl, h4, h5, h6⟩
      | some ns =>
        simp only
        split_ifs
        · exact ⟨rfl, rfl, rfl, sgr_mono _ _ _ h4, h5, h6⟩
        · exact ⟨rfl, rfl, rfl, h4, h5, h6⟩
        · exact ⟨rfl, rfl, rfl, h4, h5, h6⟩
    · exact ⟨rfl, rfl, rfl, h4, h5, h6⟩
  | str => simp only; split_ifs <;> exact ⟨rfl, rfl, rfl, h4, h5, h6⟩
  | strEsc => simp only; split_ifs <;> exact ⟨rfl, rfl, rfl, h4, h5, h6⟩

theorem SameText.run {s t : State} (h : SameText s t) (str : Str) : SameText (run s str) (run t str) := by
  induction str generalizing s t with
  | nil => exact h
  | cons c str ih => exact ih (h.step c)

theorem cellAttr_mono (den : Color → TColor) (cell : Cell) : Attr.mono (cellAttr den cell) = Attr.clean := by
  obtain ⟨ch, fg, bg⟩ := cell
  unfold cellAttr paintOpt paint
  cases fg <;> cases bg <;> simp only <;> (try split_ifs) <;> rfl

theorem cellGlyph_mono (den den' : Color → TColor) (cell : Cell) :
    (cellGlyph den cell).ch = (cellGlyph den' cell).ch ∧
    Attr.mono (cellGlyph den cell).attr = Attr.mono (cellGlyph den' cell).attr := by
  have h := SameText.run (s := { pen := cellAttr den cell, grid := fun _ _ => { ch := ' ', attr := Attr.clean } })
    (t := { pen := cellAttr den' cell, grid := fun _ _ => { ch := ' ', attr := Attr.clean } })
    ⟨rfl, rfl, rfl, (cellAttr_mono den cell).trans (cellAttr_mono den' cell).symm, fun _ _ => rfl, fun _ _ => rfl⟩ cell.char
  exact ⟨h.ch 1 1, h.attr 1 1⟩

theorem execAll_akin (env env' : Color.Env) (o : Int × Int) (ops : List Op) (s t : Sys) (h : s.w.Akin t.w) :
    (execAll env o s ops).w.Akin (execAll env' o t ops).w := by
  induction ops generalizing s t with
  | nil => exact h
  | cons op ops ih =>
    refine ih _ _ ?_
    cases op with
    | write spans cursor tb force => exact (writeBulk_akin env env' _ tb force s.w t.w h).1
    | writeBulk data tb force => exact (writeBulk_akin env env' data tb force s.w t.w h).1
    | clear fill => exact Api.run_akin env env' (.clear [fill]) s.w t.w h
    | draw => exact Api.run_akin env env' (.render o false) s.w t.w h

/-- **C123**, what is shown: one history on two terminals of different colour support
(that both show the colours of the history, as `den` and `den'`). After a draw they show
the same text with the same styles everywhere; only the colours may differ. -/
theorem C123_shown (env env' : Color.Env) (den den' : Color → TColor) (hden : DenOk env den) (hden' : DenOk env' den')
    (ox oy : Nat) (hx : 1 ≤ ox) (hy : 1 ≤ oy) (w h : Nat) (cur : Int × Int) (fill : Char)
    (hfill : Printable fill) (cache : CharCache) (hcache : CacheOk cache)
    (T T' : State) (hT : T.mode = .ground) (hpen : T.pen = Attr.clean) (hT' : T'.mode = .ground) (hpen' : T'.pen = Attr.clean)
    (ops : List Op) (hops : ∀ op ∈ ops, OpOk (SpanOk env den) op) (hops' : ∀ op ∈ ops, OpOk (SpanOk env' den') op) :
    let a := execAll env (ox, oy) { w := { scr := Screen.init w h cur [fill], cache := cache }, term := T } (ops ++ [.draw])
    let b := execAll env' (ox, oy) { w := { scr := Screen.init w h cur [fill], cache := cache }, term := T' } (ops ++ [.draw])
    a.w.scr.offset = 0 →
    ∀ x y, x < w → y < h →
      (a.term.grid (y + oy) (x + ox)).ch = (b.term.grid (y + oy) (x + ox)).ch ∧
      Attr.mono (a.term.grid (y + oy) (x + ox)).attr = Attr.mono (b.term.grid (y + oy) (x + ox)).attr := by
  intro a b ho x y hxw hyh
  have hk : a.w.Akin b.w := execAll_akin env env' (ox, oy) (ops ++ [.draw])
    { w := { scr := Screen.init w h cur [fill], cache := cache }, term := T }
    { w := { scr := Screen.init w h cur [fill], cache := cache }, term := T' } ⟨⟨rfl, rfl⟩, rfl⟩
  have hk1 := hk.1.1
  simp only [Screen.forget, Screen.mk.injEq] at hk1
  obtain ⟨c, hc, g⟩ := C01_draw_shows_screen env den hden ox oy hx hy w h cur fill hfill cache hcache T hT hpen ops hops ho x y hxw hyh
  obtain ⟨c', hc', g'⟩ := C01_draw_shows_screen env' den' hden' ox oy hx hy w h cur fill hfill cache hcache T' hT' hpen' ops hops'
    (hk1.2.2.2.2.2 ▸ ho) x y hxw hyh
  have : c = c' := by
    have e : cellAt a.w.scr.cells x y = cellAt b.w.scr.cells x y := by rw [hk1.2.2.1]
    exact Option.some.inj (hc.symm.trans (e.trans hc'))
  subst this
  show (a.term.grid (y + oy) (x + ox)).ch = (b.term.grid (y + oy) (x + ox)).ch ∧ _
  rw [show a.term.grid (y + oy) (x + ox) = _ from g, show b.term.grid (y + oy) (x + ox) = _ from g']
  exact cellGlyph_mono den den' c

/-- The same for all colour spaces and colours that were not made from the codes of a
terminal. -/
theorem C123_shown_spaces (env env' : Color.Env) (ox oy : Nat) (hx : 1 ≤ ox) (hy : 1 ≤ oy) (w h : Nat) (cur : Int × Int) (fill : Char)
    (hfill : Printable fill) (cache : CharCache) (hcache : CacheOk cache)
    (T T' : State) (hT : T.mode = .ground) (hpen : T.pen = Attr.clean) (hT' : T'.mode = .ground) (hpen' : T'.pen = Attr.clean)
    (ops : List Op) (hops : ∀ op ∈ ops, OpOk (fun s =>
      (∀ c ∈ s.text, Printable c ∨ (c = '\n' ∧ s.style = {})) ∧
      (∀ c, s.fg = some c ∨ s.bg = some c → c.ctor = none ∨ ∃ t, c.ctor = some ('#' :: t))) op) :
    let a := execAll env (ox, oy) { w := { scr := Screen.init w h cur [fill], cache := cache }, term := T } (ops ++ [.draw])
    let b := execAll env' (ox, oy) { w := { scr := Screen.init w h cur [fill], cache := cache }, term := T' } (ops ++ [.draw])
    a.w.scr.offset = 0 →
    ∀ x y, x < w → y < h →
      (a.term.grid (y + oy) (x + ox)).ch = (b.term.grid (y + oy) (x + ox)).ch ∧
      Attr.mono (a.term.grid (y + oy) (x + ox)).attr = Attr.mono (b.term.grid (y + oy) (x + ox)).attr := by
  have key : ∀ env : Color.Env, ∀ op ∈ ops, OpOk (SpanOk env (denOf env)) op := by
    intro env op hop
    have := hops op hop
    have key : ∀ s : Span, ((∀ c ∈ s.text, Printable c ∨ (c = '\n' ∧ s.style = {})) ∧
        (∀ c, s.fg = some c ∨ s.bg = some c → c.ctor = none ∨ ∃ t, c.ctor = some ('#' :: t))) →
        SpanOk env (denOf env) s := fun s hs =>
      ⟨hs.1, fun c hc => sendable_of_hex env c (hs.2 c (.inl hc)),
        fun c hc => sendable_of_hex env c (hs.2 c (.inr hc))⟩
    cases op with
    | write spans c tb f => exact fun s hs => key s (this s hs)
    | writeBulk data tb f => exact fun e he s hs => key s (this e he s hs)
    | clear f => exact this
    | draw => trivial
  exact C123_shown env env' (denOf env) (denOf env') (denOk env) (denOk env') ox oy hx hy w h cur fill hfill cache hcache T T' hT hpen hT' hpen'
    ops (key env) (key env')

namespace C123ex
/-- Bold red text; the colour space is changed between the calls. -/
def calls : List (Color.Env × Color.Env × Api) :=
  [({}, { space := .standard }, .write [{ text := "abc".toList, style := { bold := true }, fg := some { r := 200, g := 0, b := 0 } }]
      (some (1, 0)) Color.black false),
   ({}, { space := .noColor }, .write [{ text := "de".toList, fg := some { r := 0, g := 200, b := 0 } }] (some (0, 1)) Color.black false)]

def blank : World := { scr := Screen.init 4 2 }

/-- The strings that are sent do differ. -/
example : ((calls.foldl (fun w c => Api.run c.1 w c.2.2) blank).scr.render (1, 1)).2 ≠
    ((calls.foldl (fun w c => Api.run c.2.1 w c.2.2) blank).scr.render (1, 1)).2 := by decide +kernel

/-- The colours that are shown do differ, the text is there. -/
example :
    let op : Op := .write [{ text := "ab".toList, style := { bold := true }, fg := some { r := 200, g := 0, b := 0 } }] (some (1, 0)) Color.black false
    let g := fun space => (execAll { space := space } (1, 1) { w := blank, term := { grid := fun _ _ => ⟨'?', {}⟩ } } [op, .draw]).term.grid 1 2
    g .trueColor = ⟨'a', { bold := true, fg := .rgb 200 0 0 }⟩ ∧ g .standard = ⟨'a', { bold := true, fg := .idx 1 }⟩ := by
  decide +kernel
end C123ex

end Slate
