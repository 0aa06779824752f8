import Verif.Props.Parse
import Verif.Props.Terminal
import Verif.Props.Codes
import Verif.Props.Write

/-!
# C93: writing a string with escape sequences, against printing it
-/

namespace Slate
open Py Term

/-- The terminal colour that the code of a colour selects; for a colour without a code, the one it is converted to. -/
def codeDen (env : Color.Env) (c : Color) : TColor :=
  match c.ctor with
  | none => denOf env c
  | some s =>
    match params 0 s with
    | none => denOf env c
    | some ns => if c.isBg then (sgr ns Attr.clean).bg else (sgr ns Attr.clean).fg

theorem codeDen_ok (env : Color.Env) : DenOk env (codeDen env) := by
  intro c hc
  unfold codeDen
  rw [hc]
  exact denOk env c hc

theorem codeDen_code (env : Color.Env) {ns : List Nat} (h : CodeNums ns) :
    ∀ rest a, sgr (ns ++ rest) a = sgr rest (paint (codeColor ns).isBg (codeDen env (codeColor ns)) a) := by
  obtain ⟨t, ht, -⟩ := sgr_code h
  have hd : codeDen env (codeColor ns) = t := by
    unfold codeDen
    rw [(codeColor_alpha h).2]
    obtain ⟨n, ns', rfl⟩ := List.exists_cons_of_ne_nil (show ns ≠ [] by cases h <;> simp)
    simp only [codeStr, params_join]
    have := ht [] Attr.clean
    rw [List.append_nil] at this
    rw [this]
    cases (codeColor (n :: ns')).isBg <;> rfl
  rw [hd]
  exact ht

theorem sendable_code {env : Color.Env} (henv : env.space = .trueColor) {ns : List Nat} (h : CodeNums ns) :
    Sendable env (codeColor ns) (codeDen env (codeColor ns)) := by
  have h1 := codeDen_code env h
  have h2 := codeColor_ansi henv h
  obtain ⟨n, ns', rfl⟩ := List.exists_cons_of_ne_nil (show ns ≠ [] by cases h <;> simp)
  exact ⟨n, ns', h2, h1⟩

/-- The colour of a span is a code in the given role, and the pen has the colour of that code. -/
def ByCode (env : Color.Env) (bg : Bool) (t : TColor) : Option Color → Prop
  | none => t = .default
  | some c => (∃ ns, CodeNums ns ∧ c = codeColor ns) ∧ c.isBg = bg ∧ codeDen env c = t

theorem unit_byCode (env : Color.Env) {u : SgrUnit} (h : u.Ok) {o : Opts} {a : Attr} (hf : ByCode env false a.fg o.fg)
    (hb : ByCode env true a.bg o.bg) :
    ∃ a', (∀ rest, sgr (u.nums ++ rest) a = sgr rest a') ∧ ByCode env false a'.fg (u.eff o).fg ∧
      ByCode env true a'.bg (u.eff o).bg := by
  cases u with
  | set k =>
    obtain ⟨h1, h2⟩ := h
    have hk : k = 1 ∨ k = 2 ∨ k = 3 ∨ k = 4 ∨ k = 5 ∨ k = 6 ∨ k = 7 ∨ k = 8 ∨ k = 9 := by omega
    refine ⟨sgr1 k a, fun rest => sgr_cons (by omega) (by omega) rest a, ?_⟩
    rcases hk with rfl | rfl | rfl | rfl | rfl | rfl | rfl | rfl | rfl <;> exact ⟨hf, hb⟩
  | unset k =>
    simp only [SgrUnit.Ok, List.mem_cons, List.not_mem_nil, or_false] at h
    refine ⟨sgr1 k a, fun rest => sgr_cons (by omega) (by omega) rest a, ?_⟩
    rcases h with rfl | rfl | rfl | rfl | rfl | rfl | rfl
    · exact ⟨hf, hb⟩
    · exact ⟨hf, hb⟩
    · exact ⟨hf, hb⟩
    · exact ⟨hf, hb⟩
    · exact ⟨hf, hb⟩
    · exact ⟨rfl, hb⟩
    · exact ⟨hf, rfl⟩
  | color ns =>
    refine ⟨_, fun rest => codeDen_code env h rest a, ?_⟩
    simp only [SgrUnit.eff, Opts.paint]
    cases hr : (codeColor ns).isBg with
    | true => exact ⟨hf, ⟨ns, h, rfl⟩, hr, rfl⟩
    | false => exact ⟨⟨⟨ns, h, rfl⟩, hr, rfl⟩, hb⟩

theorem seq_byCode (env : Color.Env) {us : List SgrUnit} (h : ∀ u ∈ us, u.Ok) {o : Opts} {a : Attr}
    (hf : ByCode env false a.fg o.fg) (hb : ByCode env true a.bg o.bg) :
    ByCode env false (sgr (seqNums us) a).fg (seqEff us o).fg ∧ ByCode env true (sgr (seqNums us) a).bg (seqEff us o).bg := by
  induction us generalizing o a with
  | nil => exact ⟨hf, hb⟩
  | cons u us ih =>
    obtain ⟨a', h1, h2, h3⟩ := unit_byCode env (h u (by simp)) hf hb
    rw [seqNums, List.flatMap_cons, h1]
    exact ih (fun v hv => h v (by simp [hv])) h2 h3

theorem item_run {it : Item} (h : it.Ok) (hp : ∀ c ∈ it.text, Printable c) (st : State) (rest : Str) (hm : st.mode = .ground) :
    run st (it.str ++ rest) = run (printed { st with pen := sgr (seqNums it.units) st.pen } it.text) rest := by
  obtain ⟨n, ns, hn⟩ := List.exists_cons_of_ne_nil (seqNums_ne_nil h.ne h.units)
  rw [← run_printable { st with pen := sgr (seqNums it.units) st.pen } it.text rest hm hp, hn, ← run_sgr st n ns _ hm, ← hn]
  simp [Item.str, codeStr]

/-- Number of characters of a line. -/
def lineLen (items : List Item) : Nat := (items.map fun it => it.text.length).sum

/-- The grid after printing a line: only the cells of the text have changed. -/
theorem line_frame {items : List Item} (h : ∀ it ∈ items, it.Ok) (hp : ∀ it ∈ items, ∀ c ∈ it.text, Printable c)
    (st : State) (hm : st.mode = .ground) (r c : Nat) (hc : ¬ (r = st.row ∧ st.col ≤ c ∧ c < st.col + lineLen items)) :
    (run st (lineOf items)).grid r c = st.grid r c := by
  induction items generalizing st with
  | nil => rfl
  | cons it its ih =>
    rw [lineOf, List.flatMap_cons, item_run (h it (by simp)) (hp it (by simp)) st _ hm]
    simp only [lineLen, List.map_cons, List.sum_cons] at hc
    refine (ih (fun x hx => h x (by simp [hx])) (fun x hx => hp x (by simp [hx]))
      (printed { st with pen := sgr (seqNums it.units) st.pen } it.text) hm ?_).trans ?_
    · simp only [printed, lineLen]; omega
    · simp only [printed]
      rw [if_neg (by omega)]

/-- The spans of a line against the cells of the printed line. -/
theorem line_cells (env : Color.Env) {items : List Item} (h : ∀ it ∈ items, it.Ok)
    (hp : ∀ it ∈ items, ∀ c ∈ it.text, Printable c) (h25 : ∀ it ∈ items, .unset 25 ∉ it.units) {o : Opts} (st : State)
    (hm : st.mode = .ground) (ha : Agree true o.style o.fg o.bg st.pen) (hbad : o.bad = false)
    (hf : ByCode env false st.pen.fg o.fg) (hb : ByCode env true st.pen.bg o.bg)
    (k : Nat) (hk : k < lineLen items) :
    ∃ pre sp post j c a, spansOf o items = pre ++ sp :: post ∧ sp.text[j]? = some c ∧ (pre.map Span.len).sum + j = k ∧
      (run st (lineOf items)).grid st.row (st.col + k) = { ch := c, attr := a } ∧
      Agree true sp.style sp.fg sp.bg a ∧ ByCode env false a.fg sp.fg ∧ ByCode env true a.bg sp.bg ∧ sp.resetAfter = true := by
  induction items generalizing st o k with
  | nil => simp [lineLen] at hk
  | cons it its ih =>
    have hit := h it (by simp)
    obtain ⟨ag, ab⟩ := seq_agree hit.units (fun _ => h25 it (by simp)) ha hbad
    obtain ⟨bf, bb⟩ := seq_byCode env hit.units hf hb
    rw [lineOf, List.flatMap_cons, item_run hit (hp it (by simp)) st _ hm]
    by_cases hlt : k < it.text.length
    · obtain ⟨c, hc⟩ : ∃ c, it.text[k]? = some c := ⟨_, List.getElem?_eq_getElem hlt⟩
      refine ⟨[], _, _, k, c, sgr (seqNums it.units) st.pen, rfl, hc, by simp, ?_, ag, bf, bb, rfl⟩
      rw [show List.flatMap Item.str its = lineOf its from rfl,
        line_frame (fun x hx => h x (by simp [hx])) (fun x hx => hp x (by simp [hx])) _ (by exact hm) st.row (st.col + k)
          (by simp only [printed]; omega)]
      simp only [printed]
      rw [if_pos ⟨trivial, by omega, by omega⟩, Nat.add_sub_cancel_left, List.getD_eq_getElem?_getD, hc]
      rfl
    · simp only [lineLen, List.map_cons, List.sum_cons] at hk
      obtain ⟨pre, sp, post, j, c, a, h1, h2, h3, h4, h5⟩ := ih (fun x hx => h x (by simp [hx])) (fun x hx => hp x (by simp [hx]))
        (fun x hx => h25 x (by simp [hx])) (o := seqEff it.units o) (printed { st with pen := sgr (seqNums it.units) st.pen } it.text)
        hm ag ab bf bb (k - it.text.length) (by simp only [lineLen]; omega)
      refine ⟨_ :: pre, sp, post, j, c, a, by rw [spansOf, h1]; rfl, h2, ?_, ?_, h5⟩
      · simp only [List.map_cons, List.sum_cons, Span.len]
        omega
      · simp only [printed] at h4 ⊢
        rw [show st.col + it.text.length + (k - it.text.length) = st.col + k by omega] at h4
        exact h4

theorem spansOf_colors (env : Color.Env) {items : List Item} (h : ∀ it ∈ items, it.Ok) {o : Opts} {a : Attr}
    (hf : ByCode env false a.fg o.fg) (hb : ByCode env true a.bg o.bg) :
    ∀ sp ∈ spansOf o items, (∃ t, ByCode env false t sp.fg) ∧ (∃ t, ByCode env true t sp.bg) ∧ ∃ it ∈ items, sp.text = it.text := by
  induction items generalizing o a with
  | nil => simp [spansOf]
  | cons it its ih =>
    obtain ⟨bf, bb⟩ := seq_byCode env (h it (by simp)).units hf hb
    intro sp hsp
    rcases List.mem_cons.mp hsp with rfl | hsp
    · exact ⟨⟨_, bf⟩, ⟨_, bb⟩, it, by simp, rfl⟩
    · obtain ⟨h1, h2, it', h3, h4⟩ := ih (fun x hx => h x (by simp [hx])) bf bb sp hsp
      exact ⟨h1, h2, it', by simp [h3], h4⟩

/-- The rendition with the library's colour for text without a colour. -/
def whitened (env : Color.Env) (g : Glyph) : Glyph :=
  { g with attr := { g.attr with fg := if g.attr.fg = .default then denOf env Color.white else g.attr.fg } }

theorem look_whitened (env : Color.Env) (sp : Span) (a : Attr) (e5 : Agree true sp.style sp.fg sp.bg a)
    (e6 : ByCode env false a.fg sp.fg) (e7 : ByCode env true a.bg sp.bg) :
    applyStyle sp.style (paintOpt (codeDen env) sp.bg (paintOpt (codeDen env) (some (sp.fg.getD Color.white)) Attr.clean)) =
      { a with fg := if a.fg = .default then denOf env Color.white else a.fg } := by
  obtain ⟨a1, a2, a3, a4, a5, a6, a7, a8, a9, -, -, -⟩ := e5
  cases sp with | mk text fg bgc hyper style reset =>
  simp only at a1 a2 a3 a4 a5 a6 a7 a8 a9 e6 e7
  cases a with | mk b1 b2 b3 b4 b5 b6 b7 b8 b9 afg abg =>
  simp only at a1 a2 a3 a4 a5 a6 a7 a8 a9 e6 e7
  have hwhite : codeDen env Color.white = denOf env Color.white := rfl
  have hnd : ∀ ns, CodeNums ns → codeDen env (codeColor ns) ≠ .default := by
    intro ns hn hdef
    obtain ⟨t, ht, hs⟩ := sgr_code hn
    have hd2 := codeDen_code env hn [] Attr.clean
    rw [ht [] Attr.clean, hdef] at hd2
    simp only [sgr] at hd2
    cases hbg : (codeColor ns).isBg with
    | true =>
      rw [hbg] at hd2 hs
      simp only [paint, if_true, Attr.mk.injEq] at hd2
      rw [hd2.2.2.2.2.2.2.2.2.2.2] at hs
      simp [Shows] at hs
    | false =>
      rw [hbg] at hd2 hs
      simp only [paint, Bool.false_eq_true, if_false, Attr.mk.injEq] at hd2
      rw [hd2.2.2.2.2.2.2.2.2.2.1] at hs
      simp [Shows] at hs
  cases fg with
  | none =>
    cases bgc with
    | none =>
      simp only [ByCode] at e6 e7
      subst e6 e7
      simp [applyStyle, paintOpt, paint, Attr.clean, Color.white, a1, a2, a3, a4, a5, a6, a7, a8, a9]
      rfl
    | some b =>
      obtain ⟨⟨nb, hnb, rfl⟩, hrb, rfl⟩ := e7
      simp only [ByCode] at e6
      subst e6
      simp [applyStyle, paintOpt, paint, Attr.clean, Color.white, a1, a2, a3, a4, a5, a6, a7, a8, a9, hrb]
      rfl
  | some f =>
    obtain ⟨⟨nf, hnf, rfl⟩, hrf, rfl⟩ := e6
    have hne := hnd nf hnf
    cases bgc with
    | none =>
      simp only [ByCode] at e7
      subst e7
      simp [applyStyle, paintOpt, paint, Attr.clean, a1, a2, a3, a4, a5, a6, a7, a8, a9, hrf, hne]
    | some b =>
      obtain ⟨⟨nb, hnb, rfl⟩, hrb, rfl⟩ := e7
      simp [applyStyle, paintOpt, paint, Attr.clean, a1, a2, a3, a4, a5, a6, a7, a8, a9, hrf, hrb, hne]

/-- **C93**, exact: a line of SGR sequences and printable text is written to a fresh screen with `Terminal.write` and drawn;
the line fits into the row. Then every cell of the text shows what it would show if the string had been printed there, except that
text in the default colour is shown in white. Lines are over the codes of C31. -/
theorem C93_line_partial (env : Color.Env) (henv : env.space = .trueColor) (width height : Nat) (x y : Nat)
    (hy : y < height) (items : List Item) (h : ∀ it ∈ items, it.Ok) (hp : ∀ it ∈ items, ∀ c ∈ it.text, Printable c)
    (h25 : ∀ it ∈ items, .unset 25 ∉ it.units) (hfit : x + lineLen items ≤ width) (bg : Color)
    (T : State) (hT : T.mode = .ground) (hpen : T.pen = Attr.clean) (k : Nat) (hk : k < lineLen items) :
    let r := Terminal.write env (.str (lineOf items)) (some ((x : Int), (y : Int))) bg { scr := Screen.init width height }
    let drawn := run T (r.1.scr.render (1, 1)).2
    let printed := run { T with row := y + 1, col := x + 1 } (lineOf items)
    (∃ n, r.2 = .ok n) ∧
    drawn.grid (y + 1) (x + k + 1) = whitened env (printed.grid (y + 1) (x + k + 1)) := by
  intro r drawn pr
  have hy' := yieldFrom_items h
  have hcolors := spansOf_colors env h (o := {}) (a := Attr.clean) rfl rfl
  have hr : r = Slate.write env (spansOf {} items) (some ((x : Int), (y : Int))) bg false { scr := Screen.init width height } := by
    show Terminal.write env _ _ bg _ = _
    rw [C66_write, hy']
    exact terminal_write_spans env _ _ bg false _
  have halpha : ∀ s ∈ spansOf {} items, ∀ b, s.bg = some b ∨ s.fg = some b → b.alpha = 1 := by
    intro s hs b hb
    obtain ⟨⟨t1, h1⟩, ⟨t2, h2⟩, -⟩ := hcolors s hs
    rcases hb with hb | hb
    · rw [hb] at h2
      obtain ⟨⟨ns, hn, rfl⟩, -⟩ := h2
      exact (codeColor_alpha hn).1
    · rw [hb] at h1
      obtain ⟨⟨ns, hn, rfl⟩, -⟩ := h1
      exact (codeColor_alpha hn).1
  have hprs : ∀ s ∈ spansOf {} items, ∀ c ∈ s.text, Printable c := by
    intro s hs c hc
    obtain ⟨-, -, it, hit, he⟩ := hcolors s hs
    exact hp it hit c (he ▸ hc)
  have hnl : ∀ s ∈ spansOf {} items, '\n' ∉ s.text := fun s hs hm => absurd (hprs s hs _ hm) (by decide)
  have hok : ∀ s ∈ spansOf {} items, SpanOk env (codeDen env) s := by
    intro s hs
    obtain ⟨⟨t1, h1⟩, ⟨t2, h2⟩, -⟩ := hcolors s hs
    refine ⟨fun c hc => .inl (hprs s hs c hc), ?_, ?_⟩
    · intro c hc
      rw [hc] at h1
      obtain ⟨⟨ns, hn, rfl⟩, -⟩ := h1
      exact sendable_code henv hn
    · intro c hc
      rw [hc] at h2
      obtain ⟨⟨ns, hn, rfl⟩, -⟩ := h2
      exact sendable_code henv hn
  have hsum : ((spansOf {} items).map Span.len).sum = lineLen items := by
    have key : ∀ (its : List Item) (o : Opts), ((spansOf o its).map Span.len).sum = lineLen its := by
      intro its
      induction its with
      | nil => intro o; rfl
      | cons it its ih =>
        intro o
        simp only [spansOf, List.map_cons, List.sum_cons, lineLen, Span.len]
        rw [ih]
        rfl
    exact key items {}
  have hrow : y * width + width ≤ height * width := by
    calc y * width + width = (y + 1) * width := by ring
      _ ≤ height * width := Nat.mul_le_mul_right _ hy
  have hcorner : ∀ s t rest, spansOf {} items = s :: t :: rest → y * width + x + s.text.length ≠ height * width := by
    intro s t rest he
    have ht : t ∈ spansOf {} items := by rw [he]; simp
    obtain ⟨-, -, it, hit, htx⟩ := hcolors t ht
    have hpos : 0 < t.text.length := by
      rw [htx]
      exact List.length_pos_of_ne_nil (h it hit).text.1
    rw [he] at hsum
    simp only [List.map_cons, List.sum_cons, Span.len] at hsum
    omega
  obtain ⟨pre, sp, post, j, c, a, e1, e2, e3, e4, e5, e6, e7, e8⟩ := line_cells env h hp h25 (o := {})
    { T with row := y + 1, col := x + 1 } hT (by rw [hpen]; exact Agree.clean true) rfl (by rw [hpen]; rfl) (by rw [hpen]; rfl) k hk
  have hx : x < width := by omega
  have hsp : sp ∈ spansOf {} items := by rw [e1]; simp
  have hshown := C05_write_then_draw env (codeDen env) (codeDen_ok env) 1 1 (Nat.le_refl 1) (Nat.le_refl 1) width height (0, 0) ' '
    (by decide) T hT hpen x y hx hy (spansOf {} items) hok hnl halpha hcorner bg false pre sp post e1 e8 j c e2
  have hi : y * width + x + (pre.map Span.len).sum + j = y * width + (x + k) := by omega
  simp only [hi] at hshown
  have hmod : (y * width + (x + k)) % width = x + k := by
    rw [Nat.mul_comm, Nat.mul_add_mod, Nat.mod_eq_of_lt (by omega)]
  have hdiv : (y * width + (x + k)) / width = y := by
    rw [Nat.mul_comm, Nat.mul_add_div (by omega), Nat.div_eq_of_lt (by omega), Nat.add_zero]
  rw [hmod, hdiv] at hshown
  have hwr := C05_placement_partial env bg false { scr := Screen.init width height } (resize_shape _ width height [' '] true)
    (by intro e he; simp at he) rfl x y hx hy (spansOf {} items) hnl (fun s hs b hb => halpha s hs b (.inl hb)) hcorner
  refine ⟨by rw [hr]; exact hwr.1, ?_⟩
  have hd : drawn = (execAll env (1, 1) { w := { scr := Screen.init width height (0, 0) [' '] }, term := T }
      [.write (spansOf {} items) (some ((x : Int), (y : Int))) bg false, .draw]).term := by
    show run T (r.1.scr.render (1, 1)).2 = _
    rw [hr]
    rfl
  rw [hd]
  refine (hshown (by omega)).trans ?_
  have e4' : pr.grid (y + 1) (x + k + 1) = { ch := c, attr := a } := by
    rw [show x + k + 1 = x + 1 + k by omega]
    exact e4
  rw [e4', look_whitened env sp a e5 e6 e7]
  rfl

/-- **C93**: coloured text is shown exactly as printed. -/
theorem C93_coloured_partial (env : Color.Env) (henv : env.space = .trueColor) (width height : Nat) (x y : Nat)
    (hy : y < height) (items : List Item) (h : ∀ it ∈ items, it.Ok) (hp : ∀ it ∈ items, ∀ c ∈ it.text, Printable c)
    (h25 : ∀ it ∈ items, .unset 25 ∉ it.units) (hfit : x + lineLen items ≤ width) (bg : Color)
    (T : State) (hT : T.mode = .ground) (hpen : T.pen = Attr.clean) (k : Nat) (hk : k < lineLen items) :
    let r := Terminal.write env (.str (lineOf items)) (some ((x : Int), (y : Int))) bg { scr := Screen.init width height }
    let drawn := run T (r.1.scr.render (1, 1)).2
    let printed := run { T with row := y + 1, col := x + 1 } (lineOf items)
    (printed.grid (y + 1) (x + k + 1)).attr.fg ≠ .default →
    drawn.grid (y + 1) (x + k + 1) = printed.grid (y + 1) (x + k + 1) := by
  intro r drawn pr hne
  refine (C93_line_partial env henv width height x y hy items h hp h25 hfit bg T hT hpen k hk).2.trans ?_
  unfold whitened
  rw [if_neg hne]

/-- C93 is violated by all text in the default colour: it is shown in white, on every such line. -/
theorem C93_default_violated (env : Color.Env) (henv : env.space = .trueColor) (width height : Nat) (x y : Nat)
    (hy : y < height) (items : List Item) (h : ∀ it ∈ items, it.Ok) (hp : ∀ it ∈ items, ∀ c ∈ it.text, Printable c)
    (h25 : ∀ it ∈ items, .unset 25 ∉ it.units) (hfit : x + lineLen items ≤ width) (bg : Color)
    (T : State) (hT : T.mode = .ground) (hpen : T.pen = Attr.clean) (k : Nat) (hk : k < lineLen items) :
    let r := Terminal.write env (.str (lineOf items)) (some ((x : Int), (y : Int))) bg { scr := Screen.init width height }
    let drawn := run T (r.1.scr.render (1, 1)).2
    let printed := run { T with row := y + 1, col := x + 1 } (lineOf items)
    (printed.grid (y + 1) (x + k + 1)).attr.fg = .default →
    (drawn.grid (y + 1) (x + k + 1)).attr.fg = .rgb 255 255 255 := by
  intro r drawn pr hdef
  have e := (C93_line_partial env henv width height x y hy items h hp h25 hfit bg T hT hpen k hk).2
  have e' : drawn.grid (y + 1) (x + k + 1) = whitened env (pr.grid (y + 1) (x + k + 1)) := e
  rw [e']
  unfold whitened
  simp only [hdef, if_true]
  rw [denOf_trueColor henv]
  rfl

namespace C93ex
/-- `ESC[1;38;5;9mred`, `ESC[48;2;1;2;3mon blue`, `ESC[39mplain`. -/
def items : List Item :=
  [{ units := [.set 1, .color [38, 5, 9]], text := "red".toList },
   { units := [.color [48, 2, 1, 2, 3]], text := "on blue".toList },
   { units := [.unset 39], text := "plain".toList }]

example : (∀ it ∈ items, it.Ok) ∧ (∀ it ∈ items, ∀ c ∈ it.text, Printable c) ∧ (∀ it ∈ items, .unset 25 ∉ it.units) ∧
    2 + lineLen items ≤ 20 := by
  refine ⟨?_, by decide, by decide, by decide⟩
  intro it hit
  simp only [items, List.mem_cons, List.not_mem_nil, or_false] at hit
  rcases hit with rfl | rfl | rfl
  · refine ⟨by decide, ?_, by decide, by decide⟩
    intro u hu
    simp only [List.mem_cons, List.not_mem_nil, or_false] at hu
    rcases hu with rfl | rfl
    · exact ⟨by decide, by decide⟩
    · exact CodeNums.idx false 9 (by decide)
  · refine ⟨by decide, ?_, by decide, by decide⟩
    intro u hu
    simp only [List.mem_cons, List.not_mem_nil, or_false] at hu
    subst hu
    exact CodeNums.rgb true 1 2 3 (by decide) (by decide) (by decide)
  · refine ⟨by decide, ?_, by decide, by decide⟩
    intro u hu
    simp only [List.mem_cons, List.not_mem_nil, or_false] at hu
    subst hu
    show (39 : Nat) ∈ _
    decide

/-- What printing gives, at the letters `r`, `o` and `p`. -/
example : let printed := run { grid := fun _ _ => ⟨'?', Attr.clean⟩, row := 1, col := 3 } (lineOf items)
    printed.grid 1 3 = ⟨'r', { bold := true, fg := .idx 9 }⟩ ∧
    printed.grid 1 6 = ⟨'o', { bold := true, fg := .idx 9, bg := .rgb 1 2 3 }⟩ ∧
    printed.grid 1 13 = ⟨'p', { bold := true, bg := .rgb 1 2 3 }⟩ := by decide +kernel
end C93ex

/-- C93 is violated by text before the first sequence: of `ab ESC[31m c` only the `c` is shown, in the place of the `a`. -/
theorem C93_leading_violated :
    let line : Str := "ab\x1b[31mc".toList
    let T : State := { grid := fun _ _ => ⟨'?', Attr.clean⟩ }
    let r := Terminal.write { space := .trueColor, grey := fun _ => 0 } (.str line) (some (0, 0)) Color.black
      { scr := Screen.init 4 1 }
    let drawn := run T (r.1.scr.render (1, 1)).2
    let printed := run T line
    ((List.range' 1 4).map fun k => (drawn.grid 1 k).ch) = "c   ".toList ∧
    ((List.range' 1 4).map fun k => (printed.grid 1 k).ch) = "abc?".toList := by decide +kernel

end Slate
