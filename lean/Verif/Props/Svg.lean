import Verif.Lemmas.Css
import Verif.Lemmas.Relative
import Verif.Props.Redraw
import Verif.Props.Group

/-!
# SVG export: C67 - C70
-/

namespace Slate
open Py Markup Svg

/-! ## C67 Placement and colours -/

/-- A group of cells on the screen: its row, its number in the row, its first column. -/
structure Place where
  row : Nat
  idx : Nat
  col : Nat
  span : Span

/-- Specification: the groups of a row stand next to each other. -/
def placeRow (row : Nat) : List Span → Nat → Nat → List Place
  | [], _, _ => []
  | s :: ss, idx, col => ⟨row, idx, col, s⟩ :: placeRow row ss (idx + 1) (col + s.text.length)

/-- Specification: the rows stand below each other. -/
def placeAll : List (List Span) → Nat → List Place
  | [], _ => []
  | g :: gs, row => placeRow row g 0 0 ++ placeAll gs (row + 1)

/-- Specification: what the export of a group has to look like. A `rect` and a `text` element with the
same `x`, which is the column times the character width; the text stands one font size
below the top of its row; both have the colours of the group, exchanged if it is inverted,
with the default colours for missing ones, and these are colours; the text is the text of the
group. Positions are meant up to the rounding of floats and to two decimals. -/
structure Placed (p : Params) (origin : ℚ × ℚ) (pl : Place) (rect text : Elem) : Prop where
  rectName : rect.name = "rect".toList
  textName : text.name = "text".toList
  position : ∃ x y : Num,
    rect.get "x".toList = some (x.format p.fmt) ∧ text.get "x".toList = some (x.format p.fmt) ∧
    text.get "y".toList = some ((y.add (.int p.fontSize)).format p.fmt) ∧
    Near (pl.idx + 4) x.val (origin.1 + pl.col * (p.fontSize * (60167 / 100000))) ∧
    Near (pl.row + 4) y.val (origin.2 + pl.row * (p.fontSize * (1265 / 1000)))
  textColour : text.get "fill".toList = some
    (if pl.span.style.invert then (pl.span.bg.getD p.dbg).hex else (pl.span.fg.getD p.dfg).hex)
  rectColour : rect.get "fill".toList = some
    (if pl.span.style.invert then (pl.span.fg.getD p.dfg).hex else (pl.span.bg.getD p.dbg).hex)
  colours : (∃ c, text.get "fill".toList = some c ∧ isColour c = true) ∧ ∃ c, rect.get "fill".toList = some c ∧ isColour c = true
  rectBody : rect.body = []
  textBody : Xml.decode text.body = some (pl.span.text.map fun c => if c = ' ' then '\u00a0' else c)

/-- The arguments of an export make sense. -/
structure Svg.Params.Ok (p : Params) : Prop where
  fmt : p.fmt.Ok
  size : 1 ≤ p.fontSize
  dfg : p.dfg.Valid
  dbg : p.dbg.Valid
  cls : ∀ i, ValOk (p.cls i)
  clsName : ∀ i, ClsOk (p.cls i)

variable {p : Params}

attribute [local irreducible] fl

theorem unit_rel (hp : p.Ok) (q : ℚ) (hq : 1 / 2 ≤ q) :
    Norm (fl (p.fontSize * fl q)) ∧ Rel 2 (fl (p.fontSize * fl q)) (p.fontSize * q) := by
  have h1 : (1 : ℚ) ≤ p.fontSize := by exact_mod_cast hp.size
  have small : (2 : ℚ) ^ (-1022 : ℤ) ≤ 1 / 4 :=
    le_trans (zpow_le_zpow_right₀ (by norm_num) (by norm_num : (-1022 : ℤ) ≤ -2)) (by norm_num)
  have n0 : Norm q := .inr (small.trans (by linarith))
  have r1 := (Rel.refl q).fl n0
  have hf : (1 / 2 : ℚ) ≤ fl q := by
    have := fl_mono hq
    rwa [show fl (1 / 2) = 1 / 2 from by decide +kernel] at this
  have n1 : Norm (p.fontSize * fl q) := .inr (small.trans (by nlinarith))
  exact ⟨fl_norm n1, (r1.mul (by linarith)).fl n1⟩

theorem advance_rel (hp : p.Ok) (s : Span) (x : Num) (e : ℚ) (k : Nat) (hx : Norm x.val) (he : 0 ≤ e) (h : Rel (k + 3) x.val e) :
    Norm (advance p s x).val ∧
      Rel (k + 1 + 3) (advance p s x).val (e + s.text.length * (p.fontSize * (60167 / 100000))) := by
  obtain ⟨n1, r1⟩ := unit_rel hp (60167 / 100000) (by norm_num)
  have h1 : (1 : ℚ) ≤ p.fontSize := by exact_mod_cast hp.size
  have hl : (0 : ℚ) ≤ s.text.length := by positivity
  have n2 : Norm (s.text.length * fl (p.fontSize * charWidth)) := by
    rcases Nat.eq_zero_or_pos s.text.length with h0 | h0
    · rw [h0]; simp [Norm]
    · have : (1 : ℚ) ≤ s.text.length := by exact_mod_cast h0
      rcases n1 with n1 | n1
      · exact .inl (by unfold charWidth; rw [n1]; simp)
      · refine .inr (n1.trans ?_)
        unfold charWidth
        have : 0 ≤ fl (p.fontSize * fl (60167 / 100000)) := le_trans (by positivity) n1
        nlinarith
  have r2 := (r1.mul hl).fl n2
  have n3 := fl_norm n2
  have hadv : advance p s x = .flt (fl (x.val + fl (s.text.length * fl (p.fontSize * charWidth)))) := by
    unfold advance
    cases x <;> rfl
  rw [hadv]
  have n4 := hx.add n3
  refine ⟨fl_norm n4, ?_⟩
  have r3 : Rel (k + 3) (fl (s.text.length * fl (p.fontSize * charWidth))) (s.text.length * (p.fontSize * (60167 / 100000))) :=
    r2.mono (by positivity) (by omega)
  exact (h.add r3).fl n4

theorem round2_near {x : Num} {e : ℚ} {k : Nat} (hx : Norm x.val) (he : 0 ≤ e) (h : Rel k x.val e) : Near (k + 1) x.round2.val e := by
  cases x with
  | int n => exact h.near he
  | flt q => exact h.roundTo he hx.nonneg

theorem placed_span (hp : p.Ok) (origin : ℚ × ℚ) (ho : 0 ≤ origin.1 ∧ 0 ≤ origin.2) (pl : Place) (hs : pl.span.ColorsValid)
    (x y : Num) (cls : Str)
    (hx : Norm x.val) (rx : Rel (pl.idx + 3) x.val (origin.1 + pl.col * (p.fontSize * (60167 / 100000))))
    (hy : Norm y.val) (ry : Rel (pl.row + 3) y.val (origin.2 + pl.row * (p.fontSize * (1265 / 1000)))) :
    Placed p origin pl (rectElem p.fmt pl.span p.fontSize x.round2 y.round2 p.dfg p.dbg)
      (textElem p.fmt pl.span p.fontSize x.round2 y.round2 p.dfg p.dbg cls) := by
  have h1 : (1 : ℚ) ≤ p.fontSize := by exact_mod_cast hp.size
  have v1 : (pl.span.fg.getD p.dfg).Valid := by
    cases h : pl.span.fg with
    | none => exact hp.dfg
    | some c => exact hs.1 c h
  have v2 : (pl.span.bg.getD p.dbg).Valid := by
    cases h : pl.span.bg with
    | none => exact hp.dbg
    | some c => exact hs.2 c h
  have vt : (textFill pl.span p.dfg p.dbg).Valid := by
    unfold textFill paperOf inkOf; split <;> assumption
  have vr : (rectFill pl.span p.dfg p.dbg).Valid := by
    unfold rectFill paperOf inkOf; split <;> assumption
  refine ⟨rfl, rfl, ⟨x.round2, y.round2, rfl, rfl, rfl, round2_near hx ?_ rx, round2_near hy ?_ ry⟩, ?_, ?_,
    ⟨⟨_, rfl, isColour_hex vt⟩, _, rfl, isColour_hex vr⟩, rfl, (C35_svg_text_escaped _).2⟩
  · have := ho.1; positivity
  · have := ho.2; positivity
  · show some (textFill pl.span p.dfg p.dbg).hex = _
    unfold textFill paperOf inkOf; split <;> rfl
  · show some (rectFill pl.span p.dfg p.dbg).hex = _
    unfold rectFill paperOf inkOf; split <;> rfl

/-- The colours of the groups are colours of the cells. -/
theorem groupGo_colors (env : Color.Env) : ∀ (cells : List Cell) (st : GroupState) (out : List Span),
    st.group.ColorsValid → (∀ cell ∈ cells, (∀ c, cell.fg = some c → c.Valid) ∧ ∀ c, cell.bg = some c → c.Valid) →
    groupGo env cells st = .ok out → ∀ s ∈ out, s.ColorsValid
  | [], st, out, h, _, ho => by
    simp only [groupGo, Except.ok.injEq] at ho
    subst ho
    simpa using h
  | cell :: cells, st, out, h, hc, ho => by
    have hc' := fun x (hx : x ∈ cells) => hc x (by simp [hx])
    unfold groupGo at ho
    split at ho
    · split at ho
      · cases ho
      · refine groupGo_colors env cells _ out ?_ hc' ho
        exact h
    · split at ho
      · cases ho
      · dsimp only at ho
        split at ho
        · refine groupGo_colors env cells _ out ?_ hc' ho
          exact h
        · split at ho
          · cases ho
          · rename_i out' ho'
            have := groupGo_colors env cells _ out' ?_ hc' ho'
            · simp only [Except.ok.injEq] at ho
              subst ho
              split
              · intro s hs
                rcases List.mem_cons.mp hs with rfl | hs
                · exact h
                · exact this s hs
              · exact this
            · exact hc cell (by simp)

theorem group_colors {env : Color.Env} {cells : List Cell} {out : List Span}
    (hc : ∀ cell ∈ cells, (∀ c, cell.fg = some c → c.Valid) ∧ ∀ c, cell.bg = some c → c.Valid)
    (h : group env cells = .ok out) : ∀ s ∈ out, s.ColorsValid :=
  groupGo_colors env cells {} out ⟨by simp [emptySpan], by simp [emptySpan]⟩ hc h

/-- What was written so far: the elements read from it, and the numbers of the classes of the groups. -/
structure Reads (p : Params) (st : Loop) (es : List (Elem × Elem)) (ps : List (Nat × Span)) : Prop where
  elems : Markup.feed {} st.svg = ⟨.outside, {}, es.flatMap fun e => [e.1, e.2]⟩
  sheet : Css.feed {} st.sheet = ⟨.outside, ⟨[], []⟩, ps.map fun q => ⟨p.cls q.1, cssOf q.2⟩⟩
  classes : es.map (fun e => e.2.get "class".toList) = ps.map fun q => some (p.cls q.1)
  le : ∀ q ∈ ps, q.1 ≤ st.i
  last : ∀ q ∈ ps, q.1 = st.i → ∃ s, st.prev = some s ∧ cssOf q.2 = cssOf s
  same : ∀ q ∈ ps, ∀ r ∈ ps, q.1 = r.1 → cssOf q.2 = cssOf r.2

theorem Reads.init : Reads p {} [] [] := ⟨rfl, rfl, rfl, by simp, by simp, by simp⟩

theorem cssFill_eq {a b : Option Color} (h : Span.optEq a b = true) : cssFill a = cssFill b := by
  unfold Span.optEq at h
  cases a <;> cases b <;> simp_all [cssFill, Color.eq, Color.hex]

theorem cssOf_same {s t : Span} (h : attrsDiffer (some s) t = false) : cssOf s = cssOf t := by
  unfold attrsDiffer Span.attrsEq at h
  simp only [Bool.not_eq_false', Bool.and_eq_true, decide_eq_true_eq] at h
  obtain ⟨_, ⟨⟨h1, h2⟩, _⟩, h3⟩ := h
  unfold cssOf
  rw [h3, cssFill_eq h1, cssFill_eq h2]

theorem reads_span (hp : p.Ok) (s : Span) (hs : s.ColorsValid) (x y : Num) (st : Loop) (es : List (Elem × Elem))
    (ps : List (Nat × Span)) (h : Reads p st es ps) :
    ∃ i, Reads p (exportSpan p s x y st) (es ++ [(rectElem p.fmt s p.fontSize x.round2 y.round2 p.dfg p.dbg,
      textElem p.fmt s p.fontSize x.round2 y.round2 p.dfg p.dbg (p.cls i))]) (ps ++ [(i, s)]) := by
  have v1 : (inkOf s p.dfg).Valid := by
    unfold inkOf
    cases h : s.fg with
    | none => exact hp.dfg
    | some c => exact hs.1 c h
  have v2 : (paperOf s p.dbg).Valid := by
    unfold paperOf
    cases h : s.bg with
    | none => exact hp.dbg
    | some c => exact hs.2 c h
  obtain ⟨h1, h2, h3, h4, h5, h6⟩ := h
  have key : ∀ q ∈ ps, q.1 = (if attrsDiffer st.prev s then st.i + 1 else st.i) → cssOf q.2 = cssOf s := by
    intro q hq he
    split at he
    · have := h4 q hq; omega
    · rename_i hd
      obtain ⟨t, ht, hqt⟩ := h5 q hq he
      rw [ht] at hd
      rw [hqt, cssOf_same (by simpa using hd)]
  refine ⟨if attrsDiffer st.prev s then st.i + 1 else st.i, ?_, ?_, ?_, ?_, ?_, ?_⟩
  · unfold exportSpan
    simp only
    rw [mk_append, h1, feed_asSvg hp.fmt s p.fontSize x y p.dfg p.dbg (by unfold rectFill; split <;> assumption)
      (by unfold textFill; split <;> assumption) _ (hp.cls _)]
    simp
  · unfold exportSpan
    simp only
    rw [css_append, h2, feed_rule _ (hp.clsName _) s (cssOf_ok hs.1 hs.2)]
    simp
  · rw [List.map_append, List.map_append, h3]
    rfl
  · intro q hq
    rcases List.mem_append.mp hq with hq | hq
    · have := h4 q hq
      unfold exportSpan
      simp only
      split <;> omega
    · simp only [List.mem_singleton] at hq
      subst hq
      exact le_rfl
  · intro q hq he
    refine ⟨s, rfl, ?_⟩
    rcases List.mem_append.mp hq with hq | hq
    · exact key q hq he
    · simp only [List.mem_singleton] at hq
      subst hq
      rfl
  · intro q hq r hr he
    rcases List.mem_append.mp hq with hq | hq <;> rcases List.mem_append.mp hr with hr | hr
    · exact h6 q hq r hr he
    · simp only [List.mem_singleton] at hr
      subst hr
      exact key q hq he
    · simp only [List.mem_singleton] at hq
      subst hq
      exact (key r hr he.symm).symm
    · simp only [List.mem_singleton] at hq hr
      subst hq hr
      rfl

theorem reads_row (hp : p.Ok) (origin : ℚ × ℚ) (ho : 0 ≤ origin.1 ∧ 0 ≤ origin.2) (row : Nat) (y : Num)
    (hy : Norm y.val) (ry : Rel (row + 3) y.val (origin.2 + row * (p.fontSize * (1265 / 1000)))) :
    ∀ (ss : List Span) (idx col : Nat) (x : Num) (st : Loop) (es : List (Elem × Elem)) (ps : List (Nat × Span)),
      (∀ s ∈ ss, s.ColorsValid) →
      Norm x.val → Rel (idx + 3) x.val (origin.1 + col * (p.fontSize * (60167 / 100000))) → Reads p st es ps →
      ∃ (new : List (Elem × Elem)) (ns : List (Nat × Span)), Reads p (exportRow p ss x y st) (es ++ new) (ps ++ ns) ∧
        List.Forall₂ (fun pl e => Placed p origin pl e.1 e.2) (placeRow row ss idx col) new ∧ ns.map (·.2) = ss
  | [], idx, col, x, st, es, ps, _, _, _, h => ⟨[], [], by simpa [exportRow] using h, .nil, rfl⟩
  | s :: ss, idx, col, x, st, es, ps, hs, hx, rx, h => by
    have h1 : (1 : ℚ) ≤ p.fontSize := by exact_mod_cast hp.size
    obtain ⟨i, h2⟩ := reads_span hp s (hs s (by simp)) x y st es ps h
    have he : 0 ≤ origin.1 + col * (p.fontSize * (60167 / 100000)) := by have := ho.1; positivity
    obtain ⟨n3, r3⟩ := advance_rel hp s x _ idx hx he rx
    have e3 : origin.1 + col * (p.fontSize * (60167 / 100000)) + s.text.length * (p.fontSize * (60167 / 100000)) =
        origin.1 + ((col + s.text.length : ℕ) : ℚ) * (p.fontSize * (60167 / 100000)) := by push_cast; ring
    rw [e3] at r3
    obtain ⟨new, ns, h4, h5, h6⟩ := reads_row hp origin ho row y hy ry ss (idx + 1) (col + s.text.length) (advance p s x)
      (exportSpan p s x y st) _ _ (fun t ht => hs t (by simp [ht])) n3 r3 h2
    refine ⟨(rectElem p.fmt s p.fontSize x.round2 y.round2 p.dfg p.dbg,
      textElem p.fmt s p.fontSize x.round2 y.round2 p.dfg p.dbg (p.cls i)) :: new, (i, s) :: ns, ?_,
      .cons (placed_span hp origin ho ⟨row, idx, col, s⟩ (hs s (by simp)) x y _ hx rx hy ry) h5, by simp [h6]⟩
    rw [List.append_assoc, List.append_assoc] at h4
    exact h4

theorem reads_rows (hp : p.Ok) (env : Color.Env) (origin : Num × Num) (ho : Norm origin.1.val ∧ Norm origin.2.val) :
    ∀ (rows : List (List Cell)) (gss : List (List Span)) (row : Nat) (y : Num) (st st' : Loop) (es : List (Elem × Elem))
      (ps : List (Nat × Span)),
      List.Forall₂ (fun r g => group env r = .ok g) rows gss → (∀ g ∈ gss, ∀ s ∈ g, s.ColorsValid) →
      Norm y.val → Rel (row + 3) y.val (origin.2.val + row * (p.fontSize * (1265 / 1000))) → Reads p st es ps →
      exportRows env p origin.1 rows y st = .ok st' →
      ∃ (new : List (Elem × Elem)) (ns : List (Nat × Span)), Reads p st' (es ++ new) (ps ++ ns) ∧
        List.Forall₂ (fun pl e => Placed p (origin.1.val, origin.2.val) pl e.1 e.2) (placeAll gss row) new ∧
        ns.map (·.2) = gss.flatten := by
  intro rows
  induction rows with
  | nil =>
    intro gss row y st st' es ps hg _ _ _ h he
    cases hg
    simp only [exportRows, Except.ok.injEq] at he
    subst he
    exact ⟨[], [], by simpa using h, .nil, rfl⟩
  | cons r rows ih =>
    intro gss' row y st st' es ps hg hc hy ry h he
    obtain ⟨g, gss, hg', hgs, rfl⟩ := List.forall₂_cons_left_iff.mp hg
    have hg : group env r = .ok g := hg'
    have h1 : (1 : ℚ) ≤ p.fontSize := by exact_mod_cast hp.size
    have ho' : 0 ≤ origin.1.val ∧ 0 ≤ origin.2.val := ⟨ho.1.nonneg, ho.2.nonneg⟩
    simp only [exportRows, hg] at he
    obtain ⟨new, ns, i1, i2, i3⟩ := reads_row hp (origin.1.val, origin.2.val) ho' row y hy ry g 0 0 origin.1 st es ps
      (hc g (by simp)) ho.1 (by simpa using ((Rel.refl origin.1.val).mono ho'.1 (Nat.zero_le 3))) h
    obtain ⟨n1, r1⟩ := unit_rel hp (1265 / 1000) (by norm_num)
    have hyadd : (y.add (.flt (fl (p.fontSize * charHeight)))).val = fl (y.val + fl (p.fontSize * charHeight)) := by
      cases y <;> rfl
    have n2 := hy.add n1
    have r2 : Rel (row + 1 + 3) (y.add (.flt (fl (p.fontSize * charHeight)))).val
        (origin.2.val + ((row + 1 : ℕ) : ℚ) * (p.fontSize * (1265 / 1000))) := by
      rw [hyadd]
      have := (ry.add (r1.mono (m := row + 3) (by positivity) (by omega))).fl n2
      have e : origin.2.val + row * (p.fontSize * (1265 / 1000)) + p.fontSize * (1265 / 1000) =
        origin.2.val + ((row + 1 : ℕ) : ℚ) * (p.fontSize * (1265 / 1000)) := by push_cast; ring
      rw [e] at this
      exact this
    obtain ⟨new', ns', j1, j2, j3⟩ := ih gss (row + 1) _ _ st' (es ++ new) (ps ++ ns) hgs
      (fun g hg => hc g (by simp [hg])) (by rw [hyadd]; exact fl_norm n2) r2 i1 he
    refine ⟨new ++ new', ns ++ ns', by rw [← List.append_assoc, ← List.append_assoc]; exact j1, List.rel_append i2 j2, ?_⟩
    rw [List.map_append, i3, j3]
    rfl

theorem exportRows_groups (env : Color.Env) (x0 : Num) : ∀ (rows : List (List Cell)) (y : Num) (st st' : Loop),
    exportRows env p x0 rows y st = .ok st' → ∃ gss, List.Forall₂ (fun r g => group env r = .ok g) rows gss
  | [], _, _, _, _ => ⟨[], .nil⟩
  | r :: rows, y, st, st', h => by
    cases hg : group env r with
    | error e => simp [exportRows, hg] at h
    | ok g =>
      simp only [exportRows, hg] at h
      obtain ⟨gss, hgss⟩ := exportRows_groups env x0 rows _ _ _ h
      exact ⟨g :: gss, .cons hg hgss⟩

theorem forall₂_mem_right {α β : Type} {R : α → β → Prop} : ∀ {l : List α} {m : List β}, List.Forall₂ R l m → ∀ {b}, b ∈ m → ∃ a ∈ l, R a b
  | _, _, .cons h t, b, hb => by
    rcases List.mem_cons.mp hb with rfl | hb
    · exact ⟨_, by simp, h⟩
    · obtain ⟨a, ha, hr⟩ := forall₂_mem_right t hb
      exact ⟨a, by simp [ha], hr⟩

/-- The colours of the cells are valid. -/
def CellColors (scr : Screen) : Prop :=
  ∀ row ∈ scr.cells, ∀ cell ∈ row, (∀ c, cell.fg = some c → c.Valid) ∧ ∀ c, cell.bg = some c → c.Valid

theorem export_reads (env : Color.Env) (p : Params) (hp : p.Ok) (origin : Num × Num)
    (ho : Norm origin.1.val ∧ Norm origin.2.val) (scr : Screen) (hc : CellColors scr)
    (svg sheet : Str) (h : exportWithStyles env p origin scr = .ok (svg, sheet)) :
    ∃ (gss : List (List Span)) (es : List (Elem × Elem)) (ps : List (Nat × Span)) (st : Loop),
      List.Forall₂ (fun row g => group env row = .ok g) scr.cells gss ∧
      st.svg = svg ∧ st.sheet = sheet ∧ Reads p st es ps ∧ ps.map (·.2) = gss.flatten ∧
      List.Forall₂ (fun pl e => Placed p (origin.1.val, origin.2.val) pl e.1 e.2) (placeAll gss 0) es := by
  unfold exportWithStyles at h
  cases hr : exportRows env p origin.1 scr.cells origin.2 {} with
  | error e => simp [hr] at h
  | ok st =>
    simp only [hr, Except.ok.injEq, Prod.mk.injEq] at h
    obtain ⟨rfl, rfl⟩ := h
    obtain ⟨gss, hg⟩ := exportRows_groups env _ _ _ _ _ hr
    have hcol : ∀ g ∈ gss, ∀ s ∈ g, s.ColorsValid := by
      intro g hgm
      obtain ⟨row, hrow, hgr⟩ := forall₂_mem_right hg hgm
      exact group_colors (hc row hrow) hgr
    obtain ⟨es, ps, h1, h2, h3⟩ := reads_rows hp env origin ho scr.cells gss 0 origin.2 {} st [] [] hg hcol ho.2
      (by simpa using ((Rel.refl origin.2.val).mono ho.2.nonneg (Nat.zero_le 3))) Reads.init hr
    exact ⟨gss, es, ps, st, hg, rfl, rfl, h1, h3, h2⟩

/-- C67, the export of a screen: if the export succeeds (it raises only if grouping does, C34), the result is a sequence of elements,
two for each group of each row, in order, placed and coloured as specified. The full
claim fails for the document of the terminal, see `C67_backdrop_violated`. -/
theorem C67_export_partial (env : Color.Env) (p : Params) (hp : p.Ok) (origin : Num × Num)
    (ho : Norm origin.1.val ∧ Norm origin.2.val) (scr : Screen) (hc : CellColors scr)
    (svg sheet : Str) (h : exportWithStyles env p origin scr = .ok (svg, sheet)) :
    ∃ (gss : List (List Span)) (es : List (Elem × Elem)), List.Forall₂ (fun row g => group env row = .ok g) scr.cells gss ∧
      Markup.read svg = some (es.flatMap fun e => [e.1, e.2]) ∧
      List.Forall₂ (fun pl e => Placed p (origin.1.val, origin.2.val) pl e.1 e.2) (placeAll gss 0) es := by
  obtain ⟨gss, es, ps, st, hg, rfl, rfl, h1, _, h2⟩ := export_reads env p hp origin ho scr hc svg sheet h
  refine ⟨gss, es, hg, ?_, h2⟩
  unfold Markup.read
  rw [h1.elems]
  rfl

/-- Cells of reachable screens have valid colours, if only valid colours are used. -/
theorem C67_reachable_partial (env : Color.Env) (p : Params) (hp : p.Ok) (origin : Num × Num)
    (ho : Norm origin.1.val ∧ Norm origin.2.val) (width height : Nat) (cur : Int × Int) (fill : Str) (cache : CharCache)
    (ops : List Api) (huse : ∀ op ∈ ops, op.Uses Span.ColorsValid Color.Valid) (svg sheet : Str)
    (h : exportWithStyles env p origin
      (Api.runAll env { scr := Screen.init width height cur fill, cache := cache } ops).scr = .ok (svg, sheet)) :
    ∃ (gss : List (List Span)) (es : List (Elem × Elem)),
      List.Forall₂ (fun row g => group env row = .ok g)
        (Api.runAll env { scr := Screen.init width height cur fill, cache := cache } ops).scr.cells gss ∧
      Markup.read svg = some (es.flatMap fun e => [e.1, e.2]) ∧
      List.Forall₂ (fun pl e => Placed p (origin.1.val, origin.2.val) pl e.1 e.2) (placeAll gss 0) es := by
  refine C67_export_partial env p hp origin ho _ ?_ svg sheet h
  intro row hrow cell hcell
  obtain ⟨y, hy⟩ := List.mem_iff_getElem?.mp hrow
  obtain ⟨x, hx⟩ := List.mem_iff_getElem?.mp hcell
  obtain ⟨h1, h2, _⟩ := C20_stored_colors env (fun _ => True) width height cur fill trivial cache ops huse
    (fun op _ => by cases op <;> trivial) x y cell (by simp [cellAt, hy, hx])
  exact ⟨h1, fun c hc => ⟨(h2 c hc).1, (h2 c hc).2.1, (h2 c hc).2.2.1⟩⟩

theorem placeRow_letters (r : Nat) : ∀ (ss : List Span) (idx col : Nat), ∀ pl ∈ placeRow r ss idx col,
    col ≤ pl.col ∧ ∀ i c, pl.span.text[i]? = some c →
      (ss.flatMap letters)[pl.col - col + i]? = some (c, pl.span.style, pl.span.fg, pl.span.bg)
  | [], _, _, pl, h => by simp [placeRow] at h
  | s :: ss, idx, col, pl, h => by
    rcases List.mem_cons.mp h with rfl | h
    · refine ⟨le_rfl, fun i c hi => ?_⟩
      have hl : i < (letters s).length := by
        have := (List.getElem?_eq_some_iff.mp hi).1
        simpa [letters] using this
      simp only [Nat.sub_self, Nat.zero_add, List.flatMap_cons]
      rw [List.getElem?_append_left hl]
      have hi : s.text[i]? = some c := hi
      simp [letters, hi]
    · obtain ⟨h1, h2⟩ := placeRow_letters r ss _ _ pl h
      refine ⟨by omega, fun i c hi => ?_⟩
      have hl : (letters s).length ≤ pl.col - col + i := by simp [letters]; omega
      rw [List.flatMap_cons, List.getElem?_append_right hl]
      have := h2 i c hi
      rw [← this]
      congr 1
      simp [letters]
      omega

theorem placeRow_covers (r : Nat) : ∀ (ss : List Span) (idx col k : Nat), k < (ss.flatMap letters).length →
    ∃ pl ∈ placeRow r ss idx col, ∃ i < pl.span.text.length, pl.col + i = col + k
  | [], _, _, k, h => by simp at h
  | s :: ss, idx, col, k, h => by
    by_cases hk : k < s.text.length
    · exact ⟨_, List.mem_cons_self, k, hk, rfl⟩
    · have hl : (letters s).length = s.text.length := by simp [letters]
      rw [List.flatMap_cons, List.length_append, hl] at h
      obtain ⟨pl, h1, i, h2, h3⟩ := placeRow_covers r ss (idx + 1) (col + s.text.length) (k - s.text.length) (by omega)
      exact ⟨pl, List.mem_cons_of_mem _ h1, i, h2, by omega⟩

theorem forall₂_getElem? {α β : Type} {R : α → β → Prop} : ∀ {l : List α} {m : List β}, List.Forall₂ R l m →
    ∀ {k : Nat} {a : α}, l[k]? = some a → ∃ b, m[k]? = some b ∧ R a b
  | _, _, .nil, k, a, h => by simp at h
  | _, _, .cons h t, 0, a, hk => by
    simp only [List.getElem?_cons_zero, Option.some.injEq] at hk
    subst hk
    exact ⟨_, rfl, h⟩
  | _, _, .cons h t, k + 1, a, hk => by
    simpa using forall₂_getElem? t (by simpa using hk)

/-- C67, every cell: for rows to which C33 applies, the columns of the groups are the columns of the cells.
The letter number `i` of a group at column `col` is the character, with the style and the colours, of the
cell in column `col + i`, and every cell belongs to a group. -/
theorem C67_cells_partial (env : Color.Env) (r : Nat) (row : List (Cell × Style × Char))
    (hl : ∀ e ∈ row, Looks e.1 e.2.1 e.2.2)
    (hcol : ∀ e ∈ row, (∀ c, e.1.fg = some c → HasCode env c) ∧ (∀ c, e.1.bg = some c → HasCode env c))
    (hmix : ∀ a ∈ row, ∀ b ∈ row, a.1.fg = none → a.1.bg = none → a.2.2 = b.2.2 →
      a.2.1.seen = b.2.1.seen → b.1.fg = none ∧ b.1.bg = none) :
    ∃ spans, group env (row.map (·.1)) = .ok spans ∧
      (∀ pl ∈ placeRow r spans 0 0, ∀ i c, pl.span.text[i]? = some c →
        ∃ e, row[pl.col + i]? = some e ∧ SameLook (c, pl.span.style, pl.span.fg, pl.span.bg) e) ∧
      ∀ k < row.length, ∃ pl ∈ placeRow r spans 0 0, ∃ i < pl.span.text.length, pl.col + i = k := by
  obtain ⟨spans, h1, h2⟩ := C33_group_partial env row hl hcol hmix
  refine ⟨spans, h1, fun pl hpl i c hi => ?_, fun k hk => ?_⟩
  · have := (placeRow_letters r spans 0 0 pl hpl).2 i c hi
    exact forall₂_getElem? h2 this
  · obtain ⟨pl, a, i, b, c⟩ := placeRow_covers r spans 0 0 k (by rw [h2.length_eq]; exact hk)
    exact ⟨pl, a, i, b, by omega⟩

/-- The element of the rectangle behind the screen. -/
def backdropElem (width height fill : Str) : Elem where
  name := "rect".toList
  attrs := [("width".toList, width), ("height".toList, height), ("fill".toList, fill), ("rx".toList, "9px".toList)]

/-- C67 fails for the document: the rectangle behind the screen has no colour, for every colour (the `#` is there
twice). -/
theorem C67_backdrop_violated (fmt : Fmt) (hf : fmt.Ok) (fontSize : Int) (size : Nat × Nat) (bg : Color) (hb : bg.Valid) :
    ∃ e, Markup.read (backdrop fmt fontSize size bg) = some [e] ∧ e.name = "rect".toList ∧
      e.get "fill".toList = some ('#' :: bg.hex) ∧ isColour ('#' :: bg.hex) = false := by
  have v : ∀ q, ValOk (fmt.repr q) := fun q c hc => fmtChar_ok (hf _ c (.inl hc))
  have vb : ValOk ('#' :: bg.hex) := by
    intro c hc
    rcases List.mem_cons.mp hc with rfl | hc
    · decide
    · exact valOk_hex hb c hc
  have vx : ValOk "9px".toList := by unfold ValOk; decide
  have heq : backdrop fmt fontSize size bg = "<rect".toList ++ attr "width" (fmt.repr (totalSize fontSize size.1 charWidth)) ++
      attr "height" (fmt.repr (totalSize fontSize size.2 charHeight)) ++ attr "fill" ('#' :: bg.hex) ++
      attr "rx" "9px".toList ++ "></rect>".toList := by
    unfold backdrop attr
    generalize fmt.repr (totalSize fontSize size.1 charWidth) = a
    generalize fmt.repr (totalSize fontSize size.2 charHeight) = b
    simp
  refine ⟨backdropElem (fmt.repr (totalSize fontSize size.1 charWidth)) (fmt.repr (totalSize fontSize size.2 charHeight)) ('#' :: bg.hex),
    ?_, rfl, rfl, rfl⟩
  rw [heq]
  unfold Markup.read
  simp only [mk_append]
  rw [show Markup.feed {} "<rect".toList = ⟨.tagName, { name := "rect".toList }, []⟩ from rfl]
  rw [feed_attr "width" _ rfl (v _), feed_attr "height" _ rfl (v _), feed_attr "fill" _ rfl vb,
    feed_attr "rx" "9px".toList rfl vx]
  rfl

/-! ## C68 The stylesheet -/

/-- Specification: declarations show the styles of a span, and give its text the colour it has. -/
structure StylesOf (p : Params) (s : Span) (d : List (Str × Str)) : Prop where
  bold : ("font-weight".toList, "bold".toList) ∈ d ↔ s.style.bold = true
  dim : ("opacity".toList, "0.7".toList) ∈ d ↔ s.style.dim = true
  italic : ("font-style".toList, "italic".toList) ∈ d ↔ s.style.italic = true
  underline : ("text-decoration".toList, "underline".toList) ∈ d ↔ s.style.underline = true
  fill : ∀ c, ("fill".toList, c) ∈ d → c =
    if s.style.invert then (s.bg.getD p.dbg).hex else (s.fg.getD p.dfg).hex
  once : (d.map (·.1)).Nodup

theorem mem_cssIf {b : Bool} {k v : String} {e : Str × Str} : e ∈ cssIf b k v ↔ b = true ∧ e = (k.toList, v.toList) := by
  unfold cssIf
  split <;> simp_all

theorem mem_cssFill {o : Option Color} {e : Str × Str} : e ∈ cssFill o ↔ ∃ c, o = some c ∧ e = ("fill".toList, c.hex) := by
  cases o <;> simp [cssFill, eq_comm]

theorem cssOf_styles (p : Params) (s : Span) : StylesOf p s (cssOf s) := by
  have hf : ∀ e, e ∈ (if s.style.invert then cssFill s.bg else cssFill s.fg) ↔
      ∃ c, (if s.style.invert then s.bg else s.fg) = some c ∧ e = ("fill".toList, c.hex) := by
    intro e
    split <;> exact mem_cssFill
  refine ⟨?_, ?_, ?_, ?_, ?_, ?_⟩
  · simp [cssOf, mem_cssIf, hf]
  · simp [cssOf, mem_cssIf, hf]
  · simp [cssOf, mem_cssIf, hf]
  · simp [cssOf, mem_cssIf, hf]
  · intro c hc
    simp only [cssOf, List.mem_append, mem_cssIf, hf] at hc
    rcases hc with (((hc | hc) | hc) | hc) | hc
    · simp at hc
    · simp at hc
    · simp at hc
    · simp at hc
    · obtain ⟨d, h1, h2⟩ := hc
      simp only [Prod.mk.injEq, true_and] at h2
      subst h2
      split at h1 <;> simp [h1, *]
  · have hk : ∀ o, (cssFill o).map (·.1) = (if o.isSome then ["fill".toList] else []) := by
      intro o; cases o <;> rfl
    have hi : ∀ b k v, (cssIf b k v).map (·.1) = (if b then [k.toList] else []) := by
      intro b k v; cases b <;> rfl
    have key : ∀ a b c d e : Bool, ((if a then ["font-weight".toList] else []) ++ (if b then ["opacity".toList] else []) ++
        (if c then ["font-style".toList] else []) ++ (if d then ["text-decoration".toList] else []) ++
        (if e then ["fill".toList] else [])).Nodup := by decide
    unfold cssOf
    cases s.style.invert
    · simp only [List.map_append, hi, Bool.false_eq_true, if_false, hk]
      exact key _ _ _ _ _
    · simp only [List.map_append, hi, if_true, hk]
      exact key _ _ _ _ _

/-- C68: the class of every text has a rule in the stylesheet, and all rules for that class show the styles of its
group. -/
theorem C68_stylesheet (env : Color.Env) (p : Params) (hp : p.Ok) (hinj : ∀ i j, p.cls i = p.cls j → i = j) (origin : Num × Num)
    (ho : Norm origin.1.val ∧ Norm origin.2.val) (scr : Screen) (hc : CellColors scr)
    (svg sheet : Str) (h : exportWithStyles env p origin scr = .ok (svg, sheet)) :
    ∃ (gss : List (List Span)) (es : List (Elem × Elem)) (rules : List Css.Rule),
      List.Forall₂ (fun row g => group env row = .ok g) scr.cells gss ∧
      Markup.read svg = some (es.flatMap fun e => [e.1, e.2]) ∧ Css.read sheet = some rules ∧
      List.Forall₂ (fun s e => ∃ cls, e.2.get "class".toList = some cls ∧ (∃ r ∈ rules, r.cls = cls) ∧
        ∀ r ∈ rules, r.cls = cls → StylesOf p s r.decls) gss.flatten es := by
  obtain ⟨gss, es, ps, st, hg, rfl, rfl, h1, hps, h2⟩ := export_reads env p hp origin ho scr hc svg sheet h
  refine ⟨gss, es, ps.map fun q => ⟨p.cls q.1, cssOf q.2⟩, hg, ?_, ?_, ?_⟩
  · unfold Markup.read
    rw [h1.elems]
    rfl
  · unfold Css.read
    rw [h1.sheet]
    rfl
  rw [← hps, List.forall₂_map_left_iff]
  have hcl : List.Forall₂ (fun q e => some (p.cls (Prod.fst q)) = e.2.get "class".toList) ps es := by
    have := h1.classes.symm
    rw [← List.forall₂_eq_eq_eq, List.forall₂_map_left_iff, List.forall₂_map_right_iff] at this
    exact this
  have hmem : ∀ {l : List (Nat × Span)} {m : List (Elem × Elem)}, (∀ q ∈ l, q ∈ ps) →
      List.Forall₂ (fun q e => some (p.cls (Prod.fst q)) = e.2.get "class".toList) l m →
      List.Forall₂ (fun q e => ∃ cls, e.2.get "class".toList = some cls ∧
        (∃ r ∈ ps.map fun q => (⟨p.cls q.1, cssOf q.2⟩ : Css.Rule), r.cls = cls) ∧
        ∀ r ∈ ps.map fun q => (⟨p.cls q.1, cssOf q.2⟩ : Css.Rule), r.cls = cls → StylesOf p q.2 r.decls) l m := by
    intro l m hl hf
    induction hf with
    | nil => exact .nil
    | @cons q e l m he _ ih =>
      refine .cons ⟨_, he.symm, ⟨_, List.mem_map.mpr ⟨q, hl q (by simp), rfl⟩, rfl⟩, ?_⟩ (ih fun q hq => hl q (by simp [hq]))
      intro r hr hcls
      obtain ⟨t, ht, rfl⟩ := List.mem_map.mp hr
      have := h1.same t ht q (hl q (by simp)) (hinj _ _ hcls)
      show StylesOf p q.2 (cssOf t.2)
      rw [this]
      exact cssOf_styles p q.2
  exact hmem (fun _ h => h) hcl

/-! ## An export meeting the hypotheses of C67 and C68 -/

/-- Some formatting of floats. -/
def plainFmt : Fmt := ⟨fun q => decInt q.floor, fun q => decInt q.floor⟩

theorem plainFmt_ok : plainFmt.Ok := by
  have : ∀ (n : Int) (c : Char), c ∈ decInt n → isDig c = true ∨ c = '.' ∨ c = '-' ∨ c = '+' ∨ c = 'e' := by
    intro n c hc
    cases n with
    | ofNat n => exact .inl (dec_isDig hc)
    | negSucc n =>
      have hc : c ∈ '-' :: dec (n + 1) := hc
      rcases List.mem_cons.mp hc with rfl | hc
      · simp
      · exact .inl (dec_isDig hc)
  intro q c hc
  exact hc.elim (this _ c) (this _ c)

/-- The arguments `Terminal.export_svg` passes. -/
def plainParams : Params :=
  { fmt := plainFmt, fontSize := 15, dfg := { r := 221, g := 221, b := 221 }, dbg := { r := 33, g := 33, b := 33 },
    cls := fun i => "screen__span".toList ++ dec i }

theorem plainParams_ok : plainParams.Ok ∧ ∀ i j, plainParams.cls i = plainParams.cls j → i = j := by
  refine ⟨⟨plainFmt_ok, by decide, by unfold Color.Valid; decide, by unfold Color.Valid; decide,
    fun i => (by decide : ValOk "screen__span".toList).append (valOk_dec i), fun i c hc => ?_⟩,
    fun i j h => dec_inj (List.append_cancel_left h)⟩
  rcases List.mem_append.mp hc with hc | hc
  · exact (by decide : ∀ c ∈ "screen__span".toList, c ≠ ' ' ∧ c ≠ '\n' ∧ c ≠ '{') c hc
  · have := dec_isDig hc
    refine ⟨?_, ?_, ?_⟩ <;> (rintro rfl; exact absurd this (by decide))

/-- Two rows, a red bold letter and an inverted one. -/
def plainScreen : Screen :=
  { Screen.init 3 2 with
    cells := [[{ char := "\x1b[1mb".toList, fg := some { r := 255, g := 0, b := 0 } }, { char := "x".toList }, { char := "y".toList }],
      [{ char := " ".toList }, { char := "\x1b[7mi".toList, fg := some { r := 0, g := 0, b := 255 } }, { char := "<".toList }]] }

example : CellColors plainScreen ∧ Norm (Num.val (.int 0)) ∧
    (exportWithStyles {} plainParams (.int 0, .int 0) plainScreen).toOption.map (fun e =>
      ((Markup.read e.1).map (·.length), Css.read e.2)) = some (some 10, some
        [⟨"screen__span1".toList, [("font-weight".toList, "bold".toList), ("fill".toList, "#FF0000".toList)]⟩,
          ⟨"screen__span2".toList, []⟩, ⟨"screen__span3".toList, []⟩, ⟨"screen__span4".toList, []⟩, ⟨"screen__span5".toList, []⟩]) := by
  refine ⟨?_, .inl rfl, by decide +kernel⟩
  unfold CellColors Color.Valid
  decide

/-! ## C69 Styles that are lost -/

/-- C69 for the styles the stylesheet knows: from the declarations of a span they can be told. -/
theorem C69_styles_partial (s t : Span) (h : cssOf s = cssOf t) :
    s.style.bold = t.style.bold ∧ s.style.dim = t.style.dim ∧ s.style.italic = t.style.italic ∧
      s.style.underline = t.style.underline := by
  have hs := cssOf_styles plainParams s
  have ht := cssOf_styles plainParams t
  rw [h] at hs
  exact ⟨Bool.eq_iff_iff.mpr (hs.bold.symm.trans ht.bold), Bool.eq_iff_iff.mpr (hs.dim.symm.trans ht.dim),
    Bool.eq_iff_iff.mpr (hs.italic.symm.trans ht.italic), Bool.eq_iff_iff.mpr (hs.underline.symm.trans ht.underline)⟩

example : cssOf { text := "a".toList, style := { bold := true } } ≠ cssOf { text := "a".toList, style := { dim := true } } := by
  decide

/-- C69 fails: striking text out or concealing it changes nothing in the export, for every span: the same elements,
the same declarations. -/
theorem C69_strike_violated (fmt : Fmt) (s : Span) (strike conceal : Bool) (fs : Int) (origin : Num × Num) (dfg dbg : Color)
    (inline : Bool) (cls : Option Str) :
    let t : Span := { s with style := { s.style with strike := strike, conceal := conceal } }
    cssOf t = cssOf s ∧ asSvg fmt t fs origin dfg dbg inline cls = asSvg fmt s fs origin dfg dbg inline cls :=
  ⟨rfl, rfl⟩

/-! ## C70 Inline styles -/

/-- C70 fails for every span: with `inline_styles=True` the text has no attribute `style`; the declarations are in an
attribute `styles`, which SVG does not know. -/
theorem C70_inline_violated (fmt : Fmt) (hf : fmt.Ok) (s : Span) (hs : s.ColorsValid) (fs : Int) (x y : Num) (dfg dbg : Color)
    (hd : dfg.Valid ∧ dbg.Valid) (cls : Option Str) (hcls : ∀ c, cls = some c → ValOk c) :
    ∃ rect text, Markup.read (asSvg fmt s fs (x, y) dfg dbg true cls) = some [rect, text] ∧
      text.name = "text".toList ∧ text.get "style".toList = none ∧
      text.get "styles".toList = some (join "; ".toList ((cssOf s).map declaration)) := by
  have v1 : (inkOf s dfg).Valid := by
    unfold inkOf
    cases h : s.fg with
    | none => exact hd.1
    | some c => exact hs.1 c h
  have v2 : (paperOf s dbg).Valid := by
    unfold paperOf
    cases h : s.bg with
    | none => exact hd.2
    | some c => exact hs.2 c h
  refine ⟨rectElem fmt s fs x.round2 y.round2 dfg dbg, inlineElem fmt s fs x.round2 y.round2 dfg dbg cls, ?_, rfl, ?_, ?_⟩
  · unfold Markup.read asSvg
    rw [mk_append, feed_rect hf s fs _ _ dfg dbg (by unfold rectFill; split <;> assumption),
      feed_inline hf s fs _ _ dfg dbg hs.1 hs.2 (by unfold textFill; split <;> assumption) cls hcls]
    rfl
  · cases cls <;> rfl
  · cases cls <;> rfl

/-- A span with inline styles. -/
example : (Markup.read (asSvg plainFmt { text := "a b".toList, style := { bold := true } } 15 (.int 0, .int 0)
      { r := 221, g := 221, b := 221 } { r := 33, g := 33, b := 33 } true none)).map
    (fun es => es.map fun e => (e.get "style".toList, e.get "styles".toList)) =
    some [(none, none), (none, some "font-weight:bold".toList)] := by
  decide +kernel

/-- The rectangle behind a terminal of 80 by 24 cells. -/
example : (Markup.read (backdrop plainFmt 15 (80, 24) { r := 33, g := 33, b := 33 })).map
    (fun es => es.map (·.get "fill".toList)) = some [some "##212121".toList] := by
  decide +kernel

end Slate
