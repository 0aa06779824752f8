import Verif.Lemmas.Lines
import Verif.Lemmas.Color
import Verif.Model.Main
import Verif.Props.Codes
import Verif.Props.HueFloat

/-!
# The report of `python -m slate debug` (C85)
-/

namespace Slate
open Py Term Main

/-! ### What the report should look like -/

/-- A variable that is not set, or empty, is shown as a dash. -/
def shownVar : Option Str → Str
  | none => ['-']
  | some s => if s = [] then ['-'] else s

/-- The lines with a label and a value: line number (counted from the first line), label, value. -/
def reportRows (env : Color.Env) (r : Report) : List (Nat × Str × Str) :=
  [(3, "$TERM".toList, shownVar r.term), (4, "$COLORTERM".toList, shownVar r.colorterm),
   (5, "$NO_COLOR".toList, shownVar r.noColor), (6, "$SLATE_COLORSYS".toList, shownVar r.colorsys),
   (9, "size".toList, dec r.size.1 ++ ['x'] ++ dec r.size.2),
   (10, "colorspace".toList, match env.space with
      | .noColor => "ColorSpace.NO_COLOR".toList
      | .standard => "ColorSpace.STANDARD".toList
      | .eightBit => "ColorSpace.EIGHT_BIT".toList
      | .trueColor => "ColorSpace.TRUE_COLOR".toList),
   (11, "synchronized update support".toList, if r.sync = true then "True".toList else "False".toList),
   (12, "foreground color".toList, r.fg.hex), (13, "background color".toList, r.bg.hex)]

/-- The width of the report: the longest label, the longest value, and three columns for each. -/
def reportWidth (env : Color.Env) (r : Report) : Nat :=
  ((reportRows env r).map fun x => x.2.1.length).foldr max 0 + 3 +
    (((reportRows env r).map fun x => x.2.2.length).foldr max 0 + 3)

/-- What can be printed: printable values of the variables and valid colours. -/
structure Reportable (r : Report) : Prop where
  vars : ∀ v ∈ [r.term, r.colorterm, r.noColor, r.colorsys], ∀ s, v = some s → ∀ c ∈ s, Printable c
  fg : r.fg.Valid
  bg : r.bg.Valid

/-! ### The lines that are printed -/

theorem shownVar_eq (v : Option Str) : orDash v = shownVar v := by
  cases v with
  | none => rfl
  | some s => cases s <;> rfl

theorem foldl_max_eq (l : List Nat) (a : Nat) : l.foldl max a = max a (l.foldr max 0) := by
  induction l generalizing a with
  | nil => simp
  | cons x l ih => rw [List.foldl_cons, ih, List.foldr_cons]; omega

theorem le_foldr_max {l : List Nat} {x : Nat} (h : x ∈ l) : x ≤ l.foldr max 0 := by
  induction l with
  | nil => simp at h
  | cons y l ih =>
    rcases List.mem_cons.mp h with rfl | h
    · simp
    · have := ih h; simp; omega

theorem spaceStr_eq (c : ColorSpace) : spaceStr c = (match c with
      | .noColor => "ColorSpace.NO_COLOR".toList
      | .standard => "ColorSpace.STANDARD".toList
      | .eightBit => "ColorSpace.EIGHT_BIT".toList
      | .trueColor => "ColorSpace.TRUE_COLOR".toList) := by cases c <;> rfl

/-- The rows of the code, with the values left open. -/
def rowsOf (v : Fin 9 → Str) : List (Str × Option Str) :=
  [("Environment:".toList, none), ("$TERM".toList, some (v 0)), ("$COLORTERM".toList, some (v 1)),
   ("$NO_COLOR".toList, some (v 2)), ("$SLATE_COLORSYS".toList, some (v 3)), ("Terminal state:".toList, none),
   ("size".toList, some (v 4)), ("colorspace".toList, some (v 5)),
   ("synchronized update support".toList, some (v 6)), ("foreground color".toList, some (v 7)),
   ("background color".toList, some (v 8))]

/-- The rows of the specification, likewise. -/
def specOf (v : Fin 9 → Str) : List (Nat × Str × Str) :=
  [(3, "$TERM".toList, v 0), (4, "$COLORTERM".toList, v 1), (5, "$NO_COLOR".toList, v 2),
   (6, "$SLATE_COLORSYS".toList, v 3), (9, "size".toList, v 4), (10, "colorspace".toList, v 5),
   (11, "synchronized update support".toList, v 6), (12, "foreground color".toList, v 7),
   (13, "background color".toList, v 8)]

/-- The values. -/
def valuesOf (env : Color.Env) (r : Report) (k : Fin 9) : Str := ((reportRows env r).getD k (0, [], [])).2.2

theorem reportRows_eq (env : Color.Env) (r : Report) : reportRows env r = specOf (valuesOf env r) := rfl

theorem rows_eq (env : Color.Env) (r : Report) : rows env r = rowsOf (valuesOf env r) := by
  unfold rows
  rw [shownVar_eq, shownVar_eq, shownVar_eq, shownVar_eq, spaceStr_eq]
  rfl

/-- The width of the right column. -/
def rightOf (v : Fin 9 → Str) : Nat := ((specOf v).map fun x => x.2.2.length).foldr max 0 + 3

theorem maxLeft_rows (v : Fin 9 → Str) : maxLeft (rowsOf v) = 30 := by
  have e : (rowsOf v).map (fun r => r.1.length) = ((rowsOf fun _ => []).map fun r => r.1.length) := rfl
  unfold maxLeft
  rw [e]
  decide +kernel

theorem maxRight_rows (v : Fin 9 → Str) : maxRight (rowsOf v) = rightOf v := by
  unfold maxRight maxLen rightOf
  rw [foldl_max_eq]
  have e : (rowsOf v).map (fun r => (r.2.getD []).length) = [0, (v 0).length, (v 1).length, (v 2).length,
    (v 3).length, 0, (v 4).length, (v 5).length, (v 6).length, (v 7).length, (v 8).length] := rfl
  have e' : (specOf v).map (fun x => x.2.2.length) = [(v 0).length, (v 1).length, (v 2).length,
    (v 3).length, (v 4).length, (v 5).length, (v 6).length, (v 7).length, (v 8).length] := rfl
  rw [e, e']
  simp only [List.foldr_cons, List.foldr_nil, Nat.zero_max]

theorem reportWidth_eq (env : Color.Env) (r : Report) : reportWidth env r = 30 + rightOf (valuesOf env r) := by
  unfold reportWidth rightOf
  rw [reportRows_eq]
  have e : (specOf (valuesOf env r)).map (fun x => x.2.1.length) = (specOf fun _ => []).map fun x => x.2.1.length := rfl
  rw [e]
  have e2 : ((specOf fun _ => []).map fun x => x.2.1.length).foldr max 0 + 3 = 30 := by decide +kernel
  rw [e2]

theorem value_le (v : Fin 9 → Str) {x : Nat × Str × Str} (h : x ∈ specOf v) : x.2.2.length + 3 ≤ rightOf v := by
  unfold rightOf
  have := le_foldr_max (List.mem_map_of_mem (f := fun x : Nat × Str × Str => x.2.2.length) h)
  omega

theorem value5_ge (env : Color.Env) (r : Report) : 19 ≤ (valuesOf env r 5).length := by
  show 19 ≤ List.length (match env.space with
      | .noColor => "ColorSpace.NO_COLOR".toList
      | .standard => "ColorSpace.STANDARD".toList
      | .eightBit => "ColorSpace.EIGHT_BIT".toList
      | .trueColor => "ColorSpace.TRUE_COLOR".toList)
  cases env.space <;> decide

theorem rightOf_ge (env : Color.Env) (r : Report) : 22 ≤ rightOf (valuesOf env r) := by
  have h1 := value_le (valuesOf env r) (x := (10, "colorspace".toList, valuesOf env r 5)) (by simp [specOf])
  have h2 := value5_ge env r
  simp only at h1
  omega

/-! ### The lines as spans -/

/-- The spans of a line with a plain value. -/
def plainRow (mr : Nat) (label value : Str) : List Span :=
  [{ text := padRight 30 label, style := { dim := true } }, { text := padLeft mr value }]

/-- The spans of a line with a colour. -/
def colorRow (mr : Nat) (label value : Str) (c d : Color) : List Span :=
  [{ text := padRight 30 label, style := { dim := true } }, { text := List.replicate (mr - value.length) ' ' },
   { text := value, fg := some c, bg := some d }]

/-- The spans of the last line. -/
def styleSpans : List Span :=
  [{ text := "std".toList }, { text := [' '] },
   { text := "bold".toList, style := { bold := true } }, { text := [' '] },
   { text := "italic".toList, style := { italic := true } }, { text := [' '] },
   { text := "dim".toList, style := { dim := true } }, { text := [' '] },
   { text := "underline".toList, style := { underline := true } }, { text := [' '] },
   { text := "blink".toList, style := { blink := true } }, { text := [' '] },
   { text := "invert".toList, style := { invert := true } }, { text := [' '] },
   { text := "strike".toList, style := { strike := true } }]

/-- All lines. -/
def reportLines (v : Fin 9 → Str) (mr : Nat) (bar : Nat → Color) (f f' b b' : Color) : List (List Span) :=
  [(List.range (30 + mr)).map fun i => { text := [' '], bg := some (bar i) },
   [], [{ text := "Environment:".toList, style := { bold := true } }],
   plainRow mr "$TERM".toList (v 0), plainRow mr "$COLORTERM".toList (v 1),
   plainRow mr "$NO_COLOR".toList (v 2), plainRow mr "$SLATE_COLORSYS".toList (v 3),
   [], [{ text := "Terminal state:".toList, style := { bold := true } }],
   plainRow mr "size".toList (v 4), plainRow mr "colorspace".toList (v 5),
   plainRow mr "synchronized update support".toList (v 6),
   colorRow mr "foreground color".toList (v 7) f f', colorRow mr "background color".toList (v 8) b b',
   [], styleSpans]

theorem render_plain (env : Color.Env) (t : Str) : Span.render env { text := t } = t := by
  have e : Span.sequences env { text := t } = [] := rfl
  unfold Span.render
  simp [e]

theorem colorLine_eq (env : Color.Env) (w : Nat) (bar : Nat → Color) (h : ∀ i, barColor w i = .ok (bar i))
    (is : List Nat) (line : Str) : colorLine env w is line =
      .ok (line ++ lineStr env (is.map fun i => { text := [' '], bg := some (bar i) })) := by
  induction is generalizing line with
  | nil => simp [colorLine, lineStr]
  | cons i is ih =>
    rw [colorLine, h i]
    show colorLine env w is _ = _
    rw [ih]
    simp [lineStr]

theorem styleLine_eq (env : Color.Env) (w : Nat) (h : 52 ≤ w) :
    styleLine env w styles [] 0 = lineStr env styleSpans := by
  have step : ∀ (s : Span) (ss : List Span) (line : Str) (used n : Nat), line ≠ [] → used ≠ 0 → s.len = n → used + n ≤ 52 →
      styleLine env w (s :: ss) line used = styleLine env w ss (line ++ [' '] ++ s.render env) (used + n + 1) := by
    intro s ss line used n h1 h2 h3 h4
    rw [styleLine, h3]
    simp only [if_neg (show ¬ w < used + n by omega)]
    rw [if_pos ⟨by simpa using h1, h2⟩]
  have first : styleLine env w styles [] 0 = styleLine env w styles.tail ((styles.headD { text := [] }).render env) 4 := by
    unfold styles
    rw [styleLine]
    simp only [if_neg (show ¬ w < 0 + Span.len { text := "std".toList } by
      have : Span.len { text := "std".toList } = 3 := rfl
      omega)]
    rfl
  rw [first]
  unfold styles
  simp only [List.tail_cons, List.headD_cons]
  rw [render_plain, step _ _ _ _ 4 (by decide) (by decide) rfl (by decide),
    step _ _ _ _ 6 (by simp) (by decide) rfl (by decide), step _ _ _ _ 3 (by simp) (by decide) rfl (by decide),
    step _ _ _ _ 9 (by simp) (by decide) rfl (by decide), step _ _ _ _ 5 (by simp) (by decide) rfl (by decide),
    step _ _ _ _ 6 (by simp) (by decide) rfl (by decide), step _ _ _ _ 6 (by simp) (by decide) rfl (by decide)]
  rw [styleLine]
  unfold lineStr styleSpans
  simp only [List.flatMap_cons, List.flatMap_nil, render_plain, List.append_assoc, List.append_nil]

/-- A row with a plain value. -/
theorem valueStr_plain (pow : Rat → Rat → Rat) (env : Color.Env) (mr : Nat) (label value : Str)
    (h : (label.tails.any fun t => "ground color".toList.isPrefixOf t) = false) :
    valueStr pow env mr label value = .ok (Span.render env { text := padLeft mr value }) := by
  unfold valueStr
  rw [h]
  rfl

/-- A row with a colour. -/
theorem valueStr_color (pow : Rat → Rat → Rat) (env : Color.Env) (mr : Nat) (label value : Str) (c : Color)
    (h : (label.tails.any fun t => "ground color".toList.isPrefixOf t) = true) (hc : Color.ofString value = .ok c) :
    valueStr pow env mr label value = .ok (List.replicate (mr - value.length) ' ' ++
      Span.render env { text := value, fg := some c, bg := some ((c.contrast pow).asBackground) }) := by
  unfold valueStr
  rw [h, if_pos rfl, hc]
  rfl

theorem table_plain (pow : Rat → Rat → Rat) (env : Color.Env) (mr : Nat) (label value : Str)
    (rest : List (Str × Option Str)) (buff : Str)
    (h : (label.tails.any fun t => "ground color".toList.isPrefixOf t) = false) :
    table pow env 30 mr ((label, some value) :: rest) buff =
      table pow env 30 mr rest (buff ++ lineStr env (plainRow mr label value) ++ ['\n']) := by
  rw [table, valueStr_plain _ _ _ _ _ h]
  show table pow env 30 mr rest _ = _
  simp [plainRow, lineStr]

theorem table_color (pow : Rat → Rat → Rat) (env : Color.Env) (mr : Nat) (label value : Str) (c : Color)
    (rest : List (Str × Option Str)) (buff : Str)
    (h : (label.tails.any fun t => "ground color".toList.isPrefixOf t) = true) (hc : Color.ofString value = .ok c) :
    table pow env 30 mr ((label, some value) :: rest) buff =
      table pow env 30 mr rest (buff ++ lineStr env (colorRow mr label value c ((c.contrast pow).asBackground)) ++ ['\n']) := by
  rw [table, valueStr_color _ _ _ _ _ _ h hc]
  show table pow env 30 mr rest _ = _
  simp [colorRow, lineStr, render_plain]

theorem barColor_ok (w i : Nat) : ∃ c, barColor w i = .ok c ∧ c.Valid ∧ c.isBg = true ∧ c.ctor = none := by
  obtain ⟨blue, hb⟩ : ∃ blue, Color.fromHex "#0000ff".toList = .ok blue :=
    ⟨{ r := 0, g := 0, b := 255, ctor := some "#0000ff".toList }, by decide +kernel⟩
  obtain ⟨d, h1, h2, h3⟩ := C49_valid_float (blue.lighten 2) (C39_clamped _ _ _ _) (fl (fl (1 / (w : Rat)) * i))
  refine ⟨d.asBackground, ?_, (C38_roles d h2 true none 1).1, (C38_roles d h2 true none 1).2.1, ?_⟩
  · unfold barColor
    rw [hb, ok_bind, h1, ok_bind]
  · have hbg : blue.isBg = false := by
      have : Color.fromHex "#0000ff".toList = .ok { r := 0, g := 0, b := 255, ctor := some "#0000ff".toList } := by
        decide +kernel
      rw [this] at hb
      cases hb
      rfl
    have : d.isBg = false := by rw [h3]; exact hbg
    unfold Color.asBackground
    rw [this]
    rfl

theorem hex_color {c : Color} (hc : c.Valid) :
    ∃ d, Color.ofString c.hex = .ok d ∧ d.SameRgb c ∧ d.isBg = false ∧ ∃ t, d.ctor = some ('#' :: t) := by
  obtain ⟨-, d, h1, h2, -⟩ := C37_round_trip c hc
  refine ⟨d, h1, h2, ?_⟩
  have e : Color.ofString c.hex = Color.fromHex c.hex 1 := rfl
  rw [e] at h1
  unfold Color.fromHex at h1
  dsimp only at h1
  obtain ⟨a, -, h1⟩ := bind_ok' h1
  obtain ⟨a', -, h1⟩ := bind_ok' h1
  obtain ⟨a'', -, h1⟩ := bind_ok' h1
  unfold Color.make at h1
  split at h1
  · cases h1
    exact ⟨rfl, _, rfl⟩
  · cases h1

/-- The report is its lines. -/
theorem runDebug_lines (pow : Rat → Rat → Rat) (env : Color.Env) (r : Report) (f b : Color)
    (bar : Nat → Color) (hbar : ∀ i, barColor (reportWidth env r) i = .ok (bar i))
    (hf : Color.ofString r.fg.hex = .ok f) (hb : Color.ofString r.bg.hex = .ok b) :
    runDebug pow env r = .ok (join ['\n'] ((reportLines (valuesOf env r) (rightOf (valuesOf env r)) bar
      f ((f.contrast pow).asBackground) b ((b.contrast pow).asBackground)).map (lineStr env))) := by
  have h7 : Color.ofString (valuesOf env r 7) = .ok f := hf
  have h8 : Color.ofString (valuesOf env r 8) = .ok b := hb
  have hw := reportWidth_eq env r
  have hge := rightOf_ge env r
  rw [hw] at hbar
  unfold runDebug
  simp only [rows_eq, maxLeft_rows, maxRight_rows]
  generalize valuesOf env r = v at *
  generalize rightOf v = mr at *
  have ht : table pow env 30 mr (rowsOf v) [] = .ok
      (lineStr env [{ text := "Environment:".toList, style := { bold := true } }] ++ ['\n'] ++
       lineStr env (plainRow mr "$TERM".toList (v 0)) ++ ['\n'] ++
       lineStr env (plainRow mr "$COLORTERM".toList (v 1)) ++ ['\n'] ++
       lineStr env (plainRow mr "$NO_COLOR".toList (v 2)) ++ ['\n'] ++
       lineStr env (plainRow mr "$SLATE_COLORSYS".toList (v 3)) ++ ['\n'] ++ ['\n'] ++
       lineStr env [{ text := "Terminal state:".toList, style := { bold := true } }] ++ ['\n'] ++
       lineStr env (plainRow mr "size".toList (v 4)) ++ ['\n'] ++
       lineStr env (plainRow mr "colorspace".toList (v 5)) ++ ['\n'] ++
       lineStr env (plainRow mr "synchronized update support".toList (v 6)) ++ ['\n'] ++
       lineStr env (colorRow mr "foreground color".toList (v 7) f ((f.contrast pow).asBackground)) ++ ['\n'] ++
       lineStr env (colorRow mr "background color".toList (v 8) b ((b.contrast pow).asBackground)) ++ ['\n']) := by
    unfold rowsOf
    rw [table]
    simp only [List.isEmpty_nil, if_true, List.nil_append]
    rw [table_plain _ _ _ _ _ _ _ (by decide), table_plain _ _ _ _ _ _ _ (by decide),
      table_plain _ _ _ _ _ _ _ (by decide), table_plain _ _ _ _ _ _ _ (by decide), table]
    simp only [show ∀ x : Str, (x ++ ['\n']).isEmpty = false from fun x => by simp, Bool.false_eq_true, if_false]
    rw [table_plain _ _ _ _ _ _ _ (by decide), table_plain _ _ _ _ _ _ _ (by decide),
      table_plain _ _ _ _ _ _ _ (by decide), table_color _ _ _ _ _ _ _ _ (by decide) h7,
      table_color _ _ _ _ _ _ _ _ (by decide) h8, table]
    simp only [lineStr, List.flatMap_cons, List.flatMap_nil, List.append_nil]
  rw [ht]
  show (do
    let line ← colorLine env (30 + mr) (List.range (30 + mr)) []
    Except.ok _) = _
  rw [colorLine_eq env _ bar hbar, styleLine_eq env _ (by omega)]
  show Except.ok _ = _
  rw [List.dropLast_concat]
  unfold reportLines
  simp only [List.map_cons, List.map_nil, join, List.nil_append]
  have e : lineStr env [] = [] := rfl
  rw [e]
  simp only [List.append_assoc, List.nil_append, List.append_nil]

/-! ### What the lines show -/

/-- `gs` shows a label at the left, a value at the right end of `w` columns, and blanks between. -/
structure ShowsRow (gs : List Glyph) (w : Nat) (label value : Str) (attr : Attr) : Prop where
  full : gs.length = w
  left : ∀ (i : Nat) (c : Char), label[i]? = some c → gs[i]? = some { ch := c, attr := { dim := true } }
  right : ∀ (i : Nat) (c : Char), value[i]? = some c → gs[w - value.length + i]? = some { ch := c, attr := attr }
  between : ∀ i : Nat, label.length ≤ i → i < w - value.length → ∃ a, gs[i]? = some { ch := ' ', attr := a }

theorem shows_of_parts {label value : Str} {n : Nat} {mr : Nat} {a1 a2 a3 : Attr} (ha : a1 = { dim := true })
    (hl : label.length ≤ 30) (hv : value.length ≤ mr) (hn : n = mr - value.length) :
    ShowsRow ((padRight 30 label).map (fun c => ({ ch := c, attr := a1 } : Glyph)) ++
      ((List.replicate n ' ').map (fun c => ({ ch := c, attr := a2 } : Glyph)) ++
        value.map fun c => ({ ch := c, attr := a3 } : Glyph))) (30 + mr) label value a3 := by
  subst ha hn
  have hp : (padRight 30 label).length = 30 := by simp [padRight]; omega
  refine ⟨by simp [hp]; omega, ?_, ?_, ?_⟩
  · intro i c hi
    have hlt := (List.getElem?_eq_some_iff.mp hi).1
    rw [List.getElem?_append_left (by simp [hp]; omega), List.getElem?_map, padRight,
      List.getElem?_append_left hlt, hi]
    rfl
  · intro i c hi
    have hlt := (List.getElem?_eq_some_iff.mp hi).1
    rw [List.getElem?_append_right (by simp [hp]; omega), List.getElem?_append_right (by simp [hp]; omega),
      List.getElem?_map]
    have e : 30 + mr - value.length + i - ((padRight 30 label).map
        (fun c => ({ ch := c, attr := { dim := true } } : Glyph))).length - ((List.replicate (mr - value.length) ' ').map
        (fun c => ({ ch := c, attr := a2 } : Glyph))).length = i := by
      simp [hp]; omega
    rw [e, hi]
    rfl
  · intro i h1 h2
    by_cases h3 : i < 30
    · refine ⟨{ dim := true }, ?_⟩
      rw [List.getElem?_append_left (by simp [hp]; omega), List.getElem?_map, padRight,
        List.getElem?_append_right h1, List.getElem?_replicate, if_pos (by omega)]
      rfl
    · refine ⟨a2, ?_⟩
      rw [List.getElem?_append_right (by simp [hp]; omega), List.getElem?_append_left (by simp [hp]; omega),
        List.getElem?_map, List.getElem?_replicate, if_pos (by simp [hp]; omega)]
      rfl

theorem shows_plain (den : Color → TColor) {mr : Nat} {label value : Str} (hl : label.length ≤ 30)
    (hv : value.length ≤ mr) :
    ShowsRow (lineGlyphs den (plainRow mr label value)) (30 + mr) label value Attr.clean := by
  have e : lineGlyphs den (plainRow mr label value) =
      (padRight 30 label).map (fun c => ({ ch := c, attr := { dim := true } } : Glyph)) ++
      ((List.replicate (mr - value.length) ' ').map (fun c => ({ ch := c, attr := Attr.clean } : Glyph)) ++
        value.map fun c => ({ ch := c, attr := Attr.clean } : Glyph)) := by
    unfold lineGlyphs plainRow padLeft
    simp only [List.flatMap_cons, List.flatMap_nil, List.append_nil, List.map_append]
    rfl
  rw [e]
  exact shows_of_parts rfl hl hv rfl

theorem shows_color (den : Color → TColor) {mr : Nat} {label value : Str} (c d : Color) (hc : c.isBg = false)
    (hd : d.isBg = true) (hl : label.length ≤ 30) (hv : value.length ≤ mr) :
    ShowsRow (lineGlyphs den (colorRow mr label value c d)) (30 + mr) label value { fg := den c, bg := den d } := by
  have e : lineGlyphs den (colorRow mr label value c d) =
      (padRight 30 label).map (fun c => ({ ch := c, attr := { dim := true } } : Glyph)) ++
      ((List.replicate (mr - value.length) ' ').map (fun c => ({ ch := c, attr := Attr.clean } : Glyph)) ++
        value.map fun x => ({ ch := x, attr := { fg := den c, bg := den d } } : Glyph)) := by
    unfold lineGlyphs colorRow
    simp only [List.flatMap_cons, List.flatMap_nil, List.append_nil]
    have h1 : charAttr den { text := value, fg := some c, bg := some d } false = { fg := den c, bg := den d } := by
      simp [charAttr, paintOpt, hc, hd, paint, applyStyle, Attr.clean]
    rw [h1]
    rfl
  rw [e]
  exact shows_of_parts rfl hl hv rfl

theorem printable_of_dig {c : Char} (h : isDig c = true) : Printable c := by
  have := (isDig_iff c).mp h
  have h1 : (48 : Nat) ≤ c.toNat ∧ c.toNat ≤ 57 := this
  exact ⟨by omega, by omega⟩

theorem printable_dec (n : Nat) : ∀ c ∈ dec n, Printable c := fun _ hc => printable_of_dig (dec_isDig hc)

theorem printable_shown {v : Option Str} (h : ∀ s, v = some s → ∀ c ∈ s, Printable c) : ∀ c ∈ shownVar v, Printable c := by
  cases v with
  | none => decide
  | some s =>
    unfold shownVar
    split
    · rename_i e
      cases e
    · rename_i s' e
      cases e
      split
      · decide
      · exact h s rfl

theorem printable_hex {c : Color} (hc : c.Valid) : ∀ x ∈ c.hex, Printable x := by
  obtain ⟨⟨ds, e, -, h⟩, -⟩ := C37_round_trip c hc
  rw [e]
  intro x hx
  rcases List.mem_cons.mp hx with rfl | hx
  · decide
  · have key : ∀ x ∈ "0123456789ABCDEF".toList, Printable x := by decide
    exact key x (h x hx)

theorem printable_values {env : Color.Env} {r : Report} (h : Reportable r) (k : Fin 9) :
    ∀ c ∈ valuesOf env r k, Printable c := by
  have hv := h.vars
  have h0 : ∀ c ∈ valuesOf env r 0, Printable c := printable_shown (hv _ (by simp))
  have h1 : ∀ c ∈ valuesOf env r 1, Printable c := printable_shown (hv _ (by simp))
  have h2 : ∀ c ∈ valuesOf env r 2, Printable c := printable_shown (hv _ (by simp))
  have h3 : ∀ c ∈ valuesOf env r 3, Printable c := printable_shown (hv _ (by simp))
  have h4 : ∀ c ∈ valuesOf env r 4, Printable c := by
    show ∀ c ∈ dec r.size.1 ++ ['x'] ++ dec r.size.2, Printable c
    intro c hc
    rcases List.mem_append.mp hc with hc | hc
    · rcases List.mem_append.mp hc with hc | hc
      · exact printable_dec _ _ hc
      · rw [List.mem_singleton.mp hc]; decide
    · exact printable_dec _ _ hc
  have h5 : ∀ c ∈ valuesOf env r 5, Printable c := by
    show ∀ c ∈ (match env.space with
      | .noColor => "ColorSpace.NO_COLOR".toList
      | .standard => "ColorSpace.STANDARD".toList
      | .eightBit => "ColorSpace.EIGHT_BIT".toList
      | .trueColor => "ColorSpace.TRUE_COLOR".toList), Printable c
    cases env.space <;> decide
  have h6 : ∀ c ∈ valuesOf env r 6, Printable c := by
    show ∀ c ∈ (if r.sync = true then "True".toList else "False".toList), Printable c
    split <;> decide
  have h7 : ∀ c ∈ valuesOf env r 7, Printable c := printable_hex h.fg
  have h8 : ∀ c ∈ valuesOf env r 8, Printable c := printable_hex h.bg
  match k with
  | 0 => exact h0
  | 1 => exact h1
  | 2 => exact h2
  | 3 => exact h3
  | 4 => exact h4
  | 5 => exact h5
  | 6 => exact h6
  | 7 => exact h7
  | 8 => exact h8

theorem contrast_role (pow : Rat → Rat → Rat) (c : Color) :
    ((c.contrast pow).asBackground).isBg = true ∧ ((c.contrast pow).asBackground).ctor = none ∧
    (((c.contrast pow).asBackground).SameRgb Color.defaultBlack ∨ ((c.contrast pow).asBackground).SameRgb Color.defaultWhite) := by
  unfold Color.contrast
  split <;> cases c.isBg <;> first
    | exact ⟨rfl, rfl, .inl ⟨rfl, rfl, rfl⟩⟩
    | exact ⟨rfl, rfl, .inr ⟨rfl, rfl, rfl⟩⟩

theorem printable_replicate (n : Nat) : ∀ c ∈ List.replicate n ' ', Printable c := by
  intro c hc
  rw [List.eq_of_mem_replicate hc]
  decide

theorem plainSpan_text (env : Color.Env) (den : Color → TColor) {t : Str} (st : Style) (h : ∀ c ∈ t, Printable c) :
    PlainSpan env den { text := t, style := st } :=
  ⟨h, rfl, (fun _ hx => absurd hx (by simp)), (fun _ hx => absurd hx (by simp)), rfl⟩

theorem printable_padRight {t : Str} (n : Nat) (h : ∀ c ∈ t, Printable c) : ∀ c ∈ padRight n t, Printable c := by
  intro c hc
  rcases List.mem_append.mp hc with hc | hc
  · exact h c hc
  · exact printable_replicate _ c hc

theorem printable_padLeft {t : Str} (n : Nat) (h : ∀ c ∈ t, Printable c) : ∀ c ∈ padLeft n t, Printable c := by
  intro c hc
  rcases List.mem_append.mp hc with hc | hc
  · exact printable_replicate _ c hc
  · exact h c hc

theorem plain_plainRow (env : Color.Env) (den : Color → TColor) (mr : Nat) {label value : Str}
    (hl : ∀ c ∈ label, Printable c) (hv : ∀ c ∈ value, Printable c) :
    ∀ s ∈ plainRow mr label value, PlainSpan env den s := by
  intro s hs
  rcases List.mem_cons.mp hs with rfl | hs
  · exact plainSpan_text env den _ (printable_padRight 30 hl)
  · rw [List.mem_singleton.mp hs]
    exact plainSpan_text env den {} (printable_padLeft mr hv)

theorem plain_colorRow (env : Color.Env) (mr : Nat) {label value : Str} {c d : Color}
    (hl : ∀ c ∈ label, Printable c) (hv : ∀ c ∈ value, Printable c)
    (hc : ∃ t, c.ctor = some ('#' :: t)) (hd : d.ctor = none) :
    ∀ s ∈ colorRow mr label value c d, PlainSpan env (denOf env) s := by
  intro s hs
  rcases List.mem_cons.mp hs with rfl | hs
  · exact plainSpan_text env _ _ (printable_padRight 30 hl)
  · rcases List.mem_cons.mp hs with rfl | hs
    · exact plainSpan_text env _ {} (printable_replicate _)
    · rw [List.mem_singleton.mp hs]
      refine ⟨hv, rfl, ?_, ?_, rfl⟩
      · intro x hx
        cases hx
        exact sendable_of_hex env c (.inr hc)
      · intro x hx
        cases hx
        exact sendable_of_hex env d (.inl hd)

theorem plain_lines {env : Color.Env} {r : Report} (h : Reportable r) (bar : Nat → Color) (f f' b b' : Color)
    (mr : Nat) (hbar : ∀ i, (bar i).ctor = none) (hf : ∃ t, f.ctor = some ('#' :: t)) (hf' : f'.ctor = none)
    (hb : ∃ t, b.ctor = some ('#' :: t)) (hb' : b'.ctor = none) :
    ∀ l ∈ reportLines (valuesOf env r) mr bar f f' b b', ∀ s ∈ l, PlainSpan env (denOf env) s := by
  have hv := fun k => printable_values (env := env) h k
  intro l hl
  unfold reportLines at hl
  simp only [List.mem_cons, List.not_mem_nil, or_false] at hl
  rcases hl with rfl | rfl | rfl | rfl | rfl | rfl | rfl | rfl | rfl | rfl | rfl | rfl | rfl | rfl | rfl | rfl
  · intro s hs
    obtain ⟨i, -, rfl⟩ := List.mem_map.mp hs
    have hp : ∀ c ∈ [' '], Printable c := by decide
    refine ⟨hp, rfl, fun _ hx => absurd hx (by simp), ?_, rfl⟩
    intro x hx
    cases hx
    exact sendable_of_hex env _ (.inl (hbar i))
  · simp
  · intro s hs
    rw [List.mem_singleton.mp hs]
    exact plainSpan_text env _ _ (by decide)
  · exact plain_plainRow env _ mr (by decide) (hv 0)
  · exact plain_plainRow env _ mr (by decide) (hv 1)
  · exact plain_plainRow env _ mr (by decide) (hv 2)
  · exact plain_plainRow env _ mr (by decide) (hv 3)
  · simp
  · intro s hs
    rw [List.mem_singleton.mp hs]
    exact plainSpan_text env _ _ (by decide)
  · exact plain_plainRow env _ mr (by decide) (hv 4)
  · exact plain_plainRow env _ mr (by decide) (hv 5)
  · exact plain_plainRow env _ mr (by decide) (hv 6)
  · exact plain_colorRow env mr (by decide) (hv 7) hf hf'
  · exact plain_colorRow env mr (by decide) (hv 8) hb hb'
  · simp
  · intro s hs
    have key : ∀ s ∈ styleSpans, (∀ c ∈ s.text, Printable c) ∧ s.hyperlink = [] ∧ s.fg = none ∧ s.bg = none ∧
      s.resetAfter = true := by decide
    obtain ⟨k1, k2, k3, k4, k5⟩ := key s hs
    exact ⟨k1, k2, fun x hx => absurd (k3.symm.trans hx) (by simp), fun x hx => absurd (k4.symm.trans hx) (by simp), k5⟩

/-- The cells of the report, line by line. -/
theorem report_grid (pow : Rat → Rat → Rat) (env : Color.Env) (r : Report) (h : Reportable r) :
    ∃ out bar f b, runDebug pow env r = .ok out ∧
      (∀ i, Color.Valid (bar i) ∧ (bar i).isBg = true) ∧
      f.SameRgb r.fg ∧ f.isBg = false ∧ b.SameRgb r.bg ∧ b.isBg = false ∧
      ∀ st : State, st.mode = .ground → st.pen = Attr.clean → st.col = 1 →
        (∀ y x, (run st out).grid y x =
          if st.row ≤ y ∧ 1 ≤ x then
            ((lineGlyphs (denOf env) ((reportLines (valuesOf env r) (rightOf (valuesOf env r)) bar
              f ((f.contrast pow).asBackground) b ((b.contrast pow).asBackground)).getD (y - st.row) []))[x - 1]?).getD
                (st.grid y x)
          else st.grid y x) ∧
        (run st out).mode = .ground ∧ (run st out).pen = Attr.clean := by
  obtain ⟨f, f1, f2, f3, f4⟩ := hex_color h.fg
  obtain ⟨b, b1, b2, b3, b4⟩ := hex_color h.bg
  choose bar hb1 hb2 hb3 hb4 using barColor_ok (reportWidth env r)
  refine ⟨_, bar, f, b, runDebug_lines pow env r f b bar hb1 f1 b1, fun i => ⟨hb2 i, hb3 i⟩, f2, f3, b2, b3, ?_⟩
  intro st hm hp hc
  exact run_lines env (denOf env) _ st (plain_lines h bar f _ b _ _ hb4 f4 (contrast_role pow f).2.1 b4
    (contrast_role pow b).2.1) hm hp hc

theorem values_le (v : Fin 9 → Str) (k : Fin 9) : (v k).length ≤ rightOf v := by
  have key : ∀ k : Fin 9, ∃ x ∈ specOf v, x.2.2 = v k := by
    intro k
    unfold specOf
    match k with
    | 0 => exact ⟨_, .head _, rfl⟩
    | 1 => exact ⟨_, .tail _ (.head _), rfl⟩
    | 2 => exact ⟨_, .tail _ (.tail _ (.head _)), rfl⟩
    | 3 => exact ⟨_, .tail _ (.tail _ (.tail _ (.head _))), rfl⟩
    | 4 => exact ⟨_, .tail _ (.tail _ (.tail _ (.tail _ (.head _)))), rfl⟩
    | 5 => exact ⟨_, .tail _ (.tail _ (.tail _ (.tail _ (.tail _ (.head _))))), rfl⟩
    | 6 => exact ⟨_, .tail _ (.tail _ (.tail _ (.tail _ (.tail _ (.tail _ (.head _)))))), rfl⟩
    | 7 => exact ⟨_, .tail _ (.tail _ (.tail _ (.tail _ (.tail _ (.tail _ (.tail _ (.head _))))))), rfl⟩
    | 8 => exact ⟨_, .tail _ (.tail _ (.tail _ (.tail _ (.tail _ (.tail _ (.tail _ (.tail _ (.head _)))))))), rfl⟩
  obtain ⟨x, h1, h2⟩ := key k
  have := value_le v h1
  rw [← h2]
  omega

theorem bar_glyphs (den : Color → TColor) (bar : Nat → Color) (hb : ∀ i, (bar i).isBg = true) (is : List Nat) :
    lineGlyphs den (is.map fun i => { text := [' '], bg := some (bar i) }) =
      is.map fun i => { ch := ' ', attr := { bg := den (bar i) } } := by
  induction is with
  | nil => rfl
  | cons i is ih =>
    unfold lineGlyphs at ih ⊢
    rw [List.map_cons, List.flatMap_cons, ih, List.map_cons]
    have : charAttr den { text := [' '], bg := some (bar i) } false = { bg := den (bar i) } := by
      simp [charAttr, paintOpt, hb i, paint, applyStyle, Attr.clean]
    rw [this]
    rfl

theorem styleGlyphs_length (den : Color → TColor) : (lineGlyphs den styleSpans).length = 49 := rfl

theorem lines_length (v : Fin 9 → Str) (hv : 22 ≤ rightOf v) (den : Color → TColor) (bar : Nat → Color)
    (hbar : ∀ i, (bar i).isBg = true) (f f' b b' : Color) (hf : f.isBg = false) (hf' : f'.isBg = true) (hb : b.isBg = false) (hb' : b'.isBg = true) :
    ∀ l ∈ reportLines v (rightOf v) bar f f' b b', (lineGlyphs den l).length ≤ 30 + rightOf v := by
  have hle := values_le v
  intro l hl
  unfold reportLines at hl
  simp only [List.mem_cons, List.not_mem_nil, or_false] at hl
  rcases hl with rfl | rfl | rfl | rfl | rfl | rfl | rfl | rfl | rfl | rfl | rfl | rfl | rfl | rfl | rfl | rfl
  · rw [bar_glyphs den bar hbar]; simp
  · simp [lineGlyphs]
  · have : (lineGlyphs den [{ text := "Environment:".toList, style := { bold := true } }]).length = 12 := rfl
    omega
  · exact (shows_plain den (by decide) (hle 0)).full.le
  · exact (shows_plain den (by decide) (hle 1)).full.le
  · exact (shows_plain den (by decide) (hle 2)).full.le
  · exact (shows_plain den (by decide) (hle 3)).full.le
  · simp [lineGlyphs]
  · have : (lineGlyphs den [{ text := "Terminal state:".toList, style := { bold := true } }]).length = 15 := rfl
    omega
  · exact (shows_plain den (by decide) (hle 4)).full.le
  · exact (shows_plain den (by decide) (hle 5)).full.le
  · exact (shows_plain den (by decide) (hle 6)).full.le
  · exact (shows_color den f f' hf hf' (by decide) (hle 7)).full.le
  · exact (shows_color den b b' hb hb' (by decide) (hle 8)).full.le
  · simp [lineGlyphs]
  · rw [styleGlyphs_length]; omega

/-! ## C85 -/

example : Reportable
    { term := some "xterm".toList, colorterm := none, noColor := some [], colorsys := none,
      size := (80, 24), sync := true, fg := Color.defaultWhite, bg := Color.defaultBlack } :=
  ⟨by decide +kernel, by unfold Color.Valid; decide +kernel, by unfold Color.Valid; decide +kernel⟩

example : reportWidth { space := .trueColor, grey := fun _ _ _ => 0 }
    { term := some "xterm".toList, colorterm := none, noColor := some [], colorsys := none,
      size := (80, 24), sync := true, fg := Color.defaultWhite, bg := Color.defaultBlack } = 54 := by decide +kernel

/-- C85: the report is printed for every environment and terminal, and nothing of it lies outside
its 16 lines and its width. -/
theorem C85_fits (pow : Rat → Rat → Rat) (env : Color.Env) (r : Report) (h : Reportable r) :
    ∃ out, runDebug pow env r = .ok out ∧
      ∀ st : State, st.mode = .ground → st.pen = Attr.clean → st.col = 1 →
        (∀ y x, y < st.row ∨ st.row + 16 ≤ y ∨ reportWidth env r < x → (run st out).grid y x = st.grid y x) ∧
        (run st out).mode = .ground ∧ (run st out).pen = Attr.clean := by
  obtain ⟨out, bar, f, b, h1, h2, -, h3, -, h4, h5⟩ := report_grid pow env r h
  refine ⟨out, h1, fun st hm hp hc => ?_⟩
  obtain ⟨g, hm', hp'⟩ := h5 st hm hp hc
  refine ⟨fun y x hyx => ?_, hm', hp'⟩
  rw [g]
  split
  · rename_i hy
    rw [List.getElem?_eq_none]
    · rfl
    · have hw := reportWidth_eq env r
      by_cases hlt : y - st.row < 16
      · have hmem : (reportLines (valuesOf env r) (rightOf (valuesOf env r)) bar
            f ((f.contrast pow).asBackground) b ((b.contrast pow).asBackground)).getD (y - st.row) [] ∈
          reportLines (valuesOf env r) (rightOf (valuesOf env r)) bar
            f ((f.contrast pow).asBackground) b ((b.contrast pow).asBackground) := by
          rw [List.getD_eq_getElem?_getD, List.getElem?_eq_getElem (by exact hlt)]
          exact List.getElem_mem _
        have := lines_length _ (rightOf_ge env r) (denOf env) bar (fun i => (h2 i).2) f _ b _ h3 (contrast_role pow f).1 h4
          (contrast_role pow b).1 _ hmem
        omega
      · have : (reportLines (valuesOf env r) (rightOf (valuesOf env r)) bar
            f ((f.contrast pow).asBackground) b ((b.contrast pow).asBackground)).getD (y - st.row) [] = [] :=
          by
            rw [List.getD_eq_getElem?_getD, List.getElem?_eq_none (by
              show 16 ≤ y - st.row
              omega)]
            rfl
        rw [this]
        simp [lineGlyphs]
  · rfl

/-- C85: every row has its label in the first columns and its value in the last ones. -/
theorem C85_rows (pow : Rat → Rat → Rat) (env : Color.Env) (r : Report) (h : Reportable r) :
    ∃ out, runDebug pow env r = .ok out ∧
      ∀ st : State, st.mode = .ground → st.pen = Attr.clean → st.col = 1 →
        ∀ x ∈ reportRows env r, ∃ attr,
          (∀ (i : Nat) c, x.2.1[i]? = some c →
            (run st out).grid (st.row + x.1) (1 + i) = { ch := c, attr := { dim := true } }) ∧
          (∀ (i : Nat) c, x.2.2[i]? = some c →
            (run st out).grid (st.row + x.1) (reportWidth env r - x.2.2.length + 1 + i) = { ch := c, attr := attr }) ∧
          (∀ i, x.2.1.length < i → i ≤ reportWidth env r - x.2.2.length →
            ((run st out).grid (st.row + x.1) i).ch = ' ') ∧
          (x.1 ≠ 12 → x.1 ≠ 13 → attr = Attr.clean) ∧
          (x.1 = 12 → attr.fg = denOf env r.fg ∧
            (attr.bg = denOf env Color.defaultBlack ∨ attr.bg = denOf env Color.defaultWhite)) ∧
          (x.1 = 13 → attr.fg = denOf env r.bg ∧
            (attr.bg = denOf env Color.defaultBlack ∨ attr.bg = denOf env Color.defaultWhite)) := by
  obtain ⟨out, bar, f, b, h1, h2, hf, h3, hb, h4, h5⟩ := report_grid pow env r h
  refine ⟨out, h1, fun st hm hp hc => ?_⟩
  obtain ⟨g, -, -⟩ := h5 st hm hp hc
  have hw := reportWidth_eq env r
  -- what a line of glyphs means for the cells
  have cells : ∀ (k : Nat) (gs : List Glyph) (label value : Str) (attr : Attr),
      lineGlyphs (denOf env) ((reportLines (valuesOf env r) (rightOf (valuesOf env r)) bar
        f ((f.contrast pow).asBackground) b ((b.contrast pow).asBackground)).getD k []) = gs →
      ShowsRow gs (30 + rightOf (valuesOf env r)) label value attr →
      (∀ (i : Nat) c, label[i]? = some c →
        (run st out).grid (st.row + k) (1 + i) = { ch := c, attr := { dim := true } }) ∧
      (∀ (i : Nat) c, value[i]? = some c →
        (run st out).grid (st.row + k) (reportWidth env r - value.length + 1 + i) = { ch := c, attr := attr }) ∧
      (∀ i, label.length < i → i ≤ reportWidth env r - value.length →
        ((run st out).grid (st.row + k) i).ch = ' ') := by
    intro k gs label value attr he hs
    have hg : ∀ x, 1 ≤ x → (run st out).grid (st.row + k) x = (gs[x - 1]?).getD (st.grid (st.row + k) x) := by
      intro x hx
      rw [g, if_pos ⟨by omega, hx⟩, show st.row + k - st.row = k by omega, he]
    refine ⟨fun i c hi => ?_, fun i c hi => ?_, fun i h1 h2 => ?_⟩
    · rw [hg _ (by omega), show 1 + i - 1 = i by omega, hs.left i c hi]; rfl
    · rw [hg _ (by omega), show reportWidth env r - value.length + 1 + i - 1 = 30 + rightOf (valuesOf env r) - value.length + i by omega,
        hs.right i c hi]
      rfl
    · obtain ⟨a, ha⟩ := hs.between (i - 1) (by omega) (by omega)
      rw [hg _ (by omega), ha]; rfl
  have hle := values_le (valuesOf env r)
  have den_same : ∀ c d : Color, c.SameRgb d → denOf env c = denOf env d := by
    intro c d hcd
    obtain ⟨e1, e2, e3⟩ := hcd
    unfold denOf Color.cubeIndex
    rw [e1, e2, e3]
  have dens : ∀ c : Color, denOf env ((c.contrast pow).asBackground) = denOf env Color.defaultBlack ∨
      denOf env ((c.contrast pow).asBackground) = denOf env Color.defaultWhite := by
    intro c
    rcases (contrast_role pow c).2.2 with h | h
    · exact .inl (den_same _ _ h)
    · exact .inr (den_same _ _ h)
  have plainCase : ∀ (k : Nat) (label value : Str), lineGlyphs (denOf env) ((reportLines (valuesOf env r)
        (rightOf (valuesOf env r)) bar f ((f.contrast pow).asBackground) b
        ((b.contrast pow).asBackground)).getD k []) =
          lineGlyphs (denOf env) (plainRow (rightOf (valuesOf env r)) label value) →
      label.length ≤ 30 → value.length ≤ rightOf (valuesOf env r) → k ≠ 12 → k ≠ 13 → ∃ attr,
          (∀ (i : Nat) c, label[i]? = some c →
            (run st out).grid (st.row + k) (1 + i) = { ch := c, attr := { dim := true } }) ∧
          (∀ (i : Nat) c, value[i]? = some c →
            (run st out).grid (st.row + k) (reportWidth env r - value.length + 1 + i) = { ch := c, attr := attr }) ∧
          (∀ i, label.length < i → i ≤ reportWidth env r - value.length →
            ((run st out).grid (st.row + k) i).ch = ' ') ∧
          (k ≠ 12 → k ≠ 13 → attr = Attr.clean) ∧
          (k = 12 → attr.fg = denOf env r.fg ∧
            (attr.bg = denOf env Color.defaultBlack ∨ attr.bg = denOf env Color.defaultWhite)) ∧
          (k = 13 → attr.fg = denOf env r.bg ∧
            (attr.bg = denOf env Color.defaultBlack ∨ attr.bg = denOf env Color.defaultWhite)) := by
    intro k label value he hl hv hk1 hk2
    obtain ⟨a1, a2, a3⟩ := cells k _ label value _ he (shows_plain (denOf env) hl hv)
    exact ⟨_, a1, a2, a3, fun _ _ => rfl, fun hk => absurd hk hk1, fun hk => absurd hk hk2⟩
  intro x hx
  rw [reportRows_eq] at hx
  unfold specOf at hx
  simp only [List.mem_cons, List.not_mem_nil, or_false] at hx
  rcases hx with rfl | rfl | rfl | rfl | rfl | rfl | rfl | rfl | rfl
  · exact plainCase 3 "$TERM".toList (valuesOf env r 0) rfl (by decide) (hle 0) (by decide) (by decide)
  · exact plainCase 4 "$COLORTERM".toList (valuesOf env r 1) rfl (by decide) (hle 1) (by decide) (by decide)
  · exact plainCase 5 "$NO_COLOR".toList (valuesOf env r 2) rfl (by decide) (hle 2) (by decide) (by decide)
  · exact plainCase 6 "$SLATE_COLORSYS".toList (valuesOf env r 3) rfl (by decide) (hle 3) (by decide) (by decide)
  · exact plainCase 9 "size".toList (valuesOf env r 4) rfl (by decide) (hle 4) (by decide) (by decide)
  · exact plainCase 10 "colorspace".toList (valuesOf env r 5) rfl (by decide) (hle 5) (by decide) (by decide)
  · exact plainCase 11 "synchronized update support".toList (valuesOf env r 6) rfl (by decide) (hle 6) (by decide) (by decide)
  · obtain ⟨a1, a2, a3⟩ := cells 12 _ "foreground color".toList (valuesOf env r 7) _ rfl
      (shows_color (denOf env) f _ h3 (contrast_role pow f).1 (by decide) (hle 7))
    exact ⟨_, a1, a2, a3, fun hk => absurd rfl hk, fun _ => ⟨den_same _ _ hf, dens f⟩,
      fun hk => absurd (show 12 = 13 from hk) (by decide)⟩
  · obtain ⟨a1, a2, a3⟩ := cells 13 _ "background color".toList (valuesOf env r 8) _ rfl
      (shows_color (denOf env) b _ h4 (contrast_role pow b).1 (by decide) (hle 8))
    exact ⟨_, a1, a2, a3, fun _ hk => absurd rfl hk, fun hk => absurd (show 13 = 12 from hk) (by decide),
      fun _ => ⟨den_same _ _ hb, dens b⟩⟩

/-- C85: the bar at the top fills the width with background colours. -/
theorem C85_bar (pow : Rat → Rat → Rat) (env : Color.Env) (r : Report) (h : Reportable r) :
    ∃ out, runDebug pow env r = .ok out ∧
      ∀ st : State, st.mode = .ground → st.pen = Attr.clean → st.col = 1 →
        ∀ x, 1 ≤ x → x ≤ reportWidth env r → ∃ c : Color, c.Valid ∧
          (run st out).grid st.row x = { ch := ' ', attr := { bg := denOf env c } } := by
  obtain ⟨out, bar, f, b, h1, h2, hf, h3, hb, h4, h5⟩ := report_grid pow env r h
  refine ⟨out, h1, fun st hm hp hc x hx1 hx2 => ⟨bar (x - 1), (h2 _).1, ?_⟩⟩
  obtain ⟨g, -, -⟩ := h5 st hm hp hc
  have hw := reportWidth_eq env r
  have e : (reportLines (valuesOf env r) (rightOf (valuesOf env r)) bar
        f ((f.contrast pow).asBackground) b ((b.contrast pow).asBackground)).getD 0 [] =
      (List.range (30 + rightOf (valuesOf env r))).map fun i => { text := [' '], bg := some (bar i) } := rfl
  rw [g, if_pos ⟨le_refl _, hx1⟩, Nat.sub_self, e, bar_glyphs _ bar (fun i => (h2 i).2), List.getElem?_map,
    List.getElem?_range (by omega)]
  rfl

/-- C85: the last line shows every style once, in one line. -/
theorem C85_styles (pow : Rat → Rat → Rat) (env : Color.Env) (r : Report) (h : Reportable r) :
    ∃ out, runDebug pow env r = .ok out ∧
      ∀ st : State, st.mode = .ground → st.pen = Attr.clean → st.col = 1 →
        ∀ x ∈ [(1, "std", Attr.clean), (5, "bold", { bold := true }), (10, "italic", { italic := true }),
               (17, "dim", { dim := true }), (21, "underline", { underline := true }), (31, "blink", { blink := true }),
               (37, "invert", { invert := true }), (44, "strike", { strike := true })],
          ∀ (i : Nat) c, x.2.1.toList[i]? = some c →
            (run st out).grid (st.row + 15) (x.1 + i) = { ch := c, attr := x.2.2 } := by
  obtain ⟨out, bar, f, b, h1, h2, hf, h3, hb, h4, h5⟩ := report_grid pow env r h
  refine ⟨out, h1, fun st hm hp hc x hx i c hi => ?_⟩
  obtain ⟨g, -, -⟩ := h5 st hm hp hc
  have key : ∀ x ∈ [(1, "std", Attr.clean), (5, "bold", { bold := true }), (10, "italic", { italic := true }),
      (17, "dim", { dim := true }), (21, "underline", { underline := true }), (31, "blink", { blink := true }),
      (37, "invert", { invert := true }), (44, "strike", { strike := true })],
      1 ≤ x.1 ∧ ∀ i ∈ List.range x.2.1.toList.length,
        (lineGlyphs (fun _ => TColor.default) styleSpans)[x.1 + i - 1]? =
          (x.2.1.toList[i]?).map fun c => ({ ch := c, attr := x.2.2 } : Glyph) := by decide +kernel
  obtain ⟨k1, k2⟩ := key x hx
  have hlt := (List.getElem?_eq_some_iff.mp hi).1
  have k3 := k2 i (List.mem_range.mpr hlt)
  have e : lineGlyphs (denOf env) ((reportLines (valuesOf env r) (rightOf (valuesOf env r)) bar
        f ((f.contrast pow).asBackground) b ((b.contrast pow).asBackground)).getD 15 []) =
      lineGlyphs (fun _ => TColor.default) styleSpans := rfl
  rw [g, if_pos ⟨by omega, by omega⟩, show st.row + 15 - st.row = 15 by omega, e, k3, hi]
  rfl

end Slate
