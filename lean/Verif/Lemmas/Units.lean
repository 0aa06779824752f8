import Verif.Lemmas.SpanText

/-! Lines made of SGR sequences, each followed by text: parsing and terminal. -/

namespace Slate
open Py Term

/-- One command inside an SGR sequence. -/
inductive SgrUnit where
  /-- switch a style on: 1 to 9 -/
  | set (k : Nat)
  /-- switch a style or a colour off -/
  | unset (k : Nat)
  /-- a colour -/
  | color (ns : List Nat)
  deriving DecidableEq, Repr

namespace SgrUnit

/-- The numbers of a command. -/
def nums : SgrUnit → List Nat
  | .set k => [k]
  | .unset k => [k]
  | .color ns => ns

/-- The commands considered: styles 1 to 9, their resets except 28 and 29, default
colours, and standard, bright, 8-bit and true colours. -/
def Ok : SgrUnit → Prop
  | .set k => 1 ≤ k ∧ k ≤ 9
  | .unset k => k ∈ [22, 23, 24, 25, 27, 39, 49]
  | .color ns => CodeNums ns

/-- Effect on the parser's options. -/
def eff (u : SgrUnit) (o : Opts) : Opts :=
  match u with
  | .set 1 => { o with style := { o.style with bold := true } }
  | .set 2 => { o with style := { o.style with dim := true } }
  | .set 3 => { o with style := { o.style with italic := true } }
  | .set 4 => { o with style := { o.style with underline := true } }
  | .set 5 => { o with style := { o.style with blink := true } }
  | .set 6 => { o with style := { o.style with fastBlink := true } }
  | .set 7 => { o with style := { o.style with invert := true } }
  | .set 8 => { o with style := { o.style with conceal := true } }
  | .set 9 => { o with style := { o.style with strike := true } }
  | .unset 22 => { o with style := { o.style with bold := false, dim := false } }
  | .unset 23 => { o with style := { o.style with italic := false } }
  | .unset 24 => { o with style := { o.style with underline := false } }
  | .unset 25 => { o with style := { o.style with blink := false } }
  | .unset 27 => { o with style := { o.style with invert := false } }
  | .unset 39 => { o with fg := none }
  | .unset 49 => { o with bg := none }
  | .color ns => o.paint (codeColor ns)
  | _ => o

theorem Ok.ne_nil {u : SgrUnit} (h : u.Ok) : u.nums ≠ [] := by
  cases u with
  | set k => simp [nums]
  | unset k => simp [nums]
  | color ns =>
    cases h <;> simp [nums]

theorem parse {u : SgrUnit} (h : u.Ok) (rest : List Str) (o : Opts) :
    parseParts (u.nums.map dec ++ rest) false [] o = parseParts rest false [] (u.eff o) := by
  cases u with
  | set k =>
    obtain ⟨h1, h2⟩ := h
    simp only [nums, List.map_cons, List.map_nil, List.singleton_append]
    have hk : k = 1 ∨ k = 2 ∨ k = 3 ∨ k = 4 ∨ k = 5 ∨ k = 6 ∨ k = 7 ∨ k = 8 ∨ k = 9 := by omega
    rw [parseParts]
    rcases hk with rfl | rfl | rfl | rfl | rfl | rfl | rfl | rfl | rfl <;>
      rw [if_neg (by decide +kernel)] <;> rfl
  | unset k =>
    simp only [nums, List.map_cons, List.map_nil, List.singleton_append]
    rw [parseParts]
    simp only [Ok, List.mem_cons, List.not_mem_nil, or_false] at h
    rcases h with rfl | rfl | rfl | rfl | rfl | rfl | rfl <;>
      rw [if_neg (by decide +kernel)] <;> rfl
  | color ns => exact parseParts_code h rest o

end SgrUnit

/-- A colour as parsed shows the terminal's colour `t` (in background role if `bg`):
nothing for the default colour, the palette entry or the channels otherwise. -/
def Shows (bg : Bool) (t : TColor) (c : Option Color) : Prop :=
  match t with
  | .default => c = none
  | .idx n => ∃ k, c = some k ∧ k.isBg = bg ∧ (k.r, k.g, k.b) = palette n
  | .rgb r g b => ∃ k, c = some k ∧ k.isBg = bg ∧ (k.r, k.g, k.b) = (r, g, b)

/-- Styles and colours agree with the pen of the terminal; fast blinking only if
`strict`. -/
structure Agree (strict : Bool) (st : Style) (fg bg : Option Color) (a : Attr) : Prop where
  bold : st.bold = a.bold
  dim : st.dim = a.dim
  italic : st.italic = a.italic
  underline : st.underline = a.underline
  blink : st.blink = a.blink
  fastBlink : strict = true → st.fastBlink = a.fastBlink
  invert : st.invert = a.invert
  conceal : st.conceal = a.conceal
  strike : st.strike = a.strike
  isOpaque : st.isOpaque = false
  fg : Shows false a.fg fg
  bg : Shows true a.bg bg

theorem Agree.clean (strict : Bool) : Agree strict {} none none Attr.clean :=
  ⟨rfl, rfl, rfl, rfl, rfl, fun _ => rfl, rfl, rfl, rfl, rfl, rfl, rfl⟩

/-- The terminal's reading of a canonical colour code. -/
theorem sgr_code {ns : List Nat} (h : CodeNums ns) :
    ∃ t, (∀ rest a, sgr (ns ++ rest) a = sgr rest (paint (codeColor ns).isBg t a)) ∧
      Shows (codeColor ns).isBg t (some (codeColor ns)) := by
  cases h with
  | std n h =>
    have key : ∀ n ∈ List.range' 30 8 ++ List.range' 40 8 ++ List.range' 90 8 ++ List.range' 100 8,
        n ≠ 38 ∧ n ≠ 48 ∧ ∃ i < 16, n = Color.stdCode i (codeColor [n]).isBg ∧
        ((codeColor [n]).r, (codeColor [n]).g, (codeColor [n]).b) = palette i := by decide +kernel
    obtain ⟨h38, h48, i, hi, hn, hp⟩ := key n (stdNums h)
    refine ⟨.idx i, ?_, _, rfl, rfl, hp⟩
    intro rest a
    rw [List.singleton_append, sgr_cons h38 h48]
    congr 1
    have := (sgr1_stdCode hi (codeColor [n]).isBg a).1
    rw [← hn] at this
    exact this
  | idx bg n h =>
    refine ⟨.idx n, ?_, _, rfl, rfl, rfl⟩
    intro rest a
    cases bg
    · exact sgr_fg5 n rest a
    · exact sgr_bg5 n rest a
  | rgb bg r g b hr hg hb =>
    refine ⟨.rgb r g b, ?_, _, rfl, rfl, rfl⟩
    intro rest a
    cases bg
    · exact sgr_fg2 r g b rest a
    · exact sgr_bg2 r g b rest a

/-- One command keeps the agreement. -/
theorem SgrUnit.agree {u : SgrUnit} (h : u.Ok) {strict : Bool} (h25 : strict = true → u ≠ .unset 25)
    {o : Opts} {a : Attr} (ha : Agree strict o.style o.fg o.bg a) :
    ∃ a', (∀ rest, sgr (u.nums ++ rest) a = sgr rest a') ∧
      Agree strict (u.eff o).style (u.eff o).fg (u.eff o).bg a' ∧ (u.eff o).bad = o.bad := by
  cases u with
  | set k =>
    obtain ⟨h1, h2⟩ := h
    have hk : k = 1 ∨ k = 2 ∨ k = 3 ∨ k = 4 ∨ k = 5 ∨ k = 6 ∨ k = 7 ∨ k = 8 ∨ k = 9 := by omega
    refine ⟨sgr1 k a, fun rest => ?_, ?_⟩
    · exact sgr_cons (by omega) (by omega) rest a
    · obtain ⟨a1, a2, a3, a4, a5, a6, a7, a8, a9, a10, a11, a12⟩ := ha
      rcases hk with rfl | rfl | rfl | rfl | rfl | rfl | rfl | rfl | rfl <;>
        exact ⟨⟨by first | assumption | rfl, by first | assumption | rfl, by first | assumption | rfl,
          by first | assumption | rfl, by first | assumption | rfl, by first | assumption | exact fun _ => rfl,
          by first | assumption | rfl, by first | assumption | rfl, by first | assumption | rfl,
          by first | assumption | rfl, by assumption, by assumption⟩, rfl⟩
  | unset k =>
    simp only [Ok, List.mem_cons, List.not_mem_nil, or_false] at h
    refine ⟨sgr1 k a, fun rest => ?_, ?_⟩
    · exact sgr_cons (by omega) (by omega) rest a
    · obtain ⟨a1, a2, a3, a4, a5, a6, a7, a8, a9, a10, a11, a12⟩ := ha
      by_cases hk : k = 25
      · subst hk
        refine ⟨⟨a1, a2, a3, a4, rfl, fun hs => absurd rfl (h25 hs), a7, a8, a9, a10, a11, a12⟩, rfl⟩
      · have h : k = 22 ∨ k = 23 ∨ k = 24 ∨ k = 27 ∨ k = 39 ∨ k = 49 := by omega
        rcases h with rfl | rfl | rfl | rfl | rfl | rfl <;>
          exact ⟨⟨by first | assumption | rfl, by first | assumption | rfl, by first | assumption | rfl,
            by first | assumption | rfl, by first | assumption | rfl, by assumption,
            by first | assumption | rfl, by first | assumption | rfl, by first | assumption | rfl,
            by first | assumption | rfl, by first | assumption | rfl, by first | assumption | rfl⟩, rfl⟩
  | color ns =>
    obtain ⟨t, ht, hs⟩ := sgr_code h
    refine ⟨_, fun rest => ht rest a, ?_⟩
    obtain ⟨a1, a2, a3, a4, a5, a6, a7, a8, a9, a10, a11, a12⟩ := ha
    change Agree strict (o.paint (codeColor ns)).style (o.paint (codeColor ns)).fg
      (o.paint (codeColor ns)).bg _ ∧ (o.paint (codeColor ns)).bad = o.bad
    cases hb : (codeColor ns).isBg with
    | true =>
      rw [hb] at hs
      simp only [Opts.paint, hb, if_true, paint]
      exact ⟨⟨a1, a2, a3, a4, a5, a6, a7, a8, a9, a10, a11, hs⟩, trivial⟩
    | false =>
      rw [hb] at hs
      simp only [Opts.paint, hb, Bool.false_eq_true, if_false, paint]
      exact ⟨⟨a1, a2, a3, a4, a5, a6, a7, a8, a9, a10, hs, a12⟩, trivial⟩

/-- The numbers of a sequence. -/
def seqNums (us : List SgrUnit) : List Nat := us.flatMap SgrUnit.nums

/-- Effect of a sequence on the parser's options. -/
def seqEff (us : List SgrUnit) (o : Opts) : Opts := us.foldl (fun o u => u.eff o) o

theorem parse_seq {us : List SgrUnit} (h : ∀ u ∈ us, u.Ok) (o : Opts) :
    parseParts ((seqNums us).map dec) false [] o = (seqEff us o, .ok none) := by
  induction us generalizing o with
  | nil => rfl
  | cons u us ih =>
    rw [seqNums, List.flatMap_cons, List.map_append, SgrUnit.parse (h u (by simp))]
    exact ih (fun v hv => h v (by simp [hv])) _

theorem seqNums_ne_nil {us : List SgrUnit} (hne : us ≠ []) (h : ∀ u ∈ us, u.Ok) : seqNums us ≠ [] := by
  obtain ⟨u, t, rfl⟩ := List.exists_cons_of_ne_nil hne
  simp [seqNums, (h u (by simp)).ne_nil]

theorem parseSequence_seq {us : List SgrUnit} (hne : us ≠ []) (h : ∀ u ∈ us, u.Ok) (o : Opts) :
    parseSequence (codeStr (seqNums us)) o = (seqEff us o, .ok none) := by
  obtain ⟨n, ns, hn⟩ := List.exists_cons_of_ne_nil (seqNums_ne_nil hne h)
  unfold parseSequence
  rw [codeStr, hn, splitC_decs, ← hn]
  exact parse_seq h o

theorem seq_agree {us : List SgrUnit} (h : ∀ u ∈ us, u.Ok) {strict : Bool}
    (h25 : strict = true → .unset 25 ∉ us) {o : Opts} {a : Attr}
    (ha : Agree strict o.style o.fg o.bg a) (hbad : o.bad = false) :
    Agree strict (seqEff us o).style (seqEff us o).fg (seqEff us o).bg (sgr (seqNums us) a) ∧
      (seqEff us o).bad = false := by
  induction us generalizing o a with
  | nil => exact ⟨ha, hbad⟩
  | cons u us ih =>
    obtain ⟨a', h1, h2, h3⟩ := SgrUnit.agree (h u (by simp))
      (fun hs e => h25 hs (by simp [e])) ha
    rw [seqNums, List.flatMap_cons, h1]
    exact ih (fun v hv => h v (by simp [hv])) (fun hs hm => h25 hs (by simp [hm])) h2 (h3.trans hbad)

/-! ### Lines -/

/-- A sequence and the text after it. -/
structure Item where
  units : List SgrUnit
  text : Str

/-- The item is one considered here. -/
structure Item.Ok (it : Item) : Prop where
  ne : it.units ≠ []
  units : ∀ u ∈ it.units, u.Ok
  text : PlainText it.text

/-- The characters of an item. -/
def Item.str (it : Item) : Str := '\x1b' :: '[' :: (codeStr (seqNums it.units) ++ 'm' :: it.text)

/-- The characters of a line. -/
def lineOf (items : List Item) : Str := items.flatMap Item.str

/-- The spans a line is parsed to. -/
def spansOf : Opts → List Item → List Span
  | _, [] => []
  | o, it :: its =>
    { text := it.text, fg := (seqEff it.units o).fg, bg := (seqEff it.units o).bg
      style := (seqEff it.units o).style } :: spansOf (seqEff it.units o) its

theorem styleMatches_items (items : List Item) (h : ∀ it ∈ items, it.Ok) (pos : Nat) (tail : Str)
    (htail : ∀ p, styleMatchesGo p 0 ('\x1b' :: tail) = []) :
    (styleMatchesGo pos 0 (lineOf items ++ '\x1b' :: tail)).map (fun m => (m.1, m.2.1)) =
      items.map (fun it => (codeStr (seqNums it.units), it.text)) ∧
    ∀ o index, o.bad = false → (∀ us ∈ items.map Item.units, ∀ o, (seqEff us o).bad = o.bad) →
      yieldLoop (styleMatchesGo pos 0 (lineOf items ++ '\x1b' :: tail)) o index =
        (spansOf o items, (if items = [] then index else pos + (lineOf items).length), none) := by
  induction items generalizing pos with
  | nil => simp [lineOf, htail, yieldLoop, spansOf]
  | cons it its ih =>
    have hit := h it (by simp)
    obtain ⟨rest, hrest⟩ : ∃ rest, lineOf its ++ '\x1b' :: tail = '\x1b' :: rest := by
      cases its with
      | nil => exact ⟨tail, rfl⟩
      | cons a b => exact ⟨_, rfl⟩
    have hline : lineOf (it :: its) ++ '\x1b' :: tail =
        '\x1b' :: '[' :: (codeStr (seqNums it.units) ++ 'm' :: (it.text ++ '\x1b' :: rest)) := by
      rw [← hrest]; simp [lineOf, Item.str]
    have hlen : it.str.length = (codeStr (seqNums it.units)).length + it.text.length + 3 := by
      simp [Item.str]; omega
    have hgo := styleMatchesGo_run pos rest (codeStr_bodyChar (ns := seqNums it.units)) hit.text
    rw [← hline, ← hrest] at hgo
    obtain ⟨i1, i2⟩ := ih (fun x hx => h x (by simp [hx]))
      (pos + ((codeStr (seqNums it.units)).length + it.text.length + 3))
    rw [hgo]
    constructor
    · rw [List.map_cons, List.map_cons, i1]
    · intro o index hb hall
      rw [yieldLoop, parseSequence_seq hit.ne hit.units]
      have hb' : (seqEff it.units o).bad = false := by
        rw [hall it.units (by simp)]; exact hb
      simp only [spanOfOpts, hb', Bool.false_eq_true, if_false]
      rw [i2 _ _ hb' fun us hus => hall us (by simp at hus ⊢; exact .inr hus)]
      simp only [spansOf, reduceCtorEq, if_false]
      have hl2 : (lineOf (it :: its)).length = it.str.length + (lineOf its).length := by simp [lineOf]
      by_cases hn : its = []
      · subst hn
        simp [lineOf, hlen]
      · rw [if_neg hn, hl2, hlen]; simp [Nat.add_assoc]

theorem SgrUnit.eff_bad (u : SgrUnit) (o : Opts) : (u.eff o).bad = o.bad := by
  unfold SgrUnit.eff
  split <;> try rfl
  unfold Opts.paint
  split <;> rfl

theorem seqEff_bad {us : List SgrUnit} (h : ∀ u ∈ us, u.Ok) (o : Opts) : (seqEff us o).bad = o.bad := by
  induction us generalizing o with
  | nil => rfl
  | cons u us ih =>
    rw [seqEff, List.foldl_cons]
    exact (ih (fun v hv => h v (by simp [hv])) _).trans (SgrUnit.eff_bad u o)

theorem rstrip_esc {s : Str} (h : ∀ c, s.getLast? = some c → c ≠ ESC) :
    rstrip (· == ESC) (s ++ [ESC]) = s := by
  rw [rstrip_append_singleton (by simp)]
  apply rstrip_of_last
  intro c hc
  simpa using h c hc

theorem lineOf_last {items : List Item} (h : ∀ it ∈ items, it.Ok) :
    ∀ c, (lineOf items).getLast? = some c → c ≠ ESC := by
  intro c hc
  induction items with
  | nil => simp [lineOf] at hc
  | cons it its ih =>
    have hit := (h it (by simp)).text
    have hlast : ∀ d, it.str.getLast? = some d → d ∈ it.text := by
      intro d hd
      obtain ⟨z, hz⟩ := Option.ne_none_iff_exists'.mp (fun e => hit.1 (List.getLast?_eq_none_iff.mp e))
      have : it.str = ('\x1b' :: '[' :: (codeStr (seqNums it.units) ++ ['m'])) ++ it.text := by
        simp [Item.str]
      rw [this, List.getLast?_append, hz] at hd
      simp at hd
      exact hd ▸ List.mem_of_getLast? hz
    rw [lineOf, List.flatMap_cons, List.getLast?_append] at hc
    cases hl : (List.flatMap Item.str its).getLast? with
    | none =>
      rw [hl] at hc
      exact hit.2 c (hlast c (by simpa using hc))
    | some d =>
      rw [hl] at hc
      simp at hc
      exact ih (fun x hx => h x (by simp [hx])) (by rw [lineOf, hl, hc])

theorem endsWith_esc {s : Str} (h : ∀ c, s.getLast? = some c → c ≠ ESC) : endsWith s [ESC] = false := by
  rw [Bool.eq_false_iff]
  intro e
  obtain ⟨t, ht⟩ := List.isSuffixOf_iff_suffix.mp e
  exact h ESC (by rw [← ht]; simp) rfl

/-- Parsing a line of items. -/
theorem yieldFrom_items {items : List Item} (h : ∀ it ∈ items, it.Ok) :
    yieldFrom (lineOf items) = (spansOf {} items, none) := by
  unfold yieldFrom
  rw [endsWith_esc (lineOf_last h)]
  simp only [Bool.false_eq_true, if_false]
  have h1 := (styleMatches_items items h 0 [] styleMatchesGo_end).2 {} 0 rfl (by
    intro us hus o
    obtain ⟨it, hit, rfl⟩ := List.mem_map.mp hus
    exact seqEff_bad (h it hit).units o)
  unfold styleMatches
  rw [show ([ESC] : Str) = '\x1b' :: [] from rfl, h1]
  simp only
  rw [show ('\x1b' :: [] : Str) = [ESC] from rfl, rstrip_esc (lineOf_last h)]
  by_cases hn : items = []
  · subst hn; simp [lineOf]
  · rw [if_neg hn, if_neg (by omega)]

theorem ground_text (st : State) (t rest : Str) (hm : st.mode = .ground) (h : ∀ c ∈ t, c ≠ '\x1b') :
    ∃ st', run st (t ++ rest) = run st' rest ∧ st'.mode = .ground ∧ st'.pen = st.pen := by
  induction t generalizing st with
  | nil => exact ⟨st, rfl, hm, rfl⟩
  | cons c t ih =>
    have hstep : (step st c).mode = .ground ∧ (step st c).pen = st.pen := by
      unfold step
      rw [hm]
      simp only [h c (by simp), if_false]
      split
      · exact ⟨by first | rfl | exact hm, rfl⟩
      split
      · exact ⟨by first | rfl | exact hm, rfl⟩
      split
      · exact ⟨by first | rfl | exact hm, rfl⟩
      · exact ⟨by first | rfl | exact hm, rfl⟩
    obtain ⟨st', h1, h2, h3⟩ := ih (step st c) hstep.1 fun x hx => h x (by simp [hx])
    exact ⟨st', by rw [List.cons_append, run_cons, h1], h2, h3.trans hstep.2⟩

theorem run_item {it : Item} (h : it.Ok) (st : State) (rest : Str) (hm : st.mode = .ground) :
    ∃ st', run st (it.str ++ rest) = run st' rest ∧ st'.mode = .ground ∧
      st'.pen = sgr (seqNums it.units) st.pen := by
  obtain ⟨n, ns, hn⟩ := List.exists_cons_of_ne_nil (seqNums_ne_nil h.ne h.units)
  have h1 := run_sgr st n ns (it.text ++ rest) hm
  obtain ⟨st', h2, h3, h4⟩ := ground_text { st with pen := sgr (n :: ns) st.pen } it.text rest hm h.text.2
  refine ⟨st', ?_, h3, ?_⟩
  · rw [← h2, ← h1, ← hn]; simp [Item.str, codeStr]
  · rw [h4, hn]

/-- The spans agree with the terminal's pen along the line. -/
theorem spansOf_agree {items : List Item} (h : ∀ it ∈ items, it.Ok) {strict : Bool}
    (h25 : strict = true → ∀ it ∈ items, .unset 25 ∉ it.units) {o : Opts} (st : State)
    (hm : st.mode = .ground) (ha : Agree strict o.style o.fg o.bg st.pen) (hbad : o.bad = false) :
    (spansOf o items).length = items.length ∧
    ∀ (i : Nat) (it : Item) (sp : Span), items[i]? = some it → (spansOf o items)[i]? = some sp →
      sp.text = it.text ∧
      Agree strict sp.style sp.fg sp.bg (run st (lineOf (items.take (i + 1)))).pen := by
  induction items generalizing o st with
  | nil => exact ⟨rfl, by intro i it sp hi; simp at hi⟩
  | cons it its ih =>
    have hit := h it (by simp)
    obtain ⟨hag, hb⟩ := seq_agree hit.units (fun hs => h25 hs it (by simp)) ha hbad
    constructor
    · have := (ih (fun x hx => h x (by simp [hx])) (fun hs x hx => h25 hs x (by simp [hx]))
        { st with pen := sgr (seqNums it.units) st.pen } hm hag hb).1
      simp [spansOf, this]
    · intro i jt sp hi hs
      cases i with
      | zero =>
        simp only [List.getElem?_cons_zero, Option.some.injEq, spansOf] at hi hs
        subst hi hs
        refine ⟨rfl, ?_⟩
        obtain ⟨st', h1, h2, h3⟩ := run_item hit st [] hm
        have : lineOf (List.take (0 + 1) (it :: its)) = it.str ++ [] := by simp [lineOf]
        rw [this, h1, run_nil, h3]
        exact hag
      | succ i =>
        simp only [List.getElem?_cons_succ, spansOf] at hi hs
        obtain ⟨st', h1, h2, h3⟩ := run_item hit st (lineOf (its.take (i + 1))) hm
        have hag' : Agree strict (seqEff it.units o).style (seqEff it.units o).fg (seqEff it.units o).bg
            st'.pen := by rw [h3]; exact hag
        have := (ih (fun x hx => h x (by simp [hx])) (fun hs x hx => h25 hs x (by simp [hx]))
          st' h2 hag' hb).2 i jt sp hi hs
        refine ⟨this.1, ?_⟩
        have e : lineOf (List.take (i + 1 + 1) (it :: its)) = it.str ++ lineOf (its.take (i + 1)) := by
          simp [lineOf]
        rw [e, h1]
        exact this.2

end Slate
