import Verif.Props.ParseStops
import Verif.Props.Malformed
import Verif.Props.Codes

/-!
# Which sequences make `yield_from` raise something else than `ValueError` (C32)
-/

namespace Slate
open Py

/-- The sequence is in the line. -/
def HasSequence (line seq : Str) : Prop := ∃ e, (e = 'm' ∨ e = 'H') ∧ '\x1b' :: '[' :: (seq ++ [e]) <:+: line

/-- A true-colour code with two channels and an alpha value instead of three channels. -/
def AlphaForChannel (code : Str) : Prop :=
  ∃ lead r g x : Str, (lead = "38".toList ∨ lead = "48".toList) ∧ code = lead ++ ";2;".toList ++ r ++ [';'] ++ g ++ [';'] ++ x ∧
    Numeral r ∧ Numeral g ∧ AlphaText x

theorem splitC_channels {lead r g x : Str} (hl : lead = "38".toList ∨ lead = "48".toList) (hr : ';' ∉ r) (hg : ';' ∉ g) (hx : ';' ∉ x) :
    splitC ';' (lead ++ ";2;".toList ++ r ++ [';'] ++ g) = [lead, "2".toList, r, g] ∧
    splitC ';' (lead ++ ";2;".toList ++ r ++ [';'] ++ g ++ [';'] ++ x) = [lead, "2".toList, r, g, x] := by
  have h1 : splitC ';' (lead ++ ";2;".toList ++ r ++ [';'] ++ g) = [lead, "2".toList, r, g] := by
    rw [List.append_assoc (lead ++ ";2;".toList ++ r), List.singleton_append, splitC_snoc hg,
      show lead ++ ";2;".toList ++ r = (lead ++ ";2".toList) ++ ';' :: r by simp, splitC_snoc hr]
    rcases hl with rfl | rfl <;> rfl
  refine ⟨h1, ?_⟩
  rw [List.append_assoc (lead ++ ";2;".toList ++ r ++ [';'] ++ g), List.singleton_append, splitC_snoc hx, h1]
  rfl

theorem isDigit_dot {s : Str} (h : '.' ∈ s) : isDigit s = false := by
  unfold isDigit
  have : s.all isDigitChar = false := by
    rw [Bool.eq_false_iff]
    intro e
    have := List.all_eq_true.mp e '.' h
    revert this; decide +kernel
  simp [this]

/-- A complete code raises `IndexError` iff it has an alpha value for its third channel. -/
theorem valid_index {buf : Str} (hv : isValidColor buf = .ok true) (h : Color.fromAnsi buf = .error .indexError) : AlphaForChannel buf := by
  have hsplit : ∀ l : List Str, splitC ';' buf = l → isDigit buf = false → ∃ p, l[1]? = some p ∧
      ((p = "2".toList ∧ (l.length = 5 ∨ l.length = 6)) ∨ p ≠ "2".toList) := by
    intro l hl hd
    unfold isValidColor at hv
    rw [if_neg (by simp [hd])] at hv
    simp only [hl] at hv
    cases hp : l[1]? with
    | none => rw [hp] at hv; cases hv
    | some p =>
      rw [hp] at hv
      simp only at hv
      refine ⟨p, rfl, ?_⟩
      by_cases h2 : p = "2".toList
      · rw [if_pos h2] at hv
        injection hv with hv
        exact .inl ⟨h2, by simpa using hv⟩
      · exact .inr h2
  rcases (C87_from_ansi buf 1).mp h with h | ⟨lead, r, g, hl, e, hr, hg, -⟩ | ⟨t, x, e, hx, lead, r, g, hl, et, hr, hg⟩
  · obtain ⟨p, hp, -⟩ := hsplit [buf] (splitC_of_not_mem h.1) (isDigit_dot h.2.1)
    simp at hp
  · have hs := (splitC_channels hl hr.1 hg.1 (x := []) (by simp)).1
    rw [← e] at hs
    obtain ⟨p, hp, hh⟩ := hsplit _ hs (isDigit_false_of_mem (by rw [e]; simp))
    simp at hp
    subst hp
    rcases hh with hh | hh
    · simp at hh
    · exact absurd rfl hh
  · exact ⟨lead, r, g, x, hl, by rw [e, et]; simp, hr, hg, hx⟩

theorem isValidColor_no_index {b : Str} (h : isDigit b = true ∨ ';' ∈ b) : isValidColor b ≠ .error .indexError := by
  intro he
  unfold isValidColor at he
  split at he
  · split at he
    · injection he with he; cases he
    · split at he
      · cases he
      · split at he <;> cases he
  · rename_i hd
    obtain ⟨u, v, hab, hu⟩ := first_mem (h.resolve_left hd)
    simp only [hab, splitC_append v hu] at he
    obtain ⟨x, t, hx⟩ := List.exists_cons_of_ne_nil (splitC_ne_nil ';' v)
    rw [hx] at he
    simp only [List.getElem?_cons_succ, List.getElem?_cons_zero] at he
    split at he
    · cases he
    · split at he <;> cases he

/-- If reading a sequence raises `IndexError`, there is such a code in it. -/
theorem parseParts_index (parts : List Str) (inColor : Bool) (buf : Str) (o : Opts) (hbuf : if inColor then ';' ∈ buf else buf = [])
    (h : (parseParts parts inColor buf o).2 = .error .indexError) :
    ∃ code, AlphaForChannel code ∧ code <:+: buf ++ join [';'] parts := by
  induction parts generalizing inColor buf o with
  | nil => simp [parseParts] at h
  | cons part rest ih =>
    have hjoin : rest ≠ [] → join [';'] (part :: rest) = part ++ [';'] ++ join [';'] rest := by
      intro hr
      obtain ⟨a, l, rfl⟩ := List.exists_cons_of_ne_nil hr
      simp [join]
    have hrest : ∀ ic b o', (parseParts rest ic b o').2 = .error .indexError → rest ≠ [] := by
      rintro ic b o' he rfl
      simp [parseParts] at he
    have hpart : part <+: join [';'] (part :: rest) := by
      by_cases hr : rest = []
      · subst hr; simp [join]
      · rw [hjoin hr, List.append_assoc]; exact List.prefix_append _ _
    rw [parseParts] at h
    by_cases hrd : (isDigit part && (Py.int 10 part).isNone) = true
    · rw [if_pos hrd] at h
      cases h
    rw [if_neg hrd] at h
    by_cases hin : (inColor || startsColor part) = true
    · rw [if_pos hin] at h
      simp only at h
      have hno : isValidColor (buf ++ part) ≠ .error .indexError := by
        refine isValidColor_no_index ?_
        cases inColor with
        | true => exact .inr (List.mem_append_left _ (by simpa using hbuf))
        | false =>
          have hb : buf = [] := by simpa using hbuf
          simp only [Bool.false_or, startsColor, Bool.and_eq_true] at hin
          exact .inl (by rw [hb]; exact hin.1.1)
      cases hval : isValidColor (buf ++ part) with
      | error e =>
        rw [hval] at h
        simp only at h
        injection h with h
        exact absurd (h ▸ hval) hno
      | ok v =>
        rw [hval] at h
        cases v with
        | false =>
          simp only at h
          obtain ⟨code, h1, h2⟩ := ih true (buf ++ part ++ [';']) o (by simp) h
          refine ⟨code, h1, ?_⟩
          rw [hjoin (hrest _ _ _ h)]
          simpa using h2
        | true =>
          simp only at h
          cases hc : Color.fromAnsi (buf ++ part) with
          | error e =>
            rw [hc] at h
            simp only at h
            injection h with h
            subst h
            refine ⟨buf ++ part, valid_index hval hc, ?_⟩
            obtain ⟨z, hz⟩ := hpart
            exact ⟨[], z, by rw [← hz]; simp⟩
          | ok c =>
            rw [hc] at h
            simp only at h
            obtain ⟨code, h1, h2⟩ := ih false [] _ rfl h
            refine ⟨code, h1, ?_⟩
            rw [hjoin (hrest _ _ _ h)]
            rw [List.nil_append] at h2
            exact h2.trans ⟨buf ++ (part ++ [';']), [], by simp⟩
    · rw [if_neg hin] at h
      have hic : inColor = false := by
        cases inColor with
        | false => rfl
        | true => simp at hin
      have hb : buf = [] := by simpa [hic] using hbuf
      have lift : ∀ o', (parseParts rest false buf o').2 = .error .indexError → ∃ code, AlphaForChannel code ∧ code <:+: buf ++ join [';'] (part :: rest) := by
        intro o' he
        obtain ⟨code, h1, h2⟩ := ih false buf o' (by simpa using hb) he
        refine ⟨code, h1, ?_⟩
        rw [hjoin (hrest _ _ _ he)]
        rw [hb, List.nil_append] at h2 ⊢
        exact h2.trans ⟨part ++ [';'], [], by simp⟩
      cases hs : applySetter part o with
      | some o' => rw [hs] at h; exact lift o' h
      | none =>
        rw [hs] at h
        simp only at h
        cases hu : applyUnsetter part o with
        | some o' => rw [hu] at h; exact lift o' h
        | none => rw [hu] at h; cases h

theorem styleBody_sequence {acc s b t r : Str} (h : styleBody acc s = some (b, t, r)) :
    ∃ body e, b = acc ++ body ∧ (e = 'm' ∨ e = 'H') ∧ body ++ [e] <+: s := by
  induction s generalizing acc with
  | nil => simp [styleBody] at h
  | cons c cs ih =>
    rw [styleBody] at h
    split at h
    · rename_i hm
      injection h with h; injection h with h1 h2
      have hc : c = 'm' ∨ c = 'H' := by
        by_contra hc
        rw [if_neg hc] at hm
        cases hm
      exact ⟨[], c, by simp [h1], hc, by simp⟩
    · split at h
      · exact absurd h (by simp)
      · obtain ⟨body, e, h1, h2, h3⟩ := ih h
        exact ⟨c :: body, e, by rw [h1]; simp, h2, (List.prefix_cons_inj c).mpr h3⟩

theorem styleMatches_sequence (pos skip : Nat) (s : Str) : ∀ m ∈ styleMatchesGo pos skip s, HasSequence s m.1 := by
  induction s generalizing pos skip with
  | nil => simp [styleMatchesGo]
  | cons c cs ih =>
    intro m hm
    have up : HasSequence cs m.1 → HasSequence (c :: cs) m.1 := fun ⟨e, h1, h2⟩ => ⟨e, h1, h2.trans (List.suffix_cons c cs).isInfix⟩
    cases skip with
    | succ k => exact up (ih _ _ m hm)
    | zero =>
      rw [styleMatchesGo] at hm
      split at hm
      · rename_i body text rest he
        rcases List.mem_cons.mp hm with rfl | hm
        · unfold styleMatch at he
          split at he
          · rename_i t heq
            obtain ⟨b, e, h1, h2, h3⟩ := styleBody_sequence he
            refine ⟨e, h2, ?_⟩
            rw [h1, List.nil_append, heq]
            exact ((List.prefix_cons_inj _).mpr ((List.prefix_cons_inj _).mpr h3)).isInfix
          · exact absurd he (by simp)
        · exact up (ih _ _ m hm)
      · exact up (ih _ _ m hm)

theorem yieldLoop_where : ∀ (ms : List (Str × Str × Nat)) (o : Opts) (i : Nat) (e : PyErr), (yieldLoop ms o i).2.2 = some e →
    (o.bad = false → e = .typeError → ∃ m ∈ ms, ∃ p ∈ splitC ';' m.1, p ∈ badCodes) ∧
    (e = .indexError → ∃ m ∈ ms, ∃ code, AlphaForChannel code ∧ code <:+: m.1) := by
  intro ms
  induction ms with
  | nil => intro o i e he; simp [yieldLoop] at he
  | cons m ms ih =>
    obtain ⟨seq, plain, stop⟩ := m
    intro o i e he
    obtain ⟨p1, p2⟩ := parseParts_error (splitC ';' seq) false [] o rfl
    have p3 : (parseSequence seq o).2 = .error .indexError → ∃ code, AlphaForChannel code ∧ code <:+: seq := by
      intro h
      obtain ⟨code, h1, h2⟩ := parseParts_index (splitC ';' seq) false [] o rfl h
      refine ⟨code, h1, ?_⟩
      rwa [List.nil_append, join_splitC] at h2
    rw [yieldLoop] at he
    rw [← parseSequence] at p1 p2
    generalize parseSequence seq o = r at he p1 p2 p3
    obtain ⟨o', res⟩ := r
    cases res with
    | error e' =>
      simp only [Option.some.injEq] at he
      subst he
      refine ⟨fun _ ht => ?_, fun hi => ?_⟩
      · rcases p1 e' rfl with h | ⟨h, -⟩ <;> rw [ht] at h <;> cases h
      · obtain ⟨code, h1, h2⟩ := p3 (by rw [hi])
        exact ⟨_, List.mem_cons_self, code, h1, h2⟩
    | ok q =>
      cases q with
      | some _ =>
        simp only [Option.some.injEq] at he
        subst he
        exact ⟨fun _ h => (by cases h), fun h => (by cases h)⟩
      | none =>
        simp only [spanOfOpts] at he
        by_cases hb : o'.bad = true
        · rw [if_pos hb] at he
          simp only [Option.some.injEq] at he
          subst he
          refine ⟨fun ho _ => ?_, fun h => (by cases h)⟩
          rcases p2 with p2 | ⟨p, hp, hbad⟩
          · simp only at p2; rw [hb, ho] at p2; cases p2
          · exact ⟨_, List.mem_cons_self, p, hp, hbad⟩
        · rw [if_neg hb] at he
          obtain ⟨h1, h2⟩ := ih o' stop e he
          refine ⟨fun _ ht => ?_, fun hi => ?_⟩
          · obtain ⟨m, hm, x⟩ := h1 (by simpa using hb) ht
            exact ⟨m, List.mem_cons_of_mem _ hm, x⟩
          · obtain ⟨m, hm, x⟩ := h2 hi
            exact ⟨m, List.mem_cons_of_mem _ hm, x⟩

/-- **C32** (partial), for every string, exactly enough to know which sequences are to blame: reading raises `TypeError` only if a sequence of the line has
26, 28, 29 or 54 as one of its parts, and `IndexError` only if a sequence holds a true-colour code with an alpha value instead of its third channel.
(That these do raise: C31_stops_partial, `C32_index_violated`.) -/
theorem C32_where_partial (line : Str) :
    match (yieldFrom line).2 with
    | none => True
    | some .valueError => True
    | some .typeError => ∃ seq, HasSequence line seq ∧ ∃ p ∈ splitC ';' seq, p ∈ badCodes
    | some .indexError => ∃ seq, HasSequence line seq ∧ ∃ code, AlphaForChannel code ∧ code <:+: seq
    | some _ => False := by
  have hshort : ∀ seq, HasSequence (line ++ [ESC]) seq → HasSequence line seq := by
    rintro seq ⟨e, he, h⟩
    refine ⟨e, he, ?_⟩
    rw [List.infix_concat_iff] at h
    rcases h with h | h
    · exfalso
      obtain ⟨t, ht⟩ := h
      have := congrArg List.getLast? ht
      simp only [List.getLast?_append, List.getLast?_cons, Option.some_or, Option.getD_some, Option.some.injEq] at this
      rcases he with rfl | rfl <;> cases this
    · exact h
  have key : ∀ e, (yieldFrom line).2 = some e →
      (e = .typeError → ∃ seq, HasSequence line seq ∧ ∃ p ∈ splitC ';' seq, p ∈ badCodes) ∧
      (e = .indexError → ∃ seq, HasSequence line seq ∧ ∃ code, AlphaForChannel code ∧ code <:+: seq) := by
    intro e he
    have go : ∀ full : Str, (∀ seq, HasSequence full seq → HasSequence line seq) → (yieldLoop (styleMatches full) {} 0).2.2 = some e →
        (e = .typeError → ∃ seq, HasSequence line seq ∧ ∃ p ∈ splitC ';' seq, p ∈ badCodes) ∧
        (e = .indexError → ∃ seq, HasSequence line seq ∧ ∃ code, AlphaForChannel code ∧ code <:+: seq) := by
      intro full hfull h
      obtain ⟨h1, h2⟩ := yieldLoop_where _ _ _ e h
      refine ⟨fun ht => ?_, fun hi => ?_⟩
      · obtain ⟨m, hm, x⟩ := h1 rfl ht
        exact ⟨m.1, hfull _ (styleMatches_sequence 0 0 full m hm), x⟩
      · obtain ⟨m, hm, x⟩ := h2 hi
        exact ⟨m.1, hfull _ (styleMatches_sequence 0 0 full m hm), x⟩
    by_cases hend : endsWith line [ESC] = true
    · unfold yieldFrom at he
      rw [if_pos hend] at he
      refine go line (fun _ h => h) ?_
      rcases hy : yieldLoop (styleMatches line) {} 0 with ⟨sps, i, e'⟩
      simp only [hy] at he
      cases e' with
      | some e' => simpa using he
      | none => simp only at he; split at he <;> simp at he
    · unfold yieldFrom at he
      rw [if_neg hend] at he
      refine go (line ++ [ESC]) hshort ?_
      rcases hy : yieldLoop (styleMatches (line ++ [ESC])) {} 0 with ⟨sps, i, e'⟩
      simp only [hy] at he
      cases e' with
      | some e' => simpa using he
      | none => simp only at he; split at he <;> simp at he
  have old := C32_exceptions_partial line
  cases h : (yieldFrom line).2 with
  | none => trivial
  | some e =>
    obtain ⟨k1, k2⟩ := key e h
    rw [h] at old
    cases e with
    | typeError => exact k1 rfl
    | indexError => exact k2 rfl
    | valueError => trivial
    | _ => exact old

/-- A sequence that cannot be read ends the reading. -/
theorem yieldFrom_stops (good : List Item) (h : ∀ it ∈ good, it.Ok) (body : Str) (hbody : ∀ c ∈ body, BodyChar c) (e : PyErr)
    (hp : ∀ o, (parseSequence body o).2 = .error e) (text : Str) (htext : PlainText text) (more : Str) (hmore : more = [] ∨ ∃ t, more = '\x1b' :: t) :
    yieldFrom (lineOf good ++ "\x1b[".toList ++ body ++ ['m'] ++ text ++ more) = (spansOf {} good, some e) := by
  obtain ⟨tail, htail⟩ : ∃ tail, (if endsWith (lineOf good ++ "\x1b[".toList ++ body ++ ['m'] ++ text ++ more) [ESC]
      then lineOf good ++ "\x1b[".toList ++ body ++ ['m'] ++ text ++ more
      else lineOf good ++ "\x1b[".toList ++ body ++ ['m'] ++ text ++ more ++ [ESC]) =
      lineOf good ++ '\x1b' :: '[' :: (body ++ 'm' :: (text ++ '\x1b' :: tail)) := by
    rcases hmore with rfl | ⟨t, rfl⟩
    · refine ⟨[], ?_⟩
      have : endsWith (lineOf good ++ "\x1b[".toList ++ body ++ ['m'] ++ text ++ []) [ESC] = false := by
        refine endsWith_esc fun c hc => ?_
        obtain ⟨z, hz⟩ := Option.ne_none_iff_exists'.mp (fun e => htext.1 (List.getLast?_eq_none_iff.mp e))
        rw [List.append_nil, List.getLast?_append, hz] at hc
        simp only [Option.some_or, Option.some.injEq] at hc
        exact hc ▸ htext.2 z (List.mem_of_getLast? hz)
      rw [this]
      simp [ESC]
    · by_cases he : endsWith (lineOf good ++ "\x1b[".toList ++ body ++ ['m'] ++ text ++ '\x1b' :: t) [ESC] = true
      · exact ⟨t, by rw [if_pos he]; simp⟩
      · exact ⟨t ++ [ESC], by rw [if_neg he]; simp⟩
  obtain ⟨p, o, i, ho, hy⟩ := yieldLoop_prefix good h 0 ('[' :: (body ++ 'm' :: (text ++ '\x1b' :: tail))) {} rfl 0
  have hgo := styleMatchesGo_run p tail hbody htext
  have hloop : ∃ j, yieldLoop (styleMatchesGo p 0 ('\x1b' :: '[' :: (body ++ 'm' :: (text ++ '\x1b' :: tail)))) o i = ([], j, some e) := by
    rw [hgo, yieldLoop]
    have := hp o
    rcases hr : parseSequence body o with ⟨o', r⟩
    rw [hr] at this
    simp only at this
    subst this
    exact ⟨_, rfl⟩
  obtain ⟨j, hj⟩ := hloop
  unfold yieldFrom
  rw [htail]
  simp only [styleMatches]
  rw [hy, hj]
  simp

/-- Reading such a code raises. -/
theorem parse_alphaForChannel {lead r g x : Str} (hl : lead = "38".toList ∨ lead = "48".toList) (hr : Numeral r) (hg : Numeral g) (hx : AlphaText x) (o : Opts) :
    (parseSequence (lead ++ ";2;".toList ++ r ++ [';'] ++ g ++ [';'] ++ x) o).2 = .error .indexError := by
  have hsl : ';' ∉ lead ∧ startsColor lead = true ∧ isValidColor lead = .ok false ∧ Readable lead := by
    rcases hl with rfl | rfl <;> decide +kernel
  have hs2 : ';' ∉ "2".toList := by decide
  have rd : ∀ s, Numeral s → Readable s := by
    intro s hs
    have := hs.2
    rw [Option.isSome_iff_ne_none] at this
    simp only [Readable, Bool.and_eq_true, Option.isNone_iff_eq_none, not_and]
    exact fun _ => this
  have rx : Readable x := by
    simp [Readable, isDigit_dot hx.2.1]
  unfold parseSequence
  rw [(splitC_channels hl hr.1 hg.1 hx.1).2]
  have e1 := isValidColor_parts lead "2".toList [] (by simp [hsl.1])
  have e2 := isValidColor_parts lead "2".toList [r] (by simp [hsl.1, hr.1])
  have e3 := isValidColor_parts lead "2".toList [r, g] (by simp [hsl.1, hr.1, hg.1])
  have e4 := isValidColor_parts lead "2".toList [r, g, x] (by simp [hsl.1, hr.1, hg.1, hx.1])
  rw [parseParts_more lead _ false [] _ hsl.2.2.2 (by rw [hsl.2.1]; rfl) (by rw [List.nil_append]; exact hsl.2.2.1)]
  rw [parseParts_more _ _ _ _ _ (by decide +kernel) rfl (by
    rw [show [] ++ lead ++ [';'] ++ "2".toList = join [';'] [lead, "2".toList] by simp [join], e1]; rfl)]
  rw [parseParts_more _ _ _ _ _ (rd r hr) rfl (by
    rw [show [] ++ lead ++ [';'] ++ "2".toList ++ [';'] ++ r = join [';'] [lead, "2".toList, r] by simp [join], e2]; rfl)]
  rw [parseParts_more _ _ _ _ _ (rd g hg) rfl (by
    rw [show [] ++ lead ++ [';'] ++ "2".toList ++ [';'] ++ r ++ [';'] ++ g = join [';'] [lead, "2".toList, r, g] by simp [join], e3]; rfl)]
  have hbuf : [] ++ lead ++ [';'] ++ "2".toList ++ [';'] ++ r ++ [';'] ++ g ++ [';'] ++ x = join [';'] [lead, "2".toList, r, g, x] := by simp [join]
  have herr : Color.fromAnsi (join [';'] [lead, "2".toList, r, g, x]) = .error .indexError := by
    refine (C87_from_ansi _ 1).mpr (.inr (.inr ⟨lead ++ ";2;".toList ++ r ++ [';'] ++ g, x, by simp [join], hx, lead, r, g, hl, rfl, hr, hg⟩))
  rw [parseParts, if_neg rx, if_pos (show (true || startsColor x) = true from rfl)]
  simp only [hbuf]
  rw [show isValidColor (join [';'] [lead, "2".toList, r, g, x]) = .ok true from e4.trans rfl]
  simp only [herr]

/-- **C32 violated** for every such code behind any items: the spans before it are read, and then `IndexError` is raised, whatever follows. -/
theorem C32_index_violated (good : List Item) (h : ∀ it ∈ good, it.Ok) (code : Str) (hcode : AlphaForChannel code)
    (hbody : ∀ c ∈ code, c ≠ 'm' ∧ c ≠ 'H' ∧ c ≠ '\n') (text : Str) (htext : PlainText text) (more : Str)
    (hmore : more = [] ∨ ∃ t, more = '\x1b' :: t) :
    yieldFrom (lineOf good ++ "\x1b[".toList ++ code ++ ['m'] ++ text ++ more) = (spansOf {} good, some .indexError) := by
  refine yieldFrom_stops good h code hbody _ ?_ text htext more hmore
  obtain ⟨lead, r, g, x, hl, rfl, hr, hg, hx⟩ := hcode
  exact parse_alphaForChannel hl hr hg hx

/-- Red text, then such a code. -/
example : AlphaForChannel "48;2;10;20;0.5".toList ∧
    (yieldFrom "\x1b[31mred\x1b[48;2;10;20;0.5mtext\x1b[0mmore".toList).2 = some .indexError ∧
    (yieldFrom "\x1b[31mred\x1b[48;2;10;20;0.5mtext\x1b[0mmore".toList).1.map (·.text) = ["red".toList] := by
  refine ⟨⟨"48".toList, "10".toList, "20".toList, "0.5".toList, .inr rfl, rfl, ?_, ?_, ?_⟩, ?_⟩
  · exact ⟨by decide, by decide +kernel⟩
  · exact ⟨by decide, by decide +kernel⟩
  · exact ⟨by decide, by decide, by decide +kernel⟩
  · decide +kernel

end Slate
