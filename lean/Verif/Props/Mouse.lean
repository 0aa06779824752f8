import Verif.Model.Input
import Verif.Spec.Input
import Verif.Props.Codes

/-!
# Mouse events, key names (C52, C53, C54, C55)
-/

namespace Slate
open Py Core

/-! ## C52 -/

theorem mouseEv_lt {b : Nat} {e : MouseEv} (h : mouseEv b = some e) : b < 96 := by
  unfold mouseEv at h
  simp only at h
  by_contra hb
  have hk : 68 ≤ b / 32 * 32 + b % 4 := by omega
  generalize b / 32 * 32 + b % 4 = k at *
  repeat rw [if_neg (by omega)] at h
  cases h

/-- The event table is the protocol's. -/
theorem mouse_table : ∀ b, b < 96 →
    dictGet mouseEvents (dec b) = (mouseEv b).map (fun e => mouseModifiers b ++ e.name true) ∧
    (mouseEv b).map (fun e => replace "click".toList "release".toList (mouseModifiers b ++ e.name true)) =
      (mouseEv b).map (fun e => mouseModifiers b ++ e.name false) := by
  decide +kernel

/-- The table has no other entries. -/
theorem mouse_table_keys : ∀ p ∈ mouseEvents, ∃ b, b < 96 ∧ p.1 = dec b ∧ (mouseEv b).isSome := by
  decide +kernel

theorem lookup_mem {α : Type} {l : List (Str × α)} {k : Str} {v : α} (h : l.lookup k = some v) : (k, v) ∈ l := by
  induction l with
  | nil => cases h
  | cons p l ih =>
    obtain ⟨k', v'⟩ := p
    rw [List.lookup_cons] at h
    split at h
    · rename_i he
      have : k = k' := by simpa using he
      injection h with h
      subst this; subst h
      simp
    · exact List.mem_cons_of_mem _ (ih h)

theorem dictGet_mem {α : Type} {l : List (Str × α)} {k : Str} {v : α} (h : dictGet l k = some v) : (k, v) ∈ l := by
  have := lookup_mem h
  simpa using this

/-- A known code decodes to the protocol's event. -/
theorem mouse_known {k v : Str} (h : dictGet mouseEvents k = some v) :
    ∃ b e, k = dec b ∧ mouseEv b = some e ∧ v = mouseModifiers b ++ e.name true := by
  obtain ⟨b, hb, hk, he⟩ := mouse_table_keys _ (dictGet_mem h)
  obtain ⟨e, he⟩ := Option.isSome_iff_exists.mp he
  have hk : k = dec b := hk
  refine ⟨b, e, hk, he, ?_⟩
  have := (mouse_table b hb).1
  rw [← hk, h, he] at this
  simpa using this

theorem count_append (c : Char) (s t : Str) : count c (s ++ t) = count c s + count c t := by
  simp [count]

theorem count_of_not_mem {c : Char} {s : Str} (h : c ∉ s) : count c s = 0 := by
  unfold count
  rw [List.countP_eq_zero]
  intro a ha
  simp only [decide_eq_true_eq]
  exact fun e => h (e ▸ ha)

/-- The characters stripped from the left by `parse_mouse_event`. -/
def strippable (c : Char) : Bool := decide (c ∈ ['\x1b', '[', '<'])

theorem dec_head (b : Nat) (rest : Str) : ∀ c, (dec b ++ rest).head? = some c → isDig c = true := by
  intro c hc
  cases hd : dec b with
  | nil => exact absurd hd (dec_ne_nil b)
  | cons a as =>
    rw [hd] at hc
    simp only [List.cons_append, List.head?_cons, Option.some.injEq] at hc
    rw [← hc]
    exact dec_isDig (n := b) (by rw [hd]; simp)

theorem strippable_of_isDig {c : Char} (h : isDig c = true) : strippable c = false := by
  unfold strippable
  rw [decide_eq_false_iff_not]
  intro hm
  simp only [List.mem_cons, List.not_mem_nil, or_false] at hm
  rcases hm with rfl | rfl | rfl <;> revert h <;> decide

/-- How a two-semicolon code is taken apart. -/
theorem parseMouse_parts (p x y : Str) (b : Nat) (final : Char) (hp : ∀ c ∈ p, strippable c = true)
    (hx : ';' ∉ x) (hy : ';' ∉ y) (hf : final ≠ ';') :
    parseMouseEvent (p ++ dec b ++ [';'] ++ x ++ [';'] ++ y ++ [final]) =
      match dictGet mouseEvents (dec b) with
      | none => .error .keyError
      | some name => .ok (some ("mouse:".toList ++
          (if final = 'M' then name else replace "click".toList "release".toList name) ++ ['@'] ++ x ++ [';'] ++ y)) := by
  have hb : ';' ∉ dec b := dec_not_mem (by decide)
  have hp' : ';' ∉ p := fun hm => by have := hp _ hm; revert this; decide
  have hcount : count ';' (p ++ dec b ++ [';'] ++ x ++ [';'] ++ y ++ [final]) = 2 := by
    have h1 : count ';' [';'] = 1 := by decide
    have h2 : count ';' [final] = 0 := count_of_not_mem (by simpa using fun e => hf e.symm)
    simp only [count_append, h1, h2, count_of_not_mem hb, count_of_not_mem hp', count_of_not_mem hx,
      count_of_not_mem hy]
  unfold parseMouseEvent
  rw [if_neg]
  · have hs : lstrip (fun c => decide (c ∈ ['\x1b', '[', '<'])) (p ++ dec b ++ [';'] ++ x ++ [';'] ++ y ++ [final]) =
        dec b ++ ';' :: (x ++ ';' :: (y ++ [final])) := by
      have : p ++ dec b ++ [';'] ++ x ++ [';'] ++ y ++ [final] = p ++ (dec b ++ ';' :: (x ++ ';' :: (y ++ [final]))) := by
        simp
      rw [this]
      change List.dropWhile strippable _ = _
      rw [List.dropWhile_append_of_pos hp]
      exact lstrip_of_head (fun c hc => strippable_of_isDig (dec_head b _ c hc))
    rw [hs, splitC_append _ hb, splitC_append _ hx, splitC_of_not_mem (s := y ++ [final]) (by
      simp only [List.mem_append, List.mem_singleton, not_or]
      exact ⟨hy, fun e => hf e.symm⟩)]
    simp only [List.getLast?_append, List.getLast?_singleton, Option.some_or, List.dropLast_concat]
    rfl
  · rw [hcount]
    simp only [ne_eq, not_true_eq_false, or_false]
    intro h
    have := congrArg List.length h
    simp only [List.length_append, List.length_cons, List.length_nil] at this
    omega

/-- C52: every SGR report of a supported button is decoded to its event, with exactly
the modifiers in its bits, and its position. -/
theorem C52_decoded (b x y : Nat) (pressed : Bool) (e : MouseEv) (he : mouseEv b = some e) :
    parseMouseEvent (mouseReport b x y pressed) =
      .ok (some ("mouse:".toList ++ (mouseModifiers b ++ e.name pressed) ++ ['@'] ++ dec x ++ [';'] ++ dec y)) := by
  unfold mouseReport
  rw [parseMouse_parts _ _ _ _ _ (by decide) (dec_not_mem (by decide)) (dec_not_mem (by decide))
    (by cases pressed <;> decide)]
  obtain ⟨t1, t2⟩ := mouse_table b (mouseEv_lt he)
  rw [he] at t1 t2
  simp only [Option.map_some, Option.some.injEq] at t1 t2
  rw [t1]
  cases pressed
  · simp only [Bool.false_eq_true, if_false]
    rw [if_neg (by decide), t2]
  · simp only [if_true]

example : mouseEv 30 = some (.click true) ∧
    parseMouseEvent (mouseReport 30 120 7 false) = .ok (some "mouse:shift_ctrl_option_right_release@120;7".toList) := by
  decide +kernel

/-- Where the first `sep` is. -/
theorem append_sep_inj {sep : Char} {a b s t : Str} (ha : sep ∉ a) (hb : sep ∉ b)
    (h : a ++ sep :: s = b ++ sep :: t) : a = b ∧ s = t := by
  have h1 := splitC_append s ha
  have h2 := splitC_append t hb
  rw [h, h2] at h1
  have hab : b = a := (List.cons.inj h1).1
  subst hab
  exact ⟨rfl, by simpa using h⟩

/-- The supported codes, with both states, and their names. -/
def mouseNames : List (Nat × Bool × Str) :=
  (List.range 96).flatMap fun b => (mouseEv b).toList.flatMap fun e =>
    [(b, true, mouseModifiers b ++ e.name true), (b, false, mouseModifiers b ++ e.name false)]

theorem mem_mouseNames {b : Nat} {e : MouseEv} (hb : b < 96) (he : mouseEv b = some e) (p : Bool) :
    (b, p, mouseModifiers b ++ e.name p) ∈ mouseNames := by
  unfold mouseNames
  rw [List.mem_flatMap]
  refine ⟨b, List.mem_range.mpr hb, ?_⟩
  rw [he]
  cases p <;> simp

/-- All pairs of a code and a state that differ have different names, except for the
states of events that are not clicks. -/
theorem mouse_names_distinct : ∀ b, b < 96 → ∀ c, c < 96 → ∀ e ∈ mouseEv b, ∀ f ∈ mouseEv c, ∀ p q : Bool,
    mouseModifiers b ++ e.name p = mouseModifiers c ++ f.name q →
    b = c ∧ (p = q ∨ ∀ r, e ≠ .click r) := by
  have key : ∀ x ∈ mouseNames, ∀ y ∈ mouseNames, x.2.2 = y.2.2 →
      x.1 = y.1 ∧ (x.2.1 = y.2.1 ∨ (mouseEv x.1 ≠ some (.click true) ∧ mouseEv x.1 ≠ some (.click false))) := by
    decide +kernel
  intro b hb c hc e he f hf p q h
  have he : mouseEv b = some e := he
  have hf : mouseEv c = some f := hf
  rcases key (b, p, mouseModifiers b ++ e.name p) (mem_mouseNames hb he p) (c, q, mouseModifiers c ++ f.name q)
    (mem_mouseNames hc hf q) h with ⟨h1, h2 | ⟨h2, h3⟩⟩
  · exact ⟨h1, .inl h2⟩
  · refine ⟨h1, .inr fun r hr => ?_⟩
    rw [he, hr] at h2 h3
    cases r
    · exact h3 rfl
    · exact h2 rfl

/-- C52: different reports of supported buttons give different results, except that
press and release of drags, hovers and scrolls are not distinguished. -/
theorem C52_injective (b x y b' x' y' : Nat) (p p' : Bool) (e e' : MouseEv) (he : mouseEv b = some e)
    (he' : mouseEv b' = some e')
    (h : parseMouseEvent (mouseReport b x y p) = parseMouseEvent (mouseReport b' x' y' p')) :
    b = b' ∧ x = x' ∧ y = y' ∧ (p = p' ∨ ∀ r, e ≠ .click r) := by
  rw [C52_decoded b x y p e he, C52_decoded b' x' y' p' e' he'] at h
  injection h with h
  injection h with h
  have hat : ∀ b, b < 96 → ∀ e ∈ mouseEv b, ∀ p : Bool, '@' ∉ mouseModifiers b ++ e.name p := by decide +kernel
  have h' : (mouseModifiers b ++ e.name p) ++ '@' :: (dec x ++ ';' :: dec y) =
      (mouseModifiers b' ++ e'.name p') ++ '@' :: (dec x' ++ ';' :: dec y') := by
    have : "mouse:".toList ++ ((mouseModifiers b ++ e.name p) ++ '@' :: (dec x ++ ';' :: dec y)) =
      "mouse:".toList ++ ((mouseModifiers b' ++ e'.name p') ++ '@' :: (dec x' ++ ';' :: dec y')) := by
      simpa using h
    exact List.append_cancel_left this
  obtain ⟨h1, h2⟩ := append_sep_inj (hat b (mouseEv_lt he) e he p) (hat b' (mouseEv_lt he') e' he' p') h'
  obtain ⟨h3, h4⟩ := append_sep_inj (dec_not_mem (by decide)) (dec_not_mem (by decide)) h2
  obtain ⟨k1, k2⟩ := mouse_names_distinct b (mouseEv_lt he) b' (mouseEv_lt he') e he e' he' p p' h1
  exact ⟨k1, dec_inj h3, dec_inj h4, k2⟩

example : parseMouseEvent (mouseReport 35 1 1 true) = parseMouseEvent (mouseReport 35 1 1 false) := by decide +kernel

/-! ## C53 -/

theorem count_splitC {s : Str} (h : count ';' s = 2) : ∃ a b c, splitC ';' s = [a, b, c] ∧
    s = a ++ ';' :: (b ++ ';' :: c) := by
  have hl := splitC_length ';' s
  have : (s.filter (· == ';')).length = 2 := by
    rw [← h]
    unfold count
    rw [List.countP_eq_length_filter]
    congr 1
  rw [this] at hl
  match hs : splitC ';' s, hl with
  | [a, b, c], _ =>
    refine ⟨a, b, c, rfl, ?_⟩
    have := join_splitC ';' s
    rw [hs] at this
    rw [← this]
    simp [join]

/-- C53: a code without exactly two semicolons is not an event; and whatever is taken
for an event has the shape of a report of a supported button, up to the leading
escape characters and the final character, and is decoded as that report.
Missing: the code raises for other codes with two semicolons, and takes some
sequences that are not mouse reports for events (`C53_*_violated`). -/
theorem C53_only_reports_partial (code : Str) :
    (count ';' code ≠ 2 → parseMouseEvent code = .ok none) ∧
    (∀ r, parseMouseEvent code = .ok (some r) →
      ∃ p b x y final e, (∀ c ∈ p, c = '\x1b' ∨ c = '[' ∨ c = '<') ∧ mouseEv b = some e ∧
        code = p ++ dec b ++ [';'] ++ x ++ [';'] ++ y ++ [final] ∧
        r = "mouse:".toList ++ (mouseModifiers b ++ e.name (final == 'M')) ++ ['@'] ++ x ++ [';'] ++ y) := by
  constructor
  · intro h
    unfold parseMouseEvent
    rw [if_pos (.inr h)]
  · intro r h
    unfold parseMouseEvent at h
    split at h
    · cases h
    rename_i hc
    simp only [ne_eq, not_or, Decidable.not_not] at hc
    have hsplit : code = code.takeWhile strippable ++ lstrip strippable code :=
      (List.takeWhile_append_dropWhile ..).symm
    have htake : ∀ c ∈ code.takeWhile strippable, strippable c = true := fun c hc => by
      have := List.all_takeWhile (l := code) (p := strippable)
      exact List.all_eq_true.mp this c hc
    have hcount : count ';' (lstrip strippable code) = 2 := by
      have h1 := hc.2
      rw [hsplit, count_append] at h1
      rw [count_of_not_mem (fun hm => by have := htake _ hm; revert this; decide)] at h1
      omega
    obtain ⟨ev, x, z, hs, heq⟩ := count_splitC hcount
    have hs' : splitC ';' (lstrip (fun c => decide (c ∈ ['\x1b', '[', '<'])) code) = [ev, x, z] := hs
    rw [hs'] at h
    simp only at h
    cases hz : z.getLast? with
    | none => rw [hz] at h; cases h
    | some final =>
      rw [hz] at h
      simp only at h
      cases hd : dictGet mouseEvents ev with
      | none => rw [hd] at h; cases h
      | some name =>
        rw [hd] at h
        obtain ⟨b, e, rfl, he, hn⟩ := mouse_known hd
        have hz' : z = z.dropLast ++ [final] := by
          obtain ⟨ys, rfl⟩ := List.getLast?_eq_some_iff.mp hz
          simp
        refine ⟨code.takeWhile strippable, b, x, z.dropLast, final, e, ?_, he, ?_, ?_⟩
        · intro c hc
          have := htake c hc
          unfold strippable at this
          simpa using this
        · conv_lhs => rw [hsplit, heq, hz']
          simp
        · injection h with h
          injection h with h
          rw [← h]
          obtain ⟨-, t2⟩ := mouse_table b (mouseEv_lt he)
          rw [he] at t2
          simp only [Option.map_some, Option.some.injEq] at t2
          by_cases hM : final = 'M'
          · subst hM
            rw [if_pos rfl, hn]
            rfl
          · rw [if_neg hM, hn, t2]
            have : (final == 'M') = false := by simpa using hM
            rw [this]

theorem mouseLike_lstrip {t ev x z : Str} (h : MouseLike t ev x z) :
    lstrip strippable t = ev ++ ';' :: (x ++ ';' :: z) := by
  obtain ⟨p, hp, rfl, he, -, -, -⟩ := h
  have hp' : ∀ c ∈ p, strippable c = true := fun c hc => by
    unfold strippable
    rw [decide_eq_true_eq]
    rcases hp c hc with rfl | rfl | rfl <;> simp
  unfold lstrip
  rw [List.dropWhile_append_of_pos hp']
  cases ev with
  | nil => exact List.dropWhile_cons_of_neg (by decide)
  | cons a as =>
    refine List.dropWhile_cons_of_neg ?_
    have := he a rfl
    unfold strippable
    simp [this.1, this.2.1, this.2.2]

/-- Every code with two semicolons reads `ev;x;z` in one way. -/
theorem mouseLike_of_count {t : Str} (h : count ';' t = 2) : ∃ ev x z, MouseLike t ev x z := by
  have hsplit : t = t.takeWhile strippable ++ lstrip strippable t := (List.takeWhile_append_dropWhile ..).symm
  have htake : ∀ c ∈ t.takeWhile strippable, strippable c = true := fun c hc =>
    List.all_eq_true.mp (List.all_takeWhile (l := t) (p := strippable)) c hc
  have hcount : count ';' (lstrip strippable t) = 2 := by
    have h1 := h
    rw [hsplit, count_append] at h1
    rw [count_of_not_mem (fun hm => by have := htake _ hm; revert this; decide)] at h1
    omega
  obtain ⟨ev, x, z, -, heq⟩ := count_splitC hcount
  have hc3 : count ';' ev = 0 ∧ count ';' x = 0 ∧ count ';' z = 0 := by
    rw [heq, count_append, ← List.singleton_append, count_append, count_append, ← List.singleton_append (l := z),
      count_append] at hcount
    have : count ';' [';'] = 1 := by decide
    omega
  have hmem : ∀ s : Str, count ';' s = 0 → ';' ∉ s := fun s hs hm => by
    unfold count at hs
    rw [List.countP_eq_zero] at hs
    exact hs _ hm (by simp)
  refine ⟨ev, x, z, t.takeWhile strippable, ?_, ?_, ?_, hmem _ hc3.1, hmem _ hc3.2.1, hmem _ hc3.2.2⟩
  · intro c hc
    have := htake c hc
    unfold strippable at this
    simpa using this
  · rw [← heq]
    exact hsplit
  · intro c hc
    cases ev with
    | nil => cases hc
    | cons a as =>
      cases hc
      have h1 : strippable c = false := by
        by_contra hs
        have hs : strippable c = true := by simpa using hs
        have := List.head?_dropWhile_not strippable t
        unfold lstrip at heq
        rw [heq] at this
        simp [hs] at this
      unfold strippable at h1
      simpa using h1

/-- What `parse_mouse_event` does with a code of this shape. -/
theorem parse_mouseLike {t ev x z : Str} (h : MouseLike t ev x z) :
    parseMouseEvent t = match z.getLast? with
      | none => .error .indexError
      | some final => match dictGet mouseEvents ev with
        | none => .error .keyError
        | some name => .ok (some ("mouse:".toList ++
          (if final = 'M' then name else replace "click".toList "release".toList name) ++ ['@'] ++ x ++ [';'] ++
          z.dropLast)) := by
  have hl := mouseLike_lstrip h
  obtain ⟨p, hp, rfl, he, h1, h2, h3⟩ := h
  have hc : count ';' (p ++ (ev ++ ';' :: (x ++ ';' :: z))) = 2 := by
    rw [count_append, count_append, ← List.singleton_append, count_append, count_append,
      ← List.singleton_append (l := z), count_append, count_of_not_mem h1, count_of_not_mem h2, count_of_not_mem h3,
      count_of_not_mem (s := p) (fun hm => by rcases hp _ hm with h | h | h <;> revert h <;> decide)]
    decide
  unfold parseMouseEvent
  rw [if_neg (by
    rw [not_or]
    refine ⟨fun h => ?_, by simpa using hc⟩
    rw [h] at hc
    revert hc
    decide)]
  have : splitC ';' (lstrip (fun c => decide (c ∈ ['\x1b', '[', '<'])) (p ++ (ev ++ ';' :: (x ++ ';' :: z)))) = [ev, x, z] := by
    have hl : lstrip (fun c => decide (c ∈ ['\x1b', '[', '<'])) (p ++ (ev ++ ';' :: (x ++ ';' :: z))) = _ := hl
    rw [hl, splitC_append _ h1, splitC_append _ h2, splitC_of_not_mem h3]
  rw [this]
  simp only
  cases z.getLast? with
  | none => rfl
  | some final => cases dictGet mouseEvents ev <;> rfl

theorem supported_iff (ev : Str) : Supported ev ↔ (dictGet mouseEvents ev).isSome := by
  constructor
  · rintro ⟨b, e, rfl, he⟩
    rw [(mouse_table b (mouseEv_lt he)).1, he]
    rfl
  · intro h
    obtain ⟨v, hv⟩ := Option.isSome_iff_exists.mp h
    obtain ⟨b, e, hk, he, -⟩ := mouse_known hv
    exact ⟨b, e, hk, he⟩

/-- C53, exactly: a code is not an event iff it has not exactly two semicolons; it raises
`IndexError` iff nothing follows the second one, and `KeyError` iff something does and the number before the
first one is not that of a supported button. In all other cases it is decoded as a report of
that button (`C53_only_reports_partial`). -/
theorem C53_exact (code : Str) :
    (parseMouseEvent code = .ok none ↔ code.count ';' ≠ 2) ∧
    ∀ err, parseMouseEvent code = .error err ↔ ∃ ev x z, MouseLike code ev x z ∧
      ((z = [] ∧ err = .indexError) ∨ (z ≠ [] ∧ ¬ Supported ev ∧ err = .keyError)) := by
  have hcount : code.count ';' = count ';' code := by
    unfold count
    rw [List.count_eq_countP]
    congr 1
  rw [hcount]
  by_cases hc : count ';' code = 2
  · obtain ⟨ev, x, z, hm⟩ := mouseLike_of_count hc
    have hp := parse_mouseLike hm
    constructor
    · rw [hp]
      constructor
      · intro h
        split at h
        · cases h
        · split at h <;> cases h
      · exact fun h => absurd hc h
    · intro err
      constructor
      · intro h
        rw [hp] at h
        refine ⟨ev, x, z, hm, ?_⟩
        cases hz : z.getLast? with
        | none =>
          rw [hz] at h
          refine .inl ⟨List.getLast?_eq_none_iff.mp hz, ?_⟩
          cases h
          rfl
        | some final =>
          rw [hz] at h
          simp only at h
          have hne : z ≠ [] := fun h => by rw [h] at hz; cases hz
          cases hd : dictGet mouseEvents ev with
          | none =>
            rw [hd] at h
            cases h
            refine .inr ⟨hne, ?_, rfl⟩
            rw [supported_iff, hd]
            simp
          | some v => rw [hd] at h; cases h
      · rintro ⟨ev', x', z', hm', h⟩
        rw [parse_mouseLike hm']
        rcases h with ⟨rfl, rfl⟩ | ⟨hne, hs, rfl⟩
        · rfl
        · rw [supported_iff] at hs
          rw [List.getLast?_eq_some_getLast hne]
          simp only [Bool.not_eq_true, Option.isSome_eq_false_iff, Option.isNone_iff_eq_none] at hs
          simp only [hs]
  · have h0 : parseMouseEvent code = .ok none := (C53_only_reports_partial code).1 hc
    refine ⟨⟨fun _ => hc, fun _ => h0⟩, fun err => ⟨fun h => ?_, fun h => ?_⟩⟩
    · rw [h0] at h
      cases h
    · obtain ⟨ev, x, z, hm, h⟩ := h
      have h1 := parse_mouseLike hm
      rw [h0] at h1
      rcases h with ⟨rfl, -⟩ | ⟨hne, hs, -⟩
      · cases h1
      · rw [List.getLast?_eq_some_getLast hne] at h1
        simp only at h1
        split at h1 <;> cases h1

example : MouseLike "\x1b[<1;5;7M".toList "1".toList "5".toList "7M".toList ∧ ¬ Supported "1".toList := by
  refine ⟨⟨"\x1b[<".toList, by decide, by decide, by decide, by decide, by decide, by decide⟩, ?_⟩
  rw [supported_iff]
  decide +kernel

/-- No key of the key table is taken for a mouse event. -/
theorem C53_keys : ∀ p ∈ posixKeyNames, parseMouseEvent p.1 = .ok none := by decide +kernel

example : parseMouseEvent "\x1b[1;2A".toList = .ok none ∧
    parseMouseEvent "\x1b[<0;3;4M".toList = .ok (some "mouse:left_click@3;4".toList) := by decide +kernel

/-- C53 is violated: codes that raise `KeyError` - among them every report of a button that is not
supported, which is a mouse report, and every other sequence of three numbers. -/
theorem C53_key_error_violated (b x y : Nat) (hb : mouseEv b = none) (last : Char) (hl : last ≠ ';') :
    (∀ pressed, parseMouseEvent (mouseReport b x y pressed) = .error .keyError) ∧
    parseMouseEvent (['\x1b', '['] ++ dec b ++ [';'] ++ dec x ++ [';'] ++ dec y ++ [last]) = .error .keyError := by
  have hs : ¬ Supported (dec b) := by
    rintro ⟨b', e, h, he⟩
    rw [← dec_inj h, hb] at he
    cases he
  have hd : ∀ c, (dec b).head? = some c → c ≠ '\x1b' ∧ c ≠ '[' ∧ c ≠ '<' := by
    intro c hc
    have hd := dec_isDig (List.mem_of_mem_head? hc)
    refine ⟨?_, ?_, ?_⟩ <;> rintro rfl <;> exact absurd hd (by decide)
  have key : ∀ (p : Str) (final : Char), (∀ c ∈ p, c = '\x1b' ∨ c = '[' ∨ c = '<') → final ≠ ';' →
      parseMouseEvent (p ++ dec b ++ [';'] ++ dec x ++ [';'] ++ dec y ++ [final]) = .error .keyError := by
    intro p final hp hfin
    refine ((C53_exact _).2 .keyError).mpr ⟨dec b, dec x, dec y ++ [final], ⟨p, hp, by simp, hd, dec_not_mem (by decide),
      dec_not_mem (by decide), ?_⟩, .inr ⟨by simp, hs, rfl⟩⟩
    simp only [List.mem_append, List.mem_singleton, not_or]
    exact ⟨dec_not_mem (by decide), fun h => hfin h.symm⟩
  refine ⟨fun pressed => key ['\x1b', '[', '<'] _ (by decide) (by cases pressed <;> decide), key ['\x1b', '['] last (by decide) hl⟩

/-- The middle button, and a sequence that sets three attributes. -/
example : mouseEv 1 = none ∧ parseMouseEvent "\x1b[<1;5;7M".toList = .error .keyError ∧
    parseMouseEvent "\x1b[1;2;3m".toList = .error .keyError := by decide +kernel

/-- C53 is violated: every code with two semicolons of which the second is the last character
raises `IndexError`. -/
theorem C53_index_error_violated (ev x : Str) (he : ';' ∉ ev) (hx : ';' ∉ x) :
    parseMouseEvent (ev ++ [';'] ++ x ++ [';']) = .error .indexError := by
  have hc : count ';' (ev ++ [';'] ++ x ++ [';']) = 2 := by
    have h0 : ∀ l : Str, ';' ∉ l → count ';' l = 0 := by
      intro l hl
      unfold count
      rw [List.countP_eq_zero]
      intro a ha h
      have : a = ';' := by simpa using h
      exact hl (this ▸ ha)
    simp only [count_append, h0 ev he, h0 x hx]
    decide
  obtain ⟨ev', x', z', hm⟩ := mouseLike_of_count hc
  have hz : z' = [] := by
    obtain ⟨p, -, h2, -, h4, h5, h6⟩ := hm
    by_contra hne
    have h7 : ((p ++ (ev' ++ ';' :: (x' ++ ';' :: z'))).getLast (by simp)) = z'.getLast hne := by
      simp [List.getLast_cons, hne]
    have h8 : z'.getLast hne = ';' := by
      rw [← h7]
      simp only [← h2]
      simp
    exact h6 (h8 ▸ List.getLast_mem hne)
  exact ((C53_exact _).2 .indexError).mpr ⟨ev', x', z', hm, .inl ⟨hz, rfl⟩⟩

example : parseMouseEvent "0;1;".toList = .error .indexError := by decide +kernel

/-- C53 is violated: every pixel size reply is taken for the release of a button (C57). -/
theorem C53_not_mouse_violated (h w : Nat) :
    parseMouseEvent (pixelReply h w) =
      .ok (some ("mouse:shift_left_release@".toList ++ dec h ++ [';'] ++ dec w)) := by
  have hm : MouseLike (pixelReply h w) ['4'] (dec h) (dec w ++ ['t']) := by
    refine ⟨['\x1b', '['], by decide, by simp [pixelReply], by decide, by decide, dec_not_mem (by decide), ?_⟩
    simp only [List.mem_append, not_or]
    exact ⟨dec_not_mem (by decide), by decide⟩
  have hd : dictGet mouseEvents ['4'] = some "shift_left_click".toList := by decide +kernel
  have hr : replace "click".toList "release".toList "shift_left_click".toList = "shift_left_release".toList := by decide +kernel
  rw [parse_mouseLike hm, show (dec w ++ ['t']).getLast? = some 't' by simp, hd]
  simp only
  rw [if_neg (by decide), hr]
  simp

example : parseMouseEvent (pixelReply 600 800) = .ok (some "mouse:shift_left_release@600;800".toList) := by
  decide +kernel

/-! ## C54 -/

/-- C54: every sequence of the key table gets all of its names. -/
theorem C54_table : ∀ p ∈ posixKeyNames, getch true false (.text p.1) = .ok ⟨p.2⟩ := by decide +kernel

/-- C54: every other sequence is its own name, if what follows its last escape
character has not exactly two semicolons.
Missing: other sequences with two semicolons there (`C54_violated`). -/
theorem C54_other_partial (s : Str) (hs : ∀ p ∈ posixKeyNames, p.1 ≠ s)
    (hc : count ';' ((splitC '\x1b' s).getLastD []) ≠ 2) : getch true false (.text s) = .ok ⟨[s]⟩ := by
  have h1 : parseMouseEvent ('\x1b' :: (splitC '\x1b' s).getLastD []) = .ok none := by
    apply (C53_only_reports_partial _).1
    rw [← List.singleton_append, count_append]
    have : count ';' ['\x1b'] = 0 := by decide
    omega
  have h2 : dictGet posixKeyNames s = none := by
    cases hd : dictGet posixKeyNames s with
    | none => rfl
    | some v => exact absurd rfl (hs _ (dictGet_mem hd))
  unfold getch keyOf
  simp only [Bool.not_true, Bool.false_eq_true, if_false, h1, h2, Option.getD_none]

example : (∀ p ∈ posixKeyNames, p.1 ≠ "ő".toList) ∧
    count ';' ((splitC '\x1b' "ő".toList).getLastD []) ≠ 2 := by decide +kernel

/-- C54: a mouse report is an event. -/
theorem C54_mouse (b x y : Nat) (pressed : Bool) (e : MouseEv) (he : mouseEv b = some e) :
    getch true false (.text (mouseReport b x y pressed)) =
      .ok ⟨["mouse:".toList ++ (mouseModifiers b ++ e.name pressed) ++ ['@'] ++ dec x ++ [';'] ++ dec y]⟩ := by
  have h : '\x1b' :: (splitC '\x1b' (mouseReport b x y pressed)).getLastD [] = mouseReport b x y pressed := by
    have e1 : mouseReport b x y pressed = [] ++ '\x1b' :: (['[', '<'] ++ dec b ++ [';'] ++ dec x ++ [';'] ++ dec y ++
      [if pressed then 'M' else 'm']) := by simp [mouseReport]
    rw [e1, splitC_append _ (by simp), splitC_of_not_mem]
    · simp
    · simp only [List.mem_append, not_or]
      refine ⟨⟨⟨⟨⟨⟨by decide, dec_not_mem (by decide)⟩, by decide⟩, dec_not_mem (by decide)⟩, by decide⟩,
        dec_not_mem (by decide)⟩, ?_⟩
      cases pressed <;> decide
  unfold getch keyOf
  simp only [Bool.not_true, Bool.false_eq_true, if_false]
  rw [h, C52_decoded b x y pressed e he]
  simp only
  rw [if_neg]
  simp

/-- C54: `ctrl-<letter>` is recognised for every letter. -/
theorem C54_ctrl : ∀ i, i < 26 → ∃ k, getch true false (.text [Char.ofNat (i + 1)]) = .ok k ∧
    k.eq (.str ("ctrl-".toList ++ [Char.ofNat (97 + i)])) = true := by
  have : ∀ i, i < 26 → (match getch true false (.text [Char.ofNat (i + 1)]) with
      | .ok k => k.eq (.str ("ctrl-".toList ++ [Char.ofNat (97 + i)]))
      | .error _ => false) = true := by decide +kernel
  intro i hi
  have h := this i hi
  cases hk : getch true false (.text [Char.ofNat (i + 1)]) with
  | error e => rw [hk] at h; cases h
  | ok k => rw [hk] at h; exact ⟨k, rfl, h⟩

/-- C54: an interrupt is `ctrl-c`. -/
theorem C54_interrupt : getch true false .interrupt = .ok ⟨["ctrl-c".toList]⟩ := by decide +kernel

/-- C54: with `raw` the input is returned unchanged. -/
theorem C54_raw (s : Str) : getch true true (.text s) = .ok ⟨[s]⟩ := rfl

/-- The part after the last `sep`. -/
theorem splitC_getLast (sep : Char) (s : Str) : AfterLast [sep] s ((splitC sep s).getLastD []) := by
  have key : ∀ n (s : Str), s.length ≤ n → AfterLast [sep] s ((splitC sep s).getLastD []) := by
    intro n
    induction n with
    | zero =>
      intro s hs
      rw [List.length_eq_zero_iff.mp (by omega : s.length = 0)]
      exact .inr ⟨fun h => by simpa using List.IsInfix.length_le h, rfl⟩
    | succ n ih =>
      intro s hs
      by_cases hm : sep ∈ s
      · obtain ⟨a, b, rfl, ha⟩ := List.eq_append_cons_of_mem hm
        rw [splitC_append b ha]
        obtain ⟨y, ys, hy⟩ := List.exists_cons_of_ne_nil (splitC_ne_nil sep b)
        have hl : (a :: splitC sep b).getLastD [] = (splitC sep b).getLastD [] := by rw [hy]; simp [List.getLastD]
        rw [hl]
        have hlen : b.length ≤ n := by
          simp only [List.length_append, List.length_cons] at hs
          omega
        rcases ih b hlen with ⟨p, h1, h2⟩ | ⟨h1, h2⟩
        · exact .inl ⟨a ++ sep :: p, by conv_lhs => rw [h1]
                                        simp, h2⟩
        · refine .inl ⟨a, by rw [h2]; simp, by rw [h2]; exact h1⟩
      · rw [splitC_of_not_mem hm]
        refine .inr ⟨fun h => hm ?_, rfl⟩
        exact h.subset (List.mem_singleton_self sep)
  exact key _ s le_rfl

/-- ... is the only one. -/
theorem AfterLast.unique {sep : Char} {s t u : Str} (h : AfterLast [sep] s t) (h' : AfterLast [sep] s u) : t = u := by
  have hin : ∀ t : Str, sep ∈ t → [sep] <:+: t := fun t ht => by
    obtain ⟨a, b, rfl⟩ := List.append_of_mem ht
    exact ⟨a, b, by simp⟩
  have hn : ∀ {t : Str}, ¬ [sep] <:+: t → sep ∉ t := fun h hm => h (hin _ hm)
  have key : ∀ p q t u : Str, sep ∉ t → sep ∉ u → p ++ sep :: t = q ++ sep :: u → t = u := by
    intro p q t u ht hu h
    have := congrArg List.reverse h
    simp only [List.reverse_append, List.reverse_cons, List.append_assoc, List.singleton_append] at this
    have h2 := append_sep_inj (by simpa using ht) (by simpa using hu) this
    simpa using congrArg List.reverse h2.1
  rcases h with ⟨p, h1, h2⟩ | ⟨h1, rfl⟩ <;> rcases h' with ⟨q, h3, h4⟩ | ⟨h3, rfl⟩
  · rw [h1] at h3
    exact key p q t u (hn h2) (hn h4) (by simpa using h3)
  · exact absurd ⟨p, t, by simpa using h1.symm⟩ h3
  · exact absurd ⟨q, u, by simpa using h3.symm⟩ h1
  · rfl

/-- C54, exactly: with `t` what follows the last escape character of the input (the whole input, if it has none),
`getch` raises iff `t` has exactly two semicolons and either nothing follows the second one (`IndexError`)
or the text before the first one is not the number of a supported button (`KeyError`). -/
theorem C54_exceptions (s t : Str) (ht : AfterLast ['\x1b'] s t) (err : PyErr) :
    getch true false (.text s) = .error err ↔ ∃ ev x z, MouseLike t ev x z ∧
      ((z = [] ∧ err = .indexError) ∨ (z ≠ [] ∧ ¬ Supported ev ∧ err = .keyError)) := by
  have hu := (splitC_getLast '\x1b' s).unique ht
  have hl : ∀ ev x z, MouseLike ('\x1b' :: t) ev x z ↔ MouseLike t ev x z := by
    intro ev x z
    constructor
    · rintro ⟨p, h1, h2, h3⟩
      cases p with
      | nil =>
        cases ev with
        | nil => exact absurd h2 (by simp)
        | cons a as =>
          simp only [List.nil_append, List.cons_append, List.cons.injEq] at h2
          exact absurd h2.1.symm (h3.1 a rfl).1
      | cons a p =>
        simp only [List.cons_append, List.cons.injEq] at h2
        exact ⟨p, fun c hc => h1 c (List.mem_cons_of_mem _ hc), h2.2, h3⟩
    · rintro ⟨p, h1, h2, h3⟩
      refine ⟨'\x1b' :: p, fun c hc => ?_, by rw [h2]; simp, h3⟩
      rcases List.mem_cons.mp hc with rfl | hc
      · exact .inl rfl
      · exact h1 c hc
  have hx := (C53_exact ('\x1b' :: t)).2 err
  simp only [hl] at hx
  rw [← hx]
  change keyOf false s = _ ↔ _
  unfold keyOf
  rw [if_neg (by decide), hu]
  cases parseMouseEvent ('\x1b' :: t) with
  | error e => simp
  | ok r =>
    cases r with
    | none => simp
    | some ev =>
      simp only
      split <;> simp

example : AfterLast ['\x1b'] "ab\x1b[<1;3;4M".toList "[<1;3;4M".toList ∧
    getch true false (.text "ab\x1b[<1;3;4M".toList) = .error .keyError := by
  refine ⟨.inl ⟨"ab".toList, by decide, by decide⟩, by decide +kernel⟩

/-- C54 is violated: pasted text with two semicolons raises, unless it begins with the number of a
button. -/
theorem C54_violated (a x z : Str) (ha : ∀ c, a.head? = some c → c ≠ '[' ∧ c ≠ '<') (hs : ¬ Supported a) (hz : z ≠ [])
    (h : ∀ c ∈ a ++ x ++ z, c ≠ ';' ∧ c ≠ '\x1b') :
    getch true false (.text (a ++ [';'] ++ x ++ [';'] ++ z)) = .error .keyError := by
  simp only [List.mem_append] at h
  refine (C54_exceptions _ (a ++ [';'] ++ x ++ [';'] ++ z) (.inr ⟨fun hi => ?_, rfl⟩) .keyError).mpr
    ⟨a, x, z, ⟨[], by simp, by simp, fun c hc => ⟨(h c (.inl (.inl (List.mem_of_mem_head? hc)))).2, ha c hc⟩,
      fun hm => (h _ (.inl (.inl hm))).1 rfl, fun hm => (h _ (.inl (.inr hm))).1 rfl, fun hm => (h _ (.inr hm)).1 rfl⟩, .inr ⟨hz, hs, rfl⟩⟩
  have hm := hi.subset (List.mem_singleton_self '\x1b')
  simp only [List.mem_append, List.mem_singleton] at hm
  rcases hm with (((hm | hm) | hm) | hm) | hm
  · exact (h _ (.inl (.inl hm))).2 rfl
  · exact absurd hm (by decide)
  · exact (h _ (.inl (.inr hm))).2 rfl
  · exact absurd hm (by decide)
  · exact (h _ (.inr hm)).2 rfl

example : getch true false (.text "a;b;c".toList) = .error .keyError := by decide +kernel

/-- C54 is violated: what was read before a mouse report is lost. -/
theorem C54_lost_violated (before : Str) (b x y : Nat) (pressed : Bool) (e : MouseEv) (he : mouseEv b = some e) :
    getch true false (.text (before ++ mouseReport b x y pressed)) =
      .ok ⟨["mouse:".toList ++ (mouseModifiers b ++ e.name pressed) ++ ['@'] ++ dec x ++ [';'] ++ dec y]⟩ := by
  have hesc : '\x1b' ∉ (['[', '<'] ++ dec b ++ [';'] ++ dec x ++ [';'] ++ dec y ++ [if pressed then 'M' else 'm']) := by
    simp only [List.mem_append, not_or]
    refine ⟨⟨⟨⟨⟨⟨by decide, dec_not_mem (by decide)⟩, by decide⟩, dec_not_mem (by decide)⟩, by decide⟩,
      dec_not_mem (by decide)⟩, ?_⟩
    cases pressed <;> decide
  have h : '\x1b' :: (splitC '\x1b' (before ++ mouseReport b x y pressed)).getLastD [] = mouseReport b x y pressed := by
    rw [(splitC_getLast '\x1b' (before ++ mouseReport b x y pressed)).unique
      (.inl ⟨before, by simp [mouseReport], fun hi => hesc (hi.subset (List.mem_singleton_self _))⟩)]
    simp [mouseReport]
  unfold getch keyOf
  simp only [Bool.not_true, Bool.false_eq_true, if_false]
  rw [h, C52_decoded b x y pressed e he]
  simp only
  rw [if_neg]
  simp

example : getch true false (.text "ab\x1b[<0;3;4M".toList) = .ok ⟨["mouse:left_click@3;4".toList]⟩ := by decide +kernel

/-! ## C55 -/

/-- C55: a key equals a string iff the string is one of its names, and nothing else. -/
theorem C55_eq (k : Key) (o : Obj) : k.eq o = true ↔ ∃ s, o = .str s ∧ s ∈ k.names := by
  cases o <;> simp [Key.eq]

/-- C55: iterating gives the names, `str` the first one. -/
theorem C55_iter_str (names : List Str) (n : Str) :
    (⟨names⟩ : Key).iter = names ∧ (⟨n :: names⟩ : Key).str = .ok n := ⟨rfl, rfl⟩

/-- C55: every key that `getch` returns has a name, so `str` never fails on it. -/
theorem C55_getch_str (tty raw : Bool) (inp : Input) (k : Key) (h : getch tty raw inp = .ok k) :
    ∃ s, k.str = .ok s ∧ k.eq (.str s) = true := by
  have key : k.names ≠ [] := by
    have hk : ∀ s, keyOf raw s = .ok k → k.names ≠ [] := by
      intro s hs
      have hd : (dictGet posixKeyNames s).getD [s] ≠ [] := by
        cases hd : dictGet posixKeyNames s with
        | none => simp
        | some v =>
          have : ∀ p ∈ posixKeyNames, p.2 ≠ [] := by decide +kernel
          exact this _ (dictGet_mem hd)
      unfold keyOf at hs
      split at hs
      · injection hs with hs; rw [← hs]; simp
      · split at hs
        · cases hs
        · split at hs
          · injection hs with hs; rw [← hs]; exact hd
          · injection hs with hs; rw [← hs]; simp
        · injection hs with hs; rw [← hs]; exact hd
    unfold getch at h
    split at h
    · injection h with h; rw [← h]; simp
    · split at h
      · exact hk _ h
      · exact hk _ h
      · cases h
  obtain ⟨names⟩ := k
  cases names with
  | nil => exact absurd rfl key
  | cons n ns => exact ⟨n, rfl, by simp [Key.eq]⟩

example : (⟨["tab".toList, "ctrl-i".toList]⟩ : Key).eq (.str "ctrl-i".toList) = true ∧
    (⟨["tab".toList]⟩ : Key).eq (.key ⟨["tab".toList]⟩) = false := by decide

end Slate
