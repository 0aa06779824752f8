import Verif.Props.Parse

/-!
# C31, C32: where reading a line stops
-/

namespace Slate
open Py Term

/-- A command of a sequence: one that is understood, one that switches off a style spans do not have, or a number without a meaning. -/
inductive Command where
  | good (u : SgrUnit)
  | refused (n : Nat)
  | unknown (n : Nat)

namespace Command

/-- The numbers of a command. -/
def nums : Command → List Nat
  | .good u => u.nums
  | .refused n => [n]
  | .unknown n => [n]

/-- Which numbers are of which kind: 26, 28, 29 and 54 are refused; a number has no meaning if it is not one of these, of 1 to 9, 22 to 25, 27, 99, 39 or 49, and
begins no colour. -/
def Ok : Command → Prop
  | .good u => u.Ok
  | .refused n => n ∈ [26, 28, 29, 54]
  | .unknown n => n = 0 ∨ (10 ≤ n ∧ n ≤ 21) ∨ (50 ≤ n ∧ n ≤ 89 ∧ n ≠ 54) ∨ 108 ≤ n

/-- Without a meaning. -/
def isUnknown : Command → Bool
  | .unknown _ => true
  | _ => false

/-- Understood. -/
def isGood : Command → Bool
  | .good _ => true
  | _ => false

end Command

/-- The characters of a sequence of commands. -/
def commandStr (cs : List Command) : Str := '\x1b' :: '[' :: (codeStr (cs.flatMap Command.nums) ++ ['m'])

theorem parse_refused {n : Nat} (h : n ∈ [26, 28, 29, 54]) (rest : List Str) (o : Opts) :
    parseParts (dec n :: rest) false [] o = parseParts rest false [] { o with bad := true } := by
  rw [parseParts]
  simp only [List.mem_cons, List.not_mem_nil, or_false] at h
  rcases h with rfl | rfl | rfl | rfl <;> rw [if_neg (by decide +kernel)] <;> rfl

theorem parse_unknown {n : Nat} (h : (Command.unknown n).Ok) (rest : List Str) (o : Opts) :
    (parseParts (dec n :: rest) false [] o).2 = .error .valueError ∨ (parseParts (dec n :: rest) false [] o).2 = .ok (some (dec n)) := by
  have h : n = 0 ∨ (10 ≤ n ∧ n ≤ 21) ∨ (50 ≤ n ∧ n ≤ 89 ∧ n ≠ 54) ∨ 108 ≤ n := h
  rw [parseParts]
  by_cases hlen : (dec n).length ≤ 4300
  · right
    have hint := int_dec hlen
    rw [if_neg (by rw [hint]; simp)]
    have hcol : startsColor (dec n) = false := by
      rw [startsColor, hint]
      simp only [Bool.and_eq_false_iff, Bool.or_eq_false_iff]
      refine .inl (.inr ⟨?_, ?_⟩) <;> simp only [decide_eq_false_iff_not] <;> omega
    rw [if_neg (by simp [hcol])]
    have hne : ∀ m, m ≠ n → dec n ≠ dec m := fun m hm e => hm (Py.dec_inj e).symm
    have hset : applySetter (dec n) o = none := by
      unfold applySetter
      simp only [show "1".toList = dec 1 from rfl, show "2".toList = dec 2 from rfl, show "3".toList = dec 3 from rfl, show "4".toList = dec 4 from rfl,
        show "5".toList = dec 5 from rfl, show "6".toList = dec 6 from rfl, show "7".toList = dec 7 from rfl, show "8".toList = dec 8 from rfl,
        show "9".toList = dec 9 from rfl, show "99".toList = dec 99 from rfl]
      rw [if_neg (hne _ (by omega)), if_neg (hne _ (by omega)), if_neg (hne _ (by omega)), if_neg (hne _ (by omega)), if_neg (hne _ (by omega)),
        if_neg (hne _ (by omega)), if_neg (hne _ (by omega)), if_neg (hne _ (by omega)), if_neg (hne _ (by omega)), if_neg (hne _ (by omega))]
    have hunset : applyUnsetter (dec n) o = none := by
      unfold applyUnsetter
      simp only [show "22".toList = dec 22 from rfl, show "23".toList = dec 23 from rfl, show "24".toList = dec 24 from rfl, show "25".toList = dec 25 from rfl,
        show "26".toList = dec 26 from rfl, show "27".toList = dec 27 from rfl, show "28".toList = dec 28 from rfl, show "29".toList = dec 29 from rfl,
        show "39".toList = dec 39 from rfl, show "49".toList = dec 49 from rfl, show "54".toList = dec 54 from rfl]
      rw [if_neg (hne _ (by omega)), if_neg (hne _ (by omega)), if_neg (hne _ (by omega)), if_neg (hne _ (by omega)), if_neg (hne _ (by omega)),
        if_neg (hne _ (by omega)), if_neg (hne _ (by omega)), if_neg (hne _ (by omega)), if_neg (hne _ (by omega)), if_neg (hne _ (by omega)),
        if_neg (hne _ (by omega))]
    rw [hset, hunset]
  · left
    rw [if_pos (by rw [int_dec_long (by omega), isDigit_dec]; rfl)]

/-- Reading a sequence of commands. -/
theorem parse_commands (cs : List Command) (h : ∀ c ∈ cs, c.Ok) (o : Opts) :
    if cs.any Command.isUnknown then
      (parseParts ((cs.flatMap Command.nums).map dec) false [] o).2 = .error .valueError ∨
        ∃ p, (parseParts ((cs.flatMap Command.nums).map dec) false [] o).2 = .ok (some p)
    else ∃ o', parseParts ((cs.flatMap Command.nums).map dec) false [] o = (o', .ok none) ∧ (o'.bad = true ↔ o.bad = true ∨ ∃ c ∈ cs, c.isGood = false) := by
  induction cs generalizing o with
  | nil => exact ⟨o, rfl, by simp⟩
  | cons c cs ih =>
    have ih := ih fun c hc => h c (List.mem_cons_of_mem _ hc)
    have hc := h c List.mem_cons_self
    cases c with
    | good u =>
      have := ih (u.eff o)
      rw [List.any_cons, show Command.isUnknown (.good u) = false from rfl, Bool.false_or, List.flatMap_cons, List.map_append,
        show (Command.good u).nums = u.nums from rfl, SgrUnit.parse hc]
      rw [SgrUnit.eff_bad] at this
      simpa [Command.isGood] using this
    | refused n =>
      have := ih { o with bad := true }
      rw [List.any_cons, show Command.isUnknown (.refused n) = false from rfl, Bool.false_or, List.flatMap_cons, List.map_append,
        show (Command.refused n).nums = [n] from rfl, List.map_singleton, List.singleton_append, parse_refused hc]
      simpa [Command.isGood] using this
    | unknown n =>
      rw [List.any_cons, show Command.isUnknown (.unknown n) = true from rfl, Bool.true_or, if_pos rfl, List.flatMap_cons, List.map_append,
        show (Command.unknown n).nums = [n] from rfl, List.map_singleton, List.singleton_append]
      rcases parse_unknown hc ((cs.flatMap Command.nums).map dec) o with h | h
      · exact .inl h
      · exact .inr ⟨_, h⟩

/-- Reading starts with the items, whatever follows. -/
theorem yieldLoop_prefix (items : List Item) (h : ∀ it ∈ items, it.Ok) (pos : Nat) (tail : Str) (o : Opts) (ho : o.bad = false) (index : Nat) :
    ∃ pos' o' index', o'.bad = false ∧
      yieldLoop (styleMatchesGo pos 0 (lineOf items ++ '\x1b' :: tail)) o index =
        (spansOf o items ++ (yieldLoop (styleMatchesGo pos' 0 ('\x1b' :: tail)) o' index').1, (yieldLoop (styleMatchesGo pos' 0 ('\x1b' :: tail)) o' index').2) := by
  induction items generalizing pos o index with
  | nil => exact ⟨pos, o, index, ho, by simp [lineOf, spansOf]⟩
  | cons it its ih =>
    have hit := h it (by simp)
    obtain ⟨rest, hrest⟩ : ∃ rest, lineOf its ++ '\x1b' :: tail = '\x1b' :: rest := by
      cases its with
      | nil => exact ⟨tail, rfl⟩
      | cons a b => exact ⟨_, rfl⟩
    have hline : lineOf (it :: its) ++ '\x1b' :: tail =
        '\x1b' :: '[' :: (codeStr (seqNums it.units) ++ 'm' :: (it.text ++ '\x1b' :: rest)) := by
      rw [← hrest]; simp [lineOf, Item.str]
    have hgo := styleMatchesGo_run pos rest (codeStr_bodyChar (ns := seqNums it.units)) hit.text
    rw [← hline, ← hrest] at hgo
    have hb' : (seqEff it.units o).bad = false := by rw [seqEff_bad hit.units]; exact ho
    obtain ⟨p, o', i, h1, h2⟩ := ih (fun x hx => h x (by simp [hx])) (pos + ((codeStr (seqNums it.units)).length + it.text.length + 3)) _ hb'
      (pos + ((codeStr (seqNums it.units)).length + it.text.length + 3))
    refine ⟨p, o', i, h1, ?_⟩
    rw [hgo, yieldLoop, parseSequence_seq hit.ne hit.units]
    simp only [spanOfOpts, hb', Bool.false_eq_true, if_false]
    rw [h2]
    rfl

/-- C31 and C32 for the other codes: reading a line gives the spans of the sequences before the first one that holds a refused or a meaningless number, and
then raises, `ValueError` if a number is meaningless and `TypeError` otherwise, whatever follows. -/
theorem C31_stops_partial (good : List Item) (h : ∀ it ∈ good, it.Ok) (cs : List Command) (hcs : ∀ c ∈ cs, c.Ok)
    (hbad : ∃ c ∈ cs, c.isGood = false) (text : Str) (htext : PlainText text) (more : Str) (hmore : more = [] ∨ ∃ t, more = '\x1b' :: t) :
    yieldFrom (lineOf good ++ commandStr cs ++ text ++ more) =
      (spansOf {} good, some (if cs.any Command.isUnknown then .valueError else .typeError)) := by
  obtain ⟨tail, htail⟩ : ∃ tail, (if endsWith (lineOf good ++ commandStr cs ++ text ++ more) [ESC] then lineOf good ++ commandStr cs ++ text ++ more
      else lineOf good ++ commandStr cs ++ text ++ more ++ [ESC]) =
      lineOf good ++ '\x1b' :: '[' :: (codeStr (cs.flatMap Command.nums) ++ 'm' :: (text ++ '\x1b' :: tail)) := by
    rcases hmore with rfl | ⟨t, rfl⟩
    · refine ⟨[], ?_⟩
      have : endsWith (lineOf good ++ commandStr cs ++ text ++ []) [ESC] = false := by
        refine endsWith_esc fun c hc => ?_
        obtain ⟨z, hz⟩ := Option.ne_none_iff_exists'.mp (fun e => htext.1 (List.getLast?_eq_none_iff.mp e))
        rw [List.append_nil, List.getLast?_append, hz] at hc
        simp only [Option.some_or, Option.some.injEq] at hc
        exact hc ▸ htext.2 z (List.mem_of_getLast? hz)
      rw [this]
      simp [commandStr, ESC]
    · by_cases he : endsWith (lineOf good ++ commandStr cs ++ text ++ '\x1b' :: t) [ESC] = true
      · exact ⟨t, by rw [if_pos he]; simp [commandStr]⟩
      · exact ⟨t ++ [ESC], by rw [if_neg he]; simp [commandStr]⟩
  have hne : cs.flatMap Command.nums ≠ [] := by
    obtain ⟨c, hc, hg⟩ := hbad
    intro e
    have := List.flatMap_eq_nil_iff.mp e c hc
    cases c with
    | good u => cases hg
    | refused n => cases this
    | unknown n => cases this
  obtain ⟨p, o, i, ho, hy⟩ := yieldLoop_prefix good h 0 ('[' :: (codeStr (cs.flatMap Command.nums) ++ 'm' :: (text ++ '\x1b' :: tail))) {} rfl 0
  have hgo := styleMatchesGo_run p tail (codeStr_bodyChar (ns := cs.flatMap Command.nums)) htext
  have hseq : parseSequence (codeStr (cs.flatMap Command.nums)) o = parseParts ((cs.flatMap Command.nums).map dec) false [] o := by
    obtain ⟨n, ns, hn⟩ := List.exists_cons_of_ne_nil hne
    unfold parseSequence
    rw [codeStr, hn, splitC_decs, ← hn]
  have hloop : ∃ j, yieldLoop (styleMatchesGo p 0 ('\x1b' :: '[' :: (codeStr (cs.flatMap Command.nums) ++ 'm' :: (text ++ '\x1b' :: tail)))) o i =
      ([], j, some (if cs.any Command.isUnknown then .valueError else .typeError)) := by
    have hp := parse_commands cs hcs o
    rw [hgo, yieldLoop, hseq]
    by_cases hu : cs.any Command.isUnknown = true
    · rw [if_pos hu] at hp
      rw [if_pos hu]
      rcases hr : parseParts ((cs.flatMap Command.nums).map dec) false [] o with ⟨o', r⟩
      rw [hr] at hp
      rcases hp with rfl | ⟨q, rfl⟩
      · exact ⟨_, rfl⟩
      · exact ⟨_, rfl⟩
    · rw [if_neg hu] at hp
      rw [if_neg hu]
      obtain ⟨o', h1, h2⟩ := hp
      rw [h1]
      simp only [spanOfOpts, h2.mpr (.inr hbad), if_true]
      exact ⟨_, rfl⟩
  obtain ⟨j, hj⟩ := hloop
  unfold yieldFrom
  rw [htail]
  simp only [styleMatches]
  rw [hy, hj]
  simp

/-- A case: bold text, then the reset 0 together with 28. -/
example : yieldFrom "\x1b[1ma\x1b[28;0mb\x1b[3mc".toList =
    ([{ text := "a".toList, style := { bold := true } }], some .valueError) :=
  C31_stops_partial [{ units := [.set 1], text := "a".toList }]
    (by
      intro it hit
      rw [List.mem_singleton] at hit
      subst hit
      exact ⟨by simp, by simp [SgrUnit.Ok], by simp, by decide⟩)
    [.refused 28, .unknown 0] (by simp [Command.Ok]) ⟨.unknown 0, by simp, rfl⟩ "b".toList ⟨by simp, by decide⟩ "\x1b[3mc".toList (.inr ⟨_, rfl⟩)

/-! ## Fast blinking -/

/-- Whether a terminal blinks fast after the commands: on by 6, off by 25. -/
def shownFast (us : List SgrUnit) (b : Bool) : Bool :=
  us.foldl (fun b u => if u = .set 6 then true else if u = .unset 25 then false else b) b

theorem shownFast_iff (us : List SgrUnit) :
    shownFast us false = true ↔ ∃ a b, us = a ++ .set 6 :: b ∧ .unset 25 ∉ b := by
  induction us using List.reverseRecOn with
  | nil => simp [shownFast]
  | append_singleton us u ih =>
    rw [shownFast, List.foldl_append, List.foldl_cons, List.foldl_nil]
    change (if u = .set 6 then true else if u = .unset 25 then false else shownFast us false) = true ↔ _
    by_cases h6 : u = .set 6
    · rw [if_pos h6]
      exact iff_of_true rfl ⟨us, [], by rw [h6], by simp⟩
    · rw [if_neg h6]
      by_cases h25 : u = .unset 25
      · rw [if_pos h25]
        refine iff_of_false (by simp) ?_
        rintro ⟨a, b, h, hb⟩
        rcases List.eq_nil_or_concat b with rfl | ⟨b', v, rfl⟩
        · have := (List.append_inj' h rfl).2
          injection this with this
          exact h6 this
        · rw [List.concat_eq_append] at h hb
          have : us ++ [u] = (a ++ .set 6 :: b') ++ [v] := by rw [h]; simp
          have := (List.append_inj' this rfl).2
          injection this with this
          exact hb (by rw [← this, h25]; simp)
      · rw [if_neg h25, ih]
        constructor
        · rintro ⟨a, b, rfl, hb⟩
          exact ⟨a, b ++ [u], by simp, by
            rw [List.mem_append, List.mem_singleton]
            rintro (h | h)
            · exact hb h
            · exact h25 h.symm⟩
        · rintro ⟨a, b, h, hb⟩
          rcases List.eq_nil_or_concat b with rfl | ⟨b', v, rfl⟩
          · have := (List.append_inj' h rfl).2
            injection this with this
            exact absurd this h6
          · rw [List.concat_eq_append] at h hb
            have : us ++ [u] = (a ++ .set 6 :: b') ++ [v] := by rw [h]; simp
            exact ⟨a, b', (List.append_inj' this rfl).1, fun hm => hb (List.mem_append_left _ hm)⟩

theorem eff_fast {u : SgrUnit} (h : u.Ok) (o : Opts) : (u.eff o).style.fastBlink = (o.style.fastBlink || decide (u = .set 6)) := by
  cases u with
  | set k =>
    obtain ⟨h1, h2⟩ := h
    have hk : k = 1 ∨ k = 2 ∨ k = 3 ∨ k = 4 ∨ k = 5 ∨ k = 6 ∨ k = 7 ∨ k = 8 ∨ k = 9 := by omega
    rcases hk with rfl | rfl | rfl | rfl | rfl | rfl | rfl | rfl | rfl <;> simp [SgrUnit.eff]
  | unset k =>
    simp only [SgrUnit.Ok, List.mem_cons, List.not_mem_nil, or_false] at h
    rcases h with rfl | rfl | rfl | rfl | rfl | rfl | rfl <;> simp [SgrUnit.eff]
  | color ns =>
    simp only [SgrUnit.eff, Opts.paint]
    split <;> simp

theorem sgr_fast {u : SgrUnit} (h : u.Ok) (a : Attr) :
    ∃ a', (∀ rest, sgr (u.nums ++ rest) a = sgr rest a') ∧
      a'.fastBlink = if u = .set 6 then true else if u = .unset 25 then false else a.fastBlink := by
  cases u with
  | set k =>
    obtain ⟨h1, h2⟩ := h
    have hk : k = 1 ∨ k = 2 ∨ k = 3 ∨ k = 4 ∨ k = 5 ∨ k = 6 ∨ k = 7 ∨ k = 8 ∨ k = 9 := by omega
    refine ⟨sgr1 k a, fun rest => sgr_cons (by omega) (by omega) rest a, ?_⟩
    rcases hk with rfl | rfl | rfl | rfl | rfl | rfl | rfl | rfl | rfl <;> simp [sgr1]
  | unset k =>
    simp only [SgrUnit.Ok, List.mem_cons, List.not_mem_nil, or_false] at h
    refine ⟨sgr1 k a, fun rest => sgr_cons (by omega) (by omega) rest a, ?_⟩
    rcases h with rfl | rfl | rfl | rfl | rfl | rfl | rfl <;> simp [sgr1]
  | color ns =>
    obtain ⟨t, ht, -⟩ := sgr_code h
    refine ⟨_, fun rest => ht rest a, ?_⟩
    simp only [paint, reduceCtorEq, if_false]
    split <;> rfl

theorem seq_fast {us : List SgrUnit} (h : ∀ u ∈ us, u.Ok) (o : Opts) (a : Attr) :
    (seqEff us o).style.fastBlink = (o.style.fastBlink || decide (.set 6 ∈ us)) ∧
      (sgr (seqNums us) a).fastBlink = shownFast us a.fastBlink := by
  induction us generalizing o a with
  | nil => exact ⟨by simp [seqEff], rfl⟩
  | cons u us ih =>
    obtain ⟨a', h1, h2⟩ := sgr_fast (h u (by simp)) a
    obtain ⟨i1, i2⟩ := ih (fun v hv => h v (by simp [hv])) (u.eff o) a'
    constructor
    · change (seqEff us (u.eff o)).style.fastBlink = _
      rw [i1, eff_fast (h u (by simp)), Bool.or_assoc]
      congr 1
      rw [Bool.eq_iff_iff]
      rw [Bool.or_eq_true, decide_eq_true_iff, decide_eq_true_iff, decide_eq_true_iff, List.mem_cons, @eq_comm _ u]
    · rw [seqNums, List.flatMap_cons, h1]
      refine i2.trans ?_
      rw [h2]
      rfl

theorem spansOf_fast {items : List Item} (h : ∀ it ∈ items, it.Ok) {o : Opts} (st : State) (hm : st.mode = .ground)
    (i : Nat) (sp : Span) (hs : (spansOf o items)[i]? = some sp) :
    sp.style.fastBlink = (o.style.fastBlink || decide (.set 6 ∈ (items.take (i + 1)).flatMap Item.units)) ∧
      (run st (lineOf (items.take (i + 1)))).pen.fastBlink = shownFast ((items.take (i + 1)).flatMap Item.units) st.pen.fastBlink := by
  induction items generalizing o st i with
  | nil => simp [spansOf] at hs
  | cons it its ih =>
    have hit := h it (by simp)
    obtain ⟨f1, f2⟩ := seq_fast hit.units o st.pen
    cases i with
    | zero =>
      simp only [List.getElem?_cons_zero, Option.some.injEq, spansOf] at hs
      subst hs
      obtain ⟨st', h1, h2, h3⟩ := run_item hit st [] hm
      have e : lineOf (List.take (0 + 1) (it :: its)) = it.str ++ [] := by simp [lineOf]
      rw [e, h1, run_nil, h3]
      rw [show List.take (0 + 1) (it :: its) = [it] from rfl, List.flatMap_singleton]
      exact ⟨f1, f2⟩
    | succ i =>
      simp only [List.getElem?_cons_succ, spansOf] at hs
      obtain ⟨st', h1, h2, h3⟩ := run_item hit st (lineOf (its.take (i + 1))) hm
      obtain ⟨g1, g2⟩ := ih (fun x hx => h x (by simp [hx])) st' h2 i hs
      have e : lineOf (List.take (i + 1 + 1) (it :: its)) = it.str ++ lineOf (its.take (i + 1)) := by
        simp [lineOf]
      rw [e, h1]
      constructor
      · rw [g1, f1, Bool.or_assoc]
        congr 1
        rw [Bool.eq_iff_iff]
        simp
      · rw [g2, h3, f2, List.take_succ_cons, List.flatMap_cons, shownFast, shownFast, shownFast, List.foldl_append]

/-- C31, exactly: for lines over 1–9, 22–25, 27, 39, 49 and colours, a span has all styles and colours of the terminal's pen if and only if no 6 has come yet or
the last of them has no 25 after it; otherwise only fast blinking differs. -/
theorem C31_exact_partial (items : List Item) (h : ∀ it ∈ items, it.Ok) (st : State) (hm : st.mode = .ground) (hp : st.pen = Attr.clean) :
    ∃ sps, yieldFrom (lineOf items) = (sps, none) ∧ sps.length = items.length ∧
      ∀ (i : Nat) (it : Item) (sp : Span), items[i]? = some it → sps[i]? = some sp →
        sp.text = it.text ∧ Agree false sp.style sp.fg sp.bg (run st (lineOf (items.take (i + 1)))).pen ∧
        (Agree true sp.style sp.fg sp.bg (run st (lineOf (items.take (i + 1)))).pen ↔
          .set 6 ∉ (items.take (i + 1)).flatMap Item.units ∨
            ∃ a b, (items.take (i + 1)).flatMap Item.units = a ++ .set 6 :: b ∧ .unset 25 ∉ b) := by
  have hall := spansOf_agree h (strict := false) (by simp) (o := {}) st hm (by rw [hp]; exact Agree.clean false) rfl
  refine ⟨_, yieldFrom_items h, hall.1, ?_⟩
  intro i it sp hi hs
  obtain ⟨ht, hag⟩ := hall.2 i it sp hi hs
  refine ⟨ht, hag, ?_⟩
  obtain ⟨f1, f2⟩ := spansOf_fast h st hm i sp hs
  rw [hp] at f2
  have f2 : _ = shownFast _ false := f2
  rw [← shownFast_iff, ← f2]
  have f1 : sp.style.fastBlink = decide (.set 6 ∈ (items.take (i + 1)).flatMap Item.units) := by simpa using f1
  have hiff : Agree true sp.style sp.fg sp.bg (run st (lineOf (items.take (i + 1)))).pen ↔
      sp.style.fastBlink = (run st (lineOf (items.take (i + 1)))).pen.fastBlink := by
    constructor
    · exact fun hh => hh.fastBlink rfl
    · obtain ⟨a1, a2, a3, a4, a5, a6, a7, a8, a9, a10, a11, a12⟩ := hag
      exact fun hf => ⟨a1, a2, a3, a4, a5, fun _ => hf, a7, a8, a9, a10, a11, a12⟩
  rw [hiff, f1]
  by_cases h6 : .set 6 ∈ (items.take (i + 1)).flatMap Item.units
  · simp [h6]
  · simp only [h6, not_false_eq_true, true_or, iff_true, decide_false]
    rw [f2, eq_comm, Bool.eq_false_iff]
    intro hc
    obtain ⟨a, b, hab, -⟩ := (shownFast_iff _).mp hc
    exact h6 (by rw [hab]; simp)

/-- A case in which they differ: 6, then 25. -/
example : let us : List SgrUnit := [.set 6, .unset 25]
    ¬ (.set 6 ∉ us ∨ ∃ a b, us = a ++ .set 6 :: b ∧ .unset 25 ∉ b) := by
  intro us
  rw [← shownFast_iff]
  decide

end Slate
