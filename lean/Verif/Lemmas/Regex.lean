import Verif.Model.Regex
import Verif.Spec.Regex
import Mathlib.Data.List.Basic
import Mathlib.Tactic.SplitIfs

/-! The matchers of `Model/Regex.lean`: agreement with the backtracking semantics, and
their results on well-formed strings. -/

namespace Slate
open Py Re

/-! ### Agreement with `Spec/Regex.lean` -/

/-- `[mH]` -/
def isMH (c : Char) : Bool := c == 'm' || c == 'H'

/-- `(?:\x1b\[(.*?)[mH])|(?:\x1b\](.*?)\x1b\\)|(?:\x1b_G(.*?)\x1b\\)` (`core.py:162`). -/
def reAnsi : Regex :=
  .alt (.seq (lit ['\x1b', '[']) (.seq (.cap (.lazyStar dot)) (.cls isMH)))
    (.alt (.seq (lit ['\x1b', ']']) (.seq (.cap (.lazyStar dot)) (lit ['\x1b', '\\'])))
      (.seq (lit ['\x1b', '_', 'G']) (.seq (.cap (.lazyStar dot)) (lit ['\x1b', '\\']))))

/-- `\x1b\[(?:(.*?))[mH]([^\x1b]+)(?=\x1b)` (`span.py:46`). -/
def reAnsiStyles : Regex :=
  .seq (lit ['\x1b', '[']) (.seq (.cap (.lazyStar dot)) (.seq (.cls isMH)
    (.seq (.cap (.plus (· != '\x1b'))) (.look (.cls (· == '\x1b'))))))

theorem head?_flatMap {α β : Type} (l : List α) (f : α → List β) :
    (l.flatMap f).head? = l.findSome? fun a => (f a).head? := by
  induction l with
  | nil => rfl
  | cons a l ih =>
    rw [List.flatMap_cons, List.head?_append, ih, List.findSome?_cons]
    cases (f a).head? <;> rfl

theorem exec_alt (a b : Regex) (s : Str) : (Regex.alt a b).exec s = (a.exec s).or (b.exec s) := by
  simp [Regex.exec, Regex.run, List.head?_append]

theorem exec_lit2 (a b : Char) (r : Regex) (s : Str) :
    (Regex.seq (lit [a, b]) r).exec s =
      match s with
      | c :: d :: t => if c = a ∧ d = b then r.exec t else none
      | _ => none := by
  unfold Regex.exec
  simp only [Regex.run, lit]
  match s with
  | [] => rfl
  | [c] => by_cases h : c = a <;> simp [h]
  | c :: d :: t =>
    by_cases h : c = a
    · by_cases h' : d = b <;> simp [h, h']
    · simp [h]

theorem exec_lit3 (a b e : Char) (r : Regex) (s : Str) :
    (Regex.seq (lit [a, b, e]) r).exec s =
      match s with
      | c :: d :: f :: t => if c = a ∧ d = b ∧ f = e then r.exec t else none
      | _ => none := by
  unfold Regex.exec
  simp only [Regex.run, lit]
  match s with
  | [] => rfl
  | [c] => by_cases h : c = a <;> simp [h]
  | [c, d] => by_cases h : c = a <;> by_cases h' : d = b <;> simp [h, h']
  | c :: d :: f :: t =>
    by_cases h : c = a
    · by_cases h' : d = b
      · by_cases h'' : f = e <;> simp [h, h', h'']
      · simp [h, h']
    · simp [h]

/-- A lazy capture followed by `r`: the first position at which `r` matches. -/
theorem exec_lazy (r : Regex) (s : Str) :
    (Regex.seq (.cap (.lazyStar dot)) r).exec s =
      (lazyRests dot s).findSome? fun t =>
        (r.exec t).map fun n => (s.take (s.length - t.length) :: n.1, n.2) := by
  unfold Regex.exec
  simp only [Regex.run, head?_flatMap, List.map_map, List.findSome?_map]
  congr 1
  funext t
  simp [List.head?_map]

theorem csiRest_eq (s : Str) :
    csiRest s = (lazyRests dot s).findSome? fun t =>
      ((Regex.cls isMH).exec t).map (·.2) := by
  induction s with
  | nil => rfl
  | cons c cs ih =>
    rw [csiRest, lazyRests, List.findSome?_cons]
    by_cases h : c = 'm' ∨ c = 'H'
    · have e : isMH c = true := by rcases h with rfl | rfl <;> rfl
      simp [Regex.exec, Regex.run, e, h]
    · have e : isMH c = false := by
        simp only [not_or] at h
        simp [isMH, h.1, h.2]
      simp only [if_neg h, Regex.exec, Regex.run, e]
      by_cases hn : c = '\n'
      · simp [hn, dot]
      · simp only [if_neg hn, ih, dot]
        simp [hn, Regex.exec, Regex.run]

theorem stRest_eq (s : Str) :
    stRest s = (lazyRests dot s).findSome? fun t =>
      ((lit ['\x1b', '\\']).exec t).map (·.2) := by
  induction s with
  | nil => rfl
  | cons c cs ih =>
    rw [stRest, lazyRests, List.findSome?_cons]
    have key : ((lit ['\x1b', '\\']).exec (c :: cs)).map (·.2) =
        if ['\x1b', '\\'].isPrefixOf (c :: cs) then some (cs.drop 1) else none := by
      cases cs with
      | nil =>
        by_cases h : c = '\x1b'
        · subst h; rfl
        · have h' : ¬ '\x1b' = c := fun e => h e.symm
          simp [Regex.exec, Regex.run, lit, h]
      | cons d t =>
        by_cases h : c = '\x1b'
        · subst h
          by_cases h' : d = '\\'
          · subst h'; rfl
          · have h'' : ¬ '\\' = d := fun e => h' e.symm
            simp [Regex.exec, Regex.run, lit, h', h'', List.isPrefixOf]
        · have h' : ¬ '\x1b' = c := fun e => h e.symm
          simp [Regex.exec, Regex.run, lit, h, h', List.isPrefixOf]
    rw [key]
    split
    · rfl
    · by_cases hn : c = '\n'
      · simp [hn, dot]
      · simp only [if_neg hn, ih, dot]
        simp [hn]

theorem exec_lazy_rest (r : Regex) (s : Str) :
    ((Regex.seq (.cap (.lazyStar dot)) r).exec s).map (·.2) =
      (lazyRests dot s).findSome? fun t => (r.exec t).map (·.2) := by
  rw [exec_lazy, List.map_findSome?]
  congr 1
  funext t
  cases h : r.exec t <;> simp [h]

/-- `ansiRest` is `RE_ANSI.match`. -/
theorem ansiRest_eq_exec (s : Str) : ansiRest s = (reAnsi.exec s).map (·.2) := by
  have hmap : ∀ (a b : Option (List Str × Str)), (a.or b).map (·.2) = (a.map (·.2)).or (b.map (·.2)) := by
    intro a b; cases a <;> rfl
  unfold reAnsi
  rw [exec_alt, exec_alt, exec_lit2, exec_lit2, exec_lit3, hmap, hmap]
  unfold ansiRest
  split
  · rw [csiRest_eq, ← exec_lazy_rest]
    simp only [and_self, if_true]
    simp only [show ¬ ('[' : Char) = ']' by decide, and_false, if_false]
    rename_i t
    cases t <;> simp
  · rw [stRest_eq, ← exec_lazy_rest]
    simp only [and_self, if_true]
    simp only [show ¬ (']' : Char) = '[' by decide, and_false, if_false]
    rename_i t
    cases t <;> simp
  · rw [stRest_eq, ← exec_lazy_rest]
    simp
  · rename_i h1 h2 h3
    match s with
    | [] => rfl
    | [c] => rfl
    | [c, d] =>
      have a1 : ¬ (c = '\x1b' ∧ d = '[') := by rintro ⟨rfl, rfl⟩; exact h1 _ rfl
      have a2 : ¬ (c = '\x1b' ∧ d = ']') := by rintro ⟨rfl, rfl⟩; exact h2 _ rfl
      simp only [if_neg a1, if_neg a2]; rfl
    | c :: d :: e :: t =>
      have a1 : ¬ (c = '\x1b' ∧ d = '[') := by rintro ⟨rfl, rfl⟩; exact h1 _ rfl
      have a2 : ¬ (c = '\x1b' ∧ d = ']') := by rintro ⟨rfl, rfl⟩; exact h2 _ rfl
      have a3 : ¬ (c = '\x1b' ∧ d = '_' ∧ e = 'G') := by rintro ⟨rfl, rfl, rfl⟩; exact h3 _ rfl
      simp only [if_neg a1, if_neg a2, if_neg a3]; rfl

theorem greedy_look (s : Str) :
    ((greedyRests (· != '\x1b') s).findSome? fun t =>
        ((Regex.look (.cls (· == '\x1b'))).exec t).map (·.2)) =
      if (s.dropWhile (· != '\x1b')).isEmpty then none else some (s.dropWhile (· != '\x1b')) := by
  induction s with
  | nil => rfl
  | cons c cs ih =>
    rw [greedyRests]
    by_cases h : c = '\x1b'
    · subst h; rfl
    · have e : (c != '\x1b') = true := by simpa using h
      rw [if_pos e, List.findSome?_append, ih, List.dropWhile_cons, if_pos e]
      have : ((Regex.look (.cls (· == '\x1b'))).exec (c :: cs)) = none := by
        simp [Regex.exec, Regex.run, h]
      rw [List.findSome?_cons, this]
      split <;> rfl

theorem take_dropWhile_length (p : Char → Bool) (s : Str) :
    s.take (s.length - (s.dropWhile p).length) = s.takeWhile p := by
  have h := List.takeWhile_append_dropWhile (p := p) (l := s)
  have hl : s.length - (s.dropWhile p).length = (s.takeWhile p).length := by
    have := congrArg List.length h
    rw [List.length_append] at this
    omega
  rw [hl]
  have h2 : List.take (s.takeWhile p).length (s.takeWhile p ++ s.dropWhile p) = s.takeWhile p := by
    rw [List.take_left']; rfl
  rwa [h] at h2

theorem styleText_eq (s : Str) :
    styleText s = ((Regex.seq (.cap (.plus (· != '\x1b'))) (.look (.cls (· == '\x1b')))).exec s).map
      fun m => (m.1.headD [], m.2) := by
  have hexec : (Regex.seq (.cap (.plus (· != '\x1b'))) (.look (.cls (· == '\x1b')))).exec s =
      match s with
      | [] => none
      | c :: cs => if c != '\x1b' then
          (greedyRests (· != '\x1b') cs).findSome? fun t =>
            ((Regex.look (.cls (· == '\x1b'))).exec t).map fun n =>
              ((c :: cs).take ((c :: cs).length - t.length) :: n.1, n.2)
        else none := by
    unfold Regex.exec
    cases s with
    | nil => rfl
    | cons c cs =>
      simp only [Regex.run]
      split_ifs with h
      · simp only [head?_flatMap, List.map_map, List.findSome?_map]
        congr 1
        funext t
        simp [List.head?_map]
      · rfl
  rw [hexec]
  unfold styleText
  cases s with
  | nil => rfl
  | cons c cs =>
    by_cases h : c = '\x1b'
    · subst h; rfl
    · have e : (c != '\x1b') = true := by simpa using h
      have e' : (c != ESC) = true := e
      simp only [e', if_true, List.takeWhile_cons, List.dropWhile_cons]
      rw [if_pos e, List.map_findSome?]
      have hg := greedy_look cs
      have hf : (Option.map (fun m : List Str × Str => (m.1.headD [], m.2)) ∘ fun t : Str =>
          Option.map (fun n : List Str × Str => (List.take ((c :: cs).length - t.length) (c :: cs) :: n.1, n.2))
            ((Regex.look (.cls (· == '\x1b'))).exec t)) =
          fun t => (((Regex.look (.cls (· == '\x1b'))).exec t).map (·.2)).map fun r =>
            (List.take ((c :: cs).length - r.length) (c :: cs), r) := by
        funext t
        simp only [Function.comp]
        have : (Regex.look (.cls (· == '\x1b'))).exec t = none ∨
            (Regex.look (.cls (· == '\x1b'))).exec t = some ([], t) := by
          unfold Regex.exec
          rw [Regex.run]
          by_cases hh : (Regex.run (.cls (· == '\x1b')) t).isEmpty = true
          · exact .inl (by rw [if_pos hh]; rfl)
          · exact .inr (by rw [if_neg hh]; rfl)
        rcases this with h | h <;> rw [h] <;> rfl
      have hm := congrArg (Option.map fun r : Str =>
        (List.take ((c :: cs).length - r.length) (c :: cs), r)) hg
      rw [List.map_findSome?] at hm
      rw [hf]
      refine Eq.trans ?_ hm.symm
      show _ = Option.map _ (if (List.dropWhile (· != ESC) cs).isEmpty = true then none
        else some (List.dropWhile (· != ESC) cs))
      have hd : (List.dropWhile (· != ESC) (c :: cs)) = List.dropWhile (· != ESC) cs := by
        rw [List.dropWhile_cons, if_pos e']
      have ht := take_dropWhile_length (· != ESC) (c :: cs)
      rw [hd, List.takeWhile_cons, if_pos e'] at ht
      by_cases hem : (List.dropWhile (· != ESC) cs).isEmpty
      · simp [hem]
      · simp only [hem, if_false, Option.map_some, List.isEmpty_cons, Bool.or_false, Bool.false_eq_true]
        rw [ht]

theorem styleBody_eq (acc s : Str) :
    styleBody acc s = (lazyRests dot s).findSome? fun t =>
      ((Regex.seq (.cls isMH) (.seq (.cap (.plus (· != '\x1b'))) (.look (.cls (· == '\x1b'))))).exec t).map
        fun m => (acc ++ s.take (s.length - t.length), m.1.headD [], m.2) := by
  have hseq : ∀ t, (Regex.seq (.cls isMH)
      (.seq (.cap (.plus (· != '\x1b'))) (.look (.cls (· == '\x1b'))))).exec t =
      match t with
      | [] => none
      | c :: cs => if isMH c then
          (Regex.seq (.cap (.plus (· != '\x1b'))) (.look (.cls (· == '\x1b')))).exec cs else none := by
    intro t
    cases t with
    | nil => rfl
    | cons c cs =>
      unfold Regex.exec
      rw [Regex.run]
      simp only [Regex.run]
      split_ifs <;> simp
  induction s generalizing acc with
  | nil => rfl
  | cons c cs ih =>
    rw [styleBody, lazyRests, List.findSome?_cons, hseq]
    have hmh : isMH c = true ↔ (c = 'm' ∨ c = 'H') := by simp [isMH]
    have hrest : (if c = '\n' then none else styleBody (acc ++ [c]) cs) =
        (if dot c = true then lazyRests dot cs else []).findSome? fun t =>
        ((Regex.seq (.cls isMH) (.seq (.cap (.plus (· != '\x1b'))) (.look (.cls (· == '\x1b'))))).exec t).map
        fun m => (acc ++ (c :: cs).take ((c :: cs).length - t.length), m.1.headD [], m.2) := by
      by_cases hn : c = '\n'
      · simp [hn, dot]
      · rw [if_neg hn, ih, if_pos (by simpa [dot] using hn)]
        have hlen : ∀ t ∈ lazyRests dot cs, t.length ≤ cs.length := by
          clear ih
          induction cs with
          | nil => simp [lazyRests]
          | cons d ds ih2 =>
            intro t ht
            rw [lazyRests, List.mem_cons] at ht
            rcases ht with rfl | ht
            · exact Nat.le_refl _
            · split_ifs at ht
              · exact Nat.le_succ_of_le (ih2 t ht)
              · simp at ht
        have hcongr : ∀ (l : List Str), (∀ t ∈ l, t.length ≤ cs.length) →
            (l.findSome? fun t => ((Regex.seq (.cls isMH) (.seq (.cap (.plus (· != '\x1b')))
              (.look (.cls (· == '\x1b'))))).exec t).map
                fun m => (acc ++ [c] ++ cs.take (cs.length - t.length), m.1.headD [], m.2)) =
            l.findSome? fun t => ((Regex.seq (.cls isMH) (.seq (.cap (.plus (· != '\x1b')))
              (.look (.cls (· == '\x1b'))))).exec t).map
                fun m => (acc ++ (c :: cs).take ((c :: cs).length - t.length), m.1.headD [], m.2) := by
          intro l
          induction l with
          | nil => intro _; rfl
          | cons t l ih3 =>
            intro hl
            rw [List.findSome?_cons, List.findSome?_cons, ih3 (fun t ht => hl t (by simp [ht]))]
            have := hl t (by simp)
            have e : (c :: cs).take ((c :: cs).length - t.length) = c :: cs.take (cs.length - t.length) := by
              rw [List.length_cons, show cs.length + 1 - t.length = (cs.length - t.length) + 1 by omega]
              rfl
            rw [e]
            simp
        exact hcongr _ hlen
    rw [← hrest]
    by_cases h : c = 'm' ∨ c = 'H'
    · simp only [h, if_true, hmh.mpr h]
      rw [styleText_eq]
      cases (Regex.seq (.cap (.plus (· != '\x1b'))) (.look (.cls (· == '\x1b')))).exec cs with
      | none => rfl
      | some m => simp
    · have : isMH c = false := by rw [Bool.eq_false_iff]; exact fun e => h (hmh.mp e)
      simp [h, this]

/-- `styleMatch` is `RE_ANSI_STYLES.match`: the two groups and the rest. -/
theorem styleMatch_eq_exec (s : Str) :
    (styleMatch s).map (fun m => ([m.1, m.2.1], m.2.2)) = reAnsiStyles.exec s := by
  unfold reAnsiStyles
  rw [exec_lit2]
  have key : ∀ t, (styleBody [] t).map (fun m => ([m.1, m.2.1], m.2.2)) =
      (Regex.seq (.cap (.lazyStar dot)) (.seq (.cls isMH)
        (.seq (.cap (.plus (· != '\x1b'))) (.look (.cls (· == '\x1b')))))).exec t := by
    intro t
    rw [exec_lazy, styleBody_eq, List.map_findSome?]
    congr 1
    funext u
    have hone : ∀ m, (Regex.seq (.cls isMH)
        (.seq (.cap (.plus (· != '\x1b'))) (.look (.cls (· == '\x1b'))))).exec u = some m →
        m.1 = [m.1.headD []] := by
      intro m hm
      have hmem : m ∈ (Regex.seq (.cls isMH)
        (.seq (.cap (.plus (· != '\x1b'))) (.look (.cls (· == '\x1b'))))).run u := List.mem_of_head? hm
      rw [Regex.run] at hmem
      obtain ⟨a, ha, hb⟩ := List.mem_flatMap.mp hmem
      obtain ⟨b, hb', rfl⟩ := List.mem_map.mp hb
      clear hb hm hmem
      have hb := hb'
      have ha1 : a.1 = [] := by
        cases u with
        | nil => simp [Regex.run] at ha
        | cons c cs =>
          simp only [Regex.run] at ha
          split_ifs at ha
          · simp at ha; rw [ha]
          · simp at ha
      rw [Regex.run] at hb
      obtain ⟨x, hx, hy⟩ := List.mem_flatMap.mp hb
      obtain ⟨y, hy', rfl⟩ := List.mem_map.mp hy
      clear hy
      have hy := hy'
      have hy1 : y.1 = [] := by
        rw [Regex.run] at hy
        by_cases hh : (Regex.run (.cls (· == '\x1b')) x.2).isEmpty = true
        · rw [if_pos hh] at hy; exact absurd hy List.not_mem_nil
        · rw [if_neg hh] at hy; rw [List.mem_singleton.mp hy]
      rw [Regex.run] at hx
      obtain ⟨z, hz, rfl⟩ := List.mem_map.mp hx
      have hz1 : z.1 = [] := by
        cases hm2 : a.2 with
        | nil => rw [hm2] at hz; simp [Regex.run] at hz
        | cons c cs =>
          rw [hm2] at hz
          simp only [Regex.run] at hz
          split_ifs at hz
          · obtain ⟨w, -, rfl⟩ := List.mem_map.mp hz; rfl
          · simp at hz
      simp [ha1, hy1, hz1]
    simp only [Function.comp]
    cases hm : (Regex.seq (.cls isMH)
        (.seq (.cap (.plus (· != '\x1b'))) (.look (.cls (· == '\x1b'))))).exec u with
    | none => rfl
    | some m =>
      have := hone m hm
      simp only [Option.map_some, List.nil_append, Option.some.injEq, Prod.mk.injEq, and_true]
      rw [this]
      rfl
  unfold styleMatch
  split
  · rw [key]; simp
  · rename_i h
    match s with
    | [] => rfl
    | [c] => rfl
    | c :: d :: t =>
      have : ¬ (c = '\x1b' ∧ d = '[') := by rintro ⟨rfl, rfl⟩; exact h t rfl
      simp only [if_neg this]; rfl

/-! ### Removing escape sequences -/

/-- Characters that may stand inside a sequence for the expressions to see its end. -/
def BodyChar (c : Char) : Prop := c ≠ 'm' ∧ c ≠ 'H' ∧ c ≠ '\n'

theorem csiRest_of {body : Str} (rest : Str) (h : ∀ c ∈ body, BodyChar c) :
    csiRest (body ++ 'm' :: rest) = some rest := by
  induction body with
  | nil => simp [csiRest]
  | cons c cs ih =>
    obtain ⟨h1, h2, h3⟩ := h c (by simp)
    rw [List.cons_append, csiRest, if_neg (by simp [h1, h2]), if_neg h3]
    exact ih fun c hc => h c (by simp [hc])

theorem stRest_of {body : Str} (rest : Str) (h : ∀ c ∈ body, c ≠ '\x1b' ∧ c ≠ '\n') :
    stRest (body ++ '\x1b' :: '\\' :: rest) = some rest := by
  induction body with
  | nil => simp [stRest]
  | cons c cs ih =>
    obtain ⟨h1, h3⟩ := h c (by simp)
    have hp : ¬ (['\x1b', '\\'].isPrefixOf (c :: (cs ++ '\x1b' :: '\\' :: rest)) = true) := by
      have : ¬ '\x1b' = c := fun e => h1 e.symm
      simp [List.isPrefixOf, this]
    rw [List.cons_append, stRest, if_neg hp, if_neg h3]
    exact ih fun c hc => h c (by simp [hc])

theorem subAnsiGo_skip (a rest : Str) : subAnsiGo a.length (a ++ rest) = subAnsiGo 0 rest := by
  induction a with
  | nil => rfl
  | cons c a ih => simpa [subAnsiGo] using ih

theorem subAnsi_match {c : Char} {a rest : Str} (h : ansiRest (c :: (a ++ rest)) = some rest) :
    subAnsi (c :: (a ++ rest)) = subAnsi rest := by
  unfold subAnsi
  rw [subAnsiGo, h]
  simp only
  rw [show (a ++ rest).length - rest.length = a.length by simp]
  exact subAnsiGo_skip a rest

theorem ansiRest_of_ne {c : Char} (cs : Str) (h : c ≠ '\x1b') : ansiRest (c :: cs) = none := by
  unfold ansiRest
  split <;> simp_all

theorem subAnsi_text {text : Str} (rest : Str) (h : ∀ c ∈ text, c ≠ '\x1b') :
    subAnsi (text ++ rest) = text ++ subAnsi rest := by
  induction text with
  | nil => rfl
  | cons c cs ih =>
    have ih := ih fun c hc => h c (by simp [hc])
    unfold subAnsi at ih ⊢
    rw [List.cons_append, subAnsiGo, ansiRest_of_ne _ (h c (by simp))]
    simp only
    rw [ih, List.cons_append]

@[simp] theorem subAnsi_nil : subAnsi [] = [] := rfl

theorem subAnsi_sgr {body : Str} (rest : Str) (h : ∀ c ∈ body, BodyChar c) :
    subAnsi ('\x1b' :: '[' :: (body ++ 'm' :: rest)) = subAnsi rest := by
  have := subAnsi_match (c := '\x1b') (a := '[' :: (body ++ ['m'])) (rest := rest) (by
    have : ansiRest ('\x1b' :: '[' :: (body ++ 'm' :: rest)) = some rest := csiRest_of rest h
    simpa using this)
  simpa using this

theorem subAnsi_osc {body : Str} (rest : Str) (h : ∀ c ∈ body, c ≠ '\x1b' ∧ c ≠ '\n') :
    subAnsi ('\x1b' :: ']' :: (body ++ '\x1b' :: '\\' :: rest)) = subAnsi rest := by
  have := subAnsi_match (c := '\x1b') (a := ']' :: (body ++ ['\x1b', '\\'])) (rest := rest) (by
    have : ansiRest ('\x1b' :: ']' :: (body ++ '\x1b' :: '\\' :: rest)) = some rest := stRest_of rest h
    simpa using this)
  simpa using this

/-! ### Finding styled runs -/

/-- A text that the second group of `RE_ANSI_STYLES` can hold. -/
def PlainText (t : Str) : Prop := t ≠ [] ∧ ∀ c ∈ t, c ≠ '\x1b'

theorem takeWhile_text {t : Str} (rest : Str) (h : ∀ c ∈ t, c ≠ '\x1b') :
    (t ++ '\x1b' :: rest).takeWhile (· != ESC) = t ∧
    (t ++ '\x1b' :: rest).dropWhile (· != ESC) = '\x1b' :: rest := by
  induction t with
  | nil => simp [ESC]
  | cons c cs ih =>
    have h1 := h c (by simp)
    obtain ⟨i1, i2⟩ := ih fun c hc => h c (by simp [hc])
    simp [List.takeWhile_cons, List.dropWhile_cons, ESC, h1] at i1 i2 ⊢
    exact ⟨i1, i2⟩

theorem styleText_of {t : Str} (rest : Str) (h : PlainText t) :
    styleText (t ++ '\x1b' :: rest) = some (t, '\x1b' :: rest) := by
  obtain ⟨h1, h2⟩ := takeWhile_text rest h.2
  unfold styleText
  simp only [h1, h2]
  simp [h.1]

theorem styleBody_of {body t : Str} (acc rest : Str) (hb : ∀ c ∈ body, BodyChar c) (h : PlainText t) :
    styleBody acc (body ++ 'm' :: (t ++ '\x1b' :: rest)) = some (acc ++ body, t, '\x1b' :: rest) := by
  induction body generalizing acc with
  | nil => simp [styleBody, styleText_of rest h]
  | cons c cs ih =>
    obtain ⟨h1, h2, h3⟩ := hb c (by simp)
    rw [List.cons_append, styleBody, if_neg (by simp [h1, h2])]
    simp only [if_neg h3]
    rw [ih _ fun c hc => hb c (by simp [hc])]
    simp

/-- One styled run. -/
theorem styleMatch_of {body t : Str} (rest : Str) (hb : ∀ c ∈ body, BodyChar c) (h : PlainText t) :
    styleMatch ('\x1b' :: '[' :: (body ++ 'm' :: (t ++ '\x1b' :: rest))) = some (body, t, '\x1b' :: rest) :=
  styleBody_of [] rest hb h

theorem styleMatchesGo_skip (pos : Nat) (a rest : Str) :
    styleMatchesGo pos a.length (a ++ rest) = styleMatchesGo (pos + a.length) 0 rest := by
  induction a generalizing pos with
  | nil => rfl
  | cons c a ih =>
    have := ih (pos + 1)
    rw [List.cons_append, List.length_cons, styleMatchesGo, this]
    congr 1
    omega

theorem styleMatch_of_ne {c : Char} (cs : Str) (h : c ≠ '\x1b') : styleMatch (c :: cs) = none := by
  unfold styleMatch
  split <;> simp_all

/-- Text in front of the first sequence is passed over. -/
theorem styleMatchesGo_text (pos : Nat) {t : Str} (rest : Str) (h : ∀ c ∈ t, c ≠ '\x1b') :
    styleMatchesGo pos 0 (t ++ rest) = styleMatchesGo (pos + t.length) 0 rest := by
  induction t generalizing pos with
  | nil => rfl
  | cons c cs ih =>
    rw [List.cons_append, styleMatchesGo, styleMatch_of_ne _ (h c (by simp))]
    simp only
    rw [ih _ fun c hc => h c (by simp [hc]), List.length_cons]
    congr 1
    omega

theorem styleMatchesGo_run (pos : Nat) {body t : Str} (rest : Str) (hb : ∀ c ∈ body, BodyChar c)
    (h : PlainText t) :
    styleMatchesGo pos 0 ('\x1b' :: '[' :: (body ++ 'm' :: (t ++ '\x1b' :: rest))) =
      (body, t, pos + (body.length + t.length + 3)) ::
        styleMatchesGo (pos + (body.length + t.length + 3)) 0 ('\x1b' :: rest) := by
  rw [styleMatchesGo, styleMatch_of rest hb h]
  simp only
  have e : '[' :: (body ++ 'm' :: (t ++ '\x1b' :: rest)) =
      ('[' :: (body ++ 'm' :: t)) ++ '\x1b' :: rest := by simp
  have hl : ('[' :: (body ++ 'm' :: t)).length = body.length + t.length + 2 := by
    simp; omega
  rw [e, show (('[' :: (body ++ 'm' :: t)) ++ '\x1b' :: rest).length - ('\x1b' :: rest).length =
    ('[' :: (body ++ 'm' :: t)).length by simp; omega, styleMatchesGo_skip, hl]
  have e1 : pos + (('\x1b' :: ('[' :: (body ++ 'm' :: t) ++ '\x1b' :: rest)).length -
      ('\x1b' :: rest).length) = pos + (body.length + t.length + 3) := by
    simp; omega
  rw [e1, show pos + 1 + (body.length + t.length + 2) = pos + (body.length + t.length + 3) by omega]

theorem styleMatchesGo_end (pos : Nat) : styleMatchesGo pos 0 ['\x1b'] = [] := by
  simp [styleMatchesGo, styleMatch]

end Slate
