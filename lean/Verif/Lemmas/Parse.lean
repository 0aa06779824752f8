import Verif.Lemmas.Regex
import Verif.Lemmas.Color
import Verif.Lemmas.Display

/-! `int`, `split`, `from_ansi` and `_parse_sequence` on canonical codes. -/

namespace Slate
open Py Term

/-! ### Splitting and reading numbers -/

theorem splitC_ne_nil (c : Char) (s : Str) : splitC c s ≠ [] := by
  cases s with
  | nil => simp [splitC]
  | cons x xs =>
    unfold splitC
    split
    · simp
    · split <;> simp

theorem splitC_of_not_mem {c : Char} {s : Str} (h : c ∉ s) : splitC c s = [s] := by
  induction s with
  | nil => rfl
  | cons x xs ih =>
    simp only [List.mem_cons, not_or] at h
    rw [splitC, if_neg (fun e => h.1 e.symm), ih h.2]

theorem splitC_append {c : Char} {s : Str} (t : Str) (h : c ∉ s) :
    splitC c (s ++ c :: t) = s :: splitC c t := by
  induction s with
  | nil => simp [splitC]
  | cons x xs ih =>
    simp only [List.mem_cons, not_or] at h
    rw [List.cons_append, splitC, if_neg (fun e => h.1 e.symm), ih h.2]

theorem splitC_join {c : Char} (a : Str) (as : List Str) (h : ∀ s ∈ a :: as, c ∉ s) :
    splitC c (join [c] (a :: as)) = a :: as := by
  induction as generalizing a with
  | nil => rw [join, splitC_of_not_mem (h a (by simp))]
  | cons b as ih =>
    rw [join, List.append_assoc, List.singleton_append, splitC_append _ (h a (by simp)),
      ih b fun s hs => h s (by simp [List.mem_cons.mp hs])]

theorem dec_not_mem {n : Nat} {c : Char} (h : isDig c = false) : c ∉ dec n := fun hm => by
  rw [dec_isDig hm] at h; cases h

theorem splitC_decs (n : Nat) (ns : List Nat) :
    splitC ';' (join [';'] ((n :: ns).map dec)) = (n :: ns).map dec := by
  rw [List.map_cons]
  apply splitC_join
  intro s hs
  rw [← List.map_cons] at hs
  obtain ⟨k, -, rfl⟩ := List.mem_map.mp hs
  exact dec_not_mem (by decide)

theorem isSpace_of_isDig {c : Char} (h : isDig c = true) : isSpace c = false := by
  rw [isDig_iff] at h
  unfold isSpace
  simp only
  have h1 : ¬ (9 ≤ c.toNat ∧ c.toNat ≤ 13) := by omega
  have h2 : ¬ (28 ≤ c.toNat ∧ c.toNat ≤ 31) := by omega
  simp only [Bool.or_eq_false_iff, Bool.and_eq_false_iff, decide_eq_false_iff_not, beq_eq_false_iff_ne]
  omega

theorem strip_digits {s : Str} (h : s.all isDig = true) : rstrip isBlank (lstrip isBlank (s.map toAscii)) = s := by
  rw [List.all_eq_true] at h
  have hb : ∀ c, isDig c = true → isBlank c = false := by
    intro c hc
    rw [isDig_iff] at hc
    unfold isBlank
    simp only [Bool.or_eq_false_iff, Bool.and_eq_false_iff, decide_eq_false_iff_not, beq_eq_false_iff_ne]
    omega
  rw [show s.map toAscii = s from (List.map_congr_left (g := id) fun c hc => toAscii_isDig (h c hc)).trans (List.map_id s), lstrip_of_head, rstrip_of_last]
  · intro c hc; exact hb c (h c (List.mem_of_getLast? hc))
  · intro c hc; exact hb c (h c (List.mem_of_mem_head? hc))

theorem digitVal_isDig {c : Char} (h : isDig c = true) : digitVal 10 c = some (c.toNat - 48) := by
  rw [isDig_iff] at h
  unfold digitVal
  simp only [h, and_self, if_true]
  rw [if_pos (by omega)]

theorem digitsGo_digits (s : Str) (h : s.all isDig = true) (us fin : Bool) (acc : Nat)
    (hne : fin = true ∨ s ≠ []) : digitsGo 10 us fin acc s = some (decVal acc s) := by
  induction s generalizing us fin acc with
  | nil =>
    rcases hne with h | h
    · simp [digitsGo, h, decVal]
    · exact absurd rfl h
  | cons c cs ih =>
    simp only [List.all_cons, Bool.and_eq_true] at h
    rw [digitsGo, digitVal_isDig h.1]
    simp only
    rw [ih h.2 true true _ (.inl rfl)]
    rfl

theorem intBody_digits {s : Str} (h : s.all isDig = true) (hne : s ≠ []) (hl : s.length ≤ 4300) :
    intBody 10 s = some (decVal 0 s) := by
  unfold intBody
  split
  · simp [isDig] at h
  · simp [isDig] at h
  · rw [if_neg (by
      have := List.countP_le_length (p := fun c => decide (c ≠ '_')) (l := s)
      omega)]
    exact digitsGo_digits s h false false 0 (.inr hne)

theorem int_digits {s : Str} (h : s.all isDig = true) (hne : s ≠ []) (hl : s.length ≤ 4300) :
    Py.int 10 s = some (decVal 0 s : Int) := by
  unfold Py.int
  rw [strip_digits h]
  split
  · simp [isDig] at h
  · simp [isDig] at h
  · rw [intBody_digits h hne hl]; rfl

theorem int_dec {n : Nat} (h : (dec n).length ≤ 4300) : Py.int 10 (dec n) = some (n : Int) := by
  rw [int_digits (dec_all n) (dec_ne_nil n) h, dec_val]

/-- Longer numbers are not read. -/
theorem int_dec_long {n : Nat} (h : 4300 < (dec n).length) : Py.int 10 (dec n) = none := by
  have hall := dec_all n
  have hc : (dec n).countP (fun c => decide (c ≠ '_')) = (dec n).length := by
    rw [List.countP_eq_length]
    intro c hc
    simpa using isDig_ne (dec_isDig hc) (by decide : isDig '_' = false)
  have hb : intBody 10 (dec n) = none := by
    unfold intBody
    split
    · rfl
    · rfl
    · rw [if_pos ⟨rfl, by rw [hc]; exact h⟩]
  unfold Py.int
  rw [strip_digits hall]
  split
  · rename_i e; rw [e] at hall; simp [isDig] at hall
  · rename_i e; rw [e] at hall; simp [isDig] at hall
  · rw [hb]; rfl

theorem pyInt_dec {n : Nat} (h : (dec n).length ≤ 4300) : Color.pyInt 10 (dec n) = .ok (n : Int) := by
  rw [Color.pyInt, int_dec h]

/-! ### `from_ansi` -/

theorem make_nat {r g b : Nat} (hr : r < 256) (hg : g < 256) (hb : b < 256) (isBg : Bool) (alpha : Rat)
    (o : ColorSpace) (k : Option Str) :
    Color.make ((r : Int), (g : Int), (b : Int)) isBg alpha o k =
      .ok { r := r, g := g, b := b, isBg := isBg, alpha := alpha, origin := o, ctor := k } := by
  have ok : ∀ n : Nat, n < 256 → Color.chanOk (n : Int) = true := by
    intro n hn
    simp only [Color.chanOk, Bool.and_eq_true, decide_eq_true_eq]; omega
  unfold Color.make
  simp only [ok r hr, ok g hg, ok b hb, Bool.and_self, if_true, Int.toNat_natCast]

/-- RGB of a palette entry. -/
def palette (n : Nat) : Nat × Nat × Nat := colorTable.getD n (0, 0, 0)

theorem colorTable_length : colorTable.length = 256 := by decide +kernel

theorem palette_lt (n : Nat) : (palette n).1 < 256 ∧ (palette n).2.1 < 256 ∧ (palette n).2.2 < 256 := by
  have h : ∀ p ∈ colorTable, p.1 < 256 ∧ p.2.1 < 256 ∧ p.2.2 < 256 := by decide +kernel
  unfold palette
  rw [List.getD_eq_getElem?_getD]
  cases hn : colorTable[n]? with
  | none => exact ⟨by decide, by decide, by decide⟩
  | some p => exact h p (List.mem_of_getElem? hn)

theorem colorTable_getElem? {n : Nat} (h : n < 256) : colorTable[n]? = some (palette n) := by
  have hl : n < colorTable.length := by rw [colorTable_length]; exact h
  rw [palette, List.getD_eq_getElem?_getD, List.getElem?_eq_getElem hl]
  rfl

/-- The canonical colour codes, as number lists. -/
inductive CodeNums : List Nat → Prop
  | std (n : Nat) (h : (30 ≤ n ∧ n ≤ 37) ∨ (40 ≤ n ∧ n ≤ 47) ∨ (90 ≤ n ∧ n ≤ 97) ∨ (100 ≤ n ∧ n ≤ 107)) :
      CodeNums [n]
  | idx (bg : Bool) (n : Nat) (h : n < 256) : CodeNums [if bg then 48 else 38, 5, n]
  | rgb (bg : Bool) (r g b : Nat) (hr : r < 256) (hg : g < 256) (hb : b < 256) :
      CodeNums [if bg then 48 else 38, 2, r, g, b]

/-- The string of a code. -/
def codeStr (ns : List Nat) : Str := join [';'] (ns.map dec)

/-- The colour a code denotes, as an object with the code as its constructor. -/
def codeColor (ns : List Nat) : Color :=
  match ns with
  | [n] =>
    let i := if n < 40 then n - 30 else if n < 50 then n - 40 else if n < 100 then n - 82 else n - 92
    let p := palette i
    { r := p.1, g := p.2.1, b := p.2.2, isBg := (40 ≤ n ∧ n < 50) ∨ 100 ≤ n
      origin := .standard, ctor := some (codeStr ns) }
  | [l, _, n] =>
    let p := palette n
    { r := p.1, g := p.2.1, b := p.2.2, isBg := l = 48, origin := .eightBit, ctor := some (codeStr ns) }
  | [l, _, r, g, b] =>
    { r := r, g := g, b := b, isBg := l = 48, ctor := some (codeStr ns) }
  | _ => Color.black

theorem dec38 : dec 38 = "38".toList := by rfl
theorem dec48 : dec 48 = "48".toList := by rfl

theorem stdNums {n : Nat}
    (h : (30 ≤ n ∧ n ≤ 37) ∨ (40 ≤ n ∧ n ≤ 47) ∨ (90 ≤ n ∧ n ≤ 97) ∨ (100 ≤ n ∧ n ≤ 107)) :
    n ∈ List.range' 30 8 ++ List.range' 40 8 ++ List.range' 90 8 ++ List.range' 100 8 := by
  simp only [List.mem_append, List.mem_range'_1]; omega

theorem getLastD_decs (n : Nat) (ns : List Nat) : ∃ k, ((n :: ns).map dec).getLastD [] = dec k := by
  induction ns generalizing n with
  | nil => exact ⟨n, rfl⟩
  | cons m ns ih =>
    obtain ⟨k, hk⟩ := ih m
    refine ⟨k, ?_⟩
    rw [← hk]
    simp [List.getLastD]

theorem fromAnsi_decs (n : Nat) (ns : List Nat) (alpha : Rat) :
    Color.fromAnsi (codeStr (n :: ns)) alpha =
      Color.fromParts (codeStr (n :: ns)) ((n :: ns).map dec) alpha := by
  unfold Color.fromAnsi codeStr
  simp only [splitC_decs]
  obtain ⟨k, hk⟩ := getLastD_decs n ns
  rw [hk, if_neg (dec_not_mem (by decide))]

theorem ok_bind {α β : Type} (x : α) (f : α → Except PyErr β) : (Except.ok x >>= f) = f x := rfl

theorem fromAnsi_code {ns : List Nat} (h : CodeNums ns) :
    Color.fromAnsi (codeStr ns) = .ok (codeColor ns) := by
  cases h with
  | std n h =>
    have key : ∀ n ∈ List.range' 30 8 ++ List.range' 40 8 ++ List.range' 90 8 ++ List.range' 100 8,
        Color.fromAnsi (codeStr [n]) = .ok (codeColor [n]) := by decide +kernel
    exact key n (stdNums h)
  | idx bg n h =>
    rw [fromAnsi_decs]
    obtain ⟨p1, p2, p3⟩ := palette_lt n
    unfold Color.fromParts
    simp only [List.map_cons, List.map_nil, List.length_cons, List.length_nil]
    rw [if_neg (by omega)]
    have hl : [dec (if bg then 48 else 38), dec 5, dec n].getLastD [] = dec n := rfl
    rw [hl, pyInt_dec (dec_short (by omega)), ok_bind]
    simp only [Nat.reduceAdd, Nat.reduceEqDiff, if_false]
    rw [if_pos (by omega), Int.toNat_natCast, colorTable_getElem? h]
    simp only
    rw [make_nat p1 p2 p3]
    cases bg <;> simp [codeColor, dec38, dec48, startsWith, List.isPrefixOf]
  | rgb bg r g b hr hg hb =>
    rw [fromAnsi_decs]
    unfold Color.fromParts
    simp only [List.map_cons, List.map_nil, List.length_cons, List.length_nil]
    rw [if_pos (by omega), if_pos (by cases bg <;> simp [dec38, dec48, dec2])]
    have h2 : Color.intAt [dec (if bg then 48 else 38), dec 2, dec r, dec g, dec b] 2 = .ok (r : Int) :=
      pyInt_dec (dec_short (by omega))
    have h3 : Color.intAt [dec (if bg then 48 else 38), dec 2, dec r, dec g, dec b] 3 = .ok (g : Int) :=
      pyInt_dec (dec_short (by omega))
    have h4 : Color.intAt [dec (if bg then 48 else 38), dec 2, dec r, dec g, dec b] 4 = .ok (b : Int) :=
      pyInt_dec (dec_short (by omega))
    rw [h2, ok_bind, h3, ok_bind, h4, ok_bind, make_nat hr hg hb]
    cases bg <;> simp [codeColor, codeStr, dec38, dec48, startsWith, List.isPrefixOf]

/-! ### `_parse_sequence` -/

/-- Storing a colour in the options. -/
def Opts.paint (o : Opts) (c : Color) : Opts :=
  if c.isBg then { o with bg := some c } else { o with fg := some c }

theorem isDigit_false_of_mem {s : Str} (h : ';' ∈ s) : isDigit s = false := by
  unfold isDigit
  have : s.all isDigitChar = false := by
    rw [Bool.eq_false_iff]
    intro e
    have := List.all_eq_true.mp e ';' h
    revert this; decide +kernel
  simp [this]

theorem isValidColor_parts (a b : Str) (rest : List Str) (h : ∀ s ∈ a :: b :: rest, ';' ∉ s) :
    isValidColor (join [';'] (a :: b :: rest)) =
      if b = "2".toList then .ok (decide (rest.length + 2 = 5 ∨ rest.length + 2 = 6))
      else if b = "5".toList then .ok (decide (rest.length + 2 = 3 ∨ rest.length + 2 = 4))
      else .ok false := by
  unfold isValidColor
  rw [isDigit_false_of_mem (by rw [join]; simp), splitC_join _ _ h]
  simp

theorem join_snoc (l : List Str) (a : Str) (h : l ≠ []) :
    join [';'] l ++ [';'] ++ a = join [';'] (l ++ [a]) := by
  rw [join_append l [a] h (by simp)]
  rfl

/-- `int` reads the part, if it consists of digits. -/
abbrev Readable (part : Str) : Prop := ¬ (isDigit part && (Py.int 10 part).isNone) = true

theorem readable_dec {n : Nat} (h : n < 1000) : Readable (dec n) := by
  rw [Readable, int_dec (dec_short h)]; simp

/-- One step inside a colour that is not complete yet. -/
theorem parseParts_more (part : Str) (rest : List Str) (inColor : Bool) (buf : Str) (o : Opts)
    (hr : Readable part) (hin : (inColor || startsColor part) = true) (hv : isValidColor (buf ++ part) = .ok false) :
    parseParts (part :: rest) inColor buf o = parseParts rest true (buf ++ part ++ [';']) o := by
  rw [parseParts, if_neg hr, if_pos hin]
  simp only [hv]

theorem parseParts_done (part : Str) (rest : List Str) (inColor : Bool) (buf : Str) (o : Opts) (c : Color)
    (hr : Readable part) (hin : (inColor || startsColor part) = true) (hv : isValidColor (buf ++ part) = .ok true)
    (hc : Color.fromAnsi (buf ++ part) = .ok c) (hbg : isBackgroundColor (buf ++ part) = c.isBg) :
    parseParts (part :: rest) inColor buf o = parseParts rest false [] (o.paint c) := by
  rw [parseParts, if_neg hr, if_pos hin]
  simp only [hv, hc, hbg]
  cases hb : c.isBg <;> simp [Opts.paint, hb]

/-- A canonical colour code stores its colour. -/
theorem parseParts_code {ns : List Nat} (h : CodeNums ns) (rest : List Str) (o : Opts) :
    parseParts (ns.map dec ++ rest) false [] o = parseParts rest false [] (o.paint (codeColor ns)) := by
  have hc := fromAnsi_code h
  cases h with
  | std n h =>
    have key : ∀ n ∈ List.range' 30 8 ++ List.range' 40 8 ++ List.range' 90 8 ++ List.range' 100 8,
        startsColor (dec n) = true ∧ isValidColor (dec n) = .ok true ∧
        isBackgroundColor (dec n) = (codeColor [n]).isBg := by decide +kernel
    obtain ⟨k1, k2, k3⟩ := key n (stdNums h)
    exact parseParts_done (dec n) rest false [] o _ (readable_dec (by omega)) (by rw [k1]; rfl) k2 hc k3
  | idx bg n h =>
    have hl : startsColor (dec (if bg then 48 else 38)) = true ∧
        isValidColor (dec (if bg then 48 else 38)) = .ok false := by cases bg <;> decide +kernel
    have hns : ∀ k : Nat, ';' ∉ dec k := fun k => dec_not_mem (by decide)
    simp only [List.map_cons, List.map_nil, List.cons_append, List.nil_append]
    rw [parseParts_more _ _ _ _ _ (readable_dec (by split <;> omega)) (by rw [hl.1]; rfl) hl.2]
    have e1 := isValidColor_parts (dec (if bg then 48 else 38)) (dec 5) [] (by simp [hns])
    rw [parseParts_more _ _ _ _ _ (readable_dec (by omega)) rfl (by
      rw [show [] ++ dec (if bg then 48 else 38) ++ [';'] ++ dec 5 =
        join [';'] [dec (if bg then 48 else 38), dec 5] by simp [join], e1]
      rfl)]
    have e2 := isValidColor_parts (dec (if bg then 48 else 38)) (dec 5) [dec n] (by simp [hns])
    have hbuf : [] ++ dec (if bg then 48 else 38) ++ [';'] ++ dec 5 ++ [';'] ++ dec n =
        codeStr [if bg then 48 else 38, 5, n] := by simp [codeStr, join]
    refine parseParts_done _ _ _ _ _ _ (readable_dec (by omega)) rfl ?_ (by rw [hbuf]; exact hc) ?_
    · rw [hbuf]; exact e2.trans rfl
    · rw [hbuf]; cases bg <;> rfl
  | rgb bg r g b hr hg hb =>
    have hl : startsColor (dec (if bg then 48 else 38)) = true ∧
        isValidColor (dec (if bg then 48 else 38)) = .ok false := by cases bg <;> decide +kernel
    have hns : ∀ k : Nat, ';' ∉ dec k := fun k => dec_not_mem (by decide)
    simp only [List.map_cons, List.map_nil, List.cons_append, List.nil_append]
    rw [parseParts_more _ _ _ _ _ (readable_dec (by split <;> omega)) (by rw [hl.1]; rfl) hl.2]
    have e1 := isValidColor_parts (dec (if bg then 48 else 38)) (dec 2) [] (by simp [hns])
    rw [parseParts_more _ _ _ _ _ (readable_dec (by omega)) rfl (by
      rw [show [] ++ dec (if bg then 48 else 38) ++ [';'] ++ dec 2 =
        join [';'] [dec (if bg then 48 else 38), dec 2] by simp [join], e1]
      rfl)]
    have e2 := isValidColor_parts (dec (if bg then 48 else 38)) (dec 2) [dec r] (by simp [hns])
    rw [parseParts_more _ _ _ _ _ (readable_dec (by omega)) rfl (by
      rw [show [] ++ dec (if bg then 48 else 38) ++ [';'] ++ dec 2 ++ [';'] ++ dec r =
        join [';'] [dec (if bg then 48 else 38), dec 2, dec r] by simp [join], e2]
      rfl)]
    have e3 := isValidColor_parts (dec (if bg then 48 else 38)) (dec 2) [dec r, dec g] (by simp [hns])
    rw [parseParts_more _ _ _ _ _ (readable_dec (by omega)) rfl (by
      rw [show [] ++ dec (if bg then 48 else 38) ++ [';'] ++ dec 2 ++ [';'] ++ dec r ++ [';'] ++ dec g =
        join [';'] [dec (if bg then 48 else 38), dec 2, dec r, dec g] by simp [join], e3]
      rfl)]
    have e4 := isValidColor_parts (dec (if bg then 48 else 38)) (dec 2) [dec r, dec g, dec b] (by simp [hns])
    have hbuf : [] ++ dec (if bg then 48 else 38) ++ [';'] ++ dec 2 ++ [';'] ++ dec r ++ [';'] ++ dec g ++
        [';'] ++ dec b = codeStr [if bg then 48 else 38, 2, r, g, b] := by simp [codeStr, join]
    refine parseParts_done _ _ _ _ _ _ (readable_dec (by omega)) rfl ?_ (by rw [hbuf]; exact hc) ?_
    · rw [hbuf]; exact e4.trans rfl
    · rw [hbuf]; cases bg <;> rfl

end Slate
