import Verif.Lemmas.Color
import Verif.Model.Repr
import Verif.Spec.PyValue

/-!
# C89: `repr` can be read back
-/

namespace Slate
open Py PyExpr

/-! ## Tokens of a string -/

theorem hexVal_lower : ∀ d < 16, hexVal (hexLower d) = some d := by decide +kernel

theorem run_hex (q : Char) (v : List Char) (out : List Tok) (k n acc : Nat)
    (h : (acc * 16 ^ (k + 1) + n % 16 ^ (k + 1)).isValidChar) :
    (hexN (k + 1) n).foldl step { mode := .hex q v (k + 1) acc, out := out } =
      { mode := .str q (v ++ [Char.ofNat (acc * 16 ^ (k + 1) + n % 16 ^ (k + 1))]), out := out } := by
  induction k generalizing acc with
  | zero =>
    have hd := hexVal_lower (n / 16 ^ 0 % 16) (Nat.mod_lt _ (by omega))
    simp only [hexN, List.foldl_cons, List.foldl_nil, step, hd]
    simp only [Nat.pow_zero, Nat.div_one] at *
    simp only [Nat.zero_add, Nat.pow_one] at h
    simp [h]
  | succ k ih =>
    have hd := hexVal_lower (n / 16 ^ (k + 1) % 16) (Nat.mod_lt _ (by omega))
    have e : (acc * 16 + n / 16 ^ (k + 1) % 16) * 16 ^ (k + 1) + n % 16 ^ (k + 1) =
        acc * 16 ^ (k + 1 + 1) + n % 16 ^ (k + 1 + 1) := by
      have h1 : n % 16 ^ (k + 1 + 1) = n / 16 ^ (k + 1) % 16 * 16 ^ (k + 1) + n % 16 ^ (k + 1) := by
        rw [Nat.pow_succ 16 (k + 1), Nat.mod_mul]
        ring
      rw [h1]; ring
    rw [hexN, List.foldl_cons]
    have hs : step { mode := .hex q v (k + 1 + 1) acc, out := out } (hexLower (n / 16 ^ (k + 1) % 16)) =
        { mode := .hex q v (k + 1) (acc * 16 + n / 16 ^ (k + 1) % 16), out := out } := by
      simp [step, hd]
    rw [hs, ih _ (by rw [e]; exact h), e]

theorem run_hex_char (q : Char) (v : List Char) (out : List Tok) (k : Nat) (c : Char)
    (h : c.toNat < 16 ^ (k + 1)) :
    (hexN (k + 1) c.toNat).foldl step { mode := .hex q v (k + 1) 0, out := out } =
      { mode := .str q (v ++ [c]), out := out } := by
  have e : 0 * 16 ^ (k + 1) + c.toNat % 16 ^ (k + 1) = c.toNat := by
    rw [Nat.mod_eq_of_lt h]; omega
  rw [run_hex q v out k c.toNat 0 (by rw [e]; exact c.valid), e, Char.ofNat_toNat]

theorem run_reprChar (pr : Char → Bool) (q : Char) (hq : q = '\'' ∨ q = '"') (v : List Char)
    (out : List Tok) (c : Char) :
    (reprChar pr q c).foldl step { mode := .str q v, out := out } =
      { mode := .str q (v ++ [c]), out := out } := by
  have hbs : ('\\' : Char) ≠ q := by rcases hq with rfl | rfl <;> decide
  have hplain : c ≠ q → c ≠ '\\' → c ≠ '\n' → c ≠ '\r' →
      [c].foldl step { mode := .str q v, out := out } = { mode := .str q (v ++ [c]), out := out } := by
    intro h1 h2 h3 h4
    simp [step, h1, h2, h3, h4]
  unfold reprChar
  split
  · rename_i h
    simp only [List.foldl_cons, List.foldl_nil, step, hbs, if_false, if_true]
    congr 1
    unfold escape
    rw [if_pos]
    rcases h with rfl | rfl
    · rcases hq with rfl | rfl <;> simp
    · simp
  rename_i h0
  rw [not_or] at h0
  split
  · rename_i h; subst h; simp [step, hbs, escape]
  split
  · rename_i h; subst h; simp [step, hbs, escape]
  split
  · rename_i h; subst h; simp [step, hbs, escape]
  rename_i h1 h2 h3
  have hx : ∀ (l : List Char), (['\\', 'x'] ++ l).foldl step { mode := .str q v, out := out } =
      l.foldl step { mode := .hex q v 2 0, out := out } := by
    intro l; simp [step, hbs, escape]
  have hu : ∀ (l : List Char), (['\\', 'u'] ++ l).foldl step { mode := .str q v, out := out } =
      l.foldl step { mode := .hex q v 4 0, out := out } := by
    intro l; simp [step, hbs, escape]
  have hU : ∀ (l : List Char), (['\\', 'U'] ++ l).foldl step { mode := .str q v, out := out } =
      l.foldl step { mode := .hex q v 8 0, out := out } := by
    intro l; simp [step, hbs, escape]
  split
  · rename_i h
    rw [hx]; exact run_hex_char q v out 1 c (by rcases h with h | h <;> omega)
  split
  · exact hplain h0.1 h0.2 h2 h3
  split
  · exact hplain h0.1 h0.2 h2 h3
  split
  · rename_i h; rw [hx]; exact run_hex_char q v out 1 c (by omega)
  split
  · rename_i h; rw [hu]; exact run_hex_char q v out 3 c (by omega)
  · rw [hU]
    refine run_hex_char q v out 7 c ?_
    have := c.valid
    have h2 : c.toNat < 0x110000 := by
      rcases this with h | h
      · exact Nat.lt_trans h (by decide)
      · exact h.2
    exact Nat.lt_trans h2 (by decide)

/-- The text `cs` is read as the tokens `ts`, whatever comes before and after. -/
def TokReads (cs : List Char) (ts : List Tok) : Prop :=
  ∀ out rest, (cs ++ rest).foldl step { mode := .start, out := out } =
    rest.foldl step { mode := .start, out := out ++ ts }

/-- The same if a comma or a closing bracket comes after. -/
def TokReadsTo (cs : List Char) (ts : List Tok) : Prop :=
  ∀ out c rest, c = ',' ∨ c = ')' → (cs ++ c :: rest).foldl step { mode := .start, out := out } =
    (c :: rest).foldl step { mode := .start, out := out ++ ts }

theorem TokReads.append {a b : List Char} {ta tb : List Tok} (ha : TokReads a ta) (hb : TokReads b tb) :
    TokReads (a ++ b) (ta ++ tb) := by
  intro out rest
  rw [List.append_assoc, ha, hb, List.append_assoc]

theorem TokReads.to {a : List Char} {ta : List Tok} (ha : TokReads a ta) : TokReadsTo a ta :=
  fun out c rest _ => ha out (c :: rest)

theorem TokReads.appendTo {a b : List Char} {ta tb : List Tok} (ha : TokReads a ta) (hb : TokReadsTo b tb) :
    TokReadsTo (a ++ b) (ta ++ tb) := by
  intro out c rest hc
  rw [List.append_assoc, ha, hb _ _ _ hc, List.append_assoc]

theorem TokReadsTo.close {a : List Char} {ta : List Tok} (c : Char) (hc : c = ',' ∨ c = ')')
    (ha : TokReadsTo a ta) : TokReads (a ++ [c]) (ta ++ [.punct c]) := by
  intro out rest
  rw [List.append_assoc, List.singleton_append, ha _ _ _ hc, List.foldl_cons, ← List.append_assoc]
  rcases hc with rfl | rfl <;> rfl

theorem reads_nil : TokReads [] [] := by intro out rest; simp

theorem reads_reprOf (pr : Char → Bool) (s : List Char) : TokReads (reprOf pr s) [.str s] := by
  have hq : reprQuote s = '\'' ∨ reprQuote s = '"' := by
    unfold reprQuote; split <;> simp
  generalize hqq : reprQuote s = q at hq
  intro out rest
  have hrun : ∀ (l v : List Char), (l.flatMap (reprChar pr q)).foldl step { mode := .str q v, out := out } =
      { mode := .str q (v ++ l), out := out } := by
    intro l
    induction l with
    | nil => simp
    | cons c l ih =>
      intro v
      rw [List.flatMap_cons, List.foldl_append, run_reprChar pr q hq, ih]
      simp
  simp only [reprOf, hqq, List.append_assoc, List.foldl_append, hrun, List.foldl_cons, List.foldl_nil]
  have h1 : step { mode := .start, out := out } q = { mode := .str q [], out := out } := by
    rcases hq with rfl | rfl <;> rfl
  rw [h1, hrun]
  simp [step]

/-- A literal followed by a token that ends it. -/
theorem reads_name {n : List Char} {c : Char} {l : List Char} (hn : n = c :: l) (hc : isNameStart c = true)
    (hq : c ≠ ' ' ∧ c ≠ '\'' ∧ c ≠ '"') (hl : l.all isNameChar = true) (p : Char)
    (hp : p = '(' ∨ p = ')' ∨ p = ',' ∨ p = '=') : TokReads (n ++ [p]) [.name n, .punct p] := by
  subst hn
  intro out rest
  have hrun : ∀ (l : List Char), l.all isNameChar = true → ∀ v, l.foldl step { mode := .name v, out := out } =
      { mode := .name (v ++ l), out := out } := by
    intro l
    induction l with
    | nil => simp
    | cons d l ih =>
      intro hl v
      simp only [List.all_cons, Bool.and_eq_true] at hl
      rw [List.foldl_cons, show step { mode := .name v, out := out } d =
        { mode := .name (v ++ [d]), out := out } by simp [step, hl.1], ih hl.2]
      simp
  simp only [List.cons_append, List.append_assoc, List.foldl_cons, List.foldl_append]
  rw [show step { mode := .start, out := out } c = { mode := .name [c], out := out } by
    simp [step, begin, hq, hc], hrun l hl]
  rcases hp with rfl | rfl | rfl | rfl <;> simp [step, begin, isNameChar, isNameStart, isDecimal]

theorem readsTo_num {n : List Char} {c : Char} {l : List Char} (hn : n = c :: l) (hc : isDecimal c = true)
    (hl : l.all isNumChar = true) : TokReadsTo n [.num n] := by
  subst hn
  intro out p rest hp
  have hrun : ∀ (l : List Char), l.all isNumChar = true → ∀ v, l.foldl step { mode := .num v, out := out } =
      { mode := .num (v ++ l), out := out } := by
    intro l
    induction l with
    | nil => simp
    | cons d l ih =>
      intro hl v
      simp only [List.all_cons, Bool.and_eq_true] at hl
      rw [List.foldl_cons, show step { mode := .num v, out := out } d =
        { mode := .num (v ++ [d]), out := out } by simp [step, hl.1], ih hl.2]
      simp
  have hc' : 48 ≤ c.toNat ∧ c.toNat ≤ 57 := by
    simpa [isDecimal] using hc
  have hne : ∀ d : Char, ¬ (48 ≤ d.toNat ∧ d.toNat ≤ 57) → c ≠ d := by
    rintro d hd rfl; exact hd hc'
  have hns : isNameStart c = false := by
    have h1 := hne '_' (by decide)
    simp only [isNameStart, Bool.or_eq_false_iff, Bool.and_eq_false_iff, decide_eq_false_iff_not, beq_eq_false_iff_ne]
    exact ⟨⟨.inl (by omega), .inl (by omega)⟩, h1⟩
  simp only [List.cons_append, List.foldl_cons, List.foldl_append]
  rw [show step { mode := .start, out := out } c = { mode := .num [c], out := out } by
    simp [step, begin, hne ' ' (by decide), hne '\'' (by decide), hne '"' (by decide), hns, hc], hrun l hl]
  rcases hp with rfl | rfl <;> simp [step, begin, isNumChar, isNameStart, isDecimal]

theorem readsTo_dec (n : Nat) : TokReadsTo (dec n) [.num (dec n)] := by
  obtain ⟨c, l, h⟩ := List.exists_cons_of_ne_nil (dec_ne_nil n)
  have hall := dec_all n
  rw [h] at hall
  simp only [List.all_cons, Bool.and_eq_true] at hall
  refine readsTo_num h hall.1 ?_
  rw [List.all_eq_true] at hall ⊢
  intro d hd
  have := hall.2 d hd
  simp only [isNumChar, Bool.or_eq_true]
  exact .inl (.inl (.inl (.inl this)))

/-! ## Colours -/

/-- What is known about the text of a float: it is a numeric literal of that value. -/
structure FloatText (fmt : Rat → Str) (val : List Char → Option Rat) (a : Rat) : Prop where
  shape : ∃ c l, fmt a = c :: l ∧ isDecimal c = true ∧ l.all isNumChar = true
  value : val (fmt a) = some a

/-- The tokens of a colour. -/
def colorToks (fmt : Rat → Str) (c : Color) : List Tok :=
  [.name "Color".toList, .punct '(', .name "rgb".toList, .punct '=', .punct '(', .num (dec c.r), .punct ',',
    .num (dec c.g), .punct ',', .num (dec c.b), .punct ')'] ++
  (if c.alpha ≠ 1 then [.punct ',', .name "alpha".toList, .punct '=', .num (fmt c.alpha)] else []) ++
  [.punct ')']

theorem reads_space : TokReads [' '] [] := by intro out rest; simp [step, begin]

theorem reads_close : TokReads [')'] [.punct ')'] := by
  intro out rest; simp [step, begin, isNameStart, isDecimal]

theorem reads_comma : TokReads [','] [.punct ','] := by
  intro out rest; simp [step, begin, isNameStart, isDecimal]

theorem reads_kw (k : List Char) (c : Char) (l : List Char) (hk : k = c :: l) (hc : isNameStart c = true)
    (hl : l.all isNameChar = true) (hq : c ≠ ' ' ∧ c ≠ '\'' ∧ c ≠ '"') :
    TokReads (", ".toList ++ (k ++ ['='])) [.punct ',', .name k, .punct '='] := by
  have := (reads_comma.append reads_space).append
    (reads_name hk hc hq hl '=' (by simp))
  simpa using this

theorem reads_color (fmt : Rat → Str) (val : List Char → Option Rat) (c : Color)
    (hf : c.alpha ≠ 1 → FloatText fmt val c.alpha) : TokReads (c.repr fmt) (colorToks fmt c) := by
  have h1 : TokReads "Color(rgb=(".toList
      [.name "Color".toList, .punct '(', .name "rgb".toList, .punct '=', .punct '('] := by
    intro out rest
    simp [step, begin, isNameStart, isDecimal, isNameChar]
  have h2 := ((readsTo_dec c.r).close ',' (by simp)).append (reads_space.append
    (((readsTo_dec c.g).close ',' (by simp)).append (reads_space.append
      ((readsTo_dec c.b).close ')' (by simp)))))
  have h3 := h1.append h2
  unfold Color.repr colorToks
  by_cases ha : c.alpha = 1
  · simp only [ha, ne_eq, not_true, if_false]
    have := h3.append reads_close
    simpa using this
  · simp only [ha, ne_eq, not_false_eq_true, if_true]
    obtain ⟨⟨d, l, e1, e2, e3⟩, -⟩ := hf ha
    have h4 := reads_kw "alpha".toList 'a' "lpha".toList rfl (by decide) (by decide) (by decide)
    have h5 := h3.append (h4.append ((readsTo_num e1 e2 e3).close ')' (by simp)))
    simpa using h5

/-- The expression of a colour. -/
def colorExpr (fmt : Rat → Str) (c : Color) : Expr :=
  .call "Color".toList ((some "rgb".toList, .tuple [.num (dec c.r), .num (dec c.g), .num (dec c.b)]) ::
    (if c.alpha ≠ 1 then [(some "alpha".toList, .num (fmt c.alpha))] else []))

theorem parse_color (fmt : Rat → Str) (c : Color) (fn : Option (List Char))
    (done : List (Option (List Char) × Expr)) (key : Option (List Char)) (rest : List Frame) :
    (colorToks fmt c).foldlM Parse.step ⟨⟨fn, done, key, none⟩, rest⟩ =
      some ⟨⟨fn, done, key, some (colorExpr fmt c)⟩, rest⟩ := by
  unfold colorToks colorExpr
  by_cases ha : c.alpha = 1
  · simp only [ha, ne_eq, not_true, if_false]; rfl
  · simp only [ha, ne_eq, not_false_eq_true, if_true]; rfl

/-- A colour with these channels and this opacity, otherwise as by default. -/
def Color.plain (c : Color) : Color := { r := c.r, g := c.g, b := c.b, alpha := c.alpha }

theorem natOf_dec (n : Nat) : natOf (.num (dec n)) = some n := by
  have h1 : (dec n).all isDecimal = true := dec_all n
  have h2 : (dec n).foldl (fun n c => n * 10 + (c.toNat - 48)) 0 = n := dec_val n
  simp only [natOf, dec_ne_nil, ne_eq, not_false_eq_true, h1, and_self, if_true, h2]

theorem colorKw_rgb (val : List Char → Option Rat) (T : Expr) (r g b : Nat)
    (hT : rgbOf T = some (r, g, b)) (hv : ¬ (256 ≤ r ∨ 256 ≤ g ∨ 256 ≤ b)) :
    colorKw val [("rgb".toList, T)] = some { r := r, g := g, b := b } := by
  have h1 : (([("rgb".toList, T)] : List (List Char × Expr)).lookup "rgb".toList).bind rgbOf = some (r, g, b) := by
    rw [← hT]; rfl
  have h2 : (([("rgb".toList, T)] : List (List Char × Expr)).lookup "is_background".toList) = none := rfl
  have h3 : (([("rgb".toList, T)] : List (List Char × Expr)).lookup "alpha".toList) = none := rfl
  unfold colorKw
  rw [if_neg (by simp), h1, h2, h3]
  simp only [Option.map_none, Option.getD_none]
  rw [if_neg hv]

theorem colorKw_alpha (val : List Char → Option Rat) (T A : Expr) (r g b : Nat) (a : Rat)
    (hT : rgbOf T = some (r, g, b)) (hA : ratOf val A = some a) (hv : ¬ (256 ≤ r ∨ 256 ≤ g ∨ 256 ≤ b)) :
    colorKw val [("rgb".toList, T), ("alpha".toList, A)] = some { r := r, g := g, b := b, alpha := a } := by
  have h1 : (([("rgb".toList, T), ("alpha".toList, A)] : List (List Char × Expr)).lookup "rgb".toList).bind rgbOf =
      some (r, g, b) := by
    rw [← hT]; rfl
  have h2 : (([("rgb".toList, T), ("alpha".toList, A)] : List (List Char × Expr)).lookup "is_background".toList) =
    none := rfl
  have h3 : (([("rgb".toList, T), ("alpha".toList, A)] : List (List Char × Expr)).lookup "alpha".toList) =
    some A := rfl
  unfold colorKw
  rw [if_neg (by simp), h1, h2, h3]
  simp only [Option.map_none, Option.getD_none, Option.map_some, Option.getD_some, hA]
  rw [if_neg hv]

theorem colorOf_call (val : List Char → Option Rat) (args : List (Option (List Char) × Expr)) :
    colorOf val (.call "Color".toList args) = (keywords args).bind (colorKw val) := by
  simp only [colorOf, if_true]

theorem colorOf_expr (fmt : Rat → Str) (val : List Char → Option Rat) (c : Color) (hc : c.Valid)
    (hf : c.alpha ≠ 1 → FloatText fmt val c.alpha) : colorOf val (colorExpr fmt c) = some c.plain := by
  obtain ⟨h1, h2, h3⟩ := hc
  have hv : ¬ (256 ≤ c.r ∨ 256 ≤ c.g ∨ 256 ≤ c.b) := by omega
  unfold colorExpr
  have hT : rgbOf (.tuple [.num (dec c.r), .num (dec c.g), .num (dec c.b)]) = some (c.r, c.g, c.b) := by
    simp only [rgbOf, natOf_dec]; rfl
  revert hT
  generalize Expr.tuple [.num (dec c.r), .num (dec c.g), .num (dec c.b)] = T
  intro hT
  rw [colorOf_call]
  by_cases ha : c.alpha = 1
  · simp only [ha, ne_eq, not_true, if_false]
    rw [show keywords [(some "rgb".toList, T)] = some [("rgb".toList, T)] from rfl, Option.bind_some,
      colorKw_rgb val T _ _ _ hT hv]
    simp [Color.plain, ha]
  · have hA : ratOf val (.num (fmt c.alpha)) = some c.alpha := (hf ha).value
    simp only [ha, ne_eq, not_false_eq_true, if_true]
    revert hA
    generalize Expr.num (fmt c.alpha) = A
    intro hA
    rw [show keywords [(some "rgb".toList, T), (some "alpha".toList, A)] =
      some [("rgb".toList, T), ("alpha".toList, A)] from rfl, Option.bind_some,
      colorKw_alpha val T A _ _ _ _ hT hA hv]
    rfl

theorem tokens_of_reads {cs : List Char} {ts : List Tok} (h : TokReads cs ts) : tokens cs = some ts := by
  have := h [] []
  simp only [List.append_nil, List.nil_append, List.foldl_nil] at this
  unfold tokens
  have e : ({} : State) = { mode := .start, out := [] } := rfl
  rw [e, this]

/-! ## Spans -/

/-- A keyword argument: its text, tokens and expression. -/
structure ReprArg where
  key : List Char
  text : List Char
  toks : List Tok
  expr : Expr

/-- An argument that is read as it should be. -/
structure ReprArg.Ok (i : ReprArg) : Prop where
  keyShape : ∃ c l, i.key = c :: l ∧ isNameStart c = true ∧ l.all isNameChar = true ∧
    (c ≠ ' ' ∧ c ≠ '\'' ∧ c ≠ '"')
  reads : TokReadsTo i.text i.toks
  parses : ∀ fn done key rest, i.toks.foldlM Parse.step ⟨⟨fn, done, key, none⟩, rest⟩ =
    some ⟨⟨fn, done, key, some i.expr⟩, rest⟩

/-- The text of an argument after others. -/
def ReprArg.full (i : ReprArg) : List Char := ", ".toList ++ (i.key ++ ['=']) ++ i.text

/-- Its tokens. -/
def ReprArg.fullToks (i : ReprArg) : List Tok := [.punct ',', .name i.key, .punct '='] ++ i.toks

theorem ReprArg.Ok.readsFull {i : ReprArg} (h : i.Ok) : TokReadsTo i.full i.fullToks := by
  obtain ⟨c, l, e1, e2, e3, e4⟩ := h.keyShape
  exact (reads_kw i.key c l e1 e2 e3 e4).appendTo h.reads

theorem reads_items (items : List ReprArg) (h : ∀ i ∈ items, i.Ok) :
    ∀ out c rest, c = ',' ∨ c = ')' →
      (items.flatMap ReprArg.full ++ c :: rest).foldl step { mode := .start, out := out } =
        (c :: rest).foldl step { mode := .start, out := out ++ items.flatMap ReprArg.fullToks } := by
  induction items with
  | nil => intro out c rest _; simp
  | cons i items ih =>
    intro out c rest hc
    have hi := (h i (by simp)).readsFull
    rw [List.flatMap_cons, List.append_assoc]
    have hne : ∃ d r, d = ',' ∧ items.flatMap ReprArg.full ++ c :: rest = d :: r ∨
        d = c ∧ items.flatMap ReprArg.full ++ c :: rest = d :: r := by
      cases items with
      | nil => exact ⟨c, rest, .inr ⟨rfl, rfl⟩⟩
      | cons j js =>
        exact ⟨',', ' ' :: (j.key ++ ['='] ++ j.text ++ (js.flatMap ReprArg.full ++ c :: rest)), .inl ⟨rfl, by
          simp [ReprArg.full]⟩⟩
    obtain ⟨d, r, hd⟩ := hne
    have hd2 : d = ',' ∨ d = ')' := by
      rcases hd with ⟨h, -⟩ | ⟨h, -⟩
      · exact .inl h
      · rw [h]; exact hc
    have he : items.flatMap ReprArg.full ++ c :: rest = d :: r := by
      rcases hd with ⟨-, h⟩ | ⟨-, h⟩ <;> exact h
    rw [he, hi _ _ _ hd2, ← he, ih (fun j hj => h j (by simp [hj])) _ _ _ hc]
    simp

theorem parse_items (items : List ReprArg) (h : ∀ i ∈ items, i.Ok) (fn : List Char)
    (done : List (Option (List Char) × Expr)) (key : Option (List Char)) (e : Expr)
    (rest : List Frame) (hkey : key.isSome = true ∨ done = []) :
    ∃ done' key' e', (items.flatMap ReprArg.fullToks).foldlM Parse.step ⟨⟨some fn, done, key, some e⟩, rest⟩ =
        some ⟨⟨some fn, done', key', some e'⟩, rest⟩ ∧ (key'.isSome = true ∨ done' = []) ∧
      done' ++ [(key', e')] = done ++ [(key, e)] ++ items.map fun i => (some i.key, i.expr) := by
  induction items generalizing done key e with
  | nil => exact ⟨done, key, e, rfl, hkey, by simp⟩
  | cons i items ih =>
    have hp := (h i (by simp)).parses (some fn) (done ++ [(key, e)]) (some i.key) rest
    obtain ⟨done', key', e', h1, h2, h3⟩ := ih (fun j hj => h j (by simp [hj]))
      (done ++ [(key, e)]) (some i.key) i.expr (.inl rfl)
    refine ⟨done', key', e', ?_, h2, by rw [h3]; simp⟩
    have hcond : (key.isNone && done.any fun a => a.1.isSome) = false := by
      rcases hkey with hk | hk
      · cases key with
        | none => cases hk
        | some k => rfl
      · rw [hk]; simp
    have hstart : [Tok.punct ',', .name i.key, .punct '='].foldlM Parse.step
        ⟨⟨some fn, done, key, some e⟩, rest⟩ = some ⟨⟨some fn, done ++ [(key, e)], some i.key, none⟩, rest⟩ := by
      have h0 : Parse.step ⟨⟨some fn, done, key, some e⟩, rest⟩ (.punct ',') =
          some ⟨⟨some fn, done ++ [(key, e)], none, none⟩, rest⟩ := by
        simp [Parse.step, Frame.push, hcond]
      simp only [List.foldlM_cons, h0, Option.bind_eq_bind, Option.bind_some]
      rfl
    rw [List.flatMap_cons, List.foldlM_append, ReprArg.fullToks, List.foldlM_append, hstart]
    simp only [Option.bind_eq_bind, Option.bind_some]
    rw [hp]
    exact h1

/-- A style that is set. -/
def boolItem (k : List Char) : ReprArg :=
  { key := k, text := "True".toList, toks := [.name "True".toList], expr := .name "True".toList }

theorem boolItem_ok (k : List Char) (h : ∃ c l, k = c :: l ∧ isNameStart c = true ∧ l.all isNameChar = true ∧
    (c ≠ ' ' ∧ c ≠ '\'' ∧ c ≠ '"')) : (boolItem k).Ok where
  keyShape := h
  reads := by
    intro out c rest hc
    rcases hc with rfl | rfl <;> simp [boolItem, step, begin, isNameStart, isNameChar, isDecimal]
  parses := by intros; rfl

def colorItem (fmt : Rat → Str) (k : List Char) (c : Color) : ReprArg :=
  { key := k, text := c.repr fmt, toks := colorToks fmt c, expr := colorExpr fmt c }

theorem colorItem_ok (fmt : Rat → Str) (val : List Char → Option Rat) (k : List Char) (c : Color)
    (h : ∃ c l, k = c :: l ∧ isNameStart c = true ∧ l.all isNameChar = true ∧
      (c ≠ ' ' ∧ c ≠ '\'' ∧ c ≠ '"'))
    (hf : c.alpha ≠ 1 → FloatText fmt val c.alpha) : (colorItem fmt k c).Ok where
  keyShape := h
  reads := (reads_color fmt val c hf).to
  parses := fun fn done key rest => parse_color fmt c fn done key rest

def strItem (pr : Char → Bool) (k : List Char) (v : List Char) : ReprArg :=
  { key := k, text := reprOf pr v, toks := [.str v], expr := .str v }

theorem strItem_ok (pr : Char → Bool) (k v : List Char) (h : ∃ c l, k = c :: l ∧ isNameStart c = true ∧ l.all isNameChar = true ∧
      (c ≠ ' ' ∧ c ≠ '\'' ∧ c ≠ '"')) : (strItem pr k v).Ok where
  keyShape := h
  reads := (reads_reprOf pr v).to
  parses := by intros; rfl

/-- The keyword arguments of a span. -/
def spanItems (pr : Char → Bool) (fmt : Rat → Str) (s : Span) : List ReprArg :=
  s.truthyFields.map boolItem ++ (s.fg.toList.map (colorItem fmt "foreground".toList)) ++
    (s.bg.toList.map (colorItem fmt "background".toList)) ++
    (if s.hyperlink ≠ [] then [strItem pr "hyperlink".toList s.hyperlink] else [])

theorem join_items (l : List Str) (h : l ≠ []) :
    ", ".toList ++ join ", ".toList (l.map fun n => n ++ "=True".toList) =
      (l.map boolItem).flatMap ReprArg.full := by
  induction l with
  | nil => exact absurd rfl h
  | cons a l ih =>
    cases l with
    | nil => simp [join, ReprArg.full, boolItem]
    | cons b l =>
      have := ih (by simp)
      simp only [List.map_cons, join] at this ⊢
      rw [List.flatMap_cons, ← this]
      simp [ReprArg.full, boolItem]

theorem truthy_reset (s : Span) (h : s.resetAfter = true) : s.truthyFields ≠ [] := by
  intro he
  have : "reset_after".toList ∈ s.truthyFields := by
    simp [Span.truthyFields, h]
  rw [he] at this; simp at this

/-- The `repr` of a span with a flag that is set is a call with these arguments. -/
theorem repr_items (pr : Char → Bool) (fmt : Rat → Str) (s : Span) (hne : s.truthyFields ≠ []) :
    s.repr pr fmt = "Span(".toList ++ reprOf pr s.text ++ (spanItems pr fmt s).flatMap ReprArg.full ++ [')'] := by
  have hj := join_items s.truthyFields hne
  unfold Span.repr spanItems
  simp only [List.flatMap_append, ← hj]
  cases s.fg <;> cases s.bg <;> by_cases hl : s.hyperlink = [] <;>
    simp [hl, ReprArg.full, colorItem, strItem]

theorem truthy_shape {s : Span} {k : List Char} (hk : k ∈ s.truthyFields) :
    ∃ c l, k = c :: l ∧ isNameStart c = true ∧ l.all isNameChar = true ∧
      (c ≠ ' ' ∧ c ≠ '\'' ∧ c ≠ '"') := by
  have hm : k ∈ ["bold".toList, "dim".toList, "italic".toList, "underline".toList, "blink".toList,
      "fast_blink".toList, "invert".toList, "conceal".toList, "strike".toList, "opaque".toList,
      "reset_after".toList] := by
    simp only [Span.truthyFields, List.mem_map, List.mem_filter] at hk
    obtain ⟨a, ⟨h1, -⟩, rfl⟩ := hk
    simp only [List.mem_cons, List.not_mem_nil, or_false] at h1
    rcases h1 with rfl | rfl | rfl | rfl | rfl | rfl | rfl | rfl | rfl | rfl | rfl <;> (dsimp only; decide)
  simp only [List.mem_cons, List.not_mem_nil, or_false] at hm
  rcases hm with rfl | rfl | rfl | rfl | rfl | rfl | rfl | rfl | rfl | rfl | rfl <;>
    exact ⟨_, _, rfl, by decide, by decide, by decide⟩

/-- What is known about the texts of the opacities of a span. -/
def AlphaTexts (fmt : Rat → Str) (val : List Char → Option Rat) (s : Span) : Prop :=
  ∀ c, s.fg = some c ∨ s.bg = some c → c.alpha ≠ 1 → FloatText fmt val c.alpha

theorem spanItems_ok (pr : Char → Bool) (fmt : Rat → Str) (val : List Char → Option Rat) (s : Span)
    (hf : AlphaTexts fmt val s) : ∀ i ∈ spanItems pr fmt s, i.Ok := by
  intro i hi
  simp only [spanItems, List.mem_append, List.mem_map, Option.mem_toList] at hi
  rcases hi with ((⟨k, hk, rfl⟩ | ⟨c, hc, rfl⟩) | ⟨c, hc, rfl⟩) | hi
  · exact boolItem_ok k (truthy_shape hk)
  · exact colorItem_ok fmt val _ c ⟨_, _, rfl, by decide, by decide, by decide⟩ (hf c (.inl hc))
  · exact colorItem_ok fmt val _ c ⟨_, _, rfl, by decide, by decide, by decide⟩ (hf c (.inr hc))
  · split at hi
    · simp only [List.mem_singleton] at hi
      subst hi
      exact strItem_ok pr _ _ ⟨_, _, rfl, by decide, by decide, by decide⟩
    · simp at hi

/-- The expression of a span. -/
def spanExpr (pr : Char → Bool) (fmt : Rat → Str) (s : Span) : Expr :=
  .call "Span".toList ((none, .str s.text) :: (spanItems pr fmt s).map fun i => (some i.key, i.expr))

theorem read_span (pr : Char → Bool) (fmt : Rat → Str) (val : List Char → Option Rat) (s : Span)
    (h : s.truthyFields ≠ []) (hf : AlphaTexts fmt val s) :
    PyExpr.read (s.repr pr fmt) = some (spanExpr pr fmt s) := by
  have hok := spanItems_ok pr fmt val s hf
  have h1 : TokReads "Span(".toList [.name "Span".toList, .punct '('] := by
    intro out rest
    simp [step, begin, isNameStart, isDecimal, isNameChar]
  have hr : TokReads (s.repr pr fmt) ([.name "Span".toList, .punct '('] ++ [.str s.text] ++
      (spanItems pr fmt s).flatMap ReprArg.fullToks ++ [.punct ')']) := by
    rw [repr_items pr fmt s h]
    exact (((h1.append (reads_reprOf pr s.text)).appendTo
      (fun out c rest hc => reads_items _ hok out c rest hc)).close ')' (by simp))
  unfold PyExpr.read
  rw [tokens_of_reads hr, Option.bind_some]
  unfold parse
  obtain ⟨done', key', e', p1, p2, p3⟩ := parse_items (spanItems pr fmt s) hok "Span".toList [] none
    (.str s.text) [⟨none, [], none, none⟩] (.inr rfl)
  have p0 : ([Tok.name "Span".toList, .punct '('] ++ [Tok.str s.text]).foldlM Parse.step
      ({ top := { fn := none } } : Parse) = some ⟨⟨some "Span".toList, [], none, some (.str s.text)⟩,
        [⟨none, [], none, none⟩]⟩ := rfl
  rw [List.foldlM_append, List.foldlM_append, p0]
  simp only [Option.bind_eq_bind, Option.bind_some, p1]
  have hcond : (key'.isNone && done'.any fun a => a.1.isSome) = false := by
    rcases p2 with hk | hk
    · cases key' with
      | none => cases hk
      | some k => rfl
    · rw [hk]; simp
  have hlast : [Tok.punct ')'].foldlM Parse.step (⟨⟨some "Span".toList, done', key', some e'⟩,
      [⟨none, [], none, none⟩]⟩ : Parse) =
      some ⟨⟨none, [], none, some (.call "Span".toList (done' ++ [(key', e')]))⟩, []⟩ := by
    simp [Parse.step, Frame.close, Frame.push, hcond, Parse.value]
  rw [hlast, p3]
  rfl

/-! ## Evaluating the arguments -/

theorem keywords_items (items : List ReprArg) (h : (items.map ReprArg.key).Nodup) :
    keywords (items.map fun i => (some i.key, i.expr)) = some (items.map fun i => (i.key, i.expr)) := by
  have hm : (items.map fun i => (some i.key, i.expr)).mapM
      (fun a : Option (List Char) × Expr => a.1.map fun k => (k, a.2)) =
      some (items.map fun i => (i.key, i.expr)) := by
    induction items with
    | nil => rfl
    | cons i items ih =>
      have := ih (List.nodup_cons.mp h).2
      simp only [List.map_cons, List.mapM_cons, this, Option.map_some]
      rfl
  unfold keywords
  rw [hm]
  simp only [Option.bind_eq_bind, Option.bind_some]
  rw [if_pos]
  simpa [Function.comp_def] using h

theorem truthy_eq (s : Span) : s.truthyFields =
    (if s.style.bold then ["bold".toList] else []) ++ (if s.style.dim then ["dim".toList] else []) ++
    (if s.style.italic then ["italic".toList] else []) ++ (if s.style.underline then ["underline".toList] else []) ++
    (if s.style.blink then ["blink".toList] else []) ++ (if s.style.fastBlink then ["fast_blink".toList] else []) ++
    (if s.style.invert then ["invert".toList] else []) ++ (if s.style.conceal then ["conceal".toList] else []) ++
    (if s.style.strike then ["strike".toList] else []) ++ (if s.style.isOpaque then ["opaque".toList] else []) ++
    (if s.resetAfter then ["reset_after".toList] else []) := by
  have hf : ∀ (b : Bool) (n : Str) (l : List (Bool × Str)),
      (((b, n) :: l).filter (·.1)).map (·.2) = (if b then [n] else []) ++ (l.filter (·.1)).map (·.2) := by
    intro b n l; cases b <;> rfl
  unfold Span.truthyFields
  simp only [hf, List.filter_nil, List.map_nil, List.append_nil, List.append_assoc]

theorem spanItems_nodup (pr : Char → Bool) (fmt : Rat → Str) (s : Span) :
    ((spanItems pr fmt s).map ReprArg.key).Nodup := by
  have hsub : ((spanItems pr fmt s).map ReprArg.key).Sublist (["bold".toList, "dim".toList, "italic".toList,
      "underline".toList, "blink".toList, "fast_blink".toList, "invert".toList, "conceal".toList,
      "strike".toList, "opaque".toList, "reset_after".toList] ++ ["foreground".toList] ++
      ["background".toList] ++ ["hyperlink".toList]) := by
    unfold spanItems
    simp only [List.map_append]
    refine List.Sublist.append (List.Sublist.append (List.Sublist.append ?_ ?_) ?_) ?_
    · have : (s.truthyFields.map boolItem).map ReprArg.key = s.truthyFields := by
        rw [List.map_map]; exact List.map_id _
      rw [this]
      have e : (["bold".toList, "dim".toList, "italic".toList,
          "underline".toList, "blink".toList, "fast_blink".toList, "invert".toList, "conceal".toList,
          "strike".toList, "opaque".toList, "reset_after".toList] : List Str) =
        [(s.style.bold, "bold".toList), (s.style.dim, "dim".toList), (s.style.italic, "italic".toList),
        (s.style.underline, "underline".toList), (s.style.blink, "blink".toList),
        (s.style.fastBlink, "fast_blink".toList), (s.style.invert, "invert".toList),
        (s.style.conceal, "conceal".toList), (s.style.strike, "strike".toList),
        (s.style.isOpaque, "opaque".toList), (s.resetAfter, "reset_after".toList)].map (·.2) := rfl
      rw [e]
      exact (List.filter_sublist).map _
    · cases s.fg <;> simp [colorItem]
    · cases s.bg <;> simp [colorItem]
    · split <;> simp [strItem]
  exact hsub.nodup (by decide)

theorem spanOf_expr (pr : Char → Bool) (fmt : Rat → Str) (val : List Char → Option Rat) (s : Span)
    (hf : AlphaTexts fmt val s) (hv : ∀ c, s.fg = some c ∨ s.bg = some c → c.Valid) :
    spanOf val (spanExpr pr fmt s) =
      some { s with fg := s.fg.map Color.plain, bg := s.bg.map Color.plain, resetAfter := true } := by
  have hstep : ∀ (b : Bool) (k : Str) (l : List (List Char × Expr)) (g : Bool → Span),
      setField val (g false) (k, .name "True".toList) = some (g true) →
      ((if b then [(k, Expr.name "True".toList)] else []) ++ l).foldlM (setField val) (g false) =
        l.foldlM (setField val) (g b) := by
    intro b k l g ht
    cases b with
    | false => rfl
    | true =>
      rw [if_pos rfl, List.singleton_append, List.foldlM_cons, ht]
      rfl
  unfold spanExpr spanOf
  simp only [if_true, keywords_items _ (spanItems_nodup pr fmt s), Option.bind_some]
  unfold spanItems
  have hb : ∀ (b : Bool) (k : Str), (if b then [k] else []).map (fun k => ((boolItem k).key, (boolItem k).expr)) =
      if b then [(k, Expr.name "True".toList)] else [] := by
    intro b k; cases b <;> rfl
  simp only [truthy_eq, List.map_append, List.map_map, Function.comp_def]
  simp only [hb, List.append_assoc]
  obtain ⟨text, fg, bg, link, ⟨b1, b2, b3, b4, b5, b6, b7, b8, b9, b10⟩, ra⟩ := s
  simp only at hf hv ⊢
  have e0 : ({ text := text } : Span) = { text := text, style := { bold := false } } := rfl
  rw [e0, hstep b1 "bold".toList _ (fun b => { text := text, style := { bold := b } }) rfl,
    hstep b2 "dim".toList _ (fun b => { text := text, style := { bold := b1, dim := b } }) rfl,
    hstep b3 "italic".toList _ (fun b => { text := text, style := { bold := b1, dim := b2, italic := b } }) rfl,
    hstep b4 "underline".toList _ (fun b => { text := text, style := { bold := b1, dim := b2, italic := b3, underline := b } }) rfl,
    hstep b5 "blink".toList _ (fun b => { text := text, style := { bold := b1, dim := b2, italic := b3, underline := b4, blink := b } }) rfl,
    hstep b6 "fast_blink".toList _ (fun b => { text := text, style := { bold := b1, dim := b2, italic := b3, underline := b4, blink := b5, fastBlink := b } }) rfl,
    hstep b7 "invert".toList _ (fun b => { text := text, style := { bold := b1, dim := b2, italic := b3, underline := b4, blink := b5, fastBlink := b6, invert := b } }) rfl,
    hstep b8 "conceal".toList _ (fun b => { text := text, style := { bold := b1, dim := b2, italic := b3, underline := b4, blink := b5, fastBlink := b6, invert := b7, conceal := b } }) rfl,
    hstep b9 "strike".toList _ (fun b => { text := text, style := { bold := b1, dim := b2, italic := b3, underline := b4, blink := b5, fastBlink := b6, invert := b7, conceal := b8, strike := b } }) rfl,
    hstep b10 "opaque".toList _ (fun b => { text := text, style := { bold := b1, dim := b2, italic := b3, underline := b4, blink := b5, fastBlink := b6, invert := b7, conceal := b8, strike := b9, isOpaque := b } }) rfl]
  have hra : ∀ (t : Span) (l : List (List Char × Expr)), t.resetAfter = true →
      ((if ra = true then [("reset_after".toList, Expr.name "True".toList)] else []) ++ l).foldlM (setField val) t =
        l.foldlM (setField val) t := by
    rintro ⟨t1, t2, t3, t4, t5, t6⟩ l ht
    simp only at ht
    subst ht
    cases ra with
    | false => rfl
    | true =>
      rw [if_pos rfl, List.singleton_append, List.foldlM_cons]
      rfl
  rw [hra _ _ rfl]
  have hcol : ∀ (k : Str) (o : Option Color) (t : Span) (l : List (List Char × Expr)) (g : Option Color → Span),
      t = g none → (∀ c, setField val t (k, colorExpr fmt c) = (colorOf val (colorExpr fmt c)).map fun c => g (some c)) →
      (∀ c, o = some c → c.Valid) → (∀ c, o = some c → c.alpha ≠ 1 → FloatText fmt val c.alpha) →
      (o.toList.map (fun c => ((colorItem fmt k c).key, (colorItem fmt k c).expr)) ++ l).foldlM (setField val) t =
        l.foldlM (setField val) (g (o.map Color.plain)) := by
    intro k o t l g ht hs hv hf
    cases o with
    | none => rw [ht]; rfl
    | some c =>
      have : setField val t (k, colorExpr fmt c) = some (g (some c.plain)) := by
        rw [hs, colorOf_expr fmt val c (hv c rfl) (hf c rfl)]; rfl
      simp only [Option.toList_some, List.map_cons, List.map_nil, List.singleton_append, List.foldlM_cons]
      simp only [colorItem]
      rw [this]
      rfl
  rw [hcol "foreground".toList fg _ _ (fun o => { text := text, fg := o, style := { bold := b1, dim := b2, italic := b3, underline := b4, blink := b5, fastBlink := b6, invert := b7, conceal := b8, strike := b9, isOpaque := b10 } }) rfl
      (fun _ => rfl) (fun c hc => hv c (.inl hc)) (fun c hc => hf c (.inl hc)),
    hcol "background".toList bg _ _ (fun o => { text := text, fg := fg.map Color.plain, bg := o, style := { bold := b1, dim := b2, italic := b3, underline := b4, blink := b5, fastBlink := b6, invert := b7, conceal := b8, strike := b9, isOpaque := b10 } }) rfl
      (fun _ => rfl) (fun c hc => hv c (.inr hc)) (fun c hc => hf c (.inr hc))]
  by_cases hl : link = []
  · subst hl
    simp
  · simp only [hl, ne_eq, not_false_eq_true, if_true]
    rfl

/-! ## C89 -/

/-- **C89** (colours): the `repr` of a colour stands for an equal colour. The background role,
which equality ignores, is lost. -/
theorem C89_color (fmt : Rat → Str) (val : List Char → Option Rat) (c : Color) (hc : c.Valid)
    (hf : c.alpha ≠ 1 → FloatText fmt val c.alpha) :
    readColor val (c.repr fmt) = some c.plain ∧ c.plain.eq c = true := by
  constructor
  · unfold readColor PyExpr.read
    rw [tokens_of_reads (reads_color fmt val c hf)]
    simp only [Option.bind_some, parse]
    rw [parse_color fmt c none [] none []]
    exact colorOf_expr fmt val c hc hf
  · simp [Color.plain, Color.eq]

/-- **C89** (strings): the `repr` of a string is a literal of that string. -/
theorem C89_string (pr : Char → Bool) (s : Str) :
    PyExpr.tokens (reprOf pr s) = some [.str s] := tokens_of_reads (reads_reprOf pr s)

/-- **C89** (partial: background colours and `reset_after=False` are lost, and some spans give a
syntax error, see below): the `repr` of a span that resets stands for the same span, with
colours of the same channels and opacity. -/
theorem C89_span_partial (pr : Char → Bool) (fmt : Rat → Str) (val : List Char → Option Rat) (s : Span)
    (h : s.resetAfter = true) (hf : AlphaTexts fmt val s)
    (hv : ∀ c, s.fg = some c ∨ s.bg = some c → c.Valid) :
    readSpan val (s.repr pr fmt) =
      some { s with fg := s.fg.map Color.plain, bg := s.bg.map Color.plain } := by
  unfold readSpan
  rw [read_span pr fmt val s (truthy_reset s h) hf, Option.bind_some, spanOf_expr pr fmt val s hf hv, ← h]

/-- No flag is set exactly if the span does not reset and has no style. -/
theorem truthy_nil (s : Span) : s.truthyFields = [] ↔ s.resetAfter = false ∧ s.style = {} := by
  obtain ⟨text, fg, bg, link, ⟨b1, b2, b3, b4, b5, b6, b7, b8, b9, b10⟩, ra⟩ := s
  rw [truthy_eq]
  simp only [List.append_eq_nil_iff, Style.mk.injEq]
  have hi : ∀ (b : Bool) (k : Str), (if b = true then [k] else []) = [] ↔ b = false := by
    intro b k; cases b <;> simp
  simp only [hi]
  tauto

/-- Without a flag that is set two commas follow each other, or one comes before the bracket. -/
theorem repr_bare (pr : Char → Bool) (fmt : Rat → Str) (s : Span) (h : s.truthyFields = []) :
    s.repr pr fmt = "Span(".toList ++ reprOf pr s.text ++ ", ".toList ++ (spanItems pr fmt s).flatMap ReprArg.full ++ [')'] := by
  unfold Span.repr spanItems
  rw [h]
  cases s.fg <;> cases s.bg <;> by_cases hl : s.hyperlink = [] <;>
    simp [hl, ReprArg.full, colorItem, strItem, join]

/-- **C89** (partial: the full claim fails): what the `repr` of any span stands for. With a flag that
is set it is the span that resets, with foreground colours of the same channels and opacity. Without
one it is a syntax error if the span has a colour or a link. -/
theorem C89_exact_partial (pr : Char → Bool) (fmt : Rat → Str) (val : List Char → Option Rat) (s : Span)
    (hf : AlphaTexts fmt val s) (hv : ∀ c, s.fg = some c ∨ s.bg = some c → c.Valid) :
    readSpan val (s.repr pr fmt) =
      if s.resetAfter = false ∧ s.style = {} ∧ (s.fg.isSome ∨ s.bg.isSome ∨ s.hyperlink ≠ []) then none
      else some { s with fg := s.fg.map Color.plain, bg := s.bg.map Color.plain, resetAfter := true } := by
  by_cases h : s.truthyFields = []
  · obtain ⟨h1, h2⟩ := (truthy_nil s).mp h
    have hok := spanItems_ok pr fmt val s hf
    have hs : TokReads "Span(".toList [.name "Span".toList, .punct '('] := by
      intro out rest
      simp [step, begin, isNameStart, isDecimal, isNameChar]
    have hc : TokReads ", ".toList [.punct ','] := by
      have := reads_comma.append reads_space
      simpa using this
    have hr : TokReads (s.repr pr fmt) ([.name "Span".toList, .punct '('] ++ [.str s.text] ++ [.punct ','] ++
        (spanItems pr fmt s).flatMap ReprArg.fullToks ++ [.punct ')']) := by
      rw [repr_bare pr fmt s h]
      exact ((((hs.append (reads_reprOf pr s.text)).append hc).appendTo
        (fun out c rest hc => reads_items _ hok out c rest hc)).close ')' (by simp))
    unfold readSpan PyExpr.read
    rw [tokens_of_reads hr, Option.bind_some]
    have p0 : ([Tok.name "Span".toList, .punct '('] ++ [Tok.str s.text] ++ [Tok.punct ',']).foldlM Parse.step
        ({ top := { fn := none } } : Parse) = some ⟨⟨some "Span".toList, [(none, .str s.text)], none, none⟩,
          [⟨none, [], none, none⟩]⟩ := rfl
    by_cases hi : s.fg.isSome ∨ s.bg.isSome ∨ s.hyperlink ≠ []
    · rw [if_pos ⟨h1, h2, hi⟩]
      obtain ⟨i, is, hI⟩ : ∃ i is, spanItems pr fmt s = i :: is := by
        refine List.exists_cons_of_ne_nil ?_
        unfold spanItems
        intro he
        simp only [List.append_eq_nil_iff, List.map_eq_nil_iff, Option.toList_eq_nil_iff] at he
        obtain ⟨⟨⟨-, e1⟩, e2⟩, e3⟩ := he
        rcases hi with hi | hi | hi
        · rw [e1] at hi; cases hi
        · rw [e2] at hi; cases hi
        · rw [if_pos hi] at e3; cases e3
      have hn : parse ([.name "Span".toList, .punct '('] ++ [.str s.text] ++ [.punct ','] ++
          (spanItems pr fmt s).flatMap ReprArg.fullToks ++ [.punct ')']) = none := by
        unfold parse
        rw [hI, List.foldlM_append, List.foldlM_append, p0, List.flatMap_cons]
        simp only [Option.bind_eq_bind, Option.bind_some]
        rw [List.foldlM_append, ReprArg.fullToks, List.foldlM_append]
        rfl
      rw [hn]; rfl
    · rw [if_neg (fun hh => hi hh.2.2)]
      simp only [not_or, not_not] at hi
      obtain ⟨e1, e2, e3⟩ := hi
      simp only [Option.not_isSome_iff_eq_none] at e1 e2
      have hI : spanItems pr fmt s = [] := by
        unfold spanItems
        rw [h, e1, e2, e3]; simp
      obtain ⟨text, fg, bg, link, style, ra⟩ := s
      simp only at e1 e2 e3 h2
      rw [hI]
      subst e1
      subst e2
      subst e3
      subst h2
      rfl
  · rw [if_neg (fun hh => h ((truthy_nil s).mpr ⟨hh.1, hh.2.1⟩))]
    unfold readSpan
    rw [read_span pr fmt val s h hf, Option.bind_some, spanOf_expr pr fmt val s hf hv]

/-- **C89**: in particular a span that resets and whose colours are ordinary foreground colours
is read back as it was. -/
theorem C89_same_span (pr : Char → Bool) (fmt : Rat → Str) (val : List Char → Option Rat) (s : Span)
    (h : s.resetAfter = true) (hf : AlphaTexts fmt val s)
    (hv : ∀ c, s.fg = some c ∨ s.bg = some c → c.Valid ∧ c.plain = c) :
    readSpan val (s.repr pr fmt) = some s := by
  rw [C89_span_partial pr fmt val s h hf fun c hc => (hv c hc).1]
  have h1 : s.fg.map Color.plain = s.fg := by
    cases hfg : s.fg with
    | none => rfl
    | some c => rw [Option.map_some, (hv c (.inl hfg)).2]
  have h2 : s.bg.map Color.plain = s.bg := by
    cases hbg : s.bg with
    | none => rfl
    | some c => rw [Option.map_some, (hv c (.inr hbg)).2]
  rw [h1, h2]

theorem wrapSgr_inj {a b : Str} (h : wrapSgr a = wrapSgr b) : a = b := by
  unfold wrapSgr at h
  by_cases ha : a = [] <;> by_cases hb : b = [] <;> simp_all

/-- The code of the background decides the sequences. -/
theorem sequences_bg (env : Color.Env) (s t : Span) (c d : Color) (hst : t.style = s.style) (hfg : t.fg = s.fg)
    (hs : s.bg = some c) (ht : t.bg = some d) (h : t.sequences env = s.sequences env) : d.ansi env = c.ansi env := by
  have h1 := wrapSgr_inj h
  have hj : join [';'] (t.colorCodes env) = join [';'] (s.colorCodes env) := by
    unfold Span.total at h1
    rw [hst] at h1
    by_cases hc : s.style.colorless.isEmpty
    · simpa [hc] using h1
    · simp only [hc, Bool.false_eq_true, if_false] at h1
      have h2 := List.append_cancel_right h1
      by_cases e1 : (join [';'] (t.colorCodes env)).length = 0 <;>
        by_cases e2 : (join [';'] (s.colorCodes env)).length = 0 <;> simp_all
  unfold Span.colorCodes at hj
  rw [hfg, hs, ht] at hj
  cases hg : s.fg with
  | none => simpa [join, hg] using hj
  | some f => simpa [join, hg] using hj

/-- **C89 violated**: every background colour comes back as a foreground colour, so that the span is not
equal to the one it stands for wherever the two have different codes. -/
theorem C89_background_violated (pr : Char → Bool) (fmt : Rat → Str) (val : List Char → Option Rat) (env : Color.Env) (s : Span)
    (h : s.resetAfter = true) (hf : AlphaTexts fmt val s) (hv : ∀ c, s.fg = some c ∨ s.bg = some c → c.Valid)
    (hfg : ∀ c, s.fg = some c → c.plain = c) (b : Color) (hb : s.bg = some b) (hcode : b.plain.ansi env ≠ b.ansi env) :
    ∃ t, readSpan val (s.repr pr fmt) = some t ∧ t.bg = some { r := b.r, g := b.g, b := b.b, alpha := b.alpha, isBg := false } ∧
      t.eq env s = false := by
  refine ⟨_, C89_span_partial pr fmt val s h hf hv, by rw [hb]; rfl, ?_⟩
  by_contra hne
  rw [Bool.not_eq_false] at hne
  unfold Span.eq at hne
  simp only [Bool.and_eq_true, decide_eq_true_eq] at hne
  refine hcode (sequences_bg env s { s with fg := s.fg.map Color.plain, bg := s.bg.map Color.plain } b b.plain rfl ?_ hb ?_ hne.1.2)
  · cases hg : s.fg with
    | none => rfl
    | some f => simp [hfg f hg]
  · simp [hb]

/-- Backgrounds of all colours, in true colour. -/
example (r g b : Nat) : let c : Color := { r := r, g := g, b := b, isBg := true }
    c.plain.ansi {} ≠ c.ansi {} := by
  simp [Color.plain, Color.ansi, Color.convert, Color.lead]
  decide +kernel

example : let s : Span := { text := ['x'], bg := some { r := 1, g := 2, b := 3, isBg := true } }
    ∃ t, readSpan (fun _ => none) (s.repr (fun _ => true) (fun _ => [])) = some t ∧ t.eq {} s = false := by
  decide +kernel

/-- **C89 violated**: `reset_after=False` is not shown: what is read back resets, and is not equal. -/
theorem C89_reset_violated (pr : Char → Bool) (fmt : Rat → Str) (val : List Char → Option Rat) (env : Color.Env) (s : Span)
    (h : s.resetAfter = false) (hf : AlphaTexts fmt val s) (hv : ∀ c, s.fg = some c ∨ s.bg = some c → c.Valid) :
    ∀ t, readSpan val (s.repr pr fmt) = some t → t.resetAfter = true ∧ t.eq env s = false := by
  intro t ht
  rw [C89_exact_partial pr fmt val s hf hv] at ht
  split at ht
  · cases ht
  · cases ht
    simp [Span.eq, h]

example :
    let s : Span := { text := ['x'], style := { bold := true }, resetAfter := false }
    s.repr (fun _ => true) (fun _ => []) = "Span('x', bold=True)".toList ∧
    ∃ t, readSpan (fun _ => none) (s.repr (fun _ => true) (fun _ => [])) = some t ∧ t.eq {} s = false := by
  decide +kernel

/-- **C89 violated**: without a flag that is set, a colour or a link follows two commas, which is a
syntax error. -/
theorem C89_syntax_violated (pr : Char → Bool) (fmt : Rat → Str) (val : List Char → Option Rat) (s : Span)
    (h : s.resetAfter = false) (hst : s.style = {}) (hf : AlphaTexts fmt val s)
    (hv : ∀ c, s.fg = some c ∨ s.bg = some c → c.Valid) (hc : s.fg.isSome ∨ s.bg.isSome ∨ s.hyperlink ≠ []) :
    readSpan val (s.repr pr fmt) = none := by
  rw [C89_exact_partial pr fmt val s hf hv, if_pos ⟨h, hst, hc⟩]

example :
    let s : Span := { text := ['x'], fg := some { r := 1, g := 2, b := 3 }, resetAfter := false }
    s.repr (fun _ => true) (fun _ => []) = "Span('x', , foreground=Color(rgb=(1, 2, 3)))".toList ∧
    (readSpan (fun _ => none) (s.repr (fun _ => true) (fun _ => []))).isNone = true := by
  decide +kernel

/-- Without anything it is read back, but as a span that resets. -/
example :
    let s : Span := { text := ['x'], resetAfter := false }
    s.repr (fun _ => true) (fun _ => []) = "Span('x', )".toList ∧
    readSpan (fun _ => none) (s.repr (fun _ => true) (fun _ => [])) = some { text := ['x'] } := by
  decide +kernel

/-- A span with quotes, control characters, characters outside ASCII, two styles, a translucent
colour and a link. -/
example : let fmt : Rat → Str := fun q => if q = 1 / 2 then "0.5".toList else []
    let val : List Char → Option Rat := fun t => if t = "0.5".toList then some (1 / 2) else none
    let c : Color := { r := 1, g := 20, b := 255, alpha := 1 / 2 }
    let s : Span := {
      text := "it's\n\x1b\\é€\u0085".toList
      fg := some c
      hyperlink := "a\"b'c".toList
      style := { bold := true, isOpaque := true } }
    s.resetAfter = true ∧ (∀ c, s.fg = some c ∨ s.bg = some c → c.Valid ∧ c.plain = c) ∧
    s.repr (fun c => c == 'é') fmt =
      "Span(\"it's\\n\\x1b\\\\é\\u20ac\\x85\", bold=True, opaque=True, reset_after=True, foreground=Color(rgb=(1, 20, 255), alpha=0.5), hyperlink='a\"b\\'c')".toList ∧
    val (fmt (1 / 2)) = some (1 / 2) := by
  refine ⟨rfl, ?_, by decide +kernel, by decide +kernel⟩
  rintro c (hc | hc)
  · cases hc
    exact ⟨by unfold Color.Valid; decide, rfl⟩
  · cases hc

end Slate
