/-!
# Reading Python expressions

A reader for the expressions that a `repr` is made of: strings, numbers, names, tuples and
calls with positional and keyword arguments. Independent of the code that writes them.
Everything else is an error.
-/

namespace PyExpr

/-! ## Tokens -/

inductive Tok where
  | name (s : List Char)
  | num (s : List Char)
  | str (s : List Char)
  | punct (c : Char)
  deriving DecidableEq, Repr

inductive Mode where
  | start
  | name (s : List Char)
  | num (s : List Char)
  | str (q : Char) (v : List Char)
  | esc (q : Char) (v : List Char)
  | hex (q : Char) (v : List Char) (left : Nat) (acc : Nat)
  | bad
  deriving DecidableEq, Repr

def isDecimal (c : Char) : Bool := decide (48 ≤ c.toNat) && decide (c.toNat ≤ 57)

def isNameStart (c : Char) : Bool :=
  decide (65 ≤ c.toNat) && decide (c.toNat ≤ 90) || decide (97 ≤ c.toNat) && decide (c.toNat ≤ 122) || c == '_'

def isNameChar (c : Char) : Bool := isNameStart c || isDecimal c

/-- Characters inside a number: digits, a point, an exponent. -/
def isNumChar (c : Char) : Bool := isDecimal c || c == '.' || c == 'e' || c == '-' || c == '+'

def hexVal (c : Char) : Option Nat :=
  if isDecimal c then some (c.toNat - 48)
  else if 97 ≤ c.toNat ∧ c.toNat ≤ 102 then some (c.toNat - 87)
  else if 65 ≤ c.toNat ∧ c.toNat ≤ 70 then some (c.toNat - 55)
  else none

/-- State of the tokenizer. -/
structure State where
  mode : Mode := .start
  out : List Tok := []
  deriving DecidableEq, Repr

/-- A character outside of names, numbers and strings. -/
def begin (out : List Tok) (c : Char) : State :=
  if c = ' ' then { mode := .start, out := out }
  else if c = '\'' ∨ c = '"' then { mode := .str c [], out := out }
  else if isNameStart c then { mode := .name [c], out := out }
  else if isDecimal c then { mode := .num [c], out := out }
  else if c = '(' ∨ c = ')' ∨ c = ',' ∨ c = '=' then { mode := .start, out := out ++ [.punct c] }
  else { mode := .bad, out := out }

/-- The character after a backslash. -/
def escape (q : Char) (v : List Char) (c : Char) : Mode :=
  if c = '\\' ∨ c = '\'' ∨ c = '"' then .str q (v ++ [c])
  else if c = 'n' then .str q (v ++ ['\n'])
  else if c = 't' then .str q (v ++ ['\t'])
  else if c = 'r' then .str q (v ++ ['\r'])
  else if c = 'x' then .hex q v 2 0
  else if c = 'u' then .hex q v 4 0
  else if c = 'U' then .hex q v 8 0
  else .bad

/-- One character. -/
def step (s : State) (c : Char) : State :=
  match s.mode with
  | .start => begin s.out c
  | .name n => if isNameChar c then { s with mode := .name (n ++ [c]) } else begin (s.out ++ [.name n]) c
  | .num n => if isNumChar c then { s with mode := .num (n ++ [c]) } else begin (s.out ++ [.num n]) c
  | .str q v =>
    if c = q then { mode := .start, out := s.out ++ [.str v] }
    else if c = '\\' then { s with mode := .esc q v }
    else if c = '\n' ∨ c = '\r' then { s with mode := .bad }
    else { s with mode := .str q (v ++ [c]) }
  | .esc q v => { s with mode := escape q v c }
  | .hex q v left acc =>
    match hexVal c with
    | none => { s with mode := .bad }
    | some d =>
      if left ≤ 1 then
        if Nat.isValidChar (acc * 16 + d) then { s with mode := .str q (v ++ [Char.ofNat (acc * 16 + d)]) }
        else { s with mode := .bad }
      else { s with mode := .hex q v (left - 1) (acc * 16 + d) }
  | .bad => s

/-- The tokens of a text. -/
def tokens (cs : List Char) : Option (List Tok) :=
  let s := cs.foldl step {}
  match s.mode with
  | .start => some s.out
  | .name n => some (s.out ++ [.name n])
  | .num n => some (s.out ++ [.num n])
  | _ => none

/-! ## Expressions -/

/-- An expression. The arguments of a call carry their keywords. -/
inductive Expr where
  | str (s : List Char)
  | num (s : List Char)
  | name (s : List Char)
  | tuple (items : List Expr)
  | call (f : List Char) (args : List (Option (List Char) × Expr))

/-- An open bracket: what it belongs to, the arguments before the last comma, whether there was a
comma, the keyword of the current argument and its value so far. -/
structure Frame where
  fn : Option (List Char)
  done : List (Option (List Char) × Expr) := []
  key : Option (List Char) := none
  cur : Option Expr := none

/-- The innermost open bracket, and the ones around it. -/
structure Parse where
  top : Frame
  rest : List Frame := []

/-- End of an argument. A positional argument must not follow one with a keyword. -/
def Frame.push (f : Frame) (e : Expr) : Option Frame :=
  if f.key.isNone && f.done.any (fun a => a.1.isSome) then none
  else some { fn := f.fn, done := f.done ++ [(f.key, e)] }

/-- What a closed bracket stands for. Brackets around one expression without a comma are no tuple. -/
def Frame.close (f : Frame) : Option Expr :=
  match f.fn, f.cur with
  | some g, some e => (f.push e).map fun f => .call g f.done
  | some g, none => if f.key.isNone then some (.call g f.done) else none
  | none, some e => some (if f.done.isEmpty then e else .tuple ((f.done ++ [(none, e)]).map Prod.snd))
  | none, none => some (.tuple (f.done.map Prod.snd))

/-- A value at a place where one is expected. -/
def Parse.value (p : Parse) (e : Expr) : Option Parse :=
  match p.top.cur with
  | none => some { p with top := { p.top with cur := some e } }
  | some _ => none

/-- One token. -/
def Parse.step (p : Parse) (t : Tok) : Option Parse :=
  match t with
  | .str s => p.value (.str s)
  | .num s => p.value (.num s)
  | .name s => p.value (.name s)
  | .punct c =>
    if c = '(' then
      match p.top.cur with
      | none => some { top := { fn := none }, rest := p.top :: p.rest }
      | some (.name f) => some { top := { fn := some f }, rest := { p.top with cur := none } :: p.rest }
      | some _ => none
    else if c = '=' then
      match p.top.fn, p.top.key, p.top.cur with
      | some _, none, some (.name k) => some { p with top := { p.top with key := some k, cur := none } }
      | _, _, _ => none
    else if c = ',' then
      match p.top.cur with
      | none => none
      | some e => (p.top.push e).map fun f => { p with top := f }
    else if c = ')' then
      match p.rest with
      | [] => none
      | f :: rest => p.top.close.bind fun e => Parse.value { top := f, rest := rest } e
    else none

/-- Reading a whole text. -/
def parse (ts : List Tok) : Option Expr :=
  match ts.foldlM Parse.step { top := { fn := none } } with
  | some { top := { fn := none, done := [], key := none, cur := some e }, rest := [] } => some e
  | _ => none

/-- The expression of a text, `none` for a syntax error. -/
def read (cs : List Char) : Option Expr := (tokens cs).bind parse

end PyExpr
