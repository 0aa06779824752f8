/-!
# Regular expressions with Python's matching order

A backtracking matcher for the operators that occur in Slate's expressions. `run`
lists every way to match a prefix of a string, in the order in which Python's `re`
tries them; `re.match` takes the first.
-/

namespace Re

/-- Expressions. -/
inductive Regex where
  /-- a character class -/
  | cls (p : Char → Bool)
  | seq (a b : Regex)
  | alt (a b : Regex)
  /-- `[…]*?` -/
  | lazyStar (p : Char → Bool)
  /-- `[…]+` -/
  | plus (p : Char → Bool)
  /-- a capturing group -/
  | cap (r : Regex)
  /-- `(?=…)` -/
  | look (r : Regex)

/-- The rests after matching zero or more characters, shortest match first. -/
def lazyRests (p : Char → Bool) : List Char → List (List Char)
  | [] => [[]]
  | c :: cs => (c :: cs) :: (if p c then lazyRests p cs else [])

/-- The rests after matching zero or more characters, longest match first. -/
def greedyRests (p : Char → Bool) : List Char → List (List Char)
  | [] => [[]]
  | c :: cs => (if p c then greedyRests p cs else []) ++ [c :: cs]

/-- All matches at the start of a string in order of preference: the captured
groups and the rest of the string. -/
def Regex.run : Regex → List Char → List (List (List Char) × List Char)
  | .cls p, s => match s with
    | [] => []
    | c :: cs => if p c then [([], cs)] else []
  | .seq a b, s => (a.run s).flatMap fun m => (b.run m.2).map fun n => (m.1 ++ n.1, n.2)
  | .alt a b, s => a.run s ++ b.run s
  | .lazyStar p, s => (lazyRests p s).map fun r => ([], r)
  | .plus p, s => match s with
    | [] => []
    | c :: cs => if p c then (greedyRests p cs).map fun r => ([], r) else []
  | .cap r, s => (r.run s).map fun m => (s.take (s.length - m.2.length) :: m.1, m.2)
  | .look r, s => if (r.run s).isEmpty then [] else [([], s)]

/-- `re.match`: the preferred match. -/
def Regex.exec (r : Regex) (s : List Char) : Option (List (List Char) × List Char) := (r.run s).head?

/-- A literal string. -/
def lit : List Char → Regex
  | [] => .lazyStar fun _ => false
  | [c] => .cls (· == c)
  | c :: cs => .seq (.cls (· == c)) (lit cs)

/-- `.`: everything but a newline. -/
def dot (c : Char) : Bool := c != '\n'

end Re
