import Verif.Spec.Emulator

/-!
# Hyperlinks of a terminal

How a terminal links what it prints (the OSC 8 convention): `OSC 8 ; params ; target ST` makes `target` the link of
everything printed from then on, an empty target ends the link. Everything else is skipped: other commands, control
sequences, and control characters. It does not mention any definition of the model.
-/

namespace Links

/-- State of the parser. -/
inductive Phase where
  | ground
  | esc
  | csi
  | osc (buf : List Char)
  | oscEsc (buf : List Char)
  deriving DecidableEq

/-- The terminal: the target of the current link (empty: none), and the characters printed so far, each with the target it
is linked to. -/
structure State where
  phase : Phase := .ground
  link : List Char := []
  out : List (Char × List Char) := []
  deriving DecidableEq

/-- A complete operating system command. -/
def exec (s : State) (buf : List Char) : State :=
  match buf with
  | '8' :: ';' :: rest =>
    match rest.dropWhile (· ≠ ';') with
    | _ :: target => { s with link := target }
    | [] => s
  | _ => s

/-- One character. -/
def step (s : State) (c : Char) : State :=
  match s.phase with
  | .ground =>
    if c = '\x1b' then { s with phase := .esc }
    else if Term.Printable c then { s with out := s.out ++ [(c, s.link)] }
    else s
  | .esc =>
    if c = '[' then { s with phase := .csi }
    else if c = ']' then { s with phase := .osc [] }
    else if c = '\x1b' then s
    else { s with phase := .ground }
  | .csi =>
    if c = '\x1b' then { s with phase := .esc }
    else if 64 ≤ c.toNat ∧ c.toNat ≤ 126 then { s with phase := .ground }
    else s
  | .osc buf =>
    if c = '\x1b' then { s with phase := .oscEsc buf }
    else if c = '\x07' then { exec s buf with phase := .ground }
    else { s with phase := .osc (buf ++ [c]) }
  | .oscEsc buf =>
    if c = '\\' then { exec s buf with phase := .ground }
    else if c = '\x1b' then s
    else { s with phase := .osc (buf ++ [c]) }

/-- A string sent to the terminal. -/
def feed (s : State) (t : List Char) : State := t.foldl step s

end Links
