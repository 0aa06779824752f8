import Verif.Py.Str

/-!
# Modes and title of a terminal

How a terminal (xterm) reacts to the control sequences that switch modes and set
the title; everything else it receives is ignored here. Written from the xterm
control sequence documentation and the synchronized output proposal, independently
of the code:

* `CSI ? Pm h` / `CSI ? Pm l` set and reset DEC private modes: 1049 alternate buffer,
  25 visible cursor, 1002, 1003 and 1006 mouse reporting, 2026 synchronized output;
* `CSI 22;0 t` pushes the title on the title stack, `CSI 23;0 t` pops it (nothing happens if
  the stack is empty);
* `OSC 0 ; title BEL` (or `ST`) sets the title.
-/

namespace Slate
open Py

namespace Modes

/-- State of the parser. -/
inductive Phase where
  | ground
  | esc
  | csi (buf : Str)
  | osc (buf : Str)
  | oscEsc (buf : Str)
  deriving DecidableEq

/-- The terminal. -/
structure State where
  phase : Phase := .ground
  /-- the DEC private modes that are set -/
  on : Nat → Bool := fun n => n == 25
  title : Str := []
  stack : List Str := []

/-- Value of a decimal parameter. -/
def number (s : Str) : Nat := s.foldl (fun a c => a * 10 + (c.toNat - 48)) 0

/-- Set or reset modes. -/
def setModes (s : State) (ns : List Nat) (v : Bool) : State :=
  { s with on := fun n => if n ∈ ns then v else s.on n }

/-- A complete control sequence. -/
def execCsi (s : State) (buf : Str) (final : Char) : State :=
  match buf with
  | '?' :: ps =>
    if ps.all (fun c => isDig c || c == ';') then
      if final = 'h' then setModes s ((splitC ';' ps).map number) true
      else if final = 'l' then setModes s ((splitC ';' ps).map number) false
      else s
    else s
  | _ =>
    if final = 't' ∧ buf = "22;0".toList then { s with stack := s.title :: s.stack }
    else if final = 't' ∧ buf = "23;0".toList then
      match s.stack with
      | t :: rest => { s with title := t, stack := rest }
      | [] => s
    else s

/-- A complete operating system command. -/
def execOsc (s : State) (buf : Str) : State :=
  match buf with
  | '0' :: ';' :: t => { s with title := t }
  | _ => s

/-- One character. -/
def step (s : State) (c : Char) : State :=
  match s.phase with
  | .ground => if c = '\x1b' then { s with phase := .esc } else s
  | .esc =>
    if c = '[' then { s with phase := .csi [] }
    else if c = ']' then { s with phase := .osc [] }
    else if c = '\x1b' then s
    else { s with phase := .ground }
  | .csi buf =>
    if c = '\x1b' then { s with phase := .esc }
    else if 64 ≤ c.toNat ∧ c.toNat ≤ 126 then { execCsi s buf c with phase := .ground }
    else { s with phase := .csi (buf ++ [c]) }
  | .osc buf =>
    if c = '\x07' then { execOsc s buf with phase := .ground }
    else if c = '\x1b' then { s with phase := .oscEsc buf }
    else { s with phase := .osc (buf ++ [c]) }
  | .oscEsc buf =>
    if c = '\\' then { execOsc s buf with phase := .ground }
    else if c = '[' then { s with phase := .csi [] }
    else if c = ']' then { s with phase := .osc [] }
    else { s with phase := .ground }

/-- A text. -/
def feed (s : State) (t : Str) : State := t.foldl step s

/-- The alternate buffer is shown. -/
def State.alt (s : State) : Bool := s.on 1049
/-- The cursor is visible. -/
def State.cursor (s : State) : Bool := s.on 25
/-- Mouse events are reported, in the SGR encoding, with motion. -/
def State.mouse (s : State) : Bool := s.on 1006 && s.on 1002 && s.on 1003
/-- No mouse event is reported. -/
def State.mouseOff (s : State) : Bool := !s.on 1006 && !s.on 1002 && !s.on 1003
/-- A synchronized update is pending. -/
def State.sync (s : State) : Bool := s.on 2026

/-- A text that switches no mode and leaves the title alone, ending in the ground state. -/
def Quiet (t : Str) : Prop := ∀ s : State, s.phase = .ground → feed s t = s

end Modes
end Slate
