import Verif.Py.Str

/-!
# What terminals send for keys, and how keys are named

Written from the xterm control sequence documentation ("PC-Style Function Keys",
normal cursor mode), independently of the code.
-/

namespace Slate
open Py

/-- The keys of the cursor, editing and function key blocks. -/
inductive Cap where
  | up
  | down
  | right
  | left
  | home
  | «end»
  | insert
  | delete
  | pageUp
  | pageDown
  | f (n : Fin 12)
  deriving DecidableEq

/-- The modifiers held. -/
structure Mods where
  shift : Bool := false
  alt : Bool := false
  ctrl : Bool := false
  deriving DecidableEq

def Cap.all : List Cap :=
  [.up, .down, .right, .left, .home, .end, .insert, .delete, .pageUp, .pageDown] ++ (List.finRange 12).map .f

def Mods.all : List Mods :=
  [false, true].flatMap fun s => [false, true].flatMap fun a => [false, true].map fun c => ⟨s, a, c⟩

theorem Cap.mem_all (k : Cap) : k ∈ Cap.all := by
  cases k
  case f n =>
    refine List.mem_append_right _ (List.mem_map.mpr ⟨n, List.mem_finRange n, rfl⟩)
  all_goals exact List.mem_append_left _ (by decide)

theorem Mods.mem_all (m : Mods) : m ∈ Mods.all := by
  obtain ⟨s, a, c⟩ := m
  cases s <;> cases a <;> cases c <;> decide

/-- The modifier parameter: 1 plus 1 for shift, 2 for alt, 4 for ctrl. -/
def Mods.param (m : Mods) : Nat := 1 + m.shift.toNat + 2 * m.alt.toNat + 4 * m.ctrl.toNat

/-- The final letter of the keys that are sent as `CSI letter`, or `CSI 1;m letter`. -/
def Cap.letter : Cap → Option Char
  | .up => some 'A'
  | .down => some 'B'
  | .right => some 'C'
  | .left => some 'D'
  | .home => some 'H'
  | .end => some 'F'
  | .f n => if n.1 < 4 then some (Char.ofNat (80 + n.1)) else none
  | _ => none

/-- The number of the keys that are sent as `CSI number ~`, or `CSI number;m ~`: the
VT220 numbering, which has gaps; F1 to F4 have both forms. -/
def Cap.number : Cap → Option Nat
  | .insert => some 2
  | .delete => some 3
  | .pageUp => some 5
  | .pageDown => some 6
  | .f n => [11, 12, 13, 14, 15, 17, 18, 19, 20, 21, 23, 24][n.1]?
  | _ => none

/-- What terminals send for a key. Unmodified F1 to F4 start with `SS3` in the letter
form, all others with `CSI`. -/
def keySequences (k : Cap) (m : Mods) : List Str :=
  (k.letter.toList.map fun c =>
    if m.param = 1 then (if k.number.isSome then ['\x1b', 'O', c] else ['\x1b', '[', c])
    else ['\x1b', '['] ++ "1;".toList ++ dec m.param ++ [c]) ++
  (k.number.toList.map fun n =>
    if m.param = 1 then ['\x1b', '['] ++ dec n ++ ['~'] else ['\x1b', '['] ++ dec n ++ [';'] ++ dec m.param ++ ['~'])

/-- The names of the keys themselves. -/
def Cap.names : Cap → List Str
  | .up => ["up".toList, "arrow-up".toList]
  | .down => ["down".toList, "arrow-down".toList]
  | .right => ["right".toList, "arrow-right".toList]
  | .left => ["left".toList, "arrow-left".toList]
  | .home => ["home".toList]
  | .end => ["end".toList]
  | .insert => ["insert".toList]
  | .delete => ["delete".toList]
  | .pageUp => ["page-up".toList]
  | .pageDown => ["page-down".toList]
  | .f n => ['F' :: dec (n.1 + 1)]

/-- The modifiers in front of a name, in the order `ctrl`, `alt`, `shift`. -/
def Mods.prefix (m : Mods) : Str :=
  (if m.ctrl then "ctrl-".toList else []) ++ (if m.alt then "alt-".toList else []) ++
  (if m.shift then "shift-".toList else [])

/-- The names of a key with modifiers. -/
def keyNamesOf (k : Cap) (m : Mods) : List Str := k.names.map (m.prefix ++ ·)

end Slate
