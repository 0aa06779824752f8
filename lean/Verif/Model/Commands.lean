import Verif.Py.Repr
import Verif.Model.Span
import Verif.Model.Input

/-!
# The command line: `slate/__main__.py:7-14`

`python -m slate getch` and `python -m slate size`. `Model/Cli.lean` has the parsing of the arguments.
-/

namespace Slate
open Py

namespace Main

/-- The names of a key as they are printed (`__main__.py:11`): `repr` if raw or for a single character. -/
def keyLine (printable : Char → Bool) (raw : Bool) (k : Core.Key) : Str :=
  join " | ".toList (k.names.map fun n => if raw || decide (n.length = 1) then reprOf printable n else n)

/-- The prompt (`__main__.py:8`). -/
def getchPrompt (env : Color.Env) : Str :=
  Span.render env { text := "Waiting for input...".toList, style := { dim := true } } ++ [' ']

/-- `run_getch` (`__main__.py:7-11`): what is printed, the prompt and the line with the key. -/
def runGetch (printable : Char → Bool) (env : Color.Env) (tty raw : Bool) (inp : Core.Input) :
    Except PyErr (Str × Str) := do
  let key ← Core.getch tty raw inp
  .ok (getchPrompt env, keyLine printable raw key)

/-- `run_size` (`__main__.py:13-14`). -/
def runSize (size : Nat × Nat) : Str := join " x ".toList [dec size.1, dec size.2]

end Main
end Slate
