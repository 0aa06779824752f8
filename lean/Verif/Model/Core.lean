import Verif.Model.Span
import Verif.Model.KeyNames

/-!
# `slate/core.py`: the pure functions
-/

namespace Slate
open Py

namespace Core

/-- `width(text)` for a `str` (`core.py:169-180`). -/
def widthStr (text : Str) : Nat := (subAnsi text).length

/-- `width(text)` for a `Span` (`core.py:177-178`). -/
def widthSpan (s : Span) : Nat := s.text.length

end Core
end Slate
