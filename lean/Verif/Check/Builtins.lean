import Verif.Model.Decode
import Verif.Py.Repr
import Verif.Model.Hls
import Verif.Model.Main
import Verif.Model.Cli
import Verif.Model.Svg

/-!
# The built-ins of Python

Written by `tools/mkbuiltins.py`: arguments and results of CPython 3.11 for the built-ins that the model has to know, compared with
the primitives of the model. These are tests of the trusted base, not properties. Nothing of Slate was run for them.
-/

namespace Slate.Check
open Py

deriving instance BEq for Except

/-- A string from its code points. -/
def cs (l : List Nat) : Str := l.map Char.ofNat

/-- `int(s, 10)` -/
example : ([
  (cs [], none),
  (cs [48], some (0)),
  (cs [55], some (7)),
  (cs [48, 48, 55], some (7)),
  (cs [45, 53], some (-5)),
  (cs [43, 53], some (5)),
  (cs [45, 32, 53], none),
  (cs [32, 49, 50, 32], some (12)),
  (cs [9, 49, 10], some (1)),
  (cs [49, 95, 48], some (10)),
  (cs [49, 95, 95, 48], none),
  (cs [95, 49], none),
  (cs [49, 95], none),
  (cs [1633, 1634], some (12)),
  (cs [1632, 120, 49, 102], none),
  (cs [48, 120, 49, 70], none),
  (cs [48, 88, 49, 102], none),
  (cs [48, 120, 95, 49], none),
  (cs [48, 120], none),
  (cs [48, 120, 95, 95, 49], none),
  (cs [45, 48, 120, 49], none),
  (cs [102, 70], none),
  (cs [103], none),
  (cs [178], none),
  (cs [65297, 65298], some (12)),
  (cs [49, 160], some (1)),
  (cs [12288, 49], some (1)),
  (cs [28, 49], none),
  (cs [49, 31], none),
  (cs [133, 49], some (1)),
  (cs [49, 46, 48], none),
  (cs [49, 101, 51], none),
  (cs [120793, 49], some (11)),
  (cs [48, 95, 48], some (0)),
  (cs [57, 57, 57, 57, 57, 57, 57, 57, 57, 57, 57, 57, 57, 57, 57, 57, 57, 57, 57, 57, 57, 57, 57, 57, 57, 57, 57, 57, 57, 57, 57, 57, 57, 57, 57, 57, 57, 57, 57, 57, 57, 57, 57, 57, 57, 57, 57, 57, 57, 57, 57, 57, 57, 57, 57, 57, 57, 57, 57, 57, 57, 57, 57, 57, 57, 57, 57, 57, 57, 57, 57, 57, 57, 57, 57, 57, 57, 57, 57, 57, 57, 57, 57, 57, 57, 57, 57, 57, 57, 57, 57, 57, 57, 57, 57, 57, 57, 57, 57, 57, 57, 57, 57, 57, 57, 57, 57, 57, 57, 57, 57, 57, 57, 57, 57, 57, 57, 57, 57, 57, 57, 57, 57, 57, 57, 57, 57, 57, 57, 57, 57, 57, 57, 57, 57, 57, 57, 57, 57, 57, 57, 57, 57, 57, 57, 57, 57, 57, 57, 57, 57, 57, 57, 57, 57, 57, 57, 57, 57, 57, 57, 57, 57, 57, 57, 57, 57, 57, 57, 57, 57, 57, 57, 57, 57, 57, 57, 57, 57, 57, 57, 57, 57, 57, 57, 57, 57, 57, 57, 57, 57, 57, 57, 57, 57, 57, 57, 57, 57, 57, 57, 57, 57, 57, 57, 57, 57, 57, 57, 57, 57, 57, 57, 57, 57, 57, 57, 57, 57, 57, 57, 57, 57, 57, 57, 57, 57, 57, 57, 57, 57, 57, 57, 57, 57, 57, 57, 57, 57, 57, 57, 57, 57, 57, 57, 57, 57, 57, 57, 57, 57, 57, 57, 57, 57, 57, 57, 57, 57, 57, 57, 57, 57, 57, 57, 57, 57, 57, 57, 57, 57, 57, 57, 57, 57, 57, 57, 57, 57, 57, 57, 57, 57, 57, 57, 57, 57, 57, 57, 57, 57, 57, 57, 57, 57, 57, 57, 57, 57, 57, 57, 57, 57, 57, 57, 57, 57, 57, 57, 57, 57, 57, 57, 57, 57, 57, 57, 57, 57, 57, 57, 57, 57, 57, 57, 57, 57, 57, 57, 57, 57, 57, 57, 57, 57, 57, 57, 57, 57, 57, 57, 57, 57, 57, 57, 57, 57, 57, 57, 57, 57, 57, 57, 57, 57, 57, 57, 57, 57, 57, 57, 57, 57, 57, 57, 57, 57, 57, 57, 57, 57, 57, 57, 57, 57, 57, 57, 57, 57, 57, 57, 57, 57, 57, 57, 57, 57, 57, 57, 57, 57, 57, 57, 57, 57, 57, 57, 57, 57, 57, 57, 57, 57, 57, 57, 57, 57, 57, 57, 57, 57, 57, 57, 57, 57, 57, 57, 57, 57, 57, 57, 57, 57, 57, 57, 57, 57, 57, 57, 57, 57, 57, 57, 57, 57, 57, 57, 57, 57, 57, 57, 57, 57, 57, 57, 57, 57, 57, 57, 57, 57, 57, 57, 57, 57, 57, 57, 57, 57, 57, 57, 57, 57, 57, 57, 57, 57, 57, 57, 57, 57, 57, 57, 57, 57, 57, 57, 57, 57, 57, 57, 57, 57, 57, 57, 57, 57, 57, 57, 57, 57, 57, 57, 57, 57, 57, 57, 57, 57, 57, 57, 57, 57, 57, 57, 57, 57, 57, 57, 57, 57, 57, 57, 57, 57, 57, 57, 57, 57, 57, 57, 57, 57, 57, 57, 57, 57, 57, 57, 57, 57, 57, 57, 57, 57, 57, 57, 57, 57, 57, 57, 57, 57, 57, 57, 57, 57, 57, 57, 57, 57, 57, 57, 57, 57, 57, 57, 57, 57, 57, 57, 57, 57, 57, 57, 57, 57, 57, 57, 57, 57, 57, 57, 57, 57, 57, 57, 57, 57, 57, 57, 57, 57, 57, 57, 57, 57, 57, 57, 57, 57, 57, 57, 57, 57, 57, 57, 57, 57, 57, 57, 57, 57, 57, 57, 57, 57, 57, 57, 57, 57, 57, 57, 57, 57, 57, 57, 57, 57, 57, 57, 57, 57, 57, 57, 57, 57, 57, 57, 57, 57, 57, 57, 57, 57, 57, 57, 57, 57, 57, 57, 57, 57, 57, 57, 57, 57, 57, 57, 57, 57, 57, 57, 57, 57, 57, 57, 57, 57, 57, 57, 57, 57, 57, 57, 57, 57, 57, 57, 57, 57, 57, 57, 57, 57, 57, 57, 57, 57, 57, 57, 57, 57, 57, 57, 57, 57, 57, 57, 57, 57, 57, 57, 57, 57, 57, 57, 57, 57, 57, 57, 57, 57, 57, 57, 57, 57, 57, 57, 57, 57, 57, 57, 57, 57, 57, 57, 57, 57, 57, 57, 57, 57, 57, 57, 57, 57, 57, 57, 57, 57, 57, 57, 57, 57, 57, 57, 57, 57, 57, 57, 57, 57, 57, 57, 57, 57, 57, 57, 57, 57, 57, 57, 57, 57, 57, 57, 57, 57, 57, 57, 57, 57, 57, 57, 57, 57, 57, 57, 57, 57, 57, 57, 57, 57, 57, 57, 57, 57, 57, 57, 57, 57, 57, 57, 57, 57, 57, 57, 57, 57, 57, 57, 57, 57, 57, 57, 57, 57, 57, 57, 57, 57, 57, 57, 57, 57, 57, 57, 57, 57, 57, 57, 57, 57, 57, 57, 57, 57, 57, 57, 57, 57, 57, 57, 57, 57, 57, 57, 57, 57, 57, 57, 57, 57, 57, 57, 57, 57, 57, 57, 57, 57, 57, 57, 57, 57, 57, 57, 57, 57, 57, 57, 57, 57, 57, 57, 57, 57, 57, 57, 57, 57, 57, 57, 57, 57, 57, 57, 57, 57, 57, 57, 57, 57, 57, 57, 57, 57, 57, 57, 57, 57, 57, 57, 57, 57, 57, 57, 57, 57, 57, 57, 57, 57, 57, 57, 57, 57, 57, 57, 57, 57, 57, 57, 57, 57, 57, 57, 57, 57, 57, 57, 57, 57, 57, 57, 57, 57, 57, 57, 57, 57, 57, 57, 57, 57, 57, 57, 57, 57, 57, 57, 57, 57, 57, 57, 57, 57, 57, 57, 57, 57, 57, 57, 57, 57, 57, 57, 57, 57, 57, 57, 57, 57, 57, 57, 57, 57, 57, 57, 57, 57, 57, 57, 57, 57, 57, 57, 57, 57, 57, 57, 57, 57, 57, 57, 57, 57, 57, 57, 57, 57, 57, 57, 57, 57, 57, 57, 57, 57, 57, 57, 57, 57, 57, 57, 57, 57, 57, 57, 57, 57, 57, 57, 57, 57, 57, 57, 57, 57, 57, 57, 57, 57, 57, 57, 57, 57, 57, 57, 57, 57, 57, 57, 57, 57, 57, 57, 57, 57, 57, 57, 57, 57, 57, 57, 57, 57, 57, 57, 57, 57, 57, 57, 57, 57, 57, 57, 57, 57, 57, 57, 57, 57, 57, 57, 57, 57, 57, 57, 57, 57, 57, 57, 57, 57, 57, 57, 57, 57, 57, 57, 57, 57, 57, 57, 57, 57, 57, 57, 57, 57, 57, 57, 57, 57, 57, 57, 57, 57, 57, 57, 57, 57, 57, 57, 57, 57, 57, 57, 57, 57, 57, 57, 57, 57, 57, 57, 57, 57, 57, 57, 57, 57, 57, 57, 57, 57, 57, 57, 57, 57, 57, 57, 57, 57, 57, 57, 57, 57, 57, 57, 57, 57, 57, 57, 57, 57, 57, 57, 57, 57, 57, 57, 57, 57, 57, 57, 57, 57, 57, 57, 57, 57, 57, 57, 57, 57, 57, 57, 57, 57, 57, 57, 57, 57, 57, 57, 57, 57, 57, 57, 57, 57, 57, 57, 57, 57, 57, 57, 57, 57, 57, 57, 57, 57, 57, 57, 57, 57, 57, 57, 57, 57, 57, 57, 57, 57, 57, 57, 57, 57, 57, 57, 57, 57, 57, 57, 57, 57, 57, 57, 57, 57, 57, 57, 57, 57, 57, 57, 57, 57, 57, 57, 57, 57, 57, 57, 57, 57, 57, 57, 57, 57, 57, 57, 57, 57, 57, 57, 57, 57, 57, 57, 57, 57, 57, 57, 57, 57, 57, 57, 57, 57, 57, 57, 57, 57, 57, 57, 57, 57, 57, 57, 57, 57, 57, 57, 57, 57, 57, 57, 57, 57, 57, 57, 57, 57, 57, 57, 57, 57, 57, 57, 57, 57, 57, 57, 57, 57, 57, 57, 57, 57, 57, 57, 57, 57, 57, 57, 57, 57, 57, 57, 57, 57, 57, 57, 57, 57, 57, 57, 57, 57, 57, 57, 57, 57, 57, 57, 57, 57, 57, 57, 57, 57, 57, 57, 57, 57, 57, 57, 57, 57, 57, 57, 57, 57, 57, 57, 57, 57, 57, 57, 57, 57, 57, 57, 57, 57, 57, 57, 57, 57, 57, 57, 57, 57, 57, 57, 57, 57, 57, 57, 57, 57, 57, 57, 57, 57, 57, 57, 57, 57, 57, 57, 57, 57, 57, 57, 57, 57, 57, 57, 57, 57, 57, 57, 57, 57, 57, 57, 57, 57, 57, 57, 57, 57, 57, 57, 57, 57, 57, 57, 57, 57, 57, 57, 57, 57, 57, 57, 57, 57, 57, 57, 57, 57, 57, 57, 57, 57, 57, 57, 57, 57, 57, 57, 57, 57, 57, 57, 57, 57, 57, 57, 57, 57, 57, 57, 57, 57, 57, 57, 57, 57, 57, 57, 57, 57, 57, 57, 57, 57, 57, 57, 57, 57, 57, 57, 57, 57, 57, 57, 57, 57, 57, 57, 57, 57, 57, 57, 57, 57, 57, 57, 57, 57, 57, 57, 57, 57, 57, 57, 57, 57, 57, 57, 57, 57, 57, 57, 57, 57, 57, 57, 57, 57, 57, 57, 57, 57, 57, 57, 57, 57, 57, 57, 57, 57, 57, 57, 57, 57, 57, 57, 57, 57, 57, 57, 57, 57, 57, 57, 57, 57, 57, 57, 57, 57, 57, 57, 57, 57, 57, 57, 57, 57, 57, 57, 57, 57, 57, 57, 57, 57, 57, 57, 57, 57, 57, 57, 57, 57, 57, 57, 57, 57, 57, 57, 57, 57, 57, 57, 57, 57, 57, 57, 57, 57, 57, 57, 57, 57, 57, 57, 57, 57, 57, 57, 57, 57, 57, 57, 57, 57, 57, 57, 57, 57, 57, 57, 57, 57, 57, 57, 57, 57, 57, 57, 57, 57, 57, 57, 57, 57, 57, 57, 57, 57, 57, 57, 57, 57, 57, 57, 57, 57, 57, 57, 57, 57, 57, 57, 57, 57, 57, 57, 57, 57, 57, 57, 57, 57, 57, 57, 57, 57, 57, 57, 57, 57, 57, 57, 57, 57, 57, 57, 57, 57, 57, 57, 57, 57, 57, 57, 57, 57, 57, 57, 57, 57, 57, 57, 57, 57, 57, 57, 57, 57, 57, 57, 57, 57, 57, 57, 57, 57, 57, 57, 57, 57, 57, 57, 57, 57, 57, 57, 57, 57, 57, 57, 57, 57, 57, 57, 57, 57, 57, 57, 57, 57, 57, 57, 57, 57, 57, 57, 57, 57, 57, 57, 57, 57, 57, 57, 57, 57, 57, 57, 57, 57, 57, 57, 57, 57, 57, 57, 57, 57, 57, 57, 57, 57, 57, 57, 57, 57, 57, 57, 57, 57, 57, 57, 57, 57, 57, 57, 57, 57, 57, 57, 57, 57, 57, 57, 57, 57, 57, 57, 57, 57, 57, 57, 57, 57, 57, 57, 57, 57, 57, 57, 57, 57, 57, 57, 57, 57, 57, 57, 57, 57, 57, 57, 57, 57, 57, 57, 57, 57, 57, 57, 57, 57, 57, 57, 57, 57, 57, 57, 57, 57, 57, 57, 57, 57, 57, 57, 57, 57, 57, 57, 57, 57, 57, 57, 57, 57, 57, 57, 57, 57, 57, 57, 57, 57, 57, 57, 57, 57, 57, 57, 57, 57, 57, 57, 57, 57, 57, 57, 57, 57, 57, 57, 57, 57, 57, 57, 57, 57, 57, 57, 57, 57, 57, 57, 57, 57, 57, 57, 57, 57, 57, 57, 57, 57, 57, 57, 57, 57, 57, 57, 57, 57, 57, 57, 57, 57, 57, 57, 57, 57, 57, 57, 57, 57, 57, 57, 57, 57, 57, 57, 57, 57, 57, 57, 57, 57, 57, 57, 57, 57, 57, 57, 57, 57, 57, 57, 57, 57, 57, 57, 57, 57, 57, 57, 57, 57, 57, 57, 57, 57, 57, 57, 57, 57, 57, 57, 57, 57, 57, 57, 57, 57, 57, 57, 57, 57, 57, 57, 57, 57, 57, 57, 57, 57, 57, 57, 57, 57, 57, 57, 57, 57, 57, 57, 57, 57, 57, 57, 57, 57, 57, 57, 57, 57, 57, 57, 57, 57, 57, 57, 57, 57, 57, 57, 57, 57, 57, 57, 57, 57, 57, 57, 57, 57, 57, 57, 57, 57, 57, 57, 57, 57, 57, 57, 57, 57, 57, 57, 57, 57, 57, 57, 57, 57, 57, 57, 57, 57, 57, 57, 57, 57, 57, 57, 57, 57, 57, 57, 57, 57, 57, 57, 57, 57, 57, 57, 57, 57, 57, 57, 57, 57, 57, 57, 57, 57, 57, 57, 57, 57, 57, 57, 57, 57, 57, 57, 57, 57, 57, 57, 57, 57, 57, 57, 57, 57, 57, 57, 57, 57, 57, 57, 57, 57, 57, 57, 57, 57, 57, 57, 57, 57, 57, 57, 57, 57, 57, 57, 57, 57, 57, 57, 57, 57, 57, 57, 57, 57, 57, 57, 57, 57, 57, 57, 57, 57, 57, 57, 57, 57, 57, 57, 57, 57, 57, 57, 57, 57, 57, 57, 57, 57, 57, 57, 57, 57, 57, 57, 57, 57, 57, 57, 57, 57, 57, 57, 57, 57, 57, 57, 57, 57, 57, 57, 57, 57, 57, 57, 57, 57, 57, 57, 57, 57, 57, 57, 57, 57, 57, 57, 57, 57, 57, 57, 57, 57, 57, 57, 57, 57, 57, 57, 57, 57, 57, 57, 57, 57, 57, 57, 57, 57, 57, 57, 57, 57, 57, 57, 57, 57, 57, 57, 57, 57, 57, 57, 57, 57, 57, 57, 57, 57, 57, 57, 57, 57, 57, 57, 57, 57, 57, 57, 57, 57, 57, 57, 57, 57, 57, 57, 57, 57, 57, 57, 57, 57, 57, 57, 57, 57, 57, 57, 57, 57, 57, 57, 57, 57, 57, 57, 57, 57, 57, 57, 57, 57, 57, 57, 57, 57, 57, 57, 57, 57, 57, 57, 57, 57, 57, 57, 57, 57, 57, 57, 57, 57, 57, 57, 57, 57, 57, 57, 57, 57, 57, 57, 57, 57, 57, 57, 57, 57, 57, 57, 57, 57, 57, 57, 57, 57, 57, 57, 57, 57, 57, 57, 57, 57, 57, 57, 57, 57, 57, 57, 57, 57, 57, 57, 57, 57, 57, 57, 57, 57, 57, 57, 57, 57, 57, 57, 57, 57, 57, 57, 57, 57, 57, 57, 57, 57, 57, 57, 57, 57, 57, 57, 57, 57, 57, 57, 57, 57, 57, 57, 57, 57, 57, 57, 57, 57, 57, 57, 57, 57, 57, 57, 57, 57, 57, 57, 57, 57, 57, 57, 57, 57, 57, 57, 57, 57, 57, 57, 57, 57, 57, 57, 57, 57, 57, 57, 57, 57, 57, 57, 57, 57, 57, 57, 57, 57, 57, 57, 57, 57, 57, 57, 57, 57, 57, 57, 57, 57, 57, 57, 57, 57, 57, 57, 57, 57, 57, 57, 57, 57, 57, 57, 57, 57, 57, 57, 57, 57, 57, 57, 57, 57, 57, 57, 57, 57, 57, 57, 57, 57, 57, 57, 57, 57, 57, 57, 57, 57, 57, 57, 57, 57, 57, 57, 57, 57, 57, 57, 57, 57, 57, 57, 57, 57, 57, 57, 57, 57, 57, 57, 57, 57, 57, 57, 57, 57, 57, 57, 57, 57, 57, 57, 57, 57, 57, 57, 57, 57, 57, 57, 57, 57, 57, 57, 57, 57, 57, 57, 57, 57, 57, 57, 57, 57, 57, 57, 57, 57, 57, 57, 57, 57, 57, 57, 57, 57, 57, 57, 57, 57, 57, 57, 57, 57, 57, 57, 57, 57, 57, 57, 57, 57, 57, 57, 57, 57, 57, 57, 57, 57, 57, 57, 57, 57, 57, 57, 57, 57, 57, 57, 57, 57, 57, 57, 57, 57, 57, 57, 57, 57, 57, 57, 57, 57, 57, 57, 57, 57, 57, 57, 57, 57, 57, 57, 57, 57, 57, 57, 57, 57, 57, 57, 57, 57, 57, 57, 57, 57, 57, 57, 57, 57, 57, 57, 57, 57, 57, 57, 57, 57, 57, 57, 57, 57, 57, 57, 57, 57, 57, 57, 57, 57, 57, 57, 57, 57, 57, 57, 57, 57, 57, 57, 57, 57, 57, 57, 57, 57, 57, 57, 57, 57, 57, 57, 57, 57, 57, 57, 57, 57, 57, 57, 57, 57, 57, 57, 57, 57, 57, 57, 57, 57, 57, 57, 57, 57, 57, 57, 57, 57, 57, 57, 57, 57, 57, 57, 57, 57, 57, 57, 57, 57, 57, 57, 57, 57, 57, 57, 57, 57, 57, 57, 57, 57, 57, 57, 57, 57, 57, 57, 57, 57, 57, 57, 57, 57, 57, 57, 57, 57, 57, 57, 57, 57, 57, 57, 57, 57, 57, 57, 57, 57, 57, 57, 57, 57, 57, 57, 57, 57, 57, 57, 57, 57, 57, 57, 57, 57, 57, 57, 57, 57, 57, 57, 57, 57, 57, 57, 57, 57, 57, 57, 57, 57, 57, 57, 57, 57, 57, 57, 57, 57, 57, 57, 57, 57, 57, 57, 57, 57, 57, 57, 57, 57, 57, 57, 57, 57, 57, 57, 57, 57, 57, 57, 57, 57, 57, 57, 57, 57, 57, 57, 57, 57, 57, 57, 57, 57, 57, 57, 57, 57, 57, 57, 57, 57, 57, 57, 57, 57, 57, 57, 57, 57, 57, 57, 57, 57, 57, 57, 57, 57, 57, 57, 57, 57, 57, 57, 57, 57, 57, 57, 57, 57, 57, 57, 57, 57, 57, 57, 57, 57, 57, 57, 57, 57, 57, 57, 57, 57, 57, 57, 57, 57, 57, 57, 57, 57, 57, 57, 57, 57, 57, 57, 57, 57, 57, 57, 57, 57, 57, 57, 57, 57, 57, 57, 57, 57, 57, 57, 57, 57, 57, 57, 57, 57, 57, 57, 57, 57, 57, 57, 57, 57, 57, 57, 57, 57, 57, 57, 57, 57, 57, 57, 57, 57, 57, 57, 57, 57, 57, 57, 57, 57, 57, 57, 57, 57, 57, 57, 57, 57, 57, 57, 57, 57, 57, 57, 57, 57, 57, 57, 57, 57, 57, 57, 57, 57, 57, 57, 57, 57, 57, 57, 57, 57, 57, 57, 57, 57, 57, 57, 57, 57, 57, 57, 57, 57, 57, 57, 57, 57, 57, 57, 57, 57, 57, 57, 57, 57, 57, 57, 57, 57, 57, 57, 57, 57, 57, 57, 57, 57, 57, 57, 57, 57, 57, 57, 57, 57, 57, 57, 57, 57, 57, 57, 57, 57, 57, 57, 57, 57, 57, 57, 57, 57, 57, 57, 57, 57, 57, 57, 57, 57, 57, 57, 57, 57, 57, 57, 57, 57, 57, 57, 57, 57, 57, 57, 57, 57, 57, 57, 57, 57, 57, 57, 57, 57, 57, 57, 57, 57, 57, 57, 57, 57, 57, 57, 57, 57, 57, 57, 57, 57, 57, 57, 57, 57, 57, 57, 57, 57, 57, 57, 57, 57, 57, 57, 57, 57, 57, 57, 57, 57, 57, 57, 57, 57, 57, 57, 57, 57, 57, 57, 57, 57, 57, 57, 57, 57, 57, 57, 57, 57, 57, 57, 57, 57, 57, 57, 57, 57, 57, 57, 57, 57, 57, 57, 57, 57, 57, 57, 57, 57, 57, 57, 57, 57, 57, 57, 57, 57, 57, 57, 57, 57, 57, 57, 57, 57, 57, 57, 57, 57, 57, 57, 57, 57, 57, 57, 57, 57, 57, 57, 57, 57, 57, 57, 57, 57, 57, 57, 57, 57, 57, 57, 57, 57, 57, 57, 57, 57, 57, 57, 57, 57, 57, 57, 57, 57, 57, 57, 57, 57, 57, 57, 57, 57, 57, 57, 57, 57, 57, 57, 57, 57, 57, 57, 57, 57, 57, 57, 57, 57, 57, 57, 57, 57, 57, 57, 57, 57, 57, 57, 57, 57, 57, 57, 57, 57, 57, 57, 57, 57, 57, 57, 57, 57, 57, 57, 57, 57, 57, 57, 57, 57, 57, 57, 57, 57, 57, 57, 57, 57, 57, 57, 57, 57, 57, 57, 57, 57, 57, 57, 57, 57, 57, 57, 57, 57, 57, 57, 57, 57, 57, 57, 57, 57, 57, 57, 57, 57, 57, 57, 57, 57, 57, 57, 57, 57, 57, 57, 57, 57, 57, 57, 57, 57, 57, 57, 57, 57, 57, 57, 57, 57, 57, 57, 57, 57, 57, 57, 57, 57, 57, 57, 57, 57, 57, 57, 57, 57, 57, 57, 57, 57, 57, 57, 57, 57, 57, 57, 57, 57, 57, 57, 57, 57, 57, 57, 57, 57, 57, 57, 57, 57, 57, 57, 57, 57, 57, 57, 57, 57, 57, 57, 57, 57, 57, 57, 57, 57, 57, 57, 57, 57, 57, 57, 57, 57, 57, 57, 57, 57, 57, 57, 57, 57, 57, 57, 57, 57, 57, 57, 57, 57, 57, 57, 57, 57, 57, 57, 57, 57, 57, 57, 57, 57, 57, 57, 57, 57, 57, 57, 57, 57, 57, 57, 57, 57, 57, 57, 57, 57, 57, 57, 57, 57, 57, 57, 57, 57, 57, 57, 57, 57, 57, 57, 57, 57, 57, 57, 57, 57, 57, 57, 57, 57, 57, 57, 57, 57, 57, 57, 57, 57, 57, 57, 57, 57, 57, 57, 57, 57, 57, 57, 57, 57, 57, 57, 57, 57, 57, 57, 57, 57, 57, 57, 57, 57, 57, 57, 57, 57, 57, 57, 57, 57, 57, 57, 57, 57, 57, 57, 57, 57, 57, 57, 57, 57, 57, 57, 57, 57, 57, 57, 57, 57, 57, 57, 57, 57, 57, 57, 57, 57, 57, 57, 57, 57, 57, 57, 57, 57, 57, 57, 57, 57, 57, 57, 57, 57, 57, 57, 57, 57, 57, 57, 57, 57, 57, 57, 57, 57, 57, 57, 57, 57, 57, 57, 57, 57, 57, 57, 57, 57, 57, 57, 57, 57, 57, 57, 57, 57, 57, 57, 57, 57, 57, 57, 57, 57, 57, 57, 57, 57, 57, 57, 57, 57, 57, 57, 57, 57, 57, 57, 57, 57, 57, 57, 57, 57, 57, 57, 57, 57, 57, 57, 57, 57, 57, 57, 57, 57, 57, 57, 57, 57, 57, 57, 57, 57, 57, 57, 57, 57, 57, 57, 57, 57, 57, 57, 57, 57, 57, 57, 57, 57, 57, 57, 57, 57, 57, 57, 57, 57, 57, 57, 57, 57, 57, 57, 57, 57, 57, 57, 57, 57, 57, 57, 57, 57, 57, 57, 57, 57, 57, 57, 57, 57, 57, 57, 57, 57, 57, 57, 57, 57, 57, 57, 57, 57, 57, 57, 57, 57, 57, 57, 57, 57, 57, 57, 57, 57, 57, 57, 57, 57, 57, 57, 57, 57, 57, 57, 57, 57, 57, 57, 57, 57, 57, 57, 57, 57, 57, 57, 57, 57, 57, 57, 57, 57, 57, 57, 57, 57, 57, 57, 57, 57, 57, 57, 57, 57, 57, 57, 57, 57, 57, 57, 57, 57, 57, 57, 57, 57, 57, 57, 57, 57, 57, 57, 57, 57, 57, 57, 57, 57, 57, 57, 57, 57, 57, 57, 57, 57, 57, 57, 57, 57, 57, 57, 57, 57, 57, 57, 57, 57, 57, 57, 57, 57, 57, 57, 57, 57, 57, 57, 57, 57, 57, 57, 57, 57, 57, 57, 57, 57, 57, 57, 57, 57, 57, 57, 57, 57, 57, 57, 57, 57, 57, 57, 57, 57, 57, 57, 57, 57, 57, 57, 57, 57, 57, 57, 57, 57, 57, 57, 57, 57, 57, 57, 57, 57, 57, 57, 57, 57, 57, 57, 57, 57, 57, 57, 57, 57, 57, 57, 57, 57, 57, 57, 57, 57, 57, 57, 57, 57, 57, 57, 57, 57, 57, 57, 57, 57, 57, 57, 57, 57, 57, 57, 57, 57, 57, 57, 57, 57, 57, 57, 57, 57, 57, 57, 57, 57, 57, 57, 57, 57, 57, 57, 57, 57, 57, 57, 57, 57, 57, 57, 57, 57, 57, 57, 57, 57, 57, 57, 57, 57, 57, 57, 57, 57, 57, 57, 57, 57, 57, 57, 57, 57, 57, 57, 57, 57, 57, 57, 57, 57, 57, 57, 57, 57, 57, 57, 57, 57, 57, 57, 57, 57, 57, 57, 57, 57, 57, 57, 57, 57, 57, 57, 57, 57, 57, 57, 57, 57, 57, 57, 57, 57, 57, 57, 57, 57, 57, 57, 57, 57, 57, 57, 57, 57, 57, 57, 57, 57, 57, 57, 57, 57, 57, 57, 57, 57, 57, 57, 57, 57, 57, 57, 57, 57, 57, 57, 57, 57, 57, 57, 57, 57, 57, 57, 57, 57, 57, 57, 57, 57, 57, 57, 57, 57, 57, 57, 57, 57, 57, 57, 57, 57, 57, 57, 57, 57, 57, 57, 57, 57, 57, 57, 57, 57, 57, 57, 57, 57, 57, 57, 57, 57, 57, 57, 57, 57, 57, 57, 57, 57, 57, 57, 57, 57, 57, 57, 57, 57, 57, 57, 57, 57, 57, 57, 57, 57, 57, 57, 57, 57, 57, 57, 57, 57, 57, 57, 57, 57, 57, 57, 57, 57, 57, 57, 57, 57, 57, 57, 57, 57, 57, 57, 57, 57, 57, 57, 57, 57, 57, 57, 57, 57, 57, 57, 57, 57, 57, 57, 57, 57, 57, 57, 57, 57, 57, 57, 57, 57, 57, 57, 57, 57, 57, 57, 57, 57, 57, 57, 57, 57, 57, 57, 57, 57, 57, 57, 57, 57, 57, 57, 57, 57, 57, 57, 57, 57, 57, 57, 57, 57, 57, 57, 57, 57, 57, 57, 57, 57, 57, 57, 57, 57, 57, 57, 57, 57, 57, 57, 57, 57, 57, 57, 57, 57, 57, 57, 57, 57, 57, 57, 57, 57, 57, 57, 57, 57, 57, 57, 57, 57, 57, 57, 57, 57, 57, 57, 57, 57, 57, 57, 57, 57, 57, 57, 57, 57, 57, 57, 57, 57, 57, 57, 57, 57, 57, 57, 57, 57, 57, 57, 57, 57, 57, 57, 57, 57, 57, 57, 57, 57, 57, 57, 57, 57, 57, 57, 57, 57, 57, 57, 57, 57, 57, 57, 57, 57, 57, 57, 57, 57, 57, 57, 57, 57, 57, 57, 57, 57, 57, 57, 57, 57, 57, 57, 57, 57, 57, 57, 57, 57, 57, 57, 57, 57, 57, 57, 57, 57, 57, 57, 57, 57, 57, 57, 57, 57, 57, 57, 57, 57, 57, 57, 57, 57, 57, 57, 57, 57, 57, 57, 57, 57, 57, 57, 57, 57, 57, 57, 57, 57, 57, 57, 57, 57, 57, 57, 57, 57, 57, 57, 57, 57, 57, 57, 57, 57, 57, 57, 57, 57, 57, 57, 57, 57, 57, 57, 57, 57, 57, 57, 57, 57, 57, 57, 57, 57, 57, 57, 57, 57, 57, 57, 57, 57, 57, 57, 57, 57, 57, 57, 57, 57, 57], some (9999999999999999999999999999999999999999999999999999999999999999999999999999999999999999999999999999999999999999999999999999999999999999999999999999999999999999999999999999999999999999999999999999999999999999999999999999999999999999999999999999999999999999999999999999999999999999999999999999999999999999999999999999999999999999999999999999999999999999999999999999999999999999999999999999999999999999999999999999999999999999999999999999999999999999999999999999999999999999999999999999999999999999999999999999999999999999999999999999999999999999999999999999999999999999999999999999999999999999999999999999999999999999999999999999999999999999999999999999999999999999999999999999999999999999999999999999999999999999999999999999999999999999999999999999999999999999999999999999999999999999999999999999999999999999999999999999999999999999999999999999999999999999999999999999999999999999999999999999999999999999999999999999999999999999999999999999999999999999999999999999999999999999999999999999999999999999999999999999999999999999999999999999999999999999999999999999999999999999999999999999999999999999999999999999999999999999999999999999999999999999999999999999999999999999999999999999999999999999999999999999999999999999999999999999999999999999999999999999999999999999999999999999999999999999999999999999999999999999999999999999999999999999999999999999999999999999999999999999999999999999999999999999999999999999999999999999999999999999999999999999999999999999999999999999999999999999999999999999999999999999999999999999999999999999999999999999999999999999999999999999999999999999999999999999999999999999999999999999999999999999999999999999999999999999999999999999999999999999999999999999999999999999999999999999999999999999999999999999999999999999999999999999999999999999999999999999999999999999999999999999999999999999999999999999999999999999999999999999999999999999999999999999999999999999999999999999999999999999999999999999999999999999999999999999999999999999999999999999999999999999999999999999999999999999999999999999999999999999999999999999999999999999999999999999999999999999999999999999999999999999999999999999999999999999999999999999999999999999999999999999999999999999999999999999999999999999999999999999999999999999999999999999999999999999999999999999999999999999999999999999999999999999999999999999999999999999999999999999999999999999999999999999999999999999999999999999999999999999999999999999999999999999999999999999999999999999999999999999999999999999999999999999999999999999999999999999999999999999999999999999999999999999999999999999999999999999999999999999999999999999999999999999999999999999999999999999999999999999999999999999999999999999999999999999999999999999999999999999999999999999999999999999999999999999999999999999999999999999999999999999999999999999999999999999999999999999999999999999999999999999999999999999999999999999999999999999999999999999999999999999999999999999999999999999999999999999999999999999999999999999999999999999999999999999999999999999999999999999999999999999999999999999999999999999999999999999999999999999999999999999999999999999999999999999999999999999999999999999999999999999999999999999999999999999999999999999999999999999999999999999999999999999999999999999999999999999999999999999999999999999999999999999999999999999999999999999999999999999999999999999999999999999999999999999999999999999999999999999999999999999999999999999999999999999999999999999999999999999999999999999999999999999999999999999999999999999999999999999999999999999999999999999999999999999999999999999999999999999999999999999999999999999999999999999999999999999999999999999999999999999999999999999999999999999999999999999999999999999999999999999999999999999999999999999999999999999999999999999999999999999999999999999999999999999999999999999999999999999999999999999999999999999999999999999999999999999999999999999999999999999999999999999999999999999999999999999999999999999999999999999999999999999999999999999999999999999999999999999999999999999999999999999999999999999999999999999999999999999999999999999999999999999999999999999999999999999999999999999999999999999999999999999999999999999999999999999999999999999999999999999999999999999999999999999999999999999999999999999999999999999999999999999999999999999999999999999999999999999999999999999999999999999999999999999999999999999)),
  (cs [57, 57, 57, 57, 57, 57, 57, 57, 57, 57, 57, 57, 57, 57, 57, 57, 57, 57, 57, 57, 57, 57, 57, 57, 57, 57, 57, 57, 57, 57, 57, 57, 57, 57, 57, 57, 57, 57, 57, 57, 57, 57, 57, 57, 57, 57, 57, 57, 57, 57, 57, 57, 57, 57, 57, 57, 57, 57, 57, 57, 57, 57, 57, 57, 57, 57, 57, 57, 57, 57, 57, 57, 57, 57, 57, 57, 57, 57, 57, 57, 57, 57, 57, 57, 57, 57, 57, 57, 57, 57, 57, 57, 57, 57, 57, 57, 57, 57, 57, 57, 57, 57, 57, 57, 57, 57, 57, 57, 57, 57, 57, 57, 57, 57, 57, 57, 57, 57, 57, 57, 57, 57, 57, 57, 57, 57, 57, 57, 57, 57, 57, 57, 57, 57, 57, 57, 57, 57, 57, 57, 57, 57, 57, 57, 57, 57, 57, 57, 57, 57, 57, 57, 57, 57, 57, 57, 57, 57, 57, 57, 57, 57, 57, 57, 57, 57, 57, 57, 57, 57, 57, 57, 57, 57, 57, 57, 57, 57, 57, 57, 57, 57, 57, 57, 57, 57, 57, 57, 57, 57, 57, 57, 57, 57, 57, 57, 57, 57, 57, 57, 57, 57, 57, 57, 57, 57, 57, 57, 57, 57, 57, 57, 57, 57, 57, 57, 57, 57, 57, 57, 57, 57, 57, 57, 57, 57, 57, 57, 57, 57, 57, 57, 57, 57, 57, 57, 57, 57, 57, 57, 57, 57, 57, 57, 57, 57, 57, 57, 57, 57, 57, 57, 57, 57, 57, 57, 57, 57, 57, 57, 57, 57, 57, 57, 57, 57, 57, 57, 57, 57, 57, 57, 57, 57, 57, 57, 57, 57, 57, 57, 57, 57, 57, 57, 57, 57, 57, 57, 57, 57, 57, 57, 57, 57, 57, 57, 57, 57, 57, 57, 57, 57, 57, 57, 57, 57, 57, 57, 57, 57, 57, 57, 57, 57, 57, 57, 57, 57, 57, 57, 57, 57, 57, 57, 57, 57, 57, 57, 57, 57, 57, 57, 57, 57, 57, 57, 57, 57, 57, 57, 57, 57, 57, 57, 57, 57, 57, 57, 57, 57, 57, 57, 57, 57, 57, 57, 57, 57, 57, 57, 57, 57, 57, 57, 57, 57, 57, 57, 57, 57, 57, 57, 57, 57, 57, 57, 57, 57, 57, 57, 57, 57, 57, 57, 57, 57, 57, 57, 57, 57, 57, 57, 57, 57, 57, 57, 57, 57, 57, 57, 57, 57, 57, 57, 57, 57, 57, 57, 57, 57, 57, 57, 57, 57, 57, 57, 57, 57, 57, 57, 57, 57, 57, 57, 57, 57, 57, 57, 57, 57, 57, 57, 57, 57, 57, 57, 57, 57, 57, 57, 57, 57, 57, 57, 57, 57, 57, 57, 57, 57, 57, 57, 57, 57, 57, 57, 57, 57, 57, 57, 57, 57, 57, 57, 57, 57, 57, 57, 57, 57, 57, 57, 57, 57, 57, 57, 57, 57, 57, 57, 57, 57, 57, 57, 57, 57, 57, 57, 57, 57, 57, 57, 57, 57, 57, 57, 57, 57, 57, 57, 57, 57, 57, 57, 57, 57, 57, 57, 57, 57, 57, 57, 57, 57, 57, 57, 57, 57, 57, 57, 57, 57, 57, 57, 57, 57, 57, 57, 57, 57, 57, 57, 57, 57, 57, 57, 57, 57, 57, 57, 57, 57, 57, 57, 57, 57, 57, 57, 57, 57, 57, 57, 57, 57, 57, 57, 57, 57, 57, 57, 57, 57, 57, 57, 57, 57, 57, 57, 57, 57, 57, 57, 57, 57, 57, 57, 57, 57, 57, 57, 57, 57, 57, 57, 57, 57, 57, 57, 57, 57, 57, 57, 57, 57, 57, 57, 57, 57, 57, 57, 57, 57, 57, 57, 57, 57, 57, 57, 57, 57, 57, 57, 57, 57, 57, 57, 57, 57, 57, 57, 57, 57, 57, 57, 57, 57, 57, 57, 57, 57, 57, 57, 57, 57, 57, 57, 57, 57, 57, 57, 57, 57, 57, 57, 57, 57, 57, 57, 57, 57, 57, 57, 57, 57, 57, 57, 57, 57, 57, 57, 57, 57, 57, 57, 57, 57, 57, 57, 57, 57, 57, 57, 57, 57, 57, 57, 57, 57, 57, 57, 57, 57, 57, 57, 57, 57, 57, 57, 57, 57, 57, 57, 57, 57, 57, 57, 57, 57, 57, 57, 57, 57, 57, 57, 57, 57, 57, 57, 57, 57, 57, 57, 57, 57, 57, 57, 57, 57, 57, 57, 57, 57, 57, 57, 57, 57, 57, 57, 57, 57, 57, 57, 57, 57, 57, 57, 57, 57, 57, 57, 57, 57, 57, 57, 57, 57, 57, 57, 57, 57, 57, 57, 57, 57, 57, 57, 57, 57, 57, 57, 57, 57, 57, 57, 57, 57, 57, 57, 57, 57, 57, 57, 57, 57, 57, 57, 57, 57, 57, 57, 57, 57, 57, 57, 57, 57, 57, 57, 57, 57, 57, 57, 57, 57, 57, 57, 57, 57, 57, 57, 57, 57, 57, 57, 57, 57, 57, 57, 57, 57, 57, 57, 57, 57, 57, 57, 57, 57, 57, 57, 57, 57, 57, 57, 57, 57, 57, 57, 57, 57, 57, 57, 57, 57, 57, 57, 57, 57, 57, 57, 57, 57, 57, 57, 57, 57, 57, 57, 57, 57, 57, 57, 57, 57, 57, 57, 57, 57, 57, 57, 57, 57, 57, 57, 57, 57, 57, 57, 57, 57, 57, 57, 57, 57, 57, 57, 57, 57, 57, 57, 57, 57, 57, 57, 57, 57, 57, 57, 57, 57, 57, 57, 57, 57, 57, 57, 57, 57, 57, 57, 57, 57, 57, 57, 57, 57, 57, 57, 57, 57, 57, 57, 57, 57, 57, 57, 57, 57, 57, 57, 57, 57, 57, 57, 57, 57, 57, 57, 57, 57, 57, 57, 57, 57, 57, 57, 57, 57, 57, 57, 57, 57, 57, 57, 57, 57, 57, 57, 57, 57, 57, 57, 57, 57, 57, 57, 57, 57, 57, 57, 57, 57, 57, 57, 57, 57, 57, 57, 57, 57, 57, 57, 57, 57, 57, 57, 57, 57, 57, 57, 57, 57, 57, 57, 57, 57, 57, 57, 57, 57, 57, 57, 57, 57, 57, 57, 57, 57, 57, 57, 57, 57, 57, 57, 57, 57, 57, 57, 57, 57, 57, 57, 57, 57, 57, 57, 57, 57, 57, 57, 57, 57, 57, 57, 57, 57, 57, 57, 57, 57, 57, 57, 57, 57, 57, 57, 57, 57, 57, 57, 57, 57, 57, 57, 57, 57, 57, 57, 57, 57, 57, 57, 57, 57, 57, 57, 57, 57, 57, 57, 57, 57, 57, 57, 57, 57, 57, 57, 57, 57, 57, 57, 57, 57, 57, 57, 57, 57, 57, 57, 57, 57, 57, 57, 57, 57, 57, 57, 57, 57, 57, 57, 57, 57, 57, 57, 57, 57, 57, 57, 57, 57, 57, 57, 57, 57, 57, 57, 57, 57, 57, 57, 57, 57, 57, 57, 57, 57, 57, 57, 57, 57, 57, 57, 57, 57, 57, 57, 57, 57, 57, 57, 57, 57, 57, 57, 57, 57, 57, 57, 57, 57, 57, 57, 57, 57, 57, 57, 57, 57, 57, 57, 57, 57, 57, 57, 57, 57, 57, 57, 57, 57, 57, 57, 57, 57, 57, 57, 57, 57, 57, 57, 57, 57, 57, 57, 57, 57, 57, 57, 57, 57, 57, 57, 57, 57, 57, 57, 57, 57, 57, 57, 57, 57, 57, 57, 57, 57, 57, 57, 57, 57, 57, 57, 57, 57, 57, 57, 57, 57, 57, 57, 57, 57, 57, 57, 57, 57, 57, 57, 57, 57, 57, 57, 57, 57, 57, 57, 57, 57, 57, 57, 57, 57, 57, 57, 57, 57, 57, 57, 57, 57, 57, 57, 57, 57, 57, 57, 57, 57, 57, 57, 57, 57, 57, 57, 57, 57, 57, 57, 57, 57, 57, 57, 57, 57, 57, 57, 57, 57, 57, 57, 57, 57, 57, 57, 57, 57, 57, 57, 57, 57, 57, 57, 57, 57, 57, 57, 57, 57, 57, 57, 57, 57, 57, 57, 57, 57, 57, 57, 57, 57, 57, 57, 57, 57, 57, 57, 57, 57, 57, 57, 57, 57, 57, 57, 57, 57, 57, 57, 57, 57, 57, 57, 57, 57, 57, 57, 57, 57, 57, 57, 57, 57, 57, 57, 57, 57, 57, 57, 57, 57, 57, 57, 57, 57, 57, 57, 57, 57, 57, 57, 57, 57, 57, 57, 57, 57, 57, 57, 57, 57, 57, 57, 57, 57, 57, 57, 57, 57, 57, 57, 57, 57, 57, 57, 57, 57, 57, 57, 57, 57, 57, 57, 57, 57, 57, 57, 57, 57, 57, 57, 57, 57, 57, 57, 57, 57, 57, 57, 57, 57, 57, 57, 57, 57, 57, 57, 57, 57, 57, 57, 57, 57, 57, 57, 57, 57, 57, 57, 57, 57, 57, 57, 57, 57, 57, 57, 57, 57, 57, 57, 57, 57, 57, 57, 57, 57, 57, 57, 57, 57, 57, 57, 57, 57, 57, 57, 57, 57, 57, 57, 57, 57, 57, 57, 57, 57, 57, 57, 57, 57, 57, 57, 57, 57, 57, 57, 57, 57, 57, 57, 57, 57, 57, 57, 57, 57, 57, 57, 57, 57, 57, 57, 57, 57, 57, 57, 57, 57, 57, 57, 57, 57, 57, 57, 57, 57, 57, 57, 57, 57, 57, 57, 57, 57, 57, 57, 57, 57, 57, 57, 57, 57, 57, 57, 57, 57, 57, 57, 57, 57, 57, 57, 57, 57, 57, 57, 57, 57, 57, 57, 57, 57, 57, 57, 57, 57, 57, 57, 57, 57, 57, 57, 57, 57, 57, 57, 57, 57, 57, 57, 57, 57, 57, 57, 57, 57, 57, 57, 57, 57, 57, 57, 57, 57, 57, 57, 57, 57, 57, 57, 57, 57, 57, 57, 57, 57, 57, 57, 57, 57, 57, 57, 57, 57, 57, 57, 57, 57, 57, 57, 57, 57, 57, 57, 57, 57, 57, 57, 57, 57, 57, 57, 57, 57, 57, 57, 57, 57, 57, 57, 57, 57, 57, 57, 57, 57, 57, 57, 57, 57, 57, 57, 57, 57, 57, 57, 57, 57, 57, 57, 57, 57, 57, 57, 57, 57, 57, 57, 57, 57, 57, 57, 57, 57, 57, 57, 57, 57, 57, 57, 57, 57, 57, 57, 57, 57, 57, 57, 57, 57, 57, 57, 57, 57, 57, 57, 57, 57, 57, 57, 57, 57, 57, 57, 57, 57, 57, 57, 57, 57, 57, 57, 57, 57, 57, 57, 57, 57, 57, 57, 57, 57, 57, 57, 57, 57, 57, 57, 57, 57, 57, 57, 57, 57, 57, 57, 57, 57, 57, 57, 57, 57, 57, 57, 57, 57, 57, 57, 57, 57, 57, 57, 57, 57, 57, 57, 57, 57, 57, 57, 57, 57, 57, 57, 57, 57, 57, 57, 57, 57, 57, 57, 57, 57, 57, 57, 57, 57, 57, 57, 57, 57, 57, 57, 57, 57, 57, 57, 57, 57, 57, 57, 57, 57, 57, 57, 57, 57, 57, 57, 57, 57, 57, 57, 57, 57, 57, 57, 57, 57, 57, 57, 57, 57, 57, 57, 57, 57, 57, 57, 57, 57, 57, 57, 57, 57, 57, 57, 57, 57, 57, 57, 57, 57, 57, 57, 57, 57, 57, 57, 57, 57, 57, 57, 57, 57, 57, 57, 57, 57, 57, 57, 57, 57, 57, 57, 57, 57, 57, 57, 57, 57, 57, 57, 57, 57, 57, 57, 57, 57, 57, 57, 57, 57, 57, 57, 57, 57, 57, 57, 57, 57, 57, 57, 57, 57, 57, 57, 57, 57, 57, 57, 57, 57, 57, 57, 57, 57, 57, 57, 57, 57, 57, 57, 57, 57, 57, 57, 57, 57, 57, 57, 57, 57, 57, 57, 57, 57, 57, 57, 57, 57, 57, 57, 57, 57, 57, 57, 57, 57, 57, 57, 57, 57, 57, 57, 57, 57, 57, 57, 57, 57, 57, 57, 57, 57, 57, 57, 57, 57, 57, 57, 57, 57, 57, 57, 57, 57, 57, 57, 57, 57, 57, 57, 57, 57, 57, 57, 57, 57, 57, 57, 57, 57, 57, 57, 57, 57, 57, 57, 57, 57, 57, 57, 57, 57, 57, 57, 57, 57, 57, 57, 57, 57, 57, 57, 57, 57, 57, 57, 57, 57, 57, 57, 57, 57, 57, 57, 57, 57, 57, 57, 57, 57, 57, 57, 57, 57, 57, 57, 57, 57, 57, 57, 57, 57, 57, 57, 57, 57, 57, 57, 57, 57, 57, 57, 57, 57, 57, 57, 57, 57, 57, 57, 57, 57, 57, 57, 57, 57, 57, 57, 57, 57, 57, 57, 57, 57, 57, 57, 57, 57, 57, 57, 57, 57, 57, 57, 57, 57, 57, 57, 57, 57, 57, 57, 57, 57, 57, 57, 57, 57, 57, 57, 57, 57, 57, 57, 57, 57, 57, 57, 57, 57, 57, 57, 57, 57, 57, 57, 57, 57, 57, 57, 57, 57, 57, 57, 57, 57, 57, 57, 57, 57, 57, 57, 57, 57, 57, 57, 57, 57, 57, 57, 57, 57, 57, 57, 57, 57, 57, 57, 57, 57, 57, 57, 57, 57, 57, 57, 57, 57, 57, 57, 57, 57, 57, 57, 57, 57, 57, 57, 57, 57, 57, 57, 57, 57, 57, 57, 57, 57, 57, 57, 57, 57, 57, 57, 57, 57, 57, 57, 57, 57, 57, 57, 57, 57, 57, 57, 57, 57, 57, 57, 57, 57, 57, 57, 57, 57, 57, 57, 57, 57, 57, 57, 57, 57, 57, 57, 57, 57, 57, 57, 57, 57, 57, 57, 57, 57, 57, 57, 57, 57, 57, 57, 57, 57, 57, 57, 57, 57, 57, 57, 57, 57, 57, 57, 57, 57, 57, 57, 57, 57, 57, 57, 57, 57, 57, 57, 57, 57, 57, 57, 57, 57, 57, 57, 57, 57, 57, 57, 57, 57, 57, 57, 57, 57, 57, 57, 57, 57, 57, 57, 57, 57, 57, 57, 57, 57, 57, 57, 57, 57, 57, 57, 57, 57, 57, 57, 57, 57, 57, 57, 57, 57, 57, 57, 57, 57, 57, 57, 57, 57, 57, 57, 57, 57, 57, 57, 57, 57, 57, 57, 57, 57, 57, 57, 57, 57, 57, 57, 57, 57, 57, 57, 57, 57, 57, 57, 57, 57, 57, 57, 57, 57, 57, 57, 57, 57, 57, 57, 57, 57, 57, 57, 57, 57, 57, 57, 57, 57, 57, 57, 57, 57, 57, 57, 57, 57, 57, 57, 57, 57, 57, 57, 57, 57, 57, 57, 57, 57, 57, 57, 57, 57, 57, 57, 57, 57, 57, 57, 57, 57, 57, 57, 57, 57, 57, 57, 57, 57, 57, 57, 57, 57, 57, 57, 57, 57, 57, 57, 57, 57, 57, 57, 57, 57, 57, 57, 57, 57, 57, 57, 57, 57, 57, 57, 57, 57, 57, 57, 57, 57, 57, 57, 57, 57, 57, 57, 57, 57, 57, 57, 57, 57, 57, 57, 57, 57, 57, 57, 57, 57, 57, 57, 57, 57, 57, 57, 57, 57, 57, 57, 57, 57, 57, 57, 57, 57, 57, 57, 57, 57, 57, 57, 57, 57, 57, 57, 57, 57, 57, 57, 57, 57, 57, 57, 57, 57, 57, 57, 57, 57, 57, 57, 57, 57, 57, 57, 57, 57, 57, 57, 57, 57, 57, 57, 57, 57, 57, 57, 57, 57, 57, 57, 57, 57, 57, 57, 57, 57, 57, 57, 57, 57, 57, 57, 57, 57, 57, 57, 57, 57, 57, 57, 57, 57, 57, 57, 57, 57, 57, 57, 57, 57, 57, 57, 57, 57, 57, 57, 57, 57, 57, 57, 57, 57, 57, 57, 57, 57, 57, 57, 57, 57, 57, 57, 57, 57, 57, 57, 57, 57, 57, 57, 57, 57, 57, 57, 57, 57, 57, 57, 57, 57, 57, 57, 57, 57, 57, 57, 57, 57, 57, 57, 57, 57, 57, 57, 57, 57, 57, 57, 57, 57, 57, 57, 57, 57, 57, 57, 57, 57, 57, 57, 57, 57, 57, 57, 57, 57, 57, 57, 57, 57, 57, 57, 57, 57, 57, 57, 57, 57, 57, 57, 57, 57, 57, 57, 57, 57, 57, 57, 57, 57, 57, 57, 57, 57, 57, 57, 57, 57, 57, 57, 57, 57, 57, 57, 57, 57, 57, 57, 57, 57, 57, 57, 57, 57, 57, 57, 57, 57, 57, 57, 57, 57, 57, 57, 57, 57, 57, 57, 57, 57, 57, 57, 57, 57, 57, 57, 57, 57, 57, 57, 57, 57, 57, 57, 57, 57, 57, 57, 57, 57, 57, 57, 57, 57, 57, 57, 57, 57, 57, 57, 57, 57, 57, 57, 57, 57, 57, 57, 57, 57, 57, 57, 57, 57, 57, 57, 57, 57, 57, 57, 57, 57, 57, 57, 57, 57, 57, 57, 57, 57, 57, 57, 57, 57, 57, 57, 57, 57, 57, 57, 57, 57, 57, 57, 57, 57, 57, 57, 57, 57, 57, 57, 57, 57, 57, 57, 57, 57, 57, 57, 57, 57, 57, 57, 57, 57, 57, 57, 57, 57, 57, 57, 57, 57, 57, 57, 57, 57, 57, 57, 57, 57, 57, 57, 57, 57, 57, 57, 57, 57, 57, 57, 57, 57, 57, 57, 57, 57, 57, 57, 57, 57, 57, 57, 57, 57, 57, 57, 57, 57, 57, 57, 57, 57, 57, 57, 57, 57, 57, 57, 57, 57, 57, 57, 57, 57, 57, 57, 57, 57, 57, 57, 57, 57, 57, 57, 57, 57, 57, 57, 57, 57, 57, 57, 57, 57, 57, 57, 57, 57, 57, 57, 57, 57, 57, 57, 57, 57, 57, 57, 57, 57, 57, 57, 57, 57, 57, 57, 57, 57, 57, 57, 57, 57, 57, 57, 57, 57, 57, 57, 57, 57, 57, 57, 57, 57, 57, 57, 57, 57, 57, 57, 57, 57, 57, 57, 57, 57, 57, 57, 57, 57, 57, 57, 57, 57, 57, 57, 57, 57, 57, 57, 57, 57, 57, 57, 57, 57, 57, 57, 57, 57, 57, 57, 57, 57, 57, 57, 57, 57, 57, 57, 57, 57, 57, 57, 57, 57, 57, 57, 57, 57, 57, 57, 57, 57, 57, 57, 57, 57, 57, 57, 57, 57, 57, 57, 57, 57, 57, 57, 57, 57, 57, 57, 57, 57, 57, 57, 57, 57, 57, 57, 57, 57, 57, 57, 57, 57, 57, 57, 57, 57, 57, 57, 57, 57, 57, 57, 57, 57, 57, 57, 57, 57, 57, 57, 57, 57, 57, 57, 57, 57, 57, 57, 57, 57, 57, 57, 57, 57, 57, 57, 57, 57, 57, 57, 57, 57, 57, 57, 57, 57, 57, 57, 57, 57, 57, 57, 57, 57, 57, 57, 57, 57, 57, 57, 57, 57, 57, 57, 57, 57, 57, 57, 57, 57, 57, 57, 57, 57, 57, 57, 57, 57, 57, 57, 57, 57, 57, 57, 57, 57, 57, 57, 57, 57, 57, 57, 57, 57, 57, 57, 57, 57, 57, 57, 57, 57, 57, 57, 57, 57, 57, 57, 57, 57, 57, 57, 57, 57, 57, 57, 57, 57, 57, 57, 57, 57, 57, 57, 57, 57, 57, 57, 57, 57, 57, 57, 57, 57, 57, 57, 57, 57, 57, 57, 57, 57, 57, 57, 57, 57, 57, 57, 57, 57, 57, 57, 57, 57, 57, 57, 57, 57, 57, 57, 57, 57, 57, 57, 57, 57, 57, 57, 57, 57, 57, 57, 57, 57, 57, 57, 57, 57, 57, 57, 57, 57, 57, 57, 57, 57, 57, 57, 57, 57, 57, 57, 57, 57, 57, 57, 57, 57, 57, 57, 57, 57, 57, 57, 57, 57, 57, 57, 57, 57, 57, 57, 57, 57, 57, 57, 57, 57, 57, 57, 57, 57, 57, 57, 57, 57, 57, 57, 57, 57, 57, 57, 57, 57, 57, 57, 57, 57, 57, 57, 57, 57, 57, 57, 57, 57, 57, 57, 57, 57, 57, 57, 57, 57, 57, 57, 57, 57, 57, 57, 57, 57, 57, 57, 57, 57, 57, 57, 57, 57, 57, 57, 57, 57, 57, 57, 57, 57, 57, 57, 57, 57, 57, 57, 57, 57, 57, 57, 57, 57, 57, 57, 57, 57, 57, 57, 57, 57, 57, 57, 57, 57, 57, 57, 57, 57, 57, 57, 57, 57, 57, 57, 57, 57, 57, 57, 57, 57, 57, 57, 57, 57, 57, 57, 57, 57, 57, 57, 57, 57, 57, 57, 57, 57, 57, 57, 57, 57, 57, 57, 57, 57, 57, 57, 57, 57, 57, 57, 57, 57, 57, 57, 57, 57, 57, 57, 57, 57, 57, 57, 57, 57, 57, 57, 57, 57, 57, 57, 57, 57, 57, 57, 57, 57, 57, 57, 57, 57, 57, 57, 57, 57, 57, 57, 57, 57, 57, 57, 57, 57, 57, 57, 57, 57, 57, 57, 57, 57, 57, 57, 57, 57, 57, 57, 57, 57, 57, 57, 57, 57, 57, 57, 57, 57, 57, 57, 57, 57, 57, 57, 57, 57, 57, 57, 57, 57, 57, 57, 57, 57, 57, 57, 57, 57, 57, 57, 57, 57, 57, 57, 57, 57, 57, 57, 57, 57, 57, 57, 57, 57, 57, 57, 57, 57, 57, 57, 57, 57, 57, 57, 57, 57, 57, 57, 57, 57, 57, 57, 57, 57, 57, 57, 57, 57, 57, 57, 57, 57, 57, 57, 57, 57, 57, 57, 57, 57, 57, 57, 57, 57, 57, 57, 57, 57, 57, 57, 57, 57, 57, 57, 57, 57, 57, 57, 57, 57, 57, 57, 57, 57, 57, 57, 57, 57, 57, 57, 57, 57, 57, 57, 57, 57, 57, 57, 57, 57, 57, 57, 57, 57, 57, 57, 57, 57, 57, 57, 57, 57, 57, 57, 57, 57, 57, 57, 57, 57, 57, 57, 57, 57, 57, 57, 57, 57, 57, 57, 57, 57, 57, 57, 57, 57, 57, 57, 57, 57, 57, 57, 57, 57, 57, 57, 57, 57, 57, 57, 57, 57, 57, 57, 57, 57, 57, 57, 57, 57, 57, 57, 57, 57, 57, 57, 57, 57, 57, 57, 57, 57, 57, 57, 57, 57, 57, 57, 57, 57, 57, 57, 57, 57, 57, 57, 57, 57, 57, 57, 57, 57, 57, 57, 57, 57, 57, 57, 57, 57, 57, 57, 57, 57, 57, 57, 57, 57, 57, 57, 57, 57, 57, 57, 57, 57, 57, 57, 57, 57, 57, 57, 57, 57, 57, 57, 57, 57, 57, 57, 57, 57, 57, 57, 57, 57, 57, 57, 57, 57, 57, 57, 57, 57, 57, 57, 57, 57, 57, 57, 57, 57, 57, 57, 57, 57, 57, 57, 57, 57, 57, 57, 57, 57, 57, 57, 57, 57, 57, 57, 57, 57, 57, 57, 57, 57, 57, 57, 57, 57, 57, 57, 57, 57, 57, 57, 57, 57, 57, 57, 57, 57, 57, 57, 57, 57, 57, 57, 57, 57, 57, 57, 57, 57, 57, 57, 57, 57, 57, 57, 57, 57, 57, 57, 57, 57, 57, 57, 57, 57, 57, 57, 57, 57, 57, 57, 57, 57, 57, 57, 57, 57, 57, 57, 57, 57, 57, 57, 57, 57, 57, 57, 57, 57, 57, 57, 57, 57, 57, 57, 57, 57, 57, 57, 57, 57, 57, 57, 57, 57, 57, 57, 57, 57, 57, 57, 57, 57, 57, 57, 57, 57, 57, 57, 57, 57, 57, 57, 57, 57, 57, 57, 57, 57, 57, 57, 57, 57, 57, 57, 57, 57, 57, 57, 57, 57, 57, 57, 57, 57, 57, 57, 57, 57, 57, 57, 57, 57, 57, 57, 57, 57, 57, 57, 57, 57, 57, 57, 57, 57, 57, 57, 57, 57, 57, 57, 57, 57, 57, 57, 57, 57, 57, 57, 57, 57, 57, 57, 57, 57, 57, 57, 57, 57, 57, 57, 57, 57, 57, 57, 57, 57, 57, 57, 57, 57, 57, 57, 57, 57, 57, 57, 57, 57, 57, 57, 57, 57, 57, 57, 57, 57, 57, 57, 57, 57, 57, 57, 57, 57, 57, 57, 57, 57, 57, 57, 57, 57, 57, 57, 57, 57, 57, 57, 57, 57, 57, 57, 57, 57, 57, 57, 57, 57, 57, 57, 57, 57, 57, 57, 57, 57, 57, 57, 57, 57, 57, 57, 57, 57, 57, 57, 57, 57, 57, 57, 57, 57, 57, 57, 57, 57, 57, 57, 57, 57, 57, 57, 57, 57, 57, 57, 57, 57, 57, 57, 57, 57, 57, 57, 57, 57, 57, 57, 57, 57, 57, 57, 57, 57, 57, 57, 57, 57, 57, 57, 57, 57, 57, 57, 57, 57, 57, 57, 57, 57, 57, 57, 57, 57, 57, 57, 57, 57, 57, 57, 57, 57, 57, 57, 57, 57, 57, 57, 57, 57, 57, 57, 57, 57, 57, 57, 57, 57, 57, 57, 57, 57, 57, 57, 57, 57, 57, 57, 57, 57, 57, 57, 57, 57, 57, 57, 57, 57, 57, 57, 57, 57, 57, 57, 57, 57, 57, 57, 57, 57, 57, 57, 57, 57, 57, 57, 57, 57, 57, 57, 57, 57, 57, 57, 57, 57, 57, 57, 57, 57, 57, 57, 57, 57, 57, 57, 57, 57, 57, 57, 57, 57, 57, 57, 57, 57, 57, 57, 57, 57, 57, 57, 57, 57, 57, 57, 57, 57, 57, 57, 57, 57, 57, 57, 57, 57, 57, 57, 57, 57, 57, 57, 57, 57, 57, 57, 57, 57, 57, 57, 57, 57, 57, 57, 57, 57, 57, 57, 57, 57, 57, 57, 57, 57, 57, 57, 57, 57, 57, 57, 57, 57, 57, 57, 57, 57, 57, 57, 57, 57, 57, 57, 57, 57, 57, 57, 57, 57, 57, 57, 57, 57, 57, 57, 57, 57, 57, 57, 57, 57, 57, 57, 57, 57, 57, 57, 57, 57, 57, 57, 57, 57, 57, 57, 57, 57, 57, 57, 57, 57, 57, 57, 57, 57, 57, 57, 57, 57, 57, 57, 57, 57, 57, 57, 57, 57, 57, 57, 57, 57, 57, 57, 57, 57, 57, 57, 57, 57, 57, 57, 57, 57, 57, 57, 57, 57, 57, 57, 57, 57, 57, 57, 57, 57, 57, 57, 57, 57, 57, 57, 57, 57, 57, 57, 57, 57, 57, 57, 57, 57, 57, 57, 57, 57, 57, 57, 57, 57, 57, 57, 57, 57, 57, 57, 57, 57, 57, 57, 57, 57, 57, 57, 57, 57, 57, 57, 57, 57, 57, 57, 57, 57, 57, 57, 57, 57, 57, 57, 57, 57, 57, 57, 57, 57, 57, 57, 57, 57, 57, 57, 57, 57, 57, 57, 57, 57, 57, 57, 57, 57, 57, 57, 57, 57, 57, 57, 57, 57, 57, 57, 57, 57, 57, 57, 57, 57, 57, 57, 57, 57, 57, 57, 57, 57, 57, 57, 57, 57, 57, 57, 57, 57, 57, 57, 57], none),
  (cs [48, 48, 48, 48, 48, 48, 48, 48, 48, 48, 48, 48, 48, 48, 48, 48, 48, 48, 48, 48, 48, 48, 48, 48, 48, 48, 48, 48, 48, 48, 48, 48, 48, 48, 48, 48, 48, 48, 48, 48, 48, 48, 48, 48, 48, 48, 48, 48, 48, 48, 48, 48, 48, 48, 48, 48, 48, 48, 48, 48, 48, 48, 48, 48, 48, 48, 48, 48, 48, 48, 48, 48, 48, 48, 48, 48, 48, 48, 48, 48, 48, 48, 48, 48, 48, 48, 48, 48, 48, 48, 48, 48, 48, 48, 48, 48, 48, 48, 48, 48, 48, 48, 48, 48, 48, 48, 48, 48, 48, 48, 48, 48, 48, 48, 48, 48, 48, 48, 48, 48, 48, 48, 48, 48, 48, 48, 48, 48, 48, 48, 48, 48, 48, 48, 48, 48, 48, 48, 48, 48, 48, 48, 48, 48, 48, 48, 48, 48, 48, 48, 48, 48, 48, 48, 48, 48, 48, 48, 48, 48, 48, 48, 48, 48, 48, 48, 48, 48, 48, 48, 48, 48, 48, 48, 48, 48, 48, 48, 48, 48, 48, 48, 48, 48, 48, 48, 48, 48, 48, 48, 48, 48, 48, 48, 48, 48, 48, 48, 48, 48, 48, 48, 48, 48, 48, 48, 48, 48, 48, 48, 48, 48, 48, 48, 48, 48, 48, 48, 48, 48, 48, 48, 48, 48, 48, 48, 48, 48, 48, 48, 48, 48, 48, 48, 48, 48, 48, 48, 48, 48, 48, 48, 48, 48, 48, 48, 48, 48, 48, 48, 48, 48, 48, 48, 48, 48, 48, 48, 48, 48, 48, 48, 48, 48, 48, 48, 48, 48, 48, 48, 48, 48, 48, 48, 48, 48, 48, 48, 48, 48, 48, 48, 48, 48, 48, 48, 48, 48, 48, 48, 48, 48, 48, 48, 48, 48, 48, 48, 48, 48, 48, 48, 48, 48, 48, 48, 48, 48, 48, 48, 48, 48, 48, 48, 48, 48, 48, 48, 48, 48, 48, 48, 48, 48, 48, 48, 48, 48, 48, 48, 48, 48, 48, 48, 48, 48, 48, 48, 48, 48, 48, 48, 48, 48, 48, 48, 48, 48, 48, 48, 48, 48, 48, 48, 48, 48, 48, 48, 48, 48, 48, 48, 48, 48, 48, 48, 48, 48, 48, 48, 48, 48, 48, 48, 48, 48, 48, 48, 48, 48, 48, 48, 48, 48, 48, 48, 48, 48, 48, 48, 48, 48, 48, 48, 48, 48, 48, 48, 48, 48, 48, 48, 48, 48, 48, 48, 48, 48, 48, 48, 48, 48, 48, 48, 48, 48, 48, 48, 48, 48, 48, 48, 48, 48, 48, 48, 48, 48, 48, 48, 48, 48, 48, 48, 48, 48, 48, 48, 48, 48, 48, 48, 48, 48, 48, 48, 48, 48, 48, 48, 48, 48, 48, 48, 48, 48, 48, 48, 48, 48, 48, 48, 48, 48, 48, 48, 48, 48, 48, 48, 48, 48, 48, 48, 48, 48, 48, 48, 48, 48, 48, 48, 48, 48, 48, 48, 48, 48, 48, 48, 48, 48, 48, 48, 48, 48, 48, 48, 48, 48, 48, 48, 48, 48, 48, 48, 48, 48, 48, 48, 48, 48, 48, 48, 48, 48, 48, 48, 48, 48, 48, 48, 48, 48, 48, 48, 48, 48, 48, 48, 48, 48, 48, 48, 48, 48, 48, 48, 48, 48, 48, 48, 48, 48, 48, 48, 48, 48, 48, 48, 48, 48, 48, 48, 48, 48, 48, 48, 48, 48, 48, 48, 48, 48, 48, 48, 48, 48, 48, 48, 48, 48, 48, 48, 48, 48, 48, 48, 48, 48, 48, 48, 48, 48, 48, 48, 48, 48, 48, 48, 48, 48, 48, 48, 48, 48, 48, 48, 48, 48, 48, 48, 48, 48, 48, 48, 48, 48, 48, 48, 48, 48, 48, 48, 48, 48, 48, 48, 48, 48, 48, 48, 48, 48, 48, 48, 48, 48, 48, 48, 48, 48, 48, 48, 48, 48, 48, 48, 48, 48, 48, 48, 48, 48, 48, 48, 48, 48, 48, 48, 48, 48, 48, 48, 48, 48, 48, 48, 48, 48, 48, 48, 48, 48, 48, 48, 48, 48, 48, 48, 48, 48, 48, 48, 48, 48, 48, 48, 48, 48, 48, 48, 48, 48, 48, 48, 48, 48, 48, 48, 48, 48, 48, 48, 48, 48, 48, 48, 48, 48, 48, 48, 48, 48, 48, 48, 48, 48, 48, 48, 48, 48, 48, 48, 48, 48, 48, 48, 48, 48, 48, 48, 48, 48, 48, 48, 48, 48, 48, 48, 48, 48, 48, 48, 48, 48, 48, 48, 48, 48, 48, 48, 48, 48, 48, 48, 48, 48, 48, 48, 48, 48, 48, 48, 48, 48, 48, 48, 48, 48, 48, 48, 48, 48, 48, 48, 48, 48, 48, 48, 48, 48, 48, 48, 48, 48, 48, 48, 48, 48, 48, 48, 48, 48, 48, 48, 48, 48, 48, 48, 48, 48, 48, 48, 48, 48, 48, 48, 48, 48, 48, 48, 48, 48, 48, 48, 48, 48, 48, 48, 48, 48, 48, 48, 48, 48, 48, 48, 48, 48, 48, 48, 48, 48, 48, 48, 48, 48, 48, 48, 48, 48, 48, 48, 48, 48, 48, 48, 48, 48, 48, 48, 48, 48, 48, 48, 48, 48, 48, 48, 48, 48, 48, 48, 48, 48, 48, 48, 48, 48, 48, 48, 48, 48, 48, 48, 48, 48, 48, 48, 48, 48, 48, 48, 48, 48, 48, 48, 48, 48, 48, 48, 48, 48, 48, 48, 48, 48, 48, 48, 48, 48, 48, 48, 48, 48, 48, 48, 48, 48, 48, 48, 48, 48, 48, 48, 48, 48, 48, 48, 48, 48, 48, 48, 48, 48, 48, 48, 48, 48, 48, 48, 48, 48, 48, 48, 48, 48, 48, 48, 48, 48, 48, 48, 48, 48, 48, 48, 48, 48, 48, 48, 48, 48, 48, 48, 48, 48, 48, 48, 48, 48, 48, 48, 48, 48, 48, 48, 48, 48, 48, 48, 48, 48, 48, 48, 48, 48, 48, 48, 48, 48, 48, 48, 48, 48, 48, 48, 48, 48, 48, 48, 48, 48, 48, 48, 48, 48, 48, 48, 48, 48, 48, 48, 48, 48, 48, 48, 48, 48, 48, 48, 48, 48, 48, 48, 48, 48, 48, 48, 48, 48, 48, 48, 48, 48, 48, 48, 48, 48, 48, 48, 48, 48, 48, 48, 48, 48, 48, 48, 48, 48, 48, 48, 48, 48, 48, 48, 48, 48, 48, 48, 48, 48, 48, 48, 48, 48, 48, 48, 48, 48, 48, 48, 48, 48, 48, 48, 48, 48, 48, 48, 48, 48, 48, 48, 48, 48, 48, 48, 48, 48, 48, 48, 48, 48, 48, 48, 48, 48, 48, 48, 48, 48, 48, 48, 48, 48, 48, 48, 48, 48, 48, 48, 48, 48, 48, 48, 48, 48, 48, 48, 48, 48, 48, 48, 48, 48, 48, 48, 48, 48, 48, 48, 48, 48, 48, 48, 48, 48, 48, 48, 48, 48, 48, 48, 48, 48, 48, 48, 48, 48, 48, 48, 48, 48, 48, 48, 48, 48, 48, 48, 48, 48, 48, 48, 48, 48, 48, 48, 48, 48, 48, 48, 48, 48, 48, 48, 48, 48, 48, 48, 48, 48, 48, 48, 48, 48, 48, 48, 48, 48, 48, 48, 48, 48, 48, 48, 48, 48, 48, 48, 48, 48, 48, 48, 48, 48, 48, 48, 48, 48, 48, 48, 48, 48, 48, 48, 48, 48, 48, 48, 48, 48, 48, 48, 48, 48, 48, 48, 48, 48, 48, 48, 48, 48, 48, 48, 48, 48, 48, 48, 48, 48, 48, 48, 48, 48, 48, 48, 48, 48, 48, 48, 48, 48, 48, 48, 48, 48, 48, 48, 48, 48, 48, 48, 48, 48, 48, 48, 48, 48, 48, 48, 48, 48, 48, 48, 48, 48, 48, 48, 48, 48, 48, 48, 48, 48, 48, 48, 48, 48, 48, 48, 48, 48, 48, 48, 48, 48, 48, 48, 48, 48, 48, 48, 48, 48, 48, 48, 48, 48, 48, 48, 48, 48, 48, 48, 48, 48, 48, 48, 48, 48, 48, 48, 48, 48, 48, 48, 48, 48, 48, 48, 48, 48, 48, 48, 48, 48, 48, 48, 48, 48, 48, 48, 48, 48, 48, 48, 48, 48, 48, 48, 48, 48, 48, 48, 48, 48, 48, 48, 48, 48, 48, 48, 48, 48, 48, 48, 48, 48, 48, 48, 48, 48, 48, 48, 48, 48, 48, 48, 48, 48, 48, 48, 48, 48, 48, 48, 48, 48, 48, 48, 48, 48, 48, 48, 48, 48, 48, 48, 48, 48, 48, 48, 48, 48, 48, 48, 48, 48, 48, 48, 48, 48, 48, 48, 48, 48, 48, 48, 48, 48, 48, 48, 48, 48, 48, 48, 48, 48, 48, 48, 48, 48, 48, 48, 48, 48, 48, 48, 48, 48, 48, 48, 48, 48, 48, 48, 48, 48, 48, 48, 48, 48, 48, 48, 48, 48, 48, 48, 48, 48, 48, 48, 48, 48, 48, 48, 48, 48, 48, 48, 48, 48, 48, 48, 48, 48, 48, 48, 48, 48, 48, 48, 48, 48, 48, 48, 48, 48, 48, 48, 48, 48, 48, 48, 48, 48, 48, 48, 48, 48, 48, 48, 48, 48, 48, 48, 48, 48, 48, 48, 48, 48, 48, 48, 48, 48, 48, 48, 48, 48, 48, 48, 48, 48, 48, 48, 48, 48, 48, 48, 48, 48, 48, 48, 48, 48, 48, 48, 48, 48, 48, 48, 48, 48, 48, 48, 48, 48, 48, 48, 48, 48, 48, 48, 48, 48, 48, 48, 48, 48, 48, 48, 48, 48, 48, 48, 48, 48, 48, 48, 48, 48, 48, 48, 48, 48, 48, 48, 48, 48, 48, 48, 48, 48, 48, 48, 48, 48, 48, 48, 48, 48, 48, 48, 48, 48, 48, 48, 48, 48, 48, 48, 48, 48, 48, 48, 48, 48, 48, 48, 48, 48, 48, 48, 48, 48, 48, 48, 48, 48, 48, 48, 48, 48, 48, 48, 48, 48, 48, 48, 48, 48, 48, 48, 48, 48, 48, 48, 48, 48, 48, 48, 48, 48, 48, 48, 48, 48, 48, 48, 48, 48, 48, 48, 48, 48, 48, 48, 48, 48, 48, 48, 48, 48, 48, 48, 48, 48, 48, 48, 48, 48, 48, 48, 48, 48, 48, 48, 48, 48, 48, 48, 48, 48, 48, 48, 48, 48, 48, 48, 48, 48, 48, 48, 48, 48, 48, 48, 48, 48, 48, 48, 48, 48, 48, 48, 48, 48, 48, 48, 48, 48, 48, 48, 48, 48, 48, 48, 48, 48, 48, 48, 48, 48, 48, 48, 48, 48, 48, 48, 48, 48, 48, 48, 48, 48, 48, 48, 48, 48, 48, 48, 48, 48, 48, 48, 48, 48, 48, 48, 48, 48, 48, 48, 48, 48, 48, 48, 48, 48, 48, 48, 48, 48, 48, 48, 48, 48, 48, 48, 48, 48, 48, 48, 48, 48, 48, 48, 48, 48, 48, 48, 48, 48, 48, 48, 48, 48, 48, 48, 48, 48, 48, 48, 48, 48, 48, 48, 48, 48, 48, 48, 48, 48, 48, 48, 48, 48, 48, 48, 48, 48, 48, 48, 48, 48, 48, 48, 48, 48, 48, 48, 48, 48, 48, 48, 48, 48, 48, 48, 48, 48, 48, 48, 48, 48, 48, 48, 48, 48, 48, 48, 48, 48, 48, 48, 48, 48, 48, 48, 48, 48, 48, 48, 48, 48, 48, 48, 48, 48, 48, 48, 48, 48, 48, 48, 48, 48, 48, 48, 48, 48, 48, 48, 48, 48, 48, 48, 48, 48, 48, 48, 48, 48, 48, 48, 48, 48, 48, 48, 48, 48, 48, 48, 48, 48, 48, 48, 48, 48, 48, 48, 48, 48, 48, 48, 48, 48, 48, 48, 48, 48, 48, 48, 48, 48, 48, 48, 48, 48, 48, 48, 48, 48, 48, 48, 48, 48, 48, 48, 48, 48, 48, 48, 48, 48, 48, 48, 48, 48, 48, 48, 48, 48, 48, 48, 48, 48, 48, 48, 48, 48, 48, 48, 48, 48, 48, 48, 48, 48, 48, 48, 48, 48, 48, 48, 48, 48, 48, 48, 48, 48, 48, 48, 48, 48, 48, 48, 48, 48, 48, 48, 48, 48, 48, 48, 48, 48, 48, 48, 48, 48, 48, 48, 48, 48, 48, 48, 48, 48, 48, 48, 48, 48, 48, 48, 48, 48, 48, 48, 48, 48, 48, 48, 48, 48, 48, 48, 48, 48, 48, 48, 48, 48, 48, 48, 48, 48, 48, 48, 48, 48, 48, 48, 48, 48, 48, 48, 48, 48, 48, 48, 48, 48, 48, 48, 48, 48, 48, 48, 48, 48, 48, 48, 48, 48, 48, 48, 48, 48, 48, 48, 48, 48, 48, 48, 48, 48, 48, 48, 48, 48, 48, 48, 48, 48, 48, 48, 48, 48, 48, 48, 48, 48, 48, 48, 48, 48, 48, 48, 48, 48, 48, 48, 48, 48, 48, 48, 48, 48, 48, 48, 48, 48, 48, 48, 48, 48, 48, 48, 48, 48, 48, 48, 48, 48, 48, 48, 48, 48, 48, 48, 48, 48, 48, 48, 48, 48, 48, 48, 48, 48, 48, 48, 48, 48, 48, 48, 48, 48, 48, 48, 48, 48, 48, 48, 48, 48, 48, 48, 48, 48, 48, 48, 48, 48, 48, 48, 48, 48, 48, 48, 48, 48, 48, 48, 48, 48, 48, 48, 48, 48, 48, 48, 48, 48, 48, 48, 48, 48, 48, 48, 48, 48, 48, 48, 48, 48, 48, 48, 48, 48, 48, 48, 48, 48, 48, 48, 48, 48, 48, 48, 48, 48, 48, 48, 48, 48, 48, 48, 48, 48, 48, 48, 48, 48, 48, 48, 48, 48, 48, 48, 48, 48, 48, 48, 48, 48, 48, 48, 48, 48, 48, 48, 48, 48, 48, 48, 48, 48, 48, 48, 48, 48, 48, 48, 48, 48, 48, 48, 48, 48, 48, 48, 48, 48, 48, 48, 48, 48, 48, 48, 48, 48, 48, 48, 48, 48, 48, 48, 48, 48, 48, 48, 48, 48, 48, 48, 48, 48, 48, 48, 48, 48, 48, 48, 48, 48, 48, 48, 48, 48, 48, 48, 48, 48, 48, 48, 48, 48, 48, 48, 48, 48, 48, 48, 48, 48, 48, 48, 48, 48, 48, 48, 48, 48, 48, 48, 48, 48, 48, 48, 48, 48, 48, 48, 48, 48, 48, 48, 48, 48, 48, 48, 48, 48, 48, 48, 48, 48, 48, 48, 48, 48, 48, 48, 48, 48, 48, 48, 48, 48, 48, 48, 48, 48, 48, 48, 48, 48, 48, 48, 48, 48, 48, 48, 48, 48, 48, 48, 48, 48, 48, 48, 48, 48, 48, 48, 48, 48, 48, 48, 48, 48, 48, 48, 48, 48, 48, 48, 48, 48, 48, 48, 48, 48, 48, 48, 48, 48, 48, 48, 48, 48, 48, 48, 48, 48, 48, 48, 48, 48, 48, 48, 48, 48, 48, 48, 48, 48, 48, 48, 48, 48, 48, 48, 48, 48, 48, 48, 48, 48, 48, 48, 48, 48, 48, 48, 48, 48, 48, 48, 48, 48, 48, 48, 48, 48, 48, 48, 48, 48, 48, 48, 48, 48, 48, 48, 48, 48, 48, 48, 48, 48, 48, 48, 48, 48, 48, 48, 48, 48, 48, 48, 48, 48, 48, 48, 48, 48, 48, 48, 48, 48, 48, 48, 48, 48, 48, 48, 48, 48, 48, 48, 48, 48, 48, 48, 48, 48, 48, 48, 48, 48, 48, 48, 48, 48, 48, 48, 48, 48, 48, 48, 48, 48, 48, 48, 48, 48, 48, 48, 48, 48, 48, 48, 48, 48, 48, 48, 48, 48, 48, 48, 48, 48, 48, 48, 48, 48, 48, 48, 48, 48, 48, 48, 48, 48, 48, 48, 48, 48, 48, 48, 48, 48, 48, 48, 48, 48, 48, 48, 48, 48, 48, 48, 48, 48, 48, 48, 48, 48, 48, 48, 48, 48, 48, 48, 48, 48, 48, 48, 48, 48, 48, 48, 48, 48, 48, 48, 48, 48, 48, 48, 48, 48, 48, 48, 48, 48, 48, 48, 48, 48, 48, 48, 48, 48, 48, 48, 48, 48, 48, 48, 48, 48, 48, 48, 48, 48, 48, 48, 48, 48, 48, 48, 48, 48, 48, 48, 48, 48, 48, 48, 48, 48, 48, 48, 48, 48, 48, 48, 48, 48, 48, 48, 48, 48, 48, 48, 48, 48, 48, 48, 48, 48, 48, 48, 48, 48, 48, 48, 48, 48, 48, 48, 48, 48, 48, 48, 48, 48, 48, 48, 48, 48, 48, 48, 48, 48, 48, 48, 48, 48, 48, 48, 48, 48, 48, 48, 48, 48, 48, 48, 48, 48, 48, 48, 48, 48, 48, 48, 48, 48, 48, 48, 48, 48, 48, 48, 48, 48, 48, 48, 48, 48, 48, 48, 48, 48, 48, 48, 48, 48, 48, 48, 48, 48, 48, 48, 48, 48, 48, 48, 48, 48, 48, 48, 48, 48, 48, 48, 48, 48, 48, 48, 48, 48, 48, 48, 48, 48, 48, 48, 48, 48, 48, 48, 48, 48, 48, 48, 48, 48, 48, 48, 48, 48, 48, 48, 48, 48, 48, 48, 48, 48, 48, 48, 48, 48, 48, 48, 48, 48, 48, 48, 48, 48, 48, 48, 48, 48, 48, 48, 48, 48, 48, 48, 48, 48, 48, 48, 48, 48, 48, 48, 48, 48, 48, 48, 48, 48, 48, 48, 48, 48, 48, 48, 48, 48, 48, 48, 48, 48, 48, 48, 48, 48, 48, 48, 48, 48, 48, 48, 48, 48, 48, 48, 48, 48, 48, 48, 48, 48, 48, 48, 48, 48, 48, 48, 48, 48, 48, 48, 48, 48, 48, 48, 48, 48, 48, 48, 48, 48, 48, 48, 48, 48, 48, 48, 48, 48, 48, 48, 48, 48, 48, 48, 48, 48, 48, 48, 48, 48, 48, 48, 48, 48, 48, 48, 48, 48, 48, 48, 48, 48, 48, 48, 48, 48, 48, 48, 48, 48, 48, 48, 48, 48, 48, 48, 48, 48, 48, 48, 48, 48, 48, 48, 48, 48, 48, 48, 48, 48, 48, 48, 48, 48, 48, 48, 48, 48, 48, 48, 48, 48, 48, 48, 48, 48, 48, 48, 48, 48, 48, 48, 48, 48, 48, 48, 48, 48, 48, 48, 48, 48, 48, 48, 48, 48, 48, 48, 48, 48, 48, 48, 48, 48, 48, 48, 48, 48, 48, 48, 48, 48, 48, 48, 48, 48, 48, 48, 48, 48, 48, 48, 48, 48, 48, 48, 48, 48, 48, 48, 48, 48, 48, 48, 48, 48, 48, 48, 48, 48, 48, 48, 48, 48, 48, 48, 48, 48, 48, 48, 48, 48, 48, 48, 48, 48, 48, 48, 48, 48, 48, 48, 48, 48, 48, 48, 48, 48, 48, 48, 48, 48, 48, 48, 48, 48, 48, 48, 48, 48, 48, 48, 48, 48, 48, 48, 48, 48, 48, 48, 48, 48, 48, 48, 48, 48, 48, 48, 48, 48, 48, 48, 48, 48, 48, 48, 48, 48, 48, 48, 48, 48, 48, 48, 48, 48, 48, 48, 48, 48, 48, 48, 48, 48, 48, 48, 48, 48, 48, 48, 48, 48, 48, 48, 48, 48, 48, 48, 48, 48, 48, 48, 48, 48, 48, 48, 48, 48, 48, 48, 48, 48, 48, 48, 48, 48, 48, 48, 48, 48, 48, 48, 48, 48, 48, 48, 48, 48, 48, 48, 48, 48, 48, 48, 48, 48, 48, 48, 48, 48, 48, 48, 48, 48, 48, 48, 48, 48, 48, 48, 48, 48, 48, 48, 48, 48, 48, 48, 48, 48, 48, 48, 48, 48, 48, 48, 48, 48, 48, 48, 48, 48, 48, 48, 48, 48, 48, 48, 48, 48, 48, 48, 48, 48, 48, 48, 48, 48, 48, 48, 48, 48, 48, 48, 48, 48, 48, 48, 48, 48, 48, 48, 48, 48, 48, 48, 48, 48, 48, 48, 48, 48, 48, 48, 48, 48, 48, 48, 48, 48, 48, 48, 48, 48, 48, 48, 48, 48, 48, 48, 48, 48, 48, 48, 48, 48, 48, 48, 48, 48, 48, 48, 48, 48, 48, 48, 48, 48, 48, 48, 48, 48, 48, 48, 48, 48, 48, 48, 48, 48, 48, 48, 48, 48, 48, 48, 48, 48, 48, 48, 48, 48, 48, 48, 48, 48, 48, 48, 48, 48, 48, 48, 48, 48, 48, 48, 48, 48, 48, 48, 48, 48, 48, 48, 48, 48, 48, 48, 48, 48, 48, 48, 48, 48, 48, 48, 48, 48, 48, 48, 48, 48, 48, 48, 48, 48, 48, 48, 48, 48, 48, 48, 48, 48, 48, 48, 48, 48, 48, 48, 48, 48, 48, 48, 48, 48, 48, 48, 48, 48, 48, 48, 48, 48, 48, 48, 48, 48, 48, 48, 48, 48, 48, 48, 48, 48, 48, 48, 48, 48, 48, 48, 48, 48, 48, 48, 48, 48, 48, 48, 48, 48, 48, 48, 48, 48, 48, 48, 48, 48, 48, 48, 48, 48, 48, 48, 48, 48, 48, 48, 48, 48, 48, 48, 48, 48, 48, 48, 48, 48, 48, 48, 48, 48, 48, 48, 48, 48, 48, 48, 48, 48, 48, 48, 48, 48, 48, 48, 48, 48, 48, 48, 48, 48, 48, 48, 48, 48, 48, 48, 48, 48, 48, 48, 48, 48, 48, 48, 48, 48, 48, 48, 48, 48, 48, 48, 48, 48, 48, 48, 48, 48, 48, 48, 48, 48, 48, 48, 48, 48, 48, 48, 48, 48, 48, 48, 48, 48, 48, 48, 48, 48, 48, 48, 48, 48, 48, 48, 48, 48, 48, 48, 48, 48, 48, 48, 48, 48, 48, 48, 48, 48, 48, 48, 48, 48, 48, 48, 48, 48, 48, 48, 48, 48, 48, 48, 48, 48, 48, 48, 48, 48, 48, 48, 48, 48, 48, 48, 48, 48, 48, 48, 48, 48, 48, 48, 48, 48, 48, 48, 48, 48, 48, 48, 48, 48, 48, 48, 48, 48, 48, 48, 48, 48, 48, 48, 48, 48, 48, 48, 48, 48, 48, 48, 48, 48, 48, 48, 48, 48, 48, 48, 48, 48, 48, 48, 48, 48, 48, 48, 48, 48, 48, 48, 48, 48, 48, 48, 48, 48, 48, 48, 48, 48, 48, 48, 48, 48, 48, 48, 48, 48, 48, 48, 48, 48, 48, 48, 48, 48, 48, 48, 48, 48, 48, 48, 48, 48, 48, 48, 48, 48, 48, 48, 48, 48, 48, 48, 48, 48, 48, 48, 48, 48, 48, 48, 48, 48, 48, 48, 48, 48, 48, 48, 48, 48, 48, 48, 48, 48, 48, 48, 48, 48, 48, 48, 48, 48, 48, 48, 48, 48, 48, 48, 48, 48, 48, 48, 48, 48, 48, 48, 48, 48, 48, 48, 48, 48, 48, 48, 48, 48, 48, 48, 48, 48, 48, 48, 48, 48, 48, 48, 48, 48, 48, 48, 48, 48, 48, 48, 48, 48, 48, 48, 48, 48, 48, 48, 48, 48, 48, 48, 48, 48, 48, 48, 48, 48, 48, 48, 48, 48, 48, 48, 48, 48, 48, 48, 48, 48, 48, 48, 48, 48, 48, 48, 48, 48, 48, 48, 48, 48, 48, 48, 48, 48, 48, 48, 48, 48, 48, 48, 48, 48, 48, 48, 48, 48, 48, 48, 48, 48, 48, 48, 48, 48, 48, 48, 48, 48, 48, 48, 48, 48, 48, 48, 48, 48, 48, 48, 48, 48, 48, 48, 48, 48, 48, 48, 48, 48, 48, 48, 48, 48, 48, 48, 48, 48, 48, 48, 48, 48, 48, 48, 48, 48, 48, 48, 48, 48, 48, 48, 48, 48, 48, 48, 48, 48, 48, 48, 48, 48, 48, 48, 48, 48, 48, 48, 48, 48, 48, 48, 48, 48, 48, 48, 48, 48, 48, 48, 48, 48, 48, 48, 48, 48, 48, 48, 48, 48, 48, 48, 48, 48, 48, 48, 48, 48, 48, 48, 48, 48, 48, 48, 48, 48, 48, 48, 48, 48, 48, 48, 48, 48, 48, 48, 48, 48, 48, 48, 48, 48, 48, 48, 48, 48, 48, 48, 48, 48, 48, 48, 48, 48, 48, 48, 48, 48, 48, 48, 48, 48, 48, 48, 48, 48, 48, 48, 48, 48, 48, 48, 48, 48, 48, 48, 48, 48, 48, 48, 48, 48, 48, 48, 48, 48, 48, 48, 48, 48, 48, 48, 48, 48, 48, 48, 48, 48, 48, 48, 48, 48, 48, 48, 48, 48, 48, 48, 48, 48, 48, 48, 48, 48, 48, 48, 48, 48, 48, 48, 48, 48, 48, 48, 48, 48, 48, 48, 48, 48, 48, 48, 48, 48, 48, 48, 48, 48, 48, 48, 48, 48, 48, 48, 48, 48, 48, 48, 48, 48, 48, 48, 48, 48, 48, 48, 48, 48, 48, 48, 48, 48, 48, 48, 48, 48, 48, 48, 48, 48, 48, 48, 48, 48, 48, 48, 48, 48, 48, 48, 48, 48, 48, 48, 48, 48, 48, 48, 48, 48, 48, 48, 48, 48, 48, 48, 48, 48, 48, 48, 48, 48, 48, 48, 48, 48, 48, 48, 48, 48, 48, 48, 48, 48, 48, 48, 48, 48, 48, 48, 48, 48, 48, 48, 48, 48, 48, 48, 48, 48, 48, 48, 48, 48, 48, 48, 48, 48, 48, 48, 48, 48, 48, 48, 48, 48, 48, 48, 48, 48, 48, 48, 48, 48, 48, 48, 48, 48, 48, 48, 48, 48, 48, 48, 48, 48, 48, 48, 48, 48, 48, 48, 48, 48, 48, 48, 48, 48, 48, 48, 48, 48, 48, 48, 48, 48, 48, 48, 48, 48, 48, 48, 48, 48, 48, 48, 48, 48, 48, 48, 48, 48, 48, 48, 48, 48, 48, 48, 48, 48, 48, 48, 48, 48, 48, 48, 48, 48, 48, 48, 48, 48, 48, 48, 48, 48, 48, 48, 48, 48, 48, 48, 48, 48, 48, 48, 48, 48, 48, 48, 48, 48, 48, 48, 48, 48, 48, 48, 48, 48, 48, 48, 48, 48, 48, 48, 48, 48, 48, 48, 48, 48, 48, 48, 48, 48, 48, 48, 48, 48, 48, 48, 48, 48, 48, 48, 48, 48, 48, 48, 48, 48, 48, 48, 48, 48, 48, 48, 48, 48, 48, 48, 48, 48, 48, 48, 48, 48, 48, 48, 48, 48, 48, 48, 48, 48, 48, 48, 48, 48, 48, 48, 48, 48, 48, 48, 48, 48, 48, 48, 48, 48, 48, 48, 48, 48, 48, 48, 48, 48, 48, 48, 48, 48, 48, 48, 48, 48, 48, 48, 48, 48, 48, 48, 48, 48, 48, 48, 48, 48, 48, 48, 48, 48, 48, 48, 48, 48, 48, 48, 48, 48, 48, 48, 48, 48, 48, 48, 48, 48, 48, 48, 48, 48, 48, 48, 48, 48, 48, 48, 48, 48, 48], none),
  (cs [127, 49], none),
  (cs [49, 0], none),
  (cs [97], none),
  (cs [], none),
  (cs [49, 120], none),
  (cs [120, 70, 43], none),
  (cs [49], some (1)),
  (cs [48, 8195, 43], none),
  (cs [97, 179, 179], none),
  (cs [], none),
  (cs [95, 1635, 179], none),
  (cs [97], none),
  (cs [], none),
  (cs [48, 48], some (0)),
  (cs [], none),
  (cs [48, 43, 70, 57], none),
  (cs [1635, 48, 88], none),
  (cs [179], none),
  (cs [120, 88, 57], none),
  (cs [57, 70], none),
  (cs [179], none),
  (cs [95, 48, 43], none),
  (cs [70, 49, 32, 70], none),
  (cs [49, 1635], some (13)),
  (cs [1635, 1635], some (33)),
  (cs [43, 88, 8195, 70], none),
  (cs [95], none),
  (cs [97, 120], none),
  (cs [43, 97, 8195, 48], none),
  (cs [57, 1635, 179], none),
  (cs [43, 70, 32], none),
  (cs [88, 1635], none),
  (cs [49, 120], none),
  (cs [49, 179, 32, 88], none),
  (cs [45, 120, 1635], none),
  (cs [], none),
  (cs [48, 95, 1635], some (3)),
  (cs [97, 97, 43, 70], none),
  (cs [32], none),
  (cs [57, 48, 179, 57], none),
  (cs [8195, 88, 57, 43], none),
  (cs [45, 8195, 97, 45], none),
  (cs [95, 70, 88], none),
  (cs [1635, 48, 43, 179], none),
  (cs [179, 32, 88, 179], none),
  (cs [57, 43, 48, 120], none),
  (cs [97, 88], none),
  (cs [88], none),
  (cs [120, 8195, 45], none),
  (cs [45, 48, 88], none),
  (cs [97, 179, 97, 45], none),
  (cs [97, 48, 179], none),
  (cs [70], none),
  (cs [88], none),
  (cs [32, 8195, 49, 179], none),
  (cs [179, 8195, 8195, 95], none),
  (cs [], none),
  (cs [], none),
  (cs [], none),
  (cs [], none),
  (cs [48, 179, 179], none),
  (cs [57, 95], none)] : List (Str × Option Int)).all (fun t => decide (Py.int 10 t.1 = t.2)) = true := by
  decide +kernel

/-- `int(s, 16)` -/
example : ([
  (cs [], none),
  (cs [48], some (0)),
  (cs [55], some (7)),
  (cs [48, 48, 55], some (7)),
  (cs [45, 53], some (-5)),
  (cs [43, 53], some (5)),
  (cs [45, 32, 53], none),
  (cs [32, 49, 50, 32], some (18)),
  (cs [9, 49, 10], some (1)),
  (cs [49, 95, 48], some (16)),
  (cs [49, 95, 95, 48], none),
  (cs [95, 49], none),
  (cs [49, 95], none),
  (cs [1633, 1634], some (18)),
  (cs [1632, 120, 49, 102], some (31)),
  (cs [48, 120, 49, 70], some (31)),
  (cs [48, 88, 49, 102], some (31)),
  (cs [48, 120, 95, 49], some (1)),
  (cs [48, 120], none),
  (cs [48, 120, 95, 95, 49], none),
  (cs [45, 48, 120, 49], some (-1)),
  (cs [102, 70], some (255)),
  (cs [103], none),
  (cs [178], none),
  (cs [65297, 65298], some (18)),
  (cs [49, 160], some (1)),
  (cs [12288, 49], some (1)),
  (cs [28, 49], none),
  (cs [49, 31], none),
  (cs [133, 49], some (1)),
  (cs [49, 46, 48], none),
  (cs [49, 101, 51], some (483)),
  (cs [120793, 49], some (17)),
  (cs [48, 95, 48], some (0)),
  (cs [127, 49], none),
  (cs [49, 0], none),
  (cs [97], some (10)),
  (cs [], none),
  (cs [49, 120], none),
  (cs [120, 70, 43], none),
  (cs [49], some (1)),
  (cs [48, 8195, 43], none),
  (cs [97, 179, 179], none),
  (cs [], none),
  (cs [95, 1635, 179], none),
  (cs [97], some (10)),
  (cs [], none),
  (cs [48, 48], some (0)),
  (cs [], none),
  (cs [48, 43, 70, 57], none),
  (cs [1635, 48, 88], none),
  (cs [179], none),
  (cs [120, 88, 57], none),
  (cs [57, 70], some (159)),
  (cs [179], none),
  (cs [95, 48, 43], none),
  (cs [70, 49, 32, 70], none),
  (cs [49, 1635], some (19)),
  (cs [1635, 1635], some (51)),
  (cs [43, 88, 8195, 70], none),
  (cs [95], none),
  (cs [97, 120], none),
  (cs [43, 97, 8195, 48], none),
  (cs [57, 1635, 179], none),
  (cs [43, 70, 32], some (15)),
  (cs [88, 1635], none),
  (cs [49, 120], none),
  (cs [49, 179, 32, 88], none),
  (cs [45, 120, 1635], none),
  (cs [], none),
  (cs [48, 95, 1635], some (3)),
  (cs [97, 97, 43, 70], none),
  (cs [32], none),
  (cs [57, 48, 179, 57], none),
  (cs [8195, 88, 57, 43], none),
  (cs [45, 8195, 97, 45], none),
  (cs [95, 70, 88], none),
  (cs [1635, 48, 43, 179], none),
  (cs [179, 32, 88, 179], none),
  (cs [57, 43, 48, 120], none),
  (cs [97, 88], none),
  (cs [88], none),
  (cs [120, 8195, 45], none),
  (cs [45, 48, 88], none),
  (cs [97, 179, 97, 45], none),
  (cs [97, 48, 179], none),
  (cs [70], some (15)),
  (cs [88], none),
  (cs [32, 8195, 49, 179], none),
  (cs [179, 8195, 8195, 95], none),
  (cs [], none),
  (cs [], none),
  (cs [], none),
  (cs [], none),
  (cs [48, 179, 179], none),
  (cs [57, 95], none)] : List (Str × Option Int)).all (fun t => decide (Py.int 16 t.1 = t.2)) = true := by
  decide +kernel

/-- `float(s)` -/
example : ([
  (cs [48, 46, 53], some ((1 : Rat) / 2)),
  (cs [49, 46], some ((1 : Rat))),
  (cs [46, 53], some ((1 : Rat) / 2)),
  (cs [46], none),
  (cs [45, 46, 50, 53], some ((-1 : Rat) / 4)),
  (cs [43, 49, 46, 53, 101, 51], some ((1500 : Rat))),
  (cs [49, 46, 53, 69, 45, 51], some ((3458764513820541 : Rat) / 2305843009213693952)),
  (cs [49, 46, 101, 53], some ((100000 : Rat))),
  (cs [49, 46, 53, 101], none),
  (cs [49, 46, 53, 101, 43], none),
  (cs [49, 95, 48, 46, 53], some ((21 : Rat) / 2)),
  (cs [49, 95, 46, 53], none),
  (cs [49, 46, 95, 53], none),
  (cs [49, 46, 53, 95, 53], some ((6980579422424269 : Rat) / 4503599627370496)),
  (cs [49, 46, 53, 101, 49, 95, 48], some ((15000000000 : Rat))),
  (cs [95, 49, 46, 53], none),
  (cs [49, 46, 53, 95], none),
  (cs [1633, 46, 1637], some ((3 : Rat) / 2)),
  (cs [160, 49, 46, 53, 8195], some ((3 : Rat) / 2)),
  (cs [28, 49, 46, 53], none),
  (cs [49, 46, 53, 120], none),
  (cs [49, 46, 53, 46, 53], none),
  (cs [48, 46, 49], some ((3602879701896397 : Rat) / 36028797018963968)),
  (cs [48, 46, 55], some ((3152519739159347 : Rat) / 4503599627370496)),
  (cs [48, 46, 51, 48, 48, 48, 48, 48, 48, 48, 48, 48, 48, 48, 48, 48, 48, 48, 52], some ((1351079888211149 : Rat) / 4503599627370496)),
  (cs [49, 50, 51, 52, 53, 54, 55, 56, 57, 46, 49, 50, 51, 52, 53, 54, 55, 56, 57, 49, 50, 51, 52, 53, 54, 55, 56, 57], some ((8285044871162741 : Rat) / 67108864)),
  (cs [49, 46, 53, 32, 101, 49], none),
  (cs [49, 101, 46, 53], none),
  (cs [52, 46, 57, 101, 45, 51, 50, 52], some ((1 : Rat) / 202402253307310618352495346718917307049556649764142118356901358027430339567995346891960383701437124495187077864316811911389808737385793476867013399940738509921517424276566361364466907742093216341239767678472745068562007483424692698618103355649159556340810056512358769552333414615230502532186327508646006263307707741093494784)),
  (cs [50, 46, 53, 101, 45, 51, 50, 52], some ((1 : Rat) / 202402253307310618352495346718917307049556649764142118356901358027430339567995346891960383701437124495187077864316811911389808737385793476867013399940738509921517424276566361364466907742093216341239767678472745068562007483424692698618103355649159556340810056512358769552333414615230502532186327508646006263307707741093494784)),
  (cs [50, 46, 52, 101, 45, 51, 50, 52], some ((0 : Rat))),
  (cs [49, 46, 48, 101, 50, 50], some ((10000000000000000000000 : Rat))),
  (cs [57, 48, 48, 55, 49, 57, 57, 50, 53, 52, 55, 52, 48, 57, 57, 51, 46, 48], some ((9007199254740992 : Rat))),
  (cs [45, 32, 49, 46, 53], none),
  (cs [45, 45, 49, 46, 53], none),
  (cs [46, 45, 95, 49, 46, 46], none),
  (cs [53, 46], some ((5 : Rat))),
  (cs [46, 48, 46], none),
  (cs [95, 46, 57, 48, 95], none),
  (cs [49, 95, 95, 46, 43, 95], none),
  (cs [48, 57, 101, 46], none),
  (cs [45, 46, 45, 43, 57, 95], none),
  (cs [48, 49, 46, 46, 46], none),
  (cs [46, 46, 45, 49, 43, 49], none),
  (cs [48, 57, 57, 43, 46, 49], none),
  (cs [46, 57, 46], none),
  (cs [101, 45, 95, 46, 53, 57], none)] : List (Str × Option Rat)).all (fun t => decide (Py.float t.1 = t.2)) = true := by
  decide +kernel

/-- `isdigit`, `isspace`, `\d` -/
example : ([
  (0, false, false, false),
  (9, false, true, false),
  (13, false, true, false),
  (14, false, false, false),
  (27, false, false, false),
  (28, false, true, false),
  (31, false, true, false),
  (32, false, true, false),
  (33, false, false, false),
  (47, false, false, false),
  (48, true, false, true),
  (57, true, false, true),
  (58, false, false, false),
  (65, false, false, false),
  (127, false, false, false),
  (133, false, true, false),
  (160, false, true, false),
  (178, true, false, false),
  (185, true, false, false),
  (188, false, false, false),
  (649, false, false, false),
  (1335, false, false, false),
  (1409, false, false, false),
  (1632, true, false, true),
  (1641, true, false, true),
  (1642, false, false, false),
  (1785, true, false, true),
  (4647, false, false, false),
  (4740, false, false, false),
  (4923, false, false, false),
  (4969, true, false, false),
  (4977, true, false, false),
  (4978, false, false, false),
  (5760, false, true, false),
  (6032, false, false, false),
  (6158, false, false, false),
  (6614, true, false, true),
  (6615, true, false, true),
  (6618, true, false, false),
  (8192, false, true, false),
  (8202, false, true, false),
  (8203, false, false, false),
  (8232, false, true, false),
  (8239, false, true, false),
  (8287, false, true, false),
  (8288, false, false, false),
  (8304, true, false, false),
  (8305, false, false, false),
  (9312, true, false, false),
  (9321, false, false, false),
  (10104, true, false, false),
  (12242, false, false, false),
  (12288, false, true, false),
  (14428, false, false, false),
  (15975, false, false, false),
  (16062, false, false, false),
  (16111, false, false, false),
  (17567, false, false, false),
  (19059, false, false, false),
  (19844, false, false, false),
  (20757, false, false, false),
  (21446, false, false, false),
  (21910, false, false, false),
  (23539, false, false, false),
  (26330, false, false, false),
  (30725, false, false, false),
  (32326, false, false, false),
  (32861, false, false, false),
  (35666, false, false, false),
  (36123, false, false, false),
  (37944, false, false, false),
  (37945, false, false, false),
  (39057, false, false, false),
  (40068, false, false, false),
  (41640, false, false, false),
  (47786, false, false, false),
  (49199, false, false, false),
  (50970, false, false, false),
  (51916, false, false, false),
  (51952, false, false, false),
  (52924, false, false, false),
  (52970, false, false, false),
  (65296, true, false, true),
  (65305, true, false, true),
  (120782, true, false, true),
  (120831, true, false, true),
  (120832, false, false, false),
  (127232, true, false, false),
  (127243, false, false, false)] : List (Nat × Bool × Bool × Bool)).all (fun t => Py.isDigitChar (Char.ofNat t.1) == t.2.1 && Py.isSpace (Char.ofNat t.1) == t.2.2.1 && Py.isDecChar (Char.ofNat t.1) == t.2.2.2) = true := by
  decide +kernel

/-- `strip`, `rstrip("\n")`, `lstrip("\x1b[<")` -/
example : ([
  (cs [97, 27, 10, 98, 98], cs [97, 27, 10, 98, 98], cs [97, 27, 10, 98, 98], cs [97, 27, 10, 98, 98]),
  (cs [98, 9], cs [98], cs [98, 9], cs [98, 9]),
  (cs [32, 97, 10, 27, 9], cs [97, 10, 27], cs [32, 97, 10, 27, 9], cs [32, 97, 10, 27, 9]),
  (cs [32, 98, 98, 98, 27, 10, 97, 9, 32], cs [98, 98, 98, 27, 10, 97], cs [32, 98, 98, 98, 27, 10, 97, 9, 32], cs [32, 98, 98, 98, 27, 10, 97, 9, 32]),
  (cs [9, 10, 27, 9, 10, 10, 98, 98, 32], cs [27, 9, 10, 10, 98, 98], cs [9, 10, 27, 9, 10, 10, 98, 98, 32], cs [9, 10, 27, 9, 10, 10, 98, 98, 32]),
  (cs [27, 98, 97, 10, 9, 10], cs [27, 98, 97], cs [27, 98, 97, 10, 9], cs [98, 97, 10, 9, 10]),
  (cs [32, 9, 97], cs [97], cs [32, 9, 97], cs [32, 9, 97]),
  (cs [9, 59, 27, 32, 27, 59, 9], cs [59, 27, 32, 27, 59], cs [9, 59, 27, 32, 27, 59, 9], cs [9, 59, 27, 32, 27, 59, 9]),
  (cs [59, 97, 59, 9, 32, 98, 32, 59], cs [59, 97, 59, 9, 32, 98, 32, 59], cs [59, 97, 59, 9, 32, 98, 32, 59], cs [59, 97, 59, 9, 32, 98, 32, 59]),
  (cs [], cs [], cs [], cs []),
  (cs [27, 97, 97, 10, 32, 27], cs [27, 97, 97, 10, 32, 27], cs [27, 97, 97, 10, 32, 27], cs [97, 97, 10, 32, 27]),
  (cs [27, 98], cs [27, 98], cs [27, 98], cs [98]),
  (cs [32, 9], cs [], cs [32, 9], cs [32, 9]),
  (cs [59, 27, 59, 98], cs [59, 27, 59, 98], cs [59, 27, 59, 98], cs [59, 27, 59, 98]),
  (cs [97, 98, 59, 97, 98, 27, 32, 27, 10], cs [97, 98, 59, 97, 98, 27, 32, 27], cs [97, 98, 59, 97, 98, 27, 32, 27], cs [97, 98, 59, 97, 98, 27, 32, 27, 10]),
  (cs [10, 10, 10, 98, 98, 32, 59], cs [98, 98, 32, 59], cs [10, 10, 10, 98, 98, 32, 59], cs [10, 10, 10, 98, 98, 32, 59]),
  (cs [98, 10, 59, 32, 27, 27, 10], cs [98, 10, 59, 32, 27, 27], cs [98, 10, 59, 32, 27, 27], cs [98, 10, 59, 32, 27, 27, 10]),
  (cs [10, 98, 97, 97], cs [98, 97, 97], cs [10, 98, 97, 97], cs [10, 98, 97, 97]),
  (cs [10, 32, 98, 27, 9, 9, 98, 32], cs [98, 27, 9, 9, 98], cs [10, 32, 98, 27, 9, 9, 98, 32], cs [10, 32, 98, 27, 9, 9, 98, 32]),
  (cs [10, 32, 9, 27], cs [27], cs [10, 32, 9, 27], cs [10, 32, 9, 27]),
  (cs [98, 10, 10, 10, 59], cs [98, 10, 10, 10, 59], cs [98, 10, 10, 10, 59], cs [98, 10, 10, 10, 59]),
  (cs [97, 9, 97, 27, 27, 27, 59, 98, 98], cs [97, 9, 97, 27, 27, 27, 59, 98, 98], cs [97, 9, 97, 27, 27, 27, 59, 98, 98], cs [97, 9, 97, 27, 27, 27, 59, 98, 98]),
  (cs [59, 98, 27, 10], cs [59, 98, 27], cs [59, 98, 27], cs [59, 98, 27, 10]),
  (cs [], cs [], cs [], cs []),
  (cs [10, 59, 10, 10, 32, 59, 27], cs [59, 10, 10, 32, 59, 27], cs [10, 59, 10, 10, 32, 59, 27], cs [10, 59, 10, 10, 32, 59, 27]),
  (cs [27, 10], cs [27], cs [27], cs [10]),
  (cs [], cs [], cs [], cs []),
  (cs [97, 9, 32, 10, 97, 32, 10, 97], cs [97, 9, 32, 10, 97, 32, 10, 97], cs [97, 9, 32, 10, 97, 32, 10, 97], cs [97, 9, 32, 10, 97, 32, 10, 97]),
  (cs [9, 27], cs [27], cs [9, 27], cs [9, 27]),
  (cs [59], cs [59], cs [59], cs [59]),
  (cs [9, 59, 9], cs [59], cs [9, 59, 9], cs [9, 59, 9]),
  (cs [59, 98, 32, 59, 98, 27], cs [59, 98, 32, 59, 98, 27], cs [59, 98, 32, 59, 98, 27], cs [59, 98, 32, 59, 98, 27]),
  (cs [98, 97, 59, 27, 27, 59, 97], cs [98, 97, 59, 27, 27, 59, 97], cs [98, 97, 59, 27, 27, 59, 97], cs [98, 97, 59, 27, 27, 59, 97]),
  (cs [32, 98, 59, 10], cs [98, 59], cs [32, 98, 59], cs [32, 98, 59, 10]),
  (cs [97, 98, 27, 59, 27, 97, 97, 10], cs [97, 98, 27, 59, 27, 97, 97], cs [97, 98, 27, 59, 27, 97, 97], cs [97, 98, 27, 59, 27, 97, 97, 10]),
  (cs [98, 9, 32, 98, 98, 32, 98, 27, 98], cs [98, 9, 32, 98, 98, 32, 98, 27, 98], cs [98, 9, 32, 98, 98, 32, 98, 27, 98], cs [98, 9, 32, 98, 98, 32, 98, 27, 98]),
  (cs [32, 27, 9, 32], cs [27], cs [32, 27, 9, 32], cs [32, 27, 9, 32]),
  (cs [9, 9, 9, 9, 98, 27, 32], cs [98, 27], cs [9, 9, 9, 9, 98, 27, 32], cs [9, 9, 9, 9, 98, 27, 32]),
  (cs [59, 9, 97, 9, 98, 27, 59], cs [59, 9, 97, 9, 98, 27, 59], cs [59, 9, 97, 9, 98, 27, 59], cs [59, 9, 97, 9, 98, 27, 59]),
  (cs [32, 9, 97], cs [97], cs [32, 9, 97], cs [32, 9, 97])] : List (Str × Str × Str × Str)).all (fun t => decide (Py.strip t.1 = t.2.1) && decide (Py.rstrip (· == '\n') t.1 = t.2.2.1) && decide (Py.lstrip (fun c => c == '\x1b' || c == '[' || c == '<') t.1 = t.2.2.2)) = true := by
  decide +kernel

/-- `split(";")`, `split("ab")`, `replace("ab", "c")` -/
example : ([
  (cs [], [cs []], [cs []], cs []),
  (cs [98], [cs [98]], [cs [98]], cs [98]),
  (cs [], [cs []], [cs []], cs []),
  (cs [98, 97, 97, 98, 98, 98, 98, 59], [cs [98, 97, 97, 98, 98, 98, 98], cs []], [cs [98, 97], cs [98, 98, 98, 59]], cs [98, 97, 99, 98, 98, 98, 59]),
  (cs [98, 98, 98, 97, 97, 59, 59, 98], [cs [98, 98, 98, 97, 97], cs [], cs [98]], [cs [98, 98, 98, 97, 97, 59, 59, 98]], cs [98, 98, 98, 97, 97, 59, 59, 98]),
  (cs [98, 59, 98, 98], [cs [98], cs [98, 98]], [cs [98, 59, 98, 98]], cs [98, 59, 98, 98]),
  (cs [97, 59, 59, 97, 98, 97, 98], [cs [97], cs [], cs [97, 98, 97, 98]], [cs [97, 59, 59], cs [], cs []], cs [97, 59, 59, 99, 99]),
  (cs [98, 97, 59, 98, 98, 59, 98, 97, 59], [cs [98, 97], cs [98, 98], cs [98, 97], cs []], [cs [98, 97, 59, 98, 98, 59, 98, 97, 59]], cs [98, 97, 59, 98, 98, 59, 98, 97, 59]),
  (cs [98, 97, 98, 98, 97, 59, 98, 59, 59], [cs [98, 97, 98, 98, 97], cs [98], cs [], cs []], [cs [98], cs [98, 97, 59, 98, 59, 59]], cs [98, 99, 98, 97, 59, 98, 59, 59]),
  (cs [98, 98, 97, 59, 97], [cs [98, 98, 97], cs [97]], [cs [98, 98, 97, 59, 97]], cs [98, 98, 97, 59, 97]),
  (cs [97, 59, 97, 59], [cs [97], cs [97], cs []], [cs [97, 59, 97, 59]], cs [97, 59, 97, 59]),
  (cs [97, 97, 98, 97], [cs [97, 97, 98, 97]], [cs [97], cs [97]], cs [97, 99, 97]),
  (cs [98, 59, 98, 98, 97], [cs [98], cs [98, 98, 97]], [cs [98, 59, 98, 98, 97]], cs [98, 59, 98, 98, 97]),
  (cs [98, 59, 97, 59, 98, 97, 98], [cs [98], cs [97], cs [98, 97, 98]], [cs [98, 59, 97, 59, 98], cs []], cs [98, 59, 97, 59, 98, 99]),
  (cs [97, 98, 59, 97, 98, 97, 59, 97], [cs [97, 98], cs [97, 98, 97], cs [97]], [cs [], cs [59], cs [97, 59, 97]], cs [99, 59, 99, 97, 59, 97]),
  (cs [98, 97], [cs [98, 97]], [cs [98, 97]], cs [98, 97]),
  (cs [59], [cs [], cs []], [cs [59]], cs [59]),
  (cs [98, 98, 97, 98], [cs [98, 98, 97, 98]], [cs [98, 98], cs []], cs [98, 98, 99]),
  (cs [97, 98, 98], [cs [97, 98, 98]], [cs [], cs [98]], cs [99, 98]),
  (cs [97], [cs [97]], [cs [97]], cs [97]),
  (cs [98, 59, 98, 98, 97, 97, 98, 98], [cs [98], cs [98, 98, 97, 97, 98, 98]], [cs [98, 59, 98, 98, 97], cs [98]], cs [98, 59, 98, 98, 97, 99, 98]),
  (cs [98, 98, 97, 59], [cs [98, 98, 97], cs []], [cs [98, 98, 97, 59]], cs [98, 98, 97, 59]),
  (cs [59, 97, 59, 98, 98, 98, 97, 98], [cs [], cs [97], cs [98, 98, 98, 97, 98]], [cs [59, 97, 59, 98, 98, 98], cs []], cs [59, 97, 59, 98, 98, 98, 99]),
  (cs [97, 97, 98, 59, 98, 59, 97, 98, 97], [cs [97, 97, 98], cs [98], cs [97, 98, 97]], [cs [97], cs [59, 98, 59], cs [97]], cs [97, 99, 59, 98, 59, 99, 97]),
  (cs [97], [cs [97]], [cs [97]], cs [97]),
  (cs [59, 98, 97, 98, 98, 59, 98, 97, 97], [cs [], cs [98, 97, 98, 98], cs [98, 97, 97]], [cs [59, 98], cs [98, 59, 98, 97, 97]], cs [59, 98, 99, 98, 59, 98, 97, 97]),
  (cs [59, 98], [cs [], cs [98]], [cs [59, 98]], cs [59, 98]),
  (cs [59, 97, 97, 97], [cs [], cs [97, 97, 97]], [cs [59, 97, 97, 97]], cs [59, 97, 97, 97]),
  (cs [97, 97, 97, 59], [cs [97, 97, 97], cs []], [cs [97, 97, 97, 59]], cs [97, 97, 97, 59]),
  (cs [59, 97, 97, 97, 97], [cs [], cs [97, 97, 97, 97]], [cs [59, 97, 97, 97, 97]], cs [59, 97, 97, 97, 97]),
  (cs [97, 97, 97, 59, 98, 98, 59, 98, 98], [cs [97, 97, 97], cs [98, 98], cs [98, 98]], [cs [97, 97, 97, 59, 98, 98, 59, 98, 98]], cs [97, 97, 97, 59, 98, 98, 59, 98, 98]),
  (cs [98], [cs [98]], [cs [98]], cs [98]),
  (cs [97, 97], [cs [97, 97]], [cs [97, 97]], cs [97, 97]),
  (cs [97, 59, 59, 59, 97, 97], [cs [97], cs [], cs [], cs [97, 97]], [cs [97, 59, 59, 59, 97, 97]], cs [97, 59, 59, 59, 97, 97]),
  (cs [98, 59, 98], [cs [98], cs [98]], [cs [98, 59, 98]], cs [98, 59, 98]),
  (cs [59, 97, 59, 98, 98, 59, 98, 97, 97], [cs [], cs [97], cs [98, 98], cs [98, 97, 97]], [cs [59, 97, 59, 98, 98, 59, 98, 97, 97]], cs [59, 97, 59, 98, 98, 59, 98, 97, 97]),
  (cs [97], [cs [97]], [cs [97]], cs [97]),
  (cs [], [cs []], [cs []], cs []),
  (cs [], [cs []], [cs []], cs []),
  (cs [98, 59, 98, 98, 97, 59, 97], [cs [98], cs [98, 98, 97], cs [97]], [cs [98, 59, 98, 98, 97, 59, 97]], cs [98, 59, 98, 98, 97, 59, 97])] : List (Str × List Str × List Str × Str)).all (fun t => decide (Py.splitC ';' t.1 = t.2.1) && decide (Py.splitS ['a', 'b'] t.1 = t.2.2.1) && decide (Py.replace ['a', 'b'] ['c'] t.1 = t.2.2.2)) = true := by
  decide +kernel

/-- `html.escape` -/
example : ([
  (cs [97, 97], cs [97, 97]),
  (cs [62, 97, 59, 34, 62, 60], cs [38, 103, 116, 59, 97, 59, 38, 113, 117, 111, 116, 59, 38, 103, 116, 59, 38, 108, 116, 59]),
  (cs [34, 97, 97, 97, 62, 97, 34], cs [38, 113, 117, 111, 116, 59, 97, 97, 97, 38, 103, 116, 59, 97, 38, 113, 117, 111, 116, 59]),
  (cs [59], cs [59]),
  (cs [38], cs [38, 97, 109, 112, 59]),
  (cs [], cs []),
  (cs [62, 34, 38, 35, 59, 39, 34], cs [38, 103, 116, 59, 38, 113, 117, 111, 116, 59, 38, 97, 109, 112, 59, 35, 59, 38, 35, 120, 50, 55, 59, 38, 113, 117, 111, 116, 59]),
  (cs [38, 38, 97, 62], cs [38, 97, 109, 112, 59, 38, 97, 109, 112, 59, 97, 38, 103, 116, 59]),
  (cs [59, 97, 39, 59, 38], cs [59, 97, 38, 35, 120, 50, 55, 59, 59, 38, 97, 109, 112, 59]),
  (cs [59, 60, 34, 60, 34, 62, 60, 62], cs [59, 38, 108, 116, 59, 38, 113, 117, 111, 116, 59, 38, 108, 116, 59, 38, 113, 117, 111, 116, 59, 38, 103, 116, 59, 38, 108, 116, 59, 38, 103, 116, 59]),
  (cs [], cs []),
  (cs [59, 97, 97], cs [59, 97, 97]),
  (cs [35], cs [35]),
  (cs [39, 60, 39, 97, 62, 97, 35, 62], cs [38, 35, 120, 50, 55, 59, 38, 108, 116, 59, 38, 35, 120, 50, 55, 59, 97, 38, 103, 116, 59, 97, 35, 38, 103, 116, 59]),
  (cs [35, 97, 34, 60, 34, 39], cs [35, 97, 38, 113, 117, 111, 116, 59, 38, 108, 116, 59, 38, 113, 117, 111, 116, 59, 38, 35, 120, 50, 55, 59]),
  (cs [34], cs [38, 113, 117, 111, 116, 59]),
  (cs [], cs []),
  (cs [97, 34, 39, 62, 34, 59], cs [97, 38, 113, 117, 111, 116, 59, 38, 35, 120, 50, 55, 59, 38, 103, 116, 59, 38, 113, 117, 111, 116, 59, 59]),
  (cs [34], cs [38, 113, 117, 111, 116, 59]),
  (cs [59], cs [59])] : List (Str × Str)).all (fun t => decide (htmlEscape t.1 = t.2)) = true := by
  decide +kernel

/-- `str(n)`, `f"{n:02X}"` -/
example : ([
  (0, cs [48]),
  (1, cs [49]),
  (9, cs [57]),
  (10, cs [49, 48]),
  (99, cs [57, 57]),
  (100, cs [49, 48, 48]),
  (255, cs [50, 53, 53]),
  (1000, cs [49, 48, 48, 48]),
  (-1, cs [45, 49]),
  (-10, cs [45, 49, 48]),
  (-255, cs [45, 50, 53, 53]),
  (12345678901234567890, cs [49, 50, 51, 52, 53, 54, 55, 56, 57, 48, 49, 50, 51, 52, 53, 54, 55, 56, 57, 48])] : List (Int × Str)).all (fun t => decide (Py.decInt t.1 = t.2)) = true := by
  decide +kernel

/-- `f"{n:02X}"` -/
example : ([
  (0, cs [48, 48]),
  (1, cs [48, 49]),
  (2, cs [48, 50]),
  (3, cs [48, 51]),
  (4, cs [48, 52]),
  (5, cs [48, 53]),
  (6, cs [48, 54]),
  (7, cs [48, 55]),
  (8, cs [48, 56]),
  (9, cs [48, 57]),
  (10, cs [48, 65]),
  (11, cs [48, 66]),
  (12, cs [48, 67]),
  (13, cs [48, 68]),
  (14, cs [48, 69]),
  (15, cs [48, 70]),
  (16, cs [49, 48]),
  (17, cs [49, 49]),
  (18, cs [49, 50]),
  (19, cs [49, 51]),
  (20, cs [49, 52]),
  (21, cs [49, 53]),
  (22, cs [49, 54]),
  (23, cs [49, 55]),
  (24, cs [49, 56]),
  (25, cs [49, 57]),
  (26, cs [49, 65]),
  (27, cs [49, 66]),
  (28, cs [49, 67]),
  (29, cs [49, 68]),
  (30, cs [49, 69]),
  (31, cs [49, 70]),
  (32, cs [50, 48]),
  (33, cs [50, 49]),
  (34, cs [50, 50]),
  (35, cs [50, 51]),
  (36, cs [50, 52]),
  (37, cs [50, 53]),
  (38, cs [50, 54]),
  (39, cs [50, 55]),
  (40, cs [50, 56]),
  (41, cs [50, 57]),
  (42, cs [50, 65]),
  (43, cs [50, 66]),
  (44, cs [50, 67]),
  (45, cs [50, 68]),
  (46, cs [50, 69]),
  (47, cs [50, 70]),
  (48, cs [51, 48]),
  (49, cs [51, 49]),
  (50, cs [51, 50]),
  (51, cs [51, 51]),
  (52, cs [51, 52]),
  (53, cs [51, 53]),
  (54, cs [51, 54]),
  (55, cs [51, 55]),
  (56, cs [51, 56]),
  (57, cs [51, 57]),
  (58, cs [51, 65]),
  (59, cs [51, 66]),
  (60, cs [51, 67]),
  (61, cs [51, 68]),
  (62, cs [51, 69]),
  (63, cs [51, 70]),
  (64, cs [52, 48]),
  (65, cs [52, 49]),
  (66, cs [52, 50]),
  (67, cs [52, 51]),
  (68, cs [52, 52]),
  (69, cs [52, 53]),
  (70, cs [52, 54]),
  (71, cs [52, 55]),
  (72, cs [52, 56]),
  (73, cs [52, 57]),
  (74, cs [52, 65]),
  (75, cs [52, 66]),
  (76, cs [52, 67]),
  (77, cs [52, 68]),
  (78, cs [52, 69]),
  (79, cs [52, 70]),
  (80, cs [53, 48]),
  (81, cs [53, 49]),
  (82, cs [53, 50]),
  (83, cs [53, 51]),
  (84, cs [53, 52]),
  (85, cs [53, 53]),
  (86, cs [53, 54]),
  (87, cs [53, 55]),
  (88, cs [53, 56]),
  (89, cs [53, 57]),
  (90, cs [53, 65]),
  (91, cs [53, 66]),
  (92, cs [53, 67]),
  (93, cs [53, 68]),
  (94, cs [53, 69]),
  (95, cs [53, 70]),
  (96, cs [54, 48]),
  (97, cs [54, 49]),
  (98, cs [54, 50]),
  (99, cs [54, 51]),
  (100, cs [54, 52]),
  (101, cs [54, 53]),
  (102, cs [54, 54]),
  (103, cs [54, 55]),
  (104, cs [54, 56]),
  (105, cs [54, 57]),
  (106, cs [54, 65]),
  (107, cs [54, 66]),
  (108, cs [54, 67]),
  (109, cs [54, 68]),
  (110, cs [54, 69]),
  (111, cs [54, 70]),
  (112, cs [55, 48]),
  (113, cs [55, 49]),
  (114, cs [55, 50]),
  (115, cs [55, 51]),
  (116, cs [55, 52]),
  (117, cs [55, 53]),
  (118, cs [55, 54]),
  (119, cs [55, 55]),
  (120, cs [55, 56]),
  (121, cs [55, 57]),
  (122, cs [55, 65]),
  (123, cs [55, 66]),
  (124, cs [55, 67]),
  (125, cs [55, 68]),
  (126, cs [55, 69]),
  (127, cs [55, 70]),
  (128, cs [56, 48]),
  (129, cs [56, 49]),
  (130, cs [56, 50]),
  (131, cs [56, 51]),
  (132, cs [56, 52]),
  (133, cs [56, 53]),
  (134, cs [56, 54]),
  (135, cs [56, 55]),
  (136, cs [56, 56]),
  (137, cs [56, 57]),
  (138, cs [56, 65]),
  (139, cs [56, 66]),
  (140, cs [56, 67]),
  (141, cs [56, 68]),
  (142, cs [56, 69]),
  (143, cs [56, 70]),
  (144, cs [57, 48]),
  (145, cs [57, 49]),
  (146, cs [57, 50]),
  (147, cs [57, 51]),
  (148, cs [57, 52]),
  (149, cs [57, 53]),
  (150, cs [57, 54]),
  (151, cs [57, 55]),
  (152, cs [57, 56]),
  (153, cs [57, 57]),
  (154, cs [57, 65]),
  (155, cs [57, 66]),
  (156, cs [57, 67]),
  (157, cs [57, 68]),
  (158, cs [57, 69]),
  (159, cs [57, 70]),
  (160, cs [65, 48]),
  (161, cs [65, 49]),
  (162, cs [65, 50]),
  (163, cs [65, 51]),
  (164, cs [65, 52]),
  (165, cs [65, 53]),
  (166, cs [65, 54]),
  (167, cs [65, 55]),
  (168, cs [65, 56]),
  (169, cs [65, 57]),
  (170, cs [65, 65]),
  (171, cs [65, 66]),
  (172, cs [65, 67]),
  (173, cs [65, 68]),
  (174, cs [65, 69]),
  (175, cs [65, 70]),
  (176, cs [66, 48]),
  (177, cs [66, 49]),
  (178, cs [66, 50]),
  (179, cs [66, 51]),
  (180, cs [66, 52]),
  (181, cs [66, 53]),
  (182, cs [66, 54]),
  (183, cs [66, 55]),
  (184, cs [66, 56]),
  (185, cs [66, 57]),
  (186, cs [66, 65]),
  (187, cs [66, 66]),
  (188, cs [66, 67]),
  (189, cs [66, 68]),
  (190, cs [66, 69]),
  (191, cs [66, 70]),
  (192, cs [67, 48]),
  (193, cs [67, 49]),
  (194, cs [67, 50]),
  (195, cs [67, 51]),
  (196, cs [67, 52]),
  (197, cs [67, 53]),
  (198, cs [67, 54]),
  (199, cs [67, 55]),
  (200, cs [67, 56]),
  (201, cs [67, 57]),
  (202, cs [67, 65]),
  (203, cs [67, 66]),
  (204, cs [67, 67]),
  (205, cs [67, 68]),
  (206, cs [67, 69]),
  (207, cs [67, 70]),
  (208, cs [68, 48]),
  (209, cs [68, 49]),
  (210, cs [68, 50]),
  (211, cs [68, 51]),
  (212, cs [68, 52]),
  (213, cs [68, 53]),
  (214, cs [68, 54]),
  (215, cs [68, 55]),
  (216, cs [68, 56]),
  (217, cs [68, 57]),
  (218, cs [68, 65]),
  (219, cs [68, 66]),
  (220, cs [68, 67]),
  (221, cs [68, 68]),
  (222, cs [68, 69]),
  (223, cs [68, 70]),
  (224, cs [69, 48]),
  (225, cs [69, 49]),
  (226, cs [69, 50]),
  (227, cs [69, 51]),
  (228, cs [69, 52]),
  (229, cs [69, 53]),
  (230, cs [69, 54]),
  (231, cs [69, 55]),
  (232, cs [69, 56]),
  (233, cs [69, 57]),
  (234, cs [69, 65]),
  (235, cs [69, 66]),
  (236, cs [69, 67]),
  (237, cs [69, 68]),
  (238, cs [69, 69]),
  (239, cs [69, 70]),
  (240, cs [70, 48]),
  (241, cs [70, 49]),
  (242, cs [70, 50]),
  (243, cs [70, 51]),
  (244, cs [70, 52]),
  (245, cs [70, 53]),
  (246, cs [70, 54]),
  (247, cs [70, 55]),
  (248, cs [70, 56]),
  (249, cs [70, 57]),
  (250, cs [70, 65]),
  (251, cs [70, 66]),
  (252, cs [70, 67]),
  (253, cs [70, 68]),
  (254, cs [70, 69]),
  (255, cs [70, 70])] : List (Nat × Str)).all (fun t => decide (Py.hex2 t.1 = t.2)) = true := by
  decide +kernel

/-- Slices `s[i:j]` -/
example : ([
  (cs [], none, none, cs []),
  (cs [], none, some (-6), cs []),
  (cs [], none, some (-1), cs []),
  (cs [], none, some (0), cs []),
  (cs [], none, some (2), cs []),
  (cs [], none, some (5), cs []),
  (cs [], none, some (8), cs []),
  (cs [], some (-7), none, cs []),
  (cs [], some (-7), some (-6), cs []),
  (cs [], some (-7), some (-1), cs []),
  (cs [], some (-7), some (0), cs []),
  (cs [], some (-7), some (2), cs []),
  (cs [], some (-7), some (5), cs []),
  (cs [], some (-7), some (8), cs []),
  (cs [], some (-2), none, cs []),
  (cs [], some (-2), some (-6), cs []),
  (cs [], some (-2), some (-1), cs []),
  (cs [], some (-2), some (0), cs []),
  (cs [], some (-2), some (2), cs []),
  (cs [], some (-2), some (5), cs []),
  (cs [], some (-2), some (8), cs []),
  (cs [], some (0), none, cs []),
  (cs [], some (0), some (-6), cs []),
  (cs [], some (0), some (-1), cs []),
  (cs [], some (0), some (0), cs []),
  (cs [], some (0), some (2), cs []),
  (cs [], some (0), some (5), cs []),
  (cs [], some (0), some (8), cs []),
  (cs [], some (1), none, cs []),
  (cs [], some (1), some (-6), cs []),
  (cs [], some (1), some (-1), cs []),
  (cs [], some (1), some (0), cs []),
  (cs [], some (1), some (2), cs []),
  (cs [], some (1), some (5), cs []),
  (cs [], some (1), some (8), cs []),
  (cs [], some (3), none, cs []),
  (cs [], some (3), some (-6), cs []),
  (cs [], some (3), some (-1), cs []),
  (cs [], some (3), some (0), cs []),
  (cs [], some (3), some (2), cs []),
  (cs [], some (3), some (5), cs []),
  (cs [], some (3), some (8), cs []),
  (cs [], some (9), none, cs []),
  (cs [], some (9), some (-6), cs []),
  (cs [], some (9), some (-1), cs []),
  (cs [], some (9), some (0), cs []),
  (cs [], some (9), some (2), cs []),
  (cs [], some (9), some (5), cs []),
  (cs [], some (9), some (8), cs []),
  (cs [97], none, none, cs [97]),
  (cs [97], none, some (-6), cs []),
  (cs [97], none, some (-1), cs []),
  (cs [97], none, some (0), cs []),
  (cs [97], none, some (2), cs [97]),
  (cs [97], none, some (5), cs [97]),
  (cs [97], none, some (8), cs [97]),
  (cs [97], some (-7), none, cs [97]),
  (cs [97], some (-7), some (-6), cs []),
  (cs [97], some (-7), some (-1), cs []),
  (cs [97], some (-7), some (0), cs []),
  (cs [97], some (-7), some (2), cs [97]),
  (cs [97], some (-7), some (5), cs [97]),
  (cs [97], some (-7), some (8), cs [97]),
  (cs [97], some (-2), none, cs [97]),
  (cs [97], some (-2), some (-6), cs []),
  (cs [97], some (-2), some (-1), cs []),
  (cs [97], some (-2), some (0), cs []),
  (cs [97], some (-2), some (2), cs [97]),
  (cs [97], some (-2), some (5), cs [97]),
  (cs [97], some (-2), some (8), cs [97]),
  (cs [97], some (0), none, cs [97]),
  (cs [97], some (0), some (-6), cs []),
  (cs [97], some (0), some (-1), cs []),
  (cs [97], some (0), some (0), cs []),
  (cs [97], some (0), some (2), cs [97]),
  (cs [97], some (0), some (5), cs [97]),
  (cs [97], some (0), some (8), cs [97]),
  (cs [97], some (1), none, cs []),
  (cs [97], some (1), some (-6), cs []),
  (cs [97], some (1), some (-1), cs []),
  (cs [97], some (1), some (0), cs []),
  (cs [97], some (1), some (2), cs []),
  (cs [97], some (1), some (5), cs []),
  (cs [97], some (1), some (8), cs []),
  (cs [97], some (3), none, cs []),
  (cs [97], some (3), some (-6), cs []),
  (cs [97], some (3), some (-1), cs []),
  (cs [97], some (3), some (0), cs []),
  (cs [97], some (3), some (2), cs []),
  (cs [97], some (3), some (5), cs []),
  (cs [97], some (3), some (8), cs []),
  (cs [97], some (9), none, cs []),
  (cs [97], some (9), some (-6), cs []),
  (cs [97], some (9), some (-1), cs []),
  (cs [97], some (9), some (0), cs []),
  (cs [97], some (9), some (2), cs []),
  (cs [97], some (9), some (5), cs []),
  (cs [97], some (9), some (8), cs []),
  (cs [97, 98, 99, 100, 101], none, none, cs [97, 98, 99, 100, 101]),
  (cs [97, 98, 99, 100, 101], none, some (-6), cs []),
  (cs [97, 98, 99, 100, 101], none, some (-1), cs [97, 98, 99, 100]),
  (cs [97, 98, 99, 100, 101], none, some (0), cs []),
  (cs [97, 98, 99, 100, 101], none, some (2), cs [97, 98]),
  (cs [97, 98, 99, 100, 101], none, some (5), cs [97, 98, 99, 100, 101]),
  (cs [97, 98, 99, 100, 101], none, some (8), cs [97, 98, 99, 100, 101]),
  (cs [97, 98, 99, 100, 101], some (-7), none, cs [97, 98, 99, 100, 101]),
  (cs [97, 98, 99, 100, 101], some (-7), some (-6), cs []),
  (cs [97, 98, 99, 100, 101], some (-7), some (-1), cs [97, 98, 99, 100]),
  (cs [97, 98, 99, 100, 101], some (-7), some (0), cs []),
  (cs [97, 98, 99, 100, 101], some (-7), some (2), cs [97, 98]),
  (cs [97, 98, 99, 100, 101], some (-7), some (5), cs [97, 98, 99, 100, 101]),
  (cs [97, 98, 99, 100, 101], some (-7), some (8), cs [97, 98, 99, 100, 101]),
  (cs [97, 98, 99, 100, 101], some (-2), none, cs [100, 101]),
  (cs [97, 98, 99, 100, 101], some (-2), some (-6), cs []),
  (cs [97, 98, 99, 100, 101], some (-2), some (-1), cs [100]),
  (cs [97, 98, 99, 100, 101], some (-2), some (0), cs []),
  (cs [97, 98, 99, 100, 101], some (-2), some (2), cs []),
  (cs [97, 98, 99, 100, 101], some (-2), some (5), cs [100, 101]),
  (cs [97, 98, 99, 100, 101], some (-2), some (8), cs [100, 101]),
  (cs [97, 98, 99, 100, 101], some (0), none, cs [97, 98, 99, 100, 101]),
  (cs [97, 98, 99, 100, 101], some (0), some (-6), cs []),
  (cs [97, 98, 99, 100, 101], some (0), some (-1), cs [97, 98, 99, 100]),
  (cs [97, 98, 99, 100, 101], some (0), some (0), cs []),
  (cs [97, 98, 99, 100, 101], some (0), some (2), cs [97, 98]),
  (cs [97, 98, 99, 100, 101], some (0), some (5), cs [97, 98, 99, 100, 101]),
  (cs [97, 98, 99, 100, 101], some (0), some (8), cs [97, 98, 99, 100, 101]),
  (cs [97, 98, 99, 100, 101], some (1), none, cs [98, 99, 100, 101]),
  (cs [97, 98, 99, 100, 101], some (1), some (-6), cs []),
  (cs [97, 98, 99, 100, 101], some (1), some (-1), cs [98, 99, 100]),
  (cs [97, 98, 99, 100, 101], some (1), some (0), cs []),
  (cs [97, 98, 99, 100, 101], some (1), some (2), cs [98]),
  (cs [97, 98, 99, 100, 101], some (1), some (5), cs [98, 99, 100, 101]),
  (cs [97, 98, 99, 100, 101], some (1), some (8), cs [98, 99, 100, 101]),
  (cs [97, 98, 99, 100, 101], some (3), none, cs [100, 101]),
  (cs [97, 98, 99, 100, 101], some (3), some (-6), cs []),
  (cs [97, 98, 99, 100, 101], some (3), some (-1), cs [100]),
  (cs [97, 98, 99, 100, 101], some (3), some (0), cs []),
  (cs [97, 98, 99, 100, 101], some (3), some (2), cs []),
  (cs [97, 98, 99, 100, 101], some (3), some (5), cs [100, 101]),
  (cs [97, 98, 99, 100, 101], some (3), some (8), cs [100, 101]),
  (cs [97, 98, 99, 100, 101], some (9), none, cs []),
  (cs [97, 98, 99, 100, 101], some (9), some (-6), cs []),
  (cs [97, 98, 99, 100, 101], some (9), some (-1), cs []),
  (cs [97, 98, 99, 100, 101], some (9), some (0), cs []),
  (cs [97, 98, 99, 100, 101], some (9), some (2), cs []),
  (cs [97, 98, 99, 100, 101], some (9), some (5), cs []),
  (cs [97, 98, 99, 100, 101], some (9), some (8), cs [])] : List (Str × Option Int × Option Int × Str)).all (fun t => decide (Span.sliceStr t.1 t.2.1 t.2.2.1 = t.2.2.2)) = true := by
  decide +kernel

/-- `repr(s)`, with ASCII as the printable characters -/
example : ([
  (cs [], cs [39, 39]),
  (cs [39], cs [34, 39, 34]),
  (cs [34], cs [39, 34, 39]),
  (cs [39, 34], cs [39, 92, 39, 34, 39]),
  (cs [92], cs [39, 92, 92, 39]),
  (cs [97, 10], cs [39, 97, 92, 110, 39]),
  (cs [9, 13], cs [39, 92, 116, 92, 114, 39]),
  (cs [27, 91, 65], cs [39, 92, 120, 49, 98, 91, 65, 39]),
  (cs [0, 127], cs [39, 92, 120, 48, 48, 92, 120, 55, 102, 39]),
  (cs [105, 116, 39, 115], cs [34, 105, 116, 39, 115, 34]),
  (cs [115, 97, 121, 32, 34, 120, 34], cs [39, 115, 97, 121, 32, 34, 120, 34, 39]),
  (cs [92, 39], cs [34, 92, 92, 39, 34]),
  (cs [10], cs [39, 92, 110, 39]),
  (cs [39, 34, 34, 10], cs [39, 92, 39, 34, 34, 92, 110, 39]),
  (cs [10, 92, 97], cs [39, 92, 110, 92, 92, 97, 39]),
  (cs [27], cs [39, 92, 120, 49, 98, 39]),
  (cs [10, 10, 27], cs [39, 92, 110, 92, 110, 92, 120, 49, 98, 39]),
  (cs [27, 10, 10, 97], cs [39, 92, 120, 49, 98, 92, 110, 92, 110, 97, 39]),
  (cs [27, 39], cs [34, 92, 120, 49, 98, 39, 34]),
  (cs [34], cs [39, 34, 39]),
  (cs [10, 34, 97], cs [39, 92, 110, 34, 97, 39]),
  (cs [34, 39, 10], cs [39, 34, 92, 39, 92, 110, 39]),
  (cs [], cs [39, 39]),
  (cs [], cs [39, 39]),
  (cs [128, 128], cs [39, 92, 120, 56, 48, 92, 120, 56, 48, 39]),
  (cs [10, 34, 92, 34, 34], cs [39, 92, 110, 34, 92, 92, 34, 34, 39]),
  (cs [34, 34], cs [39, 34, 34, 39]),
  (cs [27, 10, 10, 97, 10], cs [39, 92, 120, 49, 98, 92, 110, 92, 110, 97, 92, 110, 39]),
  (cs [], cs [39, 39]),
  (cs [34], cs [39, 34, 39]),
  (cs [34, 128, 34, 10, 97], cs [39, 34, 92, 120, 56, 48, 34, 92, 110, 97, 39]),
  (cs [34, 92, 92], cs [39, 34, 92, 92, 92, 92, 39])] : List (Str × Str)).all (fun t => decide (reprOf (fun c => decide (32 ≤ c.toNat) && decide (c.toNat < 127)) t.1 = t.2)) = true := by
  decide +kernel

/-- `re.sub` with the pattern of `RE_ANSI` -/
example : ([
  (cs [109, 59, 72, 10, 27, 71, 49, 27, 91, 27, 95, 92, 71, 10], cs [109, 59, 72, 10, 27, 71, 49, 27, 91, 27, 95, 92, 71, 10]),
  (cs [49, 91, 59, 71], cs [49, 91, 59, 71]),
  (cs [109, 109, 49, 97, 109, 72, 93, 92, 71, 109, 95], cs [109, 109, 49, 97, 109, 72, 93, 92, 71, 109, 95]),
  (cs [91, 27, 91, 93, 97, 91, 71, 91], cs [91, 27, 91, 93, 97, 91, 71, 91]),
  (cs [27, 91, 49, 72, 59, 71, 27, 49, 27, 95, 97, 93, 59, 27], cs [59, 71, 27, 49, 27, 95, 97, 93, 59, 27]),
  (cs [93, 27, 97], cs [93, 27, 97]),
  (cs [95, 97, 27, 10, 27, 49, 10, 91, 97], cs [95, 97, 27, 10, 27, 49, 10, 91, 97]),
  (cs [91, 95, 10, 72, 27, 71, 109, 10, 92, 59, 49, 93, 91], cs [91, 95, 10, 72, 27, 71, 109, 10, 92, 59, 49, 93, 91]),
  (cs [91, 71, 92, 10, 91, 72, 92, 97, 109, 95, 91, 49, 92, 59], cs [91, 71, 92, 10, 91, 72, 92, 97, 109, 95, 91, 49, 92, 59]),
  (cs [10], cs [10]),
  (cs [93, 72, 91, 27, 59, 95, 49, 72, 95, 92, 27, 72, 71], cs [93, 72, 91, 27, 59, 95, 49, 72, 95, 92, 27, 72, 71]),
  (cs [95, 49, 71, 71, 72, 27, 109, 10, 92, 27, 91, 93, 59, 59], cs [95, 49, 71, 71, 72, 27, 109, 10, 92, 27, 91, 93, 59, 59]),
  (cs [27, 95, 27, 10, 93, 95, 59, 109, 49, 95], cs [27, 95, 27, 10, 93, 95, 59, 109, 49, 95]),
  (cs [71, 95, 93, 95, 72, 95, 10, 95, 72, 71], cs [71, 95, 93, 95, 72, 95, 10, 95, 72, 71]),
  (cs [71, 93, 92, 93, 91, 95, 92, 71, 91, 95], cs [71, 93, 92, 93, 91, 95, 92, 71, 91, 95]),
  (cs [91, 93, 97, 27, 72, 59, 97, 71, 27, 109, 72, 72], cs [91, 93, 97, 27, 72, 59, 97, 71, 27, 109, 72, 72]),
  (cs [97, 49, 97, 27], cs [97, 49, 97, 27]),
  (cs [27, 27, 10, 27, 72, 93, 92, 93, 49, 49, 109, 97, 59, 10], cs [27, 27, 10, 27, 72, 93, 92, 93, 49, 49, 109, 97, 59, 10]),
  (cs [49, 109, 72, 92, 49, 27, 92], cs [49, 109, 72, 92, 49, 27, 92]),
  (cs [91, 72, 91, 27, 91], cs [91, 72, 91, 27, 91]),
  (cs [93, 109, 10, 91, 71, 49, 93, 72, 93, 95, 93, 59, 72], cs [93, 109, 10, 91, 71, 49, 93, 72, 93, 95, 93, 59, 72]),
  (cs [93, 72, 109, 49, 92, 91, 59, 10, 92, 72, 59], cs [93, 72, 109, 49, 92, 91, 59, 10, 92, 72, 59]),
  (cs [27, 27, 91, 91, 91, 91], cs [27, 27, 91, 91, 91, 91]),
  (cs [27, 27, 93, 91, 92, 49, 27, 72, 97, 59, 91], cs [27, 27, 93, 91, 92, 49, 27, 72, 97, 59, 91]),
  (cs [27, 27, 72, 71, 27, 95, 91, 95, 72, 109, 27, 97, 27], cs [27, 27, 72, 71, 27, 95, 91, 95, 72, 109, 27, 97, 27]),
  (cs [95, 97, 72, 10, 97, 59, 27, 93, 97, 93, 91], cs [95, 97, 72, 10, 97, 59, 27, 93, 97, 93, 91]),
  (cs [49, 49, 59, 10, 27, 49, 91], cs [49, 49, 59, 10, 27, 49, 91]),
  (cs [97, 27, 10, 72, 27, 97, 92, 93, 97, 95], cs [97, 27, 10, 72, 27, 97, 92, 93, 97, 95]),
  (cs [72, 27, 71, 10, 92, 27, 91], cs [72, 27, 71, 10, 92, 27, 91]),
  (cs [71, 59, 91, 91, 95, 93], cs [71, 59, 91, 91, 95, 93]),
  (cs [59, 95, 93, 10, 92, 97], cs [59, 95, 93, 10, 92, 97]),
  (cs [49, 95, 91, 49, 49, 71, 109, 10, 92, 27, 27, 49, 59, 97], cs [49, 95, 91, 49, 49, 71, 109, 10, 92, 27, 27, 49, 59, 97]),
  (cs [59, 93, 27, 95, 97], cs [59, 93, 27, 95, 97]),
  (cs [93, 49, 10, 27, 91, 95, 93], cs [93, 49, 10, 27, 91, 95, 93]),
  (cs [59, 91, 72, 91], cs [59, 91, 72, 91]),
  (cs [93, 91], cs [93, 91]),
  (cs [95, 97, 71, 27, 95, 10], cs [95, 97, 71, 27, 95, 10]),
  (cs [95, 91, 72, 93, 93, 92, 59, 93, 93], cs [95, 91, 72, 93, 93, 92, 59, 93, 93]),
  (cs [91, 92, 109, 71, 92, 91, 109], cs [91, 92, 109, 71, 92, 91, 109]),
  (cs [71, 49], cs [71, 49]),
  (cs [59, 71], cs [59, 71]),
  (cs [92, 95, 91, 27, 95, 109, 95, 59, 91, 97, 49], cs [92, 95, 91, 27, 95, 109, 95, 59, 91, 97, 49]),
  (cs [91, 109, 71, 92, 92, 109, 27, 91, 91, 59, 93, 91], cs [91, 109, 71, 92, 92, 109, 27, 91, 91, 59, 93, 91]),
  (cs [97], cs [97]),
  (cs [10, 59, 27, 71, 91, 97, 27, 91], cs [10, 59, 27, 71, 91, 97, 27, 91]),
  (cs [91, 95, 71, 97, 93, 72, 109, 27, 49], cs [91, 95, 71, 97, 93, 72, 109, 27, 49]),
  (cs [], cs []),
  (cs [93, 10, 71, 91, 27, 59, 91, 93, 97, 97, 10, 109, 93], cs [93, 10, 71, 91, 27, 59, 91, 93, 97, 97, 10, 109, 93]),
  (cs [59, 95, 72, 27, 27, 109, 109, 91, 27], cs [59, 95, 72, 27, 27, 109, 109, 91, 27]),
  (cs [49, 91, 97, 71], cs [49, 91, 97, 71]),
  (cs [], cs []),
  (cs [27, 27, 59, 27, 93], cs [27, 27, 59, 27, 93]),
  (cs [91, 93, 95, 27, 109], cs [91, 93, 95, 27, 109]),
  (cs [], cs []),
  (cs [91], cs [91]),
  (cs [72, 109, 59, 97, 59, 91, 27, 97, 109, 93, 27, 95, 109, 27], cs [72, 109, 59, 97, 59, 91, 27, 97, 109, 93, 27, 95, 109, 27]),
  (cs [49, 49, 97, 59, 10], cs [49, 49, 97, 59, 10]),
  (cs [71, 10], cs [71, 10]),
  (cs [72, 27, 97, 71], cs [72, 27, 97, 71]),
  (cs [59, 95, 92, 71, 72, 95, 72, 93, 91], cs [59, 95, 92, 71, 72, 95, 72, 93, 91]),
  (cs [93, 95, 91, 27, 71, 95, 27, 91, 91, 91], cs [93, 95, 91, 27, 71, 95, 27, 91, 91, 91]),
  (cs [72, 93, 95, 27, 93, 95, 93, 95, 93, 92, 91, 72, 59, 27], cs [72, 93, 95, 27, 93, 95, 93, 95, 93, 92, 91, 72, 59, 27]),
  (cs [109, 27, 97, 95, 109, 95, 95, 10, 49, 59, 95], cs [109, 27, 97, 95, 109, 95, 95, 10, 49, 59, 95]),
  (cs [71, 27, 71, 93, 92, 97, 91, 91, 27, 71], cs [71, 27, 71, 93, 92, 97, 91, 91, 27, 71]),
  (cs [97, 10], cs [97, 10]),
  (cs [92, 10, 49], cs [92, 10, 49]),
  (cs [49, 109, 109, 93, 91, 91, 10, 49, 72, 10, 92, 72, 27], cs [49, 109, 109, 93, 91, 91, 10, 49, 72, 10, 92, 72, 27]),
  (cs [91, 93, 93, 97, 97, 49, 97, 71, 27], cs [91, 93, 93, 97, 97, 49, 97, 71, 27]),
  (cs [27, 10, 97, 91, 72, 59, 95, 27], cs [27, 10, 97, 91, 72, 59, 95, 27]),
  (cs [27, 49, 72, 71, 97, 72, 93], cs [27, 49, 72, 71, 97, 72, 93]),
  (cs [109, 72, 72, 71, 92, 27, 27, 92, 49, 27, 97, 59, 59, 27], cs [109, 72, 72, 71, 92, 27, 27, 92, 49, 27, 97, 59, 59, 27]),
  (cs [27, 10, 27, 71, 91, 95, 95, 49, 109, 95, 93, 49], cs [27, 10, 27, 71, 91, 95, 95, 49, 109, 95, 93, 49]),
  (cs [97, 109, 49, 92, 10, 59, 91, 49, 71], cs [97, 109, 49, 92, 10, 59, 91, 49, 71]),
  (cs [27, 95, 109], cs [27, 95, 109]),
  (cs [91, 27, 49, 27, 59, 109, 72, 59, 109, 93, 97, 97, 49], cs [91, 27, 49, 27, 59, 109, 72, 59, 109, 93, 97, 97, 49]),
  (cs [27, 71, 72, 72, 72, 109, 93, 49, 10, 109, 92, 49, 59, 91], cs [27, 71, 72, 72, 72, 109, 93, 49, 10, 109, 92, 49, 59, 91]),
  (cs [71, 95, 91, 27, 109, 97, 27, 95, 91, 95], cs [71, 95, 91, 27, 109, 97, 27, 95, 91, 95]),
  (cs [97, 92, 109, 49, 59, 27, 71, 27, 92, 91], cs [97, 92, 109, 49, 59, 27, 71, 27, 92, 91]),
  (cs [97, 10, 91, 72, 59, 91], cs [97, 10, 91, 72, 59, 91]),
  (cs [91], cs [91]),
  (cs [109, 97, 91, 49, 97], cs [109, 97, 91, 49, 97]),
  (cs [59, 92, 109, 92, 97, 49, 97], cs [59, 92, 109, 92, 97, 49, 97]),
  (cs [91, 72, 92, 72, 95, 27, 71, 92, 93, 10, 91], cs [91, 72, 92, 72, 95, 27, 71, 92, 93, 10, 91]),
  (cs [27, 72], cs [27, 72]),
  (cs [27, 49, 27, 97, 27, 91], cs [27, 49, 27, 97, 27, 91]),
  (cs [49, 72, 97, 95, 49, 10, 93], cs [49, 72, 97, 95, 49, 10, 93]),
  (cs [91, 91, 95, 10, 27, 93, 27, 92, 72, 49, 97, 59, 59, 49], cs [91, 91, 95, 10, 72, 49, 97, 59, 59, 49]),
  (cs [91, 95, 59, 72, 27, 95, 49, 91, 72, 91, 97, 91, 109, 97], cs [91, 95, 59, 72, 27, 95, 49, 91, 72, 91, 97, 91, 109, 97]),
  (cs [27, 49, 95], cs [27, 49, 95]),
  (cs [95, 91, 91, 72, 71, 27, 95, 91, 72, 91, 49, 27, 95, 59], cs [95, 91, 91, 72, 71, 27, 95, 91, 72, 91, 49, 27, 95, 59]),
  (cs [59, 95, 59], cs [59, 95, 59]),
  (cs [97, 95, 27, 91, 72, 49, 92, 27, 71], cs [97, 95, 49, 92, 27, 71]),
  (cs [27, 72, 27, 95, 27, 97, 10, 92, 27, 95], cs [27, 72, 27, 95, 27, 97, 10, 92, 27, 95]),
  (cs [49, 27, 27], cs [49, 27, 27]),
  (cs [93, 92, 93, 59, 72, 91, 71, 91, 95, 59, 10, 109, 49], cs [93, 92, 93, 59, 72, 91, 71, 91, 95, 59, 10, 109, 49]),
  (cs [97, 92, 95, 49, 72, 95, 91, 59], cs [97, 92, 95, 49, 72, 95, 91, 59]),
  (cs [59, 72, 49, 91, 92, 10], cs [59, 72, 49, 91, 92, 10]),
  (cs [109, 91, 93, 71], cs [109, 91, 93, 71]),
  (cs [10, 91, 49, 59], cs [10, 91, 49, 59]),
  (cs [27, 59, 109, 109, 91, 93, 93, 93, 109], cs [27, 59, 109, 109, 91, 93, 93, 93, 109]),
  (cs [93, 71, 92, 27, 91, 91], cs [93, 71, 92, 27, 91, 91]),
  (cs [91, 91, 27, 49], cs [91, 91, 27, 49]),
  (cs [95, 71, 91, 95, 72, 59, 10, 91, 71], cs [95, 71, 91, 95, 72, 59, 10, 91, 71]),
  (cs [95, 92], cs [95, 92]),
  (cs [59, 91, 27, 97, 27, 91], cs [59, 91, 27, 97, 27, 91]),
  (cs [97, 27, 27, 59, 72, 72, 72, 97, 91, 71, 71, 91], cs [97, 27, 27, 59, 72, 72, 72, 97, 91, 71, 71, 91]),
  (cs [95, 95, 27, 91, 10, 72, 91, 93, 91, 97], cs [95, 95, 27, 91, 10, 72, 91, 93, 91, 97]),
  (cs [72, 109, 59, 10, 91, 91, 93, 59, 91, 109, 92], cs [72, 109, 59, 10, 91, 91, 93, 59, 91, 109, 92]),
  (cs [93, 27, 95, 10, 93, 91, 59, 92], cs [93, 27, 95, 10, 93, 91, 59, 92]),
  (cs [], cs []),
  (cs [49, 49, 71, 71], cs [49, 49, 71, 71]),
  (cs [71], cs [71]),
  (cs [49, 92, 93, 71, 27], cs [49, 92, 93, 71, 27]),
  (cs [], cs []),
  (cs [49, 109, 91, 49, 91, 97, 10, 27, 27, 10, 72, 97, 71], cs [49, 109, 91, 49, 91, 97, 10, 27, 27, 10, 72, 97, 71]),
  (cs [59, 91, 95], cs [59, 91, 95]),
  (cs [72, 27, 59, 91, 10, 72, 97, 95], cs [72, 27, 59, 91, 10, 72, 97, 95]),
  (cs [10, 59], cs [10, 59]),
  (cs [93, 59, 27, 59, 27, 49, 91, 49, 71], cs [93, 59, 27, 59, 27, 49, 91, 49, 71]),
  (cs [97, 92, 95, 71, 91, 93], cs [97, 92, 95, 71, 91, 93]),
  (cs [], cs []),
  (cs [91, 97, 97, 95, 95, 91, 10, 72, 93, 49], cs [91, 97, 97, 95, 95, 91, 10, 72, 93, 49]),
  (cs [72, 72, 93, 92, 27, 97, 10, 10, 91, 91], cs [72, 72, 93, 92, 27, 97, 10, 10, 91, 91]),
  (cs [27, 92, 49, 27, 92, 91, 72, 10], cs [27, 92, 49, 27, 92, 91, 72, 10]),
  (cs [95, 10, 109, 91, 27, 27, 97, 59, 27, 10, 72], cs [95, 10, 109, 91, 27, 27, 97, 59, 27, 10, 72]),
  (cs [92, 91, 91, 71, 95, 91, 10, 95, 72, 95, 109, 91, 91], cs [92, 91, 91, 71, 95, 91, 10, 95, 72, 95, 109, 91, 91]),
  (cs [97, 71, 49, 49, 27], cs [97, 71, 49, 49, 27]),
  (cs [27, 92, 27, 10, 71], cs [27, 92, 27, 10, 71]),
  (cs [91, 10], cs [91, 10]),
  (cs [93, 92, 27, 71, 95, 27, 10, 10, 71, 72, 27, 72, 49, 95], cs [93, 92, 27, 71, 95, 27, 10, 10, 71, 72, 27, 72, 49, 95]),
  (cs [71, 97, 93, 72, 93, 109, 92, 27, 95, 10, 92, 27, 72], cs [71, 97, 93, 72, 93, 109, 92, 27, 95, 10, 92, 27, 72]),
  (cs [71, 59, 109, 49], cs [71, 59, 109, 49]),
  (cs [71, 71], cs [71, 71]),
  (cs [10, 93, 27, 10, 71, 49, 49, 49], cs [10, 93, 27, 10, 71, 49, 49, 49]),
  (cs [72, 72, 95, 49, 27], cs [72, 72, 95, 49, 27]),
  (cs [71, 27, 27, 71, 95, 27, 27, 109, 109], cs [71, 27, 27, 71, 95, 27, 27, 109, 109]),
  (cs [109, 49, 95, 27, 97, 109, 71, 27, 92, 97, 27, 10, 95, 92], cs [109, 49, 95, 27, 97, 109, 71, 27, 92, 97, 27, 10, 95, 92]),
  (cs [95, 49, 95, 27, 91], cs [95, 49, 95, 27, 91]),
  (cs [109, 109, 91, 91, 71, 91, 71, 27, 72, 109, 10, 95, 72, 10], cs [109, 109, 91, 91, 71, 91, 71, 27, 72, 109, 10, 95, 72, 10]),
  (cs [109, 10, 93, 71, 109], cs [109, 10, 93, 71, 109]),
  (cs [], cs []),
  (cs [27, 49, 97, 91, 10, 49, 93, 49, 72, 95, 93], cs [27, 49, 97, 91, 10, 49, 93, 49, 72, 95, 93]),
  (cs [49, 71, 27, 27, 59, 91, 93, 72, 27], cs [49, 71, 27, 27, 59, 91, 93, 72, 27]),
  (cs [93, 95], cs [93, 95]),
  (cs [97, 93, 91, 91, 27, 93, 59, 92, 27, 59, 95], cs [97, 93, 91, 91, 27, 93, 59, 92, 27, 59, 95]),
  (cs [49, 10, 49, 91], cs [49, 10, 49, 91]),
  (cs [95, 27, 95, 109, 109, 93, 10, 95, 91, 27, 92, 10, 109], cs [95, 27, 95, 109, 109, 93, 10, 95, 91, 27, 92, 10, 109]),
  (cs [59, 27, 27, 109, 72, 59, 91, 95, 27, 59, 71, 59], cs [59, 27, 27, 109, 72, 59, 91, 95, 27, 59, 71, 59]),
  (cs [97, 10, 95, 72, 91, 91, 91, 27, 71, 91], cs [97, 10, 95, 72, 91, 91, 91, 27, 71, 91]),
  (cs [95, 27, 59, 93, 92, 91, 49, 27, 109], cs [95, 27, 59, 93, 92, 91, 49, 27, 109]),
  (cs [59, 27, 92, 59, 97, 27, 95, 71, 27, 91, 27, 91], cs [59, 27, 92, 59, 97, 27, 95, 71, 27, 91, 27, 91]),
  (cs [27, 91, 72, 49, 27, 93, 56, 59, 59, 27, 91, 27, 91, 97], cs [49, 27, 93, 56, 59, 59, 27, 91, 27, 91, 97]),
  (cs [27, 93, 56, 59, 59], cs [27, 93, 56, 59, 59]),
  (cs [27, 91, 27, 93, 56, 59, 59], cs [27, 91, 27, 93, 56, 59, 59]),
  (cs [97, 10, 49], cs [97, 10, 49]),
  (cs [10, 27, 93, 56, 59, 59, 59], cs [10, 27, 93, 56, 59, 59, 59]),
  (cs [27, 27, 95, 71, 109, 97, 27, 92], cs [27]),
  (cs [97, 27, 95, 71], cs [97, 27, 95, 71]),
  (cs [49, 27, 92, 27, 27, 92, 10, 59, 27, 91, 10, 27, 91], cs [49, 27, 92, 27, 27, 92, 10, 59, 27, 91, 10, 27, 91]),
  (cs [27, 95, 71], cs [27, 95, 71]),
  (cs [27, 95, 71, 27, 92, 27, 27, 92, 59, 59, 109, 27, 95, 71, 27], cs [27, 27, 92, 59, 59, 109, 27, 95, 71, 27]),
  (cs [27, 93, 56, 59, 59, 10, 27, 92], cs [27, 93, 56, 59, 59, 10, 27, 92]),
  (cs [27, 95, 71, 27, 93, 56, 59, 59, 27, 93, 56, 59, 59, 10, 27, 92, 27, 95, 71, 27, 92, 10, 27, 92], cs [27, 95, 71, 27, 93, 56, 59, 59, 27, 93, 56, 59, 59, 10, 27, 92, 10, 27, 92]),
  (cs [72, 49, 27, 95, 71, 27, 93, 56, 59, 59, 49, 27, 92, 27], cs [72, 49, 27]),
  (cs [27, 93, 56, 59, 59, 49, 49, 49, 27, 91, 27, 92, 27, 91, 10, 10], cs [27, 91, 10, 10]),
  (cs [97, 27, 93, 56, 59, 59, 10, 97, 10], cs [97, 27, 93, 56, 59, 59, 10, 97, 10]),
  (cs [27, 95, 71, 72, 27, 27, 27, 91], cs [27, 95, 71, 72, 27, 27, 27, 91]),
  (cs [59], cs [59]),
  (cs [], cs []),
  (cs [27, 93, 56, 59, 59, 27, 91, 49, 27], cs [27, 93, 56, 59, 59, 27, 91, 49, 27]),
  (cs [], cs []),
  (cs [59, 49, 27, 92, 27, 91, 97], cs [59, 49, 27, 92, 27, 91, 97]),
  (cs [59], cs [59]),
  (cs [27, 95, 71], cs [27, 95, 71]),
  (cs [72], cs [72]),
  (cs [27, 27, 92, 59, 97], cs [27, 27, 92, 59, 97]),
  (cs [], cs []),
  (cs [27, 93, 56, 59, 59, 27, 92], cs []),
  (cs [49, 49, 27, 27, 27, 93, 56, 59, 59], cs [49, 49, 27, 27, 27, 93, 56, 59, 59]),
  (cs [109, 97, 27, 97, 27, 92, 27, 91, 27, 92], cs [109, 97, 27, 97, 27, 92, 27, 91, 27, 92]),
  (cs [27, 95, 71, 97, 97], cs [27, 95, 71, 97, 97]),
  (cs [27, 97, 27, 92, 72, 49, 59], cs [27, 97, 27, 92, 72, 49, 59]),
  (cs [], cs []),
  (cs [10, 10, 72, 27, 95, 71], cs [10, 10, 72, 27, 95, 71]),
  (cs [27, 91, 59], cs [27, 91, 59]),
  (cs [27, 93, 56, 59, 59, 59, 27, 93, 56, 59, 59, 10, 59, 27, 92], cs [27, 93, 56, 59, 59, 59, 27, 93, 56, 59, 59, 10, 59, 27, 92]),
  (cs [27, 92], cs [27, 92]),
  (cs [27, 93, 56, 59, 59, 27, 95, 71, 49, 27], cs [27, 93, 56, 59, 59, 27, 95, 71, 49, 27]),
  (cs [], cs []),
  (cs [109, 27, 95, 71, 10, 109], cs [109, 27, 95, 71, 10, 109]),
  (cs [97, 27, 92, 27, 95, 71, 49, 27, 59, 97, 27, 91], cs [97, 27, 92, 27, 95, 71, 49, 27, 59, 97, 27, 91]),
  (cs [27, 92], cs [27, 92]),
  (cs [27, 93, 56, 59, 59, 27, 93, 56, 59, 59, 72, 72, 49, 27, 91, 109, 97], cs [27, 93, 56, 59, 59, 27, 93, 56, 59, 59, 72, 72, 49, 97]),
  (cs [], cs []),
  (cs [], cs []),
  (cs [27, 91, 109, 27, 91, 27, 91, 27, 91, 27, 93, 56, 59, 59], cs [27, 91, 27, 91, 27, 91, 27, 93, 56, 59, 59]),
  (cs [59, 27, 91, 27, 92, 27, 91, 27, 93, 56, 59, 59], cs [59, 27, 91, 27, 92, 27, 91, 27, 93, 56, 59, 59]),
  (cs [10, 97, 49], cs [10, 97, 49]),
  (cs [27, 92, 27, 93, 56, 59, 59, 27, 93, 56, 59, 59, 49], cs [27, 92, 27, 93, 56, 59, 59, 27, 93, 56, 59, 59, 49]),
  (cs [72, 97, 27], cs [72, 97, 27]),
  (cs [], cs []),
  (cs [27, 93, 56, 59, 59, 10, 27, 91], cs [27, 93, 56, 59, 59, 10, 27, 91]),
  (cs [59, 27, 109, 27, 91, 27, 92], cs [59, 27, 109, 27, 91, 27, 92]),
  (cs [27, 93, 56, 59, 59, 27, 95, 71], cs [27, 93, 56, 59, 59, 27, 95, 71]),
  (cs [72], cs [72]),
  (cs [97, 72, 49], cs [97, 72, 49]),
  (cs [27, 91], cs [27, 91]),
  (cs [72, 109, 10, 72, 97], cs [72, 109, 10, 72, 97]),
  (cs [], cs []),
  (cs [59, 27, 91, 27, 92, 109], cs [59]),
  (cs [97, 97, 27, 95, 71, 72, 109, 27, 91, 97], cs [97, 97, 27, 95, 71, 72, 109, 27, 91, 97]),
  (cs [], cs []),
  (cs [109], cs [109]),
  (cs [49, 49, 27, 93, 56, 59, 59], cs [49, 49, 27, 93, 56, 59, 59]),
  (cs [97, 27, 91, 49, 97, 59, 59], cs [97, 27, 91, 49, 97, 59, 59]),
  (cs [10, 27, 95, 71, 27, 92, 27, 27, 95, 71], cs [10, 27, 27, 95, 71]),
  (cs [109, 27, 97, 10, 59, 72], cs [109, 27, 97, 10, 59, 72]),
  (cs [27, 95, 71, 109, 97, 109, 27, 49, 27, 93, 56, 59, 59, 49, 59], cs [27, 95, 71, 109, 97, 109, 27, 49, 27, 93, 56, 59, 59, 49, 59]),
  (cs [27, 10, 59, 59, 59], cs [27, 10, 59, 59, 59]),
  (cs [10, 27, 93, 56, 59, 59, 27, 91, 59, 72, 49], cs [10, 27, 93, 56, 59, 59, 49]),
  (cs [49, 27, 92], cs [49, 27, 92]),
  (cs [27, 93, 56, 59, 59, 72], cs [27, 93, 56, 59, 59, 72]),
  (cs [10, 27, 95, 71], cs [10, 27, 95, 71]),
  (cs [72, 72], cs [72, 72]),
  (cs [27, 92], cs [27, 92]),
  (cs [97, 59, 27, 95, 71, 59], cs [97, 59, 27, 95, 71, 59]),
  (cs [49, 10], cs [49, 10]),
  (cs [109, 27, 72, 27, 93, 56, 59, 59], cs [109, 27, 72, 27, 93, 56, 59, 59]),
  (cs [10, 109, 72, 27, 95, 71, 59], cs [10, 109, 72, 27, 95, 71, 59]),
  (cs [27, 95, 71], cs [27, 95, 71]),
  (cs [10, 27, 93, 56, 59, 59], cs [10, 27, 93, 56, 59, 59]),
  (cs [], cs []),
  (cs [], cs []),
  (cs [27, 95, 71, 59, 59], cs [27, 95, 71, 59, 59]),
  (cs [59, 27, 93, 56, 59, 59, 27, 95, 71, 27, 95, 71, 59, 59, 27, 95, 71, 109], cs [59, 27, 93, 56, 59, 59, 27, 95, 71, 27, 95, 71, 59, 59, 27, 95, 71, 109]),
  (cs [27, 27, 91], cs [27, 27, 91]),
  (cs [27, 92, 97, 27, 91, 97], cs [27, 92, 97, 27, 91, 97]),
  (cs [59, 27, 92, 27, 97], cs [59, 27, 92, 27, 97]),
  (cs [27, 91, 97, 49, 27, 92, 27, 91], cs [27, 91, 97, 49, 27, 92, 27, 91]),
  (cs [109, 72, 97], cs [109, 72, 97]),
  (cs [27, 93, 56, 59, 59, 49, 72, 72, 97], cs [27, 93, 56, 59, 59, 49, 72, 72, 97]),
  (cs [49], cs [49]),
  (cs [27, 93, 56, 59, 59, 27, 93, 56, 59, 59, 27, 93, 56, 59, 59, 27, 92, 27, 93, 56, 59, 59, 27, 10, 27, 92, 27, 93, 56, 59, 59], cs [27, 93, 56, 59, 59, 27, 10, 27, 92, 27, 93, 56, 59, 59]),
  (cs [72, 27, 93, 56, 59, 59, 59, 97, 27, 109, 49], cs [72, 27, 93, 56, 59, 59, 59, 97, 27, 109, 49]),
  (cs [97, 72, 72], cs [97, 72, 72]),
  (cs [27, 91, 72, 10], cs [10]),
  (cs [72, 27, 91, 59, 109, 27, 92], cs [72, 27, 92]),
  (cs [27, 95, 71, 97, 109], cs [27, 95, 71, 97, 109]),
  (cs [27, 95, 71, 27, 95, 71, 97, 27, 92, 59, 72, 27, 92], cs [59, 72, 27, 92]),
  (cs [], cs []),
  (cs [59, 10, 27, 93, 56, 59, 59], cs [59, 10, 27, 93, 56, 59, 59]),
  (cs [], cs []),
  (cs [], cs []),
  (cs [10, 27, 93, 56, 59, 59, 59, 72, 10], cs [10, 27, 93, 56, 59, 59, 59, 72, 10]),
  (cs [27, 93, 56, 59, 59], cs [27, 93, 56, 59, 59]),
  (cs [27, 95, 71, 27, 92, 27, 95, 71, 49, 27, 92], cs []),
  (cs [27, 92, 109, 10, 59, 27], cs [27, 92, 109, 10, 59, 27]),
  (cs [49], cs [49]),
  (cs [27, 95, 71], cs [27, 95, 71]),
  (cs [27, 91, 72, 59, 97, 59], cs [59, 97, 59]),
  (cs [49, 49, 10, 27], cs [49, 49, 10, 27]),
  (cs [], cs []),
  (cs [72, 27, 95, 71, 49, 27, 91], cs [72, 27, 95, 71, 49, 27, 91]),
  (cs [27], cs [27]),
  (cs [27, 92, 97, 49, 59, 27, 95, 71, 27, 92], cs [27, 92, 97, 49, 59]),
  (cs [27, 92, 49, 27, 92, 49, 27, 95, 71, 72, 59], cs [27, 92, 49, 27, 92, 49, 27, 95, 71, 72, 59]),
  (cs [59, 109], cs [59, 109]),
  (cs [59, 27, 93, 56, 59, 59, 27, 92, 97, 27, 10], cs [59, 97, 27, 10]),
  (cs [10, 97], cs [10, 97]),
  (cs [], cs []),
  (cs [109, 109, 27, 91], cs [109, 109, 27, 91]),
  (cs [27, 93, 56, 59, 59, 10, 27, 92, 10, 59, 27, 93, 56, 59, 59, 72, 27, 92], cs [27, 93, 56, 59, 59, 10, 27, 92, 10, 59]),
  (cs [27, 27, 91, 27, 27, 93, 56, 59, 59, 27, 93, 56, 59, 59, 10, 72], cs [27, 27, 91, 27, 27, 93, 56, 59, 59, 27, 93, 56, 59, 59, 10, 72]),
  (cs [27, 92, 59, 27, 91, 59, 59, 10, 97, 27, 95, 71, 27, 95, 71], cs [27, 92, 59, 27, 91, 59, 59, 10, 97, 27, 95, 71, 27, 95, 71]),
  (cs [49, 109, 10, 59, 97, 72, 72, 10], cs [49, 109, 10, 59, 97, 72, 72, 10]),
  (cs [], cs []),
  (cs [27, 92, 59, 72, 27, 92, 10], cs [27, 92, 59, 72, 27, 92, 10]),
  (cs [27, 91, 27, 92, 97, 27, 92, 27, 91, 10, 27, 95, 71], cs [27, 91, 27, 92, 97, 27, 92, 27, 91, 10, 27, 95, 71]),
  (cs [27, 93, 56, 59, 59, 97], cs [27, 93, 56, 59, 59, 97]),
  (cs [10, 109, 59, 49, 72, 72], cs [10, 109, 59, 49, 72, 72]),
  (cs [72, 72, 27, 92, 27, 93, 56, 59, 59, 49], cs [72, 72, 27, 92, 27, 93, 56, 59, 59, 49]),
  (cs [27, 93, 56, 59, 59, 27, 10], cs [27, 93, 56, 59, 59, 27, 10]),
  (cs [27, 93, 56, 59, 59, 27, 93, 56, 59, 59, 49, 72, 27, 93, 56, 59, 59, 27, 92, 27, 93, 56, 59, 59], cs [27, 93, 56, 59, 59]),
  (cs [27, 92, 97, 49, 27, 95, 71], cs [27, 92, 97, 49, 27, 95, 71]),
  (cs [27, 95, 71, 27, 91], cs [27, 95, 71, 27, 91]),
  (cs [109, 27, 27, 27, 95, 71, 27, 93, 56, 59, 59], cs [109, 27, 27, 27, 95, 71, 27, 93, 56, 59, 59]),
  (cs [27, 92, 10], cs [27, 92, 10]),
  (cs [27, 93, 56, 59, 59, 10, 59, 97, 27, 91, 109, 109], cs [27, 93, 56, 59, 59, 10, 59, 97, 109]),
  (cs [27, 93, 56, 59, 59], cs [27, 93, 56, 59, 59]),
  (cs [72, 10, 27, 72, 10, 10], cs [72, 10, 27, 72, 10, 10]),
  (cs [27, 92, 27, 91, 27, 92, 97, 27, 92, 10, 10, 27], cs [27, 92, 27, 91, 27, 92, 97, 27, 92, 10, 10, 27]),
  (cs [59, 72, 27, 92, 49], cs [59, 72, 27, 92, 49]),
  (cs [27, 91, 27, 93, 56, 59, 59], cs [27, 91, 27, 93, 56, 59, 59]),
  (cs [], cs []),
  (cs [27, 93, 56, 59, 59], cs [27, 93, 56, 59, 59]),
  (cs [10, 59, 10], cs [10, 59, 10]),
  (cs [109, 27, 27, 91, 10, 49], cs [109, 27, 27, 91, 10, 49]),
  (cs [10, 59, 27, 93, 56, 59, 59, 109, 72, 27], cs [10, 59, 27, 93, 56, 59, 59, 109, 72, 27]),
  (cs [27, 27, 92, 10, 27, 93, 56, 59, 59, 72, 59, 72, 59], cs [27, 27, 92, 10, 27, 93, 56, 59, 59, 72, 59, 72, 59]),
  (cs [27, 92, 97], cs [27, 92, 97])] : List (Str × Str)).all (fun t => decide (subAnsi t.1 = t.2)) = true := by
  decide +kernel

/-- `re.finditer` with the pattern of `RE_ANSI_STYLES` -/
example : ([
  (cs [109, 59, 72, 10, 27, 71, 49, 27, 91, 27, 95, 92, 71, 10], []),
  (cs [49, 91, 59, 71], []),
  (cs [109, 109, 49, 97, 109, 72, 93, 92, 71, 109, 95], []),
  (cs [91, 27, 91, 93, 97, 91, 71, 91], []),
  (cs [27, 91, 49, 72, 59, 71, 27, 49, 27, 95, 97, 93, 59, 27], [(cs [49], cs [59, 71], 6)]),
  (cs [93, 27, 97], []),
  (cs [95, 97, 27, 10, 27, 49, 10, 91, 97], []),
  (cs [91, 95, 10, 72, 27, 71, 109, 10, 92, 59, 49, 93, 91], []),
  (cs [91, 71, 92, 10, 91, 72, 92, 97, 109, 95, 91, 49, 92, 59], []),
  (cs [10], []),
  (cs [93, 72, 91, 27, 59, 95, 49, 72, 95, 92, 27, 72, 71], []),
  (cs [95, 49, 71, 71, 72, 27, 109, 10, 92, 27, 91, 93, 59, 59], []),
  (cs [27, 95, 27, 10, 93, 95, 59, 109, 49, 95], []),
  (cs [71, 95, 93, 95, 72, 95, 10, 95, 72, 71], []),
  (cs [71, 93, 92, 93, 91, 95, 92, 71, 91, 95], []),
  (cs [91, 93, 97, 27, 72, 59, 97, 71, 27, 109, 72, 72], []),
  (cs [97, 49, 97, 27], []),
  (cs [27, 27, 10, 27, 72, 93, 92, 93, 49, 49, 109, 97, 59, 10], []),
  (cs [49, 109, 72, 92, 49, 27, 92], []),
  (cs [91, 72, 91, 27, 91], []),
  (cs [93, 109, 10, 91, 71, 49, 93, 72, 93, 95, 93, 59, 72], []),
  (cs [93, 72, 109, 49, 92, 91, 59, 10, 92, 72, 59], []),
  (cs [27, 27, 91, 91, 91, 91], []),
  (cs [27, 27, 93, 91, 92, 49, 27, 72, 97, 59, 91], []),
  (cs [27, 27, 72, 71, 27, 95, 91, 95, 72, 109, 27, 97, 27], []),
  (cs [95, 97, 72, 10, 97, 59, 27, 93, 97, 93, 91], []),
  (cs [49, 49, 59, 10, 27, 49, 91], []),
  (cs [97, 27, 10, 72, 27, 97, 92, 93, 97, 95], []),
  (cs [72, 27, 71, 10, 92, 27, 91], []),
  (cs [71, 59, 91, 91, 95, 93], []),
  (cs [59, 95, 93, 10, 92, 97], []),
  (cs [49, 95, 91, 49, 49, 71, 109, 10, 92, 27, 27, 49, 59, 97], []),
  (cs [59, 93, 27, 95, 97], []),
  (cs [93, 49, 10, 27, 91, 95, 93], []),
  (cs [59, 91, 72, 91], []),
  (cs [93, 91], []),
  (cs [95, 97, 71, 27, 95, 10], []),
  (cs [95, 91, 72, 93, 93, 92, 59, 93, 93], []),
  (cs [91, 92, 109, 71, 92, 91, 109], []),
  (cs [71, 49], []),
  (cs [59, 71], []),
  (cs [92, 95, 91, 27, 95, 109, 95, 59, 91, 97, 49], []),
  (cs [91, 109, 71, 92, 92, 109, 27, 91, 91, 59, 93, 91], []),
  (cs [97], []),
  (cs [10, 59, 27, 71, 91, 97, 27, 91], []),
  (cs [91, 95, 71, 97, 93, 72, 109, 27, 49], []),
  (cs [], []),
  (cs [93, 10, 71, 91, 27, 59, 91, 93, 97, 97, 10, 109, 93], []),
  (cs [59, 95, 72, 27, 27, 109, 109, 91, 27], []),
  (cs [49, 91, 97, 71], []),
  (cs [], []),
  (cs [27, 27, 59, 27, 93], []),
  (cs [91, 93, 95, 27, 109], []),
  (cs [], []),
  (cs [91], []),
  (cs [72, 109, 59, 97, 59, 91, 27, 97, 109, 93, 27, 95, 109, 27], []),
  (cs [49, 49, 97, 59, 10], []),
  (cs [71, 10], []),
  (cs [72, 27, 97, 71], []),
  (cs [59, 95, 92, 71, 72, 95, 72, 93, 91], []),
  (cs [93, 95, 91, 27, 71, 95, 27, 91, 91, 91], []),
  (cs [72, 93, 95, 27, 93, 95, 93, 95, 93, 92, 91, 72, 59, 27], []),
  (cs [109, 27, 97, 95, 109, 95, 95, 10, 49, 59, 95], []),
  (cs [71, 27, 71, 93, 92, 97, 91, 91, 27, 71], []),
  (cs [97, 10], []),
  (cs [92, 10, 49], []),
  (cs [49, 109, 109, 93, 91, 91, 10, 49, 72, 10, 92, 72, 27], []),
  (cs [91, 93, 93, 97, 97, 49, 97, 71, 27], []),
  (cs [27, 10, 97, 91, 72, 59, 95, 27], []),
  (cs [27, 49, 72, 71, 97, 72, 93], []),
  (cs [109, 72, 72, 71, 92, 27, 27, 92, 49, 27, 97, 59, 59, 27], []),
  (cs [27, 10, 27, 71, 91, 95, 95, 49, 109, 95, 93, 49], []),
  (cs [97, 109, 49, 92, 10, 59, 91, 49, 71], []),
  (cs [27, 95, 109], []),
  (cs [91, 27, 49, 27, 59, 109, 72, 59, 109, 93, 97, 97, 49], []),
  (cs [27, 71, 72, 72, 72, 109, 93, 49, 10, 109, 92, 49, 59, 91], []),
  (cs [71, 95, 91, 27, 109, 97, 27, 95, 91, 95], []),
  (cs [97, 92, 109, 49, 59, 27, 71, 27, 92, 91], []),
  (cs [97, 10, 91, 72, 59, 91], []),
  (cs [91], []),
  (cs [109, 97, 91, 49, 97], []),
  (cs [59, 92, 109, 92, 97, 49, 97], []),
  (cs [91, 72, 92, 72, 95, 27, 71, 92, 93, 10, 91], []),
  (cs [27, 72], []),
  (cs [27, 49, 27, 97, 27, 91], []),
  (cs [49, 72, 97, 95, 49, 10, 93], []),
  (cs [91, 91, 95, 10, 27, 93, 27, 92, 72, 49, 97, 59, 59, 49], []),
  (cs [91, 95, 59, 72, 27, 95, 49, 91, 72, 91, 97, 91, 109, 97], []),
  (cs [27, 49, 95], []),
  (cs [95, 91, 91, 72, 71, 27, 95, 91, 72, 91, 49, 27, 95, 59], []),
  (cs [59, 95, 59], []),
  (cs [97, 95, 27, 91, 72, 49, 92, 27, 71], [(cs [], cs [49, 92], 7)]),
  (cs [27, 72, 27, 95, 27, 97, 10, 92, 27, 95], []),
  (cs [49, 27, 27], []),
  (cs [93, 92, 93, 59, 72, 91, 71, 91, 95, 59, 10, 109, 49], []),
  (cs [97, 92, 95, 49, 72, 95, 91, 59], []),
  (cs [59, 72, 49, 91, 92, 10], []),
  (cs [109, 91, 93, 71], []),
  (cs [10, 91, 49, 59], []),
  (cs [27, 59, 109, 109, 91, 93, 93, 93, 109], []),
  (cs [93, 71, 92, 27, 91, 91], []),
  (cs [91, 91, 27, 49], []),
  (cs [95, 71, 91, 95, 72, 59, 10, 91, 71], []),
  (cs [95, 92], []),
  (cs [59, 91, 27, 97, 27, 91], []),
  (cs [97, 27, 27, 59, 72, 72, 72, 97, 91, 71, 71, 91], []),
  (cs [95, 95, 27, 91, 10, 72, 91, 93, 91, 97], []),
  (cs [72, 109, 59, 10, 91, 91, 93, 59, 91, 109, 92], []),
  (cs [93, 27, 95, 10, 93, 91, 59, 92], []),
  (cs [], []),
  (cs [49, 49, 71, 71], []),
  (cs [71], []),
  (cs [49, 92, 93, 71, 27], []),
  (cs [], []),
  (cs [49, 109, 91, 49, 91, 97, 10, 27, 27, 10, 72, 97, 71], []),
  (cs [59, 91, 95], []),
  (cs [72, 27, 59, 91, 10, 72, 97, 95], []),
  (cs [10, 59], []),
  (cs [93, 59, 27, 59, 27, 49, 91, 49, 71], []),
  (cs [97, 92, 95, 71, 91, 93], []),
  (cs [], []),
  (cs [91, 97, 97, 95, 95, 91, 10, 72, 93, 49], []),
  (cs [72, 72, 93, 92, 27, 97, 10, 10, 91, 91], []),
  (cs [27, 92, 49, 27, 92, 91, 72, 10], []),
  (cs [95, 10, 109, 91, 27, 27, 97, 59, 27, 10, 72], []),
  (cs [92, 91, 91, 71, 95, 91, 10, 95, 72, 95, 109, 91, 91], []),
  (cs [97, 71, 49, 49, 27], []),
  (cs [27, 92, 27, 10, 71], []),
  (cs [91, 10], []),
  (cs [93, 92, 27, 71, 95, 27, 10, 10, 71, 72, 27, 72, 49, 95], []),
  (cs [71, 97, 93, 72, 93, 109, 92, 27, 95, 10, 92, 27, 72], []),
  (cs [71, 59, 109, 49], []),
  (cs [71, 71], []),
  (cs [10, 93, 27, 10, 71, 49, 49, 49], []),
  (cs [72, 72, 95, 49, 27], []),
  (cs [71, 27, 27, 71, 95, 27, 27, 109, 109], []),
  (cs [109, 49, 95, 27, 97, 109, 71, 27, 92, 97, 27, 10, 95, 92], []),
  (cs [95, 49, 95, 27, 91], []),
  (cs [109, 109, 91, 91, 71, 91, 71, 27, 72, 109, 10, 95, 72, 10], []),
  (cs [109, 10, 93, 71, 109], []),
  (cs [], []),
  (cs [27, 49, 97, 91, 10, 49, 93, 49, 72, 95, 93], []),
  (cs [49, 71, 27, 27, 59, 91, 93, 72, 27], []),
  (cs [93, 95], []),
  (cs [97, 93, 91, 91, 27, 93, 59, 92, 27, 59, 95], []),
  (cs [49, 10, 49, 91], []),
  (cs [95, 27, 95, 109, 109, 93, 10, 95, 91, 27, 92, 10, 109], []),
  (cs [59, 27, 27, 109, 72, 59, 91, 95, 27, 59, 71, 59], []),
  (cs [97, 10, 95, 72, 91, 91, 91, 27, 71, 91], []),
  (cs [95, 27, 59, 93, 92, 91, 49, 27, 109], []),
  (cs [59, 27, 92, 59, 97, 27, 95, 71, 27, 91, 27, 91], []),
  (cs [27, 91, 72, 49, 27, 93, 56, 59, 59, 27, 91, 27, 91, 97], [(cs [], cs [49], 4)]),
  (cs [27, 93, 56, 59, 59], []),
  (cs [27, 91, 27, 93, 56, 59, 59], []),
  (cs [97, 10, 49], []),
  (cs [10, 27, 93, 56, 59, 59, 59], []),
  (cs [27, 27, 95, 71, 109, 97, 27, 92], []),
  (cs [97, 27, 95, 71], []),
  (cs [49, 27, 92, 27, 27, 92, 10, 59, 27, 91, 10, 27, 91], []),
  (cs [27, 95, 71], []),
  (cs [27, 95, 71, 27, 92, 27, 27, 92, 59, 59, 109, 27, 95, 71, 27], []),
  (cs [27, 93, 56, 59, 59, 10, 27, 92], []),
  (cs [27, 95, 71, 27, 93, 56, 59, 59, 27, 93, 56, 59, 59, 10, 27, 92, 27, 95, 71, 27, 92, 10, 27, 92], []),
  (cs [72, 49, 27, 95, 71, 27, 93, 56, 59, 59, 49, 27, 92, 27], []),
  (cs [27, 93, 56, 59, 59, 49, 49, 49, 27, 91, 27, 92, 27, 91, 10, 10], []),
  (cs [97, 27, 93, 56, 59, 59, 10, 97, 10], []),
  (cs [27, 95, 71, 72, 27, 27, 27, 91], []),
  (cs [59], []),
  (cs [], []),
  (cs [27, 93, 56, 59, 59, 27, 91, 49, 27], []),
  (cs [], []),
  (cs [59, 49, 27, 92, 27, 91, 97], []),
  (cs [59], []),
  (cs [27, 95, 71], []),
  (cs [72], []),
  (cs [27, 27, 92, 59, 97], []),
  (cs [], []),
  (cs [27, 93, 56, 59, 59, 27, 92], []),
  (cs [49, 49, 27, 27, 27, 93, 56, 59, 59], []),
  (cs [109, 97, 27, 97, 27, 92, 27, 91, 27, 92], []),
  (cs [27, 95, 71, 97, 97], []),
  (cs [27, 97, 27, 92, 72, 49, 59], []),
  (cs [], []),
  (cs [10, 10, 72, 27, 95, 71], []),
  (cs [27, 91, 59], []),
  (cs [27, 93, 56, 59, 59, 59, 27, 93, 56, 59, 59, 10, 59, 27, 92], []),
  (cs [27, 92], []),
  (cs [27, 93, 56, 59, 59, 27, 95, 71, 49, 27], []),
  (cs [], []),
  (cs [109, 27, 95, 71, 10, 109], []),
  (cs [97, 27, 92, 27, 95, 71, 49, 27, 59, 97, 27, 91], []),
  (cs [27, 92], []),
  (cs [27, 93, 56, 59, 59, 27, 93, 56, 59, 59, 72, 72, 49, 27, 91, 109, 97], []),
  (cs [], []),
  (cs [], []),
  (cs [27, 91, 109, 27, 91, 27, 91, 27, 91, 27, 93, 56, 59, 59], []),
  (cs [59, 27, 91, 27, 92, 27, 91, 27, 93, 56, 59, 59], []),
  (cs [10, 97, 49], []),
  (cs [27, 92, 27, 93, 56, 59, 59, 27, 93, 56, 59, 59, 49], []),
  (cs [72, 97, 27], []),
  (cs [], []),
  (cs [27, 93, 56, 59, 59, 10, 27, 91], []),
  (cs [59, 27, 109, 27, 91, 27, 92], []),
  (cs [27, 93, 56, 59, 59, 27, 95, 71], []),
  (cs [72], []),
  (cs [97, 72, 49], []),
  (cs [27, 91], []),
  (cs [72, 109, 10, 72, 97], []),
  (cs [], []),
  (cs [59, 27, 91, 27, 92, 109], []),
  (cs [97, 97, 27, 95, 71, 72, 109, 27, 91, 97], []),
  (cs [], []),
  (cs [109], []),
  (cs [49, 49, 27, 93, 56, 59, 59], []),
  (cs [97, 27, 91, 49, 97, 59, 59], []),
  (cs [10, 27, 95, 71, 27, 92, 27, 27, 95, 71], []),
  (cs [109, 27, 97, 10, 59, 72], []),
  (cs [27, 95, 71, 109, 97, 109, 27, 49, 27, 93, 56, 59, 59, 49, 59], []),
  (cs [27, 10, 59, 59, 59], []),
  (cs [10, 27, 93, 56, 59, 59, 27, 91, 59, 72, 49], []),
  (cs [49, 27, 92], []),
  (cs [27, 93, 56, 59, 59, 72], []),
  (cs [10, 27, 95, 71], []),
  (cs [72, 72], []),
  (cs [27, 92], []),
  (cs [97, 59, 27, 95, 71, 59], []),
  (cs [49, 10], []),
  (cs [109, 27, 72, 27, 93, 56, 59, 59], []),
  (cs [10, 109, 72, 27, 95, 71, 59], []),
  (cs [27, 95, 71], []),
  (cs [10, 27, 93, 56, 59, 59], []),
  (cs [], []),
  (cs [], []),
  (cs [27, 95, 71, 59, 59], []),
  (cs [59, 27, 93, 56, 59, 59, 27, 95, 71, 27, 95, 71, 59, 59, 27, 95, 71, 109], []),
  (cs [27, 27, 91], []),
  (cs [27, 92, 97, 27, 91, 97], []),
  (cs [59, 27, 92, 27, 97], []),
  (cs [27, 91, 97, 49, 27, 92, 27, 91], []),
  (cs [109, 72, 97], []),
  (cs [27, 93, 56, 59, 59, 49, 72, 72, 97], []),
  (cs [49], []),
  (cs [27, 93, 56, 59, 59, 27, 93, 56, 59, 59, 27, 93, 56, 59, 59, 27, 92, 27, 93, 56, 59, 59, 27, 10, 27, 92, 27, 93, 56, 59, 59], []),
  (cs [72, 27, 93, 56, 59, 59, 59, 97, 27, 109, 49], []),
  (cs [97, 72, 72], []),
  (cs [27, 91, 72, 10], []),
  (cs [72, 27, 91, 59, 109, 27, 92], []),
  (cs [27, 95, 71, 97, 109], []),
  (cs [27, 95, 71, 27, 95, 71, 97, 27, 92, 59, 72, 27, 92], []),
  (cs [], []),
  (cs [59, 10, 27, 93, 56, 59, 59], []),
  (cs [], []),
  (cs [], []),
  (cs [10, 27, 93, 56, 59, 59, 59, 72, 10], []),
  (cs [27, 93, 56, 59, 59], []),
  (cs [27, 95, 71, 27, 92, 27, 95, 71, 49, 27, 92], []),
  (cs [27, 92, 109, 10, 59, 27], []),
  (cs [49], []),
  (cs [27, 95, 71], []),
  (cs [27, 91, 72, 59, 97, 59], []),
  (cs [49, 49, 10, 27], []),
  (cs [], []),
  (cs [72, 27, 95, 71, 49, 27, 91], []),
  (cs [27], []),
  (cs [27, 92, 97, 49, 59, 27, 95, 71, 27, 92], []),
  (cs [27, 92, 49, 27, 92, 49, 27, 95, 71, 72, 59], []),
  (cs [59, 109], []),
  (cs [59, 27, 93, 56, 59, 59, 27, 92, 97, 27, 10], []),
  (cs [10, 97], []),
  (cs [], []),
  (cs [109, 109, 27, 91], []),
  (cs [27, 93, 56, 59, 59, 10, 27, 92, 10, 59, 27, 93, 56, 59, 59, 72, 27, 92], []),
  (cs [27, 27, 91, 27, 27, 93, 56, 59, 59, 27, 93, 56, 59, 59, 10, 72], []),
  (cs [27, 92, 59, 27, 91, 59, 59, 10, 97, 27, 95, 71, 27, 95, 71], []),
  (cs [49, 109, 10, 59, 97, 72, 72, 10], []),
  (cs [], []),
  (cs [27, 92, 59, 72, 27, 92, 10], []),
  (cs [27, 91, 27, 92, 97, 27, 92, 27, 91, 10, 27, 95, 71], []),
  (cs [27, 93, 56, 59, 59, 97], []),
  (cs [10, 109, 59, 49, 72, 72], []),
  (cs [72, 72, 27, 92, 27, 93, 56, 59, 59, 49], []),
  (cs [27, 93, 56, 59, 59, 27, 10], []),
  (cs [27, 93, 56, 59, 59, 27, 93, 56, 59, 59, 49, 72, 27, 93, 56, 59, 59, 27, 92, 27, 93, 56, 59, 59], []),
  (cs [27, 92, 97, 49, 27, 95, 71], []),
  (cs [27, 95, 71, 27, 91], []),
  (cs [109, 27, 27, 27, 95, 71, 27, 93, 56, 59, 59], []),
  (cs [27, 92, 10], []),
  (cs [27, 93, 56, 59, 59, 10, 59, 97, 27, 91, 109, 109], []),
  (cs [27, 93, 56, 59, 59], []),
  (cs [72, 10, 27, 72, 10, 10], []),
  (cs [27, 92, 27, 91, 27, 92, 97, 27, 92, 10, 10, 27], []),
  (cs [59, 72, 27, 92, 49], []),
  (cs [27, 91, 27, 93, 56, 59, 59], []),
  (cs [], []),
  (cs [27, 93, 56, 59, 59], []),
  (cs [10, 59, 10], []),
  (cs [109, 27, 27, 91, 10, 49], []),
  (cs [10, 59, 27, 93, 56, 59, 59, 109, 72, 27], []),
  (cs [27, 27, 92, 10, 27, 93, 56, 59, 59, 72, 59, 72, 59], []),
  (cs [27, 92, 97], [])] : List (Str × List (Str × Str × Nat))).all (fun t => decide (styleMatches t.1 = t.2)) = true := by
  decide +kernel

/-- `re.match` with the pattern of `RE_PIXEL_SIZE` -/
example : ([
  (cs [27, 91, 52, 59, 49, 50, 59, 51, 52, 116], some (cs [49, 50], cs [51, 52])),
  (cs [27, 91, 52, 59, 49, 50, 59, 51, 52, 116, 120], some (cs [49, 50], cs [51, 52])),
  (cs [27, 91, 52, 59, 59, 51, 52, 116], none),
  (cs [27, 91, 52, 59, 49, 59, 50], none),
  (cs [27, 91, 52, 59, 1633, 59, 50, 116], some (cs [1633], cs [50])),
  (cs [120, 27, 91, 52, 59, 49, 59, 50, 116], none),
  (cs [27, 91, 52, 59, 49, 59, 50, 59, 51, 116], none),
  (cs [27, 91, 52, 59, 178, 59, 50, 116], none)] : List (Str × Option (Str × Str))).all (fun t => decide (Core.pixelMatch t.1 = t.2)) = true := by
  decide +kernel

/-- The incremental UTF-8 decoder, byte by byte -/
example : ([
  ([0], cs [0]),
  ([5], cs [5]),
  ([10], cs [10]),
  ([15], cs [15]),
  ([20], cs [20]),
  ([25], cs [25]),
  ([30], cs [30]),
  ([35], cs [35]),
  ([40], cs [40]),
  ([45], cs [45]),
  ([50], cs [50]),
  ([55], cs [55]),
  ([60], cs [60]),
  ([65], cs [65]),
  ([70], cs [70]),
  ([75], cs [75]),
  ([80], cs [80]),
  ([85], cs [85]),
  ([90], cs [90]),
  ([95], cs [95]),
  ([100], cs [100]),
  ([105], cs [105]),
  ([110], cs [110]),
  ([115], cs [115]),
  ([120], cs [120]),
  ([125], cs [125]),
  ([130], cs [98, 39, 92, 120, 56, 50, 39]),
  ([135], cs [98, 39, 92, 120, 56, 55, 39]),
  ([140], cs [98, 39, 92, 120, 56, 99, 39]),
  ([145], cs [98, 39, 92, 120, 57, 49, 39]),
  ([150], cs [98, 39, 92, 120, 57, 54, 39]),
  ([155], cs [98, 39, 92, 120, 57, 98, 39]),
  ([160], cs [98, 39, 92, 120, 97, 48, 39]),
  ([165], cs [98, 39, 92, 120, 97, 53, 39]),
  ([170], cs [98, 39, 92, 120, 97, 97, 39]),
  ([175], cs [98, 39, 92, 120, 97, 102, 39]),
  ([180], cs [98, 39, 92, 120, 98, 52, 39]),
  ([185], cs [98, 39, 92, 120, 98, 57, 39]),
  ([190], cs [98, 39, 92, 120, 98, 101, 39]),
  ([195], cs []),
  ([200], cs []),
  ([205], cs []),
  ([210], cs []),
  ([215], cs []),
  ([220], cs []),
  ([225], cs []),
  ([230], cs []),
  ([235], cs []),
  ([240], cs []),
  ([245], cs [98, 39, 92, 120, 102, 53, 39]),
  ([250], cs [98, 39, 92, 120, 102, 97, 39]),
  ([255], cs [98, 39, 92, 120, 102, 102, 39]),
  ([195, 169], cs [233]),
  ([226, 130, 172], cs [8364]),
  ([240, 159, 152, 128], cs [128512]),
  ([97, 195, 169, 226, 130, 172], cs [97, 233, 8364]),
  ([244, 143, 191, 191], cs [1114111]),
  ([237, 159, 191], cs [55295]),
  ([238, 128, 128], cs [57344]),
  ([224, 159, 128], cs [98, 39, 92, 120, 57, 102, 39, 98, 39, 92, 120, 56, 48, 39]),
  ([224, 160, 128], cs [2048]),
  ([237, 159, 191], cs [55295]),
  ([237, 160, 128], cs [98, 39, 92, 120, 56, 48, 39]),
  ([240, 143, 128, 128], cs [98, 39, 92, 120, 56, 102, 39, 98, 39, 92, 120, 56, 48, 39, 98, 39, 92, 120, 56, 48, 39]),
  ([244, 144, 128, 128], cs [98, 39, 92, 120, 57, 48, 39]),
  ([244, 143, 191, 191], cs [1114111]),
  ([195, 65], cs [98, 39, 65, 39]),
  ([195, 169, 65], cs [233, 65]),
  ([195, 195, 169], cs [98, 39, 92, 120, 99, 51, 39, 233]),
  ([226, 130, 65, 66], cs [98, 39, 65, 39, 98, 39, 66, 39]),
  ([255, 65], cs [98, 39, 92, 120, 102, 102, 39, 65]),
  ([128, 65], cs [98, 39, 92, 120, 56, 48, 39, 65]),
  ([39, 39], cs [39, 39]),
  ([10, 240], cs [10]),
  ([10, 191, 128, 255, 128, 172], cs [10, 98, 39, 92, 120, 98, 102, 39, 98, 39, 92, 120, 56, 48, 39, 98, 39, 92, 120, 102, 102, 39, 98, 39, 92, 120, 56, 48, 39, 98, 39, 92, 120, 97, 99, 39]),
  ([240], cs []),
  ([130, 159], cs [98, 39, 92, 120, 56, 50, 39, 98, 39, 92, 120, 57, 102, 39]),
  ([226, 172, 65], cs [98, 39, 65, 39]),
  ([240, 255, 240, 226], cs [98, 39, 92, 120, 102, 102, 39, 98, 39, 92, 120, 102, 48, 39, 98, 39, 92, 120, 101, 50, 39]),
  ([255, 226, 237, 152, 172, 130], cs [98, 39, 92, 120, 102, 102, 39, 98, 39, 92, 120, 101, 100, 39, 9772, 98, 39, 92, 120, 56, 50, 39]),
  ([191, 128, 240], cs [98, 39, 92, 120, 98, 102, 39, 98, 39, 92, 120, 56, 48, 39]),
  ([240, 191], cs []),
  ([128, 159, 128, 159], cs [98, 39, 92, 120, 56, 48, 39, 98, 39, 92, 120, 57, 102, 39, 98, 39, 92, 120, 56, 48, 39, 98, 39, 92, 120, 57, 102, 39]),
  ([130, 92, 240], cs [98, 39, 92, 120, 56, 50, 39, 92]),
  ([159, 10, 237, 130, 255, 152], cs [98, 39, 92, 120, 57, 102, 39, 10, 98, 39, 92, 120, 102, 102, 39, 53400]),
  ([159, 152, 39], cs [98, 39, 92, 120, 57, 102, 39, 98, 39, 92, 120, 57, 56, 39, 39]),
  ([130, 240, 255, 172], cs [98, 39, 92, 120, 56, 50, 39, 98, 39, 92, 120, 102, 102, 39]),
  ([10, 195, 191, 195, 159], cs [10, 255, 223]),
  ([92, 152], cs [92, 98, 39, 92, 120, 57, 56, 39]),
  ([65, 39], cs [65, 39]),
  ([10, 152, 39], cs [10, 98, 39, 92, 120, 57, 56, 39, 39]),
  ([130], cs [98, 39, 92, 120, 56, 50, 39]),
  ([65, 130, 130, 130], cs [65, 98, 39, 92, 120, 56, 50, 39, 98, 39, 92, 120, 56, 50, 39, 98, 39, 92, 120, 56, 50, 39]),
  ([152, 10, 237, 92, 172], cs [98, 39, 92, 120, 57, 56, 39, 10, 98, 39, 92, 92, 39]),
  ([39, 10], cs [39, 10]),
  ([10, 195, 130], cs [10, 194]),
  ([255, 172, 237, 39], cs [98, 39, 92, 120, 102, 102, 39, 98, 39, 92, 120, 97, 99, 39, 98, 34, 39, 34]),
  ([65, 172], cs [65, 98, 39, 92, 120, 97, 99, 39]),
  ([10, 130, 152, 39, 39, 152], cs [10, 98, 39, 92, 120, 56, 50, 39, 98, 39, 92, 120, 57, 56, 39, 39, 39, 98, 39, 92, 120, 57, 56, 39]),
  ([195, 128], cs [192]),
  ([130, 172, 195, 255, 92], cs [98, 39, 92, 120, 56, 50, 39, 98, 39, 92, 120, 97, 99, 39, 98, 39, 92, 120, 102, 102, 39, 98, 39, 92, 92, 39]),
  ([128, 172, 65], cs [98, 39, 92, 120, 56, 48, 39, 98, 39, 92, 120, 97, 99, 39, 65]),
  ([128, 39, 172], cs [98, 39, 92, 120, 56, 48, 39, 39, 98, 39, 92, 120, 97, 99, 39]),
  ([128, 159], cs [98, 39, 92, 120, 56, 48, 39, 98, 39, 92, 120, 57, 102, 39]),
  ([92, 191, 39, 130, 191, 172], cs [92, 98, 39, 92, 120, 98, 102, 39, 39, 98, 39, 92, 120, 56, 50, 39, 98, 39, 92, 120, 98, 102, 39, 98, 39, 92, 120, 97, 99, 39]),
  ([130, 159, 92, 237], cs [98, 39, 92, 120, 56, 50, 39, 98, 39, 92, 120, 57, 102, 39, 92]),
  ([159, 226, 195, 195, 191, 191], cs [98, 39, 92, 120, 57, 102, 39, 98, 39, 92, 120, 99, 51, 39, 98, 39, 92, 120, 99, 51, 39, 12287]),
  ([191, 191, 128, 240, 152], cs [98, 39, 92, 120, 98, 102, 39, 98, 39, 92, 120, 98, 102, 39, 98, 39, 92, 120, 56, 48, 39]),
  ([191, 172, 191, 92, 130], cs [98, 39, 92, 120, 98, 102, 39, 98, 39, 92, 120, 97, 99, 39, 98, 39, 92, 120, 98, 102, 39, 92, 98, 39, 92, 120, 56, 50, 39]),
  ([39, 255, 255, 237, 130], cs [39, 98, 39, 92, 120, 102, 102, 39, 98, 39, 92, 120, 102, 102, 39]),
  ([191, 65, 130, 39, 191], cs [98, 39, 92, 120, 98, 102, 39, 65, 98, 39, 92, 120, 56, 50, 39, 39, 98, 39, 92, 120, 98, 102, 39]),
  ([195, 255], cs [98, 39, 92, 120, 102, 102, 39]),
  ([152, 240, 65, 10], cs [98, 39, 92, 120, 57, 56, 39, 98, 39, 65, 39, 98, 39, 92, 110, 39]),
  ([128, 191, 159, 240, 152, 191], cs [98, 39, 92, 120, 56, 48, 39, 98, 39, 92, 120, 98, 102, 39, 98, 39, 92, 120, 57, 102, 39]),
  ([130, 255], cs [98, 39, 92, 120, 56, 50, 39, 98, 39, 92, 120, 102, 102, 39]),
  ([226, 10], cs [98, 39, 92, 110, 39]),
  ([130, 128, 172, 240, 65, 159], cs [98, 39, 92, 120, 56, 50, 39, 98, 39, 92, 120, 56, 48, 39, 98, 39, 92, 120, 97, 99, 39, 98, 39, 65, 39]),
  ([10, 195, 255, 195], cs [10, 98, 39, 92, 120, 102, 102, 39, 98, 39, 92, 120, 99, 51, 39]),
  ([255, 10], cs [98, 39, 92, 120, 102, 102, 39, 10]),
  ([255], cs [98, 39, 92, 120, 102, 102, 39]),
  ([226, 65, 226, 92, 159, 195], cs [98, 39, 65, 39, 98, 39, 92, 120, 101, 50, 39, 98, 39, 92, 92, 39, 98, 39, 92, 120, 99, 51, 39]),
  ([39], cs [39]),
  ([92], cs [92]),
  ([92], cs [92]),
  ([130, 128, 240, 255], cs [98, 39, 92, 120, 56, 50, 39, 98, 39, 92, 120, 56, 48, 39, 98, 39, 92, 120, 102, 102, 39]),
  ([159, 255, 237, 240, 237], cs [98, 39, 92, 120, 57, 102, 39, 98, 39, 92, 120, 102, 102, 39, 98, 39, 92, 120, 102, 48, 39, 98, 39, 92, 120, 101, 100, 39]),
  ([191, 172, 130], cs [98, 39, 92, 120, 98, 102, 39, 98, 39, 92, 120, 97, 99, 39, 98, 39, 92, 120, 56, 50, 39]),
  ([130, 10, 39, 172, 172, 172], cs [98, 39, 92, 120, 56, 50, 39, 10, 39, 98, 39, 92, 120, 97, 99, 39, 98, 39, 92, 120, 97, 99, 39, 98, 39, 92, 120, 97, 99, 39]),
  ([159, 10, 195], cs [98, 39, 92, 120, 57, 102, 39, 10]),
  ([128, 191], cs [98, 39, 92, 120, 56, 48, 39, 98, 39, 92, 120, 98, 102, 39]),
  ([195, 65], cs [98, 39, 65, 39]),
  ([237, 172], cs [])] : List (List Nat × Str)).all (fun t => decide ((t.1.foldl (fun (r : Str × List Nat) b => (r.1 ++ (Core.readByte r.2 b).1, (Core.readByte r.2 b).2)) ([], [])).1 = t.2)) = true := by
  decide +kernel

/-- `io.StringIO`: writes, each followed by `seek(0)` -/
example : ([
  ([cs [98, 97, 97, 97], cs [97, 97, 98, 98], cs [97, 97, 98]], cs [97, 97, 98, 98]),
  ([cs [97, 98], cs [98], cs [97, 98, 97, 97]], cs [97, 98, 97, 97]),
  ([], cs []),
  ([cs [97], cs [97, 97], cs [97, 98]], cs [97, 98]),
  ([], cs []),
  ([cs [], cs [98, 97, 98, 97], cs [98]], cs [98, 97, 98, 97]),
  ([cs [98, 97, 98, 98], cs [98, 97], cs [], cs [98]], cs [98, 97, 98, 98]),
  ([], cs []),
  ([], cs []),
  ([cs [], cs [97]], cs [97]),
  ([cs [], cs [], cs [98, 97, 97, 98], cs [97, 98, 98]], cs [97, 98, 98, 98]),
  ([cs [], cs [97, 98, 98, 98], cs [98]], cs [98, 98, 98, 98]),
  ([cs [98, 97, 98], cs [97, 98, 98, 98]], cs [97, 98, 98, 98]),
  ([cs [97, 98, 98, 98], cs [98, 98, 97, 98], cs [], cs []], cs [98, 98, 97, 98]),
  ([cs [97, 98, 98]], cs [97, 98, 98]),
  ([cs [98, 97, 97, 97], cs [97, 98, 98]], cs [97, 98, 98, 97]),
  ([cs [98, 97], cs [], cs [97, 98, 97, 98], cs [97, 98]], cs [97, 98, 97, 98]),
  ([cs [], cs [98, 97, 97, 98], cs [98, 97, 98, 98], cs [97, 97, 97, 97]], cs [97, 97, 97, 97]),
  ([cs [], cs [], cs [], cs [98, 97, 97, 97]], cs [98, 97, 97, 97]),
  ([cs [97]], cs [97])] : List (List Str × Str)).all (fun t => decide ((t.1.foldl Core.feed {}).buf = t.2)) = true := by
  decide +kernel

/-- Sum, difference, product and quotient of floats -/
example : ([
  ((3602879701896397 : Rat) / 18014398509481984, (7672011883387299 : Rat) / 9444732965739290427392, (7205788670195547 : Rat) / 36028797018963968, (7205730137390041 : Rat) / 36028797018963968, (383600594169365 : Rat) / 2361183241434822606848, (8459803206539021 : Rat) / 34359738368),
  ((3602879701896397 : Rat) / 18014398509481984, (8692777401523663 : Rat) / 9007199254740992, (5247108626235931 : Rat) / 4503599627370496, (-861417193821933 : Rat) / 1125899906842624, (6954221921218931 : Rat) / 36028797018963968, (1866598778898591 : Rat) / 9007199254740992),
  ((7488338203941531 : Rat) / 9007199254740992, (4236676145987449 : Rat) / 4503599627370496, (3990422623979107 : Rat) / 2251799813685248, (-985014088033367 : Rat) / 9007199254740992, (1761128123430077 : Rat) / 2251799813685248, (3980063141814101 : Rat) / 4503599627370496),
  ((3602879701896397 : Rat) / 36028797018963968, (6465450584900367 : Rat) / 295147905179352825856, (3603668941469749 : Rat) / 36028797018963968, (3602090462323045 : Rat) / 36028797018963968, (2586180233960147 : Rat) / 1180591620717411303424, (2509636021473263 : Rat) / 549755813888),
  ((3602879701896397 : Rat) / 36028797018963968, (7505999378950827 : Rat) / 9007199254740992, (4203359652212463 : Rat) / 4503599627370496, (-825659931684591 : Rat) / 1125899906842624, (3002399751580331 : Rat) / 36028797018963968, (1080863910568919 : Rat) / 9007199254740992),
  ((3152519739159347 : Rat) / 4503599627370496, (8256599316845909 : Rat) / 9007199254740992, (3640409698791151 : Rat) / 2251799813685248, (-1951559838527215 : Rat) / 9007199254740992, (722452440224017 : Rat) / 1125899906842624, (429889055339911 : Rat) / 562949953421312),
  ((3152519739159347 : Rat) / 4503599627370496, (892505336538343 : Rat) / 9007199254740992, (7197544814857037 : Rat) / 9007199254740992, (5412534141780351 : Rat) / 9007199254740992, (78094216947105 : Rat) / 1125899906842624, (3976919280287749 : Rat) / 562949953421312),
  ((3602879701896397 : Rat) / 18014398509481984, (6004799503160661 : Rat) / 9007199254740992, (1951559838527215 : Rat) / 2251799813685248, (-8406719304424925 : Rat) / 18014398509481984, (4803839602528529 : Rat) / 36028797018963968, (1351079888211149 : Rat) / 4503599627370496),
  ((5099776403601329 : Rat) / 1208925819614629174706176, (2009902663098095 : Rat) / 68719476736, (2009902663098385 : Rat) / 68719476736, (-2009902663097805 : Rat) / 68719476736, (1137984614852165 : Rat) / 9223372036854775808, (2856774053367535 : Rat) / 19807040628566084398385987584),
  ((7629627604015899 : Rat) / 9007199254740992, (300524873161505 : Rat) / 9223372036854775808, (3814960542668673 : Rat) / 4503599627370496, (1907333530673613 : Rat) / 2251799813685248, (2036497964012081 : Rat) / 73786976294838206464, (7145995037147023 : Rat) / 274877906944),
  ((6923180603644057 : Rat) / 36028797018963968, (6004799503160661 : Rat) / 36028797018963968, (6463990053402359 : Rat) / 18014398509481984, (229595275120849 : Rat) / 9007199254740992, (288465858485169 : Rat) / 9007199254740992, (5192385452733043 : Rat) / 4503599627370496),
  ((3602879701896397 : Rat) / 18014398509481984, (5776022818181357 : Rat) / 72057594037927936, (630860675805217 : Rat) / 2251799813685248, (8635495989404231 : Rat) / 72057594037927936, (2310409127272543 : Rat) / 144115188075855872, (702296727076913 : Rat) / 281474976710656),
  ((5519783887966755 : Rat) / 68719476736, (6004799503160661 : Rat) / 9007199254740992, (2759914850475623 : Rat) / 34359738368, (689967259372783 : Rat) / 8589934592, (1839927962655585 : Rat) / 34359738368, (8279675831950133 : Rat) / 68719476736),
  ((1386402238229741 : Rat) / 2251799813685248, (3 : Rat) / 4, (3075252098493677 : Rat) / 2251799813685248, (-302447622034195 : Rat) / 2251799813685248, (4159206714689223 : Rat) / 9007199254740992, (7394145270558619 : Rat) / 9007199254740992),
  ((280371153272575 : Rat) / 562949953421312, (6004799503160661 : Rat) / 18014398509481984, (3744169101970765 : Rat) / 4503599627370496, (2967077401561739 : Rat) / 18014398509481984, (5981251269814933 : Rat) / 36028797018963968, (841113459817725 : Rat) / 562949953421312),
  ((3602879701896397 : Rat) / 18014398509481984, (21610787518393 : Rat) / 4503599627370496, (3689322851969969 : Rat) / 18014398509481984, (3516436551822825 : Rat) / 18014398509481984, (8851778567533773 : Rat) / 9223372036854775808, (183306976774523 : Rat) / 4398046511104),
  ((3602879701896397 : Rat) / 36028797018963968, (1 : Rat) / 4, (3152519739159347 : Rat) / 9007199254740992, (-5404319552844595 : Rat) / 36028797018963968, (3602879701896397 : Rat) / 144115188075855872, (3602879701896397 : Rat) / 9007199254740992),
  ((3602879701896397 : Rat) / 36028797018963968, (972802254252877 : Rat) / 4503599627370496, (2846324433979853 : Rat) / 9007199254740992, (-4179538332126619 : Rat) / 36028797018963968, (6225934427218413 : Rat) / 288230376151711744, (8339787254801867 : Rat) / 18014398509481984),
  ((812240220557725 : Rat) / 1125899906842624, (8233752332072479 : Rat) / 68719476736, (8233801907281253 : Rat) / 68719476736, (-8233702756863705 : Rat) / 68719476736, (1484986536008977 : Rat) / 17179869184, (1777077865405437 : Rat) / 295147905179352825856),
  ((3602879701896397 : Rat) / 36028797018963968, (1216745815414235 : Rat) / 2251799813685248, (5767703187131039 : Rat) / 9007199254740992, (-3966263336182841 : Rat) / 9007199254740992, (243349163082847 : Rat) / 4503599627370496, (833469462015229 : Rat) / 4503599627370496),
  ((4768517252509937 : Rat) / 9007199254740992, (2812855282513165 : Rat) / 9671406556917033397649408, (4768517255129613 : Rat) / 9007199254740992, (4768517249890261 : Rat) / 9007199254740992, (744579339488779 : Rat) / 4835703278458516698824704, (1908691557562651 : Rat) / 1048576),
  ((7034387621967897 : Rat) / 9007199254740992, (4384382514423741 : Rat) / 144115188075855872, (7308411529119381 : Rat) / 9007199254740992, (6760363714816413 : Rat) / 9007199254740992, (6848176712245213 : Rat) / 288230376151711744, (451603865664851 : Rat) / 17592186044416),
  ((3602879701896397 : Rat) / 18014398509481984, (8367288577650489 : Rat) / 8589934592, (8367290295637407 : Rat) / 8589934592, (-8367286859663571 : Rat) / 8589934592, (836728857765049 : Rat) / 4294967296, (969604880502253 : Rat) / 4722366482869645213696),
  ((3602879701896397 : Rat) / 18014398509481984, (8551898087587101 : Rat) / 9007199254740992, (2588334484633825 : Rat) / 2251799813685248, (-3375229118319451 : Rat) / 4503599627370496, (6841518470069681 : Rat) / 36028797018963968, (7589392444455309 : Rat) / 36028797018963968),
  ((6050647589516677 : Rat) / 18889465931478580854784, (1259708215471829 : Rat) / 4503599627370496, (629854829029315 : Rat) / 2251799813685248, (-314926693221257 : Rat) / 1125899906842624, (105777199186349 : Rat) / 1180591620717411303424, (1351984426572695 : Rat) / 1180591620717411303424),
  ((4203359652212463 : Rat) / 4503599627370496, (8305174757668125 : Rat) / 147573952589676412928, (1050903276507993 : Rat) / 1125899906842624, (2101553099196477 : Rat) / 2251799813685248, (3875748220245125 : Rat) / 73786976294838206464, (4558663608114935 : Rat) / 274877906944),
  ((6198206019619913 : Rat) / 2417851639229258349412352, (8984054792623877 : Rat) / 2199023255552, (4492027396314757 : Rat) / 1099511627776, (-35093964033665 : Rat) / 8589934592, (6182279410209151 : Rat) / 590295810358705651712, (6214173658701205 : Rat) / 9903520314283042199192993792),
  ((3152519739159347 : Rat) / 4503599627370496, (2258183927640985 : Rat) / 549755813888, (4517137513421413 : Rat) / 1099511627776, (-4515598197142527 : Rat) / 1099511627776, (3161457498697379 : Rat) / 1099511627776, (6287214495139819 : Rat) / 36893488147419103232),
  ((3152519739159347 : Rat) / 4503599627370496, (1374502699121199 : Rat) / 151115727451828646838272, (6305039560245439 : Rat) / 9007199254740992, (6305039396391949 : Rat) / 9007199254740992, (3848607557539357 : Rat) / 604462909807314587353088, (5164663092925751 : Rat) / 67108864),
  ((2402521033427665 : Rat) / 9007199254740992, (1 : Rat) / 4, (4654320847112913 : Rat) / 9007199254740992, (150721219742417 : Rat) / 9007199254740992, (2402521033427665 : Rat) / 36028797018963968, (2402521033427665 : Rat) / 2251799813685248),
  ((3602879701896397 : Rat) / 36028797018963968, (6685740318924329 : Rat) / 1180591620717411303424, (3603083734498903 : Rat) / 36028797018963968, (3602675669293891 : Rat) / 36028797018963968, (5348592255139463 : Rat) / 9444732965739290427392, (4853891090263563 : Rat) / 274877906944),
  ((3602879701896397 : Rat) / 18014398509481984, (4538744287619629 : Rat) / 68719476736, (141836188484843 : Rat) / 2147483648, (-2269365271862141 : Rat) / 34359738368, (7261990860191407 : Rat) / 549755813888, (3574981680986289 : Rat) / 1180591620717411303424),
  ((3638202051914989 : Rat) / 4503599627370496, (3479185233873551 : Rat) / 9007199254740992, (1344448667212941 : Rat) / 1125899906842624, (3797218869956427 : Rat) / 9007199254740992, (5621271828846679 : Rat) / 18014398509481984, (4709437498692955 : Rat) / 2251799813685248),
  ((3093427037950149 : Rat) / 4503599627370496, (1889194007865283 : Rat) / 4503599627370496, (622827630726929 : Rat) / 562949953421312, (602116515042433 : Rat) / 2251799813685248, (324411820954655 : Rat) / 1125899906842624, (921792362074041 : Rat) / 562949953421312),
  ((8194785204313373 : Rat) / 9007199254740992, (3047877908822911 : Rat) / 4503599627370496, (3572635255489799 : Rat) / 2251799813685248, (2099029386667551 : Rat) / 9007199254740992, (86655352309671 : Rat) / 140737488355328, (6054381556047967 : Rat) / 4503599627370496),
  ((3602879701896397 : Rat) / 18014398509481984, (5353316827645477 : Rat) / 17179869184, (2676660131809657 : Rat) / 8589934592, (-669164173958955 : Rat) / 2147483648, (2141326731058191 : Rat) / 34359738368, (757751138468387 : Rat) / 1180591620717411303424),
  ((1095849312157963 : Rat) / 4503599627370496, (7958689227416409 : Rat) / 140737488355328, (7992934518421345 : Rat) / 140737488355328, (-7924443936411473 : Rat) / 140737488355328, (7746269506319747 : Rat) / 562949953421312, (2480441898340553 : Rat) / 576460752303423488),
  ((8156898614366485 : Rat) / 4503599627370496, (683699094509025 : Rat) / 1073741824, (1367402078530405 : Rat) / 2147483648, (-1367394299505695 : Rat) / 2147483648, (4953250429057731 : Rat) / 4294967296, (6716296294523413 : Rat) / 2361183241434822606848),
  ((3602879701896397 : Rat) / 18014398509481984, (8256599316845909 : Rat) / 9007199254740992, (2514509791948527 : Rat) / 2251799813685248, (-3227579732948855 : Rat) / 4503599627370496, (825659931684591 : Rat) / 4503599627370496, (3930414220250615 : Rat) / 18014398509481984),
  ((327838629834763 : Rat) / 9007199254740992, (1 : Rat) / 2, (4831438257205259 : Rat) / 9007199254740992, (-4175760997535733 : Rat) / 9007199254740992, (327838629834763 : Rat) / 18014398509481984, (327838629834763 : Rat) / 4503599627370496),
  ((3602879701896397 : Rat) / 36028797018963968, (1153063632157637 : Rat) / 2251799813685248, (5512974454104647 : Rat) / 9007199254740992, (-3711534603156449 : Rat) / 9007199254740992, (7379607245808877 : Rat) / 144115188075855872, (7036007046965413 : Rat) / 36028797018963968),
  ((3602879701896397 : Rat) / 36028797018963968, (7505999378950827 : Rat) / 9007199254740992, (4203359652212463 : Rat) / 4503599627370496, (-825659931684591 : Rat) / 1125899906842624, (3002399751580331 : Rat) / 36028797018963968, (1080863910568919 : Rat) / 9007199254740992),
  ((3145246256431553 : Rat) / 33554432, (7505999378950827 : Rat) / 9007199254740992, (6290492568787159 : Rat) / 67108864, (6290492456939053 : Rat) / 67108864, (5242077094052589 : Rat) / 67108864, (7548591015435727 : Rat) / 67108864),
  ((3602879701896397 : Rat) / 18014398509481984, (1042074451513227 : Rat) / 1125899906842624, (5069017731527007 : Rat) / 4503599627370496, (-3267577880578809 : Rat) / 4503599627370496, (6669276489684653 : Rat) / 36028797018963968, (7785397511357845 : Rat) / 36028797018963968),
  ((3108366801636107 : Rat) / 9007199254740992, (4233663105307243 : Rat) / 8796093022208, (2118349309880983 : Rat) / 4398046511104, (-528828448856565 : Rat) / 1099511627776, (1461028836341323 : Rat) / 8796093022208, (6613109839576277 : Rat) / 9223372036854775808),
  ((8742488072437495 : Rat) / 2199023255552, (3232081843532287 : Rat) / 9007199254740992, (4371638577459413 : Rat) / 1099511627776, (2185424747489041 : Rat) / 549755813888, (3137094691376997 : Rat) / 2199023255552, (6090914143172005 : Rat) / 549755813888),
  ((3152519739159347 : Rat) / 4503599627370496, (1 : Rat) / 4, (4278419646001971 : Rat) / 4503599627370496, (2026619832316723 : Rat) / 4503599627370496, (3152519739159347 : Rat) / 18014398509481984, (3152519739159347 : Rat) / 1125899906842624),
  ((4844757875721193 : Rat) / 590295810358705651712, (6004799503160661 : Rat) / 72057594037927936, (6005390904268537 : Rat) / 72057594037927936, (-6004208102052785 : Rat) / 72057594037927936, (6459677167628257 : Rat) / 9444732965739290427392, (3633568406790895 : Rat) / 36893488147419103232),
  ((8194785204313373 : Rat) / 72057594037927936, (6004799503160661 : Rat) / 9007199254740992, (7029147653699833 : Rat) / 9007199254740992, (-4980451352621489 : Rat) / 9007199254740992, (5463190136208915 : Rat) / 72057594037927936, (3073044451617515 : Rat) / 18014398509481984),
  ((3152519739159347 : Rat) / 4503599627370496, (984563354161099 : Rat) / 4294967296, (3938265442552825 : Rat) / 17179869184, (-3938241390735967 : Rat) / 17179869184, (2756777391651077 : Rat) / 17179869184, (3605071898764037 : Rat) / 1180591620717411303424),
  ((5873946258572025 : Rat) / 137438953472, (6004799503160661 : Rat) / 72057594037927936, (1468489427954537 : Rat) / 34359738368, (2936967402662951 : Rat) / 68719476736, (1957982086190675 : Rat) / 549755813888, (4405459693929019 : Rat) / 8589934592),
  ((4172938152147479 : Rat) / 70368744177664, (8256599316845909 : Rat) / 9007199254740992, (8474885668620675 : Rat) / 140737488355328, (8216866939969241 : Rat) / 140737488355328, (3825193306135189 : Rat) / 70368744177664, (1138074041494767 : Rat) / 17592186044416),
  ((3129223635846907 : Rat) / 134217728, (1 : Rat), (3129223770064635 : Rat) / 134217728, (3129223501629179 : Rat) / 134217728, (3129223635846907 : Rat) / 134217728, (3129223635846907 : Rat) / 134217728),
  ((4405946724337083 : Rat) / 9007199254740992, (1 : Rat) / 4, (6657746538022331 : Rat) / 9007199254740992, (2154146910651835 : Rat) / 9007199254740992, (4405946724337083 : Rat) / 36028797018963968, (4405946724337083 : Rat) / 2251799813685248),
  ((8689298104573663 : Rat) / 9007199254740992, (3235030512051369 : Rat) / 590295810358705651712, (8689347467221857 : Rat) / 9007199254740992, (8689248741925469 : Rat) / 9007199254740992, (3120852964567203 : Rat) / 590295810358705651712, (6048338579819817 : Rat) / 34359738368),
  ((6691043078648407 : Rat) / 9007199254740992, (7505999378950827 : Rat) / 18014398509481984, (2611010692030955 : Rat) / 2251799813685248, (5876086778345987 : Rat) / 18014398509481984, (2787934616103503 : Rat) / 9007199254740992, (1003656461797261 : Rat) / 562949953421312),
  ((3213861298991061 : Rat) / 4503599627370496, (3187677126615975 : Rat) / 4503599627370496, (1600384606401759 : Rat) / 1125899906842624, (13092086187543 : Rat) / 2251799813685248, (568697985975925 : Rat) / 1125899906842624, (4540593031742233 : Rat) / 4503599627370496),
  ((1978051601041159 : Rat) / 18014398509481984, (2611841210234515 : Rat) / 302231454903657293676544, (3956103513438053 : Rat) / 36028797018963968, (3956102890726583 : Rat) / 36028797018963968, (4588646518372795 : Rat) / 4835703278458516698824704, (6821511521038221 : Rat) / 536870912),
  ((3152519739159347 : Rat) / 4503599627370496, (3569297816361501 : Rat) / 37778931862957161709568, (788130041163201 : Rat) / 1125899906842624, (1576259656832945 : Rat) / 2251799813685248, (4997016942906101 : Rat) / 75557863725914323419136, (1988862719366623 : Rat) / 268435456),
  ((3602879701896397 : Rat) / 36028797018963968, (207096471876077 : Rat) / 281474976710656, (7527807025508563 : Rat) / 9007199254740992, (-5726367174560365 : Rat) / 9007199254740992, (5301669680027571 : Rat) / 72057594037927936, (4896850588499721 : Rat) / 36028797018963968)] : List (Rat × Rat × Rat × Rat × Rat × Rat)).all (fun t => decide (fl (t.1 + t.2.1) = t.2.2.1) && decide (fl (t.1 - t.2.1) = t.2.2.2.1) && decide (fl (t.1 * t.2.1) = t.2.2.2.2.1) && decide (fl (t.1 / t.2.1) = t.2.2.2.2.2)) = true := by
  decide +kernel

/-- `x % 1.0`, `int(x)`, `round(abs(x))`, `round(x, 2)`, `round(x, 4)` -/
example : ([
  ((0 : Rat), (0 : Rat), 0, 0, (0 : Rat), (0 : Rat)),
  ((1 : Rat) / 2, (1 : Rat) / 2, 0, 0, (1 : Rat) / 2, (1 : Rat) / 2),
  ((3 : Rat) / 2, (1 : Rat) / 2, 1, 2, (3 : Rat) / 2, (3 : Rat) / 2),
  ((5 : Rat) / 2, (1 : Rat) / 2, 2, 2, (5 : Rat) / 2, (5 : Rat) / 2),
  ((-1 : Rat) / 2, (1 : Rat) / 2, 0, 0, (-1 : Rat) / 2, (-1 : Rat) / 2),
  ((-3 : Rat) / 2, (1 : Rat) / 2, -1, 2, (-3 : Rat) / 2, (-3 : Rat) / 2),
  ((5629477016214983 : Rat) / 2251799813685248, (1125877388844487 : Rat) / 2251799813685248, 2, 2, (5 : Rat) / 2, (5 : Rat) / 2),
  ((-6646139978924579 : Rat) / 664613997892457936451903530140172288, (1 : Rat), 0, 0, (0 : Rat), (0 : Rat)),
  ((29 : Rat) / 4, (1 : Rat) / 4, 7, 7, (29 : Rat) / 4, (29 : Rat) / 4),
  ((-29 : Rat) / 4, (3 : Rat) / 4, -7, 7, (-29 : Rat) / 4, (-29 : Rat) / 4),
  ((3 : Rat), (0 : Rat), 3, 3, (3 : Rat), (3 : Rat)),
  ((3011782250804019 : Rat) / 1125899906842624, (759982437118771 : Rat) / 1125899906842624, 2, 3, (1503076375634903 : Rat) / 562949953421312, (3011782250804019 : Rat) / 1125899906842624),
  ((1 : Rat) / 8, (1 : Rat) / 8, 0, 0, (1080863910568919 : Rat) / 9007199254740992, (1 : Rat) / 8),
  ((1131529406376837 : Rat) / 1125899906842624, (5629499534213 : Rat) / 1125899906842624, 1, 1, (1 : Rat), (1131529406376837 : Rat) / 1125899906842624),
  ((9007199254740991 : Rat) / 9007199254740992, (9007199254740991 : Rat) / 9007199254740992, 0, 1, (1 : Rat), (1 : Rat)),
  ((2335753075291319 : Rat) / 562949953421312, (83953261606071 : Rat) / 562949953421312, 4, 4, (2336242306698445 : Rat) / 562949953421312, (4671471303480731 : Rat) / 1125899906842624),
  ((1548481695351123 : Rat) / 562949953421312, (422581788508499 : Rat) / 562949953421312, 2, 3, (11 : Rat) / 4, (1548506436876003 : Rat) / 562949953421312),
  ((33653554960021 : Rat) / 35184372088832, (33653554960021 : Rat) / 35184372088832, 0, 1, (1080863910568919 : Rat) / 1125899906842624, (8615386087159759 : Rat) / 9007199254740992),
  ((738169191865035 : Rat) / 281474976710656, (175219238443723 : Rat) / 281474976710656, 2, 3, (2949857755927675 : Rat) / 1125899906842624, (5905345011389563 : Rat) / 2251799813685248),
  ((-13349054594693 : Rat) / 8796093022208, (4243131449723 : Rat) / 8796093022208, -1, 2, (-3422735716801577 : Rat) / 2251799813685248, (-6834662794497465 : Rat) / 4503599627370496),
  ((-67200537149421 : Rat) / 70368744177664, (3168207028243 : Rat) / 70368744177664, 0, 1, (-4278419646001971 : Rat) / 4503599627370496, (-8601875288277647 : Rat) / 9007199254740992),
  ((-5172314178633441 : Rat) / 1125899906842624, (457185355579679 : Rat) / 1125899906842624, -4, 5, (-1291970143101911 : Rat) / 281474976710656, (-2586135791022165 : Rat) / 562949953421312),
  ((2411698415313333 : Rat) / 562949953421312, (159898601628085 : Rat) / 562949953421312, 4, 4, (4818851601286431 : Rat) / 1125899906842624, (4823355200913801 : Rat) / 1125899906842624),
  ((865011117022693 : Rat) / 281474976710656, (20586186890725 : Rat) / 281474976710656, 3, 3, (6913025428013711 : Rat) / 2251799813685248, (865000750929517 : Rat) / 281474976710656),
  ((184949151988201 : Rat) / 1125899906842624, (184949151988201 : Rat) / 1125899906842624, 0, 0, (5764607523034235 : Rat) / 36028797018963968, (1479882837553945 : Rat) / 9007199254740992),
  ((1267835876540395 : Rat) / 1125899906842624, (141935969697771 : Rat) / 1125899906842624, 1, 1, (1272266894732165 : Rat) / 1125899906842624, (1267875885095479 : Rat) / 1125899906842624),
  ((911682340553431 : Rat) / 281474976710656, (67257410421463 : Rat) / 281474976710656, 3, 3, (1823957849085051 : Rat) / 562949953421312, (3646677208272575 : Rat) / 1125899906842624),
  ((-3758371212535345 : Rat) / 1125899906842624, (745228414835151 : Rat) / 1125899906842624, -3, 3, (-940126422213591 : Rat) / 281474976710656, (-3758366479031363 : Rat) / 1125899906842624),
  ((395587437216675 : Rat) / 562949953421312, (395587437216675 : Rat) / 562949953421312, 0, 1, (3152519739159347 : Rat) / 4503599627370496, (6329358916306495 : Rat) / 9007199254740992),
  ((1255780124456881 : Rat) / 562949953421312, (129880217614257 : Rat) / 562949953421312, 2, 2, (5021513584518103 : Rat) / 2251799813685248, (5023089844387683 : Rat) / 2251799813685248),
  ((232988193554409 : Rat) / 281474976710656, (232988193554409 : Rat) / 281474976710656, 0, 1, (7475975381435023 : Rat) / 9007199254740992, (7455258823149119 : Rat) / 9007199254740992),
  ((335467572602383 : Rat) / 70368744177664, (53992595891727 : Rat) / 70368744177664, 4, 5, (1342635638909829 : Rat) / 281474976710656, (5367502625890841 : Rat) / 1125899906842624),
  ((-1371824728679947 : Rat) / 562949953421312, (317025131583989 : Rat) / 562949953421312, -2, 2, (-5494391545392005 : Rat) / 2251799813685248, (-5487410965969581 : Rat) / 2251799813685248),
  ((2019285252485769 : Rat) / 1125899906842624, (893385345643145 : Rat) / 1125899906842624, 1, 2, (2015360833248297 : Rat) / 1125899906842624, (8077205931688985 : Rat) / 4503599627370496),
  ((3142309296786045 : Rat) / 1125899906842624, (890509483100797 : Rat) / 1125899906842624, 2, 3, (3141260740090921 : Rat) / 1125899906842624, (6284548100014159 : Rat) / 2251799813685248)] : List (Rat × Rat × Int × Nat × Rat × Rat)).all (fun t => decide (Hls.mod1 fl t.1 = t.2.1) && decide (truncate t.1 = t.2.2.1) && decide (rhe t.1.num.natAbs t.1.den = t.2.2.2.1) && decide (Svg.roundTo 2 t.1 = t.2.2.2.2.1) && decide (Svg.roundTo 4 t.1 = t.2.2.2.2.2)) = true := by
  decide +kernel

/-- `colorsys.rgb_to_hls` -/
example : ([
  ((25 : Rat) / 32, (1 : Rat) / 2, (87 : Rat) / 256, (8714930252374765 : Rat) / 144115188075855872, (287 : Rat) / 512, (4523615625714365 : Rat) / 9007199254740992),
  ((255 : Rat) / 256, (5 : Rat) / 32, (133 : Rat) / 256, (261182594668725 : Rat) / 281474976710656, (295 : Rat) / 512, (4462091796703487 : Rat) / 4503599627370496),
  ((0 : Rat), (255 : Rat) / 256, (137 : Rat) / 256, (7617853487343035 : Rat) / 18014398509481984, (255 : Rat) / 512, (1 : Rat)),
  ((0 : Rat), (0 : Rat), (0 : Rat), (0 : Rat), (0 : Rat), (0 : Rat)),
  ((255 : Rat) / 256, (255 : Rat) / 256, (0 : Rat), (6004799503160661 : Rat) / 36028797018963968, (255 : Rat) / 512, (1 : Rat)),
  ((0 : Rat), (0 : Rat), (0 : Rat), (0 : Rat), (0 : Rat), (0 : Rat)),
  ((1 : Rat) / 2, (255 : Rat) / 256, (0 : Rat), (281107035564629 : Rat) / 1125899906842624, (255 : Rat) / 512, (1 : Rat)),
  ((25 : Rat) / 256, (255 : Rat) / 256, (255 : Rat) / 256, (1 : Rat) / 2, (35 : Rat) / 64, (4464775492651785 : Rat) / 4503599627370496),
  ((45 : Rat) / 64, (1 : Rat) / 2, (0 : Rat), (2135039823346013 : Rat) / 18014398509481984, (45 : Rat) / 128, (1 : Rat)),
  ((1 : Rat) / 2, (25 : Rat) / 128, (0 : Rat), (4691249611844267 : Rat) / 72057594037927936, (1 : Rat) / 4, (1 : Rat)),
  ((1 : Rat) / 2, (1 : Rat) / 2, (117 : Rat) / 128, (6004799503160661 : Rat) / 9007199254740992, (181 : Rat) / 256, (6365087473350301 : Rat) / 9007199254740992),
  ((255 : Rat) / 256, (255 : Rat) / 256, (1 : Rat) / 2, (6004799503160661 : Rat) / 36028797018963968, (383 : Rat) / 512, (277111023583359 : Rat) / 281474976710656),
  ((0 : Rat), (255 : Rat) / 256, (0 : Rat), (6004799503160661 : Rat) / 18014398509481984, (255 : Rat) / 512, (1 : Rat)),
  ((1 : Rat) / 2, (1 : Rat) / 2, (255 : Rat) / 256, (6004799503160661 : Rat) / 9007199254740992, (383 : Rat) / 512, (277111023583359 : Rat) / 281474976710656),
  ((255 : Rat) / 256, (1 : Rat) / 2, (65 : Rat) / 256, (995532549208215 : Rat) / 18014398509481984, (5 : Rat) / 8, (8913374262504107 : Rat) / 9007199254740992),
  ((175 : Rat) / 256, (0 : Rat), (0 : Rat), (0 : Rat), (175 : Rat) / 512, (1 : Rat)),
  ((1 : Rat) / 2, (255 : Rat) / 256, (255 : Rat) / 256, (1 : Rat) / 2, (383 : Rat) / 512, (277111023583359 : Rat) / 281474976710656),
  ((1 : Rat) / 2, (0 : Rat), (255 : Rat) / 256, (844792871277995 : Rat) / 1125899906842624, (255 : Rat) / 512, (1 : Rat)),
  ((109 : Rat) / 128, (1 : Rat) / 2, (255 : Rat) / 256, (7068641934822983 : Rat) / 9007199254740992, (383 : Rat) / 512, (277111023583359 : Rat) / 281474976710656),
  ((55 : Rat) / 256, (255 : Rat) / 256, (29 : Rat) / 128, (6049835499434367 : Rat) / 18014398509481984, (155 : Rat) / 256, (1114752383012499 : Rat) / 1125899906842624),
  ((255 : Rat) / 256, (1 : Rat) / 2, (1 : Rat) / 2, (0 : Rat), (383 : Rat) / 512, (277111023583359 : Rat) / 281474976710656),
  ((1 : Rat) / 2, (0 : Rat), (1 : Rat) / 2, (7505999378950827 : Rat) / 9007199254740992, (1 : Rat) / 4, (1 : Rat)),
  ((0 : Rat), (0 : Rat), (255 : Rat) / 256, (6004799503160661 : Rat) / 9007199254740992, (255 : Rat) / 512, (1 : Rat)),
  ((255 : Rat) / 256, (37 : Rat) / 256, (1 : Rat) / 2, (8380551600168033 : Rat) / 9007199254740992, (73 : Rat) / 128, (4462657812576219 : Rat) / 4503599627370496),
  ((0 : Rat), (1 : Rat) / 128, (1 : Rat) / 2, (85 : Rat) / 128, (1 : Rat) / 4, (1 : Rat)),
  ((1 : Rat) / 2, (131 : Rat) / 256, (1 : Rat) / 2, (6004799503160661 : Rat) / 18014398509481984, (259 : Rat) / 512, (6835502991740199 : Rat) / 576460752303423488),
  ((19 : Rat) / 128, (57 : Rat) / 128, (1 : Rat) / 2, (4737119608048967 : Rat) / 9007199254740992, (83 : Rat) / 256, (4883421282690899 : Rat) / 9007199254740992),
  ((0 : Rat), (255 : Rat) / 256, (115 : Rat) / 256, (7358822920540027 : Rat) / 18014398509481984, (255 : Rat) / 512, (1 : Rat)),
  ((75 : Rat) / 128, (0 : Rat), (17 : Rat) / 128, (8666927282895221 : Rat) / 9007199254740992, (75 : Rat) / 256, (1 : Rat)),
  ((255 : Rat) / 256, (121 : Rat) / 128, (0 : Rat), (1424668117416549 : Rat) / 9007199254740992, (255 : Rat) / 512, (1 : Rat)),
  ((255 : Rat) / 256, (255 : Rat) / 256, (0 : Rat), (6004799503160661 : Rat) / 36028797018963968, (255 : Rat) / 512, (1 : Rat)),
  ((1 : Rat) / 2, (1 : Rat) / 2, (155 : Rat) / 256, (6004799503160661 : Rat) / 9007199254740992, (283 : Rat) / 512, (2123968383214033 : Rat) / 18014398509481984),
  ((17 : Rat) / 64, (1 : Rat) / 2, (1 : Rat) / 2, (1 : Rat) / 2, (49 : Rat) / 128, (2757305894308467 : Rat) / 9007199254740992),
  ((1 : Rat) / 2, (75 : Rat) / 128, (1 : Rat) / 2, (6004799503160661 : Rat) / 18014398509481984, (139 : Rat) / 256, (846830699163683 : Rat) / 9007199254740992),
  ((1 : Rat) / 2, (1 : Rat) / 2, (1 : Rat) / 2, (0 : Rat), (1 : Rat) / 2, (0 : Rat)),
  ((99 : Rat) / 128, (255 : Rat) / 256, (0 : Rat), (7347048803867163 : Rat) / 36028797018963968, (255 : Rat) / 512, (1 : Rat)),
  ((255 : Rat) / 256, (0 : Rat), (0 : Rat), (0 : Rat), (255 : Rat) / 512, (1 : Rat)),
  ((0 : Rat), (255 : Rat) / 256, (1 : Rat) / 2, (7511886437287259 : Rat) / 18014398509481984, (255 : Rat) / 512, (1 : Rat)),
  ((1 : Rat) / 2, (255 : Rat) / 256, (0 : Rat), (281107035564629 : Rat) / 1125899906842624, (255 : Rat) / 512, (1 : Rat)),
  ((0 : Rat), (0 : Rat), (1 : Rat) / 2, (6004799503160661 : Rat) / 9007199254740992, (1 : Rat) / 4, (1 : Rat))] : List (Rat × Rat × Rat × Rat × Rat × Rat)).all (fun t => decide (Hls.rgbToHls fl t.1 t.2.1 t.2.2.1 = t.2.2.2)) = true := by
  decide +kernel

/-- `colorsys.hls_to_rgb` -/
example : ([
  ((1810795032449885 : Rat) / 2251799813685248, (1389033994614057 : Rat) / 2251799813685248, (1 : Rat), (7798824708920655 : Rat) / 9007199254740992, (263134087771433 : Rat) / 1125899906842624, (1 : Rat)),
  ((651434444007651 : Rat) / 2251799813685248, (1485796493033381 : Rat) / 9007199254740992, (1 : Rat), (3140735523342697 : Rat) / 36028797018963968, (1485796493033381 : Rat) / 4503599627370496, (0 : Rat)),
  ((3920779140461411 : Rat) / 4503599627370496, (4876871657101381 : Rat) / 9007199254740992, (0 : Rat), (4876871657101381 : Rat) / 9007199254740992, (4876871657101381 : Rat) / 9007199254740992, (4876871657101381 : Rat) / 9007199254740992),
  ((3422713815680735 : Rat) / 9007199254740992, (491064280378687 : Rat) / 1125899906842624, (0 : Rat), (491064280378687 : Rat) / 1125899906842624, (491064280378687 : Rat) / 1125899906842624, (491064280378687 : Rat) / 1125899906842624),
  ((3004967051679921 : Rat) / 9007199254740992, (5295092815208439 : Rat) / 9007199254740992, (0 : Rat), (5295092815208439 : Rat) / 9007199254740992, (5295092815208439 : Rat) / 9007199254740992, (5295092815208439 : Rat) / 9007199254740992),
  ((652455088059449 : Rat) / 1125899906842624, (379571187069193 : Rat) / 562949953421312, (3031611443463421 : Rat) / 9007199254740992, (5085603310436505 : Rat) / 9007199254740992, (6118606766896495 : Rat) / 9007199254740992, (7060674675777671 : Rat) / 9007199254740992),
  ((3644589314855067 : Rat) / 9007199254740992, (5893493267866925 : Rat) / 9007199254740992, (0 : Rat), (5893493267866925 : Rat) / 9007199254740992, (5893493267866925 : Rat) / 9007199254740992, (5893493267866925 : Rat) / 9007199254740992),
  ((4657994638454005 : Rat) / 9007199254740992, (3759912382976211 : Rat) / 4503599627370496, (0 : Rat), (3759912382976211 : Rat) / 4503599627370496, (3759912382976211 : Rat) / 4503599627370496, (3759912382976211 : Rat) / 4503599627370496),
  ((112934810958701 : Rat) / 140737488355328, (1887165434521077 : Rat) / 4503599627370496, (1 : Rat), (6149899039389923 : Rat) / 9007199254740992, (0 : Rat), (1887165434521077 : Rat) / 2251799813685248),
  ((7007212501309447 : Rat) / 9007199254740992, (2539260769032925 : Rat) / 9007199254740992, (0 : Rat), (2539260769032925 : Rat) / 9007199254740992, (2539260769032925 : Rat) / 9007199254740992, (2539260769032925 : Rat) / 9007199254740992),
  ((202395515566761 : Rat) / 1125899906842624, (1137754343936613 : Rat) / 4503599627370496, (1 : Rat), (8386797088063323 : Rat) / 18014398509481984, (1137754343936613 : Rat) / 2251799813685248, (0 : Rat)),
  ((687868978245703 : Rat) / 2251799813685248, (1338926519549041 : Rat) / 4503599627370496, (0 : Rat), (1338926519549041 : Rat) / 4503599627370496, (1338926519549041 : Rat) / 4503599627370496, (1338926519549041 : Rat) / 4503599627370496),
  ((7355293914924777 : Rat) / 9007199254740992, (308951112310007 : Rat) / 562949953421312, (1135763033630729 : Rat) / 9007199254740992, (2676388181650345 : Rat) / 4503599627370496, (4430769945128841 : Rat) / 9007199254740992, (5455665648791383 : Rat) / 9007199254740992),
  ((224757574484221 : Rat) / 562949953421312, (22369574924777 : Rat) / 2251799813685248, (0 : Rat), (22369574924777 : Rat) / 2251799813685248, (22369574924777 : Rat) / 2251799813685248, (22369574924777 : Rat) / 2251799813685248),
  ((6545332079350615 : Rat) / 9007199254740992, (3061405114900937 : Rat) / 9007199254740992, (1156583729064635 : Rat) / 4503599627370496, (2841371940589661 : Rat) / 9007199254740992, (2275195940699319 : Rat) / 9007199254740992, (3847614289102555 : Rat) / 9007199254740992),
  ((3138180272774117 : Rat) / 4503599627370496, (163532325568907 : Rat) / 2251799813685248, (3514734869948253 : Rat) / 4503599627370496, (2626588969201021 : Rat) / 72057594037927936, (574514137434763 : Rat) / 36028797018963968, (4658520280770261 : Rat) / 36028797018963968),
  ((2600840318163263 : Rat) / 4503599627370496, (849242046849273 : Rat) / 2251799813685248, (0 : Rat), (849242046849273 : Rat) / 2251799813685248, (849242046849273 : Rat) / 2251799813685248, (849242046849273 : Rat) / 2251799813685248),
  ((1984408096591189 : Rat) / 9007199254740992, (3658208845132683 : Rat) / 9007199254740992, (0 : Rat), (3658208845132683 : Rat) / 9007199254740992, (3658208845132683 : Rat) / 9007199254740992, (3658208845132683 : Rat) / 9007199254740992),
  ((2376660835161635 : Rat) / 4503599627370496, (6886749917130667 : Rat) / 9007199254740992, (0 : Rat), (6886749917130667 : Rat) / 9007199254740992, (6886749917130667 : Rat) / 9007199254740992, (6886749917130667 : Rat) / 9007199254740992),
  ((240409409919061 : Rat) / 4503599627370496, (8263032939372527 : Rat) / 9007199254740992, (1 : Rat), (1 : Rat), (7995564198110127 : Rat) / 9007199254740992, (3759433312002031 : Rat) / 4503599627370496),
  ((859673411551225 : Rat) / 4503599627370496, (2000314385155593 : Rat) / 9007199254740992, (1376924244095477 : Rat) / 2251799813685248, (179248610860171 : Rat) / 562949953421312, (805865255919409 : Rat) / 2251799813685248, (388583873316775 : Rat) / 4503599627370496),
  ((4903596262324205 : Rat) / 9007199254740992, (959465324363253 : Rat) / 1125899906842624, (0 : Rat), (959465324363253 : Rat) / 1125899906842624, (959465324363253 : Rat) / 1125899906842624, (959465324363253 : Rat) / 1125899906842624),
  ((4566623480586625 : Rat) / 9007199254740992, (1152002866560557 : Rat) / 4503599627370496, (54690923672929 : Rat) / 140737488355328, (2817327219071673 : Rat) / 18014398509481984, (6248341556088183 : Rat) / 18014398509481984, (6398695713412783 : Rat) / 18014398509481984),
  ((2634253271193139 : Rat) / 9007199254740992, (2321862064523035 : Rat) / 9007199254740992, (0 : Rat), (2321862064523035 : Rat) / 9007199254740992, (2321862064523035 : Rat) / 9007199254740992, (2321862064523035 : Rat) / 9007199254740992),
  ((6414727039656237 : Rat) / 9007199254740992, (2395648426138293 : Rat) / 9007199254740992, (1 : Rat), (5233372442797309 : Rat) / 36028797018963968, (0 : Rat), (2395648426138293 : Rat) / 4503599627370496),
  ((4506120480639251 : Rat) / 9007199254740992, (985907386362913 : Rat) / 4503599627370496, (7743344272855221 : Rat) / 9007199254740992, (138338669623289 : Rat) / 4503599627370496, (3661259169842509 : Rat) / 9007199254740992, (1833476103102537 : Rat) / 4503599627370496),
  ((5960814722186491 : Rat) / 9007199254740992, (474606442900207 : Rat) / 4503599627370496, (2483025697621589 : Rat) / 9007199254740992, (2750168808070469 : Rat) / 36028797018963968, (1405751946443575 : Rat) / 18014398509481984, (4843534278332843 : Rat) / 36028797018963968),
  ((2900938903841413 : Rat) / 9007199254740992, (733199727501523 : Rat) / 4503599627370496, (5811817140034925 : Rat) / 9007199254740992, (1296232264149021 : Rat) / 18014398509481984, (2412580975550483 : Rat) / 9007199254740992, (520217934455609 : Rat) / 9007199254740992),
  ((1973803853623649 : Rat) / 9007199254740992, (1178817301567753 : Rat) / 4503599627370496, (1 : Rat), (6461639974195889 : Rat) / 18014398509481984, (1178817301567753 : Rat) / 2251799813685248, (0 : Rat)),
  ((3382353924376917 : Rat) / 9007199254740992, (6917325951454633 : Rat) / 9007199254740992, (7781787113457677 : Rat) / 9007199254740992, (5111775893070733 : Rat) / 9007199254740992, (8722876009838533 : Rat) / 9007199254740992, (1506436624359527 : Rat) / 2251799813685248),
  ((4477164904884681 : Rat) / 9007199254740992, (3932055397504801 : Rat) / 9007199254740992, (1 : Rat), (0 : Rat), (3932055397504801 : Rat) / 4503599627370496, (241425974258179 : Rat) / 281474976710656),
  ((3654217216390421 : Rat) / 9007199254740992, (60370815998247 : Rat) / 70368744177664, (1 : Rat), (25186443909415 : Rat) / 35184372088832, (1 : Rat), (944880667951595 : Rat) / 1125899906842624),
  ((4119851959287719 : Rat) / 4503599627370496, (7206960616019265 : Rat) / 9007199254740992, (1190108979491917 : Rat) / 4503599627370496, (3841343389371281 : Rat) / 4503599627370496, (210351076665499 : Rat) / 281474976710656, (7217668827652525 : Rat) / 9007199254740992),
  ((1375035644444255 : Rat) / 9007199254740992, (5225021214369023 : Rat) / 9007199254740992, (0 : Rat), (5225021214369023 : Rat) / 9007199254740992, (5225021214369023 : Rat) / 9007199254740992, (5225021214369023 : Rat) / 9007199254740992),
  ((325379449764517 : Rat) / 4503599627370496, (678694340894945 : Rat) / 9007199254740992, (1 : Rat), (678694340894945 : Rat) / 4503599627370496, (4707342594628487 : Rat) / 72057594037927936, (0 : Rat)),
  ((3888738964697665 : Rat) / 4503599627370496, (181319502506699 : Rat) / 4503599627370496, (0 : Rat), (181319502506699 : Rat) / 4503599627370496, (181319502506699 : Rat) / 4503599627370496, (181319502506699 : Rat) / 4503599627370496),
  ((467050227828641 : Rat) / 562949953421312, (381934390173333 : Rat) / 562949953421312, (1 : Rat), (4439555450136571 : Rat) / 4503599627370496, (100459413462677 : Rat) / 281474976710656, (1 : Rat)),
  ((7346300496154805 : Rat) / 9007199254740992, (127758724687585 : Rat) / 140737488355328, (1 : Rat), (4415235364996603 : Rat) / 4503599627370496, (57389980509921 : Rat) / 70368744177664, (1 : Rat)),
  ((8401517169027887 : Rat) / 9007199254740992, (1621760465987451 : Rat) / 2251799813685248, (6846823335868691 : Rat) / 9007199254740992, (4201369867327851 : Rat) / 4503599627370496, (2285671996621953 : Rat) / 4503599627370496, (3058589647787205 : Rat) / 4503599627370496),
  ((3896105216682367 : Rat) / 9007199254740992, (1763516601341595 : Rat) / 4503599627370496, (0 : Rat), (1763516601341595 : Rat) / 4503599627370496, (1763516601341595 : Rat) / 4503599627370496, (1763516601341595 : Rat) / 4503599627370496)] : List (Rat × Rat × Rat × Rat × Rat × Rat)).all (fun t => decide (Hls.hlsToRgb fl t.1 t.2.1 t.2.2.1 = t.2.2.2)) = true := by
  decide +kernel

/-- `argparse`, for the parser that `main` builds -/
example : ([
  ([], .error .usage),
  ([cs [115, 105, 122, 101]], .ok .size),
  ([cs [100, 101, 98, 117, 103]], .ok .debug),
  ([cs [103, 101, 116, 99, 104]], .ok (.getch false)),
  ([cs [45, 45, 114, 97, 119]], .error .usage),
  ([cs [45, 45, 114]], .error .usage),
  ([cs [45, 45, 114, 97]], .error .usage),
  ([cs [45, 45, 114, 97, 119, 61]], .error .usage),
  ([cs [45, 45, 114, 97, 119, 61, 49]], .error .usage),
  ([cs [45, 45, 114, 61]], .error .usage),
  ([cs [45, 114]], .error .usage),
  ([cs [45, 104]], .error (.help none)),
  ([cs [45, 45, 104, 101, 108, 112]], .error (.help none)),
  ([cs [45, 45, 104]], .error (.help none)),
  ([cs [45, 45, 104, 101]], .error (.help none)),
  ([cs [45, 45, 104, 101, 108, 61, 120]], .error .usage),
  ([cs [45, 118]], .error .version),
  ([cs [45, 45, 118]], .error .version),
  ([cs [45, 45, 118, 101, 114, 115, 105, 111, 110]], .error .version),
  ([cs [45, 45, 118, 101, 114, 115, 105, 111, 110, 115]], .error .usage),
  ([cs [45, 118, 104]], .error .version),
  ([cs [45, 104, 118]], .error (.help none)),
  ([cs [45, 118, 120]], .error .version),
  ([cs [45, 118, 104, 61]], .error .usage),
  ([cs [45, 118, 61, 104]], .error .usage),
  ([cs [45, 118, 45]], .error .usage),
  ([cs [45, 104, 104, 61, 120]], .error .usage),
  ([cs [45, 104, 118, 120]], .error (.help none)),
  ([cs [45, 45]], .error .usage),
  ([cs [45]], .error .usage),
  ([cs []], .error .usage),
  ([cs [45, 53]], .error .usage),
  ([cs [45, 53, 46, 53]], .error .usage),
  ([cs [45, 46, 53]], .error .usage),
  ([cs [45, 53, 46]], .error .usage),
  ([cs [45, 53, 10]], .error .usage),
  ([cs [45, 1633]], .error .usage),
  ([cs [45, 45, 61, 120]], .error .usage),
  ([cs [45, 61]], .error .usage),
  ([cs [45, 61, 104]], .error .usage),
  ([cs [45, 32]], .error .usage),
  ([cs [45, 120, 32, 121]], .error .usage),
  ([cs [45, 45, 120, 32, 121]], .error .usage),
  ([cs [45, 120]], .error .usage),
  ([cs [45, 45, 120]], .error .usage),
  ([cs [120]], .error .usage),
  ([cs [115, 105, 122]], .error .usage),
  ([cs [45, 45, 114, 97, 119, 32, 45, 45, 114, 97, 119]], .error .usage),
  ([cs [45, 45, 10]], .error .usage),
  ([cs [45, 104, 32]], .error (.help none)),
  ([cs [45, 45, 104, 61]], .error .usage),
  ([cs [45, 45, 104, 120]], .error .usage),
  ([cs [45, 114, 61, 45, 45, 114, 97, 119]], .error .usage),
  ([cs [115, 105, 122, 101], cs [115, 105, 122, 101]], .error .usage),
  ([cs [115, 105, 122, 101], cs [100, 101, 98, 117, 103]], .error .usage),
  ([cs [115, 105, 122, 101], cs [103, 101, 116, 99, 104]], .error .usage),
  ([cs [115, 105, 122, 101], cs [45, 45, 114, 97, 119]], .error .usage),
  ([cs [115, 105, 122, 101], cs [45, 45, 114]], .error .usage),
  ([cs [115, 105, 122, 101], cs [45, 45, 114, 97]], .error .usage),
  ([cs [115, 105, 122, 101], cs [45, 45, 114, 97, 119, 61]], .error .usage),
  ([cs [115, 105, 122, 101], cs [45, 45, 114, 97, 119, 61, 49]], .error .usage),
  ([cs [115, 105, 122, 101], cs [45, 45, 114, 61]], .error .usage),
  ([cs [115, 105, 122, 101], cs [45, 114]], .error .usage),
  ([cs [115, 105, 122, 101], cs [45, 104]], .error (.help (some (cs [115, 105, 122, 101])))),
  ([cs [115, 105, 122, 101], cs [45, 45, 104, 101, 108, 112]], .error (.help (some (cs [115, 105, 122, 101])))),
  ([cs [115, 105, 122, 101], cs [45, 45, 104]], .error (.help (some (cs [115, 105, 122, 101])))),
  ([cs [115, 105, 122, 101], cs [45, 45, 104, 101]], .error (.help (some (cs [115, 105, 122, 101])))),
  ([cs [115, 105, 122, 101], cs [45, 45, 104, 101, 108, 61, 120]], .error .usage),
  ([cs [115, 105, 122, 101], cs [45, 118]], .error .usage),
  ([cs [115, 105, 122, 101], cs [45, 45, 118]], .error .usage),
  ([cs [115, 105, 122, 101], cs [45, 45, 118, 101, 114, 115, 105, 111, 110]], .error .usage),
  ([cs [115, 105, 122, 101], cs [45, 45, 118, 101, 114, 115, 105, 111, 110, 115]], .error .usage),
  ([cs [115, 105, 122, 101], cs [45, 118, 104]], .error .usage),
  ([cs [115, 105, 122, 101], cs [45, 104, 118]], .error (.help (some (cs [115, 105, 122, 101])))),
  ([cs [115, 105, 122, 101], cs [45, 118, 120]], .error .usage),
  ([cs [115, 105, 122, 101], cs [45, 118, 104, 61]], .error .usage),
  ([cs [115, 105, 122, 101], cs [45, 118, 61, 104]], .error .usage),
  ([cs [115, 105, 122, 101], cs [45, 118, 45]], .error .usage),
  ([cs [115, 105, 122, 101], cs [45, 104, 104, 61, 120]], .error .usage),
  ([cs [115, 105, 122, 101], cs [45, 104, 118, 120]], .error (.help (some (cs [115, 105, 122, 101])))),
  ([cs [115, 105, 122, 101], cs [45, 45]], .error .usage),
  ([cs [115, 105, 122, 101], cs [45]], .error .usage),
  ([cs [115, 105, 122, 101], cs []], .error .usage),
  ([cs [115, 105, 122, 101], cs [45, 53]], .error .usage),
  ([cs [115, 105, 122, 101], cs [45, 53, 46, 53]], .error .usage),
  ([cs [115, 105, 122, 101], cs [45, 46, 53]], .error .usage),
  ([cs [115, 105, 122, 101], cs [45, 53, 46]], .error .usage),
  ([cs [115, 105, 122, 101], cs [45, 53, 10]], .error .usage),
  ([cs [115, 105, 122, 101], cs [45, 1633]], .error .usage),
  ([cs [115, 105, 122, 101], cs [45, 45, 61, 120]], .error .usage),
  ([cs [115, 105, 122, 101], cs [45, 61]], .error .usage),
  ([cs [115, 105, 122, 101], cs [45, 61, 104]], .error .usage),
  ([cs [115, 105, 122, 101], cs [45, 32]], .error .usage),
  ([cs [115, 105, 122, 101], cs [45, 120, 32, 121]], .error .usage),
  ([cs [115, 105, 122, 101], cs [45, 45, 120, 32, 121]], .error .usage),
  ([cs [115, 105, 122, 101], cs [45, 120]], .error .usage),
  ([cs [115, 105, 122, 101], cs [45, 45, 120]], .error .usage),
  ([cs [115, 105, 122, 101], cs [120]], .error .usage),
  ([cs [115, 105, 122, 101], cs [115, 105, 122]], .error .usage),
  ([cs [115, 105, 122, 101], cs [45, 45, 114, 97, 119, 32, 45, 45, 114, 97, 119]], .error .usage),
  ([cs [115, 105, 122, 101], cs [45, 45, 10]], .error .usage),
  ([cs [115, 105, 122, 101], cs [45, 104, 32]], .error (.help (some (cs [115, 105, 122, 101])))),
  ([cs [115, 105, 122, 101], cs [45, 45, 104, 61]], .error .usage),
  ([cs [115, 105, 122, 101], cs [45, 45, 104, 120]], .error .usage),
  ([cs [115, 105, 122, 101], cs [45, 114, 61, 45, 45, 114, 97, 119]], .error .usage),
  ([cs [103, 101, 116, 99, 104], cs [115, 105, 122, 101]], .error .usage),
  ([cs [103, 101, 116, 99, 104], cs [100, 101, 98, 117, 103]], .error .usage),
  ([cs [103, 101, 116, 99, 104], cs [103, 101, 116, 99, 104]], .error .usage),
  ([cs [103, 101, 116, 99, 104], cs [45, 45, 114, 97, 119]], .ok (.getch true)),
  ([cs [103, 101, 116, 99, 104], cs [45, 45, 114]], .ok (.getch true)),
  ([cs [103, 101, 116, 99, 104], cs [45, 45, 114, 97]], .ok (.getch true)),
  ([cs [103, 101, 116, 99, 104], cs [45, 45, 114, 97, 119, 61]], .error .usage),
  ([cs [103, 101, 116, 99, 104], cs [45, 45, 114, 97, 119, 61, 49]], .error .usage),
  ([cs [103, 101, 116, 99, 104], cs [45, 45, 114, 61]], .error .usage),
  ([cs [103, 101, 116, 99, 104], cs [45, 114]], .error .usage),
  ([cs [103, 101, 116, 99, 104], cs [45, 104]], .error (.help (some (cs [103, 101, 116, 99, 104])))),
  ([cs [103, 101, 116, 99, 104], cs [45, 45, 104, 101, 108, 112]], .error (.help (some (cs [103, 101, 116, 99, 104])))),
  ([cs [103, 101, 116, 99, 104], cs [45, 45, 104]], .error (.help (some (cs [103, 101, 116, 99, 104])))),
  ([cs [103, 101, 116, 99, 104], cs [45, 45, 104, 101]], .error (.help (some (cs [103, 101, 116, 99, 104])))),
  ([cs [103, 101, 116, 99, 104], cs [45, 45, 104, 101, 108, 61, 120]], .error .usage),
  ([cs [103, 101, 116, 99, 104], cs [45, 118]], .error .usage),
  ([cs [103, 101, 116, 99, 104], cs [45, 45, 118]], .error .usage),
  ([cs [103, 101, 116, 99, 104], cs [45, 45, 118, 101, 114, 115, 105, 111, 110]], .error .usage),
  ([cs [103, 101, 116, 99, 104], cs [45, 45, 118, 101, 114, 115, 105, 111, 110, 115]], .error .usage),
  ([cs [103, 101, 116, 99, 104], cs [45, 118, 104]], .error .usage),
  ([cs [103, 101, 116, 99, 104], cs [45, 104, 118]], .error (.help (some (cs [103, 101, 116, 99, 104])))),
  ([cs [103, 101, 116, 99, 104], cs [45, 118, 120]], .error .usage),
  ([cs [103, 101, 116, 99, 104], cs [45, 118, 104, 61]], .error .usage),
  ([cs [103, 101, 116, 99, 104], cs [45, 118, 61, 104]], .error .usage),
  ([cs [103, 101, 116, 99, 104], cs [45, 118, 45]], .error .usage),
  ([cs [103, 101, 116, 99, 104], cs [45, 104, 104, 61, 120]], .error .usage),
  ([cs [103, 101, 116, 99, 104], cs [45, 104, 118, 120]], .error (.help (some (cs [103, 101, 116, 99, 104])))),
  ([cs [103, 101, 116, 99, 104], cs [45, 45]], .error .usage),
  ([cs [103, 101, 116, 99, 104], cs [45]], .error .usage),
  ([cs [103, 101, 116, 99, 104], cs []], .error .usage),
  ([cs [103, 101, 116, 99, 104], cs [45, 53]], .error .usage),
  ([cs [103, 101, 116, 99, 104], cs [45, 53, 46, 53]], .error .usage),
  ([cs [103, 101, 116, 99, 104], cs [45, 46, 53]], .error .usage),
  ([cs [103, 101, 116, 99, 104], cs [45, 53, 46]], .error .usage),
  ([cs [103, 101, 116, 99, 104], cs [45, 53, 10]], .error .usage),
  ([cs [103, 101, 116, 99, 104], cs [45, 1633]], .error .usage),
  ([cs [103, 101, 116, 99, 104], cs [45, 45, 61, 120]], .error .usage),
  ([cs [103, 101, 116, 99, 104], cs [45, 61]], .error .usage),
  ([cs [103, 101, 116, 99, 104], cs [45, 61, 104]], .error .usage),
  ([cs [103, 101, 116, 99, 104], cs [45, 32]], .error .usage),
  ([cs [103, 101, 116, 99, 104], cs [45, 120, 32, 121]], .error .usage),
  ([cs [103, 101, 116, 99, 104], cs [45, 45, 120, 32, 121]], .error .usage),
  ([cs [103, 101, 116, 99, 104], cs [45, 120]], .error .usage),
  ([cs [103, 101, 116, 99, 104], cs [45, 45, 120]], .error .usage),
  ([cs [103, 101, 116, 99, 104], cs [120]], .error .usage),
  ([cs [103, 101, 116, 99, 104], cs [115, 105, 122]], .error .usage),
  ([cs [103, 101, 116, 99, 104], cs [45, 45, 114, 97, 119, 32, 45, 45, 114, 97, 119]], .error .usage),
  ([cs [103, 101, 116, 99, 104], cs [45, 45, 10]], .error .usage),
  ([cs [103, 101, 116, 99, 104], cs [45, 104, 32]], .error (.help (some (cs [103, 101, 116, 99, 104])))),
  ([cs [103, 101, 116, 99, 104], cs [45, 45, 104, 61]], .error .usage),
  ([cs [103, 101, 116, 99, 104], cs [45, 45, 104, 120]], .error .usage),
  ([cs [103, 101, 116, 99, 104], cs [45, 114, 61, 45, 45, 114, 97, 119]], .error .usage),
  ([cs [115, 105, 122, 101], cs [115, 105, 122, 101]], .error .usage),
  ([cs [100, 101, 98, 117, 103], cs [115, 105, 122, 101]], .error .usage),
  ([cs [103, 101, 116, 99, 104], cs [115, 105, 122, 101]], .error .usage),
  ([cs [45, 45, 114, 97, 119], cs [115, 105, 122, 101]], .error .usage),
  ([cs [45, 45, 114], cs [115, 105, 122, 101]], .error .usage),
  ([cs [45, 45, 114, 97], cs [115, 105, 122, 101]], .error .usage),
  ([cs [45, 45, 114, 97, 119, 61], cs [115, 105, 122, 101]], .error .usage),
  ([cs [45, 45, 114, 97, 119, 61, 49], cs [115, 105, 122, 101]], .error .usage),
  ([cs [45, 45, 114, 61], cs [115, 105, 122, 101]], .error .usage),
  ([cs [45, 114], cs [115, 105, 122, 101]], .error .usage),
  ([cs [45, 104], cs [115, 105, 122, 101]], .error (.help none)),
  ([cs [45, 45, 104, 101, 108, 112], cs [115, 105, 122, 101]], .error (.help none)),
  ([cs [45, 45, 104], cs [115, 105, 122, 101]], .error (.help none)),
  ([cs [45, 45, 104, 101], cs [115, 105, 122, 101]], .error (.help none)),
  ([cs [45, 45, 104, 101, 108, 61, 120], cs [115, 105, 122, 101]], .error .usage),
  ([cs [45, 118], cs [115, 105, 122, 101]], .error .version),
  ([cs [45, 45, 118], cs [115, 105, 122, 101]], .error .version),
  ([cs [45, 45, 118, 101, 114, 115, 105, 111, 110], cs [115, 105, 122, 101]], .error .version),
  ([cs [45, 45, 118, 101, 114, 115, 105, 111, 110, 115], cs [115, 105, 122, 101]], .error .usage),
  ([cs [45, 118, 104], cs [115, 105, 122, 101]], .error .version),
  ([cs [45, 104, 118], cs [115, 105, 122, 101]], .error (.help none)),
  ([cs [45, 118, 120], cs [115, 105, 122, 101]], .error .version),
  ([cs [45, 118, 104, 61], cs [115, 105, 122, 101]], .error .usage),
  ([cs [45, 118, 61, 104], cs [115, 105, 122, 101]], .error .usage),
  ([cs [45, 118, 45], cs [115, 105, 122, 101]], .error .usage),
  ([cs [45, 104, 104, 61, 120], cs [115, 105, 122, 101]], .error .usage),
  ([cs [45, 104, 118, 120], cs [115, 105, 122, 101]], .error (.help none)),
  ([cs [45, 45], cs [115, 105, 122, 101]], .error .usage),
  ([cs [45], cs [115, 105, 122, 101]], .error .usage),
  ([cs [], cs [115, 105, 122, 101]], .error .usage),
  ([cs [45, 53], cs [115, 105, 122, 101]], .error .usage),
  ([cs [45, 53, 46, 53], cs [115, 105, 122, 101]], .error .usage),
  ([cs [45, 46, 53], cs [115, 105, 122, 101]], .error .usage),
  ([cs [45, 53, 46], cs [115, 105, 122, 101]], .error .usage),
  ([cs [45, 53, 10], cs [115, 105, 122, 101]], .error .usage),
  ([cs [45, 1633], cs [115, 105, 122, 101]], .error .usage),
  ([cs [45, 45, 61, 120], cs [115, 105, 122, 101]], .error .usage),
  ([cs [45, 61], cs [115, 105, 122, 101]], .error .usage),
  ([cs [45, 61, 104], cs [115, 105, 122, 101]], .error .usage),
  ([cs [45, 32], cs [115, 105, 122, 101]], .error .usage),
  ([cs [45, 120, 32, 121], cs [115, 105, 122, 101]], .error .usage),
  ([cs [45, 45, 120, 32, 121], cs [115, 105, 122, 101]], .error .usage),
  ([cs [45, 120], cs [115, 105, 122, 101]], .error .usage),
  ([cs [45, 45, 120], cs [115, 105, 122, 101]], .error .usage),
  ([cs [120], cs [115, 105, 122, 101]], .error .usage),
  ([cs [115, 105, 122], cs [115, 105, 122, 101]], .error .usage),
  ([cs [45, 45, 114, 97, 119, 32, 45, 45, 114, 97, 119], cs [115, 105, 122, 101]], .error .usage),
  ([cs [45, 45, 10], cs [115, 105, 122, 101]], .error .usage),
  ([cs [45, 104, 32], cs [115, 105, 122, 101]], .error (.help none)),
  ([cs [45, 45, 104, 61], cs [115, 105, 122, 101]], .error .usage),
  ([cs [45, 45, 104, 120], cs [115, 105, 122, 101]], .error .usage),
  ([cs [45, 114, 61, 45, 45, 114, 97, 119], cs [115, 105, 122, 101]], .error .usage),
  ([cs [45, 104], cs [115, 105, 122], cs [45, 118, 120], cs [45, 118, 61, 104]], .error (.help none)),
  ([cs [45, 45], cs [115, 105, 122], cs [45, 118, 45], cs [45, 45, 114, 97, 119, 61, 49]], .error .usage),
  ([cs [45, 45, 114, 97, 119], cs [45, 45], cs [45, 61, 104]], .error .usage),
  ([cs [45, 45, 114, 97, 119, 61, 49], cs [45, 45, 104, 101, 108, 61, 120]], .error .usage),
  ([cs [45, 53], cs [45, 118, 45], cs [45, 45, 104, 101, 108, 112], cs [45, 45, 120]], .error .usage),
  ([cs [45, 45, 104, 101, 108, 61, 120], cs [45, 32]], .error .usage),
  ([cs [120], cs [45, 118, 104, 61]], .error .usage),
  ([cs [45, 46, 53], cs [45], cs [45, 114, 61, 45, 45, 114, 97, 119]], .error .usage),
  ([cs [45, 118, 45], cs [45, 120, 32, 121]], .error .usage),
  ([cs [45, 45, 61, 120], cs [45, 45, 104, 101, 108, 112], cs [103, 101, 116, 99, 104]], .error .usage),
  ([cs [45, 45, 104], cs [45, 45, 120], cs [45, 118], cs [45, 104, 32]], .error (.help none)),
  ([cs [45, 45, 114, 97, 119, 61, 49], cs [45, 45, 118, 101, 114, 115, 105, 111, 110]], .error .version),
  ([cs [115, 105, 122, 101], cs [115, 105, 122, 101], cs [45, 118, 61, 104], cs [45, 45, 118, 101, 114, 115, 105, 111, 110, 115]], .error .usage),
  ([cs [45, 45, 114, 97, 119], cs [45, 118, 104]], .error .version),
  ([cs [45, 45, 120], cs [45, 114], cs [45, 45, 114, 61], cs [45, 45, 114]], .error .usage),
  ([cs [45, 104], cs [45, 61], cs [45, 104, 118, 120], cs [45, 45, 118, 101, 114, 115, 105, 111, 110]], .error (.help none)),
  ([cs [45, 45, 114], cs [45, 45, 104]], .error (.help none)),
  ([cs [45, 61, 104], cs [45, 104, 118, 120]], .error (.help none)),
  ([cs [45, 45, 104, 120], cs [45, 104, 104, 61, 120]], .error .usage),
  ([cs [45, 53, 46, 53], cs [45, 45, 104, 101, 108, 112], cs [45, 61, 104], cs [45, 45, 114]], .error .usage),
  ([cs [45, 118], cs [45, 45, 104, 101], cs [45, 45, 114]], .error .version),
  ([cs [45, 114], cs [45, 118], cs [45, 45, 104], cs [45, 32]], .error .version),
  ([cs [120], cs [45, 114], cs [45, 1633], cs [45, 45, 118]], .error .usage),
  ([cs [45, 45, 104, 61], cs [45, 104, 32]], .error .usage),
  ([cs [45, 118, 61, 104], cs [45, 45, 114, 97], cs [45, 118, 104, 61], cs [45, 53, 46]], .error .usage),
  ([cs [45, 45, 104, 101, 108, 112], cs [45, 120], cs [45, 45, 61, 120]], .error .usage),
  ([cs [45, 45], cs [45, 45, 104, 120], cs [45, 1633]], .error .usage),
  ([cs [115, 105, 122], cs [45, 1633], cs [45, 45, 104, 101, 108, 61, 120], cs [45, 45, 114, 61]], .error .usage),
  ([cs [45, 61], cs [45, 45, 114, 97, 119, 61, 49], cs [45, 45, 104, 120], cs [45, 45]], .error .usage),
  ([cs [45, 45], cs [45, 118, 61, 104], cs [45, 45, 104, 101, 108, 61, 120], cs [45]], .error .usage),
  ([cs [45, 1633], cs [45, 104, 104, 61, 120], cs [45, 118, 120], cs [45, 120]], .error .usage),
  ([cs [45, 45, 104, 101, 108, 112], cs [45, 45, 114, 97, 119], cs [45, 45, 104, 61], cs [45, 45, 114, 97, 119]], .error (.help none)),
  ([cs [45, 32], cs [], cs [45, 104]], .error .usage),
  ([cs [45, 45, 114, 97, 119, 32, 45, 45, 114, 97, 119], cs [], cs [45, 45, 61, 120], cs [45, 118, 61, 104]], .error .usage),
  ([cs [45, 114], cs [], cs [45, 45, 104]], .error .usage),
  ([cs [45, 53], cs [45, 53, 10], cs [45, 45, 118, 101, 114, 115, 105, 111, 110, 115], cs [45, 61, 104]], .error .usage),
  ([cs [45, 45, 114, 61], cs [45, 61, 104]], .error .usage),
  ([cs [45, 45, 118, 101, 114, 115, 105, 111, 110, 115], cs [45, 45, 114, 97, 119, 61]], .error .usage),
  ([cs [45, 45, 114, 97], cs [45, 45, 120, 32, 121], cs [45, 45, 104, 101, 108, 61, 120], cs [45, 45]], .error .usage),
  ([cs [45, 45, 104, 101], cs [45, 120], cs [45, 118, 104], cs [45, 53, 46, 53]], .error (.help none)),
  ([cs [45, 45, 114, 97, 119], cs [45, 118, 45], cs [45, 45, 104, 101], cs [45, 120, 32, 121]], .error .usage),
  ([cs [45, 45, 114, 97, 119], cs [45, 118, 104], cs [45, 45, 10], cs [45, 118, 104]], .error .version),
  ([cs [45, 45, 104, 101], cs [45, 45], cs [115, 105, 122, 101], cs [45, 104, 32]], .error (.help none)),
  ([cs [45, 104, 118], cs [45, 104, 118, 120], cs [45, 118]], .error (.help none)),
  ([cs [45, 45, 114, 97, 119, 61], cs [45, 104], cs [45, 46, 53], cs [45, 45, 114, 97, 119]], .error (.help none)),
  ([cs [45, 118, 45], cs [45, 104], cs [100, 101, 98, 117, 103], cs [45, 46, 53]], .error .usage),
  ([cs [45, 53, 46, 53], cs [45, 118, 61, 104], cs [45, 1633]], .error .usage),
  ([cs [100, 101, 98, 117, 103], cs [45, 45, 120, 32, 121], cs [45, 61, 104]], .error .usage),
  ([cs [45, 45], cs [45, 118, 45], cs [45, 118], cs [45, 53, 46]], .error .usage),
  ([cs [45, 1633], cs [45, 120, 32, 121]], .error .usage),
  ([cs [45, 45, 120, 32, 121], cs [45, 45, 104]], .error .usage),
  ([cs [45, 104, 118], cs [103, 101, 116, 99, 104], cs [45, 45, 114, 61], cs [45]], .error (.help none)),
  ([cs [45, 45, 104, 101, 108, 112], cs [45], cs [45, 114], cs [45, 114]], .error (.help none)),
  ([cs [45, 46, 53], cs [45, 118, 45], cs [120]], .error .usage),
  ([cs [45, 46, 53], cs [45, 45, 114, 97, 119, 61, 49]], .error .usage),
  ([cs [120], cs [45, 118, 45]], .error .usage),
  ([cs [45, 118, 61, 104], cs [45, 45, 104, 101], cs [103, 101, 116, 99, 104]], .error .usage),
  ([cs [45, 104, 118, 120], cs [45, 45, 104, 101, 108, 61, 120], cs [45, 53], cs [45, 45, 104]], .error (.help none)),
  ([cs [45, 118], cs [45, 45, 104]], .error .version),
  ([cs [45, 120], cs [45, 118, 120], cs [45, 45, 120, 32, 121], cs [120]], .error .version),
  ([cs [45, 53], cs [45, 114, 61, 45, 45, 114, 97, 119], cs [45, 45, 104, 61]], .error .usage),
  ([cs [45, 45, 61, 120], cs [45, 114, 61, 45, 45, 114, 97, 119], cs [45, 46, 53], cs [45, 118]], .error .usage),
  ([cs [45, 45, 118, 101, 114, 115, 105, 111, 110, 115], cs [45, 45, 114, 97, 119, 61, 49]], .error .usage),
  ([cs [115, 105, 122, 101], cs [45, 104, 32], cs [103, 101, 116, 99, 104], cs [45, 32]], .error (.help (some (cs [115, 105, 122, 101])))),
  ([cs [45, 45, 114, 97], cs [45, 45, 104, 120], cs [45, 53, 46]], .error .usage),
  ([cs [45, 45, 104, 101, 108, 112], cs [], cs [45, 53, 10], cs [45, 45, 114, 97]], .error (.help none)),
  ([cs [45, 45, 114, 97, 119, 32, 45, 45, 114, 97, 119], cs [45, 45, 114, 61], cs [45, 53, 10]], .error .usage),
  ([cs [45, 45, 104, 120], cs [115, 105, 122]], .error .usage),
  ([cs [45, 104, 118], cs [45, 120]], .error (.help none)),
  ([cs [45, 118, 104, 61], cs [45], cs [45, 45, 10], cs [45, 45, 104]], .error .usage),
  ([cs [], cs [45, 114, 61, 45, 45, 114, 97, 119], cs [45, 45, 114, 97]], .error .usage),
  ([cs [45, 118, 61, 104], cs [115, 105, 122, 101], cs [45, 45, 118, 101, 114, 115, 105, 111, 110, 115]], .error .usage),
  ([cs [45, 61], cs [45, 118, 104, 61]], .error .usage),
  ([cs [45, 120, 32, 121], cs [115, 105, 122, 101], cs [45, 45, 114, 97, 119, 61]], .error .usage),
  ([cs [45, 45, 104, 120], cs [45, 104, 32], cs [45, 104, 104, 61, 120]], .error (.help none)),
  ([cs [120], cs [45, 45, 104, 101, 108, 112], cs [45, 118, 104]], .error .usage),
  ([cs [45, 45, 120, 32, 121], cs [45, 45, 104, 101, 108, 61, 120], cs [45, 45, 10], cs [45, 118, 120]], .error .usage),
  ([cs [45, 45, 104, 101], cs [103, 101, 116, 99, 104], cs [45, 45, 114, 97, 119]], .error (.help none)),
  ([cs [115, 105, 122], cs [45, 45, 104, 101, 108, 112]], .error .usage),
  ([cs [], cs [45, 104, 118], cs [115, 105, 122], cs [103, 101, 116, 99, 104]], .error .usage),
  ([cs [45, 114, 61, 45, 45, 114, 97, 119], cs [45, 61], cs [45, 53, 46]], .error .usage),
  ([cs [45, 45, 114], cs [115, 105, 122], cs [45, 120, 32, 121]], .error .usage),
  ([cs [115, 105, 122, 101], cs [45, 45, 114, 61]], .error .usage),
  ([cs [45, 118, 104, 61], cs [45, 45, 118, 101, 114, 115, 105, 111, 110], cs [45, 114, 61, 45, 45, 114, 97, 119]], .error .usage),
  ([cs [103, 101, 116, 99, 104], cs [45, 118, 45], cs [45, 45, 114, 97, 119, 61, 49]], .error .usage),
  ([cs [120], cs [45, 104, 118, 120], cs [45, 104, 32]], .error .usage),
  ([cs [45, 45, 104, 101, 108, 61, 120], cs [45, 53, 46]], .error .usage),
  ([cs [45, 45], cs [45, 45, 61, 120], cs [45, 45, 118], cs [115, 105, 122, 101]], .error .usage),
  ([cs [45, 114, 61, 45, 45, 114, 97, 119], cs [45, 114]], .error .usage),
  ([cs [115, 105, 122], cs [45, 104, 32], cs [45, 114]], .error .usage),
  ([cs [45, 45, 114], cs [45, 61, 104], cs [45, 118]], .error .version),
  ([cs [45, 45, 120, 32, 121], cs [45, 1633], cs [45, 114], cs [45, 45, 114, 61]], .error .usage),
  ([cs [45, 45, 114, 61], cs [45, 32], cs [120]], .error .usage),
  ([cs [45, 118, 120], cs [45, 45, 104], cs [45, 45, 114, 61], cs [45, 45, 114, 61]], .error .version),
  ([cs [120], cs [45, 45, 114, 97, 119, 61, 49], cs [45, 45, 114, 61], cs [45, 45, 104, 61]], .error .usage),
  ([cs [45, 61, 104], cs [45, 45, 118, 101, 114, 115, 105, 111, 110]], .error .version),
  ([cs [45, 118, 104, 61], cs [115, 105, 122, 101], cs [45, 114]], .error .usage),
  ([cs [115, 105, 122, 101], cs [45, 45, 114], cs [45, 114, 61, 45, 45, 114, 97, 119], cs []], .error .usage),
  ([cs [45, 45], cs [115, 105, 122], cs [45, 104, 104, 61, 120], cs [45, 118, 104]], .error .usage),
  ([cs [45, 45, 114, 61], cs [45, 104, 104, 61, 120], cs [45, 45], cs [45, 104, 32]], .error .usage),
  ([cs [45, 45, 104, 120], cs [45], cs [45, 118, 104, 61]], .error .usage),
  ([cs [45, 53], cs [45, 45, 104, 101, 108, 112], cs [45, 45, 118, 101, 114, 115, 105, 111, 110]], .error .usage),
  ([cs [45, 118, 104], cs [45, 45, 104, 101, 108, 61, 120]], .error .version),
  ([cs [45, 45, 114, 97, 119], cs [45, 53, 46, 53], cs [45, 45, 114, 97, 119], cs [45, 45, 104, 120]], .error .usage),
  ([cs [45, 45, 114, 97], cs [45, 61, 104]], .error .usage),
  ([cs [115, 105, 122, 101], cs [45, 45, 104, 120], cs [45, 120, 32, 121]], .error .usage),
  ([cs [45, 45, 114, 61], cs [115, 105, 122]], .error .usage),
  ([cs [45, 114, 61, 45, 45, 114, 97, 119], cs [45, 45, 10], cs [45, 32]], .error .usage),
  ([cs [45, 45, 104, 101, 108, 61, 120], cs [45, 61], cs [45, 32]], .error .usage),
  ([cs [45, 45, 104, 101, 108, 112], cs [45, 45, 114, 97, 119, 32, 45, 45, 114, 97, 119], cs [45, 45, 104, 101]], .error (.help none)),
  ([cs [45, 45, 114, 97], cs [45, 118, 120]], .error .version),
  ([cs [45, 45, 114, 97], cs [45, 45, 114, 97, 119, 61, 49], cs [45, 114, 61, 45, 45, 114, 97, 119]], .error .usage),
  ([cs [45, 45, 104, 101, 108, 61, 120], cs [45, 45, 104, 101], cs [45, 118, 120], cs [45, 45, 104, 120]], .error .usage),
  ([cs [45, 53, 10], cs [45], cs [45, 45, 104, 120], cs [45, 45, 104, 61]], .error .usage),
  ([cs [45, 45, 114, 97], cs [45, 45], cs [45, 45, 61, 120], cs [45, 118, 104, 61]], .error .usage),
  ([cs [45, 45, 104, 101, 108, 112], cs [45, 32]], .error (.help none)),
  ([cs [45, 118, 104, 61], cs [45, 45, 104, 101, 108, 112]], .error .usage),
  ([cs [45, 53, 46, 53], cs [45, 32], cs [45, 45, 114, 97], cs []], .error .usage),
  ([cs [45, 45, 104, 101], cs [45, 45, 114], cs [45, 45, 114]], .error (.help none)),
  ([cs [45, 120, 32, 121], cs [45, 45, 118], cs [45, 118, 120], cs [45, 104, 104, 61, 120]], .error .usage),
  ([cs [45, 61], cs [45, 104, 118], cs [45, 45]], .error (.help none)),
  ([cs [45, 32], cs [45, 61, 104], cs [45, 45, 120, 32, 121], cs [45, 45, 114]], .error .usage),
  ([cs [45, 104, 118, 120], cs [45, 118, 104, 61]], .error (.help none)),
  ([cs [45, 45, 10], cs [45, 53, 46, 53], cs [45, 118, 104, 61], cs [120]], .error .usage),
  ([cs [45], cs [45, 118, 120]], .error .usage),
  ([cs [45, 45, 104, 101, 108, 61, 120], cs [45, 118, 104]], .error .usage),
  ([cs [45, 120], cs [45, 45, 120], cs [45, 45, 114, 61]], .error .usage),
  ([cs [45, 45, 118, 101, 114, 115, 105, 111, 110], cs [115, 105, 122]], .error .version),
  ([cs [45, 32], cs [103, 101, 116, 99, 104], cs [45, 104], cs [45, 61]], .error .usage),
  ([cs [45, 45, 114, 97, 119], cs [45, 120], cs [45, 45, 114, 97, 119, 61, 49]], .error .usage),
  ([cs [45, 120, 32, 121], cs [45, 61], cs [45, 45, 114, 97, 119, 61, 49]], .error .usage),
  ([cs [115, 105, 122], cs [45, 120, 32, 121]], .error .usage),
  ([cs [45], cs [45, 45, 61, 120], cs [45, 118], cs []], .error .usage),
  ([cs [45, 45, 114, 97, 119], cs [45, 114], cs [45, 53, 46, 53]], .error .usage),
  ([cs [45, 46, 53], cs [45, 45, 118, 101, 114, 115, 105, 111, 110, 115], cs [45, 45, 10]], .error .usage),
  ([cs [45, 45, 114, 97], cs [45, 45, 61, 120], cs [45, 45]], .error .usage),
  ([cs [45, 45, 120], cs [120]], .error .usage),
  ([cs [45, 45, 104, 101, 108, 61, 120], cs [45, 45], cs [45, 53, 46, 53], cs [45, 45, 114]], .error .usage),
  ([cs [45, 45, 114, 97, 119, 32, 45, 45, 114, 97, 119], cs [45, 118, 61, 104], cs [45, 53, 10], cs [45, 53, 46]], .error .usage),
  ([cs [45, 45, 114, 97, 119], cs [115, 105, 122]], .error .usage),
  ([cs [45, 45, 104], cs [100, 101, 98, 117, 103]], .error (.help none)),
  ([cs [45, 118], cs [45, 118], cs [115, 105, 122]], .error .version),
  ([cs [45, 53, 46], cs [45, 45, 120, 32, 121], cs [45, 104, 118, 120], cs [45, 1633]], .error .usage),
  ([cs [45, 104], cs [45, 45, 104, 120], cs [45, 118]], .error (.help none)),
  ([cs [45, 45, 104, 101, 108, 61, 120], cs [45, 46, 53]], .error .usage),
  ([cs [45, 45, 114, 97, 119], cs [45, 45, 120, 32, 121], cs [45, 114], cs [45, 1633]], .error .usage),
  ([cs [45, 114, 61, 45, 45, 114, 97, 119], cs [100, 101, 98, 117, 103]], .error .usage),
  ([cs [45, 53, 10], cs [45, 45, 118, 101, 114, 115, 105, 111, 110]], .error .usage),
  ([cs [45, 118, 61, 104], cs [45, 118, 120]], .error .usage),
  ([cs [45, 45, 114, 61], cs [45, 45, 114, 97, 119, 61], cs [45, 45, 118], cs [45, 104, 118, 120]], .error .version),
  ([cs [103, 101, 116, 99, 104], cs [45, 45, 114, 97], cs [45, 104], cs [45, 45, 114, 97, 119]], .error (.help (some (cs [103, 101, 116, 99, 104])))),
  ([cs [103, 101, 116, 99, 104], cs [45, 104], cs [45, 45, 114, 97, 119], cs [45, 45, 114, 97, 119]], .error (.help (some (cs [103, 101, 116, 99, 104])))),
  ([cs [103, 101, 116, 99, 104], cs [45, 45], cs [45, 45, 114, 97, 119], cs [45, 45, 114, 97, 119]], .error .usage),
  ([cs [103, 101, 116, 99, 104], cs [45, 45, 114, 97, 119], cs [45, 45, 114, 97], cs [45, 45, 114, 97]], .ok (.getch true)),
  ([cs [103, 101, 116, 99, 104], cs [45, 45, 114, 97], cs [45, 45, 114, 97, 119], cs [45, 45, 114, 97, 119]], .ok (.getch true)),
  ([cs [103, 101, 116, 99, 104], cs [45, 45], cs [45, 45, 114, 97], cs [45, 45]], .error .usage),
  ([cs [103, 101, 116, 99, 104], cs [45, 45], cs [45, 45, 114, 97], cs [45, 45, 114, 97, 119]], .error .usage),
  ([cs [103, 101, 116, 99, 104], cs [45, 45, 114, 97, 119], cs [45, 104], cs [45, 45, 114, 97, 119]], .error (.help (some (cs [103, 101, 116, 99, 104])))),
  ([cs [103, 101, 116, 99, 104], cs [45, 45, 114, 97, 119], cs [45, 45, 114, 97, 119], cs [45, 45, 114, 97, 119]], .ok (.getch true)),
  ([cs [103, 101, 116, 99, 104], cs [45, 45, 114, 97, 119], cs [45, 45], cs [45, 45, 114, 97, 119]], .error .usage),
  ([cs [103, 101, 116, 99, 104], cs [45, 45, 114], cs [45, 45, 114, 97, 119], cs [45, 45, 114, 97, 119]], .ok (.getch true)),
  ([cs [103, 101, 116, 99, 104], cs [45, 45, 114, 97, 119], cs [45, 45, 114], cs [45, 45]], .error .usage),
  ([cs [103, 101, 116, 99, 104], cs [45, 45, 114, 97, 119], cs [45, 45, 114], cs [45, 45, 114, 97]], .ok (.getch true)),
  ([cs [103, 101, 116, 99, 104], cs [45, 45, 114], cs [45, 45, 114, 97], cs [45, 45, 114, 97]], .ok (.getch true)),
  ([cs [103, 101, 116, 99, 104], cs [45, 45], cs [45, 45], cs [45, 45, 114, 97, 119]], .error .usage),
  ([cs [103, 101, 116, 99, 104], cs [45, 104], cs [45, 104], cs [45, 45, 114, 97, 119]], .error (.help (some (cs [103, 101, 116, 99, 104])))),
  ([cs [103, 101, 116, 99, 104], cs [45, 104], cs [45, 45, 114], cs [45, 45, 114, 97, 119]], .error (.help (some (cs [103, 101, 116, 99, 104])))),
  ([cs [103, 101, 116, 99, 104], cs [45, 45], cs [45, 45], cs [45, 45, 114, 97, 119]], .error .usage),
  ([cs [103, 101, 116, 99, 104], cs [45, 45, 114, 97, 119], cs [45, 45, 114, 97, 119], cs [45, 45, 114, 97, 119]], .ok (.getch true)),
  ([cs [103, 101, 116, 99, 104], cs [45, 45, 114, 97], cs [45, 45, 114, 97, 119], cs [45, 104]], .error (.help (some (cs [103, 101, 116, 99, 104]))))] : List (List Str × Except Cli.Exit Cli.Cmd)).all (fun t => Cli.parseArgs t.1 == t.2) = true := by
  decide +kernel

end Slate.Check
