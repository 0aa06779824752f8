import Verif.Py.Str

/-!
# Programs with exceptions

A small language for code with `try`/`except`/`finally`, whose steps can be
interrupted: a step may raise an exception before its effect or after it. The
semantics is a relation, so a statement about all executions covers all crash points.
Nothing here models a line of Slate; the programs are in `Model/Tty.lean`.
-/

namespace Slate

/-- Programs over a state. -/
inductive Prog (σ : Type) where
  | skip
  /-- One step with effect `f`; `before s e` and `after s e` say which exceptions can be raised
  in state `s` before and after the effect. -/
  | act (f : σ → σ) (before after : σ → PyErr → Prop)
  | raise (e : PyErr)
  | seq (p q : Prog σ)
  | ite (c : σ → Bool) (p q : Prog σ)
  | tryFinally (p fin : Prog σ)
  | tryExcept (p : Prog σ) (e : PyErr) (handler : Prog σ)

namespace Prog

/-- A step that is always completed. -/
abbrev sure {σ : Type} (f : σ → σ) : Prog σ := .act f (fun _ _ => False) (fun _ _ => False)

/-- A step that any exception can interrupt. -/
abbrev risky {σ : Type} (f : σ → σ) : Prog σ := .act f (fun _ _ => True) (fun _ _ => True)

/-- `Exec p s o t`: from `s`, `p` can end in `t`, normally (`o = none`) or with an exception. -/
inductive Exec {σ : Type} : Prog σ → σ → Option PyErr → σ → Prop where
  | skip (s) : Exec .skip s none s
  | act (f b a s) : Exec (.act f b a) s none (f s)
  | actBefore (f b a s e) : b s e → Exec (.act f b a) s (some e) s
  | actAfter (f b a s e) : a s e → Exec (.act f b a) s (some e) (f s)
  | raise (e s) : Exec (.raise e) s (some e) s
  | seq (p q s t u o) : Exec p s none t → Exec q t o u → Exec (.seq p q) s o u
  | seqErr (p q s t e) : Exec p s (some e) t → Exec (.seq p q) s (some e) t
  | iteTrue (c p q s o t) : c s = true → Exec p s o t → Exec (.ite c p q) s o t
  | iteFalse (c p q s o t) : c s = false → Exec q s o t → Exec (.ite c p q) s o t
  | fin (p q s t u o) : Exec p s o t → Exec q t none u → Exec (.tryFinally p q) s o u
  | finErr (p q s t u o e) : Exec p s o t → Exec q t (some e) u → Exec (.tryFinally p q) s (some e) u
  | tryOk (p e h s t) : Exec p s none t → Exec (.tryExcept p e h) s none t
  | tryCaught (p e h s t u o) : Exec p s (some e) t → Exec h t o u → Exec (.tryExcept p e h) s o u
  | tryOther (p e e' h s t) : Exec p s (some e') t → e' ≠ e → Exec (.tryExcept p e h) s (some e') t

end Prog
end Slate
