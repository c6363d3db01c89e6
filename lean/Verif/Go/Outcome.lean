import Verif.Go.Bytes

/-!
# Outcomes of Go code

A Go call either returns or panics.
-/

namespace Verif.Go

/-- How a call ends: it returns a value, or panics with a message (the text `fmt.Sprint(recover())`). -/
inductive Outcome (α : Type) where
  | ok (a : α)
  | panic (msg : Bytes)
  deriving DecidableEq, Repr

deriving instance DecidableEq for Except

/-- The message of a nil pointer dereference (runtime error). -/
def nilDeref : Bytes := str "runtime error: invalid memory address or nil pointer dereference"

end Verif.Go
