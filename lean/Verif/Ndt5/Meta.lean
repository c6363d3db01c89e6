import Verif.Go.Trim
import Verif.Ndt5.World

/-! # The meta test (ndt5/meta/meta.go) -/

namespace Verif.Ndt5
open Verif.Go

/-- `maxClientMessages` (meta.go:16). -/
def maxClientMessages : Nat := 20

/-- The name/value pair of one message (meta.go:51-63): split at the first colon, trimmed, cut to 63 and 255 bytes; `none` without
a colon. -/
def metaPair (message : Bytes) : Option NameValue :=
  match cut 58 message with
  | none => none
  | some p => some { name := (trimSpace p.1).take 63, value := (trimSpace p.2).take 255 }

/-- The loop of meta.go:44-64 with `n` messages still allowed: the results and the number of messages counted, and the error
of the last receive. -/
def metaLoop {σ : Type} (m : Messager) : Nat → List NameValue → Nat → P σ ((List NameValue × Nat) × Option Err)
  | 0, results, count => pure ((results, count), none)
  | n + 1, results, count => do
    let ctx ← Ask.ctxErr
    match ctx with
    | some _ => pure ((results, count), none)
    | none =>
      let r ← receiveMsg m MsgType.testMsg
      if r.1.getD [] = [] ∨ r.2 ≠ none then pure ((results, count), r.2)
      else
        match metaPair (r.1.getD []) with
        | none => metaLoop m n results (count + 1)
        | some nv => metaLoop m n (results ++ [nv]) (count + 1)

/-- `meta.ManageTest` (meta.go:22-84). The result is `none` (a nil slice) exactly with an error. `localCtx.Err()` is called three
times in meta.go:65-68; a context error never changes, so it is asked once. -/
def metaManage {σ : Type} (cfg : Cfg) (m : Messager) : P σ (List NameValue × Option Err) := do
  let e ← sendMsg m MsgType.testPrepare []
  match e with
  | some e => do
    countError cfg (str "meta") (str "TestPrepare")
    pure ([], some e)
  | none => do
    let e ← sendMsg m MsgType.testStart []
    match e with
    | some e => do
      countError cfg (str "meta") (str "TestStart")
      pure ([], some e)
    | none => do
      let r ← metaLoop m maxClientMessages [] 0
      let ctx ← Ask.ctxErr
      match ctx with
      | some e => do
        countError cfg (str "meta") (str "context")
        pure ([], some e)
      | none =>
        match r.2 with
        | some e => do
          countError cfg (str "meta") (str "ReceiveMessage")
          pure ([], some e)
        | none => do
          note (.metaValues r.1.2)
          let e ← sendMsg m MsgType.testFinalize []
          match e with
          | some e => do
            countError cfg (str "meta") (str "TestFinalize")
            pure ([], some e)
          | none => pure (r.1.1, none)

end Verif.Ndt5
