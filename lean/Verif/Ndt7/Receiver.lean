import Verif.Ndt7.Types
import Verif.Ndt7.Ping
import Verif.Go.Script

/-!
# ndt7/receiver/receiver.go

The decoding of a measurement, `json.Unmarshal(mdata, &measurement)`, is a parameter: what is proved holds for every decoder. The
websocket library calls the pong handler for the pong frames it meets while it looks for the next data frame or reads the rest of a
fragmented message; if the handler fails, so does that operation (gorilla conn.go `advanceFrame`).
-/

namespace Verif.Ndt7
open Verif.Go

/-- A pong frame: its payload and the time at which it is handled. -/
structure Pong where
  payload : Bytes
  at' : Int

/-- What `conn.NextReader` and, for a text message, `ioutil.ReadAll` lead to. -/
inductive Incoming
  /-- no further message: a close frame, a timeout, a broken connection, … -/
  | broken (e : Err)
  /-- a binary message -/
  | binary
  /-- a text message; pongs arrive between its fragments and reading it may fail -/
  | text (pongs : List Pong) (body : Except Err Bytes)

/-- One iteration of the receiver loop. -/
inductive RxAns
  /-- the context has ended -/
  | expired
  /-- pongs followed by something else -/
  | next (pongs : List Pong) (i : Incoming)

/-- What a receiver does, apart from reading. -/
inductive RecvEv
  /-- `conn.SetReadDeadline` -/
  | setDeadline (err : Option Err)
  /-- `ClientReceiverErrors.Inc` with these labels for direction and error -/
  | count (direction reason : Bytes)
deriving DecidableEq

/-- `fmt.Sprint(kind)` of a `receiverKind` (receiver.go:20-25): the type has no `String` method, so this is its number. -/
def kindLabel : Subtest → Bytes
  | .download => str "0"
  | .upload => str "1"

/-- `ClientReceiverErrors.WithLabelValues(proto, fmt.Sprint(kind), reason).Inc()`. -/
def rxCount (kind : Subtest) (reason : String) : RecvEv := .count (kindLabel kind) (str reason)

/-- The pong handler (receiver.go:44-54) on the pongs met by one operation; `false` if it failed. -/
def handlePongs (kind : Subtest) : List Pong → List RecvEv × Bool
  | [] => ([], true)
  | p :: ps =>
    match parseTicks p.payload p.at' with
    | some _ => handlePongs kind ps
    | none => ([rxCount kind "ping-parse-ticks"], false)

/-- One iteration of the receiver loop (receiver.go:55-92); the state is `data.ClientMeasurements`. -/
def rxStep (parse : Bytes → Option Measurement) (kind : Subtest) (recorded : List Measurement) : RxAns → Iter RecvEv (List Measurement) Unit
  | .expired => ([rxCount kind "receiver-context-expired"], recorded, some ())
  | .next pongs i =>
    match handlePongs kind pongs with
    | (evs, false) => (evs ++ [rxCount kind "read-message-type"], recorded, some ())
    | (evs, true) =>
      match i with
      | .broken _ => (evs ++ [rxCount kind "read-message-type"], recorded, some ())
      | .binary =>
        match kind with
        | .download => (evs ++ [rxCount kind "wrong-message-type"], recorded, some ())
        | .upload => (evs, recorded, none)
      | .text pongs2 body =>
        match handlePongs kind pongs2 with
        | (evs2, false) => (evs ++ evs2 ++ [rxCount kind "read-message"], recorded, some ())
        | (evs2, true) =>
          match body with
          | .error _ => (evs ++ evs2 ++ [rxCount kind "read-message"], recorded, some ())
          | .ok mdata =>
            match parse mdata with
            | none => (evs ++ evs2 ++ [rxCount kind "unmarshal-client-message"], recorded, some ())
            | some m => (evs ++ evs2, recorded ++ [m], none)

/-- `start` (receiver.go:27-95): what it does, `data.ClientMeasurements`, and whether it returned. -/
def receiver (parse : Bytes → Option Measurement) (kind : Subtest) (deadline : Option Err) (as : List RxAns) :
    List RecvEv × List Measurement × Option Unit :=
  match deadline with
  | some e => ([.setDeadline (some e), rxCount kind "set-read-deadline"], [], some ())
  | none =>
    let r := runScript (rxStep parse kind) [] as
    (.setDeadline none :: r.1, r.2.1, r.2.2)

end Verif.Ndt7
