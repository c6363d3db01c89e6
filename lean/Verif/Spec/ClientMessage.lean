import Verif.Spec.Documents
import Verif.Spec.Names

/-!
# Specification: what a measurement message from a client means

The members of the objects may have any order and their names any case; members that are not known are ignored; what is missing or null is zero, empty or absent.  A name must
not occur twice.
-/

namespace Verif.Spec
open Verif.Go
open Verif.Ndt7 (Layout AppInfo ConnectionInfo BbrSample TcpSample Measurement)

/-- No member has this name. -/
def Missing (kvs : List (Bytes × Json)) (name : Bytes) : Prop := ∀ kv ∈ kvs, ¬ SameName name kv.1

/-- Exactly one member has this name, and this is its value. -/
def Only (kvs : List (Bytes × Json)) (name : Bytes) (j : Json) : Prop :=
  ∃ before key after, kvs = before ++ (key, j) :: after ∧ SameName name key ∧ Missing before name ∧ Missing after name

/-- The member with this name has a value as described; if it is missing or null, `absent` holds. -/
def Member (kvs : List (Bytes × Json)) (name : Bytes) (P : Json → Prop) (absent : Prop) : Prop :=
  (absent ∧ (Missing kvs name ∨ Only kvs name .null)) ∨ ∃ j, Only kvs name j ∧ P j

/-- An integer; without a sign if the type has none. -/
def intValue (signed : Bool) (n : Int) (j : Json) : Prop :=
  ∃ raw, j = .num raw ∧ if signed then SignedDecimal raw n else ∃ k : Nat, Decimal raw k ∧ n = k

/-- The member with this name is an integer. -/
def intMember (kvs : List (Bytes × Json)) (name : Bytes) (signed : Bool) (n : Int) : Prop := Member kvs name (intValue signed n) (n = 0)

/-- The member with this name is a string. -/
def textMember (kvs : List (Bytes × Json)) (name : Bytes) (s : Bytes) : Prop := Member kvs name (fun j => j = .str s) (s = [])

/-- The member with this name is a time; the first of January of the year 1 if it is missing. -/
def timeMember (kvs : List (Bytes × Json)) (name : Bytes) (ns z : Int) : Prop := Member kvs name (Doc.time ns z) (ns = -62135596800000000000 ∧ z = 0)

/-- The member with this name is an object, or nothing. -/
def partMember {α : Type} (kvs : List (Bytes × Json)) (name : Bytes) (P : List (Bytes × Json) → α → Prop) : Option α → Prop
  | none => Missing kvs name ∨ Only kvs name .null
  | some a => ∃ inner, Only kvs name (.obj inner) ∧ P inner a

/-- `AppInfo`. -/
def AppMeans (kvs : List (Bytes × Json)) (a : AppInfo) : Prop :=
  intMember kvs (str "NumBytes") true a.numBytes ∧ intMember kvs (str "ElapsedTime") true a.elapsed

/-- `ConnectionInfo`. -/
def ConnMeans (kvs : List (Bytes × Json)) (c : ConnectionInfo) : Prop :=
  textMember kvs (str "Client") c.client ∧ textMember kvs (str "Server") c.server ∧ textMember kvs (str "UUID") c.uuid ∧
  timeMember kvs (str "StartTime") c.startTime c.startZone

/-- `BBRInfo`. -/
def BbrMeans (kvs : List (Bytes × Json)) (b : BbrSample) : Prop :=
  intMember kvs (str "BW") true b.info.bw.toInt ∧ intMember kvs (str "MinRTT") false b.info.minRTT.toNat ∧ intMember kvs (str "PacingGain") false b.info.pacingGain.toNat ∧
  intMember kvs (str "CwndGain") false b.info.cwndGain.toNat ∧ intMember kvs (str "ElapsedTime") true b.elapsed

/-- `TCPInfo`. -/
def TcpMeans (K : Layout) (kvs : List (Bytes × Json)) (t : TcpSample) : Prop :=
  List.Forall₂ (fun f n => intMember kvs f.1 f.2.1 n) K.fields (K.ints t.info) ∧ intMember kvs (str "ElapsedTime") true t.elapsed

/-- The object means this measurement. -/
def MessageMeans (K : Layout) (kvs : List (Bytes × Json)) (m : Measurement) : Prop :=
  partMember kvs (str "AppInfo") AppMeans m.app ∧ partMember kvs (str "ConnectionInfo") ConnMeans m.conn ∧ partMember kvs (str "BBRInfo") BbrMeans m.bbr ∧
  partMember kvs (str "TCPInfo") (TcpMeans K) m.tcp

/-- No two fields of `TCPInfo` have names that differ only in case. -/
def NamesApart (K : Layout) : Prop :=
  (K.fields.map Prod.fst ++ [str "ElapsedTime"]).Pairwise fun a b => ¬ SameName a b

end Verif.Spec
