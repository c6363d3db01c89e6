import Verif.Go.MembersLemmas
import Verif.Go.DecimalLemmas
import Verif.Go.JsonEq
import Verif.Go.TimeTextLemmas
import Verif.Props.Wire

/-!
# C89: what a measurement message from a client means
-/

namespace Verif.Props
open Verif.Go Verif.Spec Verif.Ndt7
open Verif.Ndt5 (TcpInfo)

variable {ft : FloatText} {K : Layout} {kvs : List (Bytes × Json)}

private theorem reads_member {name : Bytes} {t : Ty} {v : Val} {P : Json → Prop} {absent : Prop} (h : Member kvs name P absent) (h0 : absent → v = zeroVal t)
    (hnull : fromJson ft t (zeroVal t) .null = some (zeroVal t)) (hp : ∀ j, P j → fromJson ft t (zeroVal t) j = some v) : FieldReads ft kvs name t (zeroVal t) v := by
  rcases h with ⟨h, hm | ho⟩ | ⟨j, ho, hj⟩
  · exact .inl ⟨hm, h0 h⟩
  · exact .inr ⟨_, ho, by rw [hnull, h0 h]⟩
  · exact .inr ⟨_, ho, hp j hj⟩

private theorem readInt_value {s : Bool} {b : Nat} {n : Int} {raw : Bytes} (hb : 1 ≤ b ∧ b ≤ 64) (hr : IntRange s b n)
    (h : if s then SignedDecimal raw n else ∃ k : Nat, Decimal raw k ∧ n = k) : readInt s b raw = some n := by
  have hp : (2 : Int) ^ (b - 1) ≤ 2 ^ 63 := by
    have := Nat.pow_le_pow_right (n := 2) (by decide) (show b - 1 ≤ 63 by omega)
    exact_mod_cast this
  have hp' : (2 : Int) ^ b ≤ 2 ^ 64 := by
    have := Nat.pow_le_pow_right (n := 2) (by decide) hb.2
    exact_mod_cast this
  unfold readInt
  cases s with
  | true =>
    simp only [if_true] at h ⊢
    have hr' := hr
    simp only [IntRange, if_true] at hr'
    rw [atoi_iff.2 ⟨h, by omega, by omega⟩]
    simp only
    rw [if_pos hr]
  | false =>
    simp only [Bool.false_eq_true, if_false] at h ⊢
    obtain ⟨k, h1, rfl⟩ := h
    have hr' := hr
    simp only [IntRange, Bool.false_eq_true, if_false] at hr'
    rw [parseNat_iff.2 h1]
    simp only
    rw [if_pos (by omega)]
    simp only
    rw [if_pos hr]

private theorem reads_int {name : Bytes} {s : Bool} {b : Nat} {n : Int} (hb : 1 ≤ b ∧ b ≤ 64) (hr : IntRange s b n) (h : intMember kvs name s n) :
    FieldReads ft kvs name (.int s b) (zeroVal (.int s b)) (.int n) := by
  refine reads_member h (by rintro rfl; rfl) rfl ?_
  rintro j ⟨raw, rfl, hv⟩
  simp only [fromJson]
  rw [readInt_value hb hr hv]
  rfl

private theorem reads_text {name s : Bytes} (h : textMember kvs name s) : FieldReads ft kvs name .string (zeroVal .string) (.str s) :=
  reads_member h (by rintro rfl; rfl) rfl (by rintro j rfl; rfl)

private theorem reads_time {name : Bytes} {ns z : Int} (h : timeMember kvs name ns z) : FieldReads ft kvs name .time (zeroVal .time) (.time ⟨ns, z⟩) := by
  refine reads_member h (by rintro ⟨rfl, rfl⟩; rfl) rfl ?_
  rintro j ⟨s, hs, rfl⟩
  simp only [fromJson]
  rw [parseRFC3339_iff (t := ⟨ns, z⟩) |>.2 hs]
  rfl

private theorem reads_part {α : Type} {name : Bytes} {t : Ty} {f : α → Val} {P : List (Bytes × Json) → α → Prop} {o : Option α} (h : partMember kvs name P o)
    (hp : ∀ a inner, o = some a → P inner a → fromJson ft t (zeroVal t) (.obj inner) = some (f a)) : FieldReads ft kvs name (.ptr t) (zeroVal (.ptr t)) (ptrVal f o) := by
  cases o with
  | none =>
    rcases h with h | h
    · exact .inl ⟨h, rfl⟩
    · exact .inr ⟨_, h, rfl⟩
  | some a =>
    obtain ⟨inner, h1, h2⟩ := h
    refine .inr ⟨_, h1, ?_⟩
    have := hp a inner rfl h2
    simp only [fromJson, zeroVal] at this ⊢
    rw [this]
    rfl

private theorem reads_app {inner : List (Bytes × Json)} {a : AppInfo} (ht : InInt64 a.numBytes ∧ InInt64 a.elapsed) (h : AppMeans inner a) :
    fromJson ft appInfoTy (zeroVal appInfoTy) (.obj inner) = some a.toVal :=
  fromJson_object (by decide +kernel) (by decide +kernel) (.cons (reads_int (by decide) (inInt64_range ht.1) h.1) (.cons (reads_int (by decide) (inInt64_range ht.2) h.2) .nil))

private theorem reads_conn {inner : List (Bytes × Json)} {c : ConnectionInfo} (h : ConnMeans inner c) :
    fromJson ft connInfoTy (zeroVal connInfoTy) (.obj inner) = some c.toVal :=
  fromJson_object (by decide +kernel) (by decide +kernel) (.cons (reads_text h.1) (.cons (reads_text h.2.1) (.cons (reads_text h.2.2.1) (.cons (reads_time h.2.2.2) .nil))))

private theorem reads_bbr {inner : List (Bytes × Json)} {b : BbrSample} (ht : InInt64 b.elapsed) (h : BbrMeans inner b) :
    fromJson ft bbrInfoTy (zeroVal bbrInfoTy) (.obj inner) = some b.toVal :=
  fromJson_object (by decide +kernel) (by decide +kernel) (.cons (reads_int (by decide) (int64_range _) h.1) (.cons (reads_int (by decide) (uint32_range _) h.2.1)
    (.cons (reads_int (by decide) (uint32_range _) h.2.2.1) (.cons (reads_int (by decide) (uint32_range _) h.2.2.2.1)
    (.cons (reads_int (by decide) (inInt64_range ht) h.2.2.2.2) .nil)))))

private theorem reads_ints {inner : List (Bytes × Json)} {e : Int} (he : FieldReads ft inner (str "ElapsedTime") int64 (zeroVal int64) (.int e)) :
    ∀ {fs : List (Bytes × Bool × Nat)} {ns : List Int}, (∀ f ∈ fs, 1 ≤ f.2.2 ∧ f.2.2 ≤ 64) → List.Forall₂ (fun f n => IntRange f.2.1 f.2.2 n) fs ns →
    List.Forall₂ (fun f n => intMember inner f.1 f.2.1 n) fs ns →
    List.Forall₂ (fun (f : TyField) v => FieldReads ft inner f.1 f.2.2 (zeroVal f.2.2) v)
      ((fs.map fun f => ((f.1, false, .int f.2.1 f.2.2) : TyField)) ++ [field "ElapsedTime" int64]) (ns.map .int ++ [.int e])
  | [], [], _, _, _ => .cons he .nil
  | f :: fs, n :: ns, hb, .cons h1 h2, .cons h3 h4 => .cons (reads_int (hb f (by simp)) h1 h3) (reads_ints he (fun f hf => hb f (by simp [hf])) h2 h4)

private theorem reads_tcp (hK : LayoutOk K) (hN : NamesApart K) {inner : List (Bytes × Json)} {t : TcpSample} (ht : Holds K t.info ∧ InInt64 t.elapsed) (h : TcpMeans K inner t) :
    fromJson ft (tcpInfoTy K) (zeroVal (tcpInfoTy K)) (.obj inner) = some (t.toVal K) := by
  have hascii : ∀ f ∈ K.tys ++ [field "ElapsedTime" int64], AsciiName f.1 := by
    intro f hf
    rcases List.mem_append.1 hf with hf | hf
    · obtain ⟨g, hg, rfl⟩ := List.mem_map.1 hf
      exact hK.ascii g hg
    · simp at hf
      subst hf
      decide +kernel
  refine fromJson_object ?_ hascii (reads_ints (reads_int (by decide) (inInt64_range ht.2) h.2) hK.bits ht.1.fits h.1)
  unfold Apart
  have hN' : (((K.tys ++ [field "ElapsedTime" int64]).map Prod.fst).Pairwise fun a b => ¬ SameName a b) := by
    have : (K.tys ++ [field "ElapsedTime" int64]).map Prod.fst = K.fields.map Prod.fst ++ [str "ElapsedTime"] := by simp [Layout.tys, field]
    rw [this]; exact hN
  rw [List.pairwise_map] at hN'
  refine hN'.imp_of_mem ?_
  intro a b ha _ hab he
  exact hab ((foldName_iff (hascii a ha)).1 he)

private theorem reads_message (hK : LayoutOk K) (hN : NamesApart K) {m : Measurement} (ht : Typed K m) (h : MessageMeans K kvs m) :
    fromJson ft (measurementTy K) (zeroVal (measurementTy K)) (.obj kvs) = some (m.toVal K) := by
  obtain ⟨h1, h2, h3, h4⟩ := h
  have ha : Apart [Ndt7.optional "AppInfo" (.ptr appInfoTy), Ndt7.optional "ConnectionInfo" (.ptr connInfoTy), Ndt7.optional "BBRInfo" (.ptr bbrInfoTy),
      Ndt7.optional "TCPInfo" (.ptr (tcpInfoTy K))] := by
    simp only [Apart, Ndt7.optional, List.pairwise_cons, List.mem_cons, List.not_mem_nil, or_false, forall_eq_or_imp, forall_eq, List.Pairwise.nil, and_true, false_implies, implies_true]
    decide +kernel
  have hn : ∀ f ∈ [Ndt7.optional "AppInfo" (.ptr appInfoTy), Ndt7.optional "ConnectionInfo" (.ptr connInfoTy), Ndt7.optional "BBRInfo" (.ptr bbrInfoTy),
      Ndt7.optional "TCPInfo" (.ptr (tcpInfoTy K))], AsciiName f.1 := by
    simp only [Ndt7.optional, List.mem_cons, List.not_mem_nil, or_false, forall_eq_or_imp, forall_eq]
    decide +kernel
  exact fromJson_object ha hn (.cons (reads_part h1 fun a _ e h => reads_app (ht.app a e) h) (.cons (reads_part h2 fun _ _ _ h => reads_conn h)
    (.cons (reads_part h3 fun b _ e h => reads_bbr (ht.bbr b e) h) (.cons (reads_part h4 fun t _ e h => reads_tcp hK hN (ht.tcp t e) h) .nil))))

/-- C89: a text that is a JSON object which means a measurement is read as that measurement, whatever the order and the case of its members, the white space, the escapes and the
members that are not known. -/
theorem C89_message_means (hK : LayoutOk K) (hN : NamesApart K) {body : Bytes} (hj : IsJson body (.obj kvs)) {m : Measurement} (ht : Typed K m) (h : MessageMeans K kvs m) :
    decodeMeasurement K body = some m := by
  unfold decodeMeasurement unmarshal
  rw [parseJson_iff.2 hj]
  simp only
  rw [reads_message hK hN ht h]
  simp only [Option.map_some, measurementOfVal_toVal ht]

/-! ## Example -/

/-- A message with members in another order, in another case, and with unknown ones. -/
def exClientBody : Bytes := str " {\"x\":[{}],\"tcpinfo\":{\"RTT\":7,\"elapsedtime\":9},\"BBRInfo\":null,\"AppInfo\" : {\"ElapsedTime\":5,\"NUM\\u0042ytes\":-3}}"

/-- What it means. -/
def exClientMeaning : Measurement where
  app := some ⟨-3, 5⟩
  tcp := some ⟨{ bytesAcked := 0, bytesReceived := 7 }, 9⟩

/-- It is read with this meaning. -/
theorem exClient_read : decodeMeasurement exLayout exClientBody = some exClientMeaning := by
  have same : ∀ a b : Bytes, AsciiName a → foldName a = foldName b → SameName a b := fun a b h e => (foldName_iff h).1 e
  have miss : ∀ (kvs : List (Bytes × Json)) (n : Bytes), AsciiName n → (∀ kv ∈ kvs, foldName n ≠ foldName kv.1) → Missing kvs n :=
    fun kvs n h e kv hkv hc => e kv hkv ((foldName_iff h).2 hc)
  have hj : IsJson exClientBody (.obj [(str "x", .arr [.obj []]), (str "tcpinfo", .obj [(str "RTT", .num (str "7")), (str "elapsedtime", .num (str "9"))]),
      (str "BBRInfo", .null), (str "AppInfo", .obj [(str "ElapsedTime", .num (str "5")), (str "NUMBytes", .num (str "-3"))])]) := by
    rw [← parseJson_iff]
    exact parseJson_of_beq (by decide +kernel)
  have hN : NamesApart exLayout := by
    have : (exLayout.fields.map Prod.fst ++ [str "ElapsedTime"]).Pairwise fun a b => foldName a ≠ foldName b := by decide +kernel
    refine List.Pairwise.imp_of_mem ?_ this
    intro a b ha _ hab hc
    have : AsciiName a := by
      have h : ∀ a ∈ exLayout.fields.map Prod.fst ++ [str "ElapsedTime"], AsciiName a := by decide +kernel
      exact h a ha
    exact hab ((foldName_iff this).2 hc)
  refine C89_message_means exLayout_ok hN hj ⟨?_, ?_, ?_⟩ ⟨?_, ?_, ?_, ?_⟩
  · rintro a ⟨⟩; decide
  · rintro a ⟨⟩
  · rintro a ⟨⟩; exact ⟨⟨.cons (by decide) (.cons (by decide) .nil), rfl⟩, by decide⟩
  · refine ⟨_, ⟨[_, _, _], _, [], rfl, same _ _ (by decide +kernel) (by decide +kernel), miss _ _ (by decide +kernel) (by decide +kernel), miss _ _ (by decide +kernel) (by decide +kernel)⟩,
      .inr ⟨_, ⟨[_], _, [], rfl, same _ _ (by decide +kernel) (by decide +kernel), miss _ _ (by decide +kernel) (by decide +kernel), miss _ _ (by decide +kernel) (by decide +kernel)⟩,
        _, rfl, signedVal_iff.1 (by decide +kernel)⟩,
      .inr ⟨_, ⟨[], _, [_], rfl, same _ _ (by decide +kernel) (by decide +kernel), miss _ _ (by decide +kernel) (by decide +kernel), miss _ _ (by decide +kernel) (by decide +kernel)⟩,
        _, rfl, signedVal_iff.1 (by decide +kernel)⟩⟩
  · exact .inl (miss _ _ (by decide +kernel) (by decide +kernel))
  · exact .inr ⟨[_, _], _, [_], rfl, same _ _ (by decide +kernel) (by decide +kernel), miss _ _ (by decide +kernel) (by decide +kernel), miss _ _ (by decide +kernel) (by decide +kernel)⟩
  · refine ⟨_, ⟨[_], _, [_, _], rfl, same _ _ (by decide +kernel) (by decide +kernel), miss _ _ (by decide +kernel) (by decide +kernel), miss _ _ (by decide +kernel) (by decide +kernel)⟩,
      .cons (.inl ⟨rfl, .inl (miss _ _ (by decide +kernel) (by decide +kernel))⟩) (.cons (.inr ⟨_, ⟨[], _, [_], rfl, same _ _ (by decide +kernel) (by decide +kernel),
        miss _ _ (by decide +kernel) (by decide +kernel), miss _ _ (by decide +kernel) (by decide +kernel)⟩, _, rfl, 7, parseNat_iff.1 (by decide +kernel), rfl⟩) .nil),
      .inr ⟨_, ⟨[_], _, [], rfl, same _ _ (by decide +kernel) (by decide +kernel), miss _ _ (by decide +kernel) (by decide +kernel), miss _ _ (by decide +kernel) (by decide +kernel)⟩,
        _, rfl, signedVal_iff.1 (by decide +kernel)⟩⟩

end Verif.Props
