import Verif.Go.Time
import Mathlib.Data.List.TakeDrop
import Mathlib.Data.List.TakeWhile

/-!
# Times in JSON: `time.Time.MarshalJSON` and `UnmarshalJSON`
-/

namespace Verif.Go

/-- A `time.Time` as far as JSON shows it: an instant (nanoseconds since 1970) and the offset of its zone from UTC in minutes. Offsets with seconds are not modelled. -/
structure Stamp where
  ns : Int
  zone : Int
deriving DecidableEq, Repr

/-- The zero `time.Time`: 0001-01-01T00:00:00Z. -/
def Stamp.zero : Stamp := ⟨-62135596800000000000, 0⟩

/-- Nanoseconds of a minute. -/
def nsPerMinute : Int := 60000000000

/-- The instant, shifted so that its UTC date and time of day are those of the zone. -/
def Stamp.wall (t : Stamp) : Int := t.ns + t.zone * nsPerMinute

/-- Remove zeros at the end. -/
def trimZeros (b : Bytes) : Bytes := (b.reverse.dropWhile (· == 48)).reverse

/-- The fraction of a second as `.999999999` in a layout writes it (format.go `appendNano`): nothing for zero, no zeros at the end. -/
def fracText (nano : Nat) : Bytes :=
  let ds := trimZeros (padDec 9 nano)
  if ds = [] then [] else 46 :: ds

/-- The zone as `Z07:00` in a layout writes it (format.go `appendFormatRFC3339`). -/
def zoneText (z : Int) : Bytes :=
  if z = 0 then [90]
  else (if z < 0 then 45 else 43) :: (padDec 2 (z.natAbs / 60) ++ 58 :: padDec 2 (z.natAbs % 60))

/-- `t.Format(time.RFC3339Nano)` (format_rfc3339.go `appendFormatRFC3339`), for years that are not negative. -/
def formatRFC3339 (t : Stamp) : Bytes :=
  let d := dateOf t.wall
  let c := clockOf t.wall
  padDec 4 d.year.toNat ++ 45 :: (padDec 2 d.month ++ 45 :: (padDec 2 d.day ++ 84 :: (padDec 2 c.hour ++ 58 :: (padDec 2 c.minute ++ 58 ::
    (padDec 2 c.second ++ (fracText c.nano ++ zoneText t.zone))))))

/-- The times that `MarshalJSON` accepts (format_rfc3339.go `appendStrictRFC3339`): four digits for the year, less than 24 hours for the offset of the zone. -/
def Stamp.Writable (t : Stamp) : Prop := FourDigitYear t.wall ∧ t.zone.natAbs < 1440

instance (t : Stamp) : Decidable t.Writable := by unfold Stamp.Writable FourDigitYear; infer_instance

/-! ## Reading -/

/-- The days from 1970-01-01 to a date of the calendar (package time, `Date` with `daysSinceEpoch`). -/
def daysOf (d : Date) : Int :=
  daysBeforeYear d.year + (daysBefore.getD (d.month - 1) 0 : Nat) + (if isLeap d.year = true ∧ d.month > 2 then 1 else 0) + d.day - 1 - 719162

/-- A number of exactly `w` digits within bounds (format_rfc3339.go, `parseUint` of `parseRFC3339`). -/
def takeNum (w lo hi : Nat) (s : Bytes) : Option (Nat × Bytes) :=
  if s.length < w then none
  else match (s.take w).foldlM digitStep 0 with
    | none => none
    | some n => if lo ≤ n ∧ n ≤ hi then some (n, s.drop w) else none

/-- One given byte. -/
def takeByte (c : UInt8) : Bytes → Option Bytes
  | [] => none
  | b :: t => if b = c then some t else none

/-- The hour: one or two digits (format.go `Parse`, `case stdHour`, and `getnum`). -/
def takeHour (s : Bytes) : Option (Nat × Bytes) :=
  match s with
  | a :: b :: _ => if IsDigit a ∧ ¬ IsDigit b then takeNum 1 0 23 s else takeNum 2 0 23 s
  | _ => takeNum 1 0 23 s

/-- The fraction of a second, after a period or a comma (format.go, `Parse`, `case stdSecond`, and `parseNanoseconds`): digits after the ninth are dropped. -/
def takeFrac (s : Bytes) : Nat × Bytes :=
  match s with
  | p :: t =>
    let ds := t.takeWhile fun c => decide (IsDigit c)
    if (p = 46 ∨ p = 44) ∧ ds ≠ [] then
      (((ds.take 9).foldlM digitStep 0).getD 0 * 10 ^ (9 - (ds.take 9).length), t.dropWhile fun c => decide (IsDigit c))
    else (0, s)
  | [] => (0, s)

/-- The zone: `Z` or `±hh:mm` (format.go, `Parse`, `case stdISO8601ColonTZ`). The library accepts 24 hours and 60 minutes here: "some people do write offsets
of 24 hours or 60 minutes or 60 seconds". -/
def takeZone (s : Bytes) : Option Int :=
  match s with
  | [90] => some 0
  | c :: t =>
    if c = 43 ∨ c = 45 then
      match takeNum 2 0 24 t with
      | none => none
      | some (h, t1) =>
        match takeByte 58 t1 with
        | none => none
        | some t2 =>
          match takeNum 2 0 60 t2 with
          | some (m, []) => some (if c = 45 then -((h * 60 + m : Nat) : Int) else (h * 60 + m : Nat))
          | _ => none
    else none
  | [] => none

/-- `parseStrictRFC3339` (format_rfc3339.go), with which `UnmarshalJSON` reads a time: it tries `parseRFC3339` and then the general `Parse`, whose stricter checks are
disabled there ("Strict parsing is disabled for now"). What the first accepts the second accepts with the same result, so this is `Parse` for the layout
`2006-01-02T15:04:05Z07:00`. `none` stands for an error; the code looks for some errors later, which makes no difference to the result. -/
def parseRFC3339 (s : Bytes) : Option Stamp :=
  match takeNum 4 0 9999 s with
  | none => none
  | some (year, s) => match takeByte 45 s with
  | none => none
  | some s => match takeNum 2 1 12 s with
  | none => none
  | some (month, s) => match takeByte 45 s with
  | none => none
  | some s => match takeNum 2 1 (monthLength year month) s with
  | none => none
  | some (day, s) => match takeByte 84 s with
  | none => none
  | some s => match takeHour s with
  | none => none
  | some (hour, s) => match takeByte 58 s with
  | none => none
  | some s => match takeNum 2 0 59 s with
  | none => none
  | some (minute, s) => match takeByte 58 s with
  | none => none
  | some s => match takeNum 2 0 59 s with
  | none => none
  | some (second, s) =>
    let (nano, s) := takeFrac s
    match takeZone s with
    | none => none
    | some zone =>
      some ⟨daysOf ⟨year, month, day⟩ * nsPerDay + hour * 3600000000000 + minute * 60000000000 + second * 1000000000 + nano - zone * nsPerMinute, zone⟩

/-! ## What is written is read back -/

theorem daysOf_of {d : Date} {k : Nat} (h : daysBefore.getD (d.month - 1) 0 + d.day + (if isLeap d.year = true ∧ d.month > 2 then 1 else 0) = k + 1) :
    daysOf d = daysBeforeYear d.year + k - 719162 := by
  unfold daysOf
  by_cases hc : isLeap d.year = true ∧ d.month > 2
  · rw [if_pos hc] at h ⊢; omega
  · rw [if_neg hc] at h ⊢; omega

/-- The conversion to days undoes the conversion to dates. -/
theorem daysOf_dateOfDays (n : Int) : daysOf (dateOfDays n) = n := by
  obtain ⟨h1, h2⟩ := yearDay_spec (n + 719162)
  have hk : (yearDay (n + 719162)).2 < 366 ∧ ((yearDay (n + 719162)).2 < 365 ∨ isLeap (yearDay (n + 719162)).1 = true) := by
    unfold yearLength at h2
    split at h2 <;> rename_i hc
    · exact ⟨h2, .inr hc⟩
    · exact ⟨by omega, .inl h2⟩
  have i1 := daysOf_of (d := dateOfDays n) (monthDay_inverse (isLeap (yearDay (n + 719162)).1) _ hk.1 hk.2)
  rw [i1]
  change daysBeforeYear (yearDay (n + 719162)).1 + _ - _ = _
  omega

theorem padDec_isDigit {w n : Nat} : ∀ c ∈ padDec w n, IsDigit c := by
  intro c hc
  simp only [padDec, List.mem_append, List.mem_replicate] at hc
  rcases hc with ⟨_, rfl⟩ | hc
  · decide
  · exact natDec_isDigit c hc

theorem padDec_value {w n : Nat} : (padDec w n).foldlM digitStep 0 = some n := by
  have key : ∀ k : Nat, ∀ b : Bytes, (List.replicate k 48 ++ b).foldlM digitStep 0 = b.foldlM digitStep 0 := by
    intro k b
    induction k with
    | zero => rfl
    | succ k ih =>
      rw [List.replicate_succ, List.cons_append, List.foldlM_cons]
      exact ih
  exact (key _ _).trans (foldlM_natDigitsF (Nat.lt_succ_self n))

theorem takeNum_padDec {w lo hi n : Nat} {rest : Bytes} (hw : 0 < w) (hn : n < 10 ^ w) (h : lo ≤ n ∧ n ≤ hi) :
    takeNum w lo hi (padDec w n ++ rest) = some (n, rest) := by
  have hl := padDec_length hw hn
  unfold takeNum
  rw [if_neg (by simp [hl]), List.take_left' hl, padDec_value]
  simp [h, List.drop_left' hl]

theorem takeHour_padDec {n : Nat} {rest : Bytes} (hn : n ≤ 23) : takeHour (padDec 2 n ++ rest) = some (n, rest) := by
  have hl := padDec_length (w := 2) (n := n) (by omega) (by omega)
  have hd := padDec_isDigit (w := 2) (n := n)
  have ht := takeNum_padDec (w := 2) (lo := 0) (hi := 23) (n := n) (rest := rest) (by omega) (by omega) ⟨by omega, hn⟩
  revert hl hd ht
  rcases padDec 2 n with _ | ⟨a, _ | ⟨b, _ | ⟨c, t⟩⟩⟩ <;> simp
  intro ha hb ht
  simp only [takeHour]
  rw [if_neg (by simp [hb]), ht]

theorem takeByte_cons {c : UInt8} {t : Bytes} : takeByte c (c :: t) = some t := by simp [takeByte]

theorem foldlM_zeros {k acc : Nat} : (List.replicate k (48 : UInt8)).foldlM digitStep acc = some (acc * 10 ^ k) := by
  induction k generalizing acc with
  | zero => simp
  | succ k ih =>
    rw [List.replicate_succ, List.foldlM_cons]
    simp only [digitStep]
    rw [if_pos (by decide)]
    simp only [Option.bind_eq_bind, Option.bind_some]
    rw [ih, Nat.pow_succ]
    congr 1
    simp
    rw [Nat.mul_assoc, Nat.mul_comm 10]

theorem trimZeros_append (b : Bytes) : ∃ k, b = trimZeros b ++ List.replicate k 48 := by
  have h := List.takeWhile_append_dropWhile (p := fun c : UInt8 => c == 48) (l := b.reverse)
  have hall : ∀ c ∈ b.reverse.takeWhile (fun c : UInt8 => c == 48), c = 48 := by
    intro c hc
    simpa using List.mem_takeWhile_imp hc
  refine ⟨(b.reverse.takeWhile (fun c : UInt8 => c == 48)).length, ?_⟩
  have h2 : b.reverse.takeWhile (fun c : UInt8 => c == 48) = List.replicate (b.reverse.takeWhile (fun c : UInt8 => c == 48)).length 48 :=
    List.eq_replicate_iff.2 ⟨rfl, hall⟩
  have h3 := congrArg List.reverse h
  rw [List.reverse_append, List.reverse_reverse] at h3
  rw [h2] at h3
  rw [List.reverse_replicate] at h3
  exact h3.symm

theorem zoneText_head (z : Int) : ∃ c t, zoneText z = c :: t ∧ ¬ IsDigit c ∧ c ≠ 46 ∧ c ≠ 44 := by
  unfold zoneText
  split
  · exact ⟨90, [], rfl, by decide, by decide, by decide⟩
  · split
    · exact ⟨_, _, rfl, by decide, by decide, by decide⟩
    · exact ⟨_, _, rfl, by decide, by decide, by decide⟩

theorem takeFrac_fracText {nano : Nat} {z : Int} (hn : nano < 1000000000) : takeFrac (fracText nano ++ zoneText z) = (nano, zoneText z) := by
  obtain ⟨c, t, hz, hc, hc', hc''⟩ := zoneText_head z
  obtain ⟨k, hk⟩ := trimZeros_append (padDec 9 nano)
  have hlen := congrArg List.length hk
  rw [padDec_length (by omega) (by omega), List.length_append, List.length_replicate] at hlen
  have hval := padDec_value (w := 9) (n := nano)
  rw [hk, List.foldlM_append] at hval
  have hdig : ∀ c ∈ trimZeros (padDec 9 nano), IsDigit c := by
    intro c hc
    refine padDec_isDigit (w := 9) (n := nano) c ?_
    rw [hk]
    exact List.mem_append_left _ hc
  unfold fracText
  simp only
  generalize trimZeros (padDec 9 nano) = ds at *
  by_cases hds : ds = []
  · subst hds
    rw [if_pos rfl, List.nil_append]
    have : nano = 0 := by
      rw [List.foldlM_nil] at hval
      have h2 : (List.replicate k (48 : UInt8)).foldlM digitStep 0 = some nano := hval
      rw [foldlM_zeros] at h2
      simpa using h2.symm
    subst this
    rw [hz]
    unfold takeFrac
    simp only
    rw [if_neg (by simp [hc', hc''])]
  · rw [if_neg hds, List.cons_append]
    have h1 : (ds ++ zoneText z).takeWhile (fun c => decide (IsDigit c)) = ds := by
      rw [List.takeWhile_append_of_pos (by simpa using hdig), hz]
      simp [List.takeWhile, hc]
    have h2 : (ds ++ zoneText z).dropWhile (fun c => decide (IsDigit c)) = zoneText z := by
      rw [List.dropWhile_append_of_pos (by simpa using hdig), hz]
      simp [List.dropWhile, hc]
    simp only [takeFrac, h1, h2]
    rw [if_pos ⟨by simp, hds⟩]
    rw [List.take_of_length_le (by omega)]
    cases hv : ds.foldlM digitStep 0 with
    | none => rw [hv] at hval; cases hval
    | some m =>
      rw [hv] at hval
      have h3 : (List.replicate k (48 : UInt8)).foldlM digitStep m = some nano := hval
      rw [foldlM_zeros] at h3
      have h4 : m * 10 ^ k = nano := Option.some.inj h3
      rw [Option.getD_some, show 9 - ds.length = k by omega, h4]

theorem takeZone_zoneText {z : Int} (h : z.natAbs < 1440) : takeZone (zoneText z) = some z := by
  unfold zoneText
  split
  · rename_i hz
    rw [hz]
    rfl
  · rename_i hz
    have h2 := takeNum_padDec (w := 2) (lo := 0) (hi := 24) (n := z.natAbs / 60) (rest := 58 :: padDec 2 (z.natAbs % 60)) (by omega) (by omega) ⟨by omega, by omega⟩
    have h3 := takeNum_padDec (w := 2) (lo := 0) (hi := 60) (n := z.natAbs % 60) (rest := []) (by omega) (by omega) ⟨by omega, by omega⟩
    rw [List.append_nil] at h3
    unfold takeZone
    split
    · rename_i h'; split at h' <;> cases h'
    · rename_i c t h'
      injection h' with h5 h6
      subst h6
      rw [if_pos (by rw [← h5]; split <;> simp), h2]
      simp only [takeByte, if_true, h3]
      rw [← h5]
      split <;> rename_i hs
      · simp; omega
      · simp; omega
    · rename_i h'; cases h'

/-- A time that `MarshalJSON` accepts is read back, zone included. -/
theorem parseRFC3339_format {t : Stamp} (h : t.Writable) : parseRFC3339 (formatRFC3339 t) = some t := by
  obtain ⟨⟨hy1, hy2⟩, hz⟩ := h
  obtain ⟨hv1, hv2⟩ := dateOfDays_valid (t.wall / nsPerDay)
  obtain ⟨c1, c2, c3, c4⟩ := clockOf_bounds t.wall
  have hdays := daysOf_dateOfDays (t.wall / nsPerDay)
  have hyear : (((dateOf t.wall).year.toNat : Nat) : Int) = (dateOf t.wall).year := Int.toNat_of_nonneg hy1
  have hml : monthLength (dateOf t.wall).year (dateOf t.wall).month ≤ 31 := by
    unfold monthLength
    repeat' split
    all_goals omega
  change 1 ≤ (dateOf t.wall).day ∧ (dateOf t.wall).day ≤ monthLength (dateOf t.wall).year (dateOf t.wall).month at hv2
  change 1 ≤ (dateOf t.wall).month ∧ (dateOf t.wall).month ≤ 12 at hv1
  unfold parseRFC3339 formatRFC3339
  simp only
  rw [takeNum_padDec (by omega) (by omega) ⟨by omega, by omega⟩]
  simp only [takeByte_cons]
  rw [takeNum_padDec (by omega) (by omega) hv1]
  simp only [takeByte_cons]
  rw [hyear, takeNum_padDec (by omega) (by omega) hv2]
  simp only [takeByte_cons]
  rw [takeHour_padDec (by omega)]
  simp only [takeByte_cons]
  rw [takeNum_padDec (by omega) (by omega) ⟨by omega, by omega⟩]
  simp only [takeByte_cons]
  rw [takeNum_padDec (by omega) (by omega) ⟨by omega, by omega⟩]
  simp only [takeFrac_fracText c4, takeZone_zoneText hz]
  change some (Stamp.mk (daysOf (dateOf t.wall) * nsPerDay + _ + _ + _ + _ - _) _) = _
  change daysOf (dateOf t.wall) = _ at hdays
  rw [hdays]
  have : t = ⟨t.wall - t.zone * nsPerMinute, t.zone⟩ := by
    cases t
    simp [Stamp.wall]
  conv => rhs; rw [this]
  congr 2
  generalize t.zone * nsPerMinute = zz
  generalize t.wall = w
  simp only [clockOf, nsPerDay]
  omega

/-! ## What is read can be written, unless the zone is 24 hours or more from UTC -/

/-- The days of a date of a year lie in that year. -/
theorem dateOfDays_year {d : Date} (hm : 1 ≤ d.month ∧ d.month ≤ 12) (hd : 1 ≤ d.day ∧ d.day ≤ monthLength d.year d.month) :
    (dateOfDays (daysOf d)).year = d.year := by
  obtain ⟨y, m, k⟩ := d
  simp only at hm hd ⊢
  have key : ∃ n : Nat, n < yearLength y ∧ daysOf ⟨y, m, k⟩ = daysBeforeYear y + n - 719162 := by
    refine ⟨daysBefore.getD (m - 1) 0 + (if isLeap y = true ∧ m > 2 then 1 else 0) + k - 1, ?_, ?_⟩
    · obtain ⟨h1, h2⟩ := hm
      unfold monthLength at hd
      unfold yearLength
      rcases m with _ | _ | _ | _ | _ | _ | _ | _ | _ | _ | _ | _ | _ | m <;> try omega
      all_goals cases hl : isLeap y <;> simp [daysBefore, hl] at hd ⊢ <;> omega
    · simp only [daysOf]
      split <;> omega
  obtain ⟨n, h1, h2⟩ := key
  have : yearDay (daysOf ⟨y, m, k⟩ + 719162) = (y, n) := yearDay_unique (by omega) h1
  simp [dateOfDays, this]

theorem takeNum_bounds {w lo hi n : Nat} {s r : Bytes} (h : takeNum w lo hi s = some (n, r)) : lo ≤ n ∧ n ≤ hi := by
  unfold takeNum at h
  split at h
  · cases h
  · split at h
    · cases h
    · split at h
      · simp at h; rename_i h1 _; omega
      · cases h

theorem takeHour_bounds {n : Nat} {s r : Bytes} (h : takeHour s = some (n, r)) : n ≤ 23 := by
  unfold takeHour at h
  split at h
  · split at h <;> exact (takeNum_bounds h).2
  · exact (takeNum_bounds h).2

theorem digits_lt {ds : Bytes} : ∀ {acc n : Nat}, ds.foldlM digitStep acc = some n → n < (acc + 1) * 10 ^ ds.length := by
  induction ds with
  | nil => intro acc n h; simp at h; simp; omega
  | cons c ds ih =>
    intro acc n h
    rw [List.foldlM_cons] at h
    unfold digitStep at h
    split at h
    · rename_i hc
      have h1 := ih h
      rw [List.length_cons, Nat.pow_succ]
      have h2 : c.toNat - 48 ≤ 9 := by
        have := hc.2
        rw [UInt8.le_iff_toNat_le] at this
        have h9 : (57 : UInt8).toNat = 57 := rfl
        omega
      have h3 : acc * 10 + (c.toNat - 48) + 1 ≤ (acc + 1) * 10 := by omega
      calc n < _ := h1
        _ ≤ (acc + 1) * 10 * 10 ^ ds.length := Nat.mul_le_mul_right _ h3
        _ = _ := by rw [Nat.mul_assoc, Nat.mul_comm 10]
    · cases h

theorem takeFrac_bound (s : Bytes) : (takeFrac s).1 < 1000000000 := by
  unfold takeFrac
  split
  · rename_i p t
    simp only
    split
    · simp only
      generalize hd : (t.takeWhile fun c => decide (IsDigit c)).take 9 = ds
      have hl : ds.length ≤ 9 := by rw [← hd]; simp; omega
      cases hv : ds.foldlM digitStep 0 with
      | none => simp
      | some n =>
        have h1 := digits_lt hv
        simp only [Option.getD_some]
        have h2 : (10 : Nat) ^ ds.length * 10 ^ (9 - ds.length) = 10 ^ 9 := by rw [← Nat.pow_add]; congr 1; omega
        have h3 : 0 < (10 : Nat) ^ (9 - ds.length) := Nat.pow_pos (by omega)
        have h4 : n * 10 ^ (9 - ds.length) < 10 ^ ds.length * 10 ^ (9 - ds.length) := Nat.mul_lt_mul_of_pos_right (by omega) h3
        omega
    · simp
  · simp

theorem takeZone_bound {s : Bytes} {z : Int} (h : takeZone s = some z) : z.natAbs ≤ 1500 := by
  unfold takeZone at h
  split at h
  · cases h; simp
  · split at h
    · split at h
      · cases h
      · rename_i hh
        have b1 := (takeNum_bounds hh).2
        split at h
        · cases h
        · split at h
          · rename_i hm
            have b2 := (takeNum_bounds hm).2
            cases h
            split <;> omega
          · cases h
    · cases h
  · cases h

/-- Times that are read have years of four digits in their zone, and zones at most 25 hours from UTC. -/
theorem parseRFC3339_year {s : Bytes} {t : Stamp} (h : parseRFC3339 s = some t) : FourDigitYear t.wall ∧ t.zone.natAbs ≤ 1500 := by
  unfold parseRFC3339 at h
  iterate 11 (split at h; · cases h)
  simp only at h
  split at h
  · cases h
  rename_i y s1 hy _ _ _ _ m s2 hm _ _ _ _ d s3 hd _ _ _ _ hh s4 hhh _ _ _ _ mi s5 hmi _ _ _ _ se s6 hse _ zone hz
  cases h
  have b1 := takeNum_bounds hy
  have b2 := takeNum_bounds hm
  have b3 := takeNum_bounds hd
  have b4 := takeHour_bounds hhh
  have b5 := takeNum_bounds hmi
  have b6 := takeNum_bounds hse
  have b7 := takeFrac_bound s6
  refine ⟨?_, takeZone_bound hz⟩
  have hyear := dateOfDays_year (d := ⟨y, m, d⟩) b2 b3
  unfold FourDigitYear dateOf Stamp.wall
  simp only
  have : (daysOf ⟨y, m, d⟩ * nsPerDay + hh * 3600000000000 + mi * 60000000000 + se * 1000000000 + (takeFrac s6).1 - zone * nsPerMinute +
      zone * nsPerMinute) / nsPerDay = daysOf ⟨y, m, d⟩ := by
    generalize zone * nsPerMinute = zz
    generalize daysOf ⟨y, m, d⟩ = dd
    simp only [nsPerDay]
    omega
  rw [this, hyear]
  simp only
  omega

/-- A time that is read can be written exactly if its zone is less than 24 hours from UTC. -/
theorem parseRFC3339_writable {s : Bytes} {t : Stamp} (h : parseRFC3339 s = some t) : t.Writable ↔ t.zone.natAbs < 1440 := by
  unfold Stamp.Writable
  exact ⟨fun h => h.2, fun hz => ⟨(parseRFC3339_year h).1, hz⟩⟩

/-- The zero time is written and read like others. -/
example : formatRFC3339 Stamp.zero = str "0001-01-01T00:00:00Z" := by decide +kernel
example : formatRFC3339 ⟨1600000000120000000, -330⟩ = str "2020-09-13T06:56:40.12-05:30" := by decide +kernel

/-- A zone 24 hours from UTC is read but cannot be written. -/
example : parseRFC3339 (str "2020-01-01T00:00:00+24:00") = some ⟨1577750400000000000, 1440⟩ ∧ ¬ Stamp.Writable ⟨1577750400000000000, 1440⟩ := by
  decide +kernel
example : parseRFC3339 (str "2020-01-01T1:00:00,5Z") = some ⟨1577840400500000000, 0⟩ := by decide +kernel
example : parseRFC3339 (str "2021-02-29T00:00:00Z") = none := by decide +kernel

end Verif.Go
