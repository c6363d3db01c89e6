import Verif.Go.Num

/-!
# Dates: the part of package `time` that formats times in UTC

Times are nanoseconds since 1970. The conversion is the one of Go's `absDate`.
-/

namespace Verif.Go

/-- A date of the proleptic Gregorian calendar. -/
structure Date where
  year : Int
  month : Nat
  day : Nat
deriving DecidableEq, Repr

/-- `isLeap` (package time). -/
def isLeap (year : Int) : Bool := decide (year % 4 = 0 ∧ (year % 100 ≠ 0 ∨ year % 400 = 0))

/-- The days before each month of a year that is not a leap year (`daysBefore`). -/
def daysBefore : List Nat := [0, 31, 59, 90, 120, 151, 181, 212, 243, 273, 304, 334, 365]

/-- Month and day for the day of a year, counted from zero (package time, the end of `absDate`). -/
def monthDay (leap : Bool) (yday : Nat) : Nat × Nat :=
  if leap = true ∧ yday = 59 then (2, 29)
  else
    let day := if leap = true ∧ yday > 59 then yday - 1 else yday
    let month := day / 31
    let stop := daysBefore.getD (month + 1) 0
    if day ≥ stop then (month + 2, day - stop + 1)
    else (month + 1, day - daysBefore.getD month 0 + 1)

/-- Year, and day of the year counted from zero, for the number of days since January 1 of the year 1 (package time, the beginning of
`absDate`, which counts from a year that is 1 modulo 400). -/
def yearDay (z : Int) : Int × Nat :=
  let n400 := z / 146097
  let d := z % 146097
  let n100 := d / 36524 - d / 36524 / 4
  let d := d - 36524 * n100
  let n4 := d / 1461
  let d := d - 1461 * n4
  let n1 := d / 365 - d / 365 / 4
  let d := d - 365 * n1
  (400 * n400 + 100 * n100 + 4 * n4 + n1 + 1, d.toNat)

/-- The date with a number of days since 1970-01-01, which is day 719162 of the count above. -/
def dateOfDays (days : Int) : Date :=
  let p := yearDay (days + 719162)
  let q := monthDay (isLeap p.1) p.2
  { year := p.1, month := q.1, day := q.2 }

/-- Nanoseconds of a day. -/
def nsPerDay : Int := 86400000000000

/-- A time of day. -/
structure Clock where
  hour : Nat
  minute : Nat
  second : Nat
  nano : Nat
deriving DecidableEq, Repr

/-- The date of a time. -/
def dateOf (t : Int) : Date := dateOfDays (t / nsPerDay)

/-- The time of day of a time. -/
def clockOf (t : Int) : Clock :=
  let n := (t % nsPerDay).toNat
  { hour := n / 3600000000000, minute := n / 60000000000 % 60, second := n / 1000000000 % 60, nano := n % 1000000000 }

/-- Decimal digits, padded with zeros on the left (package time, `appendInt`). -/
def padDec (w n : Nat) : Bytes := List.replicate (w - (natDec n).length) 48 ++ natDec n

/-- `t.Format("2006/01/02")`, for years that are not negative. -/
def formatDay (t : Int) : Bytes :=
  let d := dateOf t
  padDec 4 d.year.toNat ++ str "/" ++ padDec 2 d.month ++ str "/" ++ padDec 2 d.day

/-- `t.Format("20060102T150405.000000000Z")`, for years that are not negative. -/
def formatStamp (t : Int) : Bytes :=
  let d := dateOf t
  let c := clockOf t
  padDec 4 d.year.toNat ++ padDec 2 d.month ++ padDec 2 d.day ++ str "T" ++ padDec 2 c.hour ++ padDec 2 c.minute ++ padDec 2 c.second ++
    str "." ++ padDec 9 c.nano ++ str "Z"

/-! ## The calendar is right -/

/-- The length of a month. -/
def monthLength (year : Int) (month : Nat) : Nat :=
  if month = 2 then (if isLeap year then 29 else 28)
  else if month = 4 ∨ month = 6 ∨ month = 9 ∨ month = 11 then 30 else 31

/-- A date of the calendar. -/
structure Date.Valid (d : Date) : Prop where
  month : 1 ≤ d.month ∧ d.month ≤ 12
  day : 1 ≤ d.day ∧ d.day ≤ monthLength d.year d.month

/-- The next date. -/
def Date.next (d : Date) : Date :=
  if d.day < monthLength d.year d.month then { d with day := d.day + 1 }
  else if d.month < 12 then { d with month := d.month + 1, day := 1 }
  else { year := d.year + 1, month := 1, day := 1 }

/-- The length of a year. -/
def yearLength (y : Int) : Nat := if isLeap y then 366 else 365

/-- The days before a year, counted from the year 1. -/
def daysBeforeYear (y : Int) : Int := 365 * (y - 1) + (y - 1) / 4 - (y - 1) / 100 + (y - 1) / 400

theorem isLeap_iff {y : Int} : isLeap y = true ↔ y % 4 = 0 ∧ (y % 100 ≠ 0 ∨ y % 400 = 0) := by simp [isLeap]

theorem yearLength_cases (y : Int) :
    (yearLength y = 366 ∧ y % 4 = 0 ∧ (y % 100 ≠ 0 ∨ y % 400 = 0)) ∨ (yearLength y = 365 ∧ ¬ (y % 4 = 0 ∧ (y % 100 ≠ 0 ∨ y % 400 = 0))) := by
  unfold yearLength
  by_cases h : isLeap y = true
  · exact .inl ⟨if_pos h, isLeap_iff.mp h⟩
  · exact .inr ⟨if_neg h, fun h' => h (isLeap_iff.mpr h')⟩

theorem daysBeforeYear_succ (y : Int) : daysBeforeYear (y + 1) = daysBeforeYear y + yearLength y := by
  simp only [daysBeforeYear]
  rcases yearLength_cases y with ⟨h, h'⟩ | ⟨h, h'⟩ <;> rw [h] <;> omega

private theorem year_aux {n a b c : Int} {k : Nat} (ha : 0 ≤ a ∧ a ≤ 3) (hb : 0 ≤ b ∧ b ≤ 24) (hc : 0 ≤ c ∧ c ≤ 3)
    (hk : k < 365 ∨ (k = 365 ∧ c = 3 ∧ (b = 24 → a = 3))) :
    146097 * n + 36524 * a + 1461 * b + 365 * c + k = daysBeforeYear (400 * n + 100 * a + 4 * b + c + 1) + k ∧
    k < yearLength (400 * n + 100 * a + 4 * b + c + 1) := by
  have hy : (400 * n + 100 * a + 4 * b + c + 1 - 1) / 4 = 100 * n + 25 * a + b := by omega
  have hy1 : (400 * n + 100 * a + 4 * b + c + 1 - 1) / 100 = 4 * n + a := by omega
  have hy2 : (400 * n + 100 * a + 4 * b + c + 1 - 1) / 400 = n := by omega
  refine ⟨?_, ?_⟩
  · simp only [daysBeforeYear]
    rw [hy, hy1, hy2]
    omega
  · rcases yearLength_cases (400 * n + 100 * a + 4 * b + c + 1) with ⟨h, h'⟩ | ⟨h, h'⟩ <;> rw [h] <;> omega

theorem yearDay_spec (z : Int) : z = daysBeforeYear (yearDay z).1 + (yearDay z).2 ∧ (yearDay z).2 < yearLength (yearDay z).1 := by
  simp only [yearDay]
  generalize hn : z / 146097 = n
  generalize hd : z % 146097 = d
  have h0 : 0 ≤ d ∧ d < 146097 := by omega
  generalize ha : d / 36524 - d / 36524 / 4 = a
  generalize he : d - 36524 * a = e
  have h1 : 0 ≤ a ∧ a ≤ 3 ∧ 0 ≤ e ∧ (e < 36524 ∨ (a = 3 ∧ e ≤ 36524)) := by omega
  generalize hb : e / 1461 = b
  generalize hf : e - 1461 * b = f
  have h2 : 0 ≤ b ∧ b ≤ 24 ∧ 0 ≤ f ∧ f < 1461 := by omega
  generalize hc : f / 365 - f / 365 / 4 = c
  have h3 : 0 ≤ c ∧ c ≤ 3 ∧ 0 ≤ f - 365 * c ∧ (f - 365 * c < 365 ∨ (c = 3 ∧ f - 365 * c = 365)) := by omega
  generalize hg : f - 365 * c = g at h3 ⊢
  obtain ⟨r1, r2⟩ := year_aux (n := n) (k := g.toNat) ⟨h1.1, h1.2.1⟩ ⟨h2.1, h2.2.1⟩ ⟨h3.1, h3.2.1⟩ (by omega)
  exact ⟨by omega, r2⟩

/-- Year and day of the year are determined by the number of days. -/
theorem yearDay_unique {z y : Int} {k : Nat} (h : z = daysBeforeYear y + k) (hk : k < yearLength y) : yearDay z = (y, k) := by
  obtain ⟨h1, h2⟩ := yearDay_spec z
  have hnext := daysBeforeYear_succ
  have hmono : ∀ (n : Nat) (y : Int), daysBeforeYear y ≤ daysBeforeYear (y + n) := by
    intro n
    induction n with
    | zero => intro y; simp
    | succ n ih =>
      intro y
      have h3 := hnext (y + n)
      have h4 := ih y
      rw [show y + ((n + 1 : Nat) : Int) = y + n + 1 by omega]
      omega
  have hyear : (yearDay z).1 = y := by
    rcases Int.lt_trichotomy (yearDay z).1 y with h5 | h5 | h5
    · have h6 := hnext (yearDay z).1
      have h7 := hmono (y - ((yearDay z).1 + 1)).toNat ((yearDay z).1 + 1)
      rw [show (yearDay z).1 + 1 + ((y - ((yearDay z).1 + 1)).toNat : Int) = y by omega] at h7
      omega
    · exact h5
    · have h6 := hnext y
      have h7 := hmono ((yearDay z).1 - (y + 1)).toNat (y + 1)
      rw [show y + 1 + (((yearDay z).1 - (y + 1)).toNat : Int) = (yearDay z).1 by omega] at h7
      omega
  refine Prod.ext hyear ?_
  simp only
  rw [hyear] at h1
  omega

private theorem monthDay_table : ∀ leap : Bool, ∀ k < 366, (k < 365 ∨ leap = true) →
    let m := monthDay leap k
    let len := if m.1 = 2 then (if leap then 29 else 28) else if m.1 = 4 ∨ m.1 = 6 ∨ m.1 = 9 ∨ m.1 = 11 then 30 else 31
    1 ≤ m.1 ∧ m.1 ≤ 12 ∧ 1 ≤ m.2 ∧ m.2 ≤ len ∧
    (if k + 1 < (if leap then 366 else 365) then
      monthDay leap (k + 1) = if m.2 < len then (m.1, m.2 + 1) else (m.1 + 1, 1)
     else m = (12, 31)) ∧ (m.1 = 12 → k + 1 < (if leap then 366 else 365) → m.2 < 31) := by
  decide +kernel

/-- The dates are dates of the calendar. -/
theorem dateOfDays_valid (n : Int) : (dateOfDays n).Valid := by
  obtain ⟨-, h2⟩ := yearDay_spec (n + 719162)
  have h3 : (yearDay (n + 719162)).2 < 366 ∧ ((yearDay (n + 719162)).2 < 365 ∨ isLeap (yearDay (n + 719162)).1 = true) := by
    unfold yearLength at h2
    split at h2 <;> simp_all
    omega
  have := monthDay_table (isLeap (yearDay (n + 719162)).1) _ h3.1 h3.2
  exact ⟨⟨this.1, this.2.1⟩, this.2.2.1, this.2.2.2.1⟩

/-- The date of the first day, … -/
theorem dateOfDays_zero : dateOfDays 0 = ⟨1970, 1, 1⟩ := by decide

/-- … and each day has the next date. With this the conversion is determined. -/
theorem dateOfDays_succ (n : Int) : dateOfDays (n + 1) = (dateOfDays n).next := by
  obtain ⟨h1, h2⟩ := yearDay_spec (n + 719162)
  generalize hp : yearDay (n + 719162) = p at h1 h2
  obtain ⟨y, k⟩ := p
  simp only at h1 h2
  have h3 : k < 366 ∧ (k < 365 ∨ isLeap y = true) := by
    unfold yearLength at h2
    split at h2 <;> simp_all
    omega
  obtain ⟨t1, t2, t3, t4, t5, t6⟩ := monthDay_table (isLeap y) k h3.1 h3.2
  by_cases hk : k + 1 < yearLength y
  · have h4 : yearDay (n + 1 + 719162) = (y, k + 1) := yearDay_unique (by omega) hk
    have hk' : k + 1 < (if isLeap y = true then 366 else 365) := hk
    rw [if_pos hk'] at t5
    have hm : (monthDay (isLeap y) k).1 = 12 → (monthDay (isLeap y) k).2 < 31 := fun h => t6 h hk'
    simp only [dateOfDays, h4, hp, Date.next, t5]
    change Date.mk y (if _ < monthLength y (monthDay (isLeap y) k).1 then _ else _ : Nat × Nat).1
      (if _ < monthLength y (monthDay (isLeap y) k).1 then _ else _ : Nat × Nat).2 = _
    by_cases hd : (monthDay (isLeap y) k).2 < monthLength y (monthDay (isLeap y) k).1
    · simp only [if_pos hd]
    · have hm' : (monthDay (isLeap y) k).1 < 12 := by
        rcases Nat.lt_or_ge (monthDay (isLeap y) k).1 12 with h | h
        · exact h
        · have h12 : (monthDay (isLeap y) k).1 = 12 := by omega
          have := hm h12
          rw [h12] at hd
          simp [monthLength] at hd
          omega
      simp only [if_neg hd, if_pos hm']
  · have hlen : k + 1 = yearLength y := by omega
    have h4 : yearDay (n + 1 + 719162) = (y + 1, 0) := by
      refine yearDay_unique ?_ ?_
      · have := daysBeforeYear_succ y
        omega
      · unfold yearLength; split <;> omega
    have hk' : ¬ k + 1 < (if isLeap y = true then 366 else 365) := hk
    rw [if_neg hk'] at t5
    simp only [dateOfDays, h4, hp, Date.next, monthLength, t5]
    cases isLeap (y + 1) <;> rfl

/-! ## The formats determine the time -/

theorem monthDay_inverse : ∀ leap : Bool, ∀ k < 366, (k < 365 ∨ leap = true) →
    daysBefore.getD ((monthDay leap k).1 - 1) 0 + (monthDay leap k).2 + (if leap = true ∧ (monthDay leap k).1 > 2 then 1 else 0) = k + 1 := by
  decide +kernel

/-- Different days have different dates. -/
theorem dateOfDays_injective {m n : Int} (h : dateOfDays m = dateOfDays n) : m = n := by
  obtain ⟨h1, h2⟩ := yearDay_spec (m + 719162)
  obtain ⟨g1, g2⟩ := yearDay_spec (n + 719162)
  simp only [dateOfDays, Date.mk.injEq] at h
  obtain ⟨hy, hm, hd⟩ := h
  generalize yearDay (m + 719162) = p at *
  generalize yearDay (n + 719162) = q at *
  obtain ⟨y, k⟩ := p
  obtain ⟨y', k'⟩ := q
  simp only at hy hm hd h1 h2 g1 g2
  subst hy
  have hk : k < 366 ∧ (k < 365 ∨ isLeap y = true) := by
    unfold yearLength at h2
    split at h2 <;> simp_all
    omega
  have hk' : k' < 366 ∧ (k' < 365 ∨ isLeap y = true) := by
    unfold yearLength at g2
    split at g2 <;> simp_all
    omega
  have i1 := monthDay_inverse (isLeap y) k hk.1 hk.2
  have i2 := monthDay_inverse (isLeap y) k' hk'.1 hk'.2
  rw [hm, hd, i2] at i1
  omega

theorem natDigitsF_length {fuel n w : Nat} (hw : 0 < w) (h : n < 10 ^ w) : (natDigitsF fuel n).length ≤ w := by
  induction fuel generalizing n w with
  | zero => simp [natDigitsF]
  | succ f ih =>
    unfold natDigitsF
    split
    · simp; omega
    · rename_i hn
      obtain ⟨v, rfl⟩ : ∃ v, w = v + 1 := ⟨w - 1, by omega⟩
      rcases Nat.eq_zero_or_pos v with hv | hv
      · subst hv; simp at h; omega
      · have : n / 10 < 10 ^ v := by
          rw [Nat.pow_succ] at h
          omega
        have := ih hv this
        simp
        omega

/-- Padded numbers have the given width if they fit. -/
theorem padDec_length {w n : Nat} (hw : 0 < w) (h : n < 10 ^ w) : (padDec w n).length = w := by
  have : (natDec n).length ≤ w := natDigitsF_length hw h
  simp [padDec]
  omega

/-- Padded numbers determine the number. -/
theorem padDec_injective {w m n : Nat} (h : padDec w m = padDec w n) : m = n := by
  have key : ∀ k : Nat, ∀ b : Bytes, (List.replicate k 48 ++ b).foldlM digitStep 0 = b.foldlM digitStep 0 := by
    intro k b
    induction k with
    | zero => rfl
    | succ k ih =>
      rw [List.replicate_succ, List.cons_append, List.foldlM_cons]
      exact ih
  have h1 : (padDec w m).foldlM digitStep 0 = some m := (key _ _).trans (foldlM_natDigitsF (Nat.lt_succ_self m))
  have h2 : (padDec w n).foldlM digitStep 0 = some n := (key _ _).trans (foldlM_natDigitsF (Nat.lt_succ_self n))
  rw [h, h2] at h1
  exact (Option.some.inj h1).symm

/-- A time for which the formats have a year of four digits. -/
def FourDigitYear (t : Int) : Prop := 0 ≤ (dateOf t).year ∧ (dateOf t).year ≤ 9999

theorem dateOf_bounds (t : Int) : (dateOf t).month < 100 ∧ (dateOf t).day < 100 := by
  obtain ⟨h1, h2⟩ := dateOfDays_valid (t / nsPerDay)
  have : monthLength (dateOf t).year (dateOf t).month ≤ 31 := by
    unfold monthLength
    repeat' split
    all_goals omega
  exact ⟨by unfold dateOf; omega, by unfold dateOf at *; omega⟩

theorem clockOf_bounds (t : Int) : (clockOf t).hour < 24 ∧ (clockOf t).minute < 60 ∧ (clockOf t).second < 60 ∧ (clockOf t).nano < 1000000000 := by
  simp only [clockOf, nsPerDay]
  omega

/-- Times with the same date and the same time of day are the same. -/
theorem time_ext {s t : Int} (hd : dateOf s = dateOf t) (hc : clockOf s = clockOf t) : s = t := by
  have := dateOfDays_injective hd
  simp only [clockOf, Clock.mk.injEq, nsPerDay] at hc this
  omega

theorem formatDay_length {t : Int} (h : FourDigitYear t) : (formatDay t).length = 10 := by
  obtain ⟨h1, h2⟩ := dateOf_bounds t
  obtain ⟨h3, h4⟩ := h
  simp only [formatDay, List.length_append]
  rw [padDec_length (by omega) (show (dateOf t).year.toNat < 10 ^ 4 by omega), padDec_length (by omega) (show _ < 10 ^ 2 by omega),
    padDec_length (by omega) (show _ < 10 ^ 2 by omega)]
  rfl

theorem formatStamp_length {t : Int} (h : FourDigitYear t) : (formatStamp t).length = 26 := by
  obtain ⟨h1, h2⟩ := dateOf_bounds t
  obtain ⟨c1, c2, c3, c4⟩ := clockOf_bounds t
  obtain ⟨h3, h4⟩ := h
  simp only [formatStamp, List.length_append]
  rw [padDec_length (by omega) (show (dateOf t).year.toNat < 10 ^ 4 by omega), padDec_length (by omega) (show (dateOf t).month < 10 ^ 2 by omega),
    padDec_length (by omega) (show (dateOf t).day < 10 ^ 2 by omega), padDec_length (by omega) (show (clockOf t).hour < 10 ^ 2 by omega),
    padDec_length (by omega) (show (clockOf t).minute < 10 ^ 2 by omega), padDec_length (by omega) (show (clockOf t).second < 10 ^ 2 by omega),
    padDec_length (by omega) (show (clockOf t).nano < 10 ^ 9 by omega)]
  rfl

/-- Equal time stamps are of equal times. -/
theorem formatStamp_injective {s t : Int} (hs : FourDigitYear s) (ht : FourDigitYear t) (h : formatStamp s = formatStamp t) : s = t := by
  obtain ⟨s1, s2⟩ := dateOf_bounds s
  obtain ⟨t1, t2⟩ := dateOf_bounds t
  obtain ⟨c1, c2, c3, c4⟩ := clockOf_bounds s
  obtain ⟨d1, d2, d3, d4⟩ := clockOf_bounds t
  obtain ⟨s3, s4⟩ := hs
  obtain ⟨t3, t4⟩ := ht
  have pad : ∀ {w m n : Nat} {a b : Bytes}, 0 < w → m < 10 ^ w → n < 10 ^ w → padDec w m ++ a = padDec w n ++ b → m = n ∧ a = b := by
    intro w m n a b hw hm hn h
    obtain ⟨h1, h2⟩ := List.append_inj h (by rw [padDec_length hw hm, padDec_length hw hn])
    exact ⟨padDec_injective h1, h2⟩
  simp only [formatStamp, List.append_assoc] at h
  obtain ⟨e1, h⟩ := pad (by omega) (show (dateOf s).year.toNat < 10 ^ 4 by omega) (show (dateOf t).year.toNat < 10 ^ 4 by omega) h
  obtain ⟨e2, h⟩ := pad (by omega) (show _ < 10 ^ 2 by omega) (show _ < 10 ^ 2 by omega) h
  obtain ⟨e3, h⟩ := pad (by omega) (show _ < 10 ^ 2 by omega) (show _ < 10 ^ 2 by omega) h
  have h := List.append_cancel_left h
  obtain ⟨e4, h⟩ := pad (by omega) (show _ < 10 ^ 2 by omega) (show _ < 10 ^ 2 by omega) h
  obtain ⟨e5, h⟩ := pad (by omega) (show _ < 10 ^ 2 by omega) (show _ < 10 ^ 2 by omega) h
  obtain ⟨e6, h⟩ := pad (by omega) (show _ < 10 ^ 2 by omega) (show _ < 10 ^ 2 by omega) h
  have h := List.append_cancel_left h
  obtain ⟨e7, -⟩ := pad (by omega) (show _ < 10 ^ 9 by omega) (show _ < 10 ^ 9 by omega) h
  apply time_ext
  · generalize dateOf s = a at *
    generalize dateOf t = b at *
    obtain ⟨_, _, _⟩ := a
    obtain ⟨_, _, _⟩ := b
    simp_all
    omega
  · generalize clockOf s = a at *
    generalize clockOf t = b at *
    obtain ⟨_, _, _, _⟩ := a
    obtain ⟨_, _, _, _⟩ := b
    simp_all

/-- The date of the stamp is the directory: days with the same text are the same date. -/
theorem formatDay_injective {s t : Int} (hs : FourDigitYear s) (ht : FourDigitYear t) (h : formatDay s = formatDay t) :
    s / nsPerDay = t / nsPerDay := by
  obtain ⟨s1, s2⟩ := dateOf_bounds s
  obtain ⟨t1, t2⟩ := dateOf_bounds t
  obtain ⟨s3, s4⟩ := hs
  obtain ⟨t3, t4⟩ := ht
  have pad : ∀ {w m n : Nat} {a b : Bytes}, 0 < w → m < 10 ^ w → n < 10 ^ w → padDec w m ++ a = padDec w n ++ b → m = n ∧ a = b := by
    intro w m n a b hw hm hn h
    obtain ⟨h1, h2⟩ := List.append_inj h (by rw [padDec_length hw hm, padDec_length hw hn])
    exact ⟨padDec_injective h1, h2⟩
  simp only [formatDay, List.append_assoc] at h
  obtain ⟨e1, h⟩ := pad (by omega) (show (dateOf s).year.toNat < 10 ^ 4 by omega) (show (dateOf t).year.toNat < 10 ^ 4 by omega) h
  have h := List.append_cancel_left h
  obtain ⟨e2, h⟩ := pad (by omega) (show _ < 10 ^ 2 by omega) (show _ < 10 ^ 2 by omega) h
  have e3 := padDec_injective (List.append_cancel_left h)
  apply dateOfDays_injective
  change dateOf s = dateOf t
  generalize dateOf s = a at *
  generalize dateOf t = b at *
  obtain ⟨_, _, _⟩ := a
  obtain ⟨_, _, _⟩ := b
  simp_all
  omega

/-- The times of Go that fit into 64 bits of nanoseconds have a year of four digits. -/
theorem fourDigitYear_of_int64 {t : Int} (h : InInt64 t) : FourDigitYear t := by
  unfold FourDigitYear dateOf dateOfDays
  simp only
  obtain ⟨h1, h2⟩ := yearDay_spec (t / nsPerDay + 719162)
  generalize yearDay (t / nsPerDay + 719162) = p at *
  obtain ⟨y, k⟩ := p
  simp only [InInt64, daysBeforeYear, nsPerDay] at *
  have : k < 366 := by rcases yearLength_cases y with ⟨h, _⟩ | ⟨h, _⟩ <;> omega
  omega

example : formatStamp 1604671215123456789 = str "20201106T140015.123456789Z" := by decide +kernel
example : formatDay 951827696000000000 = str "2000/02/29" := by decide +kernel

end Verif.Go
