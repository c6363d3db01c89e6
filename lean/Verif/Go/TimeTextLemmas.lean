import Verif.Go.Rfc3339
import Verif.Go.DecimalLemmas
import Verif.Spec.TimeText

/-! # The calendar and the texts of times are as specified -/

namespace Verif.Go
open Verif.Spec

/-! ## Calendar -/

theorem isLeap_leapYear {y : Int} : isLeap y = true ↔ LeapYear y := isLeap_iff

theorem monthDays_iff {y : Int} {m n : Nat} : MonthDays y m n ↔ 1 ≤ m ∧ m ≤ 12 ∧ n = monthLength y m := by
  constructor
  · rintro (h | h | h | h)
    · simp at h
      rcases h with rfl | rfl | rfl | rfl | rfl | rfl | rfl <;> simp [monthLength]
    · simp at h
      rcases h with rfl | rfl | rfl | rfl <;> simp [monthLength]
    · rw [← isLeap_leapYear] at h
      simp [monthLength, h]
    · rw [← isLeap_leapYear] at h
      simp [monthLength, h]
  · rintro ⟨h1, h2, rfl⟩
    rcases m with _ | _ | _ | _ | _ | _ | _ | _ | _ | _ | _ | _ | _ | m <;> try omega
    all_goals first
      | exact .long (by decide)
      | exact .short (by decide)
      | skip
    by_cases hl : isLeap y = true
    · have : monthLength y 2 = 29 := by simp [monthLength, hl]
      exact this ▸ .leap (isLeap_leapYear.1 hl)
    · have : monthLength y 2 = 28 := by simp [monthLength, hl]
      exact this ▸ .february (fun h => hl (isLeap_leapYear.2 h))

theorem nextDay_iff {d d' : Date} : NextDay (d.year, d.month, d.day) (d'.year, d'.month, d'.day) ↔ d.Valid ∧ d' = d.next := by
  obtain ⟨y, m, k⟩ := d
  obtain ⟨y', m', k'⟩ := d'
  simp only
  constructor
  · intro h
    cases h with
    | day h1 h2 h3 =>
      obtain ⟨h4, h5, rfl⟩ := monthDays_iff.1 h1
      exact ⟨⟨⟨h4, h5⟩, ⟨h2, by simp only; omega⟩⟩, by simp [Date.next, h3]⟩
    | month h1 h2 =>
      obtain ⟨h4, h5, rfl⟩ := monthDays_iff.1 h1
      refine ⟨⟨⟨h4, h5⟩, ⟨?_, by simp⟩⟩, by simp [Date.next, h2]⟩
      simp only [monthLength]
      repeat' split
      all_goals omega
    | year => exact ⟨⟨by simp, by simp [monthLength]⟩, by simp [Date.next, monthLength]⟩
  · rintro ⟨⟨h1, h2⟩, h⟩
    simp only at h1 h2
    unfold Date.next at h
    simp only at h
    split at h
    · cases h
      exact .day (monthDays_iff.2 ⟨h1.1, h1.2, rfl⟩) h2.1 (by assumption)
    · have hk : k = monthLength y m := by omega
      split at h
      · cases h
        exact .month (monthDays_iff.2 ⟨h1.1, h1.2, hk⟩) (by assumption)
      · cases h
        have hm : m = 12 := by omega
        subst hm
        have : k = 31 := by rw [hk]; simp [monthLength]
        subst this
        exact .year

private theorem monthDay_table : ∀ leap : Bool, ∀ m < 13, ∀ k < 32, (1 ≤ m ∧ 1 ≤ k ∧
    k ≤ (if m = 2 then (if leap = true then 29 else 28) else if m = 4 ∨ m = 6 ∨ m = 9 ∨ m = 11 then 30 else 31)) →
    monthDay leap (daysBefore.getD (m - 1) 0 + (if leap = true ∧ m > 2 then 1 else 0) + k - 1) = (m, k) ∧
    daysBefore.getD (m - 1) 0 + (if leap = true ∧ m > 2 then 1 else 0) + k - 1 < (if leap = true then 366 else 365) := by
  decide +kernel

theorem dateOfDays_daysOf {d : Date} (h : d.Valid) : dateOfDays (daysOf d) = d := by
  obtain ⟨y, m, k⟩ := d
  obtain ⟨hm, hd⟩ := h
  simp only at hm hd
  have hk : k < 32 := by
    have : monthLength y m ≤ 31 := by unfold monthLength; repeat' split
                                      all_goals omega
    omega
  obtain ⟨h1, h2⟩ := monthDay_table (isLeap y) m (by omega) k hk ⟨hm.1, hd.1, hd.2⟩
  have h3 : yearDay (daysOf ⟨y, m, k⟩ + 719162) = (y, daysBefore.getD (m - 1) 0 + (if isLeap y = true ∧ m > 2 then 1 else 0) + k - 1) := by
    refine yearDay_unique ?_ h2
    simp only [daysOf]
    split <;> omega
  simp only [dateOfDays, h3, h1]

theorem dayIs_iff {n : Int} {d : Date} : DayIs n (d.year, d.month, d.day) ↔ dateOfDays n = d := by
  constructor
  · intro h
    generalize hx : (d.year, d.month, d.day) = x at h
    induction h generalizing d with
    | epoch =>
      rw [dateOfDays_zero]
      obtain ⟨y, m, k⟩ := d
      cases hx
      rfl
    | @next n x x' h1 h2 ih =>
      subst hx
      have := ih (d := ⟨x.1, x.2.1, x.2.2⟩) rfl
      rw [dateOfDays_succ, this]
      exact ((nextDay_iff (d := ⟨x.1, x.2.1, x.2.2⟩)).1 h2).2.symm
    | @previous n x x' h1 h2 ih =>
      subst hx
      have := ih (d := ⟨x'.1, x'.2.1, x'.2.2⟩) rfl
      obtain ⟨hv, hn⟩ := (nextDay_iff (d := d) (d' := ⟨x'.1, x'.2.1, x'.2.2⟩)).1 h2
      rw [← dateOfDays_daysOf hv, ← dateOfDays_succ, ← this] at hn
      have := dateOfDays_injective hn
      rw [← dateOfDays_daysOf hv]
      congr 1
      omega
  · rintro rfl
    have hnext : ∀ n : Int, NextDay ((dateOfDays n).year, (dateOfDays n).month, (dateOfDays n).day)
        ((dateOfDays (n + 1)).year, (dateOfDays (n + 1)).month, (dateOfDays (n + 1)).day) :=
      fun n => nextDay_iff.2 ⟨dateOfDays_valid n, dateOfDays_succ n⟩
    have up : ∀ k : Nat, DayIs k ((dateOfDays k).year, (dateOfDays k).month, (dateOfDays k).day) := by
      intro k
      induction k with
      | zero => rw [Int.natCast_zero, dateOfDays_zero]; exact .epoch
      | succ k ih => rw [Int.natCast_succ]; exact .next ih (hnext _)
    have down : ∀ k : Nat, DayIs (-(k : Int)) ((dateOfDays (-(k : Int))).year, (dateOfDays (-(k : Int))).month, (dateOfDays (-(k : Int))).day) := by
      intro k
      induction k with
      | zero => exact up 0
      | succ k ih =>
        have h := hnext (-((k + 1 : Nat) : Int))
        have e : -((k + 1 : Nat) : Int) + 1 = -(k : Int) := by omega
        refine .previous ?_ h
        rw [e]
        exact ih
    rcases Int.eq_nat_or_neg n with ⟨k, rfl | rfl⟩
    · exact up k
    · exact down k

/-! ## Texts -/

theorem takeNum_iff {w lo hi n : Nat} {s r : Bytes} (hw : 0 < w) :
    takeNum w lo hi s = some (n, r) ↔ ∃ a, s = a ++ r ∧ Digits w a n ∧ lo ≤ n ∧ n ≤ hi := by
  unfold takeNum Digits
  constructor
  · intro h
    split at h
    · cases h
    · rename_i hl
      split at h
      · cases h
      · rename_i m hm
        split at h
        · rename_i hb
          simp only [Option.some.injEq, Prod.mk.injEq] at h
          obtain ⟨rfl, rfl⟩ := h
          refine ⟨s.take w, (List.take_append_drop w s).symm, ⟨(foldl_decimal ?_).1 hm, by simp; omega⟩, hb⟩
          intro h0
          have := congrArg List.length h0
          rw [List.length_take, List.length_nil] at this
          omega
        · cases h
  · rintro ⟨a, rfl, ⟨h1, rfl⟩, hb⟩
    rw [if_neg (by simp), List.take_left, (foldl_decimal (Decimal.ne_nil h1)).2 h1]
    simp [hb]

theorem takeByte_iff {c : UInt8} {s r : Bytes} : takeByte c s = some r ↔ s = c :: r := by
  cases s with
  | nil => simp [takeByte]
  | cons b t =>
    unfold takeByte
    split <;> simp_all

private theorem digits_cons {w : Nat} {a : Bytes} {n : Nat} (h : Digits w a n) (hw : 0 < w) : ∃ c t, a = c :: t ∧ IsDigit c := by
  obtain ⟨h1, h2⟩ := h
  cases a with
  | nil => simp at h2; omega
  | cons c t => exact ⟨c, t, rfl, Decimal.digits h1 c (by simp)⟩

theorem takeHour_sound {s r : Bytes} {h : Nat} (hh : takeHour s = some (h, r)) : ∃ a, s = a ++ r ∧ (Digits 1 a h ∨ Digits 2 a h) ∧ h ≤ 23 := by
  unfold takeHour at hh
  have one : takeNum 1 0 23 s = some (h, r) → ∃ a, s = a ++ r ∧ (Digits 1 a h ∨ Digits 2 a h) ∧ h ≤ 23 := by
    intro hh
    obtain ⟨a, h1, h2, -, h3⟩ := (takeNum_iff (by omega)).1 hh
    exact ⟨a, h1, .inl h2, h3⟩
  have two : takeNum 2 0 23 s = some (h, r) → ∃ a, s = a ++ r ∧ (Digits 1 a h ∨ Digits 2 a h) ∧ h ≤ 23 := by
    intro hh
    obtain ⟨a, h1, h2, -, h3⟩ := (takeNum_iff (by omega)).1 hh
    exact ⟨a, h1, .inr h2, h3⟩
  split at hh
  · split at hh
    · exact one hh
    · exact two hh
  · exact one hh

theorem takeHour_complete {a r : Bytes} {h : Nat} (hd : Digits 1 a h ∨ Digits 2 a h) (hh : h ≤ 23) : takeHour (a ++ 58 :: r) = some (h, 58 :: r) := by
  rcases hd with hd | hd
  · have hd' := hd
    obtain ⟨c, t, rfl, hc⟩ := digits_cons hd (by omega)
    obtain ⟨-, hl⟩ := hd'
    have : t = [] := by cases t <;> simp at hl ⊢
    subst this
    show takeHour (c :: 58 :: r) = _
    simp only [takeHour]
    rw [if_pos ⟨hc, by decide⟩]
    exact (takeNum_iff (by omega)).2 ⟨[c], rfl, hd, by omega, hh⟩
  · have hd' := hd
    obtain ⟨c, t, rfl, hc⟩ := digits_cons hd (by omega)
    obtain ⟨h1, hl⟩ := hd'
    obtain ⟨c', rfl⟩ : ∃ c', t = [c'] := by
      rcases t with _ | ⟨c', _ | ⟨_, _⟩⟩ <;> simp at hl ⊢
    have hc' : IsDigit c' := Decimal.digits h1 c' (by simp)
    show takeHour (c :: c' :: 58 :: r) = _
    simp only [takeHour]
    rw [if_neg (by simp [hc'])]
    exact (takeNum_iff (by omega)).2 ⟨[c, c'], rfl, hd, by omega, hh⟩

private theorem decimal_of_digits {s : Bytes} (hne : s ≠ []) (h : ∀ c ∈ s, IsDigit c) : ∃ n, Decimal s n := by
  induction s using List.reverseRecOn with
  | nil => exact absurd rfl hne
  | append_singleton s c ih =>
    have hc := h c (by simp)
    cases s with
    | nil => exact ⟨_, .digit hc.1 hc.2⟩
    | cons b s =>
      obtain ⟨n, hn⟩ := ih (by simp) (fun x hx => h x (by simp at hx ⊢; tauto))
      exact ⟨_, .snoc hn hc.1 hc.2⟩

theorem takeFrac_sound (s : Bytes) : ∃ F, s = F ++ (takeFrac s).2 ∧ FractionText F (takeFrac s).1 := by
  unfold takeFrac
  split
  · rename_i p t
    simp only
    split
    · rename_i hc
      simp only
      generalize hds : (t.takeWhile fun c => decide (IsDigit c)) = ds at hc
      have hdig : ∀ c ∈ ds, IsDigit c := by
        intro c hc'
        rw [← hds] at hc'
        simpa using List.mem_takeWhile_imp hc'
      obtain ⟨n, hn⟩ := decimal_of_digits (s := ds.take 9) (by cases ds <;> simp at hc ⊢) (fun c h => hdig c (List.mem_of_mem_take h))
      refine ⟨p :: (ds.take 9 ++ ds.drop 9), ?_, ?_⟩
      · rw [List.take_append_drop, ← hds, List.cons_append, List.takeWhile_append_dropWhile]
      · rw [(foldl_decimal (Decimal.ne_nil hn)).2 hn]
        refine .digits hc.1 hn (by simp; omega) (fun c h => hdig c (List.mem_of_mem_drop h)) ?_
        intro hne
        have : 9 < ds.length := by
          by_contra hlt
          exact hne (List.drop_eq_nil_of_le (by omega))
        simp; omega
    · exact ⟨[], rfl, .none⟩
  · exact ⟨[], rfl, .none⟩

private theorem zone_head {Z : Bytes} {z : Int} (h : ZoneText Z z) : ∃ c t, Z = c :: t ∧ ¬ IsDigit c ∧ c ≠ 46 ∧ c ≠ 44 := by
  cases h with
  | utc => exact ⟨90, [], rfl, by decide⟩
  | east => exact ⟨43, _, rfl, by decide⟩
  | west => exact ⟨45, _, rfl, by decide⟩

theorem takeFrac_complete {F Z : Bytes} {n : Nat} {z : Int} (hF : FractionText F n) (hZ : ZoneText Z z) : takeFrac (F ++ Z) = (n, Z) := by
  obtain ⟨c, t, rfl, hc, h46, h44⟩ := zone_head hZ
  cases hF with
  | none => simp [takeFrac, h46, h44]
  | @digits p a b n hp ha hl hb hfull =>
    have hne := Decimal.ne_nil ha
    have hdig : ∀ x ∈ a ++ b, decide (IsDigit x) = true := by
      intro x hx
      rcases List.mem_append.1 hx with hx | hx
      · simpa using Decimal.digits ha x hx
      · exact decide_eq_true (hb x hx)
    have h1 : ((a ++ b ++ c :: t).takeWhile fun c => decide (IsDigit c)) = a ++ b := by
      rw [List.takeWhile_append_of_pos hdig, List.takeWhile_cons_of_neg (by simpa using hc), List.append_nil]
    have h2 : ((a ++ b ++ c :: t).dropWhile fun c => decide (IsDigit c)) = c :: t := by
      rw [List.dropWhile_append_of_pos hdig, List.dropWhile_cons_of_neg (by simpa using hc)]
    have h3 : (a ++ b).take 9 = a := by
      cases b with
      | nil => rw [List.append_nil]; exact List.take_of_length_le hl
      | cons x b => rw [← hfull (by simp)]; exact List.take_left
    show takeFrac (p :: (a ++ b ++ c :: t)) = _
    simp only [takeFrac, h1, h2, h3]
    rw [if_pos ⟨hp, by simp [hne]⟩, (foldl_decimal hne).2 ha]
    rfl

theorem takeZone_iff {s : Bytes} {z : Int} : takeZone s = some z ↔ ZoneText s z := by
  constructor
  · intro h
    unfold takeZone at h
    split at h
    · cases h; exact .utc
    · rename_i c t _
      split at h
      · rename_i hc
        split at h
        · cases h
        · rename_i hh t1 e1
          obtain ⟨H, rfl, h1, -, h2⟩ := (takeNum_iff (by omega)).1 e1
          split at h
          · cases h
          · rename_i t2 e2
            have := takeByte_iff.1 e2
            subst this
            split at h
            · rename_i m e3
              obtain ⟨M, hM, h3, -, h4⟩ := (takeNum_iff (by omega)).1 e3
              rw [List.append_nil] at hM
              subst hM
              rcases hc with rfl | rfl
              · simp at h; subst h; exact .east h1 h2 h3 h4
              · simp at h; subst h; exact .west h1 h2 h3 h4
            · cases h
      · cases h
    · cases h
  · intro h
    cases h with
    | utc => rfl
    | @east H M h m h1 h2 h3 h4 =>
      rw [takeZone]
      swap
      · intro h; cases h
      rw [if_pos (.inl rfl), (takeNum_iff (r := 58 :: M) (by omega)).2 ⟨H, rfl, h1, by omega, h2⟩]
      simp only [takeByte_cons]
      rw [(takeNum_iff (r := []) (by omega)).2 ⟨M, (List.append_nil _).symm, h3, by omega, h4⟩]
      simp
    | @west H M h m h1 h2 h3 h4 =>
      rw [takeZone]
      swap
      · intro h; cases h
      rw [if_pos (.inr rfl), (takeNum_iff (r := 58 :: M) (by omega)).2 ⟨H, rfl, h1, by omega, h2⟩]
      simp only [takeByte_cons]
      rw [(takeNum_iff (r := []) (by omega)).2 ⟨M, (List.append_nil _).symm, h3, by omega, h4⟩]
      simp

private theorem digits_bound {w : Nat} {a : Bytes} {n : Nat} (h : Digits w a n) : n < 10 ^ w := by
  have := digits_lt ((foldl_decimal (Decimal.ne_nil h.1)).2 h.1)
  rw [h.2] at this
  omega

/-- Times are read exactly from the texts of the specification. -/
theorem parseRFC3339_iff {s : Bytes} {t : Stamp} : parseRFC3339 s = some t ↔ IsTimeText s t.ns t.zone := by
  constructor
  · intro h
    unfold parseRFC3339 at h
    iterate 11 (split at h; · cases h)
    simp only at h
    split at h
    · cases h
    rename_i y s1 hy _ s2 b1 _ mo s3 hmo _ s4 b2 _ d s5 hd _ s6 b3 _ hh s7 hhh _ s8 b4 _ mi s9 hmi _ s10 b5 _ se s11 hse _ zone hz
    cases h
    obtain ⟨Y, rfl, hY, -⟩ := (takeNum_iff (by omega)).1 hy
    rw [takeByte_iff] at b1; subst b1
    obtain ⟨Mo, rfl, hMo, hm⟩ := (takeNum_iff (by omega)).1 hmo
    rw [takeByte_iff] at b2; subst b2
    obtain ⟨D, rfl, hD, hdd⟩ := (takeNum_iff (by omega)).1 hd
    rw [takeByte_iff] at b3; subst b3
    obtain ⟨H, rfl, hH, hle⟩ := takeHour_sound hhh
    rw [takeByte_iff] at b4; subst b4
    obtain ⟨Mi, rfl, hMi, -, hmi'⟩ := (takeNum_iff (by omega)).1 hmi
    rw [takeByte_iff] at b5; subst b5
    obtain ⟨S, rfl, hS, -, hse'⟩ := (takeNum_iff (by omega)).1 hse
    obtain ⟨F, hs, hF⟩ := takeFrac_sound s11
    refine ⟨Y, Mo, D, H, Mi, S, F, (takeFrac s11).2, y, mo, d, hh, mi, se, (takeFrac s11).1, daysOf ⟨y, mo, d⟩, ?_, hY, hMo, hD, hH, hle, hMi, hmi', hS, hse', hF,
      takeZone_iff.1 hz, ?_, ?_⟩
    · rw [← hs]
    · exact (dayIs_iff (d := ⟨y, mo, d⟩)).2 (dateOfDays_daysOf ⟨hm, hdd⟩)
    · simp only [nsPerDay, nsPerMinute]; omega
  · rintro ⟨Y, Mo, D, H, Mi, S, F, Z, y, mo, d, h, mi, se, nano, n, rfl, hY, hMo, hD, hH, hle, hMi, hmi', hS, hse', hF, hZ, hday, hns⟩
    have hday := (dayIs_iff (d := ⟨y, mo, d⟩)).1 hday
    have hv := dateOfDays_valid n
    rw [hday] at hv
    unfold parseRFC3339
    rw [(takeNum_iff (by omega)).2 ⟨Y, rfl, hY, by omega, by have := digits_bound hY; omega⟩]
    simp only [takeByte_cons]
    rw [(takeNum_iff (by omega)).2 ⟨Mo, rfl, hMo, hv.month⟩]
    simp only [takeByte_cons]
    rw [(takeNum_iff (by omega)).2 ⟨D, rfl, hD, hv.day⟩]
    simp only [takeByte_cons]
    rw [takeHour_complete hH hle]
    simp only [takeByte_cons]
    rw [(takeNum_iff (by omega)).2 ⟨Mi, rfl, hMi, by omega, hmi'⟩]
    simp only [takeByte_cons]
    rw [(takeNum_iff (by omega)).2 ⟨S, rfl, hS, by omega, hse'⟩]
    simp only [takeFrac_complete hF hZ, takeZone_iff.2 hZ]
    obtain ⟨ns, z⟩ := t
    simp only at hns ⊢
    rw [← hday, daysOf_dateOfDays]
    simp only [nsPerDay, nsPerMinute, Option.some.injEq, Stamp.mk.injEq, and_true]
    omega

end Verif.Go
