import Verif.Lemmas.Client.Dates
import Mathlib.Data.Rat.Floor

/-! # C104: dates and times of the client -/

namespace Gridpp.Props
open Res Spec Client

/-- **C104** (date), partial: only for times from 1970 on (`c104_date_false`). The date of a time is the date as many days after 1 January
1970 as whole days have passed. -/
theorem c104_date_partial {D : CalDate} {k : Nat} {t : Int} (h0 : 86400 * k ≤ t) (h1 : t < 86400 * (k + 1)) (hD : DaysLater unixEpoch k D)
    (hv : D.Valid) (hy : D.year ≤ 9999) : getDate t = ok D.number := by
  have ht : 0 ≤ t := by omega
  have hj := jdn_later epoch_valid hv hD
  refine getDate_eq hv ?_ hy ?_
  · have : (1970 : Int) ≤ D.year := year_le_of_jdn epoch_valid hv (by rw [hj]; omega)
    omega
  · rw [hj, tdiv_nonneg_eq ht]
    omega

/-- What `getDate` gives before 1970: the number of days is cut towards zero, so that the time belongs to the day *after* the date in
question unless it is midnight. -/
theorem c104_date_before {D : CalDate} {k : Nat} {t : Int} (h0 : -(86400 * (k + 1)) < t) (h1 : t ≤ -(86400 * k)) (hD : DaysLater unixEpoch (-k) D)
    (hv : D.Valid) (hy : 1400 ≤ D.year) : getDate t = ok D.number := by
  have hj := jdn_later epoch_valid hv hD
  refine getDate_eq hv hy ?_ ?_
  · have : D.year ≤ (1970 : Int) := year_le_of_jdn hv epoch_valid (by rw [hj]; omega)
    omega
  · rw [hj]
    have : t.tdiv 86400 = -((-t).tdiv 86400) := by rw [Int.neg_tdiv]; ring
    rw [this, tdiv_nonneg_eq (by omega)]
    omega

/-- C104 is false before 1970: one second before midnight of 1 January 1970 is given the date 1 January 1970. -/
theorem c104_date_false : ∃ t D, DaysLater unixEpoch (-1) D ∧ D.Valid ∧ -86400 ≤ t ∧ t < 0 ∧ getDate t = ok unixEpoch.number ∧ D ≠ unixEpoch :=
  ⟨-1, ⟨1969, 12, 31⟩, Or.inr ⟨1, by decide, by decide⟩, ⟨by decide, by decide, by decide, by decide⟩, by decide, by decide, by decide +kernel, by decide⟩

/-- **C104** (time). The time of the day, as HHMMSS. -/
theorem c104_time {t : Int} (ht : 0 ≤ t) : ∃ hh mm ss : Int, 0 ≤ hh ∧ hh < 24 ∧ 0 ≤ mm ∧ mm < 60 ∧ 0 ≤ ss ∧ ss < 60 ∧
    t % 86400 = 3600 * hh + 60 * mm + ss ∧ getTime t = hh * 10000 + mm * 100 + ss := getTime_parts ht

/-- **C104** (unix time). The unix time of a date and a time; a negative time is subtracted. -/
theorem c104_unix {D : CalDate} {k hh mm ss : Int} (hv : D.Valid) (hy : 1400 ≤ D.year) (hy' : D.year ≤ 9999) (hk : DaysLater unixEpoch k D)
    (h0 : 0 ≤ hh) (m0 : 0 ≤ mm) (m1 : mm ≤ 99) (s0 : 0 ≤ ss) (s1 : ss ≤ 99) :
    getUnixTime D.number (hh * 10000 + mm * 100 + ss) = ok (86400 * k + (3600 * hh + 60 * mm + ss)) ∧
      getUnixTime D.number (-(hh * 10000 + mm * 100 + ss)) = ok (86400 * k - (3600 * hh + 60 * mm + ss)) := by
  have hj := jdn_later epoch_valid hv hk
  obtain ⟨p1, p2, p3⟩ := seconds_parts h0 m0 m1 s0 s1
  rw [getUnixTime_eq hv hy hy', getUnixTime_eq hv hy hy']
  simp only [Int.neg_tdiv, Int.neg_tmod, p1, p2, p3, hj, ok.injEq]
  constructor <;> ring

/-- **C104** (every date). Any two dates from the years 1400 to 9999 are a number of days apart, and only one. -/
theorem c104_days {D D' : CalDate} (h : D.Valid) (h' : D'.Valid) (hy : 1400 ≤ D.year) (hy' : D.year ≤ 9999) (hz : 1400 ≤ D'.year)
    (hz' : D'.year ≤ 9999) : ∃ k, DaysLater D k D' ∧ ∀ k', DaysLater D k' D' → k' = k := by
  refine ⟨_, later_of_jdn h h' hy hy' hz hz', fun k' hk' => ?_⟩
  have := jdn_later h h' hk'
  omega

/-- **C104** (there and back). Date and time of a time from 1400 to 9999, also before 1970, give that time again. -/
theorem c104_back {t : Int} (h0 : -17987443200 ≤ t) (h1 : t ≤ 253402300799) : ∃ d, getDate t = ok d ∧ getUnixTime d (getTime t) = ok t := by
  have e1 : jdn ⟨1400, 1, 1⟩ = jdn unixEpoch - 208188 := by decide
  have e2 : jdn ⟨9999, 12, 31⟩ = jdn unixEpoch + 2932896 := by decide
  have hq : -208188 ≤ t.tdiv 86400 ∧ t.tdiv 86400 ≤ 2932896 := by
    by_cases ht : 0 ≤ t
    · rw [tdiv_nonneg_eq ht]; omega
    · have : t.tdiv 86400 = -((-t).tdiv 86400) := by rw [Int.neg_tdiv]; ring
      rw [this, tdiv_nonneg_eq (by omega)]
      omega
  obtain ⟨D, hv, hy, hy', hj⟩ := date_exists (n := jdn unixEpoch + t.tdiv 86400) (by omega) (by omega)
  refine ⟨_, getDate_eq hv hy hy' hj, ?_⟩
  rw [getUnixTime_eq hv hy hy', getTime_seconds, hj, ok.injEq]
  have := Int.mul_tdiv_add_tmod t 86400
  linarith

/-- **C104** (adding hours). `calcDate` gives the date as many days later as whole days fit in the hours, rounded down. -/
theorem c104_calc {K : Type} [Field K] [LinearOrder K] [IsStrictOrderedRing K] [FloorRing K] {D D' : CalDate} {k : Int} {q : K} (hv : D.Valid)
    (hy : 1400 ≤ D.year) (hy' : D.year ≤ 9999) (hv' : D'.Valid) (hz : 1400 ≤ D'.year) (hz' : D'.year ≤ 9999) (hk : DaysLater D k D')
    (h0 : 24 * (k : K) ≤ q) (h1 : q < 24 * (k + 1)) : calcDate D.number (Fl.fin q) = ok D'.number := by
  obtain ⟨p1, _, p3, p4⟩ := number_parts hv (by omega)
  have hf : Fl.floorInt (Fl.fin q / Fl.ofNat 24 : Fl K) = ok k := by
    have : (Fl.fin q / Fl.ofNat 24 : Fl K) = Fl.fin (q / 24) := by
      rw [Fl.ofNat_def, Fl.fin_div_of_ne] <;> norm_num
    rw [this]
    unfold Fl.floorInt
    rw [ok.injEq, Int.floor_eq_iff]
    constructor
    · rw [le_div_iff₀ (by norm_num)]; linarith
    · rw [div_lt_iff₀ (by norm_num)]; linarith
  unfold calcDate
  simp only [p1, p3, p4, hf, makeDate_valid hv hy hy', ok_bind]
  rw [← jdn_later hv hv' hk, fromDayNumber_jdn hv' hz hz']
  rfl

/-- **C104** (dates that do not exist). A number YYYYMMDD that is no date from 1400 on is refused. -/
theorem c104_invalid {D : CalDate} (hv : ¬ (D.Valid ∧ 1400 ≤ D.year)) (hy : D.year ≤ 9999) (hy0 : 0 ≤ D.year) (hm : 0 ≤ D.month)
    (hm' : D.month ≤ 99) (hd : 0 ≤ D.day) (hd' : D.day ≤ 99) (time : Int) : getUnixTime D.number time = .throw .logicError := by
  have h0 : 0 ≤ D.number := by unfold CalDate.number; omega
  have p1 : D.number.tdiv 10000 = D.year := by
    rw [tdiv_nonneg_eq h0]; unfold CalDate.number; omega
  have p2 : (D.number.tdiv 100).tmod 100 = D.month := by
    rw [tdiv_nonneg_eq h0, tmod_nonneg_eq (by omega)]; unfold CalDate.number; omega
  have p3 : D.number.tmod 100 = D.day := by
    rw [tmod_nonneg_eq h0]; unfold CalDate.number; omega
  unfold getUnixTime
  simp only [p1, p2, p3, makeDate_invalid hv hy hy0 hm hm' hd hd', throw_bind]

/-! Cases that meet the hypotheses. -/

example : getDate 1456704000 = ok 20160229 := by decide +kernel
example : getTime 1456704000 = 0 ∧ getTime 1456750861 = 130101 := by decide +kernel
example : getUnixTime 20160229 130101 = ok 1456750861 := by decide +kernel
example : getUnixTime 20150229 0 = .throw .logicError := by decide +kernel
example : calcDate 20151231 (Fl.fin (49 : ℚ)) = ok 20160102 := by decide +kernel
example : (⟨2016, 2, 29⟩ : CalDate).Valid := ⟨by decide, by decide, by decide, by decide⟩
example : DaysLater ⟨2015, 12, 31⟩ 2 ⟨2016, 1, 2⟩ := Or.inl ⟨2, by decide, by decide⟩

end Gridpp.Props
