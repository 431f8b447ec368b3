import Verif.Model.Client.Dates
import Verif.Spec.Calendar

/-! # Lemmas about dates -/

namespace Gridpp.Client
open Res Spec

theorem endOfMonth_eq (y m : Int) : endOfMonth y m = monthDays y m := by
  unfold endOfMonth monthDays
  have : isLeapYear y = true ↔ Leap y := by
    unfold isLeapYear Leap
    simp
  by_cases h : Leap y
  · rw [this.2 h]; simp [h]
  · have h' : isLeapYear y = false := by rw [Bool.eq_false_iff]; exact fun e => h (this.1 e)
    rw [h']; simp [h]

theorem monthDays_le (y m : Int) : monthDays y m ≤ 31 ∧ 28 ≤ monthDays y m := by
  unfold monthDays
  split_ifs <;> omega

/-- Day number of a date. -/
def jdn (D : CalDate) : Int := dayNumber D.year D.month D.day

theorem valid_next {D : CalDate} (h : D.Valid) : D.next.Valid := by
  obtain ⟨h1, h2, h3, h4⟩ := h
  unfold CalDate.next
  split_ifs with ha hb
  · exact ⟨h1, h2, by dsimp only; omega, by dsimp only; omega⟩
  · exact ⟨by dsimp only; omega, by dsimp only; omega, by dsimp only; omega, by have := monthDays_le D.year (D.month + 1); dsimp only; omega⟩
  · exact ⟨by dsimp only; omega, by dsimp only; omega, by dsimp only; omega, by have := monthDays_le (D.year + 1) 1; dsimp only; omega⟩

theorem jdn_next {D : CalDate} (h : D.Valid) : jdn D.next = jdn D + 1 := by
  obtain ⟨y, m, d⟩ := D
  obtain ⟨h1, h2, h3, h4⟩ := h
  simp only at h1 h2 h3 h4
  unfold CalDate.next
  simp only
  split_ifs with ha hb
  · unfold jdn dayNumber; simp only; omega
  · have hm : m = 1 ∨ m = 2 ∨ m = 3 ∨ m = 4 ∨ m = 5 ∨ m = 6 ∨ m = 7 ∨ m = 8 ∨ m = 9 ∨ m = 10 ∨ m = 11 := by omega
    unfold jdn dayNumber monthDays Leap at *
    rcases hm with rfl | rfl | rfl | rfl | rfl | rfl | rfl | rfl | rfl | rfl | rfl <;> norm_num at ha h4 ⊢ <;> (try split_ifs at ha h4) <;> omega
  · have hm : m = 12 := by omega
    subst hm
    unfold jdn dayNumber monthDays at *
    norm_num at ha h4 ⊢
    omega

theorem jdn_iterate {D : CalDate} (h : D.Valid) (n : Nat) : (CalDate.next^[n] D).Valid ∧ jdn (CalDate.next^[n] D) = jdn D + n := by
  induction n with
  | zero => simp [h]
  | succ n ih =>
    rw [Function.iterate_succ_apply']
    refine ⟨valid_next ih.1, ?_⟩
    rw [jdn_next ih.1, ih.2]
    push_cast
    omega

/-- The year that starts in March (`Y`), its month (`M`) and the day in it (`e`). -/
theorem march_day {y m d Y M e : Int} (h1 : 1 ≤ m) (h2 : m ≤ 12) (h3 : 1 ≤ d) (h4 : d ≤ monthDays y m)
    (hYM : (m ≤ 2 ∧ Y = y + 4799 ∧ M = m + 9) ∨ (3 ≤ m ∧ Y = y + 4800 ∧ M = m - 3)) (he : e = d - 1 + (153 * M + 2) / 5) :
    0 ≤ e ∧ (5 * e + 2) / 153 = M ∧ e ≤ 365 ∧ (e = 365 → Y % 4 = 3 ∧ (Y % 100 = 99 → Y % 400 = 399)) := by
  unfold monthDays Leap at h4
  rcases hYM with ⟨hm, rfl, rfl⟩ | ⟨hm, rfl, rfl⟩
  · have : m = 1 ∨ m = 2 := by omega
    rcases this with rfl | rfl <;> norm_num at he h4 ⊢ <;> (try split_ifs at h4) <;> omega
  · have : m = 3 ∨ m = 4 ∨ m = 5 ∨ m = 6 ∨ m = 7 ∨ m = 8 ∨ m = 9 ∨ m = 10 ∨ m = 11 ∨ m = 12 := by omega
    rcases this with rfl | rfl | rfl | rfl | rfl | rfl | rfl | rfl | rfl | rfl <;> norm_num at he h4 ⊢ <;> omega

theorem jdn_march {y m d Y M e : Int} (h1 : 1 ≤ m) (h2 : m ≤ 12)
    (hYM : (m ≤ 2 ∧ Y = y + 4799 ∧ M = m + 9) ∨ (3 ≤ m ∧ Y = y + 4800 ∧ M = m - 3)) (he : e = d - 1 + (153 * M + 2) / 5) :
    dayNumber y m d = e + 365 * Y + Y / 4 - Y / 100 + Y / 400 - 32044 := by
  unfold dayNumber
  rcases hYM with ⟨hm, rfl, rfl⟩ | ⟨hm, rfl, rfl⟩
  · have : (14 - m) / 12 = 1 := by omega
    simp only [this]
    subst he
    ring_nf
  · have : (14 - m) / 12 = 0 := by omega
    simp only [this]
    subst he
    ring_nf

theorem century_number {e X B : Int} : e + 365 * (100 * B + X) + (100 * B + X) / 4 - (100 * B + X) / 100 + (100 * B + X) / 400 - 32044 + 32044 =
    e + 365 * X + X / 4 + (36524 * B + B / 4) + (X / 100 - X / 100) ∨ X < 0 ∨ 99 < X := by
  by_cases h : X < 0 ∨ 99 < X
  · exact Or.inr h
  · left
    have k1 : (100 * B + X) / 100 = B := by omega
    have k2 : (100 * B + X) / 400 = B / 4 := by omega
    have k3 : (100 * B + X) / 4 = 25 * B + X / 4 := by omega
    rw [k1, k2, k3]
    ring

theorem fromDay_century {e X B : Int} (hX0 : 0 ≤ X) (hX1 : X ≤ 99) (he0 : 0 ≤ e) (he1 : e ≤ 365)
    (k5 : e = 365 → X % 4 = 3 ∧ (X = 99 → B % 4 = 3)) :
    (4 * (e + 365 * X + X / 4 + (36524 * B + B / 4)) + 3) / 146097 = B := by
  omega

theorem fromDay_year {e X B : Int} (he0 : 0 ≤ e) (he1 : e ≤ 365)
    (k5 : e = 365 → X % 4 = 3 ∧ (X = 99 → B % 4 = 3)) : (4 * (e + 365 * X + X / 4) + 3) / 1461 = X := by
  omega

theorem fromDay_number {e X B M y : Int} (hX0 : 0 ≤ X) (hX1 : X ≤ 99) (he0 : 0 ≤ e) (he1 : e ≤ 365)
    (k5 : e = 365 → X % 4 = 3 ∧ (X = 99 → B % 4 = 3)) (hM : (5 * e + 2) / 153 = M)
    (hy : (100 * B + X - 4800 + (M / 10)) % 65536 = y) (h1 : 1400 ≤ y) (h2 : y ≤ 9999) {n : Int}
    (hn : n + 32044 = e + 365 * X + X / 4 + (36524 * B + B / 4)) :
    fromDayNumber n = ok (y, M + 3 - 12 * (M / 10), e - (153 * M + 2) / 5 + 1) := by
  have k4 : (146097 * B) / 4 = 36524 * B + B / 4 := by clear * -; omega
  have hee : e + 365 * X + X / 4 - (1461 * X) / 4 = e := by clear * -; omega
  have hc : e + 365 * X + X / 4 + (36524 * B + B / 4) - (36524 * B + B / 4) = e + 365 * X + X / 4 := by ring
  unfold fromDayNumber
  simp only [hn, fromDay_century hX0 hX1 he0 he1 k5, k4, hc, fromDay_year he0 he1 k5, hee, hM, hy]
  rw [if_neg (by omega)]

theorem fromDayNumber_jdn {D : CalDate} (h : D.Valid) (hy : 1400 ≤ D.year) (hy' : D.year ≤ 9999) :
    fromDayNumber (jdn D) = ok (D.year, D.month, D.day) := by
  obtain ⟨y, m, d⟩ := D
  obtain ⟨h1, h2, h3, h4⟩ := h
  simp only at h1 h2 h3 h4 hy hy'
  obtain ⟨Y, M, hYM⟩ : ∃ Y M : Int, (m ≤ 2 ∧ Y = y + 4799 ∧ M = m + 9) ∨ (3 ≤ m ∧ Y = y + 4800 ∧ M = m - 3) := by
    by_cases hm : m ≤ 2
    · exact ⟨_, _, Or.inl ⟨hm, rfl, rfl⟩⟩
    · exact ⟨_, _, Or.inr ⟨by omega, rfl, rfl⟩⟩
  obtain ⟨e, he⟩ : ∃ e : Int, e = d - 1 + (153 * M + 2) / 5 := ⟨_, rfl⟩
  obtain ⟨he0, hM, he1, he2⟩ := march_day h1 h2 h3 h4 hYM he
  obtain ⟨B, X, hBX, hX0, hX1⟩ : ∃ B X : Int, Y = 100 * B + X ∧ 0 ≤ X ∧ X ≤ 99 :=
    ⟨Y / 100, Y % 100, by clear * -; omega, by clear * -; omega, by clear * -; omega⟩
  have k5 : e = 365 → X % 4 = 3 ∧ (X = 99 → B % 4 = 3) := by
    intro h365
    have := he2 h365
    clear * - hBX hX0 hX1 this
    omega
  have hn : jdn ⟨y, m, d⟩ + 32044 = e + 365 * X + X / 4 + (36524 * B + B / 4) := by
    unfold jdn
    simp only
    rw [jdn_march h1 h2 hYM he, hBX]
    rcases century_number (e := e) (X := X) (B := B) with h | h
    · rw [h]; ring
    · omega
  have hyear : (100 * B + X - 4800 + (M / 10)) % 65536 = y := by
    rw [← hBX]
    clear * - hYM hy hy' h1 h2
    omega
  rw [fromDay_number hX0 hX1 he0 he1 k5 hM hyear hy hy' hn]
  have hmonth : M + 3 - 12 * (M / 10) = m := by
    clear * - hYM h1 h2
    omega
  have hday : e - (153 * M + 2) / 5 + 1 = d := by rw [he]; ring
  rw [hmonth, hday]

theorem makeDate_valid {D : CalDate} (h : D.Valid) (hy : 1400 ≤ D.year) (hy' : D.year ≤ 9999) :
    makeDate D.year D.month D.day = ok (jdn D) := by
  obtain ⟨h1, h2, h3, h4⟩ := h
  have h5 := monthDays_le D.year D.month
  unfold makeDate
  simp only [show D.year % 65536 = D.year by omega, show D.month % 65536 = D.month by omega, show D.day % 65536 = D.day by omega]
  rw [if_neg (by omega), endOfMonth_eq, if_neg (by omega)]
  rfl

theorem makeDate_invalid {D : CalDate} (hv : ¬ (D.Valid ∧ 1400 ≤ D.year)) (hy : D.year ≤ 9999) (hy0 : 0 ≤ D.year) (hm : 0 ≤ D.month)
    (hm' : D.month ≤ 99) (hd : 0 ≤ D.day) (hd' : D.day ≤ 99) : makeDate D.year D.month D.day = .throw .logicError := by
  unfold makeDate
  simp only [show D.year % 65536 = D.year by omega, show D.month % 65536 = D.month by omega, show D.day % 65536 = D.day by omega]
  by_cases h : D.year < 1400 ∨ 9999 < D.year ∨ D.month < 1 ∨ 12 < D.month ∨ D.day < 1 ∨ 31 < D.day
  · rw [if_pos h]
  · rw [if_neg h, endOfMonth_eq]
    by_cases h4 : monthDays D.year D.month < D.day
    · rw [if_pos h4]
    · exact absurd ⟨⟨by omega, by omega, by omega, by omega⟩, by omega⟩ hv

theorem epoch_valid : unixEpoch.Valid := ⟨by decide, by decide, by decide, by decide⟩

theorem makeDate_epoch : makeDate 1970 1 1 = ok (jdn unixEpoch) := makeDate_valid epoch_valid (by decide) (by decide)

theorem jdn_later {D D' : CalDate} {k : Int} (h : D.Valid) (h' : D'.Valid) (hk : DaysLater D k D') : jdn D' = jdn D + k := by
  rcases hk with ⟨n, rfl, rfl⟩ | ⟨n, rfl, rfl⟩
  · exact (jdn_iterate h n).2
  · rw [(jdn_iterate h' n).2]; omega

theorem tdiv_nonneg_eq {a b : Int} (h : 0 ≤ a) : a.tdiv b = a / b := Int.tdiv_eq_ediv_of_nonneg h
theorem tmod_nonneg_eq {a b : Int} (h : 0 ≤ a) : a.tmod b = a % b := Int.tmod_eq_emod_of_nonneg h

theorem number_parts {D : CalDate} (h : D.Valid) (hy : 0 ≤ D.year) : D.number.tdiv 10000 = D.year ∧
    (D.number.tdiv 100).tmod 100 = D.month ∧ D.number.tmod 100 = D.day ∧ (D.number.tmod 10000).tdiv 100 = D.month := by
  obtain ⟨h1, h2, h3, h4⟩ := h
  have h5 := (monthDays_le D.year D.month).1
  have h0 : 0 ≤ D.number := by unfold CalDate.number; omega
  rw [tdiv_nonneg_eq h0, tdiv_nonneg_eq h0, tmod_nonneg_eq h0, tmod_nonneg_eq h0, tmod_nonneg_eq (by omega), tdiv_nonneg_eq (by omega)]
  unfold CalDate.number
  clear h0
  refine ⟨?_, ?_, ?_, ?_⟩ <;> omega

theorem year_bounds {D : CalDate} (h : D.Valid) : dayNumber D.year 1 1 ≤ jdn D ∧ jdn D < dayNumber (D.year + 1) 1 1 := by
  obtain ⟨y, m, d⟩ := D
  obtain ⟨h1, h2, h3, h4⟩ := h
  simp only at h1 h2 h3 h4
  have hm : m = 1 ∨ m = 2 ∨ m = 3 ∨ m = 4 ∨ m = 5 ∨ m = 6 ∨ m = 7 ∨ m = 8 ∨ m = 9 ∨ m = 10 ∨ m = 11 ∨ m = 12 := by omega
  unfold jdn dayNumber monthDays Leap at *
  rcases hm with rfl | rfl | rfl | rfl | rfl | rfl | rfl | rfl | rfl | rfl | rfl | rfl <;> norm_num at h4 ⊢ <;> (try split_ifs at h4) <;> omega

theorem newYear_mono {y y' : Int} (h : y ≤ y') : dayNumber y 1 1 ≤ dayNumber y' 1 1 := by
  unfold dayNumber
  norm_num
  omega

theorem year_le_of_jdn {D D' : CalDate} (h : D.Valid) (h' : D'.Valid) (hj : jdn D ≤ jdn D') : D.year ≤ D'.year := by
  by_contra hlt
  have h1 := (year_bounds h).1
  have h2 := (year_bounds h').2
  have h3 := newYear_mono (y := D'.year + 1) (y' := D.year) (by omega)
  omega

theorem jdn_inj {D D' : CalDate} (h : D.Valid) (h' : D'.Valid) (hy : 1400 ≤ D.year) (hy' : D.year ≤ 9999) (hj : jdn D = jdn D') : D = D' := by
  have h1 := year_le_of_jdn h h' hj.le
  have h2 := year_le_of_jdn h' h hj.ge
  have e1 := fromDayNumber_jdn h hy hy'
  have e2 := fromDayNumber_jdn h' (by omega) (by omega)
  rw [hj, e2] at e1
  simp only [ok.injEq, Prod.mk.injEq] at e1
  obtain ⟨y, m, d⟩ := D
  obtain ⟨y', m', d'⟩ := D'
  simp only at e1
  simp [e1]

theorem later_of_jdn {D D' : CalDate} (h : D.Valid) (h' : D'.Valid) (hy : 1400 ≤ D.year) (hy' : D.year ≤ 9999) (hz : 1400 ≤ D'.year)
    (hz' : D'.year ≤ 9999) : DaysLater D (jdn D' - jdn D) D' := by
  by_cases hk : 0 ≤ jdn D' - jdn D
  · obtain ⟨n, hn⟩ := Int.eq_ofNat_of_zero_le hk
    obtain ⟨h1, h2⟩ := jdn_iterate h n
    exact Or.inl ⟨n, hn, (jdn_inj h' h1 hz hz' (by rw [h2]; omega)).symm⟩
  · obtain ⟨n, hn⟩ := Int.eq_ofNat_of_zero_le (a := jdn D - jdn D') (by omega)
    obtain ⟨h1, h2⟩ := jdn_iterate h' n
    exact Or.inr ⟨n, by omega, (jdn_inj h h1 hy hy' (by rw [h2]; omega)).symm⟩

theorem date_exists {n : Int} (h1 : jdn ⟨1400, 1, 1⟩ ≤ n) (h2 : n ≤ jdn ⟨9999, 12, 31⟩) : ∃ D : CalDate, D.Valid ∧ 1400 ≤ D.year ∧ D.year ≤ 9999 ∧ jdn D = n := by
  have hv : (⟨1400, 1, 1⟩ : CalDate).Valid := ⟨by decide, by decide, by decide, by decide⟩
  have hw : (⟨9999, 12, 31⟩ : CalDate).Valid := ⟨by decide, by decide, by decide, by decide⟩
  obtain ⟨k, hk⟩ := Int.eq_ofNat_of_zero_le (a := n - jdn ⟨1400, 1, 1⟩) (by omega)
  obtain ⟨h3, h4⟩ := jdn_iterate hv k
  have h5 : jdn (CalDate.next^[k] ⟨1400, 1, 1⟩) = n := by rw [h4]; omega
  exact ⟨_, h3, year_le_of_jdn hv h3 (by rw [h5]; exact h1), year_le_of_jdn h3 hw (by rw [h5]; exact h2), h5⟩

theorem getDate_eq {D : CalDate} {t : Int} (h : D.Valid) (hy : 1400 ≤ D.year) (hy' : D.year ≤ 9999) (ht : jdn D = jdn unixEpoch + t.tdiv 86400) :
    getDate t = ok D.number := by
  unfold getDate
  rw [makeDate_epoch, ok_bind, ← ht, fromDayNumber_jdn h hy hy', ok_bind]
  rfl

theorem getTime_neg (t : Int) : getTime (-t) = -getTime t := by
  unfold getTime
  simp only [Int.neg_tmod, Int.neg_tdiv]
  ring

theorem getTime_parts {t : Int} (h : 0 ≤ t) : ∃ hh mm ss : Int, 0 ≤ hh ∧ hh < 24 ∧ 0 ≤ mm ∧ mm < 60 ∧ 0 ≤ ss ∧ ss < 60 ∧
    t % 86400 = 3600 * hh + 60 * mm + ss ∧ getTime t = hh * 10000 + mm * 100 + ss := by
  have h0 : 0 ≤ t % 86400 := by omega
  have h1 : 0 ≤ t % 86400 / 60 := by omega
  refine ⟨t % 86400 / 3600, (t % 86400 / 60) % 60, t % 86400 % 60, by omega, by omega, by omega, by omega, by omega, by omega, by omega, ?_⟩
  unfold getTime
  simp only [tmod_nonneg_eq h, tdiv_nonneg_eq h0, tmod_nonneg_eq h0, tmod_nonneg_eq h1]

/-- Seconds of a time HHMMSS as `getUnixTime` reads them. -/
theorem seconds_parts {hh mm ss : Int} (h0 : 0 ≤ hh) (m0 : 0 ≤ mm) (m1 : mm ≤ 99) (s0 : 0 ≤ ss) (s1 : ss ≤ 99) :
    (hh * 10000 + mm * 100 + ss).tdiv 10000 = hh ∧ ((hh * 10000 + mm * 100 + ss).tdiv 100).tmod 100 = mm ∧
      (hh * 10000 + mm * 100 + ss).tmod 100 = ss := by
  have h : 0 ≤ hh * 10000 + mm * 100 + ss := by omega
  have h' : 0 ≤ (hh * 10000 + mm * 100 + ss) / 100 := by omega
  rw [tdiv_nonneg_eq h, tdiv_nonneg_eq h, tmod_nonneg_eq h, tmod_nonneg_eq h']
  clear h h'
  refine ⟨?_, ?_, ?_⟩ <;> omega

theorem getUnixTime_eq {D : CalDate} (h : D.Valid) (hy : 1400 ≤ D.year) (hy' : D.year ≤ 9999) (time : Int) :
    getUnixTime D.number time = ok ((jdn D - jdn unixEpoch) * 86400 + (time.tdiv 10000 * 3600 + (time.tdiv 100).tmod 100 * 60 + time.tmod 100)) := by
  obtain ⟨p1, p2, p3, _⟩ := number_parts h (by omega)
  unfold getUnixTime
  simp only [p1, p2, p3, makeDate_valid h hy hy', makeDate_epoch, ok_bind]

theorem getTime_seconds (t : Int) :
    (getTime t).tdiv 10000 * 3600 + ((getTime t).tdiv 100).tmod 100 * 60 + (getTime t).tmod 100 = t.tmod 86400 := by
  have key : ∀ t : Int, 0 ≤ t → (getTime t).tdiv 10000 * 3600 + ((getTime t).tdiv 100).tmod 100 * 60 + (getTime t).tmod 100 = t.tmod 86400 := by
    intro t ht
    obtain ⟨hh, mm, ss, h1, h2, h3, h4, h5, h6, h7, h8⟩ := getTime_parts ht
    obtain ⟨p1, p2, p3⟩ := seconds_parts h1 h3 (by omega) h5 (by omega)
    rw [h8, p1, p2, p3, tmod_nonneg_eq ht, h7]
    ring
  by_cases ht : 0 ≤ t
  · exact key t ht
  · have := key (-t) (by omega)
    rw [getTime_neg, Int.neg_tmod] at this
    simp only [Int.neg_tdiv, Int.neg_tmod] at this
    omega

end Gridpp.Client
