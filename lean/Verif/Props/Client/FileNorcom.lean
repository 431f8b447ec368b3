import Verif.Model.Client.FileNorcom
import Verif.Spec.FileNorcom
import Verif.Props.Client.FileTextWrite
import Verif.Props.Client.Dates

/-! # C144: messages with the lowest pressure -/

set_option linter.unusedSectionVars false

namespace Gridpp.Props
open Fl hiding MV isValid
open Res Client Spec

theorem decimal_append (a b : List Char) : decimal (a ++ b) = decimal a * 10 ^ b.length + decimal b := by
  unfold decimal
  rw [List.reverse_append, List.map_append, Nat.ofDigits_append]
  simp
  ring

theorem decimal_lt {s : List Char} (h : ∀ c ∈ s, Digit c) : decimal s < 10 ^ s.length := by
  unfold decimal
  have := Nat.ofDigits_lt_base_pow_length (b := 10) (l := s.reverse.map fun c => c.toNat - '0'.toNat) (by omega) (by
    intro x hx
    obtain ⟨c, hc, rfl⟩ := List.mem_map.mp hx
    have := h c (List.mem_reverse.mp hc)
    unfold Digit at this
    fin_cases this <;> decide)
  simpa using this

theorem decimal_zeros (n : Nat) (s : List Char) : decimal (List.replicate n '0' ++ s) = decimal s := by
  induction n with
  | zero => rfl
  | succ n ih =>
    rw [List.replicate_succ, List.cons_append, show '0' :: (List.replicate n '0' ++ s) = ['0'] ++ (List.replicate n '0' ++ s) from rfl, decimal_append,
      ih, show decimal ['0'] = 0 from by decide]
    simp

theorem fixed_pad {k n : Nat} (hk : 0 < k) (hn : n < 10 ^ k) : FixedDigits k n (padLeft '0' k (showInt n)) := by
  have e : showInt (n : Int) = showNat k n := by
    unfold showInt
    rw [if_neg (by omega), Int.toNat_natCast]
    rcases Nat.le_total k (n + 1) with h | h
    · rw [show n + 1 = k + (n + 1 - k) by omega, showNat_more k n hn hk]
    · have hlt : n < 10 ^ (n + 1) := lt_of_lt_of_le (Nat.lt_pow_self (by omega : 1 < 10)) (Nat.pow_le_pow_right (by omega) (by omega))
      have := showNat_more (n + 1) n hlt (by omega) (k - (n + 1))
      rw [show n + 1 + (k - (n + 1)) = k by omega] at this
      exact this.symm
  obtain ⟨h1, h2, h3, h4⟩ := showNat_spec k n hn hk
  unfold padLeft
  rw [e]
  refine ⟨by simp; omega, ?_, by rw [decimal_zeros, ← digitsVal_eq, h3]⟩
  intro c hc
  rcases List.mem_append.mp hc with hc | hc
  · rw [List.eq_of_mem_replicate hc]
    simp [Digit]
  · exact h2 c hc

theorem fixed_split {i j n m : Nat} {s : List Char} (h : FixedDigits (i + j) (n * 10 ^ j + m) s) (hm : m < 10 ^ j) :
    ∃ s1 s2, FixedDigits i n s1 ∧ FixedDigits j m s2 ∧ s = s1 ++ s2 := by
  obtain ⟨h1, h2, h3⟩ := h
  have l2 : (s.drop i).length = j := by simp; omega
  have d2 : ∀ c ∈ s.drop i, Digit c := fun c hc => h2 c (List.mem_of_mem_drop hc)
  have b2 := decimal_lt d2
  have e := decimal_append (s.take i) (s.drop i)
  rw [List.take_append_drop, h3, l2] at e
  rw [l2] at b2
  have hp : 0 < 10 ^ j := by positivity
  have e1 : n = decimal (s.take i) := by
    have h : (n * 10 ^ j + m) / 10 ^ j = (decimal (s.take i) * 10 ^ j + decimal (s.drop i)) / 10 ^ j := by rw [e]
    rwa [Nat.add_comm, Nat.add_mul_div_right _ _ hp, Nat.add_comm (decimal (s.take i) * 10 ^ j), Nat.add_mul_div_right _ _ hp, Nat.div_eq_of_lt hm, Nat.div_eq_of_lt b2,
      Nat.zero_add, Nat.zero_add] at h
  have e2 : m = decimal (s.drop i) := by rw [e1] at e; omega
  exact ⟨s.take i, s.drop i, ⟨by simp; omega, fun c hc => h2 c (List.mem_of_mem_take hc), e1.symm⟩, ⟨l2, d2, e2.symm⟩,
    (List.take_append_drop i s).symm⟩

/-- **C144** (time stamp): for times from 1970 to 9999. -/
theorem c144_stamp {t : Int} (h0 : 0 ≤ t) (h1 : t ≤ 253402300799) : ∃ s, norcomStamp t = ok s ∧ TimeStamp t s := by
  have e1 : jdn ⟨1400, 1, 1⟩ = jdn unixEpoch - 208188 := by decide
  have e2 : jdn ⟨9999, 12, 31⟩ = jdn unixEpoch + 2932896 := by decide
  have hq : t.tdiv 86400 = t / 86400 := tdiv_nonneg_eq h0
  obtain ⟨D, hv, hy, hy', hj⟩ := date_exists (n := jdn unixEpoch + t.tdiv 86400) (by omega) (by omega)
  obtain ⟨hh, mm, ss, a1, a2, b1, b2, c1, c2, hs, ht⟩ := c104_time h0
  have hd := getDate_eq hv hy hy' hj
  have hL := later_of_jdn epoch_valid hv (by decide) (by decide) hy hy'
  rw [hj] at hL
  obtain ⟨-, -, hday, -⟩ := number_parts hv (by omega)
  have hdl := monthDays_le D.year D.month
  obtain ⟨day, hday'⟩ := Int.eq_ofNat_of_zero_le (show 0 ≤ D.day by have := hv.day_pos; omega)
  obtain ⟨hh, rfl⟩ := Int.eq_ofNat_of_zero_le a1
  obtain ⟨mm, rfl⟩ := Int.eq_ofNat_of_zero_le b1
  obtain ⟨ss, rfl⟩ := Int.eq_ofNat_of_zero_le c1
  have hdd : D.number.tmod 100 = day := by
    rw [tmod_nonneg_eq (by unfold CalDate.number; have := hv.day_pos; have := hv.month_pos; omega)]
    unfold CalDate.number
    have := hv.day_le
    have := hv.day_pos
    omega
  have htt : (getTime t).tdiv 100 = ((hh * 10 ^ 2 + mm : Nat) : Int) := by
    rw [ht, tdiv_nonneg_eq (by omega)]
    push_cast
    omega
  have hdlt : day < 10 ^ 2 := by have := hv.day_le; omega
  obtain ⟨s2, s3, k2, k3, k4⟩ := fixed_split (i := 2) (j := 2) (n := hh) (m := mm) (fixed_pad (k := 4) (by omega) (by omega)) (by omega)
  refine ⟨_, by unfold norcomStamp; rw [hd, ok_bind], D, _, day, hh, mm, ss, _, s2, s3, hv, hL, hday', by omega, by omega,
    by omega, ?_, fixed_pad (by omega) hdlt, k2, k3, by rw [hdd, htt, k4, List.append_assoc]⟩
  rw [hq]
  omega

variable {K : Type} [Field K] [LinearOrder K] [IsStrictOrderedRing K] [FloorRing K]

theorem truncInt_floor {q : K} (h : 0 ≤ q) : Fl.truncInt (fin q) = ok ⌊q⌋ := by simp [Fl.truncInt, h]

/-- The loop over the times. -/
theorem norcomMin_eq {fs : List (FieldC K)} {j : Nat} {val : Nat → K} (hval : ∀ t f, fs[t]? = some f → f.get 0 j 0 = ok (fin (val t)))
    (hv : ∀ t < fs.length, val t = -999 ∨ 0 ≤ val t) (ts : List Nat) (hts : ∀ t ∈ ts, t < fs.length) :
    ∃ r, norcomMin (fs.map some) j (ts.map fun t : Nat => (t : Int)) = ok r ∧
      ((r = -999 ∧ ∀ t ∈ ts, val t = -999) ∨
        (0 ≤ r ∧ (∃ t ∈ ts, val t ≠ -999 ∧ r = ⌊val t⌋) ∧ ∀ t ∈ ts, val t ≠ -999 → r ≤ ⌊val t⌋)) := by
  have key : ∀ (ts : List Nat) (acc : Int), (∀ t ∈ ts, t < fs.length) → (acc = -999 ∨ 0 ≤ acc) →
      ∃ r, foldM (fun (pa : Int) t => do
        let f ← vget (fs.map some) t
        match f with
        | none => ub
        | some f => do
          let v ← f.get 0 j 0
          let curr ← Fl.truncInt v
          ok (if pa = -999 ∨ (curr ≠ -999 ∧ curr < pa) then curr else pa)) acc (ts.map fun t : Nat => (t : Int)) = ok r ∧ (r = -999 ∨ 0 ≤ r) ∧
        (r = acc ∨ ∃ t ∈ ts, val t ≠ -999 ∧ r = ⌊val t⌋) ∧ (acc ≠ -999 → r ≠ -999 ∧ r ≤ acc) ∧ ∀ t ∈ ts, val t ≠ -999 → r ≠ -999 ∧ r ≤ ⌊val t⌋ := by
    intro ts
    induction ts with
    | nil => intro acc _ h; exact ⟨acc, rfl, h, .inl rfl, fun h => ⟨h, le_refl _⟩, by simp⟩
    | cons t ts ih =>
      intro acc hts hacc
      have ht := hts t (by simp)
      have e1 : vget (fs.map some) (t : Int) = ok (some fs[t]) := by
        rw [vget_eq_ok_of_lt (by simpa using ht)]
        simp
      have e2 := hval t fs[t] (List.getElem?_eq_getElem ht)
      rw [List.map_cons, foldM_cons, e1]
      simp only [ok_bind]
      rw [e2, ok_bind]
      rcases hv t ht with h | h
      · have e3 : Fl.truncInt (fin (val t)) = ok (-999) := by
          have : (-999 : K) = ((-999 : Int) : K) := by norm_num
          rw [h, this, truncInt_int]
        rw [e3]
        simp only [ok_bind]
        have e4 : (if acc = -999 ∨ ((-999 : Int) ≠ -999 ∧ -999 < acc) then (-999 : Int) else acc) = acc := by
          split_ifs with h'
          · rcases h' with h' | h'
            · exact h'.symm
            · exact absurd rfl h'.1
          · rfl
        rw [e4]
        obtain ⟨r, k1, k2, k3, k4, k5⟩ := ih acc (fun t ht => hts t (by simp [ht])) hacc
        refine ⟨r, k1, k2, k3.imp_right fun ⟨t, ht, h⟩ => ⟨t, by simp [ht], h⟩, k4, fun t' ht' hne => ?_⟩
        rcases List.mem_cons.mp ht' with rfl | ht'
        · exact absurd h hne
        · exact k5 t' ht' hne
      · have hfl : 0 ≤ ⌊val t⌋ := Int.floor_nonneg.mpr h
        have hvt : val t ≠ -999 := by intro h'; rw [h'] at h; norm_num at h
        rw [truncInt_floor h]
        simp only [ok_bind]
        obtain ⟨acc', hacc', q1, q2, q3, q4⟩ : ∃ acc' : Int, (if acc = -999 ∨ (⌊val t⌋ ≠ -999 ∧ ⌊val t⌋ < acc) then ⌊val t⌋ else acc) = acc' ∧
            0 ≤ acc' ∧ (acc' = acc ∨ acc' = ⌊val t⌋) ∧ (acc ≠ -999 → acc' ≤ acc) ∧ acc' ≤ ⌊val t⌋ := by
          refine ⟨_, rfl, ?_⟩
          split_ifs with h'
          · refine ⟨hfl, .inr rfl, fun ha => ?_, le_refl _⟩
            rcases h' with h' | h'
            · exact absurd h' ha
            · omega
          · push Not at h'
            refine ⟨?_, .inl rfl, fun _ => le_refl _, h'.2 (by omega)⟩
            rcases hacc with h'' | h''
            · exact absurd h'' h'.1
            · exact h''
        rw [hacc']
        obtain ⟨r, k1, k2, k3, k4, k5⟩ := ih acc' (fun t ht => hts t (by simp [ht])) (.inr q1)
        obtain ⟨m1, m2⟩ := k4 (by omega)
        refine ⟨r, k1, k2, ?_, fun ha => ⟨m1, m2.trans (q3 ha)⟩, fun t' ht' hne => ?_⟩
        · rcases k3 with k3 | ⟨t', ht', k3⟩
          · rcases q2 with q2 | q2
            · exact .inl (k3.trans q2)
            · exact .inr ⟨t, by simp, hvt, k3.trans q2⟩
          · exact .inr ⟨t', by simp [ht'], k3⟩
        · rcases List.mem_cons.mp ht' with rfl | ht'
          · exact ⟨m1, m2.trans q4⟩
          · exact k5 t' ht' hne
  obtain ⟨r, k1, k2, k3, -, k5⟩ := key ts (-999) hts (.inl rfl)
  refine ⟨r, k1, ?_⟩
  rcases k2 with k2 | k2
  · refine .inl ⟨k2, fun t ht => ?_⟩
    by_contra hne
    exact (k5 t ht hne).1 k2
  · refine .inr ⟨k2, ?_, fun t ht hne => (k5 t ht hne).2⟩
    rcases k3 with k3 | k3
    · omega
    · exact k3

theorem width_eq (names : List Str) (w : Nat) :
    (∀ n ∈ names, n.length ≤ names.foldl (fun w n => if w < n.length then n.length else w) w) ∧
    w ≤ names.foldl (fun w n => if w < n.length then n.length else w) w ∧
    (names.foldl (fun w n => if w < n.length then n.length else w) w = w ∨
      ∃ n ∈ names, n.length = names.foldl (fun w n => if w < n.length then n.length else w) w) := by
  induction names generalizing w with
  | nil => exact ⟨by simp, le_refl _, .inl rfl⟩
  | cons x names ih =>
    rw [List.foldl_cons]
    obtain ⟨h1, h2, h3⟩ := ih (if w < x.length then x.length else w)
    refine ⟨fun n hn => ?_, ?_, ?_⟩
    · rcases List.mem_cons.mp hn with rfl | hn
      · refine le_trans ?_ h2
        split_ifs <;> omega
      · exact h1 n hn
    · refine le_trans ?_ h2
      split_ifs <;> omega
    · rcases h3 with h3 | ⟨n, hn, h3⟩
      · by_cases hx : w < x.length
        · rw [if_pos hx] at h3 ⊢
          exact .inr ⟨x, by simp, h3.symm⟩
        · rw [if_neg hx] at h3 ⊢
          exact .inl h3
      · exact .inr ⟨n, by simp [hn], h3⟩

theorem steps_eq {first last : Nat} (h : first ≤ last) :
    ((upto (((last : Int) - first + 1).toNat)).map fun k => (first : Int) + k) = (List.range' first (last - first + 1)).map fun t : Nat => (t : Int) := by
  rw [show ((last : Int) - first + 1).toNat = last - first + 1 by omega, List.range'_eq_map_range, upto, List.map_map, List.map_map]
  refine List.map_congr_left fun k _ => ?_
  simp

/-- **C144**: fields of any size with pressures of up to 10000 hPa or missing, a valid one for every station among the times from `first` to
`last`, for times from 1970 on. The message has the time it is made and the first and the last time, and for every station in order a line with the
lowest of the values that are not missing, in whole hPa, rounded down. Missing from the full claim: other times and values. -/
theorem c144_write_partial {fs : List (FieldC K)} {X first last : Nat} (rest : List (List (Option (FieldC K)))) {names : List Str} {times : List (Fl K)}
    {now : Int} {t1 t2 : K} {val : Nat → Nat → K} (hnames : names.length = X) (hfl : first ≤ last) (hl : last < fs.length)
    (hval : ∀ t f, fs[t]? = some f → ∀ j < X, f.get 0 j 0 = ok (fin (val t j)))
    (hv : ∀ t < fs.length, ∀ j < X, val t j = -999 ∨ (0 ≤ val t j ∧ val t j < 1000000))
    (hsome : ∀ j < X, ∃ t, first ≤ t ∧ t ≤ last ∧ val t j ≠ -999)
    (hnow : 0 ≤ now ∧ now ≤ 253402300799) (ht1 : times[first]? = some (fin t1)) (ht2 : times[last]? = some (fin t2))
    (h1 : 0 ≤ t1 ∧ ⌊t1⌋ ≤ 253402300799) (h2 : 0 ≤ t2 ∧ ⌊t2⌋ ≤ 253402300799) :
    ∃ (s0 s1 s2 : Str) (lines : List Str), writeNorcom now times X names first last (fs.map some :: rest) =
        ok ("FBNO52 ENNC ".toList ++ s0 ++ "\r\r\n".toList ++ "VALID ".toList ++ s1 ++ " - ".toList ++ s2 ++ " UTC.\r\n".toList ++ lines.flatMap id) ∧
      TimeStamp now s0 ∧ TimeStamp ⌊t1⌋ s1 ∧ TimeStamp ⌊t2⌋ s2 ∧ lines.length = X ∧
      ∀ (j : Nat) name, names[j]? = some name → ∃ l h t, lines[j]? = some l ∧ StationLine names name h l ∧ first ≤ t ∧ t ≤ last ∧ val t j ≠ -999 ∧
        100 * (h : K) ≤ val t j ∧ val t j < 100 * ((h : K) + 1) ∧ ∀ t', first ≤ t' → t' ≤ last → val t' j ≠ -999 → val t j ≤ val t' j := by
  obtain ⟨s0, a1, a2⟩ := c144_stamp hnow.1 hnow.2
  obtain ⟨s1, b1, b2⟩ := c144_stamp (Int.floor_nonneg.mpr h1.1) h1.2
  obtain ⟨s2, c1, c2⟩ := c144_stamp (Int.floor_nonneg.mpr h2.1) h2.2
  have hmem : ∀ t, t ∈ List.range' first (last - first + 1) ↔ first ≤ t ∧ t ≤ last := by
    intro t
    rw [List.mem_range'_1]
    omega
  obtain ⟨w1, -, w3⟩ := width_eq names 0
  set width := names.foldl (fun w n => if w < n.length then n.length else w) 0 with hwidth
  have hline : ∀ j < X, ∃ l, norcomLine names width (fs.map some) ((List.range' first (last - first + 1)).map fun t : Nat => (t : Int)) j = ok l ∧
      ∀ name, names[j]? = some name → ∃ h t, StationLine names name h l ∧ first ≤ t ∧ t ≤ last ∧ val t j ≠ -999 ∧
        100 * (h : K) ≤ val t j ∧ val t j < 100 * ((h : K) + 1) ∧ ∀ t', first ≤ t' → t' ≤ last → val t' j ≠ -999 → val t j ≤ val t' j := by
    intro j hj
    obtain ⟨r, e1, e2⟩ := norcomMin_eq (fs := fs) (j := j) (val := fun t => val t j) (fun t f hf => hval t f hf j hj)
      (fun t ht => (hv t ht j hj).imp_right And.left) (List.range' first (last - first + 1)) (fun t ht => by have := (hmem t).mp ht; omega)
    obtain ⟨ts, hs1, hs2, hs3⟩ := hsome j hj
    rcases e2 with ⟨-, e2⟩ | ⟨e2, ⟨tr, e3, e4, e5⟩, e6⟩
    · exact absurd (e2 ts ((hmem ts).mpr ⟨hs1, hs2⟩)) hs3
    obtain ⟨t, ht, hmin⟩ := Finset.exists_min_image ((Finset.Icc first last).filter fun t => val t j ≠ -999) (fun t => val t j)
      ⟨ts, by simp [hs1, hs2, hs3]⟩
    rw [Finset.mem_filter, Finset.mem_Icc] at ht
    obtain ⟨⟨ht1', ht2'⟩, ht3⟩ := ht
    have htr := (hmem tr).mp e3
    have hle : val t j ≤ val tr j := hmin tr (by simp [htr, e4])
    have hr : r = ⌊val t j⌋ := le_antisymm (e6 t ((hmem t).mpr ⟨ht1', ht2'⟩) ht3) (by rw [e5]; exact Int.floor_le_floor hle)
    obtain ⟨v0, v1⟩ := (hv t (by omega) j hj).resolve_left ht3
    obtain ⟨n, rfl⟩ := Int.eq_ofNat_of_zero_le e2
    have hn : (n : Int) = ⌊val t j⌋ := hr
    obtain ⟨f1, f2⟩ := Int.floor_eq_iff.mp hn.symm
    have hlt : n < 1000000 := by
      have : ((n : Int) : K) < ((1000000 : Nat) : K) := lt_of_le_of_lt f1 (by push_cast; exact v1)
      have : (n : K) < ((1000000 : Nat) : K) := by simpa using this
      exact Nat.cast_lt.mp this
    have hnameslt : j < names.length := by omega
    have hname : vget names (j : Int) = ok names[j] := vget_eq_ok_of_lt hnameslt
    refine ⟨_, by
      unfold norcomLine
      rw [hname, ok_bind, e1, ok_bind, if_neg (by omega)], fun name hn' => ⟨n / 100, t, ?_, ht1', ht2', ht3, ?_, ?_, fun t' q1 q2 q3 => hmin t' (by simp [q1, q2, q3])⟩⟩
    · rw [List.getElem?_eq_getElem hnameslt] at hn'
      cases hn'
      have hwl := w1 names[j] (List.getElem_mem hnameslt)
      have hlen : (names[j] ++ List.replicate (width - names[j].length) ' ').length = width := by simp; omega
      refine ⟨List.replicate (width - names[j].length) ' ', padLeft '0' 4 (showInt ((n / 100 : Nat) : Int)), fun c hc => List.eq_of_mem_replicate hc, ?_, ?_,
        fixed_pad (by omega) (by omega), ?_⟩
      · intro m hm
        rw [hlen]
        exact w1 m hm
      · rw [hlen]
        rcases w3 with w3 | ⟨m, hm, w3⟩
        · exact ⟨_, List.getElem_mem hnameslt, by omega⟩
        · exact ⟨m, hm, w3⟩
      · have : ((n : Int)).tdiv 100 = ((n / 100 : Nat) : Int) := by rw [tdiv_nonneg_eq (by omega)]; push_cast; rfl
        rw [this]
        rfl
    · have : ((100 * (n / 100) : Nat) : K) ≤ (n : K) := by exact_mod_cast Nat.mul_div_le n 100
      push_cast at this f1
      exact this.trans f1
    · have h' : n + 1 ≤ 100 * (n / 100 + 1) := by omega
      have : ((n + 1 : Nat) : K) ≤ ((100 * (n / 100 + 1) : Nat) : K) := by exact_mod_cast h'
      push_cast at this f2
      exact lt_of_lt_of_le f2 this
  have hex : ∃ lines, mapM (fun j : Nat => norcomLine names width (fs.map some) ((List.range' first (last - first + 1)).map fun t : Nat => (t : Int)) j) (List.range X) =
      ok lines ∧ lines.length = X ∧ ∀ j (hj : j < X), ∃ l, lines[j]? = some l ∧
        norcomLine names width (fs.map some) ((List.range' first (last - first + 1)).map fun t : Nat => (t : Int)) j = ok l := by
    choose! l hl' _ using hline
    refine ⟨(List.range X).map l, mapM_ok fun j hj => hl' j (List.mem_range.mp hj), by simp, fun j hj => ⟨l j, by simp [hj], hl' j hj⟩⟩
  obtain ⟨lines, l1, l2, l3⟩ := hex
  refine ⟨s0, s1, s2, lines, ?_, a2, b2, c2, l2, fun j name hname => ?_⟩
  · have q1 : vget times (first : Int) = ok (fin t1) := by
      obtain ⟨q, hq⟩ := List.getElem?_eq_some_iff.mp ht1
      rw [vget_eq_ok_of_lt q, hq]
    have q2 : vget times (last : Int) = ok (fin t2) := by
      obtain ⟨q, hq⟩ := List.getElem?_eq_some_iff.mp ht2
      rw [vget_eq_ok_of_lt q, hq]
    unfold writeNorcom
    simp only
    rw [a1, ok_bind, q1, ok_bind, truncInt_floor h1.1, ok_bind, b1, ok_bind, q2, ok_bind, truncInt_floor h2.1, ok_bind, c1, ok_bind, steps_eq hfl, ← hwidth, l1]
    rfl
  · have hj : j < X := by rw [← hnames]; exact (List.getElem?_eq_some_iff.mp hname).1
    obtain ⟨l, m1, m2⟩ := l3 j hj
    obtain ⟨l', k1, k2⟩ := hline j hj
    rw [m2] at k1
    cases k1
    obtain ⟨h, t, k3⟩ := k2 name hname
    exact ⟨l, h, t, m1, k3⟩

/-- **C144**: a station without a value ends the program, as long as the values of the stations are numbers that are missing or not negative. -/
theorem c144_missing {fs : List (FieldC K)} {X first last : Nat} (rest : List (List (Option (FieldC K)))) {names : List Str} {times : List (Fl K)}
    {now : Int} {t1 t2 : K} {val : Nat → Nat → K} (hnames : names.length = X) (hfl : first ≤ last) (hl : last < fs.length)
    (hval : ∀ t f, fs[t]? = some f → ∀ j < X, f.get 0 j 0 = ok (fin (val t j)))
    (hv : ∀ t < fs.length, ∀ j < X, val t j = -999 ∨ 0 ≤ val t j)
    (hnone : ∃ j < X, ∀ t, first ≤ t → t ≤ last → val t j = -999)
    (hnow : 0 ≤ now ∧ now ≤ 253402300799) (ht1 : times[first]? = some (fin t1)) (ht2 : times[last]? = some (fin t2))
    (h1 : 0 ≤ t1 ∧ ⌊t1⌋ ≤ 253402300799) (h2 : 0 ≤ t2 ∧ ⌊t2⌋ ≤ 253402300799) :
    writeNorcom now times X names first last (fs.map some :: rest) = .abort := by
  obtain ⟨s0, a1, -⟩ := c144_stamp hnow.1 hnow.2
  obtain ⟨s1, b1, -⟩ := c144_stamp (Int.floor_nonneg.mpr h1.1) h1.2
  obtain ⟨s2, c1, -⟩ := c144_stamp (Int.floor_nonneg.mpr h2.1) h2.2
  have hmem : ∀ t, t ∈ List.range' first (last - first + 1) ↔ first ≤ t ∧ t ≤ last := by
    intro t
    rw [List.mem_range'_1]
    omega
  set width := names.foldl (fun w n => if w < n.length then n.length else w) 0 with hwidth
  have hline : ∀ j < X, (norcomLine names width (fs.map some) ((List.range' first (last - first + 1)).map fun t : Nat => (t : Int)) j = .abort ∨
      ∃ l, norcomLine names width (fs.map some) ((List.range' first (last - first + 1)).map fun t : Nat => (t : Int)) j = ok l) ∧
      ((∀ t, first ≤ t → t ≤ last → val t j = -999) →
        norcomLine names width (fs.map some) ((List.range' first (last - first + 1)).map fun t : Nat => (t : Int)) j = .abort) := by
    intro j hj
    obtain ⟨r, e1, e2⟩ := norcomMin_eq (fs := fs) (j := j) (val := fun t => val t j) (fun t f hf => hval t f hf j hj)
      (fun t ht => hv t ht j hj) (List.range' first (last - first + 1)) (fun t ht => by have := (hmem t).mp ht; omega)
    have hname : vget names (j : Int) = ok names[j] := vget_eq_ok_of_lt (by omega)
    unfold norcomLine
    rw [hname, ok_bind, e1, ok_bind]
    constructor
    · by_cases h : r = -999
      · rw [if_pos h]; exact .inl rfl
      · rw [if_neg h]; exact .inr ⟨_, rfl⟩
    · intro hn
      rcases e2 with ⟨e2, -⟩ | ⟨-, ⟨tr, e3, e4, -⟩, -⟩
      · rw [if_pos e2]; rfl
      · exact absurd (hn tr ((hmem tr).mp e3).1 ((hmem tr).mp e3).2) e4
  have hm : mapM (fun j : Nat => norcomLine names width (fs.map some) ((List.range' first (last - first + 1)).map fun t : Nat => (t : Int)) j) (List.range X) =
      .abort := by
    obtain ⟨j, hj, hn⟩ := hnone
    have : ∀ l : List Nat, (∀ i ∈ l, i < X) → j ∈ l → mapM (fun j : Nat => norcomLine names width (fs.map some)
        ((List.range' first (last - first + 1)).map fun t : Nat => (t : Int)) j) l = .abort := by
      intro l
      induction l with
      | nil => intro _ h; simp at h
      | cons x l ih =>
        intro hx hjl
        rw [mapM_cons]
        obtain ⟨g1, g2⟩ := hline x (hx x (by simp))
        rcases List.mem_cons.mp hjl with rfl | hjl
        · rw [g2 hn]
          rfl
        · rcases g1 with g1 | ⟨s, g1⟩
          · rw [g1]; rfl
          · rw [g1, ok_bind, ih (fun i hi => hx i (by simp [hi])) hjl]
            rfl
    exact this _ (fun i hi => List.mem_range.mp hi) (List.mem_range.mpr hj)
  have q1 : vget times (first : Int) = ok (fin t1) := by
    obtain ⟨q, hq⟩ := List.getElem?_eq_some_iff.mp ht1
    rw [vget_eq_ok_of_lt q, hq]
  have q2 : vget times (last : Int) = ok (fin t2) := by
    obtain ⟨q, hq⟩ := List.getElem?_eq_some_iff.mp ht2
    rw [vget_eq_ok_of_lt q, hq]
  unfold writeNorcom
  simp only
  rw [a1, ok_bind, q1, ok_bind, truncInt_floor h1.1, ok_bind, b1, ok_bind, q2, ok_bind, truncInt_floor h2.1, ok_bind, c1, ok_bind, steps_eq hfl, ← hwidth, hm]
  rfl

/-- **C144** is false if the first or the last time is not a time of the file: an element outside of a vector is used. -/
theorem c144_times_false {now first last : Int} {times : List (Fl K)} {X : Nat} {names : List Str} {fields : List (List (Option (FieldC K)))}
    (hnow : 0 ≤ now ∧ now ≤ 253402300799) (hf : fields ≠ []) :
    (first < 0 ∨ (times.length : Int) ≤ first → writeNorcom now times X names first last fields = .ub) ∧
    (∀ t1 : K, vget times first = ok (fin t1) → 0 ≤ t1 ∧ ⌊t1⌋ ≤ 253402300799 → last < 0 ∨ (times.length : Int) ≤ last →
      writeNorcom now times X names first last fields = .ub) := by
  obtain ⟨s0, a1, -⟩ := c144_stamp hnow.1 hnow.2
  have hub : ∀ i : Int, i < 0 ∨ (times.length : Int) ≤ i → vget times i = .ub := by
    intro i hi
    rcases hi with hi | hi
    · exact vget_neg hi
    · have : i = ((i.toNat : Nat) : Int) := by omega
      rw [this]
      exact vget_ub_of_le (by omega)
  obtain ⟨fs, rest, rfl⟩ : ∃ fs rest, fields = fs :: rest := by
    cases fields with
    | nil => exact absurd rfl hf
    | cons a b => exact ⟨a, b, rfl⟩
  constructor
  · intro h
    unfold writeNorcom
    simp only
    rw [a1, ok_bind, hub _ h]
    rfl
  · intro t1 ht h1 h
    obtain ⟨s1, b1, -⟩ := c144_stamp (Int.floor_nonneg.mpr h1.1) h1.2
    unfold writeNorcom
    simp only
    rw [a1, ok_bind, ht, ok_bind, truncInt_floor h1.1, ok_bind, b1, ok_bind, hub _ h]
    rfl

/-- **C144** (options): as many names and elevations as coordinates, which are in range and have no longitude of zero. -/
theorem c144_new {lats lons elevs : List K} {names : List Str} {n : Nat} (tag next : Nat) (h1 : lats.length = n) (h2 : lons.length = n)
    (h3 : elevs.length = n) (h4 : names.length = n) (hlat : ∀ q ∈ lats, -90 ≤ q ∧ q ≤ 90) (hlon : ∀ q ∈ lons, -360 ≤ q ∧ q ≤ 360 ∧ q ≠ 0) (T : Int)
    (first last : Option Int) :
    ∃ g : GridFile K, g.lats = [lats.map fin] ∧ Rect 1 n g.lons ∧ (∀ x q, lons[x]? = some q → ∃ (r : K) (k : Int), cell? g.lons 0 x = some (fin r) ∧
        -180 ≤ r ∧ r ≤ 180 ∧ r = q + 360 * k) ∧
      (∀ a b, first = some a → last = some b → a ≤ b →
        newNorcom ⟨[], [], tag⟩ next ⟨some (lats.map fin), some (lons.map fin), some (elevs.map fin), some names, some T, first, last⟩ =
          ok ⟨g, [elevs.map fin], names, upto T.toNat, a, b⟩) ∧
      (first = none ∨ last = none ∨ (∃ a b, first = some a ∧ last = some b ∧ b < a) →
        newNorcom ⟨[], [], tag⟩ next ⟨some (lats.map fin), some (lons.map fin), some (elevs.map fin), some names, some T, first, last⟩ = .abort) := by
  have row : ∀ l : List K, l.length = n → Rect 1 n [l.map fin] := fun l hl => ⟨rfl, by simp [hl]⟩
  obtain ⟨g1, n1, k1, k2, k3⟩ := c94_lats (f := (⟨[], [], tag⟩ : GridFile K)) next (.inl rfl) (row lats h1) (by
    simp only [List.mem_singleton]
    rintro r rfl v hv
    obtain ⟨q, hq, rfl⟩ := List.mem_map.mp hv
    exact ⟨q, rfl, hlat q hq⟩)
  obtain ⟨g2, n2, k4, k5, k6, k7⟩ := c94_lons_partial (f := g1) n1 (.inl k3) (row lons h2) (by
    simp only [List.mem_singleton]
    rintro r rfl v hv
    obtain ⟨q, hq, rfl⟩ := List.mem_map.mp hv
    exact ⟨q, rfl, hlon q hq⟩)
  have hl2 : g2.lats = [lats.map fin] := k5.trans k2
  have he : setElevs g2.lats [elevs.map fin] = ok (some [elevs.map fin]) := by
    rw [hl2]
    unfold setElevs
    rw [if_neg (by simp), show vget [elevs.map fin] 0 = ok (elevs.map (fin : K → Fl K)) from rfl, ok_bind,
      show numX [lats.map fin] = ok (lats.map (fin : K → Fl K)).length from rfl, ok_bind, if_neg (by simp [h1, h3])]
  have hn : newNorcom ⟨[], [], tag⟩ next ⟨some (lats.map fin), some (lons.map fin), some (elevs.map fin), some names, some T, first, last⟩ = (do
      let se ← norcomTimes (⟨some (lats.map fin), some (lons.map fin), some (elevs.map fin), some names, some T, first, last⟩ : NorcomOptions K)
      ok ⟨g2, [elevs.map fin], names, upto T.toNat, se.1, se.2⟩) := by
    unfold newNorcom
    simp only
    rw [if_neg (by simp [h1, h2, h3, h4]), if_neg (by
      rw [List.any_eq_true]
      rintro ⟨v, hv, hc⟩
      obtain ⟨q, hq, rfl⟩ := List.mem_map.mp hv
      have := hlat q hq
      simp only [lt_fin, gt_fin, Bool.or_eq_true, decide_eq_true_eq] at hc
      rcases hc with hc | hc
      · exact absurd this.1 (not_le.mpr hc)
      · exact absurd this.2 (not_le.mpr hc)), k1, ok_bind]
    simp only
    rw [k4, ok_bind]
    simp only
    rw [he, ok_bind]
    rfl
  refine ⟨g2, hl2, k6, fun x q hx => k7 0 x q (by simp [cell?, hx]), ?_, ?_⟩
  · rintro a b rfl rfl hab
    rw [hn]
    unfold norcomTimes
    simp only
    rw [if_neg (by omega)]
    rfl
  · intro h
    rw [hn]
    unfold norcomTimes
    rcases h with h | h | ⟨a, b, rfl, rfl, h⟩
    · rw [h]; rfl
    · rw [h]; cases first <;> rfl
    · simp only
      rw [if_pos h]
      rfl

/-- **C144** (options): what is refused whatever the rest of the options. -/
theorem c144_refused (g : GridFile K) (next : Nat) (o : NorcomOptions K) :
    (o.lats = none ∨ o.lons = none ∨ o.elevs = none ∨ o.names = none ∨ o.numTimes = none → newNorcom g next o = .abort) ∧
    (∀ lats lons elevs names, o.lats = some lats → o.lons = some lons → o.elevs = some elevs → o.names = some names →
      ¬ (lons.length = lats.length ∧ elevs.length = lats.length ∧ names.length = lats.length) → newNorcom g next o = .abort) ∧
    (∀ lats q, o.lats = some lats → fin q ∈ lats → q < -90 ∨ 90 < q → newNorcom g next o = .abort) := by
  obtain ⟨lats, lons, elevs, names, n, a, b⟩ := o
  refine ⟨fun h => ?_, ?_, ?_⟩
  · simp only at h
    unfold newNorcom
    rcases h with rfl | rfl | rfl | rfl | rfl
    · rfl
    · cases lats <;> rfl
    · cases lats <;> cases lons <;> rfl
    · cases lats <;> cases lons <;> cases elevs <;> rfl
    · cases lats <;> cases lons <;> cases elevs <;> cases names <;> rfl
  · simp only
    rintro lats lons elevs names rfl rfl rfl rfl h
    unfold newNorcom
    cases n with
    | none => rfl
    | some n =>
      simp only
      rw [if_pos]
      · rfl
      · by_contra hc
        push Not at hc
        exact h ⟨hc.1.symm, hc.2.1.symm, hc.2.2.symm⟩
  · simp only
    rintro lats q rfl hq h
    unfold newNorcom
    cases lons with
    | none => rfl
    | some lons =>
      cases elevs with
      | none => rfl
      | some elevs =>
        cases names with
        | none => rfl
        | some names =>
          cases n with
          | none => rfl
          | some n =>
            simp only
            split
            · rfl
            · rw [if_pos]
              · rfl
              · exact List.any_eq_true.mpr ⟨fin q, hq, by simpa [lt_fin, gt_fin] using h⟩

/-- **C144** is false for a longitude of zero. -/
theorem c144_zero_false {lats lons : List K} {elevs : List (Fl K)} {names : List Str} {n : Nat} (tag next : Nat) (h1 : lats.length = n)
    (h2 : lons.length = n) (h3 : elevs.length = n) (h4 : names.length = n) (hlat : ∀ q ∈ lats, -90 ≤ q ∧ q ≤ 90)
    (hlon : ∀ q ∈ lons, -360 ≤ q ∧ q ≤ 360) (h0 : (0 : K) ∈ lons) (T : Int) (first last : Option Int) :
    newNorcom ⟨[], [], tag⟩ next ⟨some (lats.map fin), some (lons.map fin), some elevs, some names, some T, first, last⟩ = .ub := by
  have row : ∀ l : List K, l.length = n → Rect 1 n [l.map fin] := fun l hl => ⟨rfl, by simp [hl]⟩
  obtain ⟨g1, n1, k1, k2, k3⟩ := c94_lats (f := (⟨[], [], tag⟩ : GridFile K)) next (.inl rfl) (row lats h1) (by
    simp only [List.mem_singleton]
    rintro r rfl v hv
    obtain ⟨q, hq, rfl⟩ := List.mem_map.mp hv
    exact ⟨q, rfl, hlat q hq⟩)
  unfold newNorcom
  simp only
  rw [if_neg (by simp [h1, h2, h3, h4]), if_neg (by
    rw [List.any_eq_true]
    rintro ⟨v, hv, hc⟩
    obtain ⟨q, hq, rfl⟩ := List.mem_map.mp hv
    have := hlat q hq
    simp only [lt_fin, gt_fin, Bool.or_eq_true, decide_eq_true_eq] at hc
    rcases hc with hc | hc
    · exact absurd this.1 (not_le.mpr hc)
    · exact absurd this.2 (not_le.mpr hc)), k1, ok_bind]
  simp only
  rw [c94_zero_false (f := g1) n1 (.inl k3) (row lons h2) (by
    simp only [List.mem_singleton]
    rintro r rfl v hv
    obtain ⟨q, hq, rfl⟩ := List.mem_map.mp hv
    exact ⟨q, rfl, hlon q hq⟩) ⟨_, List.mem_singleton.mpr rfl, List.mem_map.mpr ⟨0, h0, rfl⟩⟩]
  rfl

/-! ### An example and a counterexample -/

/-- Two stations, three times; the second value of the first station is missing. The message for the last two times. -/
example : writeNorcom (1479311999 : Int) [fin 0, fin (1479312000 : ℚ), fin 1479315600] 2 ["AB".toList, "C".toList] 1 2
      [[some ⟨[fin 90000, fin 90000], 1, 2, 1⟩, some ⟨[fin (-999), fin 101399], 1, 2, 1⟩, some ⟨[fin (99999 / 2), fin 101400], 1, 2, 1⟩]] =
    ok "FBNO52 ENNC 161559\r\r\nVALID 161600 - 161700 UTC.\r\nEST MIN QNH AB: 0499 HPA\r\nEST MIN QNH C : 1013 HPA\r\n".toList := by
  decide +kernel

/-- Such values meet the hypotheses. -/
example : ∀ t < 3, ∀ j < 2, (fun t j : Nat => ([[90000, 90000], [-999, 101399], [99999 / 2, 101400]].getD t []).getD j 0 : Nat → Nat → ℚ) t j = -999 ∨
    (0 ≤ (fun t j : Nat => ([[90000, 90000], [-999, 101399], [99999 / 2, 101400]].getD t []).getD j 0 : Nat → Nat → ℚ) t j ∧
      (fun t j : Nat => ([[90000, 90000], [-999, 101399], [99999 / 2, 101400]].getD t []).getD j 0 : Nat → Nat → ℚ) t j < 1000000) := by
  decide +kernel

/-- **C144** is false for other values: zeros are put before the sign of a negative one, and a value that is not missing but between -1000 and
-999 counts as missing. -/
theorem c144_negative_false :
    (norcomLine ["A".toList] 1 [some (⟨[fin (-543 : ℚ)], 1, 1, 1⟩ : FieldC ℚ)] [0] 0 = ok "EST MIN QNH A: 00-5 HPA\r\n".toList) ∧
    norcomLine ["A".toList] 1 [some (⟨[fin (-9995 / 10 : ℚ)], 1, 1, 1⟩ : FieldC ℚ)] [0] 0 = .abort := by decide +kernel

end Gridpp.Props
