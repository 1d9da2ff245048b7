import Verif.Props.Time

/-!
# C163: durations and the order of times
-/

namespace Verif

/-- `add_duration(t, duration)` ends with the broken-down time of the instant `x`. -/
def SumIs (pf : List Char → Option Rat) (t : Tm) (txt : List Char) (x : Int) : Prop :=
  ∃ N, ∀ n, N ≤ n → addDuration pf n t txt = .tm (gmtime x)

theorem sumIs_unique {pf : List Char → Option Rat} {t : Tm} {txt : List Char} {x y : Int} (h : SumIs pf t txt x)
    (h' : SumIs pf t txt y) : x = y := by
  obtain ⟨N, h⟩ := h
  obtain ⟨M, h'⟩ := h'
  have a := h (max N M) (by omega)
  have b := h' (max N M) (by omega)
  rw [a] at b
  injection b with b
  exact gmtime_inj b

/-- the first day of the month with the number `i`, counted from the year 0 -/
def firstDay (i : Int) : Int := ymd2ord (i / 12) (i % 12 + 1) 1

theorem firstDay_succ (i : Int) : firstDay (i + 1) = firstDay i + monthLen (i / 12) (i % 12 + 1) := by
  have h := (next_month (y := i / 12) (m := i % 12 + 1) (by omega) (by omega)).2.2
  unfold modulo3 fQuotient3 at h
  unfold firstDay
  rw [← h]
  congr 1 <;> omega

theorem firstDay_add (i : Int) : ∀ k : Nat, firstDay i + 28 * k ≤ firstDay (i + k)
  | 0 => by simp
  | k + 1 => by
    have h1 := firstDay_add i k
    have h2 := firstDay_succ (i + k)
    have h3 := monthLen_ge ((i + k) / 12) ((i + k) % 12 + 1)
    have : i + ((k + 1 : Nat) : Int) = i + k + 1 := by omega
    rw [this, h2]
    omega

theorem firstDay_lt {i j : Int} (h : i < j) : firstDay i + monthLen (i / 12) (i % 12 + 1) ≤ firstDay j := by
  have h1 := firstDay_add (i + 1) (j - (i + 1)).toNat
  have : i + 1 + ((j - (i + 1)).toNat : Int) = j := by omega
  rw [this, firstDay_succ] at h1
  omega

theorem clampDay_le (y m d : Int) : clampDay y m d ≤ monthLen y m := by
  have := monthLen_ge y m
  unfold clampDay
  split
  · omega
  · split <;> omega

theorem clampDay_mono (y m : Int) {d d' : Int} (h : d ≤ d') : clampDay y m d ≤ clampDay y m d' := by
  have := monthLen_ge y m
  unfold clampDay
  split <;> split <;> (try split) <;> (try split) <;> omega

/-- the number of the month that the sum begins with -/
def sumMonth (t : Tm) (y m : Nat) : Int := 12 * t.year + (t.mon - 1) + 12 * y + m

theorem sum_exact (pf : List Char → Option Rat) (t : Tm) (ht : ValidTm t) (y m d h mi s : Nat) :
    SumIs pf t (durOf false y m d h mi s)
      ((firstDay (sumMonth t y m) - 1 + (t.mday + clampDay (sumMonth t y m / 12) (sumMonth t y m % 12 + 1) d) - epochOrd) * 86400
        + daySeconds t h mi s - 129600 * (daySeconds t h mi s / 216000)) := by
  have he := C41_exact pf t ht y m d h mi s
  have e1 : t.year + y + (t.mon - 1 + m) / 12 = sumMonth t y m / 12 := by unfold sumMonth; omega
  have e2 : (t.mon - 1 + m) % 12 + 1 = sumMonth t y m % 12 + 1 := by unfold sumMonth; omega
  rw [e1, e2] at he
  exact he

/-- **C163**: a sum is always later, by at least one day, whatever the duration. -/
theorem C163_later (pf : List Char → Option Rat) (t : Tm) (ht : ValidTm t) (y m d h mi s : Nat) :
    ∃ x, SumIs pf t (durOf false y m d h mi s) x ∧ timegm t + 86400 ≤ x := by
  refine ⟨_, sum_exact pf t ht y m d h mi s, ?_⟩
  obtain ⟨⟨hm1, hm2, _, _⟩, t1, t2, t3, t4, t5, t6⟩ := ht
  have hc := clampDay_pos (sumMonth t y m / 12) (sumMonth t y m % 12 + 1) d
  have hf := firstDay_add (12 * t.year + (t.mon - 1)) (12 * y + m)
  have hi : 12 * t.year + (t.mon - 1) + ((12 * y + m : Nat) : Int) = sumMonth t y m := by unfold sumMonth; omega
  rw [hi] at hf
  have hb : firstDay (12 * t.year + (t.mon - 1)) = ymd2ord t.year t.mon 1 := by
    unfold firstDay
    congr 1 <;> omega
  rw [hb] at hf
  have hs : t.hour * 3600 + t.min * 60 + t.sec ≤ daySeconds t h mi s - 129600 * (daySeconds t h mi s / 216000) := by
    unfold daySeconds
    omega
  unfold timegm
  omega

/-- **C163**: a longer duration does not end earlier (`_partial`: as long as the hours stay below 60). -/
theorem C163_longer_partial (pf : List Char → Option Rat) (t : Tm) (ht : ValidTm t) (y m d h mi s y' m' d' h' mi' s' : Nat)
    (hm : 12 * y + m ≤ 12 * y' + m') (hd : d ≤ d') (hs : h * 3600 + mi * 60 + s ≤ h' * 3600 + mi' * 60 + s')
    (h60 : daySeconds t h' mi' s' < 216000) :
    ∃ x x', SumIs pf t (durOf false y m d h mi s) x ∧ SumIs pf t (durOf false y' m' d' h' mi' s') x' ∧ x ≤ x' := by
  refine ⟨_, _, sum_exact pf t ht y m d h mi s, sum_exact pf t ht y' m' d' h' mi' s', ?_⟩
  obtain ⟨_, t1, t2, t3, t4, t5, t6⟩ := ht
  have hday : firstDay (sumMonth t y m) + clampDay (sumMonth t y m / 12) (sumMonth t y m % 12 + 1) d ≤
      firstDay (sumMonth t y' m') + clampDay (sumMonth t y' m' / 12) (sumMonth t y' m' % 12 + 1) d' := by
    rcases Int.lt_or_le (sumMonth t y m) (sumMonth t y' m') with hlt | hge
    · have h1 := firstDay_lt hlt
      have h2 := clampDay_le (sumMonth t y m / 12) (sumMonth t y m % 12 + 1) d
      have h3 := clampDay_pos (sumMonth t y' m' / 12) (sumMonth t y' m' % 12 + 1) d'
      omega
    · have he : sumMonth t y m = sumMonth t y' m' := by unfold sumMonth at hge ⊢; omega
      rw [he]
      have := clampDay_mono (sumMonth t y' m' / 12) (sumMonth t y' m' % 12 + 1) (Int.ofNat_le.mpr hd)
      omega
  unfold daySeconds at h60 ⊢
  omega

/-- **C163**: from a later start the sum is not earlier (`_partial`: for durations of at most 28 days and less than 60 hours, without
years and months). -/
theorem C163_start_partial (pf : List Char → Option Rat) (t t' : Tm) (ht : ValidTm t) (ht' : ValidTm t') (d h mi s : Nat)
    (hle : timegm t ≤ timegm t') (hd : d ≤ 28) (h60 : daySeconds t h mi s < 216000) (h60' : daySeconds t' h mi s < 216000) :
    ∃ x x', SumIs pf t (durOf false 0 0 d h mi s) x ∧ SumIs pf t' (durOf false 0 0 d h mi s) x' ∧ x ≤ x' ∧
      x' - x = timegm t' - timegm t := by
  rcases Nat.eq_zero_or_pos d with rfl | hp
  · obtain ⟨N, h1⟩ := C41_counterexample pf t ht h mi s h60
    obtain ⟨M, h2⟩ := C41_counterexample pf t' ht' h mi s h60'
    exact ⟨_, _, ⟨N, h1⟩, ⟨M, h2⟩, by omega, by omega⟩
  · have m1 := monthLen_ge t.year t.mon
    have m2 := monthLen_ge t'.year t'.mon
    obtain ⟨N, h1⟩ := C41_partial pf t ht d h mi s hp (by omega) h60
    obtain ⟨M, h2⟩ := C41_partial pf t' ht' d h mi s hp (by omega) h60'
    exact ⟨_, _, ⟨N, h1⟩, ⟨M, h2⟩, by omega, by omega⟩

/-- **C163**: within one month the order of the starts is kept by every duration of less than 60 hours, and so is the distance. -/
theorem C163_same_month_partial (pf : List Char → Option Rat) (t t' : Tm) (ht : ValidTm t) (ht' : ValidTm t') (y m d h mi s : Nat)
    (hy : t.year = t'.year) (hm : t.mon = t'.mon) (hle : timegm t ≤ timegm t') (h60 : daySeconds t h mi s < 216000)
    (h60' : daySeconds t' h mi s < 216000) :
    ∃ x x', SumIs pf t (durOf false y m d h mi s) x ∧ SumIs pf t' (durOf false y m d h mi s) x' ∧ x ≤ x' ∧
      x' - x = timegm t' - timegm t := by
  refine ⟨_, _, sum_exact pf t ht y m d h mi s, sum_exact pf t' ht' y m d h mi s, ?_⟩
  obtain ⟨_, t1, t2, t3, t4, t5, t6⟩ := ht
  obtain ⟨_, u1, u2, u3, u4, u5, u6⟩ := ht'
  have e : sumMonth t y m = sumMonth t' y m := by unfold sumMonth; omega
  rw [e]
  unfold timegm at hle ⊢
  rw [hy, hm] at hle ⊢
  unfold daySeconds at h60 h60' ⊢
  omega

/-- **C163** is false for long durations of hours: sixty hours after midnight is earlier than fifty-nine. -/
theorem C163_counterexample_longer (pf : List Char → Option Rat) :
    SumIs pf (gmtime 0) (durOf false 0 0 0 59 0 0) 298800 ∧ SumIs pf (gmtime 0) (durOf false 0 0 0 60 0 0) 172800 := by
  constructor
  · have h := sum_exact pf (gmtime 0) (validTm_gmtime 0) 0 0 0 59 0 0
    have e : (firstDay (sumMonth (gmtime 0) 0 0) - 1 + ((gmtime 0).mday + clampDay (sumMonth (gmtime 0) 0 0 / 12)
        (sumMonth (gmtime 0) 0 0 % 12 + 1) (0 : Nat)) - epochOrd) * 86400
        + daySeconds (gmtime 0) (59 : Nat) (0 : Nat) (0 : Nat) - 129600 * (daySeconds (gmtime 0) (59 : Nat) (0 : Nat) (0 : Nat) / 216000) = 298800 := by
      decide +kernel
    rw [e] at h
    exact h
  · have h := sum_exact pf (gmtime 0) (validTm_gmtime 0) 0 0 0 60 0 0
    have e : (firstDay (sumMonth (gmtime 0) 0 0) - 1 + ((gmtime 0).mday + clampDay (sumMonth (gmtime 0) 0 0 / 12)
        (sumMonth (gmtime 0) 0 0 % 12 + 1) (0 : Nat)) - epochOrd) * 86400
        + daySeconds (gmtime 0) (60 : Nat) (0 : Nat) (0 : Nat) - 129600 * (daySeconds (gmtime 0) (60 : Nat) (0 : Nat) (0 : Nat) / 216000) = 172800 := by
      decide +kernel
    rw [e] at h
    exact h

/-- **C163** is false for months: one month after 31 January (1970) is later than one month after 1 February, by two days. -/
theorem C163_counterexample_start (pf : List Char → Option Rat) :
    SumIs pf (gmtime (30 * 86400)) (durOf false 0 1 0 0 0 0) (62 * 86400) ∧
    SumIs pf (gmtime (31 * 86400)) (durOf false 0 1 0 0 0 0) (60 * 86400) := by
  constructor
  · have h := sum_exact pf (gmtime (30 * 86400)) (validTm_gmtime _) 0 1 0 0 0 0
    have e : (firstDay (sumMonth (gmtime (30 * 86400)) 0 1) - 1 + ((gmtime (30 * 86400)).mday + clampDay
        (sumMonth (gmtime (30 * 86400)) 0 1 / 12) (sumMonth (gmtime (30 * 86400)) 0 1 % 12 + 1) (0 : Nat)) - epochOrd) * 86400
        + daySeconds (gmtime (30 * 86400)) (0 : Nat) (0 : Nat) (0 : Nat) -
          129600 * (daySeconds (gmtime (30 * 86400)) (0 : Nat) (0 : Nat) (0 : Nat) / 216000) = 62 * 86400 := by
      decide +kernel
    rw [e] at h
    exact h
  · have h := sum_exact pf (gmtime (31 * 86400)) (validTm_gmtime _) 0 1 0 0 0 0
    have e : (firstDay (sumMonth (gmtime (31 * 86400)) 0 1) - 1 + ((gmtime (31 * 86400)).mday + clampDay
        (sumMonth (gmtime (31 * 86400)) 0 1 / 12) (sumMonth (gmtime (31 * 86400)) 0 1 % 12 + 1) (0 : Nat)) - epochOrd) * 86400
        + daySeconds (gmtime (31 * 86400)) (0 : Nat) (0 : Nat) (0 : Nat) -
          129600 * (daySeconds (gmtime (31 * 86400)) (0 : Nat) (0 : Nat) (0 : Nat) / 216000) = 60 * 86400 := by
      decide +kernel
    rw [e] at h
    exact h

/-- the hypotheses can be met -/
example : ValidTm (gmtime 1700000000) ∧ daySeconds (gmtime 1700000000) 30 10 5 < 216000 ∧
    timegm (gmtime 1700000000) ≤ timegm (gmtime 1700000001) :=
  ⟨validTm_gmtime _, by decide +kernel, by decide +kernel⟩

end Verif
