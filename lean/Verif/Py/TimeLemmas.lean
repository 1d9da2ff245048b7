import Verif.Py.Time

/-!
# The calendar: ordinals and dates are in order-preserving bijection
-/

namespace Verif

/-- a date of the proleptic Gregorian calendar -/
def ValidDate (y m d : Int) : Prop := 1 ≤ m ∧ m ≤ 12 ∧ 1 ≤ d ∧ d ≤ monthLen y m

theorem isLeap_iff (y : Int) : isLeap y = true ↔ y % 4 = 0 ∧ (y % 100 ≠ 0 ∨ y % 400 = 0) := by
  simp [isLeap]

theorem daysBeforeYear_succ (y : Int) :
    daysBeforeYear (y + 1) = daysBeforeYear y + if isLeap y then 366 else 365 := by
  have h := isLeap_iff y
  unfold daysBeforeYear
  cases hl : isLeap y with
  | true => simp only [hl, true_iff] at h; simp only [if_true]; omega
  | false => simp only [hl, Bool.false_eq_true, false_iff] at h; simp only [Bool.false_eq_true, if_false]; omega

theorem daysBeforeYear_mono {a b : Int} (h : a ≤ b) : daysBeforeYear a ≤ daysBeforeYear b := by
  unfold daysBeforeYear; omega

theorem daysBeforeMonth_succ {y m : Int} (h1 : 1 ≤ m) (h2 : m < 12) :
    daysBeforeMonth y (m + 1) = daysBeforeMonth y m + monthLen y m := by
  have : m = 1 ∨ m = 2 ∨ m = 3 ∨ m = 4 ∨ m = 5 ∨ m = 6 ∨ m = 7 ∨ m = 8 ∨ m = 9 ∨ m = 10 ∨ m = 11 := by omega
  rcases this with rfl | rfl | rfl | rfl | rfl | rfl | rfl | rfl | rfl | rfl | rfl <;>
    cases hl : isLeap y <;> simp [daysBeforeMonth, monthLen, hl]

theorem daysBeforeMonth_year (y : Int) :
    daysBeforeMonth y 12 + monthLen y 12 = if isLeap y then 366 else 365 := by
  cases hl : isLeap y <;> simp [daysBeforeMonth, monthLen, hl]

theorem daysBeforeMonth_one (y : Int) : daysBeforeMonth y 1 = 0 := by
  simp [daysBeforeMonth]

theorem monthLen_ge (y m : Int) : 28 ≤ monthLen y m := by
  unfold monthLen; split <;> (try split) <;> omega

theorem monthLen_le (y m : Int) : monthLen y m ≤ 31 := by
  unfold monthLen; split <;> (try split) <;> omega

/-- later months begin later -/
theorem daysBeforeMonth_lt {y m m' : Int} (h1 : 1 ≤ m) (h2 : m < m') (h3 : m' ≤ 12) :
    daysBeforeMonth y m + monthLen y m ≤ daysBeforeMonth y m' := by
  have key : ∀ n : Nat, m + 1 + n ≤ 12 → daysBeforeMonth y m + monthLen y m ≤ daysBeforeMonth y (m + 1 + n) := by
    intro n
    induction n with
    | zero => intro h; rw [show m + 1 + ((0 : Nat) : Int) = m + 1 by omega, daysBeforeMonth_succ h1 (by omega)]; omega
    | succ n ih =>
      intro h
      have := ih (by omega)
      rw [show m + 1 + ((n + 1 : Nat) : Int) = (m + 1 + n) + 1 by omega, daysBeforeMonth_succ (by omega) (by omega)]
      have := monthLen_ge y (m + 1 + n)
      omega
  have := key (m' - (m + 1)).toNat (by omega)
  rw [show m + 1 + ((m' - (m + 1)).toNat : Int) = m' by omega] at this
  exact this

theorem ymd2ord_bounds {y m d : Int} (h : ValidDate y m d) :
    daysBeforeYear y < ymd2ord y m d ∧ ymd2ord y m d ≤ daysBeforeYear (y + 1) := by
  obtain ⟨h1, h2, h3, h4⟩ := h
  unfold ymd2ord
  have hy := daysBeforeYear_succ y
  have hm := daysBeforeMonth_year y
  have h0 : 0 ≤ daysBeforeMonth y m := by
    by_cases e : m = 1
    · subst e; rw [daysBeforeMonth_one]; omega
    · have := daysBeforeMonth_lt (y := y) (m := 1) (m' := m) (by omega) (by omega) h2
      rw [daysBeforeMonth_one] at this
      have := monthLen_ge y 1
      omega
  have h12 : daysBeforeMonth y m + monthLen y m ≤ daysBeforeMonth y 12 + monthLen y 12 := by
    by_cases e : m = 12
    · subst e; omega
    · have := daysBeforeMonth_lt (y := y) h1 (show m < 12 by omega) (by omega)
      have := monthLen_ge y 12
      omega
  omega

/-- lexicographic order of dates -/
def DateLt (y m d y' m' d' : Int) : Prop := y < y' ∨ (y = y' ∧ (m < m' ∨ (m = m' ∧ d < d')))

/-- ordinals are strictly increasing -/
theorem ymd2ord_lt {y m d y' m' d' : Int} (h : ValidDate y m d) (h' : ValidDate y' m' d')
    (hlt : DateLt y m d y' m' d') : ymd2ord y m d < ymd2ord y' m' d' := by
  rcases hlt with hlt | ⟨rfl, hlt | ⟨rfl, hlt⟩⟩
  · have := ymd2ord_bounds h
    have := ymd2ord_bounds h'
    have := daysBeforeYear_mono (show y + 1 ≤ y' by omega)
    omega
  · have := daysBeforeMonth_lt (y := y) h.1 hlt h'.2.1
    have := h.2.2.2
    have := h'.2.2.1
    unfold ymd2ord
    omega
  · unfold ymd2ord; omega

theorem ymd2ord_lt_iff {y m d y' m' d' : Int} (h : ValidDate y m d) (h' : ValidDate y' m' d') :
    ymd2ord y m d < ymd2ord y' m' d' ↔ DateLt y m d y' m' d' := by
  constructor
  · intro hlt
    by_cases c : DateLt y m d y' m' d'
    · exact c
    · by_cases c' : DateLt y' m' d' y m d
      · have := ymd2ord_lt h' h c'; omega
      · have : y = y' ∧ m = m' ∧ d = d' := by unfold DateLt at c c'; omega
        obtain ⟨rfl, rfl, rfl⟩ := this
        omega
  · exact ymd2ord_lt h h'

theorem ymd2ord_inj {y m d y' m' d' : Int} (h : ValidDate y m d) (h' : ValidDate y' m' d')
    (he : ymd2ord y m d = ymd2ord y' m' d') : y = y' ∧ m = m' ∧ d = d' := by
  have h1 := ymd2ord_lt_iff h h'
  have h2 := ymd2ord_lt_iff h' h
  rw [he] at h1 h2
  unfold DateLt at h1 h2
  omega

/-- the year found for an ordinal is the right one -/
theorem ordYear_spec (n : Int) : daysBeforeYear (ordYear n) < n ∧ n ≤ daysBeforeYear (ordYear n + 1) := by
  unfold ordYear
  simp only
  generalize hn : n - 1 = k
  obtain rfl : n = k + 1 := by omega
  generalize ha : k / 146097 = a
  generalize hb : k % 146097 = b
  generalize hc : b / 36524 = c
  generalize hd : b % 36524 = d
  generalize he : d / 1461 = e
  generalize hf : d % 1461 = f
  generalize hg : f / 365 = g
  have hk : k = 146097 * a + b := by omega
  have hb' : b = 36524 * c + d := by omega
  have hd' : d = 1461 * e + f := by omega
  have b0 : 0 ≤ b ∧ b < 146097 := by omega
  have d0 : 0 ≤ d ∧ d < 36524 := by omega
  have f0 : 0 ≤ f ∧ f < 1461 := by omega
  have c0 : 0 ≤ c ∧ c ≤ 4 := by omega
  have e0 : 0 ≤ e ∧ e ≤ 24 := by omega
  have g0 : 0 ≤ g ∧ g ≤ 4 := by omega
  have gf : 365 * g ≤ f ∧ f < 365 * g + 365 := by omega
  clear ha hb hc hd he hf hg hn
  subst hk hb' hd'
  rw [daysBeforeYear_succ]
  split
  · next h =>
    rcases h with h | h
    · subst h
      have c3 : c ≤ 3 := by omega
      have e23 : e ≤ 23 := by omega
      have hl : isLeap (a * 400 + 1 + c * 100 + e * 4 + 4 - 1) = true := by rw [isLeap_iff]; omega
      rw [hl]
      unfold daysBeforeYear
      have q1 : (a * 400 + 1 + c * 100 + e * 4 + 4 - 1 - 1) / 4 = 100 * a + 25 * c + e := by omega
      have q2 : (a * 400 + 1 + c * 100 + e * 4 + 4 - 1 - 1) / 100 = 4 * a + c := by omega
      have q3 : (a * 400 + 1 + c * 100 + e * 4 + 4 - 1 - 1) / 400 = a := by omega
      rw [q1, q2, q3]
      simp only [if_true]
      omega
    · subst h
      have : e = 0 ∧ f = 0 ∧ g = 0 := by omega
      obtain ⟨rfl, rfl, rfl⟩ := this
      have hl : isLeap (a * 400 + 1 + 4 * 100 + 0 * 4 + 0 - 1) = true := by rw [isLeap_iff]; omega
      rw [hl]
      unfold daysBeforeYear
      simp only [if_true]
      omega
  · next h =>
    have hc3 : c ≤ 3 := by omega
    have hg3 : g ≤ 3 := by omega
    have q1 : (a * 400 + 1 + c * 100 + e * 4 + g - 1) / 4 = 100 * a + 25 * c + e := by omega
    have q2 : (a * 400 + 1 + c * 100 + e * 4 + g - 1) / 100 = 4 * a + c := by omega
    have q3 : (a * 400 + 1 + c * 100 + e * 4 + g - 1) / 400 = a := by omega
    unfold daysBeforeYear
    rw [q1, q2, q3]
    split <;> omega

theorem monthOf_spec {y n : Int} (h0 : 0 ≤ n) (h1 : n < if isLeap y then 366 else 365) :
    1 ≤ monthOf y n ∧ monthOf y n ≤ 12 ∧ daysBeforeMonth y (monthOf y n) ≤ n ∧
      n < daysBeforeMonth y (monthOf y n) + monthLen y (monthOf y n) := by
  have step : ∀ m, 1 ≤ m → m < 12 → daysBeforeMonth y m ≤ n → n < daysBeforeMonth y (m + 1) →
      1 ≤ m ∧ m ≤ 12 ∧ daysBeforeMonth y m ≤ n ∧ n < daysBeforeMonth y m + monthLen y m := by
    intro m a b c d
    rw [daysBeforeMonth_succ a b] at d
    exact ⟨a, Int.le_of_lt b, c, d⟩
  have last : daysBeforeMonth y 12 ≤ n →
      1 ≤ (12 : Int) ∧ (12 : Int) ≤ 12 ∧ daysBeforeMonth y 12 ≤ n ∧ n < daysBeforeMonth y 12 + monthLen y 12 := by
    intro c
    rw [daysBeforeMonth_year]
    exact ⟨by decide, by decide, c, h1⟩
  have first : daysBeforeMonth y 1 ≤ n := by rw [daysBeforeMonth_one]; exact h0
  unfold monthOf
  by_cases c2 : n < daysBeforeMonth y 2
  · rw [if_pos c2]; exact step 1 (by decide) (by decide) first c2
  rw [if_neg c2]
  by_cases c3 : n < daysBeforeMonth y 3
  · rw [if_pos c3]; exact step 2 (by decide) (by decide) (Int.not_lt.1 c2) c3
  rw [if_neg c3]
  by_cases c4 : n < daysBeforeMonth y 4
  · rw [if_pos c4]; exact step 3 (by decide) (by decide) (Int.not_lt.1 c3) c4
  rw [if_neg c4]
  by_cases c5 : n < daysBeforeMonth y 5
  · rw [if_pos c5]; exact step 4 (by decide) (by decide) (Int.not_lt.1 c4) c5
  rw [if_neg c5]
  by_cases c6 : n < daysBeforeMonth y 6
  · rw [if_pos c6]; exact step 5 (by decide) (by decide) (Int.not_lt.1 c5) c6
  rw [if_neg c6]
  by_cases c7 : n < daysBeforeMonth y 7
  · rw [if_pos c7]; exact step 6 (by decide) (by decide) (Int.not_lt.1 c6) c7
  rw [if_neg c7]
  by_cases c8 : n < daysBeforeMonth y 8
  · rw [if_pos c8]; exact step 7 (by decide) (by decide) (Int.not_lt.1 c7) c8
  rw [if_neg c8]
  by_cases c9 : n < daysBeforeMonth y 9
  · rw [if_pos c9]; exact step 8 (by decide) (by decide) (Int.not_lt.1 c8) c9
  rw [if_neg c9]
  by_cases c10 : n < daysBeforeMonth y 10
  · rw [if_pos c10]; exact step 9 (by decide) (by decide) (Int.not_lt.1 c9) c10
  rw [if_neg c10]
  by_cases c11 : n < daysBeforeMonth y 11
  · rw [if_pos c11]; exact step 10 (by decide) (by decide) (Int.not_lt.1 c10) c11
  rw [if_neg c11]
  by_cases c12 : n < daysBeforeMonth y 12
  · rw [if_pos c12]; exact step 11 (by decide) (by decide) (Int.not_lt.1 c11) c12
  rw [if_neg c12]
  exact last (Int.not_lt.1 c12)

/-- the broken-down time is a date with that ordinal and a clock time -/
theorem tmOf_spec (o s : Int) :
    ValidDate (tmOf o s).year (tmOf o s).mon (tmOf o s).mday ∧
      ymd2ord (tmOf o s).year (tmOf o s).mon (tmOf o s).mday = o := by
  obtain ⟨h1, h2⟩ := ordYear_spec o
  rw [daysBeforeYear_succ] at h2
  obtain ⟨m1, m2, m3, m4⟩ := monthOf_spec (y := ordYear o) (n := o - 1 - daysBeforeYear (ordYear o))
    (by omega) (by omega)
  simp only [tmOf, ValidDate, ymd2ord]
  omega

theorem gmtime_date (s : Int) : ValidDate (gmtime s).year (gmtime s).mon (gmtime s).mday ∧
    ymd2ord (gmtime s).year (gmtime s).mon (gmtime s).mday = s / 86400 + epochOrd := tmOf_spec _ _

theorem gmtime_clock (s : Int) : 0 ≤ (gmtime s).hour ∧ (gmtime s).hour < 24 ∧ 0 ≤ (gmtime s).min ∧
    (gmtime s).min < 60 ∧ 0 ≤ (gmtime s).sec ∧ (gmtime s).sec < 60 ∧
    (gmtime s).hour * 3600 + (gmtime s).min * 60 + (gmtime s).sec = s % 86400 := by
  simp only [gmtime, tmOf]
  omega

theorem timegm_gmtime (s : Int) : timegm (gmtime s) = s := by
  obtain ⟨_, h1⟩ := gmtime_date s
  obtain ⟨_, _, _, _, _, _, h2⟩ := gmtime_clock s
  unfold timegm ymd2ord at *
  omega

theorem gmtime_inj {a b : Int} (h : gmtime a = gmtime b) : a = b := by
  rw [← timegm_gmtime a, ← timegm_gmtime b, h]

/-- the order of broken-down times is that of epoch seconds -/
theorem gmtime_lt_iff (a b : Int) : Tm.lt (gmtime a) (gmtime b) = true ↔ a < b := by
  obtain ⟨va, oa⟩ := gmtime_date a
  obtain ⟨vb, ob⟩ := gmtime_date b
  obtain ⟨a1, a2, a3, a4, a5, a6, ca⟩ := gmtime_clock a
  obtain ⟨b1, b2, b3, b4, b5, b6, cb⟩ := gmtime_clock b
  have hd := ymd2ord_lt_iff va vb
  have hd' := ymd2ord_lt_iff vb va
  rw [oa, ob] at hd hd'
  unfold DateLt at hd hd'
  by_cases e : a = b
  · subst e
    simp [Tm.lt, Tm.tuple, tupleLt]
  · simp only [Tm.lt, Tm.tuple, tupleLt]
    split
    · split
      · split
        · split
          · split
            · split
              · exfalso; omega
              · simp only [decide_eq_true_eq]; omega
            · simp only [decide_eq_true_eq]; omega
          · simp only [decide_eq_true_eq]; omega
        · simp only [decide_eq_true_eq]; omega
      · simp only [decide_eq_true_eq]; omega
    · simp only [decide_eq_true_eq]; omega

/-- `gmtime` of the seconds of a date and clock time gives them back -/
theorem gmtime_fields {y m d h mi s : Int} (hv : ValidDate y m d) (h1 : 0 ≤ h) (h2 : h < 24) (h3 : 0 ≤ mi)
    (h4 : mi < 60) (h5 : 0 ≤ s) (h6 : s < 60) (x : Int)
    (hx : x = (ymd2ord y m d - epochOrd) * 86400 + h * 3600 + mi * 60 + s) :
    (gmtime x).year = y ∧ (gmtime x).mon = m ∧ (gmtime x).mday = d ∧ (gmtime x).hour = h ∧ (gmtime x).min = mi ∧
      (gmtime x).sec = s := by
  obtain ⟨v, o⟩ := gmtime_date x
  obtain ⟨a1, a2, a3, a4, a5, a6, c⟩ := gmtime_clock x
  have e : ymd2ord (gmtime x).year (gmtime x).mon (gmtime x).mday = ymd2ord y m d := by rw [o]; omega
  obtain ⟨e1, e2, e3⟩ := ymd2ord_inj v hv e
  refine ⟨e1, e2, e3, ?_, ?_, ?_⟩ <;> omega

end Verif
