import Verif.Model.IsoTime
import Verif.Props.Time

/-!
# C90: ISO 8601 time stamps and dates survive writing and reading
-/

namespace Verif

theorem natDigits_pad4 {n : Nat} (h1 : 1000 ≤ n) (h2 : n ≤ 9999) : natDigits n = pad4 n := by
  rw [natDigits, if_neg (by omega), natDigits, if_neg (by omega), natDigits, if_neg (by omega), natDigits,
    if_pos (by omega)]
  simp only [pad4, pad2, digit, List.nil_append, List.cons_append]
  rw [show n / 10 / 10 / 10 = n / 100 / 10 by omega, show n / 10 / 10 % 10 = n / 100 % 10 by omega,
    show n / 10 % 10 = n % 100 / 10 by omega, show n % 10 = n % 100 % 10 by omega]

theorem intRepr_pad4 {y : Int} (h1 : 1000 ≤ y) (h2 : y ≤ 9999) : intRepr y = pad4 y.toNat := by
  obtain ⟨n, rfl⟩ : ∃ n : Nat, y = n := ⟨y.toNat, by omega⟩
  exact natDigits_pad4 (by omega) (by omega)

theorem natDigits_short {n : Nat} (h : n < 1000) : (natDigits n).length ≤ 3 := by
  rw [natDigits]
  split
  · simp
  · rw [natDigits]
    split
    · simp
    · rw [natDigits, if_pos (by omega)]; simp

theorem twoDigits_pad {n : Nat} (h : n < 100) : twoDigits (digit (n / 10)) (digit (n % 10)) = some n := by
  simp only [twoDigits, decimal_digit (show n / 10 < 10 by omega), decimal_digit (show n % 10 < 10 by omega)]
  congr 1; omega

theorem sixtyDigits_pad {n : Nat} (h : n < 100) : sixtyDigits (digit (n / 10)) (digit (n % 10)) = some n := by
  simp only [sixtyDigits, digitVal_digit (show n / 10 < 10 by omega), decimal_digit (show n % 10 < 10 by omega)]
  congr 1; omega

theorem strpOffset_zone {n : Nat} (neg : Bool) (h : n < 86400) :
    strpOffset neg (pad2 (n / 3600) ++ (pad2 (n / 60 % 60) ++ (if n % 60 = 0 then [] else pad2 (n % 60)))) =
      some (if neg then -(n : Int) else n) := by
  have e1 := twoDigits_pad (show n / 3600 < 100 by omega)
  have e2 := sixtyDigits_pad (show n / 60 % 60 < 100 by omega)
  have e3 := sixtyDigits_pad (show n % 60 < 100 by omega)
  split
  · simp only [pad2, List.cons_append, List.nil_append, strpOffset, e1, e2, mkOffset]
    rw [if_pos (by omega)]
    congr 1
    cases neg <;> simp <;> omega
  · simp only [pad2, List.cons_append, List.nil_append, strpOffset, e1, e2, e3, mkOffset]
    rw [if_pos (by omega)]
    congr 1
    cases neg <;> simp <;> omega

/-- C90: an offset written with colons is read as the same offset. -/
theorem C90_colons {n : Nat} (neg : Bool) (h : n < 86400) :
    strpOffset neg (pad2 (n / 3600) ++ ':' :: (pad2 (n / 60 % 60) ++ (if n % 60 = 0 then [] else ':' :: pad2 (n % 60)))) =
      some (if neg then -(n : Int) else n) := by
  have e1 := twoDigits_pad (show n / 3600 < 100 by omega)
  have e2 := sixtyDigits_pad (show n / 60 % 60 < 100 by omega)
  have e3 := sixtyDigits_pad (show n % 60 < 100 by omega)
  split
  · simp only [pad2, List.cons_append, List.nil_append, strpOffset, e1, e2, mkOffset]
    simp only [if_true]
    rw [if_pos (by omega)]
    congr 1
    cases neg <;> simp <;> omega
  · simp only [pad2, List.cons_append, List.nil_append, strpOffset, e1, e2, e3, mkOffset]
    simp only [and_self, if_true]
    rw [if_pos (by omega)]
    congr 1
    cases neg <;> simp <;> omega

/-- C90: the offset read is less than a day, whatever the text. -/
theorem C90_offset_range {neg : Bool} {s : List Char} {o : Int} (h : strpOffset neg s = some o) : -86400 < o ∧ o < 86400 := by
  have key : ∀ a b c, mkOffset neg a b c = some o → -86400 < o ∧ o < 86400 := by
    intro a b c h
    unfold mkOffset at h
    split at h
    · split at h
      · cases h
        cases neg <;> simp <;> omega
      · cases h
    · cases h
  unfold strpOffset at h
  split at h
  · exact key _ _ _ h
  · split at h
    · exact key _ _ _ h
    · cases h
  · exact key _ _ _ h
  · split at h
    · exact key _ _ _ h
    · cases h
  · cases h

theorem sign_not_mem_pad2 {n : Nat} (h : n < 100) : '+' ∉ pad2 n ∧ '-' ∉ pad2 n := by
  have hd : ∀ k, k < 10 → digit k ≠ '+' ∧ digit k ≠ '-' := by decide
  constructor
  · intro hc
    obtain ⟨k, hk, e⟩ := mem_pad2 h hc
    exact (hd k hk).1 e.symm
  · intro hc
    obtain ⟨k, hk, e⟩ := mem_pad2 h hc
    exact (hd k hk).2 e.symm

theorem point_not_mem_pad2 {n : Nat} (h : n < 100) : '.' ∉ pad2 n := by
  intro hc
  obtain ⟨k, hk, e⟩ := mem_pad2 h hc
  exact (digit_facts k hk).2.2.2.2.2.2.1 e.symm

theorem strpOffsetUs_zone {n : Nat} (neg : Bool) (h : n < 86400) :
    strpOffsetUs neg (pad2 (n / 3600) ++ (pad2 (n / 60 % 60) ++ (if n % 60 = 0 then [] else pad2 (n % 60)))) =
      some ((if neg then -(n : Int) else n) * 1000000) := by
  have hp : '.' ∉ pad2 (n / 3600) ++ (pad2 (n / 60 % 60) ++ (if n % 60 = 0 then [] else pad2 (n % 60))) := by
    simp only [List.mem_append, not_or]
    refine ⟨point_not_mem_pad2 (by omega), point_not_mem_pad2 (by omega), ?_⟩
    split
    · simp
    · exact point_not_mem_pad2 (by omega)
  unfold strpOffsetUs
  rw [splitFirst_none_iff.2 ⟨rfl, hp⟩]
  simp only [strpOffset_zone neg h, addFrac]
  cases neg <;> simp

theorem strpSecOff_text {s : Nat} {off : Int} (hs : s ≤ 59) (h1 : -86400 < off) (h2 : off < 86400) :
    strpSecOff (pad2 s ++ isoZoneText off) = some (s, off * 1000000) := by
  obtain ⟨p1, p2⟩ := sign_not_mem_pad2 (show s < 100 by omega)
  have hz : off.natAbs < 86400 := by omega
  unfold isoZoneText strpSecOff
  by_cases hn : off < 0
  · have hplus : '+' ∉ pad2 s ++ '-' :: (pad2 (off.natAbs / 3600) ++ (pad2 (off.natAbs / 60 % 60) ++
        (if off.natAbs % 60 = 0 then [] else pad2 (off.natAbs % 60)))) := by
      simp only [List.mem_append, List.mem_cons, not_or]
      refine ⟨p1, by decide, (sign_not_mem_pad2 (by omega)).1, (sign_not_mem_pad2 (by omega)).1, ?_⟩
      split
      · simp
      · exact (sign_not_mem_pad2 (by omega)).1
    simp only [hn, if_true]
    rw [splitFirst_none_iff.2 ⟨rfl, hplus⟩]
    simp only []
    rw [splitFirst_some_iff.2 ⟨rfl, p2⟩]
    simp only [strpTwo_pad2 hs (by decide), strpOffsetUs_zone true hz, if_true]
    congr 2; omega
  · simp only [hn, if_false]
    rw [splitFirst_some_iff.2 ⟨rfl, p1⟩]
    simp only [strpTwo_pad2 hs (by decide), strpOffsetUs_zone false hz]
    simp only [Bool.false_eq_true, if_false]
    congr 2; omega

theorem strpClockOff_text {h mi s : Nat} {off : Int} (e1 : h ≤ 23) (e2 : mi ≤ 59) (e3 : s ≤ 59) (h1 : -86400 < off)
    (h2 : off < 86400) :
    strpClockOff (pad2 h ++ ':' :: (pad2 mi ++ ':' :: (pad2 s ++ isoZoneText off))) = some (h, mi, s, off * 1000000) := by
  have m : strpMinSecOff (pad2 mi ++ ':' :: (pad2 s ++ isoZoneText off)) = some (mi, s, off * 1000000) := by
    unfold strpMinSecOff
    rw [splitFirst_some_iff.2 ⟨rfl, colon_not_mem_pad2 (by omega)⟩]
    simp only [strpTwo_pad2 e2 (by decide), strpSecOff_text e3 h1 h2]
  unfold strpClockOff
  rw [splitFirst_some_iff.2 ⟨rfl, colon_not_mem_pad2 (by omega)⟩]
  simp only [strpTwo_pad2 e1 (by decide), m]

/-- the fields of a local time as natural numbers -/
theorem timegm_fields (x : Int) (h : 1 ≤ (gmtime x).year) :
    timegm (tmFields (gmtime x).year.toNat (gmtime x).mon.toNat (gmtime x).mday.toNat (gmtime x).hour.toNat
      (gmtime x).min.toNat (gmtime x).sec.toNat) = x := by
  obtain ⟨hv, _⟩ := gmtime_date x
  obtain ⟨a1, a2, a3, a4, a5, a6, _⟩ := gmtime_clock x
  obtain ⟨v1, v2, v3, v4⟩ := hv
  have ey : ((gmtime x).year.toNat : Int) = (gmtime x).year := by omega
  have em : ((gmtime x).mon.toNat : Int) = (gmtime x).mon := by omega
  have ed : ((gmtime x).mday.toNat : Int) = (gmtime x).mday := by omega
  have eh : ((gmtime x).hour.toNat : Int) = (gmtime x).hour := by omega
  have emi : ((gmtime x).min.toNat : Int) = (gmtime x).min := by omega
  have es : ((gmtime x).sec.toNat : Int) = (gmtime x).sec := by omega
  have := timegm_gmtime x
  unfold timegm at this ⊢
  simp only [tmFields, ey, em, ed, eh, emi, es]
  exact this

theorem strpDate_text (x : Int) (h1 : 1000 ≤ (gmtime x).year) (h2 : (gmtime x).year ≤ 9999) :
    strpDate (isoDateText x) = some ((gmtime x).year.toNat, (gmtime x).mon.toNat, (gmtime x).mday.toNat) := by
  obtain ⟨hv, _⟩ := gmtime_date x
  obtain ⟨v1, v2, v3, v4⟩ := hv
  have em : ((gmtime x).mon.toNat : Int) = (gmtime x).mon := by omega
  have ed : ((gmtime x).mday.toNat : Int) = (gmtime x).mday := by omega
  have ey : ((gmtime x).year.toNat : Int) = (gmtime x).year := by omega
  unfold isoDateText
  rw [intRepr_pad4 h1 h2]
  exact strpDate_pad (by omega) (by omega) (by omega) (by omega) (by omega) (by rw [ey, em, ed]; exact v4)

theorem fromIsoTime_text (x off : Int) (h1 : 1000 ≤ (gmtime x).year) (h2 : (gmtime x).year ≤ 9999) (o1 : -86400 < off)
    (o2 : off < 86400) : fromIsoTime (isoTimeText x off) = some ((x - off) * 1000000) := by
  obtain ⟨hv, _⟩ := gmtime_date x
  obtain ⟨a1, a2, a3, a4, a5, a6, _⟩ := gmtime_clock x
  obtain ⟨v1, v2, v3, v4⟩ := hv
  have := monthLen_le (gmtime x).year (gmtime x).mon
  have hT : ∀ c ∈ isoDateText x, (decide (c = 'T') || decide (c = 't')) = false := by
    unfold isoDateText
    rw [intRepr_pad4 h1 h2]
    exact date_no_T (by omega) (by omega) (by omega)
  unfold fromIsoTime isoTimeText
  rw [splitFirstP_some hT (by decide)]
  simp only [strpDate_text x h1 h2, strpClockOff_text (show (gmtime x).hour.toNat ≤ 23 by omega)
    (show (gmtime x).min.toNat ≤ 59 by omega) (show (gmtime x).sec.toNat ≤ 59 by omega) o1 o2,
    timegm_fields x (by omega)]
  congr 1; omega

theorem isUnits_whole {n : Nat} (h : n < 2 ^ 53) : IsUnits (n * unitDen) := ⟨n, 1074, h, by unfold unitDen; rfl⟩

/-- a whole number of seconds needs no rounding -/
theorem secondsOfUs_whole {x : Int} (h : x.natAbs < 2 ^ 53) : secondsOfUs (x * 1000000) = x := by
  unfold secondsOfUs
  have e1 : roundUnits (x * 1000000).natAbs 1000000 = x.natAbs * unitDen := by
    rw [roundUnits_cross (n' := x.natAbs * unitDen) (d' := unitDen) (by decide) unitDen_pos,
      roundUnits_exact (isUnits_whole h)]
    rw [Int.natAbs_mul]
    show x.natAbs * 1000000 * unitDen = x.natAbs * unitDen * 1000000
    rw [Nat.mul_right_comm]
  rw [e1]
  unfold fltOfUnits
  have e2 : (if decide (x * 1000000 < 0) then -((x.natAbs * unitDen : Nat) : Int) else ((x.natAbs * unitDen : Nat) : Int)) =
      x * unitDen := by
    rw [Int.natCast_mul]
    by_cases hx : x < 0
    · rw [if_pos (by simp; omega), ← Int.neg_mul]
      congr 1; omega
    · rw [if_neg (by simp; omega)]
      congr 1; omega
  rw [e2]
  have := Rat.mkRat_eq_iff (n₁ := x * unitDen) (n₂ := x) (d₁ := unitDen) (d₂ := 1) (Nat.ne_of_gt unitDen_pos) (by decide)
  rw [this.2 (by simp)]
  exact Rat.mkRat_one x

theorem year_mono {a b : Int} (h : a ≤ b) : (gmtime a).year ≤ (gmtime b).year := by
  refine Int.not_lt.1 fun hlt => ?_
  have : Tm.lt (gmtime b) (gmtime a) = true := by
    have hne : (gmtime b).year ≠ (gmtime a).year := by omega
    simp [Tm.lt, Tm.tuple, tupleLt, hne, hlt]
  rw [gmtime_lt_iff] at this
  omega

/-- the seconds of four digits of years -/
theorem year_range {x : Int} (h1 : 1 ≤ (gmtime x).year) (h2 : (gmtime x).year ≤ 9999) :
    -62135596800 ≤ x ∧ x < 253402300800 := by
  constructor
  · refine Int.not_lt.1 fun h => ?_
    have := year_mono (show x ≤ -62135596801 by omega)
    rw [show (gmtime (-62135596801)).year = 0 by decide +kernel] at this
    omega
  · refine Int.lt_of_not_ge fun h => ?_
    have := year_mono (show 253402300800 ≤ x by omega)
    rw [show (gmtime 253402300800).year = 10000 by decide +kernel] at this
    omega

/-- the float read for a written time -/
theorem fromIso_text (z : Zone) (x off : Int) (h1 : 1000 ≤ (gmtime x).year) (h2 : (gmtime x).year ≤ 9999)
    (o1 : -86400 < off) (o2 : off < 86400) :
    fromIso z .time (isoTimeText x off) = .ok (.flt ((x - off : Int) : Rat)) := by
  obtain ⟨b1, b2⟩ := year_range (by omega) h2
  simp only [fromIso, fromIsoTime_text x off h1 h2 o1 o2, Option.map_some]
  rw [secondsOfUs_whole (by omega)]

/-- C90, exactly: an instant other than 0 comes back shifted by the difference between the offset of the local zone at
that instant and the one found for now. -/
theorem C90_exact (z : Zone) (ltz now i : Int) (h0 : i ≠ 0) (h1 : 1000 ≤ (gmtime (i + z i)).year)
    (h2 : (gmtime (i + z i)).year ≤ 9999) (o1 : -86400 < ltz) (o2 : ltz < 86400) :
    ∃ t, isoSer z ltz now .time (.int i) = .ok (.str t) ∧
      isoDeser z .time (.str t) = .ok (.flt ((i + z i - ltz : Int) : Rat)) := by
  refine ⟨String.ofList (isoTimeText (i + z i) ltz), ?_, ?_⟩
  · simp only [isoSer, pyInt, toIso, if_neg h0, fromTimestamp]
    rw [if_pos ⟨by omega, h2⟩]
    rfl
  · simp only [isoDeser, String.toList_ofList, fromIso_text _ _ _ h1 h2 o1 o2]

/-- C90 where it holds: the offset at the instant is the offset now. -/
theorem C90_partial (z : Zone) (ltz now i : Int) (hz : z i = ltz) (h0 : i ≠ 0)
    (h1 : 1000 ≤ (gmtime (i + z i)).year) (h2 : (gmtime (i + z i)).year ≤ 9999) (o1 : -86400 < ltz) (o2 : ltz < 86400) :
    ∃ t v, isoSer z ltz now .time (.int i) = .ok (.str t) ∧ isoDeser z .time (.str t) = .ok v ∧
      Val.eq v (.int i) = true := by
  obtain ⟨t, e1, e2⟩ := C90_exact z ltz now i h0 h1 h2 o1 o2
  refine ⟨t, _, e1, e2, ?_⟩
  rw [show i + z i - ltz = i by omega]
  simp [Val.eq, Val.num?]

/-- C90 fails exactly when the offset differs. -/
theorem C90_shifted (z : Zone) (ltz now i : Int) (hz : z i ≠ ltz) (h0 : i ≠ 0)
    (h1 : 1000 ≤ (gmtime (i + z i)).year) (h2 : (gmtime (i + z i)).year ≤ 9999) (o1 : -86400 < ltz) (o2 : ltz < 86400) :
    ∃ t v, isoSer z ltz now .time (.int i) = .ok (.str t) ∧ isoDeser z .time (.str t) = .ok v ∧
      Val.eq v (.int i) = false := by
  obtain ⟨t, e1, e2⟩ := C90_exact z ltz now i h0 h1 h2 o1 o2
  refine ⟨t, _, e1, e2, ?_⟩
  have : ((i + z i - ltz : Int) : Rat) ≠ (i : Rat) := by
    intro h
    have := Rat.intCast_inj.1 h
    omega
  simp only [Val.eq, Val.num?]
  simpa using this

/-- The instant 0 is written as the current time. -/
theorem C90_zero (z : Zone) (ltz now : Int) (fmt : IsoFmt) (v : Val)
    (hv : v = .int 0 ∨ v = .bool false ∨ v = .flt 0 ∨ v = .str "0") :
    isoSer z ltz now fmt v = .ok (.str (String.ofList (isoText fmt (now + z now) ltz))) := by
  rcases hv with rfl | rfl | rfl | rfl
  · rfl
  · rfl
  · have : pyInt (.flt 0) = some 0 := by decide
    simp only [isoSer, this, toIso]; rfl
  · have : pyInt (.str "0") = some 0 := by decide +kernel
    simp only [isoSer, this, toIso]; rfl

theorem C90_counterexample_zero : isoSer (fun _ => 0) 0 1700000000 .time (.int 0) = .ok (.str "2023-11-14T22:13:20+0000") := by
  decide +kernel

/-- one hour of summer time between the instants 1711846800 and 1729990800 -/
def berlin (u : Int) : Int := if 1711846800 ≤ u ∧ u < 1729990800 then 7200 else 3600

/-- An instant in summer, written in winter, comes back an hour late. -/
theorem C90_counterexample_summer :
    isoSer berlin 3600 1700000000 .time (.int 1720000000) = .ok (.str "2024-07-03T11:46:40+0100") ∧
    isoDeser berlin .time (.str "2024-07-03T11:46:40+0100") = .ok (.flt 1720003600) := by decide +kernel

/-- The format the documentation names, an offset of two digits, is refused. -/
theorem C90_documented_refused : isoDeser (fun _ => 0) .time (.str "2024-07-03T11:46:40+01") = .error .valueError := by
  decide +kernel

/-- Before the year 1000 the year is written with fewer digits than can be read. -/
theorem C90_short_year (z : Zone) (ltz now i : Int) (h0 : i ≠ 0) (h1 : 1 ≤ (gmtime (i + z i)).year)
    (h2 : (gmtime (i + z i)).year < 1000) :
    ∃ t, isoSer z ltz now .date (.int i) = .ok (.str t) ∧ isoDeser z .date (.str t) = .error .valueError := by
  refine ⟨String.ofList (isoDateText (i + z i)), ?_, ?_⟩
  · simp only [isoSer, pyInt, toIso, if_neg h0, fromTimestamp]
    rw [if_pos ⟨h1, by omega⟩]
    rfl
  · have : strpDate (isoDateText (i + z i)) = none := by
      obtain ⟨n, hn⟩ : ∃ n : Nat, (gmtime (i + z i)).year = n := ⟨(gmtime (i + z i)).year.toNat, by omega⟩
      have hi : intRepr (gmtime (i + z i)).year = natDigits n := by rw [hn]; rfl
      have hm : '-' ∉ natDigits n := by
        intro hc
        have := natDigits_digit n _ hc
        revert this; decide
      unfold strpDate isoDateText
      rw [hi, splitFirst_some_iff.2 ⟨rfl, hm⟩]
      have hy : strpYear (natDigits n) = none := by
        have := natDigits_short (n := n) (by omega)
        match natDigits n, this with
        | [], _ => rfl
        | [_], _ => rfl
        | [_, _], _ => rfl
        | [_, _, _], _ => rfl
        | _ :: _ :: _ :: _ :: _, h => simp at h
      simp only [hy]
    simp only [isoDeser, String.toList_ofList, fromIso, fromIsoDate, this, Option.map_none]

/-! ## dates -/

theorem mktime_const {z : Zone} {t o : Int} (h : ∀ u, t - 3 * 86400 ≤ u → u ≤ t + 3 * 86400 → z u = o)
    (o1 : -86400 < o) (o2 : o < 86400) : pyMktime z t = t - o := by
  have e1 : z t = o := h t (by omega) (by omega)
  have e2 : z (t - o) = o := h _ (by omega) (by omega)
  have e3 : z (t - o - 86400) = o := h _ (by omega) (by omega)
  simp only [pyMktime, e1, e2]
  rw [if_pos ⟨by omega, by rw [if_pos (by omega), e3]⟩]

theorem timegm_midnight (x : Int) (h : 1 ≤ (gmtime x).year) :
    timegm (tmFields (gmtime x).year.toNat (gmtime x).mon.toNat (gmtime x).mday.toNat 0 0 0) = x - x % 86400 := by
  have e := timegm_fields x h
  obtain ⟨a1, a2, a3, a4, a5, a6, a7⟩ := gmtime_clock x
  unfold timegm tmFields at *
  simp only at *
  omega

/-- Dates: what comes back is the beginning of the local day, when the offset of the zone does not change for three days
around it. -/
theorem C90_date (z : Zone) (ltz now i o : Int) (h0 : i ≠ 0)
    (h1 : 1000 ≤ (gmtime (i + o)).year) (h2 : (gmtime (i + o)).year ≤ 9999)
    (hz : ∀ u, i - 5 * 86400 ≤ u → u ≤ i + 5 * 86400 → z u = o) (o1 : -86400 < o) (o2 : o < 86400) :
    ∃ t, isoSer z ltz now .date (.int i) = .ok (.str t) ∧
      isoDeser z .date (.str t) = .ok (.flt ((i - (i + o) % 86400 : Int) : Rat)) := by
  have ho : z i = o := hz i (by omega) (by omega)
  refine ⟨String.ofList (isoDateText (i + o)), ?_, ?_⟩
  · simp only [isoSer, pyInt, toIso, if_neg h0, fromTimestamp, ho]
    rw [if_pos ⟨by omega, h2⟩]
    rfl
  · simp only [isoDeser, String.toList_ofList, fromIso, fromIsoDate, strpDate_text _ h1 h2,
      timegm_midnight (i + o) (by omega)]
    rw [Option.map_some, mktime_const (o := o) (fun u u1 u2 => hz u (by omega) (by omega)) o1 o2]
    rw [show i + o - (i + o) % 86400 - o = i - (i + o) % 86400 by omega]

/-- `pyMktime` finds an instant with the given local time when there is one a bit around it. -/
example : pyMktime berlin (1711846800 + 3600 + 1800) = 1711846800 + 1800 := by decide +kernel
example : pyMktime berlin (1729990800 + 3600 + 1800) = 1729990800 + 1800 - 3600 := by decide +kernel

/-- the hypotheses can be met -/
example : ∃ t v, isoSer berlin 3600 1700000000 .time (.int 1700000001) = .ok (.str t) ∧
    isoDeser berlin .time (.str t) = .ok v ∧ Val.eq v (.int 1700000001) = true :=
  C90_partial berlin 3600 1700000000 1700000001 (by decide) (by decide) (by decide +kernel) (by decide +kernel)
    (by decide) (by decide)
example : ∃ t, isoSer berlin 3600 1700000000 .time (.int 1720000000) = .ok (.str t) ∧
    isoDeser berlin .time (.str t) = .ok (.flt ((1720000000 + berlin 1720000000 - 3600 : Int) : Rat)) :=
  C90_exact berlin 3600 1700000000 1720000000 (by decide) (by decide +kernel) (by decide +kernel) (by decide) (by decide)
example : ∃ t, isoSer berlin 3600 1700000000 .date (.int (-40000000000)) = .ok (.str t) ∧
    isoDeser berlin .date (.str t) = .error .valueError :=
  C90_short_year berlin 3600 1700000000 (-40000000000) (by decide) (by decide +kernel) (by decide +kernel)
example : ∃ t, isoSer berlin 3600 1700000000 .date (.int 1700000001) = .ok (.str t) ∧
    isoDeser berlin .date (.str t) = .ok (.flt ((1700000001 - (1700000001 + 3600) % 86400 : Int) : Rat)) := by
  refine C90_date berlin 3600 1700000000 1700000001 3600 (by decide) (by decide +kernel) (by decide +kernel) ?_
    (by decide) (by decide)
  intro u h1 h2
  unfold berlin
  rw [if_neg (by omega)]

end Verif
