import Verif.Props.Encoding
import Verif.Py.Time

/-!
# C128: floating point numbers in JSON documents
-/

namespace Verif

/-- the value of a number text: its digits times a power of ten -/
def NumText.value (neg : Bool) (t : NumText) : Rat :=
  let x := t.expVal - t.frac.length
  mkRat ((if neg then -1 else 1) * (digitsVal (t.int ++ t.frac) * 10 ^ x.toNat : Nat)) (10 ^ (-x).toNat)

/-- the text with its sign -/
def NumText.signed (neg : Bool) (t : NumText) : List Char := (if neg then ['-'] else []) ++ t.text

theorem signed_start (neg : Bool) (t : NumText) (h : t.Ok) :
    ∃ c r, t.signed neg = c :: r ∧ (isDigitC c = true ∨ c = '-') := by
  cases neg with
  | true => exact ⟨'-', t.text, rfl, .inr rfl⟩
  | false =>
    unfold NumText.signed NumText.text
    cases hi : t.int with
    | nil => exact absurd hi h.int_ne
    | cons c cs => exact ⟨c, _, rfl, .inl (h.int_digits c (by rw [hi]; simp))⟩

/-- A document that is a number is read by the number scanner. -/
theorem loads_text (neg : Bool) (t : NumText) (h : t.Ok) : loads (String.ofList (t.signed neg)) = t.result neg := by
  obtain ⟨c, r, hc, hs⟩ := signed_start neg t h
  have hw : isJsonWs c = false := by
    rcases hs with hs | rfl
    · cases hw : isJsonWs c with
      | false => rfl
      | true =>
        simp only [isJsonWs, Bool.or_eq_true, beq_iff_eq] at hw
        rcases hw with ((rfl | rfl) | rfl) | rfl <;> exact absurd hs (by decide)
    · decide
  have hsk : skipWs (t.signed neg) = t.signed neg := by rw [hc]; exact skipWs_of_not_ws hw r
  have hj : jnum (t.signed neg) = (t.result neg).map (·, []) := by
    have := jnum_text neg t h [] (by intro c hc; cases hc)
    rwa [List.append_nil] at this
  rw [loads, String.toList_ofList, loadsC, hsk, show 2 * (t.signed neg).length + 2 = 2 * (t.signed neg).length + 1 + 1 from rfl,
    jval_jnum _ _ ⟨c, r, hc, hs⟩, hj]
  cases t.result neg with
  | error e => rfl
  | ok v => rfl

/-! ## distances -/

theorem sub_mkRat (a b : Int) {u d : Nat} (hu : u ≠ 0) (hd : d ≠ 0) :
    mkRat a u - mkRat b d = mkRat (a * d - b * u) (u * d) := by
  rw [Rat.sub_eq_add_neg, Rat.neg_mkRat, Rat.mkRat_add_mkRat _ _ hu hd]
  congr 1
  rw [Int.neg_mul]; rfl

theorem mkRat_nonneg_iff (a : Int) {d : Nat} (hd : d ≠ 0) : 0 ≤ mkRat a d ↔ 0 ≤ a := by
  rw [← Rat.divInt_ofNat, Rat.divInt_nonneg_iff_of_pos_right (by omega)]

theorem abs_mkRat (a : Int) {d : Nat} (hd : d ≠ 0) : (mkRat a d).abs = mkRat a.natAbs d := by
  by_cases h : 0 ≤ a
  · rw [Rat.abs_of_nonneg ((mkRat_nonneg_iff a hd).2 h)]
    congr 1; omega
  · have h' : mkRat a d ≤ 0 := by
      apply Rat.le_of_lt
      rw [← Rat.not_le, mkRat_nonneg_iff a hd]
      exact h
    rw [Rat.abs_of_nonpos h', Rat.neg_mkRat]
    congr 1; omega

theorem mkRat_mono {a b : Int} (d : Nat) (h : a ≤ b) : mkRat a d ≤ mkRat b d := by
  by_cases hd : d = 0
  · subst hd; simp
  · rw [Rat.le_iff_sub_nonneg, sub_mkRat _ _ hd hd, mkRat_nonneg_iff _ (Nat.mul_ne_zero hd hd), ← Int.sub_mul]
    exact Int.mul_nonneg (by omega) (by omega)

theorem natAbs_dist (a b : Nat) : ((a : Int) - b).natAbs = dist b a := by unfold dist; omega

/-- distance of numbers with the signs `s` and `s'` -/
def signedDist (s s' : Bool) (a b : Nat) : Nat :=
  match s, s' with
  | true, false => a + b
  | false, true => a + b
  | _, _ => dist a b

theorem signedDist_same (s : Bool) (a b : Nat) : signedDist s s a b = dist a b := by cases s <;> rfl

theorem signedDist_ge (s s' : Bool) (a b : Nat) : dist a b ≤ signedDist s s' a b ∨ dist a 0 ≤ signedDist s s' a b := by
  cases s <;> cases s' <;> simp only [signedDist, dist] <;> omega

/-- Distances from a number of units, as rational numbers. -/
theorem abs_units (s s' : Bool) (m n d : Nat) (hd : d ≠ 0) :
    (fltOfUnits s' m - mkRat ((if s then -1 else 1) * (n : Nat)) d).abs
      = mkRat (signedDist s s' (n * unitDen) (m * d) : Nat) (unitDen * d) := by
  have hu : unitDen ≠ 0 := Nat.ne_of_gt unitDen_pos
  unfold fltOfUnits
  rw [sub_mkRat _ _ hu hd, abs_mkRat _ (Nat.mul_ne_zero hu hd)]
  congr 2
  have e1 : ((m : Int) * d) = ((m * d : Nat) : Int) := by simp
  have e2 : ((n : Int) * unitDen) = ((n * unitDen : Nat) : Int) := by simp
  cases s <;> cases s' <;>
    simp only [if_true, if_false, Bool.false_eq_true, Int.neg_mul, Int.one_mul, e1, e2, signedDist, dist] <;>
    generalize m * d = x <;> generalize n * unitDen = y <;> omega

/-! ## the division of `total_seconds` -/

theorem log2_eq {k e : Nat} (h1 : 2 ^ e ≤ k) (h2 : k < 2 ^ (e + 1)) : Nat.log2 k = e := by
  have h0 : k ≠ 0 := by have := Nat.two_pow_pos e; omega
  have a := (Nat.log2_lt h0).2 h2
  have b := (Nat.le_log2 h0).2 h1
  omega

set_option exponentiation.threshold 1100 in
theorem log2_units (n d : Nat) (hd : 0 < d) (h : n / d ≠ 0) : Nat.log2 (n * unitDen / d) = Nat.log2 (n / d) + 1074 := by
  have h1 := Nat.log2_self_le h
  have h2 : n / d < 2 ^ (Nat.log2 (n / d) + 1) := (Nat.log2_lt h).1 (by omega)
  rw [Nat.le_div_iff_mul_le hd] at h1
  rw [Nat.div_lt_iff_lt_mul hd] at h2
  generalize Nat.log2 (n / d) = e at *
  apply log2_eq
  · rw [Nat.le_div_iff_mul_le hd, Nat.pow_add, Nat.mul_right_comm]
    unfold unitDen
    exact Nat.mul_le_mul_right _ h1
  · rw [Nat.div_lt_iff_lt_mul hd, Nat.add_right_comm, Nat.pow_add, Nat.mul_right_comm]
    unfold unitDen
    exact Nat.mul_lt_mul_of_pos_right h2 (Nat.two_pow_pos _)

/-- The rounded quotient that `total_seconds` uses is the nearest float. -/
theorem doubleDiv_roundUnits (n d : Nat) (hd : 0 < d) (h : n / d ≠ 0) (hs : n / d < 2 ^ 53) :
    (doubleDiv n d).1 * 2 ^ (1074 - (doubleDiv n d).2) = roundUnits n d := by
  have hl : Nat.log2 (n / d) < 53 := (Nat.log2_lt h).2 hs
  have hu : ulpExp n d = 1074 - (52 - Nat.log2 (n / d)) := by
    unfold ulpExp; rw [log2_units n d hd h]; omega
  unfold roundUnits
  rw [hu]
  simp only [doubleDiv]
  congr 1
  have hs' : 52 - Nat.log2 (n / d) ≤ 52 := by omega
  generalize 52 - Nat.log2 (n / d) = s at *
  have hU : unitDen = 2 ^ s * 2 ^ (1074 - s) := by
    unfold unitDen; rw [← Nat.pow_add]; congr 1; omega
  rw [hU, ← Nat.mul_assoc, divEven_scale _ _ _ (Nat.two_pow_pos _)]
  unfold divEven
  generalize n * 2 ^ s % d = r
  generalize n * 2 ^ s / d = q
  repeat' split
  all_goals omega

/-! ## C128 -/

/-- **C128, reading.**  When a number with a fraction or an exponent is read as a float, this is a float nearest to the
value of the text: no other float is closer. -/
theorem C128_nearest (neg : Bool) (t : NumText) (ht : t.Ok) (v : Val)
    (h : loads (String.ofList (t.signed neg)) = .ok v) :
    ∃ q, v = .flt q ∧ isDouble q = true ∧
      ∀ q', isDouble q' = true → (q - t.value neg).abs ≤ (q' - t.value neg).abs := by
  rw [loads_text neg t ht, NumText.result] at h
  split at h
  · cases h
  · next hn =>
    cases h
    have hu : IsUnits t.units := roundUnits_isUnits _ _ (decDen_pos _)
    refine ⟨_, rfl, isDouble_fltOfUnits neg hu (by omega), ?_⟩
    intro q' hq'
    obtain ⟨m', hm', _, _, he⟩ := isDouble_elim hq'
    generalize decide (q'.num < 0) = s' at he
    subst he
    unfold NumText.value
    simp only []
    generalize hx : t.expVal - t.frac.length = x
    have hd : (10 : Nat) ^ (-x).toNat ≠ 0 := Nat.ne_of_gt (decDen_pos x)
    rw [abs_units _ _ _ _ _ hd, abs_units _ _ _ _ _ hd]
    apply mkRat_mono
    rw [signedDist_same]
    have key : ∀ m, IsUnits m →
        dist (digitsVal (t.int ++ t.frac) * 10 ^ x.toNat * unitDen) (t.units * 10 ^ (-x).toNat)
          ≤ dist (digitsVal (t.int ++ t.frac) * 10 ^ x.toNat * unitDen) (m * 10 ^ (-x).toNat) := by
      intro m hm
      have := roundUnits_nearest (decNum (digitsVal (t.int ++ t.frac)) x) (decDen x) m (decDen_pos x) hm
      have e : t.units = roundUnits (decNum (digitsVal (t.int ++ t.frac)) x) (decDen x) := by
        rw [← hx]; rfl
      rw [e]
      exact this
    apply Int.ofNat_le.2
    have h0 := key 0 ⟨0, 0, by decide, rfl⟩
    rw [Nat.zero_mul] at h0
    rcases signedDist_ge neg s' (digitsVal (t.int ++ t.frac) * 10 ^ x.toNat * unitDen) (m' * 10 ^ (-x).toNat) with h | h
    · exact Nat.le_trans (key m' hm') h
    · exact Nat.le_trans h0 h

/-- **C128, writing.**  A float is written as a number with a fraction or an exponent, and this text is read as the same
float again. -/
theorem C128_roundtrip (q : Rat) (hq : isDouble q = true) :
    ∃ (neg : Bool) (t : NumText), t.Ok ∧ dumps (.flt q) = .ok (String.ofList (t.signed neg)) ∧
      loads (String.ofList (t.signed neg)) = .ok (.flt q) := by
  obtain ⟨m, hm, _, hu, _⟩ := isDouble_elim hq
  obtain ⟨t, t1, t2, _⟩ := unitsRepr_text hm
  have hd : dumps (.flt q) = .ok (String.ofList (t.signed (decide (q.num < 0)))) := by
    rw [dumps, dumpsC, floatText, if_pos hq]
    unfold floatRepr NumText.signed
    rw [hu, t2]
    by_cases hn : q.num < 0
    · simp [hn, Except.map]
    · simp [hn, Except.map]
  obtain ⟨s, h1, h2⟩ := C06_json_roundtrip (.flt q) (by simpa [Val.isJson] using hq)
  rw [hd] at h1
  cases h1
  exact ⟨_, t, t1, hd, h2⟩

/-- **C128, kinds.**  A float never has the text of an integer, so that neither becomes the other: also inside a document. -/
theorem C128_kind (q : Rat) (i : Int) : dumps (.flt q) ≠ dumps (.int i) := by
  intro h
  by_cases hq : isDouble q = true
  · have := C06_dumps_injective (.flt q) (.int i) (by simpa [Val.isJson] using hq) rfl h
    cases this
  · rw [dumps, dumps, dumpsC, dumpsC, floatText, if_neg hq] at h
    cases h

/-- one tenth is not a float; the nearest float to it is written as `0.1` -/
example : loads "0.1" = .ok (.flt (3602879701896397 / 36028797018963968)) ∧
    dumps (.flt (3602879701896397 / 36028797018963968)) = .ok "0.1" := by decide +kernel

example : loads "[-1.5e-3, 1E+2, 1e, 0]" = .error .jsonDecodeError ∧ loads "[1E+2, 120.0e-1, 0]"
    = .ok (.list [.flt 100, .flt 12, .int 0]) := by decide +kernel

example : isDouble (1 / 3) = false ∧ isDouble (-7 / 8) = true ∧ isDouble 0 = true := by decide +kernel

end Verif
