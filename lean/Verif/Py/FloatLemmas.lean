import Verif.Py.Float

/-!
# Facts about floats

`roundUnits` gives a nearest float (`roundUnits_nearest`), gives floats (`roundUnits_isUnits`), and leaves floats alone
(`roundUnits_exact`).
-/

namespace Verif

set_option exponentiation.threshold 1100 in
theorem unitDen_pos : 0 < unitDen := by unfold unitDen; exact Nat.two_pow_pos _
set_option exponentiation.threshold 1100 in
theorem fiveDen_pos : 0 < fiveDen := by unfold fiveDen; exact Nat.pow_pos (by decide)
set_option exponentiation.threshold 1100 in
theorem tenDen : 10 ^ 1074 = unitDen * fiveDen := by
  unfold unitDen fiveDen; rw [← Nat.mul_pow]

/-- A multiple of the unit that has 53 significant bits: a float, but for the bound on its size. -/
def IsUnits (m : Nat) : Prop := ∃ a s, a < 2 ^ 53 ∧ m = a * 2 ^ s

theorem divEven_scale (a b k : Nat) (hk : 0 < k) : divEven (a * k) (b * k) = divEven a b := by
  unfold divEven
  rw [Nat.mul_div_mul_right _ _ hk, Nat.mul_mod_mul_right]
  have h1 : (b * k < 2 * (a % b * k)) ↔ (b < 2 * (a % b)) := by
    rw [← Nat.mul_assoc]; exact Nat.mul_lt_mul_right hk
  have h2 : (2 * (a % b * k) = b * k) ↔ (2 * (a % b) = b) := by
    rw [← Nat.mul_assoc]; exact Nat.mul_left_inj (by omega)
  simp only [h1, h2]

theorem ulpExp_scale (n d k : Nat) (hk : 0 < k) : ulpExp (n * k) (d * k) = ulpExp n d := by
  unfold ulpExp
  rw [show n * k * unitDen = n * unitDen * k by rw [Nat.mul_right_comm], Nat.mul_div_mul_right _ _ hk]

theorem roundUnits_scale (n d k : Nat) (hk : 0 < k) : roundUnits (n * k) (d * k) = roundUnits n d := by
  unfold roundUnits
  rw [ulpExp_scale n d k hk, Nat.mul_right_comm n k, Nat.mul_right_comm d k, divEven_scale _ _ _ hk]

/-- Rounding depends on the quotient only. -/
theorem roundUnits_cross {n d n' d' : Nat} (hd : 0 < d) (hd' : 0 < d') (h : n * d' = n' * d) :
    roundUnits n d = roundUnits n' d' := by
  rw [← roundUnits_scale n d d' hd', ← roundUnits_scale n' d' d hd, h, Nat.mul_comm d d']

theorem divEven_exact (a b : Nat) (hb : 0 < b) : divEven (a * b) b = a := by
  unfold divEven
  rw [Nat.mul_mod_left, Nat.mul_div_cancel _ hb, if_neg]
  omega

/-- A float is rounded to itself. -/
theorem roundUnits_exact {m : Nat} (h : IsUnits m) : roundUnits m (unitDen) = m := by
  obtain ⟨a, s, ha, hm⟩ := h
  have hu : ulpExp m (unitDen) = Nat.log2 m - 52 := by
    unfold ulpExp; rw [Nat.mul_div_cancel _ unitDen_pos]
  unfold roundUnits
  rw [hu]
  by_cases h0 : m = 0
  · rw [h0]; simp [divEven]
  have hlt : m < 2 ^ (53 + s) := by
    rw [hm, Nat.pow_add]; exact Nat.mul_lt_mul_of_pos_right ha (Nat.two_pow_pos s)
  have hl : Nat.log2 m < 53 + s := (Nat.log2_lt h0).2 hlt
  generalize ht : Nat.log2 m - 52 = t
  have hts : t ≤ s := by omega
  obtain ⟨j, rfl⟩ := Nat.exists_eq_add_of_le hts
  have e : m = a * 2 ^ j * 2 ^ t := by
    rw [hm, Nat.pow_add, Nat.mul_assoc, Nat.mul_comm (2 ^ t)]
  have : m * unitDen = a * 2 ^ j * (unitDen * 2 ^ t) := by
    rw [e]; simp only [Nat.mul_assoc, Nat.mul_comm (unitDen)]
  rw [this, divEven_exact _ _ (Nat.mul_pos unitDen_pos (Nat.two_pow_pos _))]
  exact e.symm

theorem divEven_le (a b : Nat) : divEven a b ≤ a / b + 1 := by
  unfold divEven; split <;> omega

/-- What is rounded has at most 53 bits in front of the last place. -/
theorem quot_lt (n d : Nat) : n * unitDen / (d * 2 ^ ulpExp n d) < 2 ^ 53 := by
  rw [← Nat.div_div_eq_div_mul]
  unfold ulpExp
  generalize n * unitDen / d = k
  rw [Nat.div_lt_iff_lt_mul (Nat.two_pow_pos _), ← Nat.pow_add]
  by_cases h0 : k = 0
  · rw [h0]; exact Nat.two_pow_pos _
  · exact (Nat.log2_lt h0).1 (by omega)

/-- Rounding gives a float. -/
theorem roundUnits_isUnits (n d : Nat) (hd : 0 < d) : IsUnits (roundUnits n d) := by
  have h1 := divEven_le (n * unitDen) (d * 2 ^ ulpExp n d)
  have h2 := quot_lt n d
  unfold roundUnits
  generalize divEven (n * unitDen) (d * 2 ^ ulpExp n d) = m at h1 ⊢
  by_cases h : m < 2 ^ 53
  · exact ⟨m, _, h, rfl⟩
  · have : m = 2 ^ 52 * 2 := by omega
    refine ⟨2 ^ 52, ulpExp n d + 1, by decide, ?_⟩
    rw [this, Nat.pow_succ (n := 2) (m := ulpExp n d), Nat.mul_assoc, Nat.mul_comm (2 ^ ulpExp n d)]

/-- distance of natural numbers -/
def dist (a b : Nat) : Nat := (a - b) + (b - a)

theorem divEven_nearest (a b c : Nat) (hb : 0 < b) : dist a (divEven a b * b) ≤ dist a (c * b) := by
  have hm := Nat.div_add_mod a b
  have hr := Nat.mod_lt a hb
  rw [Nat.mul_comm] at hm
  unfold divEven
  generalize hq : a / b = q at *
  generalize hrr : a % b = r at *
  have hc : c ≤ q ∨ q + 1 ≤ c := by omega
  have hc' : c * b ≤ q * b ∨ (q + 1) * b ≤ c * b := by
    rcases hc with h | h
    · exact .inl (Nat.mul_le_mul_right b h)
    · exact .inr (Nat.mul_le_mul_right b h)
  have e : (q + 1) * b = q * b + b := Nat.succ_mul q b
  unfold dist
  split
  · rw [e]; rw [e] at hc'; generalize q * b = x at *; generalize c * b = y at *; omega
  · rw [e] at hc'; generalize q * b = x at *; generalize c * b = y at *; omega

/-- **Correct rounding**: no float is nearer to `n / d` (all distances times `d`, in units). -/
theorem roundUnits_nearest (n d m : Nat) (hd : 0 < d) (hm : IsUnits m) :
    dist (n * unitDen) (roundUnits n d * d) ≤ dist (n * unitDen) (m * d) := by
  obtain ⟨a, s, ha, rfl⟩ := hm
  have hD : 0 < d * 2 ^ ulpExp n d := Nat.mul_pos hd (Nat.two_pow_pos _)
  have key : ∀ c, dist (n * unitDen) (roundUnits n d * d) ≤ dist (n * unitDen) (c * 2 ^ ulpExp n d * d) := by
    intro c
    have := divEven_nearest (n * unitDen) (d * 2 ^ ulpExp n d) c hD
    unfold roundUnits
    rwa [Nat.mul_assoc, Nat.mul_comm (2 ^ _) d, Nat.mul_assoc, Nat.mul_comm (2 ^ _) d]
  by_cases hs : ulpExp n d ≤ s
  · obtain ⟨j, rfl⟩ := Nat.exists_eq_add_of_le hs
    have := key (a * 2 ^ j)
    rwa [Nat.mul_assoc a, Nat.mul_comm (2 ^ j), ← Nat.pow_add] at this
  · -- a float with a smaller last place is below `2^52` last places, which is at most the quotient
    have h52 := key (2 ^ 52)
    refine Nat.le_trans h52 ?_
    have hle : a * 2 ^ s ≤ 2 ^ 52 * 2 ^ ulpExp n d := by
      have h1 : a * 2 ^ s ≤ 2 ^ 53 * 2 ^ s := Nat.mul_le_mul_right _ (by omega)
      have h2 : 2 ^ 53 * 2 ^ s ≤ 2 ^ 52 * 2 ^ ulpExp n d := by
        rw [← Nat.pow_add, ← Nat.pow_add]; exact Nat.pow_le_pow_right (by decide) (by omega)
      omega
    have hk : 2 ^ 52 * 2 ^ ulpExp n d * d ≤ n * unitDen := by
      have hu : 0 < ulpExp n d := by omega
      rw [← Nat.le_div_iff_mul_le hd, ← Nat.pow_add]
      unfold ulpExp at hu ⊢
      generalize n * unitDen / d = k at hu ⊢
      have h0 : k ≠ 0 := by rintro rfl; rw [Nat.log2_zero] at hu; omega
      have : 2 ^ Nat.log2 k ≤ k := Nat.log2_self_le h0
      rwa [show 52 + (Nat.log2 k - 52) = Nat.log2 k by omega]
    have := Nat.mul_le_mul_right d hle
    unfold dist
    omega

/-! ## as rational numbers -/

theorem fltOfUnits_num_den (neg : Bool) (m : Nat) :
    (fltOfUnits neg m).num * unitDen = (if neg then - (m : Int) else m) * (fltOfUnits neg m).den := by
  unfold fltOfUnits
  generalize (if neg then - (m : Int) else m) = z
  have h2 : mkRat (mkRat z (unitDen)).num (mkRat z (unitDen)).den = mkRat z (unitDen) := Rat.mkRat_self _
  have := (Rat.mkRat_eq_iff (Rat.den_nz _) (Nat.ne_of_gt unitDen_pos)).1 h2
  simpa using this

theorem fltOfUnits_cross (neg : Bool) (m : Nat) :
    (fltOfUnits neg m).num.natAbs * unitDen = m * (fltOfUnits neg m).den := by
  have h := congrArg Int.natAbs (fltOfUnits_num_den neg m)
  rw [Int.natAbs_mul, Int.natAbs_mul] at h
  have e : (if neg then - (m : Int) else (m : Int)).natAbs = m := by split <;> simp
  rw [e] at h
  simpa using h

theorem fltUnits_fltOfUnits (neg : Bool) (m : Nat) : fltUnits (fltOfUnits neg m) = m := by
  unfold fltUnits
  rw [fltOfUnits_cross, Nat.mul_div_cancel _ (Rat.den_pos _)]

theorem fltOfUnits_neg (neg : Bool) (m : Nat) (h : m ≠ 0) :
    (fltOfUnits neg m).num < 0 ↔ neg = true := by
  have h1 := fltOfUnits_num_den neg m
  have hd := Rat.den_pos (fltOfUnits neg m)
  have hp : (0 : Int) < unitDen := by have := unitDen_pos; omega
  have hd' : (0 : Int) < ((fltOfUnits neg m).den : Int) := by omega
  have hm : (0 : Int) < m := by omega
  have hmd := Int.mul_pos hm hd'
  constructor
  · intro hn
    cases neg with
    | true => rfl
    | false =>
      have := Int.mul_neg_of_neg_of_pos hn hp
      simp at h1
      omega
  · rintro rfl
    apply Int.lt_of_not_ge
    intro hn
    have := Int.mul_nonneg hn (Int.le_of_lt hp)
    simp only [if_true, Int.neg_mul] at h1
    omega

theorem fltOfUnits_zero (neg : Bool) : fltOfUnits neg 0 = 0 := by
  unfold fltOfUnits; cases neg <;> simp

theorem roundUnits_fltOfUnits (neg : Bool) {m : Nat} (h : IsUnits m) :
    roundUnits (fltOfUnits neg m).num.natAbs (fltOfUnits neg m).den = m := by
  rw [roundUnits_cross (Rat.den_pos _) (unitDen_pos) (fltOfUnits_cross neg m), roundUnits_exact h]

/-- A bounded number of units with 53 bits is a float. -/
theorem isDouble_fltOfUnits (neg : Bool) {m : Nat} (h : IsUnits m) (hm : m < unitsEnd) :
    isDouble (fltOfUnits neg m) = true := by
  unfold isDouble
  rw [roundUnits_fltOfUnits neg h]
  simp only [hm, decide_true, Bool.true_and, beq_iff_eq]
  by_cases h0 : m = 0
  · subst h0; simp [fltOfUnits_zero]
  · have h1 := fltOfUnits_neg neg m h0
    have e : decide ((fltOfUnits neg m).num < 0) = neg := by
      cases neg with
      | true => exact decide_eq_true (h1.2 rfl)
      | false => exact decide_eq_false (fun hc => absurd (h1.1 hc) (by decide))
    exact (congrArg (fltOfUnits · m) e).symm

/-- Every float is a bounded number of units with 53 bits. -/
theorem isDouble_elim {q : Rat} (h : isDouble q = true) :
    ∃ m, IsUnits m ∧ m < unitsEnd ∧ fltUnits q = m ∧ q = fltOfUnits (decide (q.num < 0)) m := by
  unfold isDouble at h
  simp only [Bool.and_eq_true, decide_eq_true_eq, beq_iff_eq] at h
  refine ⟨_, roundUnits_isUnits _ _ (Rat.den_pos q), h.1, ?_, h.2⟩
  have := fltUnits_fltOfUnits (decide (q.num < 0)) (roundUnits q.num.natAbs q.den)
  rwa [← h.2] at this

/-! ## decimal numbers -/

theorem decDen_pos (x : Int) : 0 < decDen x := Nat.pow_pos (by decide)

/-- Zeros at the end do not matter. -/
theorem decUnits_shift (c k : Nat) (x : Int) : decUnits (c * 10 ^ k) (x - k) = decUnits c x := by
  unfold decUnits
  apply roundUnits_cross (decDen_pos _) (decDen_pos _)
  unfold decNum decDen
  rw [Nat.mul_assoc, Nat.mul_assoc, Nat.mul_assoc, ← Nat.pow_add, ← Nat.pow_add, ← Nat.pow_add]
  congr 2
  omega

theorem decUnits_exact {m : Nat} (h : IsUnits m) : decUnits (m * fiveDen) (-1074) = m := by
  unfold decUnits decNum decDen
  rw [show (-1074 : Int).toNat = 0 from rfl, show (-(-1074 : Int)).toNat = 1074 from rfl, Nat.pow_zero, Nat.mul_one,
    tenDen, roundUnits_scale _ _ _ fiveDen_pos]
  exact roundUnits_exact h

theorem decAt_units {m : Nat} {x : Int} {r : Nat × Int} (h : decAt m x = some r) : decUnits r.1 r.2 = m := by
  unfold decAt at h
  simp only [] at h
  split at h
  · next hc =>
    simp only [Bool.and_eq_true, decide_eq_true_eq] at hc
    cases h
    unfold divEven
    split
    · exact hc.2
    · exact hc.1
  split at h
  · next hc => cases h; simpa using hc
  split at h
  · next hc => cases h; simpa using hc
  · cases h

theorem decSearch_units {m : Nat} {e : Int} {r : Nat × Int} (n : Nat) :
    ∀ p, decSearch m e n p = some r → decUnits r.1 r.2 = m := by
  induction n with
  | zero => intro p h; rw [decSearch] at h; cases h
  | succ n ih =>
    intro p h
    rw [decSearch, Option.or_eq_some_iff] at h
    rcases h with h | h
    · exact decAt_units h
    · exact ih (p + 1) h.2

/-- The shortest decimal is read back as the same number. -/
theorem shortest_units {m : Nat} (h : IsUnits m) : decUnits (shortest m).1 (shortest m).2 = m := by
  have hs : ∀ r, decSearch m (decExp m) 17 1 = some r → decUnits r.1 r.2 = m := fun r => decSearch_units 17 1
  unfold shortest
  generalize decSearch m (decExp m) 17 1 = o at hs ⊢
  cases o with
  | some r => exact hs r rfl
  | none => exact decUnits_exact h

theorem strip10_units : ∀ n c x, decUnits (strip10 n c x).1 (strip10 n c x).2 = decUnits c x
  | 0, _, _ => rfl
  | n + 1, c, x => by
    rw [strip10]
    split
    · next h =>
      rw [strip10_units n]
      have := decUnits_shift (c / 10) 1 (x + 1)
      rw [← this]
      congr 1 <;> omega
    · rfl

theorem decUnits_zero (x : Int) : decUnits 0 x = 0 := by
  unfold decUnits decNum roundUnits
  simp [divEven]

end Verif
