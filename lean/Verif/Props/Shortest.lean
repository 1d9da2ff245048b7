import Verif.Props.Floats

/-!
# C128: the text of a float is the shortest one
-/

namespace Verif

/-! ## rounding is monotone -/

theorem roundUnits_mono {n n' d : Nat} (hd : 0 < d) (h : n ≤ n') : roundUnits n d ≤ roundUnits n' d := by
  refine Nat.not_lt.1 fun hlt => ?_
  have h1 := roundUnits_nearest n d _ hd (roundUnits_isUnits n' d hd)
  have h2 := roundUnits_nearest n' d _ hd (roundUnits_isUnits n d hd)
  by_cases he : n = n'
  · subst he; omega
  · have hv : n * unitDen < n' * unitDen := Nat.mul_lt_mul_of_pos_right (by omega) unitDen_pos
    have hr : roundUnits n' d * d < roundUnits n d * d := Nat.mul_lt_mul_of_pos_right hlt hd
    generalize n * unitDen = v at *
    generalize n' * unitDen = v' at *
    generalize roundUnits n d * d = r at *
    generalize roundUnits n' d * d = r' at *
    unfold dist at *
    omega

theorem decUnits_mono {c c' : Nat} (x : Int) (h : c ≤ c') : decUnits c x ≤ decUnits c' x := by
  unfold decUnits
  exact roundUnits_mono (decDen_pos x) (Nat.mul_le_mul_right _ h)

/-! ## a float on a fine decimal grid -/

/-- `m` units, counted in `10^-(1074+k)` -/
def fine (m k : Nat) : Nat := m * fiveDen * 10 ^ k

theorem decUnits_fine {m : Nat} (h : IsUnits m) (k : Nat) : decUnits (fine m k) (-1074 - k) = m := by
  rw [fine, decUnits_shift, decUnits_exact h]

/-- a decimal on the fine grid -/
theorem decUnits_on (c k : Nat) {x : Int} (hx : -1074 - (k : Int) ≤ x) :
    decUnits (c * 10 ^ (x + 1074 + k).toNat) (-1074 - k) = decUnits c x := by
  rw [← decUnits_shift c (x + 1074 + k).toNat x]
  congr 1
  omega

theorem div_cross {a b c d : Nat} (hb : 0 < b) (hd : 0 < d) (h : a * d = c * b) : a / b = c / d := by
  rw [← Nat.mul_div_mul_right a b hd, h, Nat.mul_comm b d, Nat.mul_div_mul_right c d hb]

theorem scaleDen_pos (x : Int) : 0 < scaleDen x := Nat.mul_pos unitDen_pos (Nat.pow_pos (by decide))

theorem scale_cross (m k : Nat) {x : Int} (hx : -1074 - (k : Int) ≤ x) :
    scaleNum m x * 10 ^ (x + 1074 + k).toNat = fine m k * scaleDen x := by
  unfold scaleNum scaleDen fine
  have e : m * fiveDen * 10 ^ k * (unitDen * 10 ^ x.toNat) = m * ((unitDen * fiveDen) * (10 ^ k * 10 ^ x.toNat)) := by
    simp only [Nat.mul_assoc, Nat.mul_left_comm, Nat.mul_comm]
  rw [e, ← tenDen, Nat.mul_assoc, ← Nat.pow_add, ← Nat.pow_add, ← Nat.pow_add]
  congr 2
  omega

theorem floor_fine (m k : Nat) {x : Int} (hx : -1074 - (k : Int) ≤ x) :
    scaleNum m x / scaleDen x = fine m k / 10 ^ (x + 1074 + k).toNat :=
  div_cross (scaleDen_pos x) (Nat.pow_pos (by decide)) (scale_cross m k hx)

/-! ## the search at one precision -/

theorem decAt_result {m : Nat} {x : Int} {r : Nat × Int} (h : decAt m x = some r) :
    r.2 = x ∧ (r.1 = scaleNum m x / scaleDen x ∨ r.1 = scaleNum m x / scaleDen x + 1) := by
  unfold decAt at h
  simp only [] at h
  split at h
  · cases h
    refine ⟨rfl, ?_⟩
    unfold divEven
    split
    · exact .inr rfl
    · exact .inl rfl
  split at h
  · cases h; exact ⟨rfl, .inl rfl⟩
  split at h
  · cases h; exact ⟨rfl, .inr rfl⟩
  · cases h

theorem decAt_some {m : Nat} {x : Int}
    (h : decUnits (scaleNum m x / scaleDen x) x = m ∨ decUnits (scaleNum m x / scaleDen x + 1) x = m) :
    ∃ r, decAt m x = some r := by
  unfold decAt
  simp only []
  split
  · exact ⟨_, rfl⟩
  split
  · exact ⟨_, rfl⟩
  split
  · exact ⟨_, rfl⟩
  · next h1 h2 h3 =>
    simp only [decide_eq_true_eq] at h2 h3
    exact absurd h (not_or.2 ⟨h2, h3⟩)

/-- If any decimal with its last digit at `10^x` is read as the float, one is found there. -/
theorem decAt_complete {m : Nat} (hm : IsUnits m) {c : Nat} {x : Int} (hc : decUnits c x = m) : ∃ r, decAt m x = some r := by
  have hx : -1074 - (((-x).toNat : Nat) : Int) ≤ x := by omega
  apply decAt_some
  have hf := decUnits_fine hm (-x).toNat
  have hon := fun c => decUnits_on c (-x).toNat hx
  rw [floor_fine m (-x).toNat hx]
  generalize (x + 1074 + ((-x).toNat : Nat)).toNat = j at *
  generalize fine m (-x).toNat = M at *
  have hj : 0 < 10 ^ j := Nat.pow_pos (by decide)
  have h1 : M / 10 ^ j * 10 ^ j ≤ M := Nat.div_mul_le_self _ _
  have h2 : M < (M / 10 ^ j + 1) * 10 ^ j := Nat.lt_mul_of_div_lt (Nat.lt_succ_self _) hj
  by_cases h : c ≤ M / 10 ^ j
  · left
    rw [← hon]
    have a := decUnits_mono (-1074 - (((-x).toNat : Nat) : Int)) h1
    have b := decUnits_mono (-1074 - (((-x).toNat : Nat) : Int)) (Nat.mul_le_mul_right (10 ^ j) h)
    rw [hf] at a
    rw [hon, hc] at b
    omega
  · right
    rw [← hon]
    have a := decUnits_mono (-1074 - (((-x).toNat : Nat) : Int)) (Nat.le_of_lt h2)
    have b := decUnits_mono (-1074 - (((-x).toNat : Nat) : Int)) (Nat.mul_le_mul_right (10 ^ j) (show M / 10 ^ j + 1 ≤ c by omega))
    rw [hf] at a
    rw [hon, hon, hc] at b
    rw [hon] at a
    rw [hon]
    omega

/-! ## the first digit -/

theorem natDigits_bounds (n : Nat) (h : 0 < n) : 10 ^ ((natDigits n).length - 1) ≤ n ∧ n < 10 ^ (natDigits n).length := by
  induction n using Nat.strongRecOn with
  | _ n ih =>
    rw [natDigits]
    split
    · next hn => simp; omega
    · next hn =>
      obtain ⟨h1, h2⟩ := ih (n / 10) (by omega) (by omega)
      have hl : 0 < (natDigits (n / 10)).length := List.length_pos_iff.2 (natDigits_ne_nil _)
      simp only [List.length_append, List.length_cons, List.length_nil, Nat.zero_add, Nat.add_sub_cancel]
      generalize (natDigits (n / 10)).length = l at *
      obtain ⟨l, rfl⟩ : ∃ l', l = l' + 1 := ⟨l - 1, by omega⟩
      simp only [Nat.add_sub_cancel] at h1
      simp only [Nat.pow_succ] at h2 ⊢
      generalize 10 ^ l = z at *
      omega

theorem decLen_bounds {n : Nat} (h : 0 < n) : 0 < decLen n ∧ 10 ^ (decLen n - 1) ≤ n ∧ n < 10 ^ decLen n := by
  unfold decLen
  rw [if_neg (by omega)]
  exact ⟨List.length_pos_iff.2 (natDigits_ne_nil _), natDigits_bounds n h⟩

theorem mul_ten (a k : Nat) : a * unitDen * (fiveDen * 10 ^ k) = a * 10 ^ (1074 + k) := by
  rw [Nat.pow_add, tenDen]
  simp only [Nat.mul_assoc]

theorem decExp_fine {m k : Nat} (h0 : m ≠ 0) (hk : -1074 - (k : Int) ≤ decExp m) :
    10 ^ (decExp m + 1074 + k).toNat ≤ fine m k ∧ fine m k < 10 ^ (decExp m + 1 + 1074 + k).toNat := by
  have hF : 0 < fiveDen * 10 ^ k := Nat.mul_pos fiveDen_pos (Nat.pow_pos (by decide))
  have hfine : fine m k = m * (fiveDen * 10 ^ k) := by rw [fine, Nat.mul_assoc]
  unfold decExp at *
  split
  · next hle =>
    rw [if_pos hle] at hk
    have hq : 0 < m / unitDen := Nat.div_pos hle unitDen_pos
    obtain ⟨hl, h1, h2⟩ := decLen_bounds hq
    rw [Nat.le_div_iff_mul_le unitDen_pos] at h1
    rw [Nat.div_lt_iff_lt_mul unitDen_pos] at h2
    generalize decLen (m / unitDen) = l at *
    constructor
    · have := Nat.mul_le_mul_right (fiveDen * 10 ^ k) h1
      rw [mul_ten, ← Nat.pow_add, ← hfine] at this
      rwa [show ((l : Int) - 1 + 1074 + k).toNat = l - 1 + (1074 + k) by omega]
    · have := Nat.mul_lt_mul_of_pos_right h2 hF
      rw [mul_ten, ← Nat.pow_add, ← hfine] at this
      rwa [show ((l : Int) - 1 + 1 + 1074 + k).toNat = l + (1074 + k) by omega]
  · next hlt =>
    rw [if_neg hlt] at hk
    have hm : 0 < m := by omega
    have hq : 0 < (unitDen - 1) / m := Nat.div_pos (by omega) hm
    obtain ⟨hl, h1, h2⟩ := decLen_bounds hq
    rw [Nat.le_div_iff_mul_le hm] at h1
    rw [Nat.div_lt_iff_lt_mul hm] at h2
    generalize decLen ((unitDen - 1) / m) = l at *
    have hu := unitDen_pos
    have h1' : 10 ^ (l - 1) * m < 1 * unitDen := by omega
    have h2' : 1 * unitDen ≤ 10 ^ l * m := by omega
    have a := Nat.mul_le_mul_right (fiveDen * 10 ^ k) h2'
    have b := Nat.mul_lt_mul_of_pos_right h1' hF
    rw [mul_ten, Nat.one_mul, Nat.mul_assoc, ← hfine] at a b
    constructor
    · rw [show (-(l : Int) + 1074 + k).toNat = 1074 + k - l by omega]
      apply Nat.le_of_mul_le_mul_left (c := 10 ^ l) _ (Nat.pow_pos (by decide))
      rw [← Nat.pow_add, show l + (1074 + k - l) = 1074 + k by omega]
      exact a
    · rw [show (-(l : Int) + 1 + 1074 + k).toNat = 1074 + k - (l - 1) by omega]
      apply Nat.lt_of_mul_lt_mul_left (a := 10 ^ (l - 1))
      rw [← Nat.pow_add, show l - 1 + (1074 + k - (l - 1)) = 1074 + k by omega]
      exact b

/-! ## a decimal with `p` digits -/

theorem pow_le {a b : Nat} (h : a ≤ b) : 10 ^ a ≤ 10 ^ b := Nat.pow_le_pow_right (by decide) h

/-- If some decimal with `p` digits is read as the float, one is found at the precision of `p` digits. -/
theorem decAt_precision {m : Nat} (hm : IsUnits m) (h0 : m ≠ 0) {c p : Nat} {x : Int} (hp : 0 < p)
    (h1 : 10 ^ (p - 1) ≤ c) (h2 : c < 10 ^ p) (hc : decUnits c x = m) : ∃ r, decAt m (decExp m - p + 1) = some r := by
  obtain ⟨k, hk⟩ : ∃ k : Nat, k = (-x).toNat + (-decExp m).toNat + p := ⟨_, rfl⟩
  have hx : -1074 - (k : Int) ≤ x := by omega
  have hy : -1074 - (k : Int) ≤ decExp m - p + 1 := by omega
  obtain ⟨e1, e2⟩ := decExp_fine (k := k) h0 (by omega)
  have hf := decUnits_fine hm k
  have hC := decUnits_on c k hx
  rw [hc] at hC
  have c1 := Nat.mul_le_mul_right (10 ^ (x + 1074 + k).toNat) h1
  have c2 := Nat.mul_le_mul_right (10 ^ (x + 1074 + k).toNat) (Nat.le_of_lt h2)
  rw [← Nat.pow_add] at c1 c2
  generalize fine m k = M at *
  generalize c * 10 ^ (x + 1074 + k).toNat = C at *
  have squeeze : ∀ c' : Nat, (M ≤ c' * 10 ^ (decExp m - p + 1 + 1074 + k).toNat ∧ c' * 10 ^ (decExp m - p + 1 + 1074 + k).toNat ≤ C)
      ∨ (C ≤ c' * 10 ^ (decExp m - p + 1 + 1074 + k).toNat ∧ c' * 10 ^ (decExp m - p + 1 + 1074 + k).toNat ≤ M) →
      ∃ r, decAt m (decExp m - p + 1) = some r := by
    intro c' h
    refine decAt_complete hm (c := c') ?_
    rw [← decUnits_on c' k hy]
    rcases h with ⟨a, b⟩ | ⟨a, b⟩
    · have a := decUnits_mono (-1074 - (k : Int)) a
      have b := decUnits_mono (-1074 - (k : Int)) b
      omega
    · have a := decUnits_mono (-1074 - (k : Int)) a
      have b := decUnits_mono (-1074 - (k : Int)) b
      omega
  by_cases hEq : x = decExp m - p + 1
  · rw [← hEq]; exact decAt_complete hm hc
  by_cases hgt : decExp m - p + 1 < x
  · refine squeeze (10 ^ p) (.inl ⟨?_, ?_⟩)
    · rw [← Nat.pow_add]
      exact Nat.le_trans (Nat.le_of_lt e2) (pow_le (by omega))
    · rw [← Nat.pow_add]
      exact Nat.le_trans (pow_le (by omega)) c1
  · refine squeeze (10 ^ (p - 1)) (.inr ⟨?_, ?_⟩)
    · rw [← Nat.pow_add]
      exact Nat.le_trans c2 (pow_le (by omega))
    · rw [← Nat.pow_add]
      exact Nat.le_trans (pow_le (by omega)) e1

/-- What is found at the precision of `p` digits has at most `p` digits, or is `10^p`. -/
theorem decAt_bound {m : Nat} (h0 : m ≠ 0) {p : Nat} {r : Nat × Int} (h : decAt m (decExp m - p + 1) = some r) : r.1 ≤ 10 ^ p := by
  obtain ⟨k, hk⟩ : ∃ k : Nat, k = (-decExp m).toNat + p := ⟨_, rfl⟩
  obtain ⟨e1, e2⟩ := decExp_fine (k := k) h0 (by omega)
  obtain ⟨_, h2⟩ := decAt_result h
  rw [floor_fine m k (by omega)] at h2
  have : fine m k / 10 ^ (decExp m - p + 1 + 1074 + k).toNat < 10 ^ p := by
    rw [Nat.div_lt_iff_lt_mul (Nat.pow_pos (by decide)), ← Nat.pow_add]
    exact Nat.lt_of_lt_of_le e2 (pow_le (by omega))
  omega

/-! ## seventeen digits suffice -/

/-- Two floats differ by at least `2^-53` of either. -/
theorem units_gap {m r : Nat} (hm : IsUnits m) (hr : IsUnits r) (h : r ≠ m) : m ≤ dist r m * 2 ^ 53 := by
  obtain ⟨a, s, ha, rfl⟩ := hm
  obtain ⟨b, t, hb, rfl⟩ := hr
  have hdist : ∀ u v k : Nat, dist (u * k) (v * k) = dist u v * k := by
    intro u v k
    unfold dist
    rw [← Nat.mul_sub_right_distrib, ← Nat.mul_sub_right_distrib, Nat.add_mul]
  by_cases hst : s ≤ t
  · have e : b * 2 ^ t = (b * 2 ^ (t - s)) * 2 ^ s := by rw [Nat.mul_assoc, ← Nat.pow_add, Nat.sub_add_cancel hst]
    rw [e] at h ⊢
    generalize b * 2 ^ (t - s) = u at *
    have hu : u ≠ a := fun hh => h (by rw [hh])
    rw [hdist, Nat.mul_right_comm]
    apply Nat.mul_le_mul_right
    unfold dist
    omega
  · have e : a * 2 ^ s = (a * 2 ^ (s - t)) * 2 ^ t := by rw [Nat.mul_assoc, ← Nat.pow_add, Nat.sub_add_cancel (by omega)]
    rw [e] at h ⊢
    generalize a * 2 ^ (s - t) = u at *
    have hu : b ≠ u := fun hh => h (by rw [hh])
    rw [hdist, Nat.mul_right_comm]
    apply Nat.mul_le_mul_right
    unfold dist
    omega

theorem dist_mul (u v k : Nat) : dist (u * k) (v * k) = dist u v * k := by
  unfold dist
  rw [← Nat.mul_sub_right_distrib, ← Nat.mul_sub_right_distrib, Nat.add_mul]

/-- no float is nearer, on the fine grid -/
theorem fine_nearest (C k m : Nat) (hm : IsUnits m) :
    dist C (fine (decUnits C (-1074 - k)) k) ≤ dist C (fine m k) := by
  have h := roundUnits_nearest (decNum C (-1074 - k)) (decDen (-1074 - k)) m (decDen_pos _) hm
  have e1 : decNum C (-1074 - (k : Int)) = C := by
    unfold decNum
    rw [show (-1074 - (k : Int)).toNat = 0 by omega, Nat.pow_zero, Nat.mul_one]
  have e2 : decDen (-1074 - (k : Int)) = fiveDen * 10 ^ k * unitDen := by
    unfold decDen
    rw [show (-(-1074 - (k : Int))).toNat = 1074 + k by omega, Nat.pow_add, tenDen, Nat.mul_assoc, Nat.mul_comm]
  unfold decUnits
  rw [e1, e2] at h ⊢
  unfold fine
  rw [Nat.mul_assoc _ fiveDen, Nat.mul_assoc _ fiveDen]
  rw [← Nat.mul_assoc _ _ unitDen, ← Nat.mul_assoc _ _ unitDen, dist_mul, dist_mul] at h
  exact Nat.le_of_mul_le_mul_right h unitDen_pos

theorem decAt_seventeen {m : Nat} (hm : IsUnits m) (h0 : m ≠ 0) : ∃ r, decAt m (decExp m - (17 : Nat) + 1) = some r := by
  obtain ⟨k, hk⟩ : ∃ k : Nat, k = (-decExp m).toNat + 17 := ⟨_, rfl⟩
  have hy : -1074 - (k : Int) ≤ decExp m - (17 : Nat) + 1 := by omega
  obtain ⟨e1, _⟩ := decExp_fine (k := k) h0 (by omega)
  have hj : (decExp m + 1074 + k).toNat = (decExp m - (17 : Nat) + 1 + 1074 + k).toNat + 16 := by omega
  rw [hj, Nat.pow_add] at e1
  have hon := fun c => decUnits_on c k hy
  have hnear := fun C => fine_nearest C k m hm
  have hgap := fun C : Nat => units_gap hm (roundUnits_isUnits (decNum C (-1074 - k)) (decDen (-1074 - k)) (decDen_pos _))
  generalize hj : (decExp m - (17 : Nat) + 1 + 1074 + k).toNat = j at *
  have hpos : 0 < 10 ^ j := Nat.pow_pos (by decide)
  obtain ⟨c, hc⟩ : ∃ c, 2 * dist (c * 10 ^ j) (fine m k) ≤ 10 ^ j := by
    have hdm := Nat.div_add_mod' (fine m k) (10 ^ j)
    have hlt := Nat.mod_lt (fine m k) hpos
    by_cases hh : 2 * (fine m k % 10 ^ j) ≤ 10 ^ j
    · refine ⟨fine m k / 10 ^ j, ?_⟩
      unfold dist
      omega
    · refine ⟨fine m k / 10 ^ j + 1, ?_⟩
      rw [Nat.add_mul, Nat.one_mul]
      unfold dist
      omega
  refine decAt_complete hm (c := c) ?_
  rw [← hon]
  have n1 := hnear (c * 10 ^ j)
  have g1 := hgap (c * 10 ^ j)
  rw [show roundUnits (decNum (c * 10 ^ j) (-1074 - k)) (decDen (-1074 - k)) = decUnits (c * 10 ^ j) (-1074 - k) from rfl] at g1
  generalize decUnits (c * 10 ^ j) (-1074 - k) = r at *
  generalize c * 10 ^ j = C at *
  refine Decidable.byContradiction fun hne => ?_
  have g2 := Nat.mul_le_mul_right (fiveDen * 10 ^ k) (g1 hne)
  rw [Nat.mul_right_comm, ← dist_mul, ← Nat.mul_assoc, ← Nat.mul_assoc] at g2
  change fine m k ≤ dist (fine r k) (fine m k) * 2 ^ 53 at g2
  generalize fine m k = M at *
  generalize fine r k = R at *
  generalize 10 ^ j = z at *
  unfold dist at *
  omega

/-! ## the search -/

theorem decSearch_first {m : Nat} {e : Int} (n : Nat) : ∀ p0 p : Nat, p0 ≤ p → p < p0 + n → (∃ r, decAt m (e - p + 1) = some r) →
    ∃ (p1 : Nat) (r : Nat × Int), p0 ≤ p1 ∧ p1 ≤ p ∧ decAt m (e - p1 + 1) = some r ∧ decSearch m e n p0 = some r := by
  induction n with
  | zero => intro p0 p h1 h2; omega
  | succ n ih =>
    intro p0 p h1 h2 h
    rw [decSearch]
    cases hd : decAt m (e - p0 + 1) with
    | some r => exact ⟨p0, r, Nat.le_refl _, h1, hd, rfl⟩
    | none =>
      have hne : p ≠ p0 := by
        rintro rfl
        obtain ⟨r, hr⟩ := h
        rw [hd] at hr; cases hr
      obtain ⟨p1, r, a, b, c, d⟩ := ih (p0 + 1) p (by omega) (by omega) h
      exact ⟨p1, r, by omega, b, c, by rw [Option.none_or]; exact d⟩

/-- the coefficient found has no more digits than any decimal that is read as the float -/
theorem shortest_bound {m : Nat} (hm : IsUnits m) (h0 : m ≠ 0) {p : Nat} (hp : 0 < p)
    (h : p = 17 ∨ ∃ c x, 10 ^ (p - 1) ≤ c ∧ c < 10 ^ p ∧ decUnits c x = m) :
    ∃ p1, 0 < p1 ∧ p1 ≤ p ∧ (shortest m).1 ≤ 10 ^ p1 := by
  have key : ∀ p : Nat, 0 < p → p ≤ 17 → (∃ r, decAt m (decExp m - p + 1) = some r) →
      ∃ p1, 0 < p1 ∧ p1 ≤ p ∧ (shortest m).1 ≤ 10 ^ p1 := by
    intro p hp hp' hr
    obtain ⟨p1, r, a, b, c, d⟩ := decSearch_first 17 1 p hp (by omega) hr
    refine ⟨p1, a, b, ?_⟩
    unfold shortest
    rw [d]
    exact decAt_bound h0 c
  have k17 := key 17 (by decide) (by decide) (decAt_seventeen hm h0)
  by_cases hle : p ≤ 17
  · rcases h with rfl | ⟨c, x, a, b, d⟩
    · exact k17
    · exact key p hp hle (decAt_precision hm h0 hp a b d)
  · obtain ⟨p1, a, b, c⟩ := k17
    exact ⟨p1, a, by omega, c⟩

/-! ## significant digits -/

/-- the digits without the zeros in front and at the end -/
def significant (ds : List Char) : List Char :=
  ((ds.dropWhile (· == '0')).reverse.dropWhile (· == '0')).reverse

theorem digitsVal_dropWhile (ds : List Char) : digitsVal (ds.dropWhile (· == '0')) = digitsVal ds := by
  induction ds with
  | nil => rfl
  | cons c cs ih =>
    rw [List.dropWhile_cons]
    split
    · next h =>
      rw [beq_iff_eq] at h
      subst h
      rw [ih]
      simp [digitsVal]
    · rfl

theorem digitsVal_trailing (ds : List Char) : ∃ z, digitsVal ds = digitsVal (ds.reverse.dropWhile (· == '0')).reverse * 10 ^ z := by
  have h : ds = (ds.reverse.dropWhile (· == '0')).reverse ++ (ds.reverse.takeWhile (· == '0')).reverse := by
    rw [← List.reverse_append, List.takeWhile_append_dropWhile, List.reverse_reverse]
  have hz : ∀ l : List Char, (∀ c ∈ l, c = '0') → digitsVal l = 0 := by
    intro l
    induction l with
    | nil => intro _; rfl
    | cons c cs ih =>
      intro h
      have := h c (by simp)
      subst this
      have := ih (fun c hc => h c (by simp [hc]))
      simpa [digitsVal] using this
  refine ⟨(ds.reverse.takeWhile (· == '0')).reverse.length, ?_⟩
  conv => lhs; rw [h]
  rw [digitsVal_app, hz (ds.reverse.takeWhile (· == '0')).reverse, Nat.add_zero]
  intro c hc
  rw [List.mem_reverse] at hc
  have := List.all_takeWhile (p := (· == '0')) (l := ds.reverse)
  rw [List.all_eq_true] at this
  simpa using this c hc

theorem significant_val (ds : List Char) : ∃ z, digitsVal ds = digitsVal (significant ds) * 10 ^ z := by
  obtain ⟨z, hz⟩ := digitsVal_trailing (ds.dropWhile (· == '0'))
  exact ⟨z, by rw [← digitsVal_dropWhile, hz]; rfl⟩

theorem digitsVal_lt (ds : List Char) (h : ∀ c ∈ ds, isDigitC c = true) : digitsVal ds < 10 ^ ds.length := by
  induction ds with
  | nil => decide
  | cons c cs ih =>
    have h1 := ih (fun c hc => h c (by simp [hc]))
    have h2 := h c (by simp)
    unfold isDigitC at h2
    simp only [Bool.and_eq_true, decide_eq_true_eq] at h2
    rw [show digitsVal (c :: cs) = digitsVal [c] * 10 ^ cs.length + digitsVal cs from digitsVal_app [c] cs]
    have : digitsVal [c] = c.toNat - 48 := by simp [digitsVal]
    rw [this, List.length_cons, Nat.pow_succ]
    have := Nat.mul_le_mul_right (10 ^ cs.length) (show c.toNat - 48 ≤ 9 by omega)
    omega

theorem digitsVal_ge (c : Char) (cs : List Char) (h : isDigitC c = true) (h0 : c ≠ '0') : 10 ^ cs.length ≤ digitsVal (c :: cs) := by
  unfold isDigitC at h
  simp only [Bool.and_eq_true, decide_eq_true_eq] at h
  rw [show digitsVal (c :: cs) = digitsVal [c] * 10 ^ cs.length + digitsVal cs from digitsVal_app [c] cs]
  have : digitsVal [c] = c.toNat - 48 := by simp [digitsVal]
  have hne : c.toNat ≠ 48 := fun hh => h0 (Char.toNat_inj.1 hh)
  have := Nat.mul_le_mul_right (10 ^ cs.length) (show 1 ≤ digitsVal [c] by omega)
  omega

theorem mem_dropWhile {p : Char → Bool} {c : Char} {l : List Char} (h : c ∈ l.dropWhile p) : c ∈ l :=
  (List.dropWhile_sublist p).subset h

theorem significant_digits (ds : List Char) (h : ∀ c ∈ ds, isDigitC c = true) : ∀ c ∈ significant ds, isDigitC c = true := by
  intro c hc
  unfold significant at hc
  rw [List.mem_reverse] at hc
  have := mem_dropWhile hc
  rw [List.mem_reverse] at this
  exact h c (mem_dropWhile this)

/-- `n` digits, the first and the last of which are not zero -/
theorem significant_bounds (ds : List Char) (h : ∀ c ∈ ds, isDigitC c = true) (hv : digitsVal ds ≠ 0) :
    0 < (significant ds).length ∧ 10 ^ ((significant ds).length - 1) ≤ digitsVal (significant ds) ∧
      digitsVal (significant ds) < 10 ^ (significant ds).length ∧ digitsVal (significant ds) % 10 ≠ 0 := by
  obtain ⟨z, hz⟩ := significant_val ds
  have hv' : digitsVal (significant ds) ≠ 0 := fun hh => hv (by rw [hz, hh, Nat.zero_mul])
  have hd := significant_digits ds h
  have hlt := digitsVal_lt _ hd
  have hlast : ∀ l c, significant ds = l ++ [c] → c ≠ '0' := by
    intro l c hl hc
    unfold significant at hl
    rw [List.reverse_eq_iff, List.reverse_append, List.reverse_singleton, List.singleton_append] at hl
    have := List.head?_dropWhile_not (· == '0') (ds.dropWhile (· == '0')).reverse
    rw [hl, hc] at this
    simp at this
  have hhead : ∀ c cs, significant ds = c :: cs → c ≠ '0' := by
    intro c cs hc h0
    have hd0 : ∀ c l, ds.dropWhile (· == '0') = c :: l → c ≠ '0' := by
      intro c l hl hc
      have := List.head?_dropWhile_not (· == '0') ds
      rw [hl, hc] at this
      simp at this
    have hpre : significant ds <+: ds.dropWhile (· == '0') := by
      unfold significant
      rw [← List.reverse_suffix, List.reverse_reverse]
      exact List.dropWhile_suffix _
    rw [hc] at hpre
    obtain ⟨t, ht⟩ := hpre
    exact hd0 c (cs ++ t) (by rw [← ht]; rfl) h0
  generalize significant ds = S at *
  cases S with
  | nil => exact absurd rfl hv'
  | cons c cs =>
    refine ⟨by simp, ?_, hlt, ?_⟩
    · exact digitsVal_ge c cs (hd c (by simp)) (hhead c cs rfl)
    · obtain ⟨l, b, hb⟩ : ∃ l b, c :: cs = l ++ [b] := ⟨_, _, (List.dropLast_concat_getLast (List.cons_ne_nil c cs)).symm⟩
      have hb0 := hlast l b hb
      have hbd := hd b (by rw [hb]; simp)
      rw [hb, digitsVal_app]
      have : digitsVal [b] = b.toNat - 48 := by simp [digitsVal]
      unfold isDigitC at hbd
      simp only [Bool.and_eq_true, decide_eq_true_eq] at hbd
      have hne : b.toNat ≠ 48 := fun hh => hb0 (Char.toNat_inj.1 hh)
      rw [this]
      simp only [List.length_singleton, Nat.pow_one]
      omega

theorem strip10_val : ∀ n c x, ∃ j, c = (strip10 n c x).1 * 10 ^ j := by
  intro n
  induction n with
  | zero => intro c x; exact ⟨0, by simp [strip10]⟩
  | succ n ih =>
    intro c x
    rw [strip10]
    split
    · next h =>
      obtain ⟨j, hj⟩ := ih (c / 10) (x + 1)
      refine ⟨j + 1, ?_⟩
      rw [Nat.pow_succ, ← Nat.mul_assoc, ← hj]
      omega
    · exact ⟨0, by simp⟩

theorem coefficient_lt {S C z b p : Nat} (h : S * 10 ^ z = C * 10 ^ b) (hS : S % 10 ≠ 0) (hC : C ≤ 10 ^ p) (hp : 0 < p) : S < 10 ^ p := by
  have hb : ∀ n, 0 < 10 ^ n := fun n => Nat.pow_pos (by decide)
  rcases Nat.lt_trichotomy z b with hlt | heq | hgt
  · obtain ⟨k, rfl⟩ : ∃ k, b = z + (k + 1) := ⟨b - z - 1, by omega⟩
    rw [Nat.pow_add, Nat.mul_comm (10 ^ z), ← Nat.mul_assoc] at h
    have := Nat.eq_of_mul_eq_mul_right (hb z) h
    rw [Nat.pow_succ, ← Nat.mul_assoc] at this
    omega
  · subst heq
    have := Nat.eq_of_mul_eq_mul_right (hb z) h
    subst this
    refine Nat.lt_of_le_of_ne hC ?_
    rintro rfl
    obtain ⟨p, rfl⟩ : ∃ q, p = q + 1 := ⟨p - 1, by omega⟩
    rw [Nat.pow_succ] at hS
    omega
  · obtain ⟨k, rfl⟩ : ∃ k, z = b + (k + 1) := ⟨z - b - 1, by omega⟩
    rw [Nat.pow_add, Nat.mul_comm (10 ^ b), ← Nat.mul_assoc] at h
    have := Nat.eq_of_mul_eq_mul_right (hb b) h
    rw [Nat.pow_succ, ← Nat.mul_assoc] at this
    have h1 := hb k
    have h2 : S ≤ S * 10 ^ k := Nat.le_mul_of_pos_right S h1
    have : 0 < S := by omega
    omega

theorem length_le {n p v : Nat} (h1 : 10 ^ (n - 1) ≤ v) (h2 : v < 10 ^ p) : n ≤ p := by
  have : n - 1 < p := (Nat.pow_lt_pow_iff_right (a := 10) (by decide)).1 (Nat.lt_of_le_of_lt h1 h2)
  omega

/-! ## C128 -/

/-- the significant digits of a number text -/
def NumText.significant (t : NumText) : List Char := Verif.significant (t.int ++ t.frac)

/-- **C128, shortest.**  The text a float is written as has at most 17 significant digits, and no text that is read as the
same float has fewer. -/
theorem C128_shortest (q : Rat) (hq : isDouble q = true) (h0 : q ≠ 0) :
    ∃ (neg : Bool) (t : NumText), t.Ok ∧ dumps (.flt q) = .ok (String.ofList (t.signed neg)) ∧
      t.significant.length ≤ 17 ∧
      ∀ (neg' : Bool) (t' : NumText), t'.Ok → loads (String.ofList (t'.signed neg')) = .ok (.flt q) →
        t.significant.length ≤ t'.significant.length := by
  obtain ⟨m, hm, _, hu, hqm⟩ := isDouble_elim hq
  have hm0 : m ≠ 0 := by
    rintro rfl
    rw [fltOfUnits_zero] at hqm
    exact h0 hqm
  obtain ⟨t, t1, t2, t3, b, t4⟩ := unitsRepr_text hm
  have t4 := (t4.resolve_right hm0).1
  have hd : dumps (.flt q) = .ok (String.ofList (t.signed (decide (q.num < 0)))) := by
    rw [dumps, dumpsC, floatText, if_pos hq]
    unfold floatRepr NumText.signed
    rw [hu, t2]
    by_cases hn : q.num < 0
    · simp [hn, Except.map]
    · simp [hn, Except.map]
  have digits : ∀ t : NumText, t.Ok → ∀ c ∈ t.int ++ t.frac, isDigitC c = true := by
    intro t ht c hc
    rcases List.mem_append.1 hc with hc | hc
    · exact ht.int_digits c hc
    · exact ht.frac_digits c hc
  have nz : ∀ t : NumText, t.units = m → digitsVal (t.int ++ t.frac) ≠ 0 := by
    intro t ht hz
    unfold NumText.units at ht
    rw [hz, decUnits_zero] at ht
    exact hm0 ht.symm
  have bound : ∀ p1, 0 < p1 → (shortest m).1 ≤ 10 ^ p1 → t.significant.length ≤ p1 := by
    intro p1 hp1 hC
    obtain ⟨s1, s2, s3, s4⟩ := significant_bounds _ (digits t t1) (nz t t3)
    obtain ⟨z, hz⟩ := significant_val (t.int ++ t.frac)
    obtain ⟨j, hj⟩ := strip10_val (decLen (shortest m).1) (shortest m).1 (shortest m).2
    refine length_le s2 (coefficient_lt (z := z + j) (b := b) ?_ s4 hC hp1)
    rw [Nat.pow_add, ← Nat.mul_assoc, ← hz, t4]
    conv => rhs; rw [hj]
    rw [Nat.mul_right_comm]
  refine ⟨_, t, t1, hd, ?_, ?_⟩
  · obtain ⟨p1, a, b, c⟩ := shortest_bound hm hm0 (p := 17) (by decide) (.inl rfl)
    exact Nat.le_trans (bound p1 a c) b
  · intro neg' t' ht' hl
    rw [loads_text neg' t' ht', NumText.result] at hl
    have hum : t'.units = m := by
      split at hl
      · cases hl
      · cases hl
        rw [fltUnits_fltOfUnits] at hu
        exact hu
    obtain ⟨s1, s2, s3, s4⟩ := significant_bounds _ (digits t' ht') (nz t' hum)
    obtain ⟨z, hz⟩ := significant_val (t'.int ++ t'.frac)
    obtain ⟨p1, a, b, c⟩ := shortest_bound hm hm0 (p := t'.significant.length) s1
      (.inr ⟨_, t'.expVal - t'.frac.length + z, s2, s3, by
        rw [← hum, NumText.units, hz, ← decUnits_shift _ z]
        congr 1
        omega⟩)
    exact Nat.le_trans (bound p1 a c) b

example : NumText.significant ⟨"00120".toList, "0300".toList, none⟩ = "12003".toList := by decide

/-- a longer text for the same float: 17 digits against one -/
example : loads "0.10000000000000001" = .ok (.flt (3602879701896397 / 36028797018963968)) ∧
    dumps (.flt (3602879701896397 / 36028797018963968)) = .ok "0.1" := by decide +kernel

/-- a float that needs 17 digits -/
example : dumps (.flt (5404319552844596 / 18014398509481984)) = .ok "0.30000000000000004" := by decide +kernel

end Verif
