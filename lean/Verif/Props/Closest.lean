import Verif.Props.Shortest

/-!
# C128: the text of a float is the closest among the shortest
-/

namespace Verif

/-- At one precision the nearest of the decimals that are read as the float is found. -/
theorem decAt_closest {m c : Nat} {x : Int} {r : Nat × Int} (hc : decUnits c x = m) (h : decAt m x = some r) :
    dist (scaleNum m x) (r.1 * scaleDen x) ≤ dist (scaleNum m x) (c * scaleDen x) := by
  have hD := scaleDen_pos x
  unfold decAt at h
  simp only [] at h
  have f1 : scaleNum m x / scaleDen x * scaleDen x ≤ scaleNum m x := Nat.div_mul_le_self _ _
  have f2 : scaleNum m x < (scaleNum m x / scaleDen x + 1) * scaleDen x := Nat.lt_mul_of_div_lt (Nat.lt_succ_self _) hD
  generalize hN : scaleNum m x = N at *
  generalize hS : scaleDen x = D at *
  generalize hf : N / D = f at *
  split at h
  · cases h
    exact divEven_nearest N D c hD
  · next h1 =>
    simp only [Bool.and_eq_true, decide_eq_true_eq] at h1
    split at h
    · next h2 =>
      simp only [decide_eq_true_eq] at h2
      cases h
      by_cases hle : c ≤ f
      · have := Nat.mul_le_mul_right D hle
        unfold dist
        simp only [] at *
        omega
      · have a := decUnits_mono x (show f ≤ f + 1 by omega)
        have b := decUnits_mono x (show f + 1 ≤ c by omega)
        exact absurd ⟨h2, by omega⟩ h1
    · next h2 =>
      simp only [decide_eq_true_eq] at h2
      split at h
      · next h3 =>
        simp only [decide_eq_true_eq] at h3
        cases h
        by_cases hle : c ≤ f
        · have a := decUnits_mono x hle
          have b := decUnits_mono x (show f ≤ f + 1 by omega)
          exact absurd (show decUnits f x = m by omega) h2
        · have := Nat.mul_le_mul_right D (show f + 1 ≤ c by omega)
          unfold dist
          simp only [] at *
          omega
      · cases h

/-- `c * 10^x`, counted in `10^-(1074+k)` -/
def grid (c : Nat) (x : Int) (k : Nat) : Nat := c * 10 ^ (x + 1074 + k).toNat

theorem grid_shift (c z k : Nat) {x : Int} (hx : -1074 - (k : Int) ≤ x) : grid (c * 10 ^ z) x k = grid c (x + z) k := by
  unfold grid
  rw [Nat.mul_assoc, ← Nat.pow_add]
  congr 2
  omega

theorem decUnits_grid (c k : Nat) {x : Int} (hx : -1074 - (k : Int) ≤ x) : decUnits (grid c x k) (-1074 - k) = decUnits c x :=
  decUnits_on c k hx

/-- the same on the fine grid -/
theorem decAt_closest_fine {m c k : Nat} {x : Int} {r : Nat × Int} (hx : -1074 - (k : Int) ≤ x) (hc : decUnits c x = m)
    (h : decAt m x = some r) : dist (fine m k) (grid r.1 x k) ≤ dist (fine m k) (grid c x k) := by
  have h1 := decAt_closest hc h
  have h2 := scale_cross m k hx
  unfold grid
  generalize 10 ^ (x + 1074 + k).toNat = T at *
  have h3 := Nat.mul_le_mul_right T h1
  rw [← dist_mul, ← dist_mul, h2, Nat.mul_right_comm r.1, Nat.mul_right_comm c, dist_mul, dist_mul] at h3
  exact Nat.le_of_mul_le_mul_right h3 (scaleDen_pos x)

/-- A decimal with `p` digits that is read as the float has a decimal at the precision of `p` digits that is no further
away. -/
theorem precision_closest {m : Nat} (hm : IsUnits m) (h0 : m ≠ 0) {c p k : Nat} {x : Int} (hp : 0 < p)
    (h1 : 10 ^ (p - 1) ≤ c) (h2 : c < 10 ^ p) (hc : decUnits c x = m)
    (hx : -1074 - (k : Int) ≤ x) (hy : -1074 - (k : Int) ≤ decExp m - p + 1) :
    ∃ c', decUnits c' (decExp m - p + 1) = m ∧
      dist (fine m k) (grid c' (decExp m - p + 1) k) ≤ dist (fine m k) (grid c x k) := by
  by_cases hEq : x = decExp m - p + 1
  · rw [hEq] at hc ⊢
    exact ⟨c, hc, Nat.le_refl _⟩
  obtain ⟨e1, e2⟩ := decExp_fine (k := k) h0 (by omega)
  have hf := decUnits_fine hm k
  have hC := decUnits_grid c k hx
  rw [hc] at hC
  have c1 := Nat.mul_le_mul_right (10 ^ (x + 1074 + k).toNat) h1
  have c2 := Nat.mul_le_mul_right (10 ^ (x + 1074 + k).toNat) (Nat.le_of_lt h2)
  rw [← Nat.pow_add] at c1 c2
  change _ ≤ grid c x k at c1
  change grid c x k ≤ _ at c2
  generalize fine m k = M at *
  generalize grid c x k = C at *
  have squeeze : ∀ c' : Nat, (M ≤ grid c' (decExp m - p + 1) k ∧ grid c' (decExp m - p + 1) k ≤ C)
      ∨ (C ≤ grid c' (decExp m - p + 1) k ∧ grid c' (decExp m - p + 1) k ≤ M) →
      ∃ c', decUnits c' (decExp m - p + 1) = m ∧ dist M (grid c' (decExp m - p + 1) k) ≤ dist M C := by
    intro c' h
    refine ⟨c', ?_, ?_⟩
    · rw [← decUnits_grid c' k hy]
      rcases h with ⟨a, b⟩ | ⟨a, b⟩
      · have a := decUnits_mono (-1074 - (k : Int)) a
        have b := decUnits_mono (-1074 - (k : Int)) b
        omega
      · have a := decUnits_mono (-1074 - (k : Int)) a
        have b := decUnits_mono (-1074 - (k : Int)) b
        omega
    · unfold dist
      omega
  by_cases hgt : decExp m - p + 1 < x
  · refine squeeze (10 ^ p) (.inl ⟨?_, ?_⟩)
    · rw [grid, ← Nat.pow_add]
      exact Nat.le_trans (Nat.le_of_lt e2) (pow_le (by omega))
    · rw [grid, ← Nat.pow_add]
      exact Nat.le_trans (pow_le (by omega)) c1
  · have hlt : x < decExp m - p + 1 := by omega
    refine squeeze (10 ^ (p - 1)) (.inr ⟨?_, ?_⟩)
    · rw [grid, ← Nat.pow_add]
      exact Nat.le_trans c2 (pow_le (by omega))
    · rw [grid, ← Nat.pow_add]
      exact Nat.le_trans (pow_le (by omega)) e1

/-- What is written was found at some precision, no later than at one where something is found. -/
theorem shortest_at {m p : Nat} (hp : 0 < p) (hp' : p ≤ 17) (h : ∃ r, decAt m (decExp m - p + 1) = some r) :
    ∃ p1 : Nat, 0 < p1 ∧ p1 ≤ p ∧ decAt m (decExp m - p1 + 1) = some (shortest m) := by
  obtain ⟨p1, r, a, b, c, d⟩ := decSearch_first 17 1 p hp (by omega) h
  refine ⟨p1, a, b, ?_⟩
  rw [c, shortest, d]
  rfl

theorem strip10_exact : ∀ n c x, ∃ j : Nat, c = (strip10 n c x).1 * 10 ^ j ∧ (strip10 n c x).2 = x + j := by
  intro n
  induction n with
  | zero => intro c x; exact ⟨0, by simp [strip10], by simp [strip10]⟩
  | succ n ih =>
    intro c x
    rw [strip10]
    split
    · next h =>
      obtain ⟨j, hj, hx⟩ := ih (c / 10) (x + 1)
      refine ⟨j + 1, ?_, by rw [hx]; omega⟩
      rw [Nat.pow_succ, ← Nat.mul_assoc, ← hj]
      omega
    · exact ⟨0, by simp, by simp⟩

/-- the place of the last digit of a number text -/
def NumText.last (t : NumText) : Int := t.expVal - t.frac.length

/-- The distance of a number text from a float, on the fine grid. -/
theorem value_dist (neg : Bool) (t : NumText) (m k : Nat) (hk : (-t.last).toNat ≤ k) :
    (fltOfUnits neg m - t.value neg).abs
      = mkRat (dist (fine m k) (grid (digitsVal (t.int ++ t.frac)) t.last k) : Nat) (10 ^ (1074 + k)) := by
  have e : t.value neg = mkRat ((if neg then -1 else 1) * (digitsVal (t.int ++ t.frac) * 10 ^ t.last.toNat : Nat))
      (10 ^ (-t.last).toNat) := rfl
  have hs : fiveDen * 10 ^ (k - (-t.last).toNat) ≠ 0 :=
    Nat.ne_of_gt (Nat.mul_pos fiveDen_pos (Nat.pow_pos (by decide)))
  rw [e, abs_units _ _ _ _ _ (Nat.ne_of_gt (Nat.pow_pos (by decide))), signedDist_same,
    ← Rat.mkRat_mul_right hs]
  have c1 : fine m k = m * 10 ^ (-t.last).toNat * (fiveDen * 10 ^ (k - (-t.last).toNat)) := by
    unfold fine
    rw [show k = (-t.last).toNat + (k - (-t.last).toNat) by omega, Nat.pow_add]
    rw [show (-t.last).toNat + (k - (-t.last).toNat) - (-t.last).toNat = k - (-t.last).toNat by omega]
    simp only [Nat.mul_assoc, Nat.mul_left_comm]
  have c2 : grid (digitsVal (t.int ++ t.frac)) t.last k =
      digitsVal (t.int ++ t.frac) * 10 ^ t.last.toNat * unitDen * (fiveDen * 10 ^ (k - (-t.last).toNat)) := by
    unfold grid
    rw [show (t.last + 1074 + k).toNat = t.last.toNat + (1074 + (k - (-t.last).toNat)) by omega, Nat.pow_add, Nat.pow_add, tenDen]
    simp only [Nat.mul_assoc]
  have c3 : unitDen * 10 ^ (-t.last).toNat * (fiveDen * 10 ^ (k - (-t.last).toNat)) = 10 ^ (1074 + k) := by
    rw [show 1074 + k = 1074 + ((-t.last).toNat + (k - (-t.last).toNat)) by omega, Nat.pow_add, Nat.pow_add, tenDen]
    simp only [Nat.mul_assoc, Nat.mul_left_comm, Nat.mul_comm]
  rw [c3]
  congr 1
  rw [c1, c2, ← Int.natCast_mul, ← dist_mul]
  congr 1
  unfold dist
  omega

theorem grid_bound (a b c : Int) : ∃ k : Nat, (-a).toNat ≤ k ∧ (-b).toNat ≤ k ∧ -1074 - (k : Int) ≤ c :=
  ⟨(-a).toNat + (-b).toNat + (-c).toNat, by omega, by omega, by omega⟩

theorem grid_place {a : Int} {k : Nat} (z : Nat) (h : (-a).toNat ≤ k) : -1074 - (k : Int) ≤ a + z := by omega

/-- **C128, closest.**  Of all the texts with as few significant digits that are read as the same float, the one that is
written is the closest to it. -/
theorem C128_closest (q : Rat) (hq : isDouble q = true) (h0 : q ≠ 0) :
    ∃ (neg : Bool) (t : NumText), t.Ok ∧ dumps (.flt q) = .ok (String.ofList (t.signed neg)) ∧
      ∀ (neg' : Bool) (t' : NumText), t'.Ok → loads (String.ofList (t'.signed neg')) = .ok (.flt q) →
        t'.significant.length ≤ t.significant.length →
        (q - t.value neg).abs ≤ (q - t'.value neg').abs := by
  obtain ⟨m, hm, _, hu, hqm⟩ := isDouble_elim hq
  have hm0 : m ≠ 0 := by
    rintro rfl
    rw [fltOfUnits_zero] at hqm
    exact h0 hqm
  obtain ⟨t, t1, t2, t3, b, t4⟩ := unitsRepr_text hm
  obtain ⟨t4, t5⟩ := t4.resolve_right hm0
  have hd : dumps (.flt q) = .ok (String.ofList (t.signed (decide (q.num < 0)))) := by
    rw [dumps, dumpsC, floatText, if_pos hq]
    unfold floatRepr NumText.signed
    rw [hu, t2]
    by_cases hn : q.num < 0
    · simp [hn, Except.map]
    · simp [hn, Except.map]
  have digits : ∀ t : NumText, t.Ok → ∀ c ∈ t.int ++ t.frac, isDigitC c = true := by
    intro t ht c hc
    rcases List.mem_append.1 hc with hc | hc
    · exact ht.int_digits c hc
    · exact ht.frac_digits c hc
  have nz : ∀ t : NumText, t.units = m → digitsVal (t.int ++ t.frac) ≠ 0 := by
    intro t ht hz
    unfold NumText.units at ht
    rw [hz, decUnits_zero] at ht
    exact hm0 ht.symm
  obtain ⟨j, hj, hj2⟩ := strip10_exact (decLen (shortest m).1) (shortest m).1 (shortest m).2
  have bound : ∀ p1, 0 < p1 → (shortest m).1 ≤ 10 ^ p1 → t.significant.length ≤ p1 := by
    intro p1 hp1 hC
    obtain ⟨s1, s2, s3, s4⟩ := significant_bounds _ (digits t t1) (nz t t3)
    obtain ⟨z, hz⟩ := significant_val (t.int ++ t.frac)
    refine length_le s2 (coefficient_lt (z := z + j) (b := b) ?_ s4 hC hp1)
    rw [Nat.pow_add, ← Nat.mul_assoc, ← hz, t4]
    conv => rhs; rw [hj]
    rw [Nat.mul_right_comm]
  have h17 : t.significant.length ≤ 17 := by
    obtain ⟨p1, a, b, c⟩ := shortest_bound hm hm0 (p := 17) (by decide) (.inl rfl)
    exact Nat.le_trans (bound p1 a c) b
  refine ⟨_, t, t1, hd, ?_⟩
  intro neg' t' ht' hl hlen
  rw [loads_text neg' t' ht', NumText.result] at hl
  obtain ⟨hum, hqe⟩ : t'.units = m ∧ q = fltOfUnits neg' m := by
    split at hl
    · cases hl
    · cases hl
      rw [fltUnits_fltOfUnits] at hu
      exact ⟨hu, by rw [hu]⟩
  have hneg : decide (q.num < 0) = neg' := by
    have h5 := fltOfUnits_neg neg' m hm0
    rw [← hqe] at h5
    cases neg'
    · simpa using h5
    · simpa using h5
  obtain ⟨s1, s2, s3, s4⟩ := significant_bounds _ (digits t' ht') (nz t' hum)
  obtain ⟨z, hz⟩ := significant_val (t'.int ++ t'.frac)
  change 0 < t'.significant.length at s1
  change digitsVal (t'.int ++ t'.frac) = digitsVal t'.significant * 10 ^ z at hz
  change 10 ^ (t'.significant.length - 1) ≤ digitsVal t'.significant at s2
  change digitsVal t'.significant < 10 ^ t'.significant.length at s3
  have hread : decUnits (digitsVal t'.significant) (t'.last + z) = m := by
    rw [← hum, NumText.units, hz, ← decUnits_shift _ z]
    congr 1
    unfold NumText.last
    omega
  obtain ⟨p1, a1, a2, a3⟩ := shortest_at s1 (by omega) (decAt_precision hm hm0 s1 s2 s3 hread)
  have hp1 : p1 = t'.significant.length := by
    have := bound p1 a1 (decAt_bound hm0 a3)
    omega
  rw [hp1] at a3
  have hx2 := (decAt_result a3).1
  obtain ⟨k, k1, k2, k3⟩ : ∃ k : Nat, (-t.last).toNat ≤ k ∧ (-t'.last).toNat ≤ k ∧ -1074 - (k : Int) ≤ (shortest m).2 :=
    grid_bound _ _ _
  have k4 := k3
  rw [hx2] at k4
  obtain ⟨c', b1, b2⟩ := precision_closest hm hm0 (k := k) s1 s2 s3 hread (grid_place z k2) k4
  have b3 := decAt_closest_fine k4 b1 a3
  have gt : grid (digitsVal (t.int ++ t.frac)) t.last k = grid (shortest m).1 (decExp m - t'.significant.length + 1) k := by
    rw [← hx2]
    conv => rhs; rw [hj]
    rw [t4, grid_shift _ _ _ (grid_place 0 k1 |> fun h => by simpa using h), grid_shift _ _ _ k3, ← hj2]
    congr 1
    unfold NumText.last
    rw [t5]
    exact Int.sub_add_cancel _ _
  have gt' : grid (digitsVal (t'.int ++ t'.frac)) t'.last k = grid (digitsVal t'.significant) (t'.last + z) k := by
    rw [hz, grid_shift _ _ _ (grid_place 0 k2 |> fun h => by simpa using h)]
  rw [hneg, hqe, value_dist neg' t m k k1, value_dist neg' t' m k k2, gt, gt']
  exact mkRat_mono _ (Int.ofNat_le.2 (Nat.le_trans b3 b2))

/-- 2^60 and 2^-1074 have several texts of as few digits; the closest one is written -/
example : loads "1.152921504606847e18" = .ok (.flt 1152921504606846976) ∧
    loads "1.152921504606846976e18" = .ok (.flt 1152921504606846976) ∧
    dumps (.flt 1152921504606846976) = .ok "1.152921504606847e+18" ∧
    loads "3e-324" = loads "7e-324" ∧ loads "3e-324" = loads "5e-324" ∧
    dumps (.flt (mkRat 1 unitDen)) = .ok "5e-324" ∧ isDouble (mkRat 1 unitDen) = true := by
  decide +kernel

end Verif
