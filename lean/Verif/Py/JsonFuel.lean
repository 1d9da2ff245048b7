import Verif.Py.JsonLemmas

/-!
# The bound in the model of `json.loads` is immaterial

`jval` takes a bound on the number of nested calls.  `loads_any_bound`: every bound that is at least the one `loadsC` uses
gives the same result, so the model never answers "unmodelled" for lack of it.
-/

namespace Verif

/-- what is left over is shorter than `n` -/
def Shorter {α} (n : Nat) (r : Res (α × List Char)) : Prop := ∀ v rest, r = .ok (v, rest) → rest.length < n

theorem Shorter.err {α} {n : Nat} {e : Exc} : Shorter n (.error e : Res (α × List Char)) := by
  intro v rest h; simp at h

theorem Shorter.ok {α} {n : Nat} {v : α} {rest : List Char} (h : rest.length < n) : Shorter n (.ok (v, rest)) := by
  intro v' rest' h'; cases h'; exact h

theorem Shorter.mono {α} {n m : Nat} {r : Res (α × List Char)} (h : Shorter n r) (hm : n ≤ m) : Shorter m r :=
  fun v rest hr => Nat.lt_of_lt_of_le (h v rest hr) hm

theorem Shorter.cons {n : Nat} {c : Char} {r : Res (List Char × List Char)} (h : Shorter n r) :
    Shorter n (consChar c r) := by
  unfold consChar
  split
  · exact .ok (h _ _ rfl)
  · exact .err

theorem skipWs_len (s : List Char) : (skipWs s).length ≤ s.length := (List.dropWhile_suffix _).length_le

theorem skipWs_cons_len {s r : List Char} {c : Char} (h : skipWs s = c :: r) : r.length < s.length := by
  have := skipWs_len s
  rw [h] at this
  exact this

theorem shorter_jstr_len : ∀ (n : Nat) (s : List Char), s.length ≤ n → Shorter s.length (jstr s)
  | n, [], _ => by rw [jstr]; exact .err
  | 0, _ :: _, h => absurd h (by simp)
  | n + 1, c :: r, h => by
    rw [jstr.eq_def]
    simp only [List.length_cons] at h
    dsimp only
    repeat' split
    all_goals first
      | exact .err
      | exact .ok (by simp)
      | (refine Shorter.cons (Shorter.mono (shorter_jstr_len n _ ?_) ?_) <;> simp_all <;> omega)

theorem shorter_jstr (s : List Char) : Shorter s.length (jstr s) := shorter_jstr_len _ s (Nat.le_refl _)

theorem scanFrac_len (r : List Char) : (scanFrac r).2.length ≤ r.length := by
  unfold scanFrac
  dsimp only
  repeat' split
  all_goals simp <;> omega

theorem scanSign_len (r : List Char) : (scanSign r).2.length ≤ r.length := by
  unfold scanSign
  repeat' split
  all_goals simp

theorem scanExp_len (r : List Char) : (scanExp r).2.length ≤ r.length := by
  unfold scanExp
  split
  · simp
  · next c t =>
    have := scanSign_len t
    dsimp only
    repeat' split
    all_goals simp <;> omega

theorem shorter_jnumTail (neg : Bool) (ds r : List Char) : Shorter (r.length + 1) (jnumTail neg ds r) := by
  unfold jnumTail
  have h1 := scanFrac_len r
  have h2 := scanExp_len (scanFrac r).2
  dsimp only
  repeat' split
  all_goals first | exact .err | exact .ok (by omega)

theorem shorter_jnum (s : List Char) : Shorter s.length (jnum s) := by
  unfold jnum
  dsimp only
  generalize hb : (if (s.head? == some '-') = true then s.tail else s) = body
  have hbl : body.length ≤ s.length := by
    rw [← hb]; split
    · simp
    · exact Nat.le_refl _
  generalize hd : (if ((body.takeWhile isDigitC).head? == some '0') = true then (body.takeWhile isDigitC).take 1
    else body.takeWhile isDigitC) = ds
  have hds : ds.length ≤ body.length := by
    have h1 : (body.takeWhile isDigitC).length ≤ body.length := (List.takeWhile_prefix _).length_le
    rw [← hd]; split
    · rw [List.length_take]; omega
    · exact h1
  have hdrop : ds.isEmpty = false → (body.drop ds.length).length < s.length := by
    intro he
    cases ds with
    | nil => simp at he
    | cons x xs => rw [List.length_drop]; simp only [List.length_cons] at hds ⊢; omega
  by_cases he : ds.isEmpty = true
  · rw [if_pos he]
    split <;> exact .err
  · rw [if_neg he]
    have := hdrop (by simpa using he)
    exact Shorter.mono (shorter_jnumTail _ _ _) this

theorem dropPrefix_len : ∀ (p s r : List Char), dropPrefix? p s = some r → p.length + r.length = s.length
  | [], s, r, h => by simp only [dropPrefix?, Option.some.injEq] at h; simp [h]
  | p :: ps, [], r, h => by simp [dropPrefix?] at h
  | p :: ps, c :: cs, r, h => by
    simp only [dropPrefix?] at h
    split at h
    · have := dropPrefix_len ps cs r h
      simp only [List.length_cons]; omega
    · simp at h

mutual
theorem shorter_jval : (n : Nat) → (s : List Char) → Shorter s.length (jval n s)
  | 0, _ => by rw [jval]; exact .err
  | _ + 1, [] => by rw [jval]; exact .err
  | n + 1, c :: r => by
    rw [jval]
    split
    · have := shorter_jstr r
      split
      · rename_i h
        have := this _ _ h
        exact .ok (by simp only [List.length_cons]; omega)
      · exact .err
    split
    · split
      · exact .err
      · rename_i h
        have hl := skipWs_cons_len h
        split
        · exact .ok (by simp only [List.length_cons]; omega)
        · exact (shorter_jmembers n _ _).mono (by simp only [List.length_cons]; omega)
    split
    · split
      · exact .err
      · rename_i h
        have hl := skipWs_cons_len h
        split
        · exact .ok (by simp only [List.length_cons]; omega)
        · exact (shorter_jelems n _ _).mono (by simp only [List.length_cons]; omega)
    split
    · rename_i h
      have := dropPrefix_len _ _ _ h
      exact .ok (by rw [show ("null".toList).length = 4 from rfl] at this; omega)
    split
    · rename_i h
      have := dropPrefix_len _ _ _ h
      exact .ok (by rw [show ("true".toList).length = 4 from rfl] at this; omega)
    split
    · rename_i h
      have := dropPrefix_len _ _ _ h
      exact .ok (by rw [show ("false".toList).length = 5 from rfl] at this; omega)
    split
    · exact .err
    · exact shorter_jnum _
theorem shorter_jmembers : (n : Nat) → (acc : List (String × Val)) → (s : List Char) → Shorter s.length (jmembers n acc s)
  | 0, _, _ => by rw [jmembers]; exact .err
  | _ + 1, _, [] => by rw [jmembers]; exact .err
  | n + 1, acc, c :: r => by
    rw [jmembers]
    split
    · have h0 := shorter_jstr r
      split
      · exact .err
      · rename_i h1
        have h1 := h0 _ _ h1
        split
        · exact .err
        · rename_i r2 h2
          have h2 := skipWs_cons_len h2
          have h2' := skipWs_len r2
          split
          · have h3 := shorter_jval n (skipWs r2)
            split
            · exact .err
            · rename_i h4
              have h4 := h3 _ _ h4
              split
              · exact .err
              · rename_i r4 h5
                have h5 := skipWs_cons_len h5
                have h5' := skipWs_len r4
                split
                · exact .ok (by simp only [List.length_cons]; omega)
                · split
                  · exact (shorter_jmembers n _ _).mono (by simp only [List.length_cons]; omega)
                  · exact .err
          · exact .err
    · exact .err
theorem shorter_jelems : (n : Nat) → (acc : List Val) → (s : List Char) → Shorter s.length (jelems n acc s)
  | 0, _, _ => by rw [jelems]; exact .err
  | n + 1, acc, s => by
    rw [jelems]
    have h3 := shorter_jval n s
    split
    · exact .err
    · rename_i h4
      have h4 := h3 _ _ h4
      split
      · exact .err
      · rename_i r4 h5
        have h5 := skipWs_cons_len h5
        have h5' := skipWs_len r4
        split
        · exact .ok (by omega)
        · split
          · exact (shorter_jelems n _ _).mono (by omega)
          · exact .err
end

mutual
theorem jval_bound : (n m : Nat) → (s : List Char) → 2 * s.length + 1 ≤ n → 2 * s.length + 1 ≤ m →
    jval n s = jval m s
  | 0, _, _, h, _ => by omega
  | _ + 1, 0, _, _, h => by omega
  | _ + 1, _ + 1, [], _, _ => by rw [jval, jval]
  | n + 1, m + 1, c :: r, hn, hm => by
    simp only [List.length_cons] at hn hm
    rw [jval, jval]
    split
    · rfl
    split
    · split
      · rfl
      · rename_i h
        have hl := skipWs_cons_len h
        split
        · rfl
        · exact jmembers_bound n m _ _ (by simp only [List.length_cons]; omega) (by simp only [List.length_cons]; omega)
    split
    · split
      · rfl
      · rename_i h
        have hl := skipWs_cons_len h
        split
        · rfl
        · exact jelems_bound n m _ _ (by simp only [List.length_cons]; omega) (by simp only [List.length_cons]; omega)
    rfl
theorem jmembers_bound : (n m : Nat) → (acc : List (String × Val)) → (s : List Char) → 2 * s.length + 1 ≤ n →
    2 * s.length + 1 ≤ m → jmembers n acc s = jmembers m acc s
  | 0, _, _, _, h, _ => by omega
  | _ + 1, 0, _, _, _, h => by omega
  | _ + 1, _ + 1, _, [], _, _ => by rw [jmembers, jmembers]
  | n + 1, m + 1, acc, c :: r, hn, hm => by
    simp only [List.length_cons] at hn hm
    rw [jmembers, jmembers]
    split
    · have h0 := shorter_jstr r
      split
      · rfl
      · rename_i h1
        have h1 := h0 _ _ h1
        split
        · rfl
        · rename_i r2 h2
          have h2 := skipWs_cons_len h2
          have h2' := skipWs_len r2
          split
          · rw [jval_bound n m (skipWs r2) (by omega) (by omega)]
            have h3 := shorter_jval m (skipWs r2)
            split
            · rfl
            · rename_i h4
              have h4 := h3 _ _ h4
              split
              · rfl
              · rename_i r4 h5
                have h5 := skipWs_cons_len h5
                have h5' := skipWs_len r4
                split
                · rfl
                · split
                  · exact jmembers_bound n m _ _ (by omega) (by omega)
                  · rfl
          · rfl
    · rfl
theorem jelems_bound : (n m : Nat) → (acc : List Val) → (s : List Char) → 2 * s.length + 2 ≤ n → 2 * s.length + 2 ≤ m →
    jelems n acc s = jelems m acc s
  | 0, _, _, _, h, _ => by omega
  | _ + 1, 0, _, _, _, h => by omega
  | n + 1, m + 1, acc, s, hn, hm => by
    rw [jelems, jelems, jval_bound n m s (by omega) (by omega)]
    have h3 := shorter_jval m s
    split
    · rfl
    · rename_i h4
      have h4 := h3 _ _ h4
      split
      · rfl
      · rename_i r4 h5
        have h5 := skipWs_cons_len h5
        have h5' := skipWs_len r4
        split
        · rfl
        · split
          · exact jelems_bound n m _ _ (by omega) (by omega)
          · rfl
end

/-- any larger bound gives the same -/
theorem loads_any_bound (s : List Char) (n : Nat) (h : 2 * s.length + 2 ≤ n) :
    loadsC s = match jval n (skipWs s) with
      | .error e => .error e
      | .ok (v, r) => if skipWs r = [] then .ok v else .error .jsonDecodeError := by
  have := skipWs_len s
  rw [loadsC, jval_bound (2 * s.length + 2) n (skipWs s) (by omega) (by omega)]
  cases jval n (skipWs s) with
  | error e => rfl
  | ok x => rfl

end Verif
