import Verif.Props.JsonIndent

/-!
# C145, refusals: which exception there is

The texts for which `json.loads` goes beyond what the model covers are among those with `NaN`, an infinity, a number that is not within
the floats or a negative zero, or an escaped surrogate.  All others are read, or refused with a `JSONDecodeError`.
-/

namespace Verif

/-- a number with a fraction or an exponent that is too large for a float, or a negative one that is zero as a float -/
inductive ExtremeNumber : List Char → Prop
  | mk {neg : Bool} {ds fr fs es : List Char} {x : Int} : IntPart ds → FracText fr fs → ExpText x es →
      unitsEnd ≤ decUnits (digitsVal (ds ++ fr)) (x - fr.length) ∨ (neg = true ∧ decUnits (digitsVal (ds ++ fr)) (x - fr.length) = 0) →
      fs ≠ [] ∨ es ≠ [] → ExtremeNumber (minusText neg ++ (ds ++ (fs ++ es)))

/-- no letter `N` or `I`, no extreme number and no escape `\ud…` in any place -/
structure PlainText (s : List Char) : Prop where
  names : ∀ c ∈ s, c ≠ 'N' ∧ c ≠ 'I'
  numbers : ∀ p t q, s = p ++ (t ++ q) → ¬ ExtremeNumber t
  escapes : ∀ p h q, s = p ++ '\\' :: 'u' :: h :: q → h ≠ 'd' ∧ h ≠ 'D'

theorem PlainText.suffix {s t : List Char} (h : PlainText s) (ht : t <:+ s) : PlainText t := by
  obtain ⟨p0, rfl⟩ := ht
  refine ⟨fun c hc => h.names c (List.mem_append_right _ hc), fun p t q e => ?_, fun p c q e => ?_⟩
  · exact h.numbers (p0 ++ p) t q (by rw [e, List.append_assoc])
  · exact h.escapes (p0 ++ p) c q (by rw [e, List.append_assoc])

/-- the model knows the outcome, and what is left over is a part of the text -/
def Decided {α : Type} (s : List Char) (r : Res (α × List Char)) : Prop :=
  r ≠ .error .unmodelled ∧ ∀ v rest, r = .ok (v, rest) → rest <:+ s

theorem Decided.err {α : Type} {s : List Char} {e : Exc} (h : e ≠ .unmodelled) : Decided s (.error e : Res (α × List Char)) :=
  ⟨fun he => h (by cases he; rfl), fun _ _ he => by cases he⟩

theorem Decided.bad {α : Type} {s : List Char} : Decided s (.error .jsonDecodeError : Res (α × List Char)) := .err (by decide)

theorem Decided.ok {α : Type} {s rest : List Char} {v : α} (h : rest <:+ s) : Decided s (.ok (v, rest)) :=
  ⟨fun he => (by cases he), fun _ _ he => (by cases he; exact h)⟩

theorem Decided.mono {α : Type} {s t : List Char} {r : Res (α × List Char)} (h : Decided t r) (ht : t <:+ s) : Decided s r :=
  ⟨h.1, fun v rest e => (h.2 v rest e).trans ht⟩

theorem Decided.cons {s : List Char} {c : Char} {r : Res (List Char × List Char)} (h : Decided s r) : Decided s (consChar c r) := by
  unfold consChar
  split
  · exact .ok (h.2 _ _ rfl)
  · next e => exact .err fun he => h.1 (by rw [he])

theorem hex4_surrogate {a b c d : Char} {n : Nat} (h : hex4? a b c d = some n) (hn : 0xD800 ≤ n ∧ n ≤ 0xDFFF) : a = 'd' ∨ a = 'D' := by
  have hb : ∀ c n, hexVal? c = some n → n < 16 := by
    intro c n h
    simp only [hexVal?, Bool.and_eq_true, decide_eq_true_eq] at h
    repeat' split at h
    all_goals first | (cases h; omega) | cases h
  unfold hex4? at h
  split at h
  · next w x y z hw hx hy hz =>
    simp only [Option.some.injEq] at h
    have := hb _ _ hx
    have := hb _ _ hy
    have := hb _ _ hz
    have hw13 : w = 13 := by omega
    subst hw13
    simp only [hexVal?, Bool.and_eq_true, decide_eq_true_eq] at hw
    have hchar : ∀ c : Char, a.toNat = c.toNat → a = c := fun c e => by
      rw [← Char.ofNat_toNat a, e, Char.ofNat_toNat]
    split at hw
    · simp only [Option.some.injEq] at hw; omega
    · split at hw
      · simp only [Option.some.injEq] at hw
        exact .inr (hchar 'D' (by rw [show 'D'.toNat = 68 from rfl]; omega))
      · split at hw
        · simp only [Option.some.injEq] at hw
          exact .inl (hchar 'd' (by rw [show 'd'.toNat = 100 from rfl]; omega))
        · cases hw
  · cases h

theorem decided_jstr : ∀ (n : Nat) (s : List Char), s.length ≤ n → PlainText s → Decided s (jstr s)
  | n, [], _, _ => by rw [jstr]; exact .bad
  | 0, _ :: _, h, _ => absurd h (by simp)
  | n + 1, c :: r, h, hp => by
    rw [jstr.eq_def]
    simp only [List.length_cons] at h
    dsimp only
    split
    · exact .ok (List.suffix_cons _ _)
    split
    · next hc =>
      subst hc
      split
      · exact .bad
      · next e r1 =>
        split
        · next he =>
          subst he
          split
          · next h1 h2 h3 h4 r2 =>
            have hs : r2 <:+ '\\' :: 'u' :: h1 :: h2 :: h3 :: h4 :: r2 := ⟨['\\', 'u', h1, h2, h3, h4], rfl⟩
            have hh := hp.escapes [] h1 _ rfl
            split
            · exact .bad
            · next m hm =>
              rw [if_neg, if_neg]
              · exact ((decided_jstr n r2 (by simp only [List.length_cons] at h; omega) (hp.suffix hs)).mono hs).cons
              · intro hn; rcases hex4_surrogate hm ⟨by omega, by omega⟩ with rfl | rfl <;> simp at hh
              · intro hn; rcases hex4_surrogate hm ⟨by omega, by omega⟩ with rfl | rfl <;> simp at hh
          · exact .bad
        · have hs : r1 <:+ '\\' :: e :: r1 := ⟨['\\', e], rfl⟩
          split
          · exact ((decided_jstr n r1 (by simp only [List.length_cons] at h; omega) (hp.suffix hs)).mono hs).cons
          · exact .bad
    split
    · exact .bad
    · exact ((decided_jstr n r (by omega) (hp.suffix (List.suffix_cons _ _))).mono (List.suffix_cons _ _)).cons

theorem jnumTail_decided {neg : Bool} {ds r : List Char} (hi : IntPart ds)
    (h : ∀ p t q, minusText neg ++ (ds ++ r) = p ++ (t ++ q) → ¬ ExtremeNumber t) : jnumTail neg ds r ≠ .error .unmodelled := by
  intro hu
  unfold jnumTail at hu
  simp only [] at hu
  obtain ⟨fs, hf, hfr⟩ := scanFrac_spec r
  obtain ⟨es, he, her, hne⟩ := scanExp_spec (scanFrac r).2
  split at hu
  · cases hu
  · next hx =>
    split at hu
    · next hc =>
      refine h [] _ (scanExp (scanFrac r).2).2 ?_ (.mk (neg := neg) hi hf he hc ?_)
      · simp only [List.nil_append, List.append_assoc]
        rw [← her, ← hfr]
      · by_cases hes : es = []
        · left
          intro hfs
          apply hx
          rw [hne.2 hes]
          rw [hfs] at hf
          generalize (scanFrac r).1 = fr at hf
          cases hf
          rfl
        · exact .inr hes
    · cases hu

theorem decided_jnum (s : List Char) (hp : PlainText s) : Decided s (jnum s) := by
  refine ⟨?_, fun v rest h => ?_⟩
  · unfold jnum
    simp only []
    generalize hb : (if (s.head? == some '-') = true then s.tail else s) = body
    have hs' : s = minusText (s.head? == some '-') ++ body := by
      subst hb
      by_cases hm : s.head? = some '-'
      · cases s with
        | nil => cases hm
        | cons c t => simp at hm; simp [hm, minusText]
      · have : (s.head? == some '-') = false := by simpa using hm
        simp [this, minusText]
    by_cases hne : (if (body.takeWhile isDigitC).head? == some '0' then (body.takeWhile isDigitC).take 1
        else body.takeWhile isDigitC) = []
    · rw [hne]
      simp only [List.isEmpty_nil, if_true]
      rw [if_neg]
      · simp
      · intro hI
        simp only [Bool.and_eq_true, beq_iff_eq] at hI
        have : 'I' ∈ body := List.mem_of_mem_head? hI.2
        exact (hp.names 'I' (by rw [hs']; exact List.mem_append_right _ this)).2 rfl
    · rw [if_neg (by simpa using hne)]
      obtain ⟨hi, hs⟩ := intPart_take hne
      refine jnumTail_decided hi fun p t q e => hp.numbers p t q ?_
      rw [← e, ← hs]
      exact hs'
  · obtain ⟨t, -, rfl⟩ := jnum_spec h
    exact List.suffix_append _ _

theorem dropPrefix_suffix : ∀ (p s r : List Char), dropPrefix? p s = some r → r <:+ s
  | [], s, r, h => by simp only [dropPrefix?, Option.some.injEq] at h; rw [h]; exact List.suffix_rfl
  | p :: ps, [], r, h => by simp [dropPrefix?] at h
  | p :: ps, c :: cs, r, h => by
    simp only [dropPrefix?] at h
    split at h
    · exact (dropPrefix_suffix ps cs r h).trans (List.suffix_cons _ _)
    · simp at h

theorem skipWs_suffix (s : List Char) : skipWs s <:+ s := List.dropWhile_suffix _

theorem skipWs_cons_suffix {s r : List Char} {c : Char} (h : skipWs s = c :: r) : c :: r <:+ s := h ▸ skipWs_suffix s

mutual
theorem decided_jval : (n : Nat) → (s : List Char) → 2 * s.length + 1 ≤ n → PlainText s → Decided s (jval n s)
  | 0, _, h, _ => absurd h (by omega)
  | _ + 1, [], _, _ => by rw [jval]; exact .bad
  | n + 1, c :: r, hn, hp => by
    have hr : r <:+ c :: r := List.suffix_cons _ _
    rw [jval]
    simp only [List.length_cons] at hn
    split
    · have := decided_jstr _ r (Nat.le_refl _) (hp.suffix hr)
      split
      · next h => exact .ok ((this.2 _ _ h).trans hr)
      · next e h => exact .err fun he => this.1 (by rw [h, he])
    split
    · split
      · exact .bad
      · next c' r' h =>
        have hs := (skipWs_cons_suffix h).trans hr
        have hl := skipWs_cons_len h
        split
        · exact .ok ((List.suffix_cons _ _).trans hs)
        · exact (decided_jmembers n _ _ (by simp only [List.length_cons]; omega) (hp.suffix hs)).mono hs
    split
    · split
      · exact .bad
      · next c' r' h =>
        have hs := (skipWs_cons_suffix h).trans hr
        have hl := skipWs_cons_len h
        split
        · exact .ok ((List.suffix_cons _ _).trans hs)
        · exact (decided_jelems n _ _ (by simp only [List.length_cons]; omega) (hp.suffix hs)).mono hs
    split
    · next h => exact .ok (dropPrefix_suffix _ _ _ h)
    split
    · next h => exact .ok (dropPrefix_suffix _ _ _ h)
    split
    · next h => exact .ok (dropPrefix_suffix _ _ _ h)
    have hc := hp.names c (by simp)
    rw [if_neg (by simp [hc])]
    exact decided_jnum _ hp
theorem decided_jmembers : (n : Nat) → (acc : List (String × Val)) → (s : List Char) → 2 * s.length + 1 ≤ n → PlainText s →
    Decided s (jmembers n acc s)
  | 0, _, _, h, _ => absurd h (by omega)
  | _ + 1, _, [], _, _ => by rw [jmembers]; exact .bad
  | n + 1, acc, c :: r, hn, hp => by
    have hr : r <:+ c :: r := List.suffix_cons _ _
    rw [jmembers]
    simp only [List.length_cons] at hn
    split
    · have h0 := decided_jstr _ r (Nat.le_refl _) (hp.suffix hr)
      have h0l := shorter_jstr r
      split
      · next e h => exact .err fun he => h0.1 (by rw [h, he])
      · next k r1 h1 =>
        have s1 := (h0.2 _ _ h1).trans hr
        have l1 := h0l _ _ h1
        split
        · exact .bad
        · next c2 r2 h2 =>
          have s2 := (skipWs_suffix r2).trans ((List.suffix_cons c2 r2).trans ((skipWs_cons_suffix h2).trans s1))
          have l2 := skipWs_cons_len h2
          have l2' := skipWs_len r2
          split
          · have h3 := decided_jval n (skipWs r2) (by omega) (hp.suffix s2)
            have h3l := shorter_jval n (skipWs r2)
            split
            · next e h => exact .err fun he => h3.1 (by rw [h, he])
            · next v r3 h4 =>
              have s4 := (h3.2 _ _ h4).trans s2
              have l4 := h3l _ _ h4
              split
              · exact .bad
              · next c4 r4 h5 =>
                have s5 := (List.suffix_cons c4 r4).trans ((skipWs_cons_suffix h5).trans s4)
                have l5 := skipWs_cons_len h5
                have l5' := skipWs_len r4
                split
                · exact .ok s5
                · split
                  · have s6 := (skipWs_suffix r4).trans s5
                    exact (decided_jmembers n _ _ (by omega) (hp.suffix s6)).mono s6
                  · exact .bad
          · exact .bad
    · exact .bad
theorem decided_jelems : (n : Nat) → (acc : List Val) → (s : List Char) → 2 * s.length + 2 ≤ n → PlainText s →
    Decided s (jelems n acc s)
  | 0, _, _, h, _ => absurd h (by omega)
  | n + 1, acc, s, hn, hp => by
    rw [jelems]
    have h3 := decided_jval n s (by omega) hp
    have h3l := shorter_jval n s
    split
    · next e h => exact .err fun he => h3.1 (by rw [h, he])
    · next v r3 h4 =>
      have s4 := h3.2 _ _ h4
      have l4 := h3l _ _ h4
      split
      · exact .bad
      · next c4 r4 h5 =>
        have s5 := (List.suffix_cons c4 r4).trans ((skipWs_cons_suffix h5).trans s4)
        have l5 := skipWs_cons_len h5
        have l5' := skipWs_len r4
        split
        · exact .ok s5
        · split
          · have s6 := (skipWs_suffix r4).trans s5
            exact (decided_jelems n _ _ (by omega) (hp.suffix s6)).mono s6
          · exact .bad
end

/-- **C145, which exception.**  A plain text that is no document is refused with a `JSONDecodeError`. -/
theorem C145_refused_plain (s : List Char) (hp : PlainText s) (h : ∀ v, ¬ DocText v s) :
    loads (String.ofList s) = .error .jsonDecodeError := by
  rcases C145_refused s h with e | e
  · exact e
  · exfalso
    unfold loads loadsC at e
    rw [String.toList_ofList] at e
    have hd := decided_jval (2 * s.length + 2) (skipWs s) (by have := skipWs_len s; omega) (hp.suffix (skipWs_suffix s))
    split at e
    · next e' h' =>
      cases e
      exact hd.1 h'
    · split at e <;> cases e

/-- **C145, which exception.**  So it is by `from_json`, which raises an `AttributeError` for a document of something that is not an object. -/
theorem C145_from_json_plain (sch : Schema) (st : Dict) (s : List Char) (hp : PlainText s) (h : ∀ d, ¬ DocText (.dict d) s) :
    fromJson sch st (String.ofList s) = .error .jsonDecodeError ∨ fromJson sch st (String.ofList s) = .error .attributeError := by
  by_cases hv : ∃ v, DocText v s
  · obtain ⟨v, hv⟩ := hv
    right
    unfold fromJson
    rw [(C145_grammar s v).2 hv]
    cases v with
    | dict d => exact absurd hv (h d)
    | msg c d => exact absurd ((C145_grammar s _).2 hv) (loads_no_msg _ _ _)
    | _ => rfl
  · left
    unfold fromJson
    rw [C145_refused_plain s hp fun v hd => hv ⟨v, hd⟩]
    rfl

/-- texts without some letters, points and backslashes are plain -/
theorem plain_of {s : List Char} (h : ∀ c ∈ s, c ≠ 'N' ∧ c ≠ 'I' ∧ c ≠ '.' ∧ c ≠ 'e' ∧ c ≠ 'E' ∧ c ≠ '\\') : PlainText s := by
  refine ⟨fun c hc => ⟨(h c hc).1, (h c hc).2.1⟩, ?_, ?_⟩
  · rintro p t q rfl ⟨-, hf, he, -, hne⟩
    rcases hne with hne | hne
    · cases hf with
      | none => exact hne rfl
      | some hd => exact (h '.' (by simp)).2.2.1 rfl
    · cases he with
      | none => exact hne rfl
      | plain hc _ => rcases hc with rfl | rfl
                      · exact (h 'e' (by simp)).2.2.2.1 rfl
                      · exact (h 'E' (by simp)).2.2.2.2.1 rfl
      | plus hc _ => rcases hc with rfl | rfl
                     · exact (h 'e' (by simp)).2.2.2.1 rfl
                     · exact (h 'E' (by simp)).2.2.2.2.1 rfl
      | minus hc _ => rcases hc with rfl | rfl
                      · exact (h 'e' (by simp)).2.2.2.1 rfl
                      · exact (h 'E' (by simp)).2.2.2.2.1 rfl
  · rintro p c q rfl
    exact absurd rfl (h '\\' (by simp)).2.2.2.2.2

/-- a comma too many, a minus without a number -/
example : ∀ s ∈ ["{\"a\": 1,}", "{\"a\": -}", ""], PlainText s.toList ∧ ∀ v, ¬ DocText v s.toList := by
  intro s hs
  refine ⟨plain_of ?_, fun v hv => ?_⟩
  · revert s; decide +kernel
  · have h1 := (C145_grammar _ v).2 hv
    rw [String.ofList_toList] at h1
    have h2 : ∀ s ∈ ["{\"a\": 1,}", "{\"a\": -}", ""], loads s = .error .jsonDecodeError := by decide +kernel
    rw [h2 s hs] at h1
    cases h1

end Verif
