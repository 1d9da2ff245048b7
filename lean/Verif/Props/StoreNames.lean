import Verif.Model.FileStore
import Verif.Py.UrlLemmas

/-!
# File names of the storage: C46, C54
-/

namespace Verif

/-- an unreserved character that is not an upper-case hexadecimal digit -/
def plainChar (c : Char) : Bool := isSafeByte c.toNat && !((48 ≤ c.toNat && c.toNat ≤ 57) || (65 ≤ c.toNat && c.toNat ≤ 70))

theorem hexDigit_not_plain {n : Nat} (h : n < 16) : plainChar (hexDigit n) = false := by
  have : ∀ m : Fin 16, plainChar (hexDigit m.val) = false := by decide
  exact this ⟨n, h⟩

/-- the last character of an encoded byte, when it is plain, is the byte itself -/
theorem quoteByte_last {b : Nat} (hb : b < 256) {p : List Char} {c : Char} (h : quoteByte b = p ++ [c])
    (hc : plainChar c = true) : p = [] ∧ b = c.toNat := by
  unfold quoteByte at h
  split at h
  · have := congrArg List.getLast? h
    simp at this; subst this; exact absurd hc (by decide)
  · split at h
    · rename_i hs
      have h1 := congrArg List.length h
      simp at h1
      subst h1
      simp at h
      exact ⟨rfl, by rw [← h, toNat_ofNat_small (isSafeByte_lt hs)]⟩
    · have := congrArg List.getLast? h
      simp at this
      rw [← this, hexDigit_not_plain (by omega)] at hc
      exact absurd hc (by simp)

theorem quoteBytes_last {bs : List Nat} (hb : ∀ b ∈ bs, b < 256) {p : List Char} {c : Char}
    (h : bs.flatMap quoteByte = p ++ [c]) (hc : plainChar c = true) :
    ∃ bs', bs = bs' ++ [c.toNat] ∧ bs'.flatMap quoteByte = p := by
  rcases List.eq_nil_or_concat bs with rfl | ⟨bs', b, rfl⟩
  · simp at h
  · simp only [List.concat_eq_append, List.flatMap_append, List.flatMap_cons, List.flatMap_nil,
      List.append_nil] at h hb ⊢
    have hb' : b < 256 := hb b (by simp)
    rcases List.eq_nil_or_concat (quoteByte b) with e | ⟨q, c', e⟩
    · exact absurd e (quoteByte_ne_nil b)
    · rw [List.concat_eq_append] at e
      rw [e, ← List.append_assoc] at h
      obtain ⟨h1, h2⟩ := List.append_inj' h rfl
      simp at h2; subst h2
      obtain ⟨e1, e2⟩ := quoteByte_last hb' e hc
      subst e1
      exact ⟨bs', by rw [e2], by simpa using h1⟩

theorem revInd {α : Type u} {P : List α → Prop} (h0 : P []) (h1 : ∀ l a, P l → P (l ++ [a])) (l : List α) : P l := by
  have : ∀ l : List α, P l.reverse := by
    intro l
    induction l with
    | nil => simpa using h0
    | cons a l ih => rw [List.reverse_cons]; exact h1 _ _ ih
  have := this l.reverse
  rwa [List.reverse_reverse] at this

theorem quoteBytes_suffix (t : List Char) (ht : ∀ c ∈ t, plainChar c = true) :
    ∀ (bs : List Nat) (p : List Char), (∀ b ∈ bs, b < 256) → bs.flatMap quoteByte = p ++ t →
      ∃ bs', bs = bs' ++ t.map Char.toNat := by
  revert ht
  refine revInd (P := fun t => (∀ c ∈ t, plainChar c = true) → ∀ (bs : List Nat) (p : List Char),
    (∀ b ∈ bs, b < 256) → bs.flatMap quoteByte = p ++ t → ∃ bs', bs = bs' ++ t.map Char.toNat) ?_ ?_ t
  · intro _ bs p _ _; exact ⟨bs, by simp⟩
  · intro t c ih ht bs p hb h
    rw [← List.append_assoc] at h
    obtain ⟨bs', e, h'⟩ := quoteBytes_last hb h (ht c (by simp))
    subst e
    obtain ⟨bs'', e⟩ := ih (fun x hx => ht x (by simp [hx])) bs' p (fun b hb' => hb b (by simp [hb'])) h'
    exact ⟨bs'', by rw [e]; simp⟩


theorem utf8Char_last {c : Char} {p : List Nat} {b : Nat} (h : utf8Char c = p ++ [b]) (hb : b < 128) :
    p = [] ∧ c.toNat = b := by
  unfold utf8Char at h
  simp only at h
  split at h
  · have h1 := congrArg List.length h
    simp at h1; subst h1; simp at h; exact ⟨rfl, h⟩
  · exfalso
    split at h
    · have := congrArg List.getLast? h; simp at this; omega
    · split at h
      · have := congrArg List.getLast? h; simp at this; omega
      · have := congrArg List.getLast? h; simp at this; omega

theorem utf8_suffix (t : List Char) (ht : ∀ c ∈ t, c.toNat < 128) :
    ∀ (s : List Char) (p : List Nat), utf8Encode s = p ++ t.map Char.toNat → ∃ s', s = s' ++ t := by
  revert ht
  refine revInd (P := fun t => (∀ c ∈ t, c.toNat < 128) → ∀ (s : List Char) (p : List Nat),
    utf8Encode s = p ++ t.map Char.toNat → ∃ s', s = s' ++ t) ?_ ?_ t
  · intro _ s p _; exact ⟨s, by simp⟩
  · intro t c ih ht s p h
    rcases List.eq_nil_or_concat s with rfl | ⟨s', d, rfl⟩
    · simp [utf8Encode] at h
    · rw [List.concat_eq_append] at h ⊢
      simp only [utf8Encode, List.flatMap_append, List.flatMap_cons, List.flatMap_nil, List.append_nil,
        List.map_append, List.map_cons, List.map_nil] at h
      rcases List.eq_nil_or_concat (utf8Char d) with e | ⟨q, b, e⟩
      · exact absurd e (utf8Char_ne_nil d)
      · rw [List.concat_eq_append] at e
        rw [e, ← List.append_assoc, ← List.append_assoc] at h
        obtain ⟨h1, h2⟩ := List.append_inj' h rfl
        simp at h2
        have hb : b < 128 := by rw [h2]; exact ht c (by simp)
        obtain ⟨e1, e2⟩ := utf8Char_last e hb
        subst e1
        simp at h1
        obtain ⟨s'', e3⟩ := ih (fun x hx => ht x (by simp [hx])) s' p h1
        refine ⟨s'', ?_⟩
        have hdc : d = c := Char.toNat_inj.1 (by rw [e2, h2])
        rw [e3, hdc, List.append_assoc]

/-- A key is reserved when it ends with `.lock`. -/
def Reserved (k : String) : Prop := ".lock".toList <:+ k.toList

instance (k : String) : Decidable (Reserved k) := inferInstanceAs (Decidable (_ <:+ _))

theorem isLock_iff (n : String) : isLock n = true ↔ ".lock".toList <:+ n.toList := by
  simp [isLock]

theorem isLock_lockName (n : String) : isLock (lockName n) = true := by
  rw [isLock_iff, lockName, String.toList_append]
  exact List.suffix_append ..

theorem quotePlusC_plain : ∀ {t : List Char}, (∀ c ∈ t, plainChar c = true) → quotePlusC t = t := by
  intro t
  induction t with
  | nil => intro _; rfl
  | cons c cs ih =>
    intro h
    have hc := h c (by simp)
    simp only [plainChar, Bool.and_eq_true] at hc
    have h1 : utf8Char c = [c.toNat] := by simp [utf8Char, isSafeByte_lt hc.1]
    have h2 : quoteByte c.toNat = [c] := by
      unfold quoteByte
      have : c.toNat ≠ 32 := by
        intro e
        rw [e] at hc
        exact absurd hc.1 (by decide)
      rw [if_neg this, if_pos hc.1, Char.ofNat_toNat]
    have ih' := ih (fun x hx => h x (by simp [hx]))
    simp only [quotePlusC, utf8Encode] at ih' ⊢
    simp only [List.flatMap_cons, h1, List.singleton_append, h2, ih']

theorem quote_suffix {t : List Char} (ht : ∀ c ∈ t, plainChar c = true) (s : List Char) :
    t <:+ quotePlusC s ↔ t <:+ s := by
  have hlt : ∀ c ∈ t, c.toNat < 128 := by
    intro c hc
    have := ht c hc
    simp only [plainChar, Bool.and_eq_true] at this
    exact isSafeByte_lt this.1
  constructor
  · rintro ⟨p, h⟩
    obtain ⟨bs', e⟩ := quoteBytes_suffix t ht (utf8Encode s) p (utf8Encode_lt s) (by rw [h]; rfl)
    obtain ⟨s', e'⟩ := utf8_suffix t hlt s bs' e
    exact ⟨s', e'.symm⟩
  · rintro ⟨p, rfl⟩
    refine ⟨quotePlusC p, ?_⟩
    have : quotePlusC (p ++ t) = quotePlusC p ++ quotePlusC t := by
      simp [quotePlusC, utf8Encode]
    rw [this, quotePlusC_plain ht]

theorem lock_plain : ∀ c ∈ ".lock".toList, plainChar c = true := by decide

/-- The name of a key is taken for a lock file exactly when the key is reserved. -/
theorem isLock_quotePlus (k : String) : isLock (quotePlus k) = true ↔ Reserved k := by
  have h : (quotePlus k).toList = quotePlusC k.toList := String.toList_ofList
  rw [isLock_iff, h]
  exact quote_suffix lock_plain k.toList

/-! ## C46 -/

theorem quotePlus_plain {t : String} (ht : ∀ c ∈ t.toList, plainChar c = true) : quotePlus t = t := by
  rw [quotePlus, quotePlusC_plain ht, String.ofList_toList]

theorem quotePlus_eq_iff {k t : String} (ht : ∀ c ∈ t.toList, plainChar c = true) : quotePlus k = t ↔ k = t := by
  constructor
  · intro h; exact quotePlus_inj (h.trans (quotePlus_plain ht).symm)
  · rintro rfl; exact quotePlus_plain ht

/-- C46: whatever the key, the name of its file has no `/` and no NUL, so that `os.path.join(fdir, name)` stays in the
directory; the only names that do not denote a new entry of the directory are those of the keys `""`, `"."` and
`".."`, and different keys have different names. -/
theorem C46_single_component (k : String) :
    '/' ∉ (quotePlus k).toList ∧ Char.ofNat 0 ∉ (quotePlus k).toList ∧
    (isDirName (quotePlus k) = true ↔ k = "" ∨ k = "." ∨ k = "..") ∧
    ∀ k', quotePlus k' = quotePlus k → k' = k := by
  refine ⟨?_, ?_, ?_, fun k' h => quotePlus_inj h⟩
  · rw [quotePlus, String.toList_ofList]; exact not_mem_quotePlusC (by decide)
  · rw [quotePlus, String.toList_ofList]; exact not_mem_quotePlusC (by decide)
  · simp only [isDirName, Bool.or_eq_true, beq_iff_eq]
    rw [quotePlus_eq_iff (by decide), quotePlus_eq_iff (by decide), quotePlus_eq_iff (by decide), or_assoc]

/-- the same for the lock file, which is never the directory itself -/
theorem C46_lock_file (k : String) :
    '/' ∉ (lockName (quotePlus k)).toList ∧ isDirName (lockName (quotePlus k)) = false := by
  constructor
  · rw [lockName, String.toList_append]
    intro h
    rcases List.mem_append.1 h with h | h
    · exact (C46_single_component k).1 h
    · exact absurd h (by decide)
  · have h := isLock_lockName (quotePlus k)
    rw [isLock_iff] at h
    have hl := h.length_le
    cases hd : isDirName (lockName (quotePlus k)) with
    | false => rfl
    | true =>
      exfalso
      simp only [isDirName, Bool.or_eq_true, beq_iff_eq] at hd
      rcases hd with (e | e) | e <;> rw [e] at hl <;> exact absurd hl (by decide)

/-- a key with `..` and slashes -/
example : quotePlus "../../etc/passwd" = "..%2F..%2Fetc%2Fpasswd" := by decide +kernel

/-- C46 is about writing.  Deletion takes the key as it is: it can leave the directory, and `./x` denotes the file
of the key `x`. -/
theorem C46_delete_escapes :
    resolveRaw "../x" = .outside "../x" ∧ resolveRaw "/etc/passwd" = .outside "/etc/passwd" ∧
    resolveRaw "./x" = .inside "x" := by decide +kernel

/-! ## C54 -/

/-- C54, for keys that are not reserved: different keys have different files, no lock file is a data file, and no key is
taken for a lock file in a listing.  (Two lock files differ as well.) -/
theorem C54_partial (k k' : String) (h : ¬ Reserved k) (h' : ¬ Reserved k') :
    (quotePlus k = quotePlus k' ↔ k = k') ∧
    (lockName (quotePlus k) = lockName (quotePlus k') ↔ k = k') ∧
    lockName (quotePlus k) ≠ quotePlus k' ∧ isLock (quotePlus k) = false := by
  refine ⟨⟨quotePlus_inj, congrArg _⟩, ⟨fun e => ?_, fun e => e ▸ rfl⟩, fun e => ?_, ?_⟩
  · have := congrArg String.toList e
    simp only [lockName, String.toList_append] at this
    exact quotePlus_inj (String.toList_inj.1 (List.append_inj_left' this rfl))
  · exact h' ((isLock_quotePlus k').1 (e ▸ isLock_lockName _))
  · rw [← Bool.not_eq_true, isLock_quotePlus]; exact h

example : ¬ Reserved "https://op.example/a b" ∧ Reserved "a.lock" := by decide +kernel

/-- C54: the full claim fails exactly at the reserved keys: the key `k.lock` has the lock file of `k` as its file, and
it is hidden from listings. -/
theorem C54_counterexample (k : String) :
    quotePlus (k ++ ".lock") = lockName (quotePlus k) ∧ isLock (quotePlus (k ++ ".lock")) = true := by
  refine ⟨?_, ?_⟩
  · apply String.toList_inj.1
    have e : quotePlusC (k.toList ++ ".lock".toList) = quotePlusC k.toList ++ quotePlusC ".lock".toList := by
      simp [quotePlusC, utf8Encode]
    have h : ∀ k, (quotePlus k).toList = quotePlusC k.toList := fun k => String.toList_ofList
    rw [lockName, String.toList_append, h, h, String.toList_append, e, quotePlusC_plain lock_plain]
  · rw [isLock_quotePlus, Reserved, String.toList_append]; exact List.suffix_append ..

end Verif
