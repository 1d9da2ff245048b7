import Verif.Props.Tokens
import Verif.Props.C01_C05

/-!
# Claim-level checks and ID tokens: C24, C25, C36, C37, C67
-/

namespace Verif

/-! ## C36 -/

/-- The characters the library accepts in an error description: ASCII letters, space and `!`. -/
def DescrChar (c : Char) : Prop :=
  (65 ≤ c.toNat ∧ c.toNat ≤ 90) ∨ (97 ≤ c.toNat ∧ c.toNat ≤ 122) ∨ c.toNat = 32 ∨ c.toNat = 33

theorem char_eq_iff_toNat (c d : Char) : c = d ↔ c.toNat = d.toNat := by
  constructor
  · rintro rfl; rfl
  · intro h; exact Char.toNat_inj.1 h

theorem char_le_iff_toNat (c d : Char) : c ≤ d ↔ c.toNat ≤ d.toNat := by
  rw [Char.le_def]; exact UInt32.le_iff_toNat_le

theorem errorChar_iff (c : Char) : errorChar c = true ↔ DescrChar c := by
  unfold errorChar DescrChar
  simp only [Bool.or_eq_true, Bool.and_eq_true, decide_eq_true_eq, char_le_iff_toNat, char_eq_iff_toNat]
  have h1 : 'A'.toNat = 65 := rfl
  have h2 : 'Z'.toNat = 90 := rfl
  have h3 : 'a'.toNat = 97 := rfl
  have h4 : 'z'.toNat = 122 := rfl
  have h5 : ' '.toNat = 32 := rfl
  have h6 : '!'.toNat = 33 := rfl
  rw [h1, h2, h3, h4, h5, h6]
  constructor <;> (intro h; omega)

theorem inErrorChars_true (x : Val) :
    inErrorChars x = .ok true ↔ ∃ c, x = .str (String.ofList [c]) ∧ DescrChar c := by
  cases x with
  | str s =>
    unfold inErrorChars
    constructor
    · intro h
      cases hs : s.toList with
      | nil => simp [hs] at h
      | cons c t =>
        cases t with
        | nil =>
          simp only [hs, ok_ok, errorChar_iff] at h
          exact ⟨c, by rw [← hs, String.ofList_toList], h⟩
        | cons _ _ => simp [hs] at h
    · rintro ⟨c, hx, hc⟩
      cases hx
      simp only [String.toList_ofList, ok_ok, errorChar_iff]
      exact hc
  | _ => simp [inErrorChars, Val.hashable]

theorem allErrorChars_true (l : List Val) :
    allErrorChars l = .ok true ↔ ∀ x ∈ l, ∃ c, x = .str (String.ofList [c]) ∧ DescrChar c := by
  induction l with
  | nil => simp [allErrorChars]
  | cons x xs ih =>
    simp only [List.mem_cons, forall_eq_or_imp]
    rw [← ih, ← inErrorChars_true]
    rw [show allErrorChars (x :: xs) = (match inErrorChars x with
      | .ok true => allErrorChars xs
      | r => r) from rfl]
    cases h : inErrorChars x with
    | error e => simp
    | ok b => cases b <;> simp

/-- The error description, when there is one, is made of accepted characters (for a value that is not a
string: of one-character strings with accepted characters). -/
def DescriptionOk (st : Dict) : Prop :=
  ∀ v, dget st "error_description" = some v →
    ∃ items, v.iter = .ok items ∧ ∀ x ∈ items, ∃ c, x = .str (String.ofList [c]) ∧ DescrChar c

theorem errorDescription_iff (st : Dict) : errorDescription st = .ok () ↔ DescriptionOk st := by
  unfold errorDescription DescriptionOk
  cases hd : dget st "error_description" with
  | none => simp
  | some v =>
    simp only [Option.some.injEq, forall_eq']
    cases hi : v.iter with
    | error e => simp
    | ok l =>
      simp only [ok_ok, exists_eq_left', ← allErrorChars_true]
      cases ha : allErrorChars l with
      | error e => simp
      | ok b => cases b <;> simp [need]

/-- C36: a response message verifies exactly when its parameters are acceptable and its error description
only uses the accepted characters. -/
theorem C36_iff (sch : Schema) (st : Dict) :
    responseVerify sch st = .ok () ↔ Acceptable sch st ∧ DescriptionOk st := by
  unfold responseVerify
  rw [bind_ok, ← C04_verify_iff, ← errorDescription_iff]
  constructor
  · rintro ⟨⟨⟩, h⟩; exact h
  · intro h; exact ⟨(), h⟩

/-- C36 for a string: it verifies only if every character is accepted. -/
theorem C36_string (sch : Schema) (st : Dict) (s : String) (hs : dget st "error_description" = some (.str s))
    (h : responseVerify sch st = .ok ()) : ∀ c ∈ s.toList, DescrChar c := by
  obtain ⟨items, hi, hc⟩ := ((C36_iff sch st).1 h).2 _ hs
  simp only [Val.iter, ok_ok] at hi
  subst hi
  intro c hm
  obtain ⟨c', he, hd⟩ := hc (.str (String.ofList [c])) (List.mem_map.2 ⟨c, hm, rfl⟩)
  simp only [Val.str.injEq, String.ofList_inj] at he
  cases he
  exact hd

/-- the characters RFC 6749 allows in `error_description`: %x20-21 / %x23-5B / %x5D-7E -/
def Rfc6749Char (c : Char) : Prop :=
  (0x20 ≤ c.toNat ∧ c.toNat ≤ 0x21) ∨ (0x23 ≤ c.toNat ∧ c.toNat ≤ 0x5B) ∨ (0x5D ≤ c.toNat ∧ c.toNat ≤ 0x7E)

/-- The second half of C36 is false: a description allowed by RFC 6749 is refused, with `ValueError`, as soon
as it has a digit or a punctuation character other than `!` — for every class without required parameters
that has the description. -/
theorem C36_rfc6749_refused (sch : Schema) (st : Dict) (s : String) (c : Char)
    (hv : Acceptable sch st) (hs : dget st "error_description" = some (.str s)) (hc : c ∈ s.toList)
    (hbad : ¬ DescrChar c) : responseVerify sch st = .error .valueError := by
  rw [← C04_verify_iff] at hv
  have hall : ∀ cs : List Char, c ∈ cs →
      allErrorChars (cs.map (fun c => .str (String.ofList [c]))) = .ok false := by
    intro cs
    induction cs with
    | nil => simp
    | cons x xs ih =>
      intro hm
      simp only [List.map_cons, allErrorChars, inErrorChars, String.toList_ofList]
      cases hx : errorChar x with
      | false => rfl
      | true =>
        rcases List.mem_cons.1 hm with rfl | hm
        · exact absurd ((errorChar_iff _).1 hx) hbad
        · exact ih hm
  simp only [responseVerify, hv, bind, Except.bind, errorDescription, hs, Val.iter, hall _ hc, need]
  rfl

/-- the values Python can hash: everything but lists, objects and messages -/
def Scalar : Val → Prop
  | .list _ | .dict _ | .msg _ _ => False
  | _ => True

/-- an item of a description that is acceptable -/
def GoodItem (x : Val) : Prop := ∃ c, x = .str (String.ofList [c]) ∧ DescrChar c

theorem allErrorChars_first (pre post : List Val) (x : Val) (hpre : ∀ y ∈ pre, GoodItem y) :
    allErrorChars (pre ++ x :: post) = allErrorChars (x :: post) := by
  induction pre with
  | nil => rfl
  | cons y ys ih =>
    have hy : inErrorChars y = .ok true := (inErrorChars_true y).2 (hpre y (by simp))
    simp only [List.cons_append]
    rw [allErrorChars, hy]
    exact ih (fun z hz => hpre z (by simp [hz]))

/-- C36, how an unusual description is refused: when a list is given and its first item that is not an accepted
character is a text, a number, a boolean or null, with `ValueError`; when that item is a list, an object or a
message, with `TypeError`. -/
theorem C36_refused_items (sch : Schema) (st : Dict) (pre post : List Val) (x : Val)
    (hv : Acceptable sch st) (hs : dget st "error_description" = some (.list (pre ++ x :: post)))
    (hpre : ∀ y ∈ pre, GoodItem y) (hx : ¬ GoodItem x) :
    (Scalar x → responseVerify sch st = .error .valueError) ∧
    (¬ Scalar x → responseVerify sch st = .error .typeError) := by
  rw [← C04_verify_iff] at hv
  have hne : inErrorChars x ≠ .ok true := fun h => hx ((inErrorChars_true x).1 h)
  have key : ∀ r, inErrorChars x = r → r ≠ .ok true → allErrorChars (x :: post) = r := by
    intro r hr hn
    rw [allErrorChars, hr]
    split
    · exact absurd rfl hn
    · rfl
  simp only [responseVerify, hv, bind, Except.bind, errorDescription, hs, Val.iter, allErrorChars_first pre post x hpre]
  constructor
  · intro hsc
    have : inErrorChars x = .ok false := by
      cases x with
      | str s =>
        have : ∃ b, inErrorChars (.str s) = .ok b := by unfold inErrorChars; simp only; split <;> exact ⟨_, rfl⟩
        obtain ⟨b, hb⟩ := this
        cases b
        · exact hb
        · exact absurd hb hne
      | list _ | dict _ | msg _ _ => exact absurd hsc (by simp [Scalar])
      | _ => rfl
    rw [key _ this (by simp)]
    rfl
  · intro hsc
    have : inErrorChars x = .error .typeError := by
      cases x with
      | list _ | dict _ | msg _ _ => rfl
      | _ => exact absurd trivial hsc
    rw [key _ this (by simp)]

/-- C36: a description that is a number, a boolean or null is refused with `TypeError`. -/
theorem C36_refused_number (sch : Schema) (st : Dict) (x : Val) (hv : Acceptable sch st)
    (hs : dget st "error_description" = some x) (hsc : Scalar x) (hstr : ∀ s, x ≠ .str s) :
    responseVerify sch st = .error .typeError := by
  rw [← C04_verify_iff] at hv
  simp only [responseVerify, hv, bind, Except.bind, errorDescription, hs]
  cases x with
  | str s => exact absurd rfl (hstr s)
  | list _ | dict _ | msg _ _ => exact absurd hsc (by simp [Scalar])
  | _ => rfl

example : responseVerify oauth2_ResponseMessage [("error_description", .list [.str "a", .list []])] =
    .error .typeError := by decide +kernel

theorem C36_counterexample : ∃ s : String, (∀ c ∈ s.toList, Rfc6749Char c) ∧
    responseVerify oauth2_ResponseMessage [("error_description", .str s)] = .error .valueError := by
  refine ⟨"Missing parameter: redirect_uri", ?_, by decide +kernel⟩
  unfold Rfc6749Char; decide

example : responseVerify oauth2_ResponseMessage [("error_description", .str "Invalid request!")] = .ok () := by
  decide +kernel

/-! ## C67 -/

/-- the argument check: equal when both are there -/
def SameIfBoth (st kw : Dict) (name : String) : Prop :=
  ∀ a b, dget st name = some a → dget kw name = some b → a.eq b = true

theorem matchArg_iff (st kw : Dict) (name : String) (e : Exc) :
    matchArg st kw name e = .ok () ↔ SameIfBoth st kw name := by
  unfold matchArg SameIfBoth
  cases dget st name <;> cases dget kw name <;> simp [need_ok]

/-- C67: an OAuth2 authorization response is accepted exactly when its parameters are acceptable, the error
description is fine, and `client_id` and `iss`, when both in the response and expected by the caller, are equal. -/
theorem C67_iff (sch : Schema) (st kw : Dict) :
    oauth2AuthzResponseVerify sch st kw = .ok () ↔
      Acceptable sch st ∧ DescriptionOk st ∧ SameIfBoth st kw "client_id" ∧ SameIfBoth st kw "iss" := by
  unfold oauth2AuthzResponseVerify
  simp only [bind_ok]
  constructor
  · rintro ⟨⟨⟩, h1, ⟨⟩, h2, h3⟩
    rw [C36_iff] at h1; rw [matchArg_iff] at h2 h3
    exact ⟨h1.1, h1.2, h2, h3⟩
  · rintro ⟨h1, h2, h3, h4⟩
    exact ⟨(), (C36_iff _ _).2 ⟨h1, h2⟩, (), (matchArg_iff _ _ _ _).2 h3, (matchArg_iff _ _ _ _).2 h4⟩

/-- C67, mix-up: a response naming another issuer than the expected one is refused. -/
theorem C67_mixup (sch : Schema) (st kw : Dict) (i j : String) (hi : dget st "iss" = some (.str i))
    (hj : dget kw "iss" = some (.str j)) (hne : i ≠ j) : oauth2AuthzResponseVerify sch st kw ≠ .ok () := by
  intro h
  have := ((C67_iff _ _ _).1 h).2.2.2 _ _ hi hj
  rw [eq_str_iff] at this
  simp at this; exact hne this

example : oauth2AuthzResponseVerify oauth2_AuthorizationResponse
    [("code", .str "c"), ("iss", .str "https://op")] [("iss", .str "https://op")] = .ok () := by decide +kernel
example : oauth2AuthzResponseVerify oauth2_AuthorizationResponse
    [("code", .str "c"), ("iss", .str "https://op")] [("iss", .str "https://evil")] = .error .verificationError := by
  decide +kernel

/-! ## C37 -/

theorem digitVal_digit {n : Nat} (h : n < 10) : digitVal? (digit n) = some n := by
  have : ∀ n < 10, digitVal? (digit n) = some n := by decide
  exact this n h

theorem digitVal_some {c : Char} {n : Nat} (h : digitVal? c = some n) : n < 10 ∧ c = digit n := by
  unfold digitVal? at h
  split at h
  · next hc =>
    simp only [Option.some.injEq] at h
    simp only [Bool.and_eq_true, decide_eq_true_eq] at hc
    refine ⟨by omega, ?_⟩
    unfold digit
    rw [show 48 + n = c.toNat by omega, Char.ofNat_toNat]
  · simp at h

/-- `c` is the digit `n` in some script -/
def IsDecimal (c : Char) (n : Nat) : Prop := n < 10 ∧ ∃ z ∈ decimalZeros, c.toNat = z + n

theorem decimalVal_iff (c : Char) (n : Nat) : decimalVal? c = some n ↔ IsDecimal c n := by
  have hdis : ∀ z ∈ decimalZeros, ∀ z' ∈ decimalZeros, z ≤ z' + 9 → z' ≤ z + 9 → z = z' := by decide +kernel
  unfold decimalVal? IsDecimal
  simp only [Option.map_eq_some_iff]
  constructor
  · rintro ⟨z, hz, rfl⟩
    have h1 := List.mem_of_find?_eq_some hz
    have h2 := List.find?_some hz
    simp only [Bool.and_eq_true, decide_eq_true_eq] at h2
    exact ⟨by omega, z, h1, by omega⟩
  · rintro ⟨hn, z, hz, hc⟩
    cases hf : decimalZeros.find? (fun z => decide (z ≤ c.toNat) && decide (c.toNat ≤ z + 9)) with
    | none =>
      have := List.find?_eq_none.mp hf z hz
      simp only [Bool.and_eq_true, decide_eq_true_eq] at this
      omega
    | some z' =>
      have h1 := List.mem_of_find?_eq_some hf
      have h2 := List.find?_some hf
      simp only [Bool.and_eq_true, decide_eq_true_eq] at h2
      have := hdis z hz z' h1 (by omega) (by omega)
      exact ⟨z', rfl, by omega⟩

theorem decimal_digit {n : Nat} (h : n < 10) : decimalVal? (digit n) = some n := by
  have : ∀ n < 10, decimalVal? (digit n) = some n := by decide +kernel
  exact this n h

theorem decimal_of_digitVal {c : Char} {n : Nat} (h : digitVal? c = some n) : decimalVal? c = some n := by
  obtain ⟨h1, rfl⟩ := digitVal_some h
  exact decimal_digit h1

/-- how `%Y` writes a year: four digits of any script -/
def YearText (t : List Char) (y : Nat) : Prop :=
  ∃ a b c d i j k l, t = [a, b, c, d] ∧ IsDecimal a i ∧ IsDecimal b j ∧ IsDecimal c k ∧ IsDecimal d l ∧
    y = ((i * 10 + j) * 10 + k) * 10 + l

/-- how `%m` writes a month: two digits, or one digit -/
def MonthText (t : List Char) (m : Nat) : Prop :=
  1 ≤ m ∧ m ≤ 12 ∧ (t = pad2 m ∨ m ≤ 9 ∧ t = [digit m])

/-- how `%d` writes a day: two digits, one digit, or a space and a digit; after `1` and `2` the second digit may be of any script -/
def DayText (t : List Char) (d : Nat) : Prop :=
  1 ≤ d ∧ d ≤ 31 ∧ (t = pad2 d ∨ d ≤ 9 ∧ (t = [digit d] ∨ t = [' ', digit d]) ∨
    (10 ≤ d ∧ d ≤ 29 ∧ ∃ c, t = [digit (d / 10), c] ∧ IsDecimal c (d % 10)))

theorem strpYear_iff (t : List Char) (y : Nat) : strpYear t = some y ↔ YearText t y := by
  unfold YearText
  simp only [← decimalVal_iff]
  constructor
  · intro h
    unfold strpYear at h
    split at h
    · next a b c d =>
      split at h
      · next i j k l ha hb hc hd =>
        simp only [Option.some.injEq] at h
        exact ⟨a, b, c, d, i, j, k, l, rfl, ha, hb, hc, hd, h.symm⟩
      · simp at h
    · simp at h
  · rintro ⟨a, b, c, d, i, j, k, l, rfl, ha, hb, hc, hd, rfl⟩
    simp only [strpYear, ha, hb, hc, hd]

theorem yearText_pad4 {y : Nat} (h : y ≤ 9999) : YearText (pad4 y) y := by
  refine ⟨_, _, _, _, y / 100 / 10, y / 100 % 10, y % 100 / 10, y % 100 % 10, rfl, ?_, ?_, ?_, ?_, by omega⟩ <;>
    exact (decimalVal_iff _ _).mp (decimal_digit (by omega))

theorem strpYear_pad4 {y : Nat} (h : y ≤ 9999) : strpYear (pad4 y) = some y := (strpYear_iff _ _).mpr (yearText_pad4 h)

theorem yearText_le {t : List Char} {y : Nat} (h : YearText t y) : y ≤ 9999 := by
  obtain ⟨a, b, c, d, i, j, k, l, _, ⟨ha, _⟩, ⟨hb, _⟩, ⟨hc, _⟩, ⟨hd, _⟩, rfl⟩ := h
  omega

theorem pad2_eq {a b : Nat} (ha : a < 10) (hb : b < 10) : pad2 (a * 10 + b) = [digit a, digit b] := by
  unfold pad2
  rw [show (a * 10 + b) / 10 = a by omega, show (a * 10 + b) % 10 = b by omega]

theorem strpMonth_iff (t : List Char) (m : Nat) : strpMonth t = some m ↔ MonthText t m := by
  constructor
  · intro h
    unfold strpMonth at h
    split at h
    · split at h
      · next n hn =>
        obtain ⟨hn1, rfl⟩ := digitVal_some hn
        split at h
        · simp at h
        · simp only [Option.some.injEq] at h; subst h
          exact ⟨by omega, by omega, .inr ⟨by omega, rfl⟩⟩
      · simp at h
    · split at h
      · next a' b' ha hb =>
        obtain ⟨ha1, rfl⟩ := digitVal_some ha
        obtain ⟨hb1, rfl⟩ := digitVal_some hb
        split at h
        · simp only [Option.some.injEq] at h; subst h
          exact ⟨by omega, by omega, .inl (pad2_eq ha1 hb1).symm⟩
        · simp at h
      · simp at h
    · simp at h
  · rintro ⟨h1, h2, rfl | ⟨h3, rfl⟩⟩
    · simp only [pad2, strpMonth]
      rw [digitVal_digit (by omega), digitVal_digit (by omega)]
      have : m / 10 * 10 + m % 10 = m := by omega
      simp [this, h1, h2]
    · simp only [strpMonth]
      rw [digitVal_digit (by omega)]
      simp; omega

theorem strpDay_iff (t : List Char) (d : Nat) : strpDay t = some d ↔ DayText t d := by
  constructor
  · intro h
    unfold strpDay at h
    split at h
    · split at h
      · next n hn =>
        obtain ⟨hn1, rfl⟩ := digitVal_some hn
        split at h
        · simp at h
        · simp only [Option.some.injEq] at h; subst h
          exact ⟨by omega, by omega, .inr (.inl ⟨by omega, .inl rfl⟩)⟩
      · simp at h
    · next a b =>
      split at h
      · next a' b' ha hb =>
        split at h
        · next hr =>
          simp only [Option.some.injEq] at h; subst h
          split at ha
          · next hsp =>
            simp only [Option.some.injEq] at ha; subst ha hsp
            rw [if_neg (by decide)] at hb
            obtain ⟨hb1, rfl⟩ := digitVal_some hb
            refine ⟨by omega, by omega, .inr (.inl ⟨by omega, .inr ?_⟩)⟩
            rw [show 0 * 10 + b' = b' by omega]
          · obtain ⟨ha1, rfl⟩ := digitVal_some ha
            split at hb
            · next h12 =>
              have hb1 := (decimalVal_iff _ _).mp hb
              have hlt := hb1.1
              have ha12 : a' = 1 ∨ a' = 2 := by
                have : ∀ n, n < 10 → (digit n = '1' ∨ digit n = '2') → (n = 1 ∨ n = 2) := by decide
                exact this a' ha1 h12
              refine ⟨by omega, by omega, .inr (.inr ⟨by omega, by omega, b, ?_, ?_⟩)⟩
              · rw [show (a' * 10 + b') / 10 = a' by omega]
              · rw [show (a' * 10 + b') % 10 = b' by omega]; exact hb1
            · obtain ⟨hb1, rfl⟩ := digitVal_some hb
              exact ⟨by omega, by omega, .inl (pad2_eq ha1 hb1).symm⟩
        · simp at h
      · simp at h
    · simp at h
  · have hd : ∀ n, n < 10 → digit n ≠ ' ' := by decide
    have h12 : ∀ n, n < 10 → 1 ≤ n → n ≤ 2 → (digit n = '1' ∨ digit n = '2') := by decide
    rintro ⟨h1, h2, rfl | ⟨h3, rfl | rfl⟩ | ⟨h3, h4, c, rfl, hc⟩⟩
    · simp only [pad2, strpDay]
      rw [if_neg (hd _ (by omega)), digitVal_digit (by omega), digitVal_digit (by omega), decimal_digit (by omega)]
      have : d / 10 * 10 + d % 10 = d := by omega
      simp [this, h1, h2]
    · simp only [strpDay]
      rw [digitVal_digit (by omega)]
      simp; omega
    · simp only [strpDay, if_true]
      rw [if_neg (by decide), digitVal_digit (by omega)]
      simp; omega
    · simp only [strpDay]
      rw [if_neg (hd _ (by omega)), if_pos (h12 _ (by omega) (by omega) (by omega)), digitVal_digit (by omega),
        (decimalVal_iff _ _).mpr hc]
      have : d / 10 * 10 + d % 10 = d := by omega
      simp [this, h1, h2]

/-- the first `-` is where the first part without `-` ends -/
theorem splitFirst_some_iff {c : Char} {s a b : List Char} :
    splitFirst c s = (a, some b) ↔ s = a ++ c :: b ∧ c ∉ a := by
  induction s generalizing a with
  | nil => simp [splitFirst]
  | cons x xs ih =>
    unfold splitFirst
    by_cases hx : x = c
    · subst hx
      simp only [if_true, Prod.mk.injEq, Option.some.injEq]
      constructor
      · rintro ⟨rfl, rfl⟩; simp
      · rintro ⟨h, hn⟩
        cases a with
        | nil => simp at h; exact ⟨rfl, h⟩
        | cons y ys => simp at h; exact absurd (by simp [h.1]) hn
    · simp only [hx, if_false, Prod.mk.injEq]
      constructor
      · rintro ⟨rfl, h⟩
        obtain ⟨h1, h2⟩ := (ih (a := (splitFirst c xs).1)).1 (by rw [← h])
        refine ⟨by rw [List.cons_append, ← h1], ?_⟩
        simp only [List.mem_cons, not_or]
        exact ⟨fun e => hx e.symm, h2⟩
      · rintro ⟨h, hn⟩
        cases a with
        | nil => simp at h; exact absurd h.1 hx
        | cons y ys =>
          simp only [List.cons_append, List.cons.injEq] at h
          obtain ⟨rfl, h⟩ := h
          have := (ih (a := ys)).2 ⟨h, fun hm => hn (by simp [hm])⟩
          rw [this]; exact ⟨rfl, rfl⟩

theorem splitFirst_none_iff {c : Char} {s a : List Char} : splitFirst c s = (a, none) ↔ a = s ∧ c ∉ s := by
  induction s generalizing a with
  | nil => simp [splitFirst]
  | cons x xs ih =>
    unfold splitFirst
    by_cases hx : x = c
    · simp [hx]
    · have hx' : ¬ c = x := fun e => hx e.symm
      simp only [hx, if_false, Prod.mk.injEq, List.mem_cons, hx', false_or]
      constructor
      · rintro ⟨rfl, h⟩
        obtain ⟨h1, h2⟩ := (ih (a := (splitFirst c xs).1)).1 (by rw [← h])
        exact ⟨by rw [h1], h2⟩
      · rintro ⟨rfl, hn⟩
        have := (ih (a := xs)).2 ⟨rfl, hn⟩
        rw [this]; exact ⟨rfl, rfl⟩

theorem digit_ne_dash : ∀ n, n < 10 → digit n ≠ '-' := by decide

theorem dash_not_mem_pad4 {y : Nat} (h : y ≤ 9999) : '-' ∉ pad4 y := by
  simp only [pad4, pad2, List.cons_append, List.nil_append, List.mem_cons, List.not_mem_nil, or_false, not_or]
  exact ⟨(digit_ne_dash _ (by omega)).symm, (digit_ne_dash _ (by omega)).symm, (digit_ne_dash _ (by omega)).symm,
    (digit_ne_dash _ (by omega)).symm⟩

theorem dash_not_mem_year {t : List Char} {y : Nat} (h : YearText t y) : '-' ∉ t := by
  obtain ⟨a, b, c, d, i, j, k, l, rfl, ha, hb, hc, hd, rfl⟩ := h
  rw [← decimalVal_iff] at ha hb hc hd
  have hn : decimalVal? '-' = none := by decide +kernel
  simp only [List.mem_cons, List.not_mem_nil, or_false, not_or]
  refine ⟨?_, ?_, ?_, ?_⟩ <;> rintro rfl <;> simp_all

theorem dash_not_mem_month {t : List Char} {m : Nat} (h : MonthText t m) : '-' ∉ t := by
  obtain ⟨h1, h2, rfl | ⟨h3, rfl⟩⟩ := h
  · simp only [pad2, List.mem_cons, List.not_mem_nil, or_false, not_or]
    exact ⟨(digit_ne_dash _ (by omega)).symm, (digit_ne_dash _ (by omega)).symm⟩
  · simp only [List.mem_cons, List.not_mem_nil, or_false]
    exact (digit_ne_dash _ (by omega)).symm

theorem strpMonthDay_iff (s : List Char) (m d : Nat) :
    strpMonthDay s = some (m, d) ↔ ∃ mt dt, s = mt ++ '-' :: dt ∧ MonthText mt m ∧ DayText dt d := by
  unfold strpMonthDay
  constructor
  · intro h
    split at h
    · simp at h
    · next mt dt hs =>
      split at h
      · next m' d' hm hd =>
        simp only [Option.some.injEq, Prod.mk.injEq] at h
        obtain ⟨rfl, rfl⟩ := h
        exact ⟨mt, dt, (splitFirst_some_iff.1 hs).1, (strpMonth_iff _ _).1 hm, (strpDay_iff _ _).1 hd⟩
      · simp at h
  · rintro ⟨mt, dt, rfl, hm, hd⟩
    rw [splitFirst_some_iff.2 ⟨rfl, dash_not_mem_month hm⟩]
    simp only [(strpMonth_iff _ _).2 hm, (strpDay_iff _ _).2 hd]

/-- `YYYY-MM-DD` as `strptime` reads it -/
def FullDate (s : List Char) : Prop :=
  ∃ y m d yt mt dt, s = yt ++ '-' :: (mt ++ '-' :: dt) ∧ YearText yt y ∧ 1 ≤ y ∧ MonthText mt m ∧ DayText dt d ∧
    (d : Int) ≤ monthLen y m

/-- `YYYY` -/
def YearOnly (s : List Char) : Prop := ∃ y, YearText s y ∧ 1 ≤ y

/-- `0000-MM-DD` as `strptime` reads it; February 29 is allowed -/
def YearOmitted (s : List Char) : Prop :=
  ∃ m d mt dt, s = pad4 0 ++ '-' :: (mt ++ '-' :: dt) ∧ MonthText mt m ∧ DayText dt d ∧ (d : Int) ≤ monthLen 2000 m

theorem strptimeYmd_iff (s : List Char) : strptimeYmd s = true ↔ FullDate s := by
  unfold strptimeYmd FullDate
  constructor
  · intro h
    split at h
    · simp at h
    · next yt rest hs =>
      split at h
      · next y m d hy hmd =>
        have hy1 := (strpYear_iff _ _).1 hy
        obtain ⟨mt, dt, rfl, hm, hd⟩ := (strpMonthDay_iff _ _ _).1 hmd
        simp only [dateExists, Bool.and_eq_true, decide_eq_true_eq] at h
        exact ⟨y, m, d, yt, mt, dt, (splitFirst_some_iff.1 hs).1, hy1, by omega, hm, hd, h.2⟩
      · simp at h
  · rintro ⟨y, m, d, yt, mt, dt, rfl, hy, h1, hm, hd, hl⟩
    rw [splitFirst_some_iff.2 ⟨rfl, dash_not_mem_year hy⟩]
    have h2 := yearText_le hy
    simp only [(strpYear_iff _ _).2 hy, (strpMonthDay_iff _ _ _).2 ⟨mt, dt, rfl, hm, hd⟩]
    obtain ⟨hm1, hm2, _⟩ := hm
    obtain ⟨hd1, hd2, _⟩ := hd
    simp [dateExists, h1, h2, hm1, hm2, hd1, hl]

theorem strptimeY_iff (s : List Char) : strptimeY s = true ↔ YearOnly s := by
  unfold strptimeY YearOnly
  constructor
  · intro h
    split at h
    · next y hy =>
      have hy1 := (strpYear_iff _ _).1 hy
      simp only [dateExists, Bool.and_eq_true, decide_eq_true_eq] at h
      exact ⟨y, hy1, by omega⟩
    · simp at h
  · rintro ⟨y, hy, h1⟩
    have h2 := yearText_le hy
    simp only [(strpYear_iff _ _).2 hy]
    simp [dateExists, h1, h2, monthLen]

theorem monthLen_common {y m : Int} (hm : m ≠ 2) : monthLen y m = monthLen 2000 m := by
  simp [monthLen, hm]

theorem strptime0md_iff (s : List Char) : strptime0md s = true ↔ YearOmitted s := by
  have hz : (['0', '0', '0', '0'] : List Char) = pad4 0 := by decide
  have hlen : ∀ m d : Nat, 1 ≤ m → m ≤ 12 → 1 ≤ d →
      (dateExists (if m = 2 ∧ d = 29 then 1904 else 1900) m d = true ↔ (d : Int) ≤ monthLen 2000 m) := by
    intro m d h1 h2 h3
    simp only [dateExists, Bool.and_eq_true, decide_eq_true_eq]
    by_cases hm : m = 2
    · subst hm
      have e1 : monthLen 2000 (2 : Nat) = 29 := by decide
      have e2 : monthLen (1904 : Nat) (2 : Nat) = 29 := by decide
      have e3 : monthLen (1900 : Nat) (2 : Nat) = 28 := by decide
      by_cases hd : d = 29
      · subst hd; decide
      · simp only [hd, and_false, if_false]; rw [e1, e3]; omega
    · have hm' : (m : Int) ≠ 2 := by omega
      simp only [hm, false_and, if_false]
      rw [monthLen_common hm']; omega
  unfold strptime0md YearOmitted
  constructor
  · intro h
    split at h
    · simp at h
    · next yt rest hs =>
      split at h
      · next hy =>
        split at h
        · next m d hmd =>
          obtain ⟨mt, dt, rfl, hm, hd⟩ := (strpMonthDay_iff _ _ _).1 hmd
          refine ⟨m, d, mt, dt, ?_, hm, hd, (hlen m d hm.1 hm.2.1 hd.1).1 h⟩
          rw [(splitFirst_some_iff.1 hs).1, hy, hz]
        · simp at h
      · simp at h
  · rintro ⟨m, d, mt, dt, rfl, hm, hd, hl⟩
    rw [splitFirst_some_iff.2 ⟨rfl, dash_not_mem_pad4 (by omega)⟩]
    simp only [hz, if_true, (strpMonthDay_iff _ _ _).2 ⟨mt, dt, rfl, hm, hd⟩]
    exact (hlen m d hm.1 hm.2.1 hd.1).2 hl

/-- The birthdate, when there is one, is a string in one of the three forms. -/
def BirthdateOk (st : Dict) : Prop :=
  ∀ v, dget st "birthdate" = some v →
    ∃ s : String, v = .str s ∧ (FullDate s.toList ∨ YearOnly s.toList ∨ YearOmitted s.toList)

theorem birthdateCheck_iff (st : Dict) : birthdateCheck st = .ok () ↔ BirthdateOk st := by
  unfold birthdateCheck BirthdateOk
  cases hd : dget st "birthdate" with
  | none => simp
  | some v =>
    cases v <;> simp [need_ok, strptimeYmd_iff, strptimeY_iff, strptime0md_iff, or_assoc]

/-- C37, exact: `OpenIDSchema.verify` returns a boolean exactly when the parameters are acceptable, the error
description is fine and the birthdate is in one of the three forms `strptime` reads; the boolean is `False`
exactly when some claim is null. -/
theorem C37_exact (sch : Schema) (st : Dict) (b : Bool) :
    openIdSchemaVerify sch st = .ok b ↔
      Acceptable sch st ∧ DescriptionOk st ∧ BirthdateOk st ∧ (b = false ↔ ∃ k, (k, Val.none) ∈ st) := by
  have hb : (!(st.any (fun p => p.2.isNone))) = b ↔ (b = false ↔ ∃ k, (k, Val.none) ∈ st) := by
    have hany : st.any (fun p => p.2.isNone) = true ↔ ∃ k, (k, Val.none) ∈ st := by
      rw [List.any_eq_true]
      constructor
      · rintro ⟨⟨k, v⟩, hm, hv⟩
        cases v <;> simp [Val.isNone] at hv
        exact ⟨k, hm⟩
      · rintro ⟨k, hm⟩; exact ⟨(k, .none), hm, rfl⟩
    rw [← hany]
    cases b <;> cases st.any (fun p => p.2.isNone) <;> simp
  unfold openIdSchemaVerify
  simp only [bind_ok, ok_ok, hb]
  rw [← birthdateCheck_iff]
  constructor
  · rintro ⟨⟨⟩, h1, ⟨⟩, h2, h3⟩
    rw [C36_iff] at h1
    exact ⟨h1.1, h1.2, h2, h3⟩
  · rintro ⟨h1, h2, h3, h4⟩
    exact ⟨(), (C36_iff _ _).2 ⟨h1, h2⟩, (), h3, h4⟩

/-- C37, what holds of it as stated (`_partial`: the day and month may also be written with one digit, the
day with a leading space, and some digits in any script, see the counterexamples): `True` means no null claim and a birthdate that names a year,
an existing day, or a day of an unnamed year. -/
theorem C37_true_partial (sch : Schema) (st : Dict) (h : openIdSchemaVerify sch st = .ok true) :
    (∀ k v, (k, v) ∈ st → v ≠ .none) ∧
    ∀ v, dget st "birthdate" = some v →
      ∃ s : String, v = .str s ∧ (FullDate s.toList ∨ YearOnly s.toList ∨ YearOmitted s.toList) := by
  obtain ⟨_, _, h3, h4⟩ := (C37_exact _ _ _).1 h
  refine ⟨?_, h3⟩
  rintro k v hm rfl
  exact absurd (h4.2 ⟨k, hm⟩) (by simp)

/-- C37, the other direction: every existing date written `YYYY-MM-DD` is accepted. -/
theorem C37_dates_accepted (sch : Schema) (st : Dict) (y m d : Nat) (h1 : Acceptable sch st) (h2 : DescriptionOk st)
    (hb : dget st "birthdate" = some (.str (String.ofList (pad4 y ++ '-' :: (pad2 m ++ '-' :: pad2 d)))))
    (hy : 1 ≤ y) (hy' : y ≤ 9999) (hm : 1 ≤ m) (hm' : m ≤ 12) (hd : 1 ≤ d) (hd' : d ≤ monthLen y m) :
    ∃ b, openIdSchemaVerify sch st = .ok b := by
  have h31 : monthLen y m ≤ 31 := by unfold monthLen; split <;> split <;> omega
  refine ⟨!(st.any (fun p => p.2.isNone)), ?_⟩
  unfold openIdSchemaVerify
  simp only [bind_ok, ok_ok]
  refine ⟨(), (C36_iff _ _).2 ⟨h1, h2⟩, (), (birthdateCheck_iff _).2 ?_, trivial⟩
  intro v hv
  rw [hb] at hv
  cases hv
  refine ⟨_, rfl, .inl ⟨y, m, d, pad4 y, pad2 m, pad2 d, by simp, yearText_pad4 hy', hy, ⟨hm, hm', .inl rfl⟩,
    ⟨hd, by omega, .inl rfl⟩, hd'⟩⟩

/-- C37 as stated is false: a one-digit month and a space-padded day are accepted. -/
theorem C37_counterexample :
    openIdSchemaVerify oidc_OpenIDSchema [("sub", .str "s"), ("birthdate", .str "2000-1- 5")] = .ok true := by
  decide +kernel

/-- C37 as stated is false: digits of other scripts are accepted in the year, and after the first digit of the day. -/
theorem C37_counterexample_script :
    openIdSchemaVerify oidc_OpenIDSchema [("sub", .str "s"), ("birthdate", .str "١٩٩٩-10-2٣")] = .ok true := by
  decide +kernel

example : openIdSchemaVerify oidc_OpenIDSchema [("sub", .str "s"), ("birthdate", .str "2000-02-29"), ("name", .none)]
    = .ok false := by decide +kernel
example : openIdSchemaVerify oidc_OpenIDSchema [("sub", .str "s"), ("birthdate", .str "2001-02-29")]
    = .error .verificationError := by decide +kernel

/-! ## C24, C25 -/

/-- the value under `k` is the number `q` -/
def NumAt (d : Dict) (k : String) (q : Rat) : Prop := ∃ v, dget d k = some v ∧ v.num? = some q

/-- the numeric argument `k` with its default -/
def NumArg (kw : Dict) (k : String) (dflt q : Rat) : Prop :=
  (dget kw k = none ∧ q = dflt) ∨ NumAt kw k q

theorem numR_ok {v : Val} {q : Rat} : numR v = .ok q ↔ v.num? = some q := by
  unfold numR; cases v.num? <;> simp

theorem numArg_ok {kw : Dict} {k : String} {dflt q : Rat} : numArg kw k dflt = .ok q ↔ NumArg kw k dflt q := by
  unfold numArg NumArg NumAt
  cases dget kw k with
  | none => simp; exact eq_comm
  | some v => simp [numR_ok]

theorem expCheck_iff (now : Int) (skew : Rat) (st : Dict) :
    expCheck now skew st = .ok () ↔ ∃ e, NumAt st "exp" e ∧ (now : Rat) - skew ≤ e := by
  unfold expCheck NumAt
  simp only [bind_ok, getReq_ok, numR_ok, need_ok, decide_eq_true_eq]
  constructor
  · rintro ⟨v, h1, e, h2, h3⟩; exact ⟨e, ⟨v, h1, h2⟩, h3⟩
  · rintro ⟨e, ⟨v, h1, h2⟩, h3⟩; exact ⟨v, h1, e, h2, h3⟩

theorem iatCheck_iff (now : Int) (skew : Rat) (st kw : Dict) :
    iatCheck now skew st kw = .ok () ↔
      ∃ i storage, NumAt st "iat" i ∧ NumArg kw "nonce_storage_time" 14400 storage ∧
        (now : Rat) - skew ≤ i + storage := by
  unfold iatCheck
  simp only [bind_ok, getReq_ok, numR_ok, need_ok, decide_eq_true_eq, numArg_ok]
  constructor
  · rintro ⟨v, h1, e, h2, s, h3, h4⟩; exact ⟨e, s, ⟨v, h1, h2⟩, h3, h4⟩
  · rintro ⟨e, s, ⟨v, h1, h2⟩, h3, h4⟩; exact ⟨v, h1, e, h2, s, h3, h4⟩

/-- The audience conditions: the client is in `aud`; several audiences need an `azp` that is one of them. -/
def AudienceOk (st kw : Dict) : Prop :=
  ∀ aud, dget st "aud" = some aud →
    (∀ c, dget kw "client_id" = some c → c.contains aud = .ok true) ∧
    ∃ n, aud.len = .ok n ∧ (2 ≤ n → ∃ azp, dget st "azp" = some azp ∧ azp.contains aud = .ok true)

theorem clientInAud_iff (kw : Dict) (aud : Val) :
    clientInAud kw aud = .ok () ↔ ∀ c, dget kw "client_id" = some c → c.contains aud = .ok true := by
  unfold clientInAud
  cases dget kw "client_id" with
  | none => simp
  | some c =>
    cases hc : c.contains aud with
    | error e => simp [hc]
    | ok b => cases b <;> simp [need, hc]

theorem severalAud_iff (st : Dict) (aud : Val) :
    severalAud st aud = .ok () ↔
      ∃ n, aud.len = .ok n ∧ (2 ≤ n → ∃ azp, dget st "azp" = some azp ∧ azp.contains aud = .ok true) := by
  unfold severalAud
  cases aud.len with
  | error e => simp
  | ok n =>
    simp only [ok_ok, exists_eq_left']
    by_cases hn : 1 < n
    · simp only [hn, if_true, show 2 ≤ n from hn, forall_const]
      cases dget st "azp" with
      | none => simp
      | some azp =>
        simp only [Option.some.injEq, exists_eq_left']
        cases hc : azp.contains aud with
        | error e => simp
        | ok b => cases b <;> simp [need]
    · have : ¬ 2 ≤ n := hn
      simp [hn, this]

theorem audCheck_iff (st kw : Dict) : audCheck st kw = .ok () ↔ AudienceOk st kw := by
  unfold audCheck AudienceOk
  cases dget st "aud" with
  | none => simp
  | some aud =>
    simp only [Option.some.injEq, forall_eq', bind_ok]
    rw [← clientInAud_iff, ← severalAud_iff]
    constructor
    · rintro ⟨⟨⟩, h⟩; exact h
    · intro h; exact ⟨(), h⟩

theorem azpCheck_iff (st kw : Dict) : azpCheck st kw = .ok () ↔
    ∀ azp c, dget st "azp" = some azp → dget kw "client_id" = some c → c.eq azp = true := by
  unfold azpCheck
  cases dget st "azp" <;> cases dget kw "client_id" <;> simp [need_ok]

/-- C24: the exact acceptance condition of `IdToken.verify`, for every content, every argument combination and
every clock value. -/
theorem C24_iff (now : Int) (st kw : Dict) :
    idTokenVerify now st kw = .ok () ↔
      Acceptable oidc_IdToken st ∧ DescriptionOk st ∧ BirthdateOk st ∧
      SameIfBoth st kw "iss" ∧ AudienceOk st kw ∧
      (∀ azp c, dget st "azp" = some azp → dget kw "client_id" = some c → c.eq azp = true) ∧
      (∃ skew e i storage, NumArg kw "skew" 0 skew ∧ NumAt st "exp" e ∧ NumAt st "iat" i ∧
        NumArg kw "nonce_storage_time" 14400 storage ∧
        (now : Rat) - skew ≤ e ∧ (now : Rat) - skew ≤ i + storage) ∧
      SameIfBoth st kw "nonce" := by
  unfold idTokenVerify
  simp only [bind_ok, numArg_ok]
  constructor
  · rintro ⟨b, h1, ⟨⟩, h2, ⟨⟩, h3, ⟨⟩, h4, skew, h5, ⟨⟩, h6, ⟨⟩, h7, h8⟩
    obtain ⟨a1, a2, a3, _⟩ := (C37_exact _ _ _).1 h1
    rw [matchArg_iff] at h2 h8
    rw [audCheck_iff] at h3
    rw [azpCheck_iff] at h4
    obtain ⟨e, he, he'⟩ := (expCheck_iff _ _ _).1 h6
    obtain ⟨i, s, hi, hs, hi'⟩ := (iatCheck_iff _ _ _ _).1 h7
    exact ⟨a1, a2, a3, h2, h3, h4, ⟨skew, e, i, s, h5, he, hi, hs, he', hi'⟩, h8⟩
  · rintro ⟨a1, a2, a3, h2, h3, h4, ⟨skew, e, i, s, h5, he, hi, hs, he', hi'⟩, h8⟩
    refine ⟨!(st.any (fun p => p.2.isNone)), ?_, (), (matchArg_iff _ _ _ _).2 h2, (), (audCheck_iff _ _).2 h3, (),
      (azpCheck_iff _ _).2 h4, skew, h5, (), (expCheck_iff _ _ _).2 ⟨e, he, he'⟩, (),
      (iatCheck_iff _ _ _ _).2 ⟨i, s, hi, hs, hi'⟩, (matchArg_iff _ _ _ _).2 h8⟩
    unfold openIdSchemaVerify
    simp only [bind_ok, ok_ok]
    exact ⟨(), (C36_iff _ _).2 ⟨a1, a2⟩, (), (birthdateCheck_iff _).2 a3, trivial⟩

theorem contains_str_list (s : String) (l : List String) :
    (Val.str s).contains (.list (l.map .str)) = .ok true ↔ s ∈ l := by
  simp only [Val.contains, ok_ok, Val.memList, List.any_eq_true]
  constructor
  · rintro ⟨y, hy, he⟩
    rw [str_eq_iff] at he
    subst he
    obtain ⟨t, ht, e⟩ := List.mem_map.1 hy
    cases e; exact ht
  · intro h; exact ⟨.str s, List.mem_map.2 ⟨s, h, rfl⟩, by rw [eq_str_iff]⟩

/-- C24 in the shape tokens have after `from_jwt`: `aud` a list of strings, whole seconds.  For a caller that
gives its client id and issuer, acceptance is exactly: same issuer; the client is an audience and the authorized
party if there is one; several audiences need an authorized party; not expired; not issued too long ago; the
nonce does not differ. -/
theorem C24_typed (now e i : Int) (st : Dict) (client iss issT : String) (auds : List String) (azp : Option String)
    (kw : Dict) (hc : dget kw "client_id" = some (.str client)) (hi : dget kw "iss" = some (.str iss))
    (hs : dget kw "skew" = none) (hn : dget kw "nonce_storage_time" = none)
    (h1 : Acceptable oidc_IdToken st) (h2 : DescriptionOk st) (h3 : BirthdateOk st)
    (haud : dget st "aud" = some (.list (auds.map .str))) (hiss : dget st "iss" = some (.str issT))
    (hazp : dget st "azp" = azp.map .str) (hexp : dget st "exp" = some (.int e))
    (hiat : dget st "iat" = some (.int i)) :
    idTokenVerify now st kw = .ok () ↔
      issT = iss ∧ client ∈ auds ∧ (∀ z, azp = some z → z = client) ∧ (2 ≤ auds.length → azp ≠ none) ∧
      now ≤ e ∧ now ≤ i + 14400 ∧ SameIfBoth st kw "nonce" := by
  rw [C24_iff]
  have hnum : (∃ skew e' i' storage, NumArg kw "skew" 0 skew ∧ NumAt st "exp" e' ∧ NumAt st "iat" i' ∧
        NumArg kw "nonce_storage_time" 14400 storage ∧
        (now : Rat) - skew ≤ e' ∧ (now : Rat) - skew ≤ i' + storage) ↔ now ≤ e ∧ now ≤ i + 14400 := by
    simp only [NumArg, NumAt, hs, hn, hexp, hiat, Option.some.injEq, exists_eq_left', true_and, reduceCtorEq,
      false_and, exists_false, or_false, Val.num?]
    have z : (now : Rat) - 0 = now := by rw [Rat.sub_eq_add_neg, Rat.neg_zero, Rat.add_zero]
    have s : (i : Rat) + 14400 = ((i + 14400 : Int) : Rat) := by rw [Rat.intCast_add]; rfl
    constructor
    · rintro ⟨_, _, _, _, rfl, rfl, rfl, rfl, h1, h2⟩
      rw [z] at h1 h2
      rw [s] at h2
      exact ⟨Rat.intCast_le_intCast.1 h1, Rat.intCast_le_intCast.1 h2⟩
    · rintro ⟨h1, h2⟩
      refine ⟨0, e, i, 14400, rfl, rfl, rfl, rfl, ?_, ?_⟩
      · rw [z]; exact Rat.intCast_le_intCast.2 h1
      · rw [z, s]; exact Rat.intCast_le_intCast.2 h2
  rw [hnum]
  have hI : SameIfBoth st kw "iss" ↔ issT = iss := by
    simp [SameIfBoth, hi, hiss, eq_str_iff]
  have hA : AudienceOk st kw ↔ client ∈ auds ∧ (2 ≤ auds.length → ∃ z, azp = some z ∧ z ∈ auds) := by
    simp only [AudienceOk, haud, Option.some.injEq, forall_eq', hc, contains_str_list, Val.len, ok_ok,
      List.length_map, exists_eq_left', hazp, Option.map_eq_some_iff]
    refine and_congr_right fun _ => imp_congr_right fun _ => ?_
    constructor
    · rintro ⟨_, ⟨z, hz, rfl⟩, h⟩; exact ⟨z, hz, (contains_str_list _ _).1 h⟩
    · rintro ⟨z, hz, h⟩; exact ⟨.str z, ⟨z, hz, rfl⟩, (contains_str_list _ _).2 h⟩
  have hZ : (∀ azp' c, dget st "azp" = some azp' → dget kw "client_id" = some c → c.eq azp' = true) ↔
      ∀ z, azp = some z → z = client := by
    rw [hazp, hc]
    constructor
    · intro h z hz
      have := h (.str z) (.str client) (by rw [hz]; rfl) rfl
      rw [eq_str_iff] at this; simp at this; exact this.symm
    · intro h a c ha hc'
      cases hc'
      cases azp with
      | none => simp at ha
      | some z => simp only [Option.map_some, Option.some.injEq] at ha; subst ha; rw [h z rfl, eq_str_iff]
  rw [hI, hA, hZ]
  constructor
  · rintro ⟨_, _, _, a, ⟨b1, b2⟩, c, ⟨d1, d2⟩, f⟩
    refine ⟨a, b1, c, ?_, d1, d2, f⟩
    intro hl hz
    obtain ⟨z, hz', _⟩ := b2 hl
    rw [hz] at hz'; simp at hz'
  · rintro ⟨a, b, c, d, e1, e2, f⟩
    refine ⟨h1, h2, h3, a, ⟨b, ?_⟩, c, ⟨e1, e2⟩, f⟩
    intro hl
    cases azp with
    | none => exact absurd rfl (d hl)
    | some z => exact ⟨z, rfl, by rw [c z rfl]; exact b⟩

/-- C25: if token and caller both have a nonce, verification only succeeds when they are equal. -/
theorem C25_nonce (now : Int) (st kw : Dict) (n m : String) (hn : dget st "nonce" = some (.str n))
    (hm : dget kw "nonce" = some (.str m)) (h : idTokenVerify now st kw = .ok ()) : n = m := by
  have := ((C24_iff _ _ _).1 h).2.2.2.2.2.2.2 _ _ hn hm
  rw [eq_str_iff] at this
  simpa using this

/-- C25, mismatch: whatever else the token says, with a different nonce it is refused. -/
theorem C25_mismatch (now : Int) (st kw : Dict) (a b : Val) (ha : dget st "nonce" = some a)
    (hb : dget kw "nonce" = some b) (hne : a.eq b = false) : ∃ e, idTokenVerify now st kw = .error e := by
  cases h : idTokenVerify now st kw with
  | error e => exact ⟨e, rfl⟩
  | ok u =>
    have := ((C24_iff _ _ _).1 h).2.2.2.2.2.2.2 _ _ ha hb
    rw [hne] at this; simp at this

/-- C25, the other half: for a token without a nonce the expected nonce plays no role at all. -/
theorem C25_no_nonce (now : Int) (st kw : Dict) (n : Val) (hn : dget st "nonce" = none) :
    idTokenVerify now st (dset kw "nonce" n) = .ok () ↔ idTokenVerify now st kw = .ok () := by
  have hk : ∀ k, k ≠ "nonce" → dget (dset kw "nonce" n) k = dget kw k := fun k h => dget_dset_ne _ _ (Ne.symm h)
  simp only [C24_iff, SameIfBoth, AudienceOk, NumArg, NumAt, hn, hk "iss" (by decide), hk "client_id" (by decide),
    hk "skew" (by decide), hk "nonce_storage_time" (by decide), reduceCtorEq, false_imp_iff, implies_true]

example : idTokenVerify 1500 toyClaims [("client_id", .str "client"), ("nonce", .str "n")] = .ok () := by
  decide +kernel
example : idTokenVerify 1500 toyClaims [("client_id", .str "client"), ("nonce", .str "m")] = .error .valueError := by
  decide +kernel
example : idTokenVerify 2001 toyClaims [] = .error .expError := by decide +kernel
example : idTokenVerify 2001 toyClaims [("skew", .int 1)] = .ok () := by decide +kernel
/-- the hypotheses of `C24_typed` are met -/
example : Acceptable oidc_IdToken toyClaims ∧ DescriptionOk toyClaims ∧ BirthdateOk toyClaims := by
  refine ⟨(C04_verify_iff _ _).1 (by decide +kernel), ?_, ?_⟩
  · rw [← errorDescription_iff]; decide +kernel
  · rw [← birthdateCheck_iff]; decide +kernel

end Verif
