import Verif.Py.Json
import Verif.Py.FloatLemmas
import Verif.Py.UrlLemmas

/-! # `json.loads (json.dumps v) = v` -/

namespace Verif

/-! ## strings -/

theorem hexVal_hexDigitL (n : Nat) (h : n < 16) : hexVal? (hexDigitL n) = some n := by
  have : ∀ m : Fin 16, hexVal? (hexDigitL m.val) = some m.val := by decide
  exact this ⟨n, h⟩

theorem hex4_uEsc (n : Nat) (h : n < 65536) :
    hex4? (hexDigitL (n / 4096 % 16)) (hexDigitL (n / 256 % 16)) (hexDigitL (n / 16 % 16))
      (hexDigitL (n % 16)) = some n := by
  unfold hex4?
  rw [hexVal_hexDigitL _ (by omega), hexVal_hexDigitL _ (by omega), hexVal_hexDigitL _ (by omega),
    hexVal_hexDigitL _ (by omega)]
  simp only []
  congr 1; omega

theorem char_eq_ofNat {c : Char} {n : Nat} (h : c.toNat = n) : c = Char.ofNat n := by
  rw [← h, Char.ofNat_toNat]

theorem jstr_simple (e x : Char) (r : List Char) (hx : simpleEsc e = some x) (hu : ¬ e = 'u') :
    jstr ('\\' :: e :: r) = consChar x (jstr r) := by
  rw [jstr.eq_def]
  simp [hx, hu]

theorem jstr_uEsc (n : Nat) (h : n < 65536) (r : List Char) :
    jstr (uEsc n ++ r) =
      (if 0xD800 ≤ n ∧ n ≤ 0xDBFF then
        match r with
        | b1 :: b2 :: g1 :: g2 :: g3 :: g4 :: r3 =>
          if b1 = '\\' ∧ b2 = 'u' then
            match hex4? g1 g2 g3 g4 with
            | none => .error .jsonDecodeError
            | some m =>
              if 0xDC00 ≤ m ∧ m ≤ 0xDFFF then
                consChar (Char.ofNat (0x10000 + (n - 0xD800) * 1024 + (m - 0xDC00))) (jstr r3)
              else .error .unmodelled
          else .error .unmodelled
        | _ => .error .unmodelled
      else if 0xDC00 ≤ n ∧ n ≤ 0xDFFF then .error .unmodelled
      else consChar (Char.ofNat n) (jstr r)) := by
  simp only [uEsc, List.cons_append, List.nil_append]
  rw [jstr.eq_def]
  have q1 : ¬ '\\' = '"' := by decide
  simp only [q1, if_false, if_true, hex4_uEsc n h]
  rfl

theorem jstr_pair_aux (a b : Nat) (c : Char) (r : List Char) (ha : 0xD800 ≤ a ∧ a ≤ 0xDBFF)
    (hb : 0xDC00 ≤ b ∧ b ≤ 0xDFFF) (hc : 0x10000 + (a - 0xD800) * 1024 + (b - 0xDC00) = c.toNat) :
    jstr (uEsc a ++ uEsc b ++ r) = consChar c (jstr r) := by
  rw [List.append_assoc, jstr_uEsc _ (by omega), if_pos ha]
  have h4 := hex4_uEsc b (by omega)
  simp only [uEsc, List.cons_append, List.nil_append]
  rw [h4]
  simp only [and_self, if_true]
  rw [if_pos hb, ofNat_of_toNat c _ hc]

theorem jstr_pair (c : Char) (r : List Char) (h : 0x10000 ≤ c.toNat) :
    jstr (uEsc (0xD800 + (c.toNat - 0x10000) / 1024) ++ uEsc (0xDC00 + (c.toNat - 0x10000) % 1024) ++ r)
      = consChar c (jstr r) := by
  have hv := Char.toNat_valid c
  apply jstr_pair_aux
  · omega
  · omega
  · omega

theorem jstr_escChar (c : Char) (r : List Char) :
    jstr (jsonEscChar c ++ r) = consChar c (jstr r) := by
  have hv := Char.toNat_valid c
  unfold jsonEscChar
  split
  · next h => subst h; exact jstr_simple _ _ _ (by decide) (by decide)
  split
  · next h => subst h; exact jstr_simple _ _ _ (by decide) (by decide)
  split
  · next h => subst h; exact jstr_simple _ _ _ (by decide) (by decide)
  split
  · next h => subst h; exact jstr_simple _ _ _ (by decide) (by decide)
  split
  · next h => subst h; exact jstr_simple _ _ _ (by decide) (by decide)
  split
  · next h =>
    rw [char_eq_ofNat h]; exact jstr_simple _ _ _ (by decide) (by decide)
  split
  · next h =>
    rw [char_eq_ofNat h]; exact jstr_simple _ _ _ (by decide) (by decide)
  split
  · next h1 h2 _ _ _ _ _ h3 =>
    have h4 : ¬ c.toNat < 32 := by omega
    simp only [List.cons_append, List.nil_append]
    rw [jstr.eq_def]
    simp [h1, h2, h4]
  split
  · next h =>
    rw [jstr_uEsc _ h, if_neg (by omega), if_neg (by omega), Char.ofNat_toNat]
  · next h => exact jstr_pair c r (by omega)

theorem jstr_esc (s r : List Char) : jstr (jsonEsc s ++ '"' :: r) = .ok (s, r) := by
  induction s with
  | nil => simp only [jsonEsc, List.flatMap_nil, List.nil_append]; rw [jstr.eq_def]; simp
  | cons c cs ih =>
    simp only [jsonEsc, List.flatMap_cons, List.append_assoc] at *
    rw [jstr_escChar, ih]; rfl

theorem jstr_jsonStr (s : String) (r : List Char) :
    jsonStr s ++ r = '"' :: (jsonEsc s.toList ++ '"' :: r) := by
  simp [jsonStr]

/-! ## numbers -/

theorem natDigits_digit (n : Nat) : ∀ c ∈ natDigits n, isDigitC c = true := by
  have key : ∀ m, m < 10 → isDigitC (Char.ofNat (48 + m)) = true := by
    intro m hm
    have : ∀ k : Fin 10, isDigitC (Char.ofNat (48 + k.val)) = true := by decide
    exact this ⟨m, hm⟩
  fun_induction natDigits n with
  | case1 n h => intro c hc; simp at hc; subst hc; exact key n h
  | case2 n h ih =>
    intro c hc
    simp only [List.mem_append, List.mem_singleton] at hc
    rcases hc with hc | hc
    · exact ih c hc
    · subst hc; exact key _ (by omega)

theorem natDigits_ne_nil (n : Nat) : natDigits n ≠ [] := by
  unfold natDigits; split <;> simp

theorem digitsVal_append (l : List Char) (c : Char) :
    digitsVal (l ++ [c]) = digitsVal l * 10 + (c.toNat - 48) := by
  simp [digitsVal]

theorem toNat_digit (m : Nat) (h : m < 10) : (Char.ofNat (48 + m)).toNat - 48 = m := by
  have : ∀ k : Fin 10, (Char.ofNat (48 + k.val)).toNat - 48 = k.val := by decide
  exact this ⟨m, h⟩

theorem digitsVal_natDigits (n : Nat) : digitsVal (natDigits n) = n := by
  fun_induction natDigits n with
  | case1 n h => simp [digitsVal, toNat_digit n h]
  | case2 n h ih => rw [digitsVal_append, ih, toNat_digit _ (by omega)]; omega

theorem natDigits_head (n : Nat) (h : 0 < n) : (natDigits n).head? ≠ some '0' := by
  fun_induction natDigits n with
  | case1 n h' =>
    have : ∀ k : Fin 10, 0 < k.val → Char.ofNat (48 + k.val) ≠ '0' := by decide
    simpa using this ⟨n, h'⟩ h
  | case2 n h' ih =>
    have := ih (by omega)
    rw [List.head?_append]
    cases hd : (natDigits (n / 10)).head? with
    | none => simp [natDigits_ne_nil] at hd
    | some c => rw [hd] at this; simpa using this

theorem natDigits_zero : natDigits 0 = ['0'] := by unfold natDigits; simp

/-- Characters that can follow a value inside a document. -/
def okRest (r : List Char) : Prop :=
  ∀ c, r.head? = some c → c = ',' ∨ c = ']' ∨ c = '}'

/-- What follows does not begin with a digit. -/
def NoDigit (r : List Char) : Prop := ∀ c, r.head? = some c → isDigitC c = false

theorem okRest_noDigit {r : List Char} (hr : okRest r) : NoDigit r := by
  intro c hc
  rcases hr c hc with rfl | rfl | rfl <;> decide

theorem noDigit_cons {c : Char} {r : List Char} (h : isDigitC c = false) : NoDigit (c :: r) := by
  intro x hx; simp at hx; subst hx; exact h

theorem takeWhile_digits {ds r : List Char} (hd : ∀ c ∈ ds, isDigitC c = true) (hr : NoDigit r) :
    (ds ++ r).takeWhile isDigitC = ds := by
  rw [List.takeWhile_append_of_pos hd]
  cases r with
  | nil => simp
  | cons c r =>
    have hc : isDigitC c = false := hr c rfl
    simp [hc]

/-- the scan after an optional sign -/
theorem jnum_body (ds r : List Char) (hd : ∀ c ∈ ds, isDigitC c = true) (h0 : ds = ['0'] ∨ ds.head? ≠ some '0')
    (hr : NoDigit r) :
    let body := ds ++ r
    let ds1 := body.takeWhile isDigitC
    let ds' := if ds1.head? == some '0' then ds1.take 1 else ds1
    ds' = ds ∧ body.drop ds'.length = r := by
  simp only []
  rw [takeWhile_digits hd hr]
  rcases h0 with rfl | h0
  · simp
  · have h' : (ds.head? == some '0') = false := by simpa using h0
    simp [h']

theorem head_ne_minus (ds r : List Char) (hd : ∀ c ∈ ds, isDigitC c = true) (hn : ds ≠ []) :
    ((ds ++ r).head? == some '-') = false := by
  cases ds with
  | nil => exact absurd rfl hn
  | cons c cs =>
    have := hd c (by simp)
    have hc : ¬ c = '-' := by intro h; subst h; exact absurd this (by decide)
    simp [hc]

/-- A number that begins with the digits `ds`. -/
theorem jnum_digits (neg : Bool) (ds r : List Char) (hd : ∀ c ∈ ds, isDigitC c = true) (hn : ds ≠ [])
    (h0 : ds = ['0'] ∨ ds.head? ≠ some '0') (hr : NoDigit r) :
    jnum ((if neg then ['-'] else []) ++ (ds ++ r)) = jnumTail neg ds r := by
  have hb := jnum_body ds r hd h0 hr
  simp only [] at hb
  obtain ⟨h1, h2⟩ := hb
  have he : ds.isEmpty = false := by simp [hn]
  cases neg with
  | false =>
    have hm := head_ne_minus ds r hd hn
    unfold jnum
    simp only [Bool.false_eq_true, if_false, List.nil_append, hm, Bool.false_and]
    rw [h1] at h2 ⊢
    rw [h2, he]
    simp only [Bool.false_eq_true, if_false]
  | true =>
    unfold jnum
    simp only [if_true, List.cons_append, List.nil_append, List.head?_cons, List.tail_cons]
    have hh : (some '-' == some '-') = true := by decide
    simp only [hh, if_true, Bool.true_and]
    rw [h1] at h2 ⊢
    rw [h2, he]
    simp only [Bool.false_eq_true, if_false]

/-- No digits of a fraction: what follows is left alone. -/
theorem scanFrac_none {r : List Char} (h : ∀ t, r ≠ '.' :: t) : scanFrac r = ([], r) := by
  unfold scanFrac
  split
  · rfl
  · next c t => rw [if_neg (fun e => h t (by rw [e]))]

theorem scanFrac_some {fr r : List Char} (hd : ∀ c ∈ fr, isDigitC c = true) (hn : fr ≠ []) (hr : NoDigit r) :
    scanFrac ('.' :: (fr ++ r)) = (fr, r) := by
  have he : fr.isEmpty = false := by simp [hn]
  simp only [scanFrac, if_true]
  rw [takeWhile_digits hd hr, he]
  simp

theorem scanExp_none {r : List Char} (h : okRest r) : scanExp r = (none, r) := by
  unfold scanExp
  split
  · rfl
  · next c t =>
    rw [if_neg]
    rcases h c rfl with rfl | rfl | rfl <;> decide

theorem scanExp_some {neg : Bool} {ed r : List Char} (hd : ∀ c ∈ ed, isDigitC c = true) (hn : ed ≠ []) (hr : NoDigit r) :
    scanExp ('e' :: (if neg then '-' else '+') :: (ed ++ r))
      = (some (if neg then - (digitsVal ed : Int) else digitsVal ed), r) := by
  have he : ed.isEmpty = false := by simp [hn]
  have hs : scanSign ((if neg then '-' else '+') :: (ed ++ r)) = (neg, ed ++ r) := by
    cases neg <;> simp [scanSign]
  simp only [scanExp, true_or, if_true, hs]
  rw [takeWhile_digits hd hr, he]
  simp

theorem okRest_not_dot {r : List Char} (hr : okRest r) : ∀ t, r ≠ '.' :: t := by
  rintro t rfl
  rcases hr '.' rfl with h | h | h <;> exact absurd h (by decide)

theorem natDigits_lead (n : Nat) : natDigits n = ['0'] ∨ (natDigits n).head? ≠ some '0' := by
  by_cases hn : n = 0
  · subst hn; exact .inl natDigits_zero
  · exact .inr (natDigits_head n (by omega))

theorem jnumTail_int (neg : Bool) (ds r : List Char) (hr : okRest r) :
    jnumTail neg ds r = .ok (.int (if neg then - (digitsVal ds : Int) else digitsVal ds), r) := by
  unfold jnumTail
  rw [scanFrac_none (okRest_not_dot hr)]
  simp only []
  rw [scanExp_none hr]
  simp

theorem jnum_intRepr (i : Int) (r : List Char) (hr : okRest r) :
    jnum (intRepr i ++ r) = .ok (.int i, r) := by
  have hd := okRest_noDigit hr
  cases i with
  | ofNat n =>
    have h := jnum_digits false (natDigits n) r (natDigits_digit n) (natDigits_ne_nil n) (natDigits_lead n) hd
    rw [jnumTail_int _ _ _ hr, digitsVal_natDigits] at h
    simpa [intRepr] using h
  | negSucc n =>
    have h := jnum_digits true (natDigits (n + 1)) r (natDigits_digit _) (natDigits_ne_nil _) (natDigits_lead _) hd
    rw [jnumTail_int _ _ _ hr, digitsVal_natDigits] at h
    simp only [if_true, List.cons_append, List.nil_append] at h
    simp only [intRepr, List.cons_append]
    rw [h]
    congr 3

/-! ## floats -/

/-- A number text: integer part, fraction, exponent. -/
structure NumText where
  int : List Char
  frac : List Char
  exp : Option (Bool × List Char)

/-- its characters -/
def NumText.text (t : NumText) : List Char :=
  t.int ++ ((if t.frac.isEmpty then [] else '.' :: t.frac) ++
    match t.exp with
    | none => []
    | some (neg, ed) => 'e' :: (if neg then '-' else '+') :: ed)

/-- its exponent -/
def NumText.expVal (t : NumText) : Int :=
  match t.exp with
  | none => 0
  | some (neg, ed) => if neg then - (digitsVal ed : Int) else digitsVal ed

/-- It is a JSON float. -/
structure NumText.Ok (t : NumText) : Prop where
  int_digits : ∀ c ∈ t.int, isDigitC c = true
  int_ne : t.int ≠ []
  int_lead : t.int = ['0'] ∨ t.int.head? ≠ some '0'
  frac_digits : ∀ c ∈ t.frac, isDigitC c = true
  exp_digits : ∀ neg ed, t.exp = some (neg, ed) → (∀ c ∈ ed, isDigitC c = true) ∧ ed ≠ []
  float : t.frac ≠ [] ∨ t.exp ≠ none

/-- its value, rounded to a float -/
def NumText.units (t : NumText) : Nat := decUnits (digitsVal (t.int ++ t.frac)) (t.expVal - t.frac.length)

/-- the float it is read as -/
def NumText.result (neg : Bool) (t : NumText) : Res Val :=
  if unitsEnd ≤ t.units ∨ (neg = true ∧ t.units = 0) then .error .unmodelled else .ok (.flt (fltOfUnits neg t.units))

/-- The scanner reads such a text as its rounded value. -/
theorem jnum_text (neg : Bool) (t : NumText) (h : t.Ok) (r : List Char) (hr : okRest r) :
    jnum ((if neg then ['-'] else []) ++ (t.text ++ r)) = (t.result neg).map (·, r) := by
  unfold NumText.result
  generalize hm : t.units = m
  unfold NumText.units at hm
  obtain ⟨int, frac, exp⟩ := t
  obtain ⟨hi, hin, hil, hf, he, hfl⟩ := h
  simp only at hi hin hil hf he hfl
  have key : ∀ rest, NoDigit rest → (∀ t, rest ≠ '.' :: t ∨ frac ≠ []) →
      scanExp rest = (exp.map (fun p => if p.1 then - (digitsVal p.2 : Int) else digitsVal p.2), r) →
      jnum ((if neg then ['-'] else []) ++ (int ++ ((if frac.isEmpty then [] else '.' :: frac) ++ rest)))
        = (if unitsEnd ≤ m ∨ (neg = true ∧ m = 0) then .error .unmodelled
            else .ok (.flt (fltOfUnits neg m)) : Res Val).map (·, r) := by
    intro rest hrest hdot hse
    have hsf : scanFrac ((if frac.isEmpty then [] else '.' :: frac) ++ rest) = (frac, rest) := by
      cases frac with
      | nil => exact scanFrac_none (fun t => (hdot t).resolve_right (by simp))
      | cons c cs => exact scanFrac_some hf (by simp) hrest
    have hnd : NoDigit ((if frac.isEmpty then [] else '.' :: frac) ++ rest) := by
      cases frac with
      | nil => exact hrest
      | cons c cs => exact noDigit_cons (by decide)
    rw [jnum_digits neg _ _ hi hin hil hnd]
    unfold jnumTail
    simp only [hsf, hse]
    have hno : (frac.isEmpty && (exp.map (fun p => if p.1 then - (digitsVal p.2 : Int) else digitsVal p.2)).isNone) = false := by
      rcases hfl with h | h
      · simp [h]
      · cases exp with
        | none => exact absurd rfl h
        | some p => simp
    rw [hno]
    have hv : (exp.map (fun p => if p.1 then - (digitsVal p.2 : Int) else digitsVal p.2)).getD 0
        = NumText.expVal ⟨int, frac, exp⟩ := by
      cases exp with
      | none => rfl
      | some p => rfl
    rw [hv, hm, if_neg (by decide)]
    split <;> rfl
  cases exp with
  | none =>
    have := key r (okRest_noDigit hr) (fun t => .inl (okRest_not_dot hr t)) (scanExp_none hr)
    simpa [NumText.text] using this
  | some p =>
    obtain ⟨eneg, ed⟩ := p
    obtain ⟨hed, hen⟩ := he eneg ed rfl
    have := key ('e' :: (if eneg then '-' else '+') :: (ed ++ r)) (noDigit_cons (by decide))
      (fun t => .inl (by simp)) (scanExp_some hed hen (okRest_noDigit hr))
    simpa [NumText.text] using this

theorem jnum_float (neg : Bool) (t : NumText) (h : t.Ok) (r : List Char) (hr : okRest r) (m : Nat)
    (hm : decUnits (digitsVal (t.int ++ t.frac)) (t.expVal - t.frac.length) = m) (h1 : m < unitsEnd)
    (h2 : neg = true → m ≠ 0) :
    jnum ((if neg then ['-'] else []) ++ (t.text ++ r)) = .ok (.flt (fltOfUnits neg m), r) := by
  have hu : t.units = m := hm
  rw [jnum_text neg t h r hr, NumText.result, hu, if_neg]
  · rfl
  · rintro (h | ⟨h, h'⟩)
    · omega
    · exact h2 h h'

theorem digitsVal_from (l : List Char) (a : Nat) :
    l.foldl (fun a c => a * 10 + (c.toNat - 48)) a = a * 10 ^ l.length + digitsVal l := by
  unfold digitsVal
  induction l generalizing a with
  | nil => simp
  | cons c l ih =>
    simp only [List.foldl_cons, List.length_cons]
    rw [ih, ih (0 * 10 + (c.toNat - 48)), Nat.pow_succ, Nat.add_mul, Nat.zero_mul, Nat.zero_add, Nat.mul_assoc,
      Nat.mul_comm 10]
    omega

theorem digitsVal_app (l l' : List Char) : digitsVal (l ++ l') = digitsVal l * 10 ^ l'.length + digitsVal l' := by
  rw [digitsVal, List.foldl_append, digitsVal_from]
  rfl

theorem digitsVal_zeros (n : Nat) : digitsVal (List.replicate n '0') = 0 := by
  induction n with
  | zero => rfl
  | succ n ih => rw [List.replicate_succ', digitsVal_app, ih]; simp; decide

theorem expDigits_digit (n : Nat) : ∀ c ∈ expDigits n, isDigitC c = true := by
  unfold expDigits
  split
  · intro c hc
    simp only [List.mem_cons] at hc
    rcases hc with rfl | hc
    · decide
    · exact natDigits_digit n c hc
  · exact natDigits_digit n

theorem expDigits_ne (n : Nat) : expDigits n ≠ [] := by
  unfold expDigits; split
  · simp
  · exact natDigits_ne_nil n

theorem digitsVal_expDigits (n : Nat) : digitsVal (expDigits n) = n := by
  unfold expDigits
  split
  · rw [show '0' :: natDigits n = ['0'] ++ natDigits n from rfl, digitsVal_app, digitsVal_natDigits]
    simp [digitsVal]
  · exact digitsVal_natDigits n

/-- What `repr` writes for the digits `ds` times `10^x` is a JSON float of that value. -/
theorem fmtShort_text (ds : List Char) (x : Int) (hd : ∀ c ∈ ds, isDigitC c = true) (hn : ds ≠ [])
    (h0 : ds.head? ≠ some '0') :
    ∃ t : NumText, t.Ok ∧ fmtShort ds x = t.text ∧
      decUnits (digitsVal (t.int ++ t.frac)) (t.expVal - t.frac.length) = decUnits (digitsVal ds) x ∧
      ∃ b : Nat, digitsVal (t.int ++ t.frac) = digitsVal ds * 10 ^ b ∧ t.expVal - t.frac.length = x - b := by
  have hlen : 0 < ds.length := List.length_pos_iff.2 hn
  have htake : ∀ k, 0 < k → ds.take k ≠ [] ∧ (ds.take k).head? ≠ some '0' ∧ ∀ c ∈ ds.take k, isDigitC c = true := by
    intro k hk
    refine ⟨?_, ?_, fun c hc => hd c (List.mem_of_mem_take hc)⟩
    · intro h; rw [List.take_eq_nil_iff] at h; rcases h with h | h
      · omega
      · exact hn h
    · rw [List.head?_take, if_neg (by omega)]; exact h0
  have hdrop : ∀ k, ∀ c ∈ ds.drop k, isDigitC c = true := fun k c hc => hd c (List.mem_of_mem_drop hc)
  unfold fmtShort
  simp only []
  split
  · -- exponent
    obtain ⟨t1, t2, t3⟩ := htake 1 (by decide)
    refine ⟨⟨ds.take 1, ds.drop 1, some (decide ((ds.length : Int) + x - 1 < 0), expDigits ((ds.length : Int) + x - 1).natAbs)⟩,
      ⟨t3, t1, .inr t2, hdrop 1, ?_, .inr (by simp)⟩, ?_, ?_, 0, by rw [List.take_append_drop]; simp, ?_⟩
    · rintro neg ed h
      simp only [Option.some.injEq, Prod.mk.injEq] at h
      rw [← h.2]
      exact ⟨expDigits_digit _, expDigits_ne _⟩
    · simp only [NumText.text, List.append_assoc]
      have : (ds.drop 1).isEmpty = decide (ds.length = 1) := by
        rw [Bool.eq_iff_iff, List.isEmpty_iff, List.drop_eq_nil_iff, decide_eq_true_eq]; omega
      rw [this]
      simp
    · simp only [NumText.expVal, List.take_append_drop, digitsVal_expDigits, List.length_drop]
      congr 1
      by_cases hneg : (ds.length : Int) + x - 1 < 0
      · simp only [hneg, decide_true, if_true]; omega
      · simp only [hneg, decide_false, Bool.false_eq_true, if_false]; omega
    · simp only [NumText.expVal, digitsVal_expDigits, List.length_drop]
      by_cases hneg : (ds.length : Int) + x - 1 < 0
      · simp only [hneg, decide_true, if_true]; omega
      · simp only [hneg, decide_false, Bool.false_eq_true, if_false]; omega
  split
  · -- zeros in front
    next h1 h2 =>
    refine ⟨⟨['0'], List.replicate (-((ds.length : Int) + x)).toNat '0' ++ ds, none⟩,
      ⟨by simp; decide, by simp, .inl rfl, ?_, by simp, .inl (by simp [hn])⟩, ?_, ?_, 0, ?_, ?_⟩
    · intro c hc
      rw [List.mem_append] at hc
      rcases hc with hc | hc
      · rw [(List.mem_replicate.1 hc).2]; decide
      · exact hd c hc
    · simp [NumText.text, hn]
    · simp only [NumText.expVal, digitsVal_app, digitsVal_zeros, List.length_append, List.length_replicate]
      rw [show digitsVal ['0'] = 0 from rfl]
      simp only [Nat.zero_mul, Nat.zero_add]
      congr 1
      omega
    · simp only [digitsVal_app, digitsVal_zeros]
      rw [show digitsVal ['0'] = 0 from rfl]
      simp
    · simp only [NumText.expVal, List.length_append, List.length_replicate]
      omega
  split
  · -- an integer
    next h1 h2 h3 =>
    refine ⟨⟨ds ++ List.replicate ((ds.length : Int) + x - ds.length).toNat '0', ['0'], none⟩,
      ⟨?_, by simp [hn], .inr ?_, by simp; decide, by simp, .inl (by simp)⟩, ?_, ?_,
        ((ds.length : Int) + x - ds.length).toNat + 1, ?_, ?_⟩
    · intro c hc
      rw [List.mem_append] at hc
      rcases hc with hc | hc
      · exact hd c hc
      · rw [(List.mem_replicate.1 hc).2]; decide
    · rw [List.head?_append]
      cases hh : ds.head? with
      | none => rw [List.head?_eq_none_iff] at hh; exact absurd hh hn
      | some c => rw [hh] at h0; simpa using h0
    · simp [NumText.text]
    · have e := decUnits_shift (digitsVal ds) (x.toNat + 1) x
      rw [← e]
      simp only [NumText.expVal, digitsVal_app, digitsVal_zeros, List.length_replicate]
      rw [show digitsVal ['0'] = 0 from rfl, show ((ds.length : Int) + x - ds.length).toNat = x.toNat by omega]
      simp only [List.length_cons, List.length_nil, Nat.add_zero, Nat.zero_add, Nat.mul_assoc, ← Nat.pow_succ]
      congr 1
      omega
    · simp only [digitsVal_app, digitsVal_zeros, List.length_replicate]
      rw [show digitsVal ['0'] = 0 from rfl]
      simp [Nat.pow_succ, Nat.mul_assoc]
    · simp only [NumText.expVal, List.length_cons, List.length_nil]
      omega
  · -- a point inside
    next h1 h2 h3 =>
    obtain ⟨t1, t2, t3⟩ := htake ((ds.length : Int) + x).toNat (by omega)
    have hdn : ds.drop ((ds.length : Int) + x).toNat ≠ [] := by
      intro h; rw [List.drop_eq_nil_iff] at h; omega
    refine ⟨⟨ds.take ((ds.length : Int) + x).toNat, ds.drop ((ds.length : Int) + x).toNat, none⟩,
      ⟨t3, t1, .inr t2, hdrop _, by simp, .inl hdn⟩, ?_, ?_, 0, by rw [List.take_append_drop]; simp, ?_⟩
    · simp only [NumText.text, List.append_nil]
      rw [show (ds.drop ((ds.length : Int) + x).toNat).isEmpty = false by simp only [List.isEmpty_eq_false_iff]; exact hdn]
      simp
    · simp only [NumText.expVal, List.take_append_drop, List.length_drop]
      congr 1
      omega
    · simp only [NumText.expVal, List.length_drop]
      omega

/-- What `repr` writes for a float is read back as the same float. -/
theorem unitsRepr_text {m : Nat} (h : IsUnits m) :
    ∃ t : NumText, t.Ok ∧ unitsRepr m = t.text ∧
      decUnits (digitsVal (t.int ++ t.frac)) (t.expVal - t.frac.length) = m ∧
      ∃ b : Nat, (digitsVal (t.int ++ t.frac) = (strip10 (decLen (shortest m).1) (shortest m).1 (shortest m).2).1 * 10 ^ b ∧
        t.expVal - t.frac.length = (strip10 (decLen (shortest m).1) (shortest m).1 (shortest m).2).2 - b) ∨ m = 0 := by
  unfold unitsRepr
  split
  · next h0 =>
    subst h0
    refine ⟨⟨['0'], ['0'], none⟩, ⟨by simp; decide, by simp, .inl rfl, by simp; decide, by simp, .inl (by simp)⟩, rfl, ?_, 0, .inr rfl⟩
    exact decUnits_zero _
  · next h0 =>
    simp only []
    have hs := strip10_units (decLen (shortest m).1) (shortest m).1 (shortest m).2
    rw [shortest_units h] at hs
    generalize strip10 (decLen (shortest m).1) (shortest m).1 (shortest m).2 = s at hs
    have hc : 0 < s.1 := by
      apply Nat.pos_of_ne_zero
      intro hz
      rw [hz, decUnits_zero] at hs
      exact h0 hs.symm
    obtain ⟨t, t1, t2, t3, b, t4, t5⟩ := fmtShort_text (natDigits s.1) s.2 (natDigits_digit _) (natDigits_ne_nil _) (natDigits_head _ hc)
    exact ⟨t, t1, t2, by rw [t3, digitsVal_natDigits, hs], b, .inl ⟨by rw [t4, digitsVal_natDigits], t5⟩⟩

/-- **Floats**: reading what was written gives the same float. -/
theorem jnum_floatRepr {q : Rat} (hq : isDouble q = true) (r : List Char) (hr : okRest r) :
    jnum (floatRepr q ++ r) = .ok (.flt q, r) := by
  obtain ⟨m, hm, hlt, hu, he⟩ := isDouble_elim hq
  obtain ⟨t, t1, t2, t3, _⟩ := unitsRepr_text hm
  unfold floatRepr
  rw [hu, t2]
  by_cases hneg : q.num < 0
  · rw [if_pos hneg]
    simp only [hneg, decide_true] at he
    have hm0 : m ≠ 0 := by
      rintro rfl
      rw [fltOfUnits_zero] at he
      rw [he] at hneg
      exact absurd hneg (by decide)
    have := jnum_float true t t1 r hr m t3 hlt (fun _ => hm0)
    rw [← he] at this
    simpa using this
  · rw [if_neg hneg]
    simp only [hneg, decide_false] at he
    have := jnum_float false t t1 r hr m t3 hlt (by simp)
    rw [← he] at this
    simpa using this

theorem fmtShort_start (ds : List Char) (x : Int) (hd : ∀ c ∈ ds, isDigitC c = true) (hn : ds ≠ []) :
    ∃ c t, fmtShort ds x = c :: t ∧ isDigitC c = true := by
  cases ds with
  | nil => exact absurd rfl hn
  | cons c cs =>
    have hc := hd c (by simp)
    unfold fmtShort
    simp only []
    split
    · exact ⟨c, _, rfl, hc⟩
    split
    · exact ⟨'0', _, rfl, by decide⟩
    split
    · exact ⟨c, _, rfl, hc⟩
    · next h1 h2 h3 =>
      generalize hk : (((c :: cs).length : Int) + x).toNat = k
      cases k with
      | zero => omega
      | succ k => exact ⟨c, _, rfl, hc⟩

theorem floatRepr_start (q : Rat) : ∃ c t, floatRepr q = c :: t ∧ (isDigitC c = true ∨ c = '-') := by
  unfold floatRepr
  split
  · exact ⟨_, _, rfl, .inr rfl⟩
  · unfold unitsRepr
    split
    · exact ⟨_, _, rfl, .inl (by decide)⟩
    · obtain ⟨c, t, h1, h2⟩ := fmtShort_start _ (strip10 (decLen (shortest (fltUnits q)).1) (shortest (fltUnits q)).1 (shortest (fltUnits q)).2).2
        (natDigits_digit (strip10 (decLen (shortest (fltUnits q)).1) (shortest (fltUnits q)).1 (shortest (fltUnits q)).2).1)
        (natDigits_ne_nil _)
      exact ⟨c, t, h1, .inl h2⟩

theorem floatText_ok {q : Rat} {s : List Char} (h : floatText q = .ok s) : isDouble q = true ∧ floatRepr q = s := by
  unfold floatText at h
  split at h
  · next hq => cases h; exact ⟨hq, rfl⟩
  · cases h

/-! ## values -/

mutual
/-- Plain JSON data: no message object, no repeated member name (a Python dict cannot have one), and every rational number
is a finite float. -/
def Val.isJson : Val → Bool
  | .flt q => isDouble q
  | .msg _ _ => false
  | .list l => isJsonList l
  | .dict d => decide (dkeys d).Nodup && isJsonDict d
  | _ => true
def Val.isJsonList : List Val → Bool
  | [] => true
  | v :: vs => v.isJson && isJsonList vs
def Val.isJsonDict : List (String × Val) → Bool
  | [] => true
  | (_, v) :: d => v.isJson && isJsonDict d
end

/-- First characters of a serialised value. -/
def okStart (c : Char) : Prop :=
  isJsonWs c = false ∧ ¬ c = ']' ∧ ¬ c = '}'

theorem skipWs_of_not_ws {c : Char} (h : isJsonWs c = false) (r : List Char) :
    skipWs (c :: r) = c :: r := by
  simp [skipWs, List.dropWhile, h]

theorem skipWs_space (r : List Char) : skipWs (' ' :: r) = skipWs r := by
  simp [skipWs, List.dropWhile, isJsonWs]

theorem intRepr_start (i : Int) : ∃ c r, intRepr i = c :: r ∧ (isDigitC c = true ∨ c = '-') := by
  cases i with
  | ofNat n =>
    cases hd : natDigits n with
    | nil => exact absurd hd (natDigits_ne_nil n)
    | cons c cs => exact ⟨c, cs, by simp [intRepr, hd], Or.inl (natDigits_digit n c (by simp [hd]))⟩
  | negSucc n => exact ⟨'-', natDigits (n + 1), rfl, Or.inr rfl⟩

theorem okStart_digit {c : Char} (h : isDigitC c = true ∨ c = '-') : okStart c := by
  rcases h with h | rfl
  · refine ⟨?_, ?_, ?_⟩
    · cases hw : isJsonWs c with
      | false => rfl
      | true =>
        simp [isJsonWs] at hw
        rcases hw with ((rfl | rfl) | rfl) | rfl <;> exact absurd h (by decide)
    · rintro rfl; exact absurd h (by decide)
    · rintro rfl; exact absurd h (by decide)
  · exact ⟨by decide, by decide, by decide⟩

theorem dumpsC_start (v : Val) (s : List Char) (h : dumpsC v = .ok s) :
    ∃ c r, s = c :: r ∧ okStart c := by
  cases v with
  | none => simp [dumpsC] at h; subst h; exact ⟨'n', _, rfl, by decide, by decide, by decide⟩
  | bool b =>
    cases b
    · simp [dumpsC] at h; subst h; exact ⟨'f', _, rfl, by decide, by decide, by decide⟩
    · simp [dumpsC] at h; subst h; exact ⟨'t', _, rfl, by decide, by decide, by decide⟩
  | int i =>
    simp [dumpsC] at h; subst h
    obtain ⟨c, r, hc, hs⟩ := intRepr_start i
    exact ⟨c, r, hc, okStart_digit hs⟩
  | flt q =>
    rw [dumpsC] at h
    obtain ⟨_, rfl⟩ := floatText_ok h
    obtain ⟨c, r, hc, hs⟩ := floatRepr_start q
    exact ⟨c, r, hc, okStart_digit hs⟩
  | str t => simp [dumpsC, jsonStr] at h; subst h; exact ⟨'"', _, rfl, by decide, by decide, by decide⟩
  | list l =>
    cases l with
    | nil => simp [dumpsC] at h; subst h; exact ⟨'[', _, rfl, by decide, by decide, by decide⟩
    | cons v vs =>
      rw [dumpsC] at h
      cases h1 : dumpsC v with
      | error e => simp [h1, bind, Except.bind] at h
      | ok a =>
        cases h2 : dumpsList vs with
        | error e => simp [h1, h2, bind, Except.bind] at h
        | ok b =>
          simp [h1, h2, bind, Except.bind] at h; subst h
          exact ⟨'[', _, rfl, by decide, by decide, by decide⟩
  | dict l =>
    cases l with
    | nil => simp [dumpsC] at h; subst h; exact ⟨'{', _, rfl, by decide, by decide, by decide⟩
    | cons p vs =>
      rcases p with ⟨k, v⟩
      rw [dumpsC] at h
      cases h1 : dumpsC v with
      | error e => simp [h1, bind, Except.bind] at h
      | ok a =>
        cases h2 : dumpsDict vs with
        | error e => simp [h1, h2, bind, Except.bind] at h
        | ok b =>
          simp [h1, h2, bind, Except.bind] at h; subst h
          exact ⟨'{', _, rfl, by decide, by decide, by decide⟩
  | msg c d => simp [dumpsC] at h

theorem skipWs_dumps {v : Val} {s : List Char} (h : dumpsC v = .ok s) (r : List Char) :
    skipWs (s ++ r) = s ++ r := by
  obtain ⟨c, t, rfl, hc, _⟩ := dumpsC_start v s h
  exact skipWs_of_not_ws hc _

theorem dumpsList_cons (l : List Val) (s : List Char) (h : dumpsList l = .ok s) :
    ∃ c t, s = c :: t ∧ (c = ',' ∨ c = ']') := by
  cases l with
  | nil => simp [dumpsList] at h; subst h; exact ⟨']', [], rfl, by simp⟩
  | cons v vs =>
    rw [dumpsList] at h
    cases h1 : dumpsC v with
    | error e => simp [h1, bind, Except.bind] at h
    | ok a =>
      cases h2 : dumpsList vs with
      | error e => simp [h1, h2, bind, Except.bind] at h
      | ok b =>
        simp [h1, h2, bind, Except.bind] at h; subst h
        exact ⟨',', _, rfl, by simp⟩

theorem dumpsList_start (l : List Val) (s : List Char) (h : dumpsList l = .ok s) (r : List Char) :
    okRest (s ++ r) ∧ skipWs (s ++ r) = s ++ r := by
  obtain ⟨c, t, rfl, hc⟩ := dumpsList_cons l s h
  constructor
  · intro x hx; simp at hx; subst hx; rcases hc with rfl | rfl <;> simp
  · apply skipWs_of_not_ws; rcases hc with rfl | rfl <;> decide

theorem dumpsDict_start (l : List (String × Val)) (s : List Char) (h : dumpsDict l = .ok s)
    (r : List Char) : okRest (s ++ r) ∧ skipWs (s ++ r) = s ++ r := by
  have key : ∃ c t, s = c :: t ∧ (c = ',' ∨ c = '}') := by
    cases l with
    | nil => simp [dumpsDict] at h; subst h; exact ⟨'}', [], rfl, by simp⟩
    | cons p vs =>
      rcases p with ⟨k, v⟩
      rw [dumpsDict] at h
      cases h1 : dumpsC v with
      | error e => simp [h1, bind, Except.bind] at h
      | ok a =>
        cases h2 : dumpsDict vs with
        | error e => simp [h1, h2, bind, Except.bind] at h
        | ok b =>
          simp [h1, h2, bind, Except.bind] at h; subst h
          exact ⟨',', _, rfl, by simp⟩
  obtain ⟨c, t, rfl, hc⟩ := key
  constructor
  · intro x hx; simp at hx; subst hx; rcases hc with rfl | rfl <;> simp
  · apply skipWs_of_not_ws; rcases hc with rfl | rfl <;> decide

theorem dset_append_new {α} (d : Assoc α) (k : String) (v : α) (h : k ∉ dkeys d) :
    dset d k v = d ++ [(k, v)] := by
  induction d with
  | nil => rfl
  | cons p t ih =>
    rcases p with ⟨k', v'⟩
    simp only [dkeys_cons, List.mem_cons, not_or] at h
    have h' : ¬ k' = k := fun e => h.1 e.symm
    simp [dset, h', ih h.2]

/-- A number is read by the number scanner. -/
theorem jval_jnum (n : Nat) (s : List Char) (h : ∃ c t, s = c :: t ∧ (isDigitC c = true ∨ c = '-')) :
    jval (n + 1) s = jnum s := by
  obtain ⟨c, t, rfl, hs⟩ := h
  have e : ∀ x : Char, isDigitC x = false → x ≠ '-' → ¬ c = x := by
    intro x h1 h2 he; subst he
    rcases hs with h | h
    · rw [h] at h1; exact absurd h1 (by simp)
    · exact h2 h
  have e1 := e '"' (by decide) (by decide)
  have e2 := e '{' (by decide) (by decide)
  have e3 := e '[' (by decide) (by decide)
  have e4 : ¬ 'n' = c := fun h => e 'n' (by decide) (by decide) h.symm
  have e5 : ¬ 't' = c := fun h => e 't' (by decide) (by decide) h.symm
  have e6 : ¬ 'f' = c := fun h => e 'f' (by decide) (by decide) h.symm
  have e7 := e 'N' (by decide) (by decide)
  have e8 := e 'I' (by decide) (by decide)
  rw [jval, if_neg e1, if_neg e2, if_neg e3]
  have d1 : dropPrefix? "null".toList (c :: t) = none := by
    rw [show "null".toList = ['n','u','l','l'] from rfl]; simp [dropPrefix?, e4]
  have d2 : dropPrefix? "true".toList (c :: t) = none := by
    rw [show "true".toList = ['t','r','u','e'] from rfl]; simp [dropPrefix?, e5]
  have d3 : dropPrefix? "false".toList (c :: t) = none := by
    rw [show "false".toList = ['f','a','l','s','e'] from rfl]; simp [dropPrefix?, e6]
  rw [d1, d2, d3]
  simp only []
  rw [if_neg (by simp [e7, e8])]

theorem jval_num (n : Nat) (i : Int) (r : List Char) (hr : okRest r) :
    jval (n + 1) (intRepr i ++ r) = .ok (.int i, r) := by
  obtain ⟨c, t, hc, hs⟩ := intRepr_start i
  rw [jval_jnum n _ ⟨c, t ++ r, by rw [hc]; rfl, hs⟩, jnum_intRepr i r hr]

theorem jval_flt (n : Nat) {q : Rat} (hq : isDouble q = true) (r : List Char) (hr : okRest r) :
    jval (n + 1) (floatRepr q ++ r) = .ok (.flt q, r) := by
  obtain ⟨c, t, hc, hs⟩ := floatRepr_start q
  rw [jval_jnum n _ ⟨c, t ++ r, by rw [hc]; rfl, hs⟩, jnum_floatRepr hq r hr]

mutual
theorem jval_dumps : (v : Val) → v.isJson = true →
    ∃ s, dumpsC v = .ok s ∧ ∀ r n, okRest r → s.length + 1 ≤ n → jval n (s ++ r) = .ok (v, r)
  | .none, _ => by
    refine ⟨_, rfl, ?_⟩
    intro r n _ hn
    cases n with
    | zero => simp at hn
    | succ n => rfl
  | .bool true, _ => by
    refine ⟨_, rfl, ?_⟩
    intro r n _ hn
    cases n with
    | zero => simp at hn
    | succ n => rfl
  | .bool false, _ => by
    refine ⟨_, rfl, ?_⟩
    intro r n _ hn
    cases n with
    | zero => simp at hn
    | succ n => rfl
  | .int i, _ => by
    refine ⟨_, by rw [dumpsC], ?_⟩
    intro r n hr hn
    cases n with
    | zero => simp at hn
    | succ n => exact jval_num n i r hr
  | .flt q, h => by
    have hq : isDouble q = true := by simpa [Val.isJson] using h
    refine ⟨_, by rw [dumpsC, floatText, if_pos hq], ?_⟩
    intro r n hr hn
    cases n with
    | zero => simp at hn
    | succ n => exact jval_flt n hq r hr
  | .str s, _ => by
    refine ⟨_, by rw [dumpsC], ?_⟩
    intro r n _ hn
    cases n with
    | zero => simp at hn
    | succ n =>
      rw [jstr_jsonStr, jval, if_pos rfl, jstr_esc]
      simp [String.ofList_toList]
  | .list [], _ => by
    refine ⟨_, by rw [dumpsC], ?_⟩
    intro r n _ hn
    cases n with
    | zero => simp at hn
    | succ n =>
      simp only [List.cons_append, List.nil_append]
      rw [jval, if_neg (by decide), if_neg (by decide), if_pos rfl, skipWs_of_not_ws (by decide)]
      simp
  | .list (v :: vs), h => by
    simp only [Val.isJson, Val.isJsonList, Bool.and_eq_true] at h
    obtain ⟨a, ha, hva⟩ := jval_dumps v h.1
    obtain ⟨b, hb, hvb⟩ := jelems_dumps vs h.2
    refine ⟨'[' :: (a ++ b), by rw [dumpsC, ha, hb]; rfl, ?_⟩
    intro r n hr hn
    have hlen : (a ++ b).length + 2 ≤ n := by simpa using hn
    simp only [List.length_append] at hlen
    match n, hlen with
    | n + 2, hlen =>
      simp only [List.cons_append, List.append_assoc]
      rw [jval, if_neg (by decide), if_neg (by decide), if_pos rfl, skipWs_dumps ha]
      obtain ⟨c, t, hct, hc⟩ := dumpsC_start v a ha
      have hbr := dumpsList_start vs b hb r
      have hb1 : 1 ≤ b.length := by
        obtain ⟨c, t, h, _⟩ := dumpsList_cons vs b hb
        simp [h]
      have e1 := hva (b ++ r) n hbr.1 (by omega)
      have e2 := hvb [v] r n hr (by omega)
      have step : jelems (n + 1) [] (a ++ (b ++ r)) = .ok (.list (v :: vs), r) := by
        rw [jelems, e1]
        simp only [hbr.2, List.nil_append]
        exact e2
      rw [hct] at step ⊢
      simp only [List.cons_append] at step ⊢
      rw [if_neg hc.2.1]
      exact step
  | .dict [], _ => by
    refine ⟨_, by rw [dumpsC], ?_⟩
    intro r n _ hn
    cases n with
    | zero => simp at hn
    | succ n =>
      simp only [List.cons_append, List.nil_append]
      rw [jval, if_neg (by decide), if_pos rfl, skipWs_of_not_ws (by decide)]
      simp
  | .dict ((k, v) :: d), h => by
    simp only [Val.isJson, Val.isJsonDict, Bool.and_eq_true, decide_eq_true_eq] at h
    obtain ⟨a, ha, hva⟩ := jval_dumps v h.2.1
    obtain ⟨b, hb, hvb⟩ := jmembers_dumps d h.2.2
    refine ⟨'{' :: (jsonStr k ++ ':' :: ' ' :: (a ++ b)), by rw [dumpsC, ha, hb]; rfl, ?_⟩
    intro r n hr hn
    simp only [List.length_cons, List.length_append] at hn
    match n, hn with
    | n + 2, hlen =>
      have hk : (jsonStr k ++ ':' :: ' ' :: (a ++ b)) ++ r =
          '"' :: (jsonEsc k.toList ++ '"' :: (':' :: ' ' :: (a ++ (b ++ r)))) := by
        simp [jsonStr]
      rw [List.cons_append, hk]
      rw [jval, if_neg (by decide), if_pos rfl, skipWs_of_not_ws (by decide)]
      have hbr := dumpsDict_start d b hb r
      have e1 := hva (b ++ r) n hbr.1 (by omega)
      have e2 := hvb [(k, v)] r n hr (by omega) (by simpa [dkeys] using h.1)
      simp only []
      rw [if_neg (by decide), jmembers, if_pos rfl, jstr_esc]
      simp only []
      rw [skipWs_of_not_ws (by decide)]
      simp only [if_true]
      rw [skipWs_space, skipWs_dumps ha, e1]
      simp only [hbr.2, String.ofList_toList, dset]
      exact e2
  | .msg _ _, h => by simp [Val.isJson] at h
/-- After one element has been read (`acc` = the elements read so far). -/
theorem jelems_dumps : (l : List Val) → Val.isJsonList l = true →
    ∃ s, dumpsList l = .ok s ∧ ∀ acc r n, okRest r → s.length ≤ n →
      (match s ++ r with
        | [] => (.error .jsonDecodeError : Res (Val × List Char))
        | c4 :: r4 =>
          if c4 = ']' then .ok (.list acc, r4)
          else if c4 = ',' then jelems n acc (skipWs r4)
          else .error .jsonDecodeError) = .ok (.list (acc ++ l), r)
  | [], _ => by
    refine ⟨_, by rw [dumpsList], ?_⟩
    intro acc r n _ _
    simp
  | v :: vs, h => by
    simp only [Val.isJsonList, Bool.and_eq_true] at h
    obtain ⟨a, ha, hva⟩ := jval_dumps v h.1
    obtain ⟨b, hb, hvb⟩ := jelems_dumps vs h.2
    refine ⟨',' :: ' ' :: (a ++ b), by rw [dumpsList, ha, hb]; rfl, ?_⟩
    intro acc r n hr hn
    simp only [List.length_cons, List.length_append] at hn
    simp only [List.cons_append, List.append_assoc]
    rw [if_neg (by decide), if_pos trivial, skipWs_space, skipWs_dumps ha]
    match n, hn with
    | n + 1, hn =>
      have hbr := dumpsList_start vs b hb r
      have e1 := hva (b ++ r) n hbr.1 (by omega)
      have e2 := hvb (acc ++ [v]) r n hr (by omega)
      rw [jelems, e1]
      simp only [hbr.2]
      rw [List.append_assoc] at e2
      exact e2
theorem jmembers_dumps : (d : List (String × Val)) → Val.isJsonDict d = true →
    ∃ s, dumpsDict d = .ok s ∧ ∀ acc r n, okRest r → s.length ≤ n →
      (dkeys (acc ++ d)).Nodup →
      (match s ++ r with
        | [] => (.error .jsonDecodeError : Res (Val × List Char))
        | c4 :: r4 =>
          if c4 = '}' then .ok (.dict acc, r4)
          else if c4 = ',' then jmembers n acc (skipWs r4)
          else .error .jsonDecodeError) = .ok (.dict (acc ++ d), r)
  | [], _ => by
    refine ⟨_, by rw [dumpsDict], ?_⟩
    intro acc r n _ _ _
    simp
  | (k, v) :: d, h => by
    simp only [Val.isJsonDict, Bool.and_eq_true] at h
    obtain ⟨a, ha, hva⟩ := jval_dumps v h.1
    obtain ⟨b, hb, hvb⟩ := jmembers_dumps d h.2
    refine ⟨',' :: ' ' :: (jsonStr k ++ ':' :: ' ' :: (a ++ b)), by rw [dumpsDict, ha, hb]; rfl, ?_⟩
    intro acc r n hr hn hnd
    simp only [List.length_cons, List.length_append] at hn
    have hk : (jsonStr k ++ ':' :: ' ' :: (a ++ b)) ++ r =
        '"' :: (jsonEsc k.toList ++ '"' :: (':' :: ' ' :: (a ++ (b ++ r)))) := by
      simp [jsonStr]
    rw [List.cons_append, List.cons_append, hk]
    simp only []
    rw [if_neg (by decide), if_pos trivial, skipWs_space, skipWs_of_not_ws (by decide)]
    match n, hn with
    | n + 1, hn =>
      have hbr := dumpsDict_start d b hb r
      have hkn : k ∉ dkeys acc := by
        simp only [dkeys, List.map_append, List.map_cons] at hnd
        rw [List.nodup_append] at hnd
        intro hm
        exact hnd.2.2 k hm k (by simp) rfl
      have e1 := hva (b ++ r) n hbr.1 (by omega)
      have e2 := hvb (acc ++ [(k, v)]) r n hr (by omega) (by simpa using hnd)
      rw [jmembers, if_pos rfl, jstr_esc]
      simp only []
      rw [skipWs_of_not_ws (by decide)]
      simp only [if_true]
      rw [skipWs_space, skipWs_dumps ha, e1]
      simp only [hbr.2, String.ofList_toList, dset_append_new _ _ _ hkn]
      rw [List.append_assoc] at e2
      exact e2
end

theorem loads_dumps (v : Val) (h : v.isJson = true) : ∃ s, dumps v = .ok s ∧ loads s = .ok v := by
  obtain ⟨s, hs, hv⟩ := jval_dumps v h
  refine ⟨String.ofList s, by simp [dumps, hs, Except.map], ?_⟩
  have h1 := hv [] (2 * s.length + 2) (by intro c hc; simp at hc) (by omega)
  have h2 := skipWs_dumps hs []
  simp only [List.append_nil] at h1 h2
  have h3 : skipWs [] = [] := rfl
  simp only [loads, loadsC, String.toList_ofList, h2, h1, h3, if_true]

end Verif
