import Verif.Py.Url

/-! # Lemmas about percent-encoding and query strings -/

namespace Verif

/-- Characters produced by `quote_plus`. -/
def isQuoted (c : Char) : Bool := isSafeByte c.toNat || c == '+' || c == '%'

theorem hexVal_hexDigit (n : Nat) (h : n < 16) : hexVal? (hexDigit n) = some n := by
  have : ∀ m : Fin 16, hexVal? (hexDigit m.val) = some m.val := by decide
  exact this ⟨n, h⟩

theorem hexDigit_safe (n : Nat) (h : n < 16) : isSafeByte (hexDigit n).toNat = true := by
  have : ∀ m : Fin 16, isSafeByte (hexDigit m.val).toNat = true := by decide
  exact this ⟨n, h⟩

theorem isSafeByte_lt {b : Nat} (h : isSafeByte b = true) : b < 128 := by
  simp [isSafeByte] at h; omega

theorem toNat_ofNat_small {b : Nat} (h : b < 128) : (Char.ofNat b).toNat = b := by
  have : ∀ m : Fin 128, (Char.ofNat m.val).toNat = m.val := by decide
  exact this ⟨b, h⟩

theorem quoteByte_quoted {b : Nat} (hb : b < 256) : ∀ c ∈ quoteByte b, isQuoted c = true := by
  intro c hc
  unfold quoteByte at hc
  split at hc
  · simp at hc; subst hc; decide
  · split at hc
    · next h =>
      simp at hc; subst hc
      simp [isQuoted, toNat_ofNat_small (isSafeByte_lt h), h]
    · simp at hc
      rcases hc with rfl | rfl | rfl
      · decide
      · simp [isQuoted, hexDigit_safe (b / 16) (by omega)]
      · simp [isQuoted, hexDigit_safe (b % 16) (by omega)]

theorem quotePlusC_quoted (s : List Char) : ∀ c ∈ quotePlusC s, isQuoted c = true := by
  intro c hc
  simp only [quotePlusC, List.mem_flatMap] at hc
  obtain ⟨b, hb, hc⟩ := hc
  exact quoteByte_quoted (utf8Encode_lt s b hb) c hc

theorem isQuoted_lt {c : Char} (h : isQuoted c = true) : c.toNat < 128 := by
  simp [isQuoted] at h
  rcases h with (h | rfl) | rfl
  · exact isSafeByte_lt h
  · decide
  · decide

theorem unquoteRuns_ascii (acc s : List Char) (h : ∀ c ∈ s, c.toNat < 128) :
    unquoteRuns acc s = utf8Decode (unquoteBytes (acc.reverse ++ s)) := by
  induction s generalizing acc with
  | nil => simp [unquoteRuns]
  | cons c cs ih =>
    have hc := h c (by simp)
    rw [unquoteRuns, if_pos hc, ih (c :: acc) (fun x hx => h x (by simp [hx]))]
    simp

theorem plusToSpace_lt {c : Char} (h : c.toNat < 128) : (plusToSpace c).toNat < 128 := by
  unfold plusToSpace; split
  · decide
  · exact h

theorem unquoteBytes_cons_ne {c : Char} (h : c ≠ '%') (r : List Char) :
    unquoteBytes (c :: r) = c.toNat :: unquoteBytes r := by
  rw [unquoteBytes.eq_def]
  simp [h]

theorem safe_ne_plus {b : Nat} (h : isSafeByte b = true) : Char.ofNat b ≠ '+' := by
  intro he
  have : b = 43 := by rw [← toNat_ofNat_small (isSafeByte_lt h), he]; decide
  subst this; exact absurd h (by decide)

theorem safe_ne_percent {b : Nat} (h : isSafeByte b = true) : Char.ofNat b ≠ '%' := by
  intro he
  have : b = 37 := by rw [← toNat_ofNat_small (isSafeByte_lt h), he]; decide
  subst this; exact absurd h (by decide)

theorem hexDigit_plus (n : Nat) (h : n < 16) : plusToSpace (hexDigit n) = hexDigit n := by
  have : ∀ m : Fin 16, plusToSpace (hexDigit m.val) = hexDigit m.val := by decide
  exact this ⟨n, h⟩

theorem unquoteBytes_quoteByte {b : Nat} (hb : b < 256) (r : List Char) :
    unquoteBytes ((quoteByte b).map plusToSpace ++ r) = b :: unquoteBytes r := by
  unfold quoteByte
  split
  · next h => subst h; simp [plusToSpace, unquoteBytes_cons_ne]
  · split
    · next h =>
      have h1 := safe_ne_plus h
      have h2 := safe_ne_percent h
      simp only [List.map_cons, List.map_nil, plusToSpace, h1, if_false, List.cons_append,
        List.nil_append]
      rw [unquoteBytes_cons_ne h2, toNat_ofNat_small (isSafeByte_lt h)]
    · have hp : plusToSpace '%' = '%' := by decide
      simp only [List.map_cons, List.map_nil, List.cons_append, List.nil_append, hp,
        hexDigit_plus (b / 16) (by omega), hexDigit_plus (b % 16) (by omega)]
      rw [unquoteBytes]
      simp only [if_true, hexVal_hexDigit (b / 16) (by omega), hexVal_hexDigit (b % 16) (by omega)]
      congr 1; omega

theorem unquoteBytes_quoteBytes (bs : List Nat) (hb : ∀ b ∈ bs, b < 256) :
    unquoteBytes ((bs.flatMap quoteByte).map plusToSpace) = bs := by
  induction bs with
  | nil => rfl
  | cons b bs ih =>
    simp only [List.flatMap_cons, List.map_append]
    rw [unquoteBytes_quoteByte (hb b (by simp)), ih (fun x hx => hb x (by simp [hx]))]

theorem unquotePlusC_quotePlusC (s : List Char) : unquotePlusC (quotePlusC s) = s := by
  unfold unquotePlusC
  rw [unquoteRuns_ascii]
  · simp only [List.reverse_nil, List.nil_append, quotePlusC]
    rw [unquoteBytes_quoteBytes _ (utf8Encode_lt s), utf8Decode_encode]
  · intro c hc
    simp only [List.mem_map] at hc
    obtain ⟨x, hx, rfl⟩ := hc
    exact plusToSpace_lt (isQuoted_lt (quotePlusC_quoted s x hx))

theorem unquotePlus_quotePlus (s : String) : unquotePlus (quotePlus s) = s := by
  simp [unquotePlus, quotePlus, unquotePlusC_quotePlusC, String.ofList_toList]

theorem quotePlus_inj {a b : String} (h : quotePlus a = quotePlus b) : a = b := by
  rw [← unquotePlus_quotePlus a, h, unquotePlus_quotePlus]

theorem quoteByte_ne_nil (b : Nat) : quoteByte b ≠ [] := by
  unfold quoteByte; split
  · simp
  · split <;> simp

theorem utf8Char_ne_nil (c : Char) : utf8Char c ≠ [] := by
  unfold utf8Char; simp only []; split
  · simp
  · split
    · simp
    · split <;> simp

theorem quotePlusC_eq_nil {s : List Char} : quotePlusC s = [] ↔ s = [] := by
  constructor
  · intro h
    rw [← unquotePlusC_quotePlusC s, h]; rfl
  · rintro rfl; rfl

theorem not_mem_quotePlusC {s : List Char} {c : Char} (h : isQuoted c = false) : c ∉ quotePlusC s := by
  intro hc
  rw [quotePlusC_quoted s c hc] at h
  exact absurd h (by simp)

theorem splitEq_append {n : List Char} (h : '=' ∉ n) (v : List Char) :
    splitEq (n ++ '=' :: v) = some (n, v) := by
  induction n with
  | nil => simp [splitEq]
  | cons c cs ih =>
    have hc : ¬ c = '=' := by intro he; subst he; simp at h
    simp only [List.cons_append, splitEq, hc, if_false]
    rw [ih (by intro hm; exact h (by simp [hm]))]
    rfl

theorem parsePiece_encode (n v : List Char) :
    parsePiece (quotePlusC n ++ '=' :: quotePlusC v) = if v = [] then none else some (n, v) := by
  unfold parsePiece
  rw [splitEq_append (not_mem_quotePlusC (by decide))]
  by_cases hv : v = []
  · subst hv; simp [show quotePlusC [] = [] from rfl]
  · have : (quotePlusC v).isEmpty = false := by
      simp [List.isEmpty_eq_false_iff, quotePlusC_eq_nil, hv]
    simp [this, hv, unquotePlusC_quotePlusC]

theorem parseQslC_urlencodeC (ps : List (List Char × List Char)) :
    parseQslC (urlencodeC ps) = ps.filter (fun p => !p.2.isEmpty) := by
  unfold parseQslC urlencodeC
  by_cases hps : ps = []
  · subst hps; rfl
  · rw [splitC_joinC]
    · rw [List.filterMap_map]
      clear hps
      induction ps with
      | nil => rfl
      | cons p ps ih =>
        simp only [List.filterMap_cons, List.filter_cons, Function.comp, parsePiece_encode]
        rcases p with ⟨n, v⟩
        cases v with
        | nil => simp; exact ih
        | cons c cs => simp; exact ih
    · simpa using hps
    · intro p hp
      simp only [List.mem_map] at hp
      obtain ⟨q, _, rfl⟩ := hp
      simp only [List.mem_append, List.mem_cons]
      rintro (h | h | h)
      · exact not_mem_quotePlusC (by decide) h
      · exact absurd h (by decide)
      · exact not_mem_quotePlusC (by decide) h

theorem parseQsl_urlencode (ps : List (String × String)) :
    parseQsl (urlencode ps) = ps.filter (fun p => !decide (p.2 = "")) := by
  unfold parseQsl urlencode
  rw [String.toList_ofList, parseQslC_urlencodeC]
  induction ps with
  | nil => rfl
  | cons p ps ih =>
    rcases p with ⟨n, v⟩
    simp only [List.map_cons, List.filter_cons]
    by_cases hv : v = ""
    · subst hv; simp; simpa using ih
    · have : v.toList.isEmpty = false := by
        simp only [List.isEmpty_eq_false_iff]
        intro h
        apply hv
        rw [← String.ofList_toList (s := v), h]
      simp only [this, hv, decide_false, Bool.not_false, if_true, List.map_cons, ih]
      simp [String.ofList_toList]

/-! ## parse_qs -/

/-- All values given for `k`, in order. -/
def valuesOf (k : String) (ps : List (String × String)) : List String :=
  (ps.filter (fun p => decide (p.1 = k))).map Prod.snd

theorem valuesOf_cons (k : String) (p : String × String) (ps : List (String × String)) :
    valuesOf k (p :: ps) = if p.1 = k then p.2 :: valuesOf k ps else valuesOf k ps := by
  unfold valuesOf
  by_cases h : p.1 = k <;> simp [h]

theorem foldl_qsAdd_get (ps : List (String × String)) (d : Assoc (List String)) (k : String) :
    (dget (ps.foldl qsAdd d) k).getD [] = (dget d k).getD [] ++ valuesOf k ps := by
  induction ps generalizing d with
  | nil => simp [valuesOf]
  | cons p ps ih =>
    simp only [List.foldl_cons]
    rw [ih, valuesOf_cons]
    unfold qsAdd
    rw [dget_dset]
    by_cases h : p.1 = k
    · subst h; simp
    · simp [h]

theorem foldl_qsAdd_nodup (ps : List (String × String)) (d : Assoc (List String)) (h : DNodup d) :
    DNodup (ps.foldl qsAdd d) := by
  induction ps generalizing d with
  | nil => exact h
  | cons p ps ih => exact ih _ (dset_nodup h _ _)

theorem foldl_qsAdd_none (ps : List (String × String)) (d : Assoc (List String)) (k : String) :
    dget (ps.foldl qsAdd d) k = none ↔ dget d k = none ∧ k ∉ ps.map Prod.fst := by
  induction ps generalizing d with
  | nil => simp
  | cons p ps ih =>
    simp only [List.foldl_cons]
    rw [ih]
    unfold qsAdd
    rw [dget_dset]
    by_cases h : k = p.1
    · subst h; simp
    · have h' : ¬ p.1 = k := fun e => h e.symm
      simp [h, h']

theorem valuesOf_nil_iff (k : String) (ps : List (String × String)) :
    valuesOf k ps = [] ↔ k ∉ ps.map Prod.fst := by
  induction ps with
  | nil => simp [valuesOf]
  | cons p ps ih =>
    rw [valuesOf_cons]
    by_cases h : p.1 = k
    · simp [h]
    · have h' : ¬ k = p.1 := fun e => h e.symm
      simp [h, h', ih]

/-- `parse_qs` groups the parsed pairs by name, keeping order. -/
theorem dget_parseQs (qs : String) (k : String) :
    dget (parseQs qs) k =
      (if valuesOf k (parseQsl qs) = [] then none else some (valuesOf k (parseQsl qs))) := by
  unfold parseQs
  have h1 := foldl_qsAdd_get (parseQsl qs) [] k
  have h2 := foldl_qsAdd_none (parseQsl qs) [] k
  rw [← valuesOf_nil_iff] at h2
  split
  · next h => exact h2.2 ⟨rfl, h⟩
  · next h =>
    cases hd : dget ((parseQsl qs).foldl qsAdd []) k with
    | none => exact absurd (h2.1 hd).2 h
    | some l => rw [hd] at h1; simp at h1; rw [h1]

theorem parseQs_nodup (qs : String) : DNodup (parseQs qs) :=
  foldl_qsAdd_nodup _ _ (by simp [DNodup])

end Verif
