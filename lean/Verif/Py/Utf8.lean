/-!
# UTF-8

`str.encode('utf-8')` and `bytes.decode('utf-8', errors='replace')` (CPython's policy: each
maximal ill-formed subpart becomes one U+FFFD).  Bytes are naturals below 256.
-/

namespace Verif

/-- `c.encode('utf-8')` -/
def utf8Char (c : Char) : List Nat :=
  let n := c.toNat
  if n < 0x80 then [n]
  else if n < 0x800 then [0xC0 + n / 64, 0x80 + n % 64]
  else if n < 0x10000 then [0xE0 + n / 4096, 0x80 + n / 64 % 64, 0x80 + n % 64]
  else [0xF0 + n / 262144, 0x80 + n / 4096 % 64, 0x80 + n / 64 % 64, 0x80 + n % 64]

/-- `s.encode('utf-8')` -/
def utf8Encode (s : List Char) : List Nat := s.flatMap utf8Char

def replChar : Char := Char.ofNat 0xFFFD

def isCont (b : Nat) : Bool := 0x80 ≤ b && b ≤ 0xBF

/-- Admissible second byte after a three-byte lead. -/
def ok3 (b c : Nat) : Bool :=
  if b = 0xE0 then 0xA0 ≤ c && c ≤ 0xBF
  else if b = 0xED then 0x80 ≤ c && c ≤ 0x9F
  else isCont c

/-- Admissible second byte after a four-byte lead. -/
def ok4 (b c : Nat) : Bool :=
  if b = 0xF0 then 0x90 ≤ c && c ≤ 0xBF
  else if b = 0xF4 then 0x80 ≤ c && c ≤ 0x8F
  else isCont c

/-- `bytes.decode('utf-8', 'replace')` -/
def utf8Decode : List Nat → List Char
  | [] => []
  | b :: rest =>
    if b < 0x80 then Char.ofNat b :: utf8Decode rest
    else if 0xC2 ≤ b && b ≤ 0xDF then
      match rest with
      | [] => [replChar]
      | c :: r =>
        if isCont c then Char.ofNat ((b - 0xC0) * 64 + (c - 0x80)) :: utf8Decode r
        else replChar :: utf8Decode (c :: r)
    else if 0xE0 ≤ b && b ≤ 0xEF then
      match rest with
      | [] => [replChar]
      | [c] => if ok3 b c then [replChar] else replChar :: utf8Decode [c]
      | c :: d :: r =>
        if ok3 b c then
          if isCont d then
            Char.ofNat ((b - 0xE0) * 4096 + (c - 0x80) * 64 + (d - 0x80)) :: utf8Decode r
          else replChar :: utf8Decode (d :: r)
        else replChar :: utf8Decode (c :: d :: r)
    else if 0xF0 ≤ b && b ≤ 0xF4 then
      match rest with
      | [] => [replChar]
      | [c] => if ok4 b c then [replChar] else replChar :: utf8Decode [c]
      | [c, d] =>
        if ok4 b c then
          if isCont d then [replChar] else replChar :: utf8Decode [d]
        else replChar :: utf8Decode [c, d]
      | c :: d :: e :: r =>
        if ok4 b c then
          if isCont d then
            if isCont e then
              Char.ofNat ((b - 0xF0) * 262144 + (c - 0x80) * 4096 + (d - 0x80) * 64 + (e - 0x80))
                :: utf8Decode r
            else replChar :: utf8Decode (e :: r)
          else replChar :: utf8Decode (d :: e :: r)
        else replChar :: utf8Decode (c :: d :: e :: r)
    else replChar :: utf8Decode rest

theorem Char.toNat_valid (c : Char) : c.toNat < 0xD800 ∨ (0xDFFF < c.toNat ∧ c.toNat < 0x110000) := by
  have h := c.valid
  simpa [UInt32.isValidChar, Nat.isValidChar] using h

theorem ofNat_of_toNat (c : Char) (n : Nat) (h : n = c.toNat) : Char.ofNat n = c := by
  subst h; exact Char.ofNat_toNat c

theorem utf8Decode_char (c : Char) (rest : List Nat) :
    utf8Decode (utf8Char c ++ rest) = c :: utf8Decode rest := by
  have hv := Char.toNat_valid c
  unfold utf8Char
  generalize hn : c.toNat = n at *
  simp only []
  split
  · next h =>
    simp only [List.cons_append, List.nil_append]
    rw [utf8Decode.eq_def]
    simp only [h, if_true]
    rw [ofNat_of_toNat c n hn.symm]
  · split
    · next h1 h2 =>
      have a1 : ¬ (0xC0 + n / 64 < 0x80) := by omega
      have a2 : (decide (0xC2 ≤ 0xC0 + n / 64) && decide (0xC0 + n / 64 ≤ 0xDF)) = true := by
        simp; omega
      have a3 : isCont (0x80 + n % 64) = true := by simp [isCont]; omega
      simp only [List.cons_append, List.nil_append]
      rw [utf8Decode, if_neg a1, if_pos a2]
      simp only [a3, if_true]
      rw [ofNat_of_toNat c _ (by omega)]
    · split
      · next h1 h2 h3 =>
        have a1 : ¬ (0xE0 + n / 4096 < 0x80) := by omega
        have a2 : ¬ (decide (0xC2 ≤ 0xE0 + n / 4096) && decide (0xE0 + n / 4096 ≤ 0xDF)) = true := by
          simp; omega
        have a3 : (decide (0xE0 ≤ 0xE0 + n / 4096) && decide (0xE0 + n / 4096 ≤ 0xEF)) = true := by
          simp; omega
        have a4 : ok3 (0xE0 + n / 4096) (0x80 + n / 64 % 64) = true := by
          unfold ok3
          split
          · simp; omega
          · split
            · simp; omega
            · simp [isCont]; omega
        have a5 : isCont (0x80 + n % 64) = true := by simp [isCont]; omega
        simp only [List.cons_append, List.nil_append]
        rw [utf8Decode, if_neg a1, if_neg a2, if_pos a3]
        simp only [a4, a5, if_true]
        rw [ofNat_of_toNat c _ (by omega)]
      · next h1 h2 h3 =>
        have a1 : ¬ (0xF0 + n / 262144 < 0x80) := by omega
        have a2 : ¬ (decide (0xC2 ≤ 0xF0 + n / 262144) && decide (0xF0 + n / 262144 ≤ 0xDF)) = true := by
          simp; omega
        have a3 : ¬ (decide (0xE0 ≤ 0xF0 + n / 262144) && decide (0xF0 + n / 262144 ≤ 0xEF)) = true := by
          simp; omega
        have a3' : (decide (0xF0 ≤ 0xF0 + n / 262144) && decide (0xF0 + n / 262144 ≤ 0xF4)) = true := by
          simp; omega
        have a4 : ok4 (0xF0 + n / 262144) (0x80 + n / 4096 % 64) = true := by
          unfold ok4
          split
          · simp; omega
          · split
            · simp; omega
            · simp [isCont]; omega
        have a5 : isCont (0x80 + n / 64 % 64) = true := by simp [isCont]; omega
        have a6 : isCont (0x80 + n % 64) = true := by simp [isCont]; omega
        simp only [List.cons_append, List.nil_append]
        rw [utf8Decode, if_neg a1, if_neg a2, if_neg a3, if_pos a3']
        simp only [a4, a5, a6, if_true]
        rw [ofNat_of_toNat c _ (by omega)]

/-- Decoding the encoding of any string gives the string back. -/
theorem utf8Decode_encode_append (s : List Char) (rest : List Nat) :
    utf8Decode (utf8Encode s ++ rest) = s ++ utf8Decode rest := by
  induction s with
  | nil => rfl
  | cons c s ih =>
    simp only [utf8Encode, List.flatMap_cons, List.append_assoc] at ih ⊢
    rw [utf8Decode_char, ih]; rfl

theorem utf8Decode_encode (s : List Char) : utf8Decode (utf8Encode s) = s := by
  have := utf8Decode_encode_append s []
  simpa [utf8Decode] using this

theorem utf8Char_lt (c : Char) : ∀ b ∈ utf8Char c, b < 256 := by
  have hv := Char.toNat_valid c
  unfold utf8Char
  generalize c.toNat = n at *
  simp only []
  intro b hb
  split at hb
  · simp at hb; omega
  · split at hb
    · simp at hb; omega
    · split at hb <;> simp at hb <;> omega

theorem utf8Encode_lt (s : List Char) : ∀ b ∈ utf8Encode s, b < 256 := by
  intro b hb
  obtain ⟨c, _, hc⟩ := List.mem_flatMap.1 hb
  exact utf8Char_lt c b hc

end Verif
