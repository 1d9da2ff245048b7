import Verif.Py.UrlLemmas
import Verif.Model.Message

/-!
# C124: percent-encoded text of any origin
-/

namespace Verif

/-- a hexadecimal digit of `n`, in either case -/
def IsHex (c : Char) (n : Nat) : Prop :=
  n < 16 ∧ (c.toNat = 48 + n ∧ n < 10 ∨ c.toNat = 55 + n ∧ 10 ≤ n ∨ c.toNat = 87 + n ∧ 10 ≤ n)

/-- `t` is some percent encoding of the bytes: each byte is written as `%` with two hexadecimal digits, or as itself
when it is an ASCII character other than `%` and `+`, or as `+` when it is a space. -/
inductive Encodes : List Nat → List Char → Prop
  | nil : Encodes [] []
  | hex {b a c bs t} : IsHex a (b / 16) → IsHex c (b % 16) → Encodes bs t → Encodes (b :: bs) ('%' :: a :: c :: t)
  | plus {bs t} : Encodes bs t → Encodes (32 :: bs) ('+' :: t)
  | raw {c bs t} : c.toNat < 128 → c ≠ '%' → c ≠ '+' → Encodes bs t → Encodes (c.toNat :: bs) (c :: t)

theorem hexVal_isHex {c : Char} {n : Nat} (h : IsHex c n) : hexVal? c = some n := by
  obtain ⟨h1, h2 | h2 | h2⟩ := h <;> unfold hexVal? <;> simp only [Bool.and_eq_true, decide_eq_true_eq]
  · rw [if_pos (by omega)]; congr 1; omega
  · rw [if_neg (by omega), if_pos (by omega)]; congr 1; omega
  · rw [if_neg (by omega), if_neg (by omega), if_pos (by omega)]; congr 1; omega

theorem isHex_plus {c : Char} {n : Nat} (h : IsHex c n) : plusToSpace c = c ∧ c.toNat < 128 := by
  have : c ≠ '+' := by
    rintro rfl
    obtain ⟨h1, h2⟩ := h
    have : ('+' : Char).toNat = 43 := rfl
    omega
  refine ⟨by simp [plusToSpace, this], ?_⟩
  obtain ⟨h1, h2⟩ := h
  omega

theorem encodes_bytes {bs : List Nat} {t : List Char} (h : Encodes bs t) :
    unquoteBytes (t.map plusToSpace) = bs ∧ ∀ c ∈ t, c.toNat < 128 := by
  induction h with
  | nil => simp [unquoteBytes]
  | @hex b a c bs t ha hc _ ih =>
    refine ⟨?_, ?_⟩
    · simp only [List.map_cons, show plusToSpace '%' = '%' by decide, (isHex_plus ha).1, (isHex_plus hc).1, unquoteBytes,
        if_true, hexVal_isHex ha, hexVal_isHex hc, ih.1]
      congr 1; omega
    · simp only [List.mem_cons, forall_eq_or_imp]
      exact ⟨by decide, (isHex_plus ha).2, (isHex_plus hc).2, ih.2⟩
  | plus _ ih =>
    refine ⟨?_, ?_⟩
    · simp only [List.map_cons, show plusToSpace '+' = ' ' by decide]
      rw [unquoteBytes.eq_def]
      simp only [show (' ' : Char) ≠ '%' by decide, if_false, ih.1]
      rfl
    · simp only [List.mem_cons, forall_eq_or_imp]
      exact ⟨by decide, ih.2⟩
  | @raw c bs t h1 h2 h3 _ ih =>
    refine ⟨?_, ?_⟩
    · simp only [List.map_cons, show plusToSpace c = c by simp [plusToSpace, h3]]
      rw [unquoteBytes.eq_def]
      simp only [h2, if_false, ih.1]
    · simp only [List.mem_cons, forall_eq_or_imp]
      exact ⟨h1, ih.2⟩

/-- C124: whichever encoding of a text the sender chose, the text is read. -/
theorem C124_any_encoder {s t : List Char} (h : Encodes (utf8Encode s) t) : unquotePlusC t = s := by
  obtain ⟨h1, h2⟩ := encodes_bytes h
  unfold unquotePlusC
  rw [unquoteRuns_ascii]
  · simp only [List.reverse_nil, List.nil_append, h1, utf8Decode_encode]
  · intro c hc
    obtain ⟨d, hd, rfl⟩ := List.mem_map.1 hc
    exact plusToSpace_lt (h2 d hd)

theorem ofNat_valid {n : Nat} (h : n < 0xD800 ∨ (0xDFFF < n ∧ n < 0x110000)) : (Char.ofNat n).toNat = n := by
  unfold Char.ofNat
  rw [dif_pos (show n.isValidChar from h)]
  rfl

/-- the ASCII characters of a text -/
def asciiOf (s : List Char) : List Char := s.filter (fun c => decide (c.toNat < 128))

theorem asciiOf_other {n : Nat} (h : 128 ≤ n) (hv : n < 0xD800 ∨ (0xDFFF < n ∧ n < 0x110000)) (s : List Char) :
    asciiOf (Char.ofNat n :: s) = asciiOf s := by
  simp only [asciiOf, List.filter_cons, ofNat_valid hv]
  rw [if_neg (by simp; omega)]

theorem asciiOf_repl (s : List Char) : asciiOf (replChar :: s) = asciiOf s :=
  asciiOf_other (by omega) (by omega) s

theorem isCont_iff {b : Nat} : isCont b = true ↔ 0x80 ≤ b ∧ b ≤ 0xBF := by simp [isCont]

theorem ok3_bounds {b c : Nat} (h : ok3 b c = true) (h1 : 0xE0 ≤ b) (h2 : b ≤ 0xEF) : 0x80 ≤ c ∧ c ≤ 0xBF ∧
    (b = 0xE0 → 0xA0 ≤ c) ∧ (b = 0xED → c ≤ 0x9F) := by
  unfold ok3 at h
  split at h
  · simp at h; omega
  · split at h
    · simp at h; omega
    · rw [isCont_iff] at h; omega

theorem ok4_bounds {b c : Nat} (h : ok4 b c = true) (h1 : 0xF0 ≤ b) (h2 : b ≤ 0xF4) : 0x80 ≤ c ∧ c ≤ 0xBF ∧
    (b = 0xF0 → 0x90 ≤ c) ∧ (b = 0xF4 → c ≤ 0x8F) := by
  unfold ok4 at h
  split at h
  · simp at h; omega
  · split at h
    · simp at h; omega
    · rw [isCont_iff] at h; omega

/-- the ASCII characters of bytes -/
def asciiBytes (bs : List Nat) : List Char := (bs.filter (fun b => decide (b < 128))).map Char.ofNat

theorem asciiBytes_low {b : Nat} (h : b < 128) (bs : List Nat) : asciiBytes (b :: bs) = Char.ofNat b :: asciiBytes bs := by
  simp [asciiBytes, h]

theorem asciiBytes_high {b : Nat} (h : 128 ≤ b) (bs : List Nat) : asciiBytes (b :: bs) = asciiBytes bs := by
  simp only [asciiBytes, List.filter_cons]
  rw [if_neg (by simp; omega)]

theorem utf8Decode_ascii : (n : Nat) → (bs : List Nat) → bs.length ≤ n → asciiOf (utf8Decode bs) = asciiBytes bs := by
  intro n
  induction n with
  | zero =>
    intro bs h
    cases bs with
    | nil => simp [utf8Decode, asciiOf, asciiBytes]
    | cons b bs => simp at h
  | succ n ih =>
    intro bs h
    cases bs with
    | nil => simp [utf8Decode, asciiOf, asciiBytes]
    | cons b rest =>
      have hr : rest.length ≤ n := by simpa using h
      have nil : asciiOf [replChar] = asciiBytes [] := by rw [asciiOf_repl]; rfl
      rw [utf8Decode.eq_def]
      simp only []
      split
      · rename_i hb
        rw [asciiBytes_low hb, ← ih rest hr]
        simp only [asciiOf, List.filter_cons, ofNat_valid (show b < 0xD800 ∨ _ by omega), hb, decide_true, if_true]
      · rename_i hb
        rw [asciiBytes_high (by omega)]
        split
        · rename_i h2
          simp only [Bool.and_eq_true, decide_eq_true_eq] at h2
          split
          · exact nil
          · rename_i c r
            simp only [List.length_cons] at hr
            split
            · rename_i hc
              rw [isCont_iff] at hc
              rw [asciiOf_other (by omega) (by omega), asciiBytes_high (by omega), ih r (by omega)]
            · rw [asciiOf_repl, ih _ (by simp; omega)]
        · split
          · rename_i h3
            simp only [Bool.and_eq_true, decide_eq_true_eq] at h3
            split
            · exact nil
            · rename_i c
              split
              · rename_i hc
                have := ok3_bounds hc h3.1 h3.2
                rw [asciiBytes_high (by omega)]; exact nil
              · rw [asciiOf_repl, ih _ (by simpa using hr)]
            · rename_i c d r
              simp only [List.length_cons] at hr
              split
              · rename_i hc
                have := ok3_bounds hc h3.1 h3.2
                rw [asciiBytes_high (by omega)]
                split
                · rename_i hd
                  rw [isCont_iff] at hd
                  rw [asciiOf_other (by omega) (by omega), asciiBytes_high (by omega), ih r (by omega)]
                · rw [asciiOf_repl, ih _ (by simp; omega)]
              · rw [asciiOf_repl, ih _ (by simp; omega)]
          · split
            · rename_i h4
              simp only [Bool.and_eq_true, decide_eq_true_eq] at h4
              split
              · exact nil
              · rename_i c
                split
                · rename_i hc
                  have := ok4_bounds hc h4.1 h4.2
                  rw [asciiBytes_high (by omega)]; exact nil
                · rw [asciiOf_repl, ih _ (by simpa using hr)]
              · rename_i c d
                simp only [List.length_cons, List.length_nil] at hr
                split
                · rename_i hc
                  have := ok4_bounds hc h4.1 h4.2
                  rw [asciiBytes_high (by omega)]
                  split
                  · rename_i hd
                    rw [isCont_iff] at hd
                    rw [asciiBytes_high (by omega)]; exact nil
                  · rw [asciiOf_repl, ih _ (by simp; omega)]
                · rw [asciiOf_repl, ih _ (by simp; omega)]
              · rename_i c d e r
                simp only [List.length_cons] at hr
                split
                · rename_i hc
                  have := ok4_bounds hc h4.1 h4.2
                  rw [asciiBytes_high (by omega)]
                  split
                  · rename_i hd
                    rw [isCont_iff] at hd
                    rw [asciiBytes_high (by omega)]
                    split
                    · rename_i he
                      rw [isCont_iff] at he
                      rw [asciiOf_other (by omega) (by omega), asciiBytes_high (by omega), ih r (by omega)]
                    · rw [asciiOf_repl, ih _ (by simp; omega)]
                  · rw [asciiOf_repl, ih _ (by simp; omega)]
                · rw [asciiOf_repl, ih _ (by simp; omega)]
            · rw [asciiOf_repl, ih _ hr]

/-- C124: an ill-formed sequence never swallows or produces an ASCII character: whatever the bytes and however they are
encoded, the ASCII characters of the text read are the bytes below 128, in their order. -/
theorem C124_ascii {bs : List Nat} {t : List Char} (h : Encodes bs t) : asciiOf (unquotePlusC t) = asciiBytes bs := by
  obtain ⟨h1, h2⟩ := encodes_bytes h
  unfold unquotePlusC
  rw [unquoteRuns_ascii]
  · simp only [List.reverse_nil, List.nil_append, h1]
    exact utf8Decode_ascii _ _ (Nat.le_refl _)
  · intro c hc
    obtain ⟨d, hd, rfl⟩ := List.mem_map.1 hc
    exact plusToSpace_lt (h2 d hd)

theorem decode_plain (s : List Char) (h : ∀ c ∈ s, c.toNat < 128 ∧ c ≠ '%') : utf8Decode (unquoteBytes s) = s := by
  induction s with
  | nil => simp [unquoteBytes, utf8Decode]
  | cons c s ih =>
    obtain ⟨h1, h2⟩ := h c (by simp)
    rw [unquoteBytes.eq_def]
    simp only [h2, if_false]
    rw [utf8Decode.eq_def]
    simp only [h1, if_true, Char.ofNat_toNat, ih (fun d hd => h d (List.mem_cons_of_mem _ hd))]

theorem unquoteRuns_plain (acc s : List Char) (ha : ∀ c ∈ acc, c.toNat < 128 ∧ c ≠ '%') (h : '%' ∉ s) :
    unquoteRuns acc s = acc.reverse ++ s := by
  induction s generalizing acc with
  | nil =>
    rw [unquoteRuns, decode_plain _ (fun c hc => ha c (List.mem_reverse.1 hc)), List.append_nil]
  | cons c s ih =>
    simp only [List.mem_cons, not_or] at h
    rw [unquoteRuns]
    split
    · rename_i hc
      rw [ih _ _ h.2]
      · simp
      · intro d hd
        rcases List.mem_cons.1 hd with rfl | hd
        · exact ⟨hc, fun e => h.1 e.symm⟩
        · exact ha d hd
    · rw [decode_plain _ (fun c hc => ha c (List.mem_reverse.1 hc)), ih [] (by simp) h.2]
      rfl

/-- C124: text of any script without `%` and `+` is read as it stands. -/
theorem C124_plain (s : List Char) (h1 : '%' ∉ s) (h2 : '+' ∉ s) : unquotePlusC s = s := by
  unfold unquotePlusC
  have e : s.map plusToSpace = s := by
    have hid : ∀ l : List Char, '+' ∉ l → l.map plusToSpace = l := by
      intro l
      induction l with
      | nil => intro _; rfl
      | cons c l ih =>
        intro h
        simp only [List.mem_cons, not_or] at h
        rw [List.map_cons, ih h.2, plusToSpace, if_neg (fun e => h.1 e.symm)]
    exact hid s h2
  rw [e, unquoteRuns_plain [] s (by simp) h1]
  rfl

example : unquotePlusC "naïve é=".toList = "naïve é=".toList := C124_plain _ (by decide) (by decide)

/-- `t` is a form-encoded pair of some sender. -/
def EncodedPair (p : String × String) (t : List Char) : Prop :=
  ∃ n v, t = n ++ '=' :: v ∧ Encodes (utf8Encode p.1.toList) n ∧ Encodes (utf8Encode p.2.toList) v ∧ '=' ∉ n ∧ '&' ∉ n ∧
    '&' ∉ v

theorem encodes_empty {bs : List Nat} {t : List Char} (h : Encodes bs t) : t = [] ↔ bs = [] := by
  cases h <;> simp

theorem utf8Encode_empty {s : List Char} : utf8Encode s = [] ↔ s = [] := by
  constructor
  · intro h
    rw [← utf8Decode_encode s, h]
    simp [utf8Decode]
  · rintro rfl; rfl

theorem parsePiece_pair {p : String × String} {t : List Char} (h : EncodedPair p t) :
    parsePiece t = if p.2 = "" then none else some (p.1.toList, p.2.toList) := by
  obtain ⟨n, v, rfl, hn, hv, h1, _, _⟩ := h
  unfold parsePiece
  rw [splitEq_append h1]
  simp only [C124_any_encoder hn, C124_any_encoder hv, List.isEmpty_iff, encodes_empty hv, utf8Encode_empty,
    String.toList_eq_nil_iff]

/-- C124: a form of any sender gives the pairs it was made of, without the blank ones. -/
theorem C124_pairs (ts : List ((String × String) × List Char)) (h : ∀ x ∈ ts, EncodedPair x.1 x.2) :
    parseQsl (String.ofList (joinC '&' (ts.map (·.2)))) = (ts.map (·.1)).filter (fun p => !decide (p.2 = "")) := by
  unfold parseQsl parseQslC
  rw [String.toList_ofList]
  by_cases hts : ts = []
  · subst hts; rfl
  · rw [splitC_joinC (by simpa using hts)]
    · clear hts
      induction ts with
      | nil => rfl
      | cons x ts ih =>
        have hx := parsePiece_pair (h x (by simp))
        have hr := ih (fun y hy => h y (List.mem_cons_of_mem _ hy))
        simp only [List.map_cons, List.filterMap_cons, hx, List.filter_cons]
        by_cases he : x.1.2 = ""
        · simp only [he, if_true, decide_true, Bool.not_true, Bool.false_eq_true, if_false]
          exact hr
        · simp only [he, if_false, decide_false, Bool.not_false, if_true, List.map_cons, hr, String.ofList_toList]
    · intro q hq
      obtain ⟨x, hx, rfl⟩ := List.mem_map.1 hq
      obtain ⟨n, v, e, _, _, _, h2, h3⟩ := h x hx
      rw [e]
      simp only [List.mem_append, List.mem_cons, not_or]
      exact ⟨h2, by decide, h3⟩

theorem joinC_empty {ts : List (List Char)} (h : ∀ t ∈ ts, t ≠ []) : joinC '&' ts = [] ↔ ts = [] := by
  match ts with
  | [] => simp [joinC]
  | [t] => simpa [joinC] using h t (by simp)
  | t :: u :: us => simp [joinC]

/-- C124: a message is read alike from the form of any sender and from the library's own. -/
theorem C124_message (sch : Schema) (st : Dict) (ts : List ((String × String) × List Char))
    (h : ∀ x ∈ ts, EncodedPair x.1 x.2) :
    fromUrlencoded sch st (String.ofList (joinC '&' (ts.map (·.2)))) = fromUrlencoded sch st (urlencode (ts.map (·.1))) := by
  have hq : parseQs (String.ofList (joinC '&' (ts.map (·.2)))) = parseQs (urlencode (ts.map (·.1))) := by
    unfold parseQs
    rw [C124_pairs ts h, parseQsl_urlencode]
  have he : String.ofList (joinC '&' (ts.map (·.2))) = "" ↔ urlencode (ts.map (·.1)) = "" := by
    unfold urlencode urlencodeC
    rw [String.ofList_eq_empty_iff, String.ofList_eq_empty_iff, joinC_empty, joinC_empty]
    · simp
    · intro t ht
      obtain ⟨x, _, rfl⟩ := List.mem_map.1 ht
      simp
    · intro t ht
      obtain ⟨x, hx, rfl⟩ := List.mem_map.1 ht
      obtain ⟨n, v, e, _⟩ := h x hx
      rw [e]; simp
  unfold fromUrlencoded
  simp only [hq, ne_eq, he]

/-- `café` written with lower-case digits and a needless escape -/
example : Encodes (utf8Encode "café a".toList) "%63af%c3%A9+a".toList := by
  have : utf8Encode "café a".toList = [0x63, 'a'.toNat, 'f'.toNat, 0xc3, 0xa9, 32, 'a'.toNat] := by decide +kernel
  rw [this]
  exact .hex ⟨by decide, by decide⟩ ⟨by decide, by decide⟩ (.raw (by decide) (by decide) (by decide)
    (.raw (by decide) (by decide) (by decide) (.hex ⟨by decide, by decide⟩ ⟨by decide, by decide⟩
      (.hex ⟨by decide, by decide⟩ ⟨by decide, by decide⟩ (.plus (.raw (by decide) (by decide) (by decide) .nil))))))

example : unquotePlusC "%63af%c3%A9+a".toList = "café a".toList := by decide +kernel
/-- a lead byte followed by a quote -/
example : unquotePlusC "%F0%22".toList = [replChar, '"'] := by decide +kernel

end Verif
