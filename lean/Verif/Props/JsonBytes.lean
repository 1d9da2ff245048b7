import Verif.Model.JsonBytes
import Verif.Props.JsonIndent

/-!
# C149: JSON documents given as bytes

A document is the same document in each of the encodings of Unicode, with or without a byte order mark, and nothing else is read.
-/

namespace Verif

/-! ## UTF-16 and UTF-32 are inverted by their decoders -/

/-- the code units of a character -/
def unitsOf (c : Char) : List Nat :=
  if c.toNat < 0x10000 then [c.toNat] else [0xD800 + (c.toNat - 0x10000) / 0x400, 0xDC00 + (c.toNat - 0x10000) % 0x400]

theorem utf16Char_units (be : Bool) (c : Char) : utf16Char be c = (unitsOf c).flatMap (bytes2 be) := by
  unfold utf16Char unitsOf
  split <;> simp

theorem units16_bytes2 (be : Bool) (n : Nat) (r : List Nat) :
    units16 be (bytes2 be n ++ r) = (units16 be r).map (fun l => n :: l) := by
  cases be <;> simp only [bytes2, Bool.false_eq_true, if_false, if_true, List.cons_append, List.nil_append, units16] <;>
    congr 1 <;> funext l <;> congr 1 <;> omega

theorem units16_all (be : Bool) : ∀ l, units16 be (l.flatMap (bytes2 be)) = some l
  | [] => rfl
  | n :: l => by
    rw [List.flatMap_cons, units16_bytes2, units16_all be l]
    rfl

theorem chars16_unit (c : Char) (l : List Nat) (s : List Char) (h : chars16 l = .ok s) :
    chars16 (unitsOf c ++ l) = .ok (c :: s) := by
  have hv := Char.toNat_valid c
  unfold unitsOf
  split
  · next hs =>
    have hs' : c.toNat < 0xD800 ∨ 0xE000 ≤ c.toNat := by omega
    cases l with
    | nil => cases h; simp only [List.append_nil, chars16, hs', if_true, Char.ofNat_toNat]
    | cons m r =>
      simp only [List.cons_append, List.nil_append, chars16, hs', if_true, h, Char.ofNat_toNat]
      rfl
  · next hs =>
    have h1 : ¬ (0xD800 + (c.toNat - 0x10000) / 0x400 < 0xD800 ∨ 0xE000 ≤ 0xD800 + (c.toNat - 0x10000) / 0x400) := by omega
    have h2 : 0xD800 + (c.toNat - 0x10000) / 0x400 < 0xDC00 ∧ 0xDC00 ≤ 0xDC00 + (c.toNat - 0x10000) % 0x400 ∧
      0xDC00 + (c.toNat - 0x10000) % 0x400 < 0xE000 := by omega
    simp only [List.cons_append, List.nil_append, chars16, h1, if_false, h2, and_self, if_true, h]
    have : Char.ofNat (0x10000 + (0xD800 + (c.toNat - 0x10000) / 0x400 - 0xD800) * 0x400 +
        (0xDC00 + (c.toNat - 0x10000) % 0x400 - 0xDC00)) = c := ofNat_of_toNat c _ (by omega)
    rw [this]
    rfl

theorem chars16_all : ∀ s : List Char, chars16 (s.flatMap unitsOf) = .ok s
  | [] => rfl
  | c :: s => by
    rw [List.flatMap_cons]
    exact chars16_unit c _ s (chars16_all s)

theorem decode16_encode (be : Bool) (s : List Char) : decode16 be (s.flatMap (utf16Char be)) = .ok s := by
  have e : s.flatMap (utf16Char be) = (s.flatMap unitsOf).flatMap (bytes2 be) := by
    rw [List.flatMap_assoc]
    congr 1
    funext c
    exact utf16Char_units be c
  rw [e, decode16, units16_all]
  exact chars16_all s

theorem decode32_encode (be : Bool) : ∀ s : List Char, decode32 be (s.flatMap (utf32Char be)) = .ok s
  | [] => rfl
  | c :: s => by
    have hv := Char.toNat_valid c
    have ih := decode32_encode be s
    have hn : c.toNat < 0xD800 ∨ (0xE000 ≤ c.toNat ∧ c.toNat < 0x110000) := by omega
    rw [List.flatMap_cons]
    cases be with
    | true =>
      have e : ((c.toNat / 16777216 * 256 + c.toNat / 65536 % 256) * 256 + c.toNat / 256 % 256) * 256 + c.toNat % 256 = c.toNat := by
        omega
      simp only [utf32Char, bytes4, if_true, List.cons_append, List.nil_append, decode32, fromBytes4, e, hn, Char.ofNat_toNat]
      rw [ih]; rfl
    | false =>
      have e : ((c.toNat / 16777216 * 256 + c.toNat / 65536 % 256) * 256 + c.toNat / 256 % 256) * 256 + c.toNat % 256 = c.toNat := by
        omega
      simp only [utf32Char, bytes4, Bool.false_eq_true, if_false, List.cons_append, List.nil_append, decode32, fromBytes4, e, hn, if_true,
        Char.ofNat_toNat]
      rw [ih]; rfl

theorem decodeAs_encode (e : Enc) (s : List Char) : decodeAs e (encodeAs e s) = .ok s := by
  unfold decodeAs encodeAs
  rw [List.drop_left]
  cases e with
  | utf8 bom => simp only [decodeBody, bodyOf, decode8, utf8Decode_encode, if_true]
  | utf16 be bom => exact decode16_encode be s
  | utf32 be bom => exact decode32_encode be s

/-! ## what is decoded is what was encoded -/

theorem units16_sound {be : Bool} : ∀ {b l : List Nat}, units16 be b = some l → (∀ x ∈ b, x < 256) →
    b = l.flatMap (bytes2 be) ∧ ∀ n ∈ l, n < 0x10000
  | [], l, h, _ => by cases h; simp
  | [_], l, h, _ => by cases h
  | x :: y :: r, l, h, hb => by
    simp only [units16, Option.map_eq_some_iff] at h
    obtain ⟨l', h, rfl⟩ := h
    obtain ⟨e, hl⟩ := units16_sound h (fun z hz => hb z (by simp [hz]))
    have hx := hb x (by simp)
    have hy := hb y (by simp)
    constructor
    · rw [List.flatMap_cons, ← e]
      cases be
      · simp only [bytes2, Bool.false_eq_true, if_false, List.cons_append, List.nil_append, List.cons.injEq, and_true]
        omega
      · simp only [bytes2, if_true, List.cons_append, List.nil_append, List.cons.injEq, and_true]
        omega
    · intro n hn
      simp only [List.mem_cons] at hn
      rcases hn with rfl | hn
      · split <;> omega
      · exact hl n hn

theorem chars16_sound : ∀ {l : List Nat} {s : List Char}, chars16 l = .ok s → (∀ n ∈ l, n < 0x10000) → l = s.flatMap unitsOf
  | [], s, h, _ => by cases h; rfl
  | [n], s, h, hl => by
    have hn := hl n (by simp)
    simp only [chars16] at h
    split at h
    · cases h
      have e := toNat_ofNat (n := n) (by unfold Nat.isValidChar; omega)
      simp [unitsOf, e, hn]
    · cases h
  | n :: m :: r, s, h, hl => by
    have hn := hl n (by simp)
    have hm := hl m (by simp)
    simp only [chars16] at h
    split at h
    · cases h' : chars16 (m :: r) with
      | error e => rw [h'] at h; cases h
      | ok s' =>
        rw [h'] at h
        cases h
        have ih := chars16_sound h' (fun z hz => hl z (by simp [List.mem_cons.1 hz]))
        have e := toNat_ofNat (n := n) (by unfold Nat.isValidChar; omega)
        rw [List.flatMap_cons, ← ih]
        simp [unitsOf, e, hn]
    · split at h
      · cases h' : chars16 r with
        | error e => rw [h'] at h; cases h
        | ok s' =>
          rw [h'] at h
          cases h
          have ih := chars16_sound h' (fun z hz => hl z (by simp [hz]))
          have e := toNat_ofNat (n := 0x10000 + (n - 0xD800) * 0x400 + (m - 0xDC00)) (by unfold Nat.isValidChar; omega)
          rw [List.flatMap_cons, ← ih]
          unfold unitsOf
          rw [e, if_neg (by omega)]
          simp only [List.cons_append, List.nil_append, List.cons.injEq, and_true]
          omega
      · cases h

theorem decode16_sound {be : Bool} {b : List Nat} {s : List Char} (h : decode16 be b = .ok s) (hb : ∀ x ∈ b, x < 256) :
    b = s.flatMap (utf16Char be) := by
  unfold decode16 at h
  split at h
  · cases h
  · next l hl =>
    obtain ⟨e, hn⟩ := units16_sound hl hb
    have e' := chars16_sound h hn
    rw [e, e', List.flatMap_assoc]
    congr 1
    funext c
    exact (utf16Char_units be c).symm

theorem decode32_sound {be : Bool} : ∀ {b : List Nat} {s : List Char}, decode32 be b = .ok s → (∀ x ∈ b, x < 256) →
    b = s.flatMap (utf32Char be)
  | [], s, h, _ => by cases h; rfl
  | [_], s, h, _ => by cases h
  | [_, _], s, h, _ => by cases h
  | [_, _, _], s, h, _ => by cases h
  | w :: x :: y :: z :: r, s, h, hb => by
    have hw := hb w (by simp)
    have hx := hb x (by simp)
    have hy := hb y (by simp)
    have hz := hb z (by simp)
    simp only [decode32] at h
    split at h
    · next hv =>
      cases h' : decode32 be r with
      | error e => rw [h'] at h; cases h
      | ok s' =>
        rw [h'] at h
        cases h
        have ih := decode32_sound h' (fun v hv => hb v (by simp [hv]))
        rw [List.flatMap_cons, ← ih]
        cases be
        · simp only [fromBytes4, Bool.false_eq_true, if_false] at hv ⊢
          rw [utf32Char, toNat_ofNat (by unfold Nat.isValidChar; omega)]
          simp only [bytes4, Bool.false_eq_true, if_false, List.cons_append, List.nil_append, List.cons.injEq, and_true]
          omega
        · simp only [fromBytes4, if_true] at hv ⊢
          rw [utf32Char, toNat_ofNat (by unfold Nat.isValidChar; omega)]
          simp only [bytes4, if_true, List.cons_append, List.nil_append, List.cons.injEq, and_true]
          omega
    · split at h <;> cases h

theorem decodeBody_sound {e : Enc} {b : List Nat} {s : List Char} (h : decodeBody e b = .ok s) (hb : ∀ x ∈ b, x < 256) :
    b = bodyOf e s := by
  cases e with
  | utf8 bom =>
    simp only [decodeBody, decode8] at h
    split at h
    · next he => cases h; exact he.symm
    · split at h <;> cases h
  | utf16 be bom => exact decode16_sound h hb
  | utf32 be bom => exact decode32_sound h hb

/-- the mark of the detected encoding is there -/
theorem detect_bom (b : List Nat) : bomOf (detectEncoding b) <+: b := by
  unfold detectEncoding
  repeat' split
  all_goals first
    | exact List.nil_prefix
    | (simp only [bomOf]; apply List.isPrefixOf_iff_prefix.1; assumption)

theorem decodeAs_sound {b : List Nat} {s : List Char} (h : decodeAs (detectEncoding b) b = .ok s) (hb : ∀ x ∈ b, x < 256) :
    b = encodeAs (detectEncoding b) s := by
  obtain ⟨t, ht⟩ := detect_bom b
  unfold decodeAs at h
  have hd : b.drop (bomOf (detectEncoding b)).length = t := by
    have := List.drop_left (l₁ := bomOf (detectEncoding b)) (l₂ := t)
    rwa [ht] at this
  rw [hd] at h
  have := decodeBody_sound h (fun x hx => hb x (by rw [← ht]; simp [hx]))
  unfold encodeAs
  rw [← this, ht]

/-! ## the encoding of a document is detected -/

/-- without the character NUL -/
def NoNul (s : List Char) : Prop := ∀ c ∈ s, c.toNat ≠ 0

theorem NoNul.append {s t : List Char} (hs : NoNul s) (ht : NoNul t) : NoNul (s ++ t) := by
  intro c hc
  rcases List.mem_append.1 hc with h | h
  · exact hs c h
  · exact ht c h

theorem NoNul.cons {c : Char} {t : List Char} (hs : c.toNat ≠ 0) (ht : NoNul t) : NoNul (c :: t) :=
  NoNul.append (s := [c]) (by intro x hx; simp at hx; exact hx ▸ hs) ht

theorem noNul_nil : NoNul [] := by intro c hc; cases hc

theorem Blank.noNul {w : List Char} (h : Blank w) : NoNul w := by
  intro c hc
  rcases h c hc with rfl | rfl | rfl | rfl <;> decide

theorem HexDigit.ne_nul {c : Char} {n : Nat} (h : HexDigit c n) : c.toNat ≠ 0 := by
  have e0 : '0'.toNat = 48 := rfl
  have eA : 'A'.toNat = 65 := rfl
  have ea : 'a'.toNat = 97 := rfl
  cases h <;> omega

theorem UnitText.noNul {n : Nat} {s : List Char} (h : UnitText n s) : NoNul s := by
  cases h with
  | mk a b c d =>
    exact .cons (by decide) (.cons (by decide) (.cons a.ne_nul (.cons b.ne_nul (.cons c.ne_nul (.cons d.ne_nul noNul_nil)))))

theorem CharText.noNul {c : Char} {s : List Char} (h : CharText c s) : NoNul s := by
  cases h with
  | plain h => exact .cons (by omega) noNul_nil
  | unit h => exact h.noNul
  | pair h h' => exact h.noNul.append h'.noNul
  | _ => exact .cons (by decide) (.cons (by decide) noNul_nil)

theorem StrText.noNul {cs s : List Char} (h : StrText cs s) : NoNul s := by
  induction h with
  | nil => exact noNul_nil
  | cons h _ ih => exact h.noNul.append ih

theorem DigitsText.noNul {ds : List Char} (h : DigitsText ds) : NoNul ds := by
  intro c hc
  have := (h.2 c hc).1
  have e0 : '0'.toNat = 48 := rfl
  omega

theorem minusText_noNul (neg : Bool) : NoNul (minusText neg) := by
  cases neg
  · exact noNul_nil
  · exact .cons (by decide) noNul_nil

theorem NumberText.noNul {v : Val} {s : List Char} (h : NumberText v s) : NoNul s := by
  cases h with
  | int h => exact (minusText_noNul _).append h.1.noNul
  | flt h hf he =>
    refine (minusText_noNul _).append (h.1.noNul.append (.append ?_ ?_))
    · cases hf with
      | none => exact noNul_nil
      | some h => exact .cons (by decide) h.noNul
    · cases he with
      | none => exact noNul_nil
      | plain h h' => rcases h with rfl | rfl <;> exact .cons (by decide) h'.noNul
      | plus h h' => rcases h with rfl | rfl <;> exact .cons (by decide) (.cons (by decide) h'.noNul)
      | minus h h' => rcases h with rfl | rfl <;> exact .cons (by decide) (.cons (by decide) h'.noNul)

mutual
theorem ValueText.noNul {v : Val} {s : List Char} : ValueText v s → NoNul s
  | .null => by intro c hc; simp at hc; rcases hc with rfl | rfl | rfl <;> decide
  | .true => by intro c hc; simp at hc; rcases hc with rfl | rfl | rfl | rfl <;> decide
  | .false => by intro c hc; simp at hc; rcases hc with rfl | rfl | rfl | rfl | rfl <;> decide
  | .number h => h.noNul
  | .string h => .cons (by decide) (h.noNul.append (.cons (by decide) noNul_nil))
  | .emptyArray h => .cons (by decide) (h.noNul.append (.cons (by decide) noNul_nil))
  | .array h h' => .cons (by decide) (h.noNul.append (ElemsText.noNul h'))
  | .emptyObject h => .cons (by decide) (h.noNul.append (.cons (by decide) noNul_nil))
  | .object h h' => .cons (by decide) (h.noNul.append (MembersText.noNul h'))
theorem ElemsText.noNul {l : List Val} {s : List Char} : ElemsText l s → NoNul s
  | .last h hw => (ValueText.noNul h).append (hw.noNul.append (.cons (by decide) noNul_nil))
  | .more h hw hw' h' => (ValueText.noNul h).append (hw.noNul.append (.cons (by decide) (hw'.noNul.append (ElemsText.noNul h'))))
theorem MembersText.noNul {l : List (String × Val)} {s : List Char} : MembersText l s → NoNul s
  | .last hk h1 h2 h h3 => .cons (by decide) (hk.noNul.append (.cons (by decide) (h1.noNul.append (.cons (by decide)
      (h2.noNul.append ((ValueText.noNul h).append (h3.noNul.append (.cons (by decide) noNul_nil))))))))
  | .more hk h1 h2 h h3 h4 h' => .cons (by decide) (hk.noNul.append (.cons (by decide) (h1.noNul.append (.cons (by decide)
      (h2.noNul.append ((ValueText.noNul h).append (h3.noNul.append (.cons (by decide)
        (h4.noNul.append (MembersText.noNul h'))))))))))
end

theorem DigitsText.head {ds r : List Char} (h : DigitsText ds) : ∃ c t, ds ++ r = c :: t ∧ c.toNat < 128 := by
  cases ds with
  | nil => exact absurd rfl h.1
  | cons c t =>
    refine ⟨c, t ++ r, rfl, ?_⟩
    have := (h.2 c (by simp)).2
    have e : '9'.toNat = 57 := rfl
    omega

theorem NumberText.head {v : Val} {s r : List Char} (h : NumberText v s) : ∃ c t, s ++ r = c :: t ∧ c.toNat < 128 := by
  cases h with
  | @int neg ds h =>
    cases neg
    · exact h.1.head
    · exact ⟨'-', _, rfl, by decide⟩
  | @flt neg ds fr fs es x m h =>
    cases neg
    · simp only [minusText, Bool.false_eq_true, if_false, List.nil_append, List.append_assoc]
      exact h.1.head
    · exact ⟨'-', _, rfl, by decide⟩

theorem ValueText.head {v : Val} {s r : List Char} (h : ValueText v s) : ∃ c t, s ++ r = c :: t ∧ c.toNat < 128 := by
  cases h with
  | number h => exact h.head
  | _ => exact ⟨_, _, rfl, by decide⟩

/-- A document begins with an ASCII character and is without NUL. -/
theorem DocText.shape {v : Val} {s : List Char} (h : DocText v s) :
    ∃ c r, s = c :: r ∧ c.toNat < 128 ∧ c.toNat ≠ 0 ∧ NoNul r := by
  obtain ⟨w, t, w', hw, ht, hw', rfl⟩ := h
  have hn : NoNul (w ++ (t ++ w')) := hw.noNul.append (ht.noNul.append hw'.noNul)
  have : ∃ c r, w ++ (t ++ w') = c :: r ∧ c.toNat < 128 := by
    cases w with
    | nil => exact ht.head
    | cons c w =>
      refine ⟨c, _, rfl, ?_⟩
      rcases hw c (by simp) with rfl | rfl | rfl | rfl <;> decide
  obtain ⟨c, r, e, hc⟩ := this
  rw [e] at hn
  exact ⟨c, r, e, hc, hn c (by simp), fun x hx => hn x (by simp [hx])⟩

theorem utf8Char_ne_zero {c : Char} (h : c.toNat ≠ 0) : ∀ b ∈ utf8Char c, b ≠ 0 := by
  intro b hb
  unfold utf8Char at hb
  simp only at hb
  split at hb
  · simp at hb; omega
  · split at hb
    · simp at hb; omega
    · split at hb
      · simp at hb; omega
      · simp at hb; omega

theorem utf8Encode_ne_zero {s : List Char} (h : NoNul s) : ∀ b ∈ utf8Encode s, b ≠ 0 := by
  intro b hb
  unfold utf8Encode at hb
  obtain ⟨c, hc, hb⟩ := List.mem_flatMap.1 hb
  exact utf8Char_ne_zero (h c hc) b hb

theorem utf16Char_two (be : Bool) {c : Char} (h : c.toNat ≠ 0) :
    ∃ x y t, utf16Char be c = x :: y :: t ∧ ¬ (x = 0 ∧ y = 0) := by
  unfold utf16Char
  cases be <;> split <;> simp only [bytes2, Bool.false_eq_true, if_false, if_true, List.cons_append, List.nil_append] <;>
    exact ⟨_, _, _, rfl, by omega⟩

/-- the encoding of a document is recognised -/
theorem detect_encode (e : Enc) {c : Char} {r : List Char} (hc : c.toNat < 128) (h0 : c.toNat ≠ 0) (hr : NoNul r) :
    detectEncoding (encodeAs e (c :: r)) = e := by
  have d0 : c.toNat / 256 = 0 := by omega
  have m0 : c.toNat % 256 = c.toNat := by omega
  cases e with
  | utf8 bom =>
    have e8 : utf8Encode (c :: r) = c.toNat :: utf8Encode r := by
      simp [utf8Encode, utf8Char, hc]
    cases bom with
    | true =>
      simp [encodeAs, bomOf, detectEncoding, List.isPrefixOf]
    | false =>
      simp only [encodeAs, bomOf, bodyOf, List.nil_append, e8]
      have hz := utf8Encode_ne_zero hr
      have n1 : c.toNat ≠ 0xFF := by omega
      have n2 : c.toNat ≠ 0xFE := by omega
      have n3 : c.toNat ≠ 0xEF := by omega
      generalize utf8Encode r = l at hz ⊢
      match l, hz with
      | [], _ => simp [detectEncoding, List.isPrefixOf]
      | [x], hz => have := hz x (by simp); simp [detectEncoding, List.isPrefixOf, h0, this, n1.symm, n2.symm, n3.symm, h0.symm]
      | [x, y], hz => simp [detectEncoding, List.isPrefixOf, h0.symm, n1.symm, n2.symm, n3.symm]
      | x :: y :: z :: t, hz =>
        have := hz x (by simp)
        simp [detectEncoding, List.isPrefixOf, h0, this, h0.symm, n1.symm, n2.symm, n3.symm]
  | utf16 be bom =>
    have e16 : r.flatMap (utf16Char be) = [] ∨ ∃ x y t, r.flatMap (utf16Char be) = x :: y :: t ∧ ¬ (x = 0 ∧ y = 0) := by
      cases r with
      | nil => exact .inl rfl
      | cons d r =>
        obtain ⟨x, y, t, e, hxy⟩ := utf16Char_two be (hr d (by simp))
        exact .inr ⟨x, y, t ++ r.flatMap (utf16Char be), by rw [List.flatMap_cons, e]; rfl, hxy⟩
    have hl : c.toNat < 0x10000 := by omega
    have n1 : c.toNat ≠ 0xFF := by omega
    have n2 : c.toNat ≠ 0xFE := by omega
    have n3 : c.toNat ≠ 0xEF := by omega
    cases be <;> cases bom <;>
      simp only [encodeAs, bomOf, bodyOf, List.nil_append, List.flatMap_cons, List.cons_append] <;>
      rw [utf16Char, if_pos hl] <;>
      simp only [bytes2, d0, m0, Bool.false_eq_true, if_false, if_true, List.nil_append, List.cons_append] <;>
      rcases e16 with e | ⟨x, y, t, e, hxy⟩ <;> rw [e] <;>
      simp_all [detectEncoding, List.isPrefixOf, n1.symm, n2.symm, n3.symm, h0.symm]
  | utf32 be bom =>
    have d1 : c.toNat / 65536 = 0 := by omega
    have d2 : c.toNat / 16777216 = 0 := by omega
    have n1 : c.toNat ≠ 0xFF := by omega
    have n2 : c.toNat ≠ 0xFE := by omega
    have n3 : c.toNat ≠ 0xEF := by omega
    cases be <;> cases bom <;>
      simp [encodeAs, bomOf, bodyOf, List.flatMap_cons, utf32Char, bytes4, d0, d1, d2, m0, detectEncoding, List.isPrefixOf,
        n1.symm, n2.symm, n3.symm, h0, h0.symm]

/-! ## C149 -/

/-- **C149.**  Bytes are read as a value exactly if they are the text of a document of this value in one of the encodings. -/
theorem C149_bytes (b : List Nat) (hb : ∀ x ∈ b, x < 256) (v : Val) :
    loadsBytes b = .ok v ↔ ∃ e s, b = encodeAs e s ∧ DocText v s := by
  constructor
  · intro h
    unfold loadsBytes at h
    split at h
    · next s hs => exact ⟨_, s, decodeAs_sound hs hb, (C145_grammar s v).1 h⟩
    · cases h
  · rintro ⟨e, s, rfl, hd⟩
    obtain ⟨c, r, rfl, h1, h2, h3⟩ := hd.shape
    unfold loadsBytes
    rw [detect_encode e h1 h2 h3, decodeAs_encode]
    exact (C145_grammar _ v).2 hd

/-- **C149, messages.**  A document in any of the encodings is read as the message it is read as when it is given as text. -/
theorem C149_message (sch : Schema) (st : Dict) (e : Enc) (s : List Char) (v : Val) (h : DocText v s) :
    fromJsonBytes sch st (encodeAs e s) = fromJson sch st (String.ofList s) := by
  have hb : loadsBytes (encodeAs e s) = .ok v := by
    obtain ⟨c, r, rfl, h1, h2, h3⟩ := h.shape
    unfold loadsBytes
    rw [detect_encode e h1 h2 h3, decodeAs_encode]
    exact (C145_grammar _ v).2 h
  unfold fromJsonBytes fromJson
  rw [hb, (C145_grammar s v).2 h]

/-- **C149, no ambiguity.**  The bytes of a document tell its encoding and its text. -/
theorem C149_unambiguous {e e' : Enc} {s s' : List Char} {v v' : Val} (h : DocText v s) (h' : DocText v' s')
    (he : encodeAs e s = encodeAs e' s') : e = e' ∧ s = s' := by
  obtain ⟨c, r, rfl, h1, h2, h3⟩ := h.shape
  obtain ⟨c', r', rfl, h1', h2', h3'⟩ := h'.shape
  have a := detect_encode e h1 h2 h3
  have a' := detect_encode e' h1' h2' h3'
  rw [he, a'] at a
  subst a
  refine ⟨rfl, ?_⟩
  have b := decodeAs_encode e' (c :: r)
  rw [he, decodeAs_encode] at b
  cases b
  rfl

/-- **C149, refusal.**  Everything else is refused with a `ValueError` (or is outside the model: lone surrogates, numbers that
are no floats). -/
theorem C149_refused {b : List Nat} {e : Exc} (h : loadsBytes b = .error e) : e.isValueError = true ∨ e = .unmodelled := by
  have hc : ∀ {l : List Nat} {e : Exc}, chars16 l = .error e → e = .unmodelled := by
    intro l
    induction l using chars16.induct with
    | case1 => intro e h; cases h
    | case2 n hn => intro e h; rw [chars16, if_pos hn] at h; cases h
    | case3 n hn => intro e h; rw [chars16, if_neg hn] at h; cases h; rfl
    | case4 n m r hn ih =>
      intro e h
      rw [chars16, if_pos hn] at h
      cases h' : chars16 (m :: r) with
      | error e' => rw [h'] at h; cases h; exact ih h'
      | ok s => rw [h'] at h; cases h
    | case5 n m r hn hm ih =>
      intro e h
      rw [chars16, if_neg hn, if_pos hm] at h
      cases h' : chars16 r with
      | error e' => rw [h'] at h; cases h; exact ih h'
      | ok s => rw [h'] at h; cases h
    | case6 n m r hn hm => intro e h; rw [chars16, if_neg hn, if_neg hm] at h; cases h; rfl
  have h32 : ∀ {be : Bool} {b : List Nat} {e : Exc}, decode32 be b = .error e → e = .valueError ∨ e = .unmodelled := by
    intro be b
    induction b using decode32.induct be with
    | case1 => intro e h; cases h
    | case2 w x y z r hn ih =>
      intro e h
      simp only [decode32] at h
      rw [if_pos hn] at h
      cases h' : decode32 be r with
      | error e' => rw [h'] at h; cases h; exact ih h'
      | ok s => rw [h'] at h; cases h
    | case3 w x y z r hn hm =>
      intro e h
      simp only [decode32] at h
      rw [if_neg hn, if_pos hm] at h
      cases h; exact .inr rfl
    | case4 w x y z r hn hm =>
      intro e h
      simp only [decode32] at h
      rw [if_neg hn, if_neg hm] at h
      cases h; exact .inl rfl
    | case5 l h1 h2 =>
      intro e h
      match l, h1, h2 with
      | [_], _, _ => cases h; exact .inl rfl
      | [_, _], _, _ => cases h; exact .inl rfl
      | [_, _, _], _, _ => cases h; exact .inl rfl
      | _ :: _ :: _ :: _ :: _, _, h2 => exact (h2 _ _ _ _ _ rfl).elim
  unfold loadsBytes at h
  split at h
  · rcases loads_error h with rfl | rfl
    · exact .inl rfl
    · exact .inr rfl
  · next e' he =>
    cases h
    unfold decodeAs at he
    generalize detectEncoding b = enc at he
    cases enc with
    | utf8 bom =>
      simp only [decodeBody, decode8] at he
      split at he
      · cases he
      · split at he <;> cases he
        · exact .inr rfl
        · exact .inl rfl
    | utf16 be bom =>
      simp only [decodeBody, decode16] at he
      split at he
      · cases he; exact .inl rfl
      · exact .inr (hc he)
    | utf32 be bom =>
      rcases h32 he with rfl | rfl
      · exact .inl rfl
      · exact .inr rfl

/-- `{"a":"ä😀"}` in little endian UTF-16 with a mark -/
example : loadsBytes [0xFF, 0xFE, 0x7B, 0, 0x22, 0, 0x61, 0, 0x22, 0, 0x3A, 0, 0x22, 0, 0xE4, 0, 0x3D, 0xD8, 0x00, 0xDE, 0x22, 0,
    0x7D, 0] = .ok (.dict [("a", .str "ä😀")]) := by decide +kernel
/-- `7` in big endian UTF-32 without a mark, and two bytes that are no UTF-8 -/
example : loadsBytes [0, 0, 0, 0x37] = .ok (.int 7) ∧ loadsBytes [0xC3, 0x28] = .error .valueError := by decide +kernel
example : DocText (.dict [("a", .str "ä😀")]) "{\"a\":\"ä😀\"}".toList := (C145_grammar _ _).1 (by decide +kernel)

end Verif
