import Verif.Props.Floats
import Verif.Py.JsonFuel

/-!
# C145: which texts are read as JSON documents, and as what

The grammar of RFC 8259 as an inductive relation between values and texts, written without any of the functions of the reader.
The value of a number with a fraction or an exponent is the float of `decUnits`, for which see C128.
-/

namespace Verif

/-! ## the grammar -/

/-- insignificant whitespace, RFC 8259 section 2 -/
def Blank (w : List Char) : Prop := ∀ c ∈ w, c = ' ' ∨ c = '\t' ∨ c = '\n' ∨ c = '\r'

/-- the value of a hexadecimal digit -/
inductive HexDigit : Char → Nat → Prop
  | dec {c : Char} : '0'.toNat ≤ c.toNat → c.toNat ≤ '9'.toNat → HexDigit c (c.toNat - '0'.toNat)
  | upper {c : Char} : 'A'.toNat ≤ c.toNat → c.toNat ≤ 'F'.toNat → HexDigit c (10 + (c.toNat - 'A'.toNat))
  | lower {c : Char} : 'a'.toNat ≤ c.toNat → c.toNat ≤ 'f'.toNat → HexDigit c (10 + (c.toNat - 'a'.toNat))

/-- four hexadecimal digits after `\u` -/
inductive UnitText : Nat → List Char → Prop
  | mk {a b c d : Char} {w x y z : Nat} : HexDigit a w → HexDigit b x → HexDigit c y → HexDigit d z →
      UnitText (((w * 16 + x) * 16 + y) * 16 + z) ['\\', 'u', a, b, c, d]

/-- the ways to write one character inside a string, RFC 8259 section 7; a code unit of a surrogate pair on its own
is left out -/
inductive CharText : Char → List Char → Prop
  | plain {c : Char} : 0x20 ≤ c.toNat → c ≠ '"' → c ≠ '\\' → CharText c [c]
  | quote : CharText '"' ['\\', '"']
  | backslash : CharText '\\' ['\\', '\\']
  | slash : CharText '/' ['\\', '/']
  | backspace : CharText '\x08' ['\\', 'b']
  | formFeed : CharText '\x0c' ['\\', 'f']
  | newline : CharText '\n' ['\\', 'n']
  | return : CharText '\r' ['\\', 'r']
  | tab : CharText '\t' ['\\', 't']
  | unit {c : Char} {s : List Char} : UnitText c.toNat s → CharText c s
  | pair {c : Char} {n m : Nat} {s t : List Char} : UnitText n s → UnitText m t →
      0xD800 ≤ n → n < 0xDC00 → 0xDC00 ≤ m → m < 0xE000 →
      c.toNat = 0x10000 + (n - 0xD800) * 0x400 + (m - 0xDC00) → CharText c (s ++ t)

/-- what stands between the quotes -/
inductive StrText : List Char → List Char → Prop
  | nil : StrText [] []
  | cons {c : Char} {cs s t : List Char} : CharText c s → StrText cs t → StrText (c :: cs) (s ++ t)

/-- at least one decimal digit -/
def DigitsText (ds : List Char) : Prop := ds ≠ [] ∧ ∀ c ∈ ds, '0'.toNat ≤ c.toNat ∧ c.toNat ≤ '9'.toNat

/-- the integer part of a number: no leading zeros, RFC 8259 section 6 -/
def IntPart (ds : List Char) : Prop := DigitsText ds ∧ (ds = ['0'] ∨ ds.head? ≠ some '0')

/-- the fraction of a number, if it has one: its digits and its text -/
inductive FracText : List Char → List Char → Prop
  | none : FracText [] []
  | some {ds : List Char} : DigitsText ds → FracText ds ('.' :: ds)

/-- the exponent of a number, if it has one: its value and its text -/
inductive ExpText : Int → List Char → Prop
  | none : ExpText 0 []
  | plain {e : Char} {ds : List Char} : e = 'e' ∨ e = 'E' → DigitsText ds → ExpText (digitsVal ds) (e :: ds)
  | plus {e : Char} {ds : List Char} : e = 'e' ∨ e = 'E' → DigitsText ds → ExpText (digitsVal ds) (e :: '+' :: ds)
  | minus {e : Char} {ds : List Char} : e = 'e' ∨ e = 'E' → DigitsText ds → ExpText (- (digitsVal ds : Int)) (e :: '-' :: ds)

/-- the optional minus of a number -/
def minusText (neg : Bool) : List Char := if neg then ['-'] else []

/-- a number, RFC 8259 section 6: one without a fraction and an exponent is an int, the others are floats (the nearest
one, C128; what lies outside of the floats is left out, and so is the negative zero) -/
inductive NumberText : Val → List Char → Prop
  | int {neg : Bool} {ds : List Char} : IntPart ds →
      NumberText (.int (if neg then - (digitsVal ds : Int) else digitsVal ds)) (minusText neg ++ ds)
  | flt {neg : Bool} {ds fr fs es : List Char} {x : Int} {m : Nat} : IntPart ds → FracText fr fs → ExpText x es →
      fs ≠ [] ∨ es ≠ [] → decUnits (digitsVal (ds ++ fr)) (x - fr.length) = m → m < unitsEnd → (neg = true → m ≠ 0) →
      NumberText (.flt (fltOfUnits neg m)) (minusText neg ++ (ds ++ (fs ++ es)))

/-- the members of an object as a dict: a name that comes again overwrites -/
def objectOf (l : List (String × Val)) : Dict := l.foldl (fun d p => dset d p.1 p.2) []

mutual
/-- a value, RFC 8259 sections 3 to 7 -/
inductive ValueText : Val → List Char → Prop
  | null : ValueText .none ['n', 'u', 'l', 'l']
  | true : ValueText (.bool true) ['t', 'r', 'u', 'e']
  | false : ValueText (.bool false) ['f', 'a', 'l', 's', 'e']
  | number {v : Val} {s : List Char} : NumberText v s → ValueText v s
  | string {cs t : List Char} : StrText cs t → ValueText (.str (String.ofList cs)) ('"' :: (t ++ ['"']))
  | emptyArray {w : List Char} : Blank w → ValueText (.list []) ('[' :: (w ++ [']']))
  | array {w s : List Char} {l : List Val} : Blank w → ElemsText l s → ValueText (.list l) ('[' :: (w ++ s))
  | emptyObject {w : List Char} : Blank w → ValueText (.dict []) ('{' :: (w ++ ['}']))
  | object {w s : List Char} {l : List (String × Val)} : Blank w → MembersText l s →
      ValueText (.dict (objectOf l)) ('{' :: (w ++ s))
/-- the elements of an array and the closing bracket -/
inductive ElemsText : List Val → List Char → Prop
  | last {v : Val} {s w : List Char} : ValueText v s → Blank w → ElemsText [v] (s ++ (w ++ [']']))
  | more {v : Val} {vs : List Val} {s w w' t : List Char} : ValueText v s → Blank w → Blank w' → ElemsText vs t →
      ElemsText (v :: vs) (s ++ (w ++ ',' :: (w' ++ t)))
/-- the members of an object and the closing brace -/
inductive MembersText : List (String × Val) → List Char → Prop
  | last {k t s w1 w2 w3 : List Char} {v : Val} : StrText k t → Blank w1 → Blank w2 → ValueText v s → Blank w3 →
      MembersText [(String.ofList k, v)] ('"' :: (t ++ '"' :: (w1 ++ ':' :: (w2 ++ (s ++ (w3 ++ ['}']))))))
  | more {k t s w1 w2 w3 w4 u : List Char} {v : Val} {l : List (String × Val)} : StrText k t → Blank w1 → Blank w2 →
      ValueText v s → Blank w3 → Blank w4 → MembersText l u →
      MembersText ((String.ofList k, v) :: l)
        ('"' :: (t ++ '"' :: (w1 ++ ':' :: (w2 ++ (s ++ (w3 ++ ',' :: (w4 ++ u)))))))
end

/-- a document: a value with whitespace around it -/
def DocText (v : Val) (s : List Char) : Prop := ∃ w t w', Blank w ∧ ValueText v t ∧ Blank w' ∧ s = w ++ (t ++ w')

/-! ## whitespace and digits -/

theorem isJsonWs_iff (c : Char) : isJsonWs c = true ↔ c = ' ' ∨ c = '\t' ∨ c = '\n' ∨ c = '\r' := by
  simp only [isJsonWs, Bool.or_eq_true, beq_iff_eq, or_assoc]

theorem skipWs_blank {w : List Char} (h : Blank w) (r : List Char) : skipWs (w ++ r) = skipWs r := by
  induction w with
  | nil => rfl
  | cons c w ih =>
    have hc : isJsonWs c = true := (isJsonWs_iff c).2 (h c (by simp))
    have := ih (fun x hx => h x (by simp [hx]))
    simpa [skipWs, hc] using this

theorem skipWs_all_blank {w : List Char} (h : Blank w) : skipWs w = [] := by
  have := skipWs_blank h []
  simpa [skipWs] using this

theorem mem_takeWhile_of {p : Char → Bool} {l : List Char} {c : Char} (h : c ∈ l.takeWhile p) : p c = true := by
  induction l with
  | nil => cases h
  | cons a l ih =>
    by_cases ha : p a = true
    · simp only [List.takeWhile_cons, ha, if_true, List.mem_cons] at h
      rcases h with rfl | h
      · exact ha
      · exact ih h
    · simp [List.takeWhile_cons, ha] at h

theorem skipWs_spec (s : List Char) : ∃ w, Blank w ∧ s = w ++ skipWs s := by
  refine ⟨s.takeWhile isJsonWs, ?_, (List.takeWhile_append_dropWhile).symm⟩
  intro c hc
  exact (isJsonWs_iff c).1 (mem_takeWhile_of hc)

theorem isDigitC_iff (c : Char) : isDigitC c = true ↔ '0'.toNat ≤ c.toNat ∧ c.toNat ≤ '9'.toNat := by
  have h0 : '0'.toNat = 48 := rfl
  have h9 : '9'.toNat = 57 := rfl
  simp [isDigitC, h0, h9]

theorem DigitsText.digit {ds : List Char} (h : DigitsText ds) : ∀ c ∈ ds, isDigitC c = true :=
  fun c hc => (isDigitC_iff c).2 (h.2 c hc)

theorem hexVal_iff (c : Char) (n : Nat) : hexVal? c = some n ↔ HexDigit c n := by
  have e0 : '0'.toNat = 48 := rfl
  have e9 : '9'.toNat = 57 := rfl
  have eA : 'A'.toNat = 65 := rfl
  have eF : 'F'.toNat = 70 := rfl
  have ea : 'a'.toNat = 97 := rfl
  have ef : 'f'.toNat = 102 := rfl
  constructor
  · intro h
    simp only [hexVal?, Bool.and_eq_true, decide_eq_true_eq] at h
    split at h
    · next hc => cases h; exact .dec hc.1 hc.2
    · split at h
      · next hc =>
        cases h
        have : c.toNat - 55 = 10 + (c.toNat - 'A'.toNat) := by omega
        rw [this]; exact .upper hc.1 hc.2
      · split at h
        · next hc =>
          cases h
          have : c.toNat - 87 = 10 + (c.toNat - 'a'.toNat) := by omega
          rw [this]; exact .lower hc.1 hc.2
        · cases h
  · rintro (⟨h1, h2⟩ | ⟨h1, h2⟩ | ⟨h1, h2⟩)
    all_goals
      simp only [hexVal?, Bool.and_eq_true, decide_eq_true_eq]
      repeat' split
      all_goals first | omega | (congr 1; done) | (congr 1; omega)

theorem hex4_iff (a b c d : Char) (n : Nat) : hex4? a b c d = some n ↔ UnitText n ['\\', 'u', a, b, c, d] := by
  constructor
  · intro h
    unfold hex4? at h
    split at h
    · next w x y z hw hx hy hz =>
      cases h
      have e : w * 4096 + x * 256 + y * 16 + z = ((w * 16 + x) * 16 + y) * 16 + z := by omega
      rw [e]
      exact .mk ((hexVal_iff _ _).1 hw) ((hexVal_iff _ _).1 hx) ((hexVal_iff _ _).1 hy) ((hexVal_iff _ _).1 hz)
    · cases h
  · intro h
    cases h with
    | mk h1 h2 h3 h4 =>
      simp only [hex4?, (hexVal_iff _ _).2 h1, (hexVal_iff _ _).2 h2, (hexVal_iff _ _).2 h3, (hexVal_iff _ _).2 h4]
      congr 1
      omega

theorem UnitText.shape {n : Nat} {s : List Char} (h : UnitText n s) :
    ∃ a b c d, s = ['\\', 'u', a, b, c, d] ∧ hex4? a b c d = some n := by
  cases h with
  | mk h1 h2 h3 h4 => exact ⟨_, _, _, _, rfl, (hex4_iff _ _ _ _ _).2 (.mk h1 h2 h3 h4)⟩

/-! ## strings -/

theorem char_not_surrogate (c : Char) : ¬ (0xD800 ≤ c.toNat ∧ c.toNat ≤ 0xDFFF) := by
  have := c.valid
  have h : c.toNat = c.val.toNat := rfl
  rw [h]
  simp only [UInt32.isValidChar, Nat.isValidChar] at this
  omega

theorem charOf_toNat {c : Char} {n : Nat} (h : c.toNat = n) : Char.ofNat n = c := (char_eq_ofNat h).symm

theorem jstr_char {c : Char} {s : List Char} (h : CharText c s) (r : List Char) : jstr (s ++ r) = consChar c (jstr r) := by
  cases h with
  | plain h1 h2 h3 =>
    simp only [List.cons_append, List.nil_append]
    rw [jstr.eq_def]
    simp only [if_neg h2, if_neg h3]
    rw [if_neg (by omega)]
  | quote => exact jstr_simple _ _ r rfl (by decide)
  | backslash => exact jstr_simple _ _ r rfl (by decide)
  | slash => exact jstr_simple _ _ r rfl (by decide)
  | backspace => exact jstr_simple _ _ r rfl (by decide)
  | formFeed => exact jstr_simple _ _ r rfl (by decide)
  | newline => exact jstr_simple _ _ r rfl (by decide)
  | «return» => exact jstr_simple _ _ r rfl (by decide)
  | tab => exact jstr_simple _ _ r rfl (by decide)
  | unit hu =>
    obtain ⟨a, b, d, e, rfl, hx⟩ := hu.shape
    have hs := char_not_surrogate c
    simp only [List.cons_append, List.nil_append]
    rw [jstr.eq_def]
    simp only [hx]
    rw [if_neg (by decide), if_pos trivial, if_pos trivial, if_neg (by omega), if_neg (by omega), charOf_toNat rfl]
  | pair hn hm h1 h2 h3 h4 h5 =>
    obtain ⟨a, b, d, e, rfl, hx⟩ := hn.shape
    obtain ⟨a', b', d', e', rfl, hx'⟩ := hm.shape
    simp only [List.cons_append, List.nil_append]
    rw [jstr.eq_def]
    simp only [hx, hx']
    rw [if_neg (by decide), if_pos trivial, if_pos trivial, if_pos (by omega), if_pos ⟨trivial, trivial⟩,
      if_pos (by omega), charOf_toNat h5]

theorem jstr_text {cs t : List Char} (h : StrText cs t) (r : List Char) : jstr (t ++ '"' :: r) = .ok (cs, r) := by
  induction h with
  | nil => rw [List.nil_append, jstr.eq_def]; simp
  | cons hc _ ih => rw [List.append_assoc, jstr_char hc, ih]; rfl

theorem consChar_ok {c : Char} {x : Res (List Char × List Char)} {cs r : List Char} (h : consChar c x = .ok (cs, r)) :
    ∃ cs', cs = c :: cs' ∧ x = .ok (cs', r) := by
  match x, h with
  | .ok (s, r'), h => cases h; exact ⟨s, rfl, rfl⟩
  | .error e, h => cases h

theorem simpleEsc_text {e x : Char} (h : simpleEsc e = some x) : CharText x ['\\', e] := by
  unfold simpleEsc at h
  repeat' split at h
  all_goals first | cases h | skip
  all_goals subst_vars
  · exact .quote
  · exact .backslash
  · exact .slash
  · exact .backspace
  · exact .formFeed
  · exact .newline
  · exact .return
  · exact .tab

theorem hex4_lt {a b c d : Char} {n : Nat} (h : hex4? a b c d = some n) : n < 0x10000 := by
  have hb : ∀ c n, hexVal? c = some n → n < 16 := by
    intro c n h
    simp only [hexVal?, Bool.and_eq_true, decide_eq_true_eq] at h
    repeat' split at h
    all_goals first | cases h | skip
    all_goals omega
  unfold hex4? at h
  split at h
  · next w x y z hw hx hy hz =>
    cases h
    have := hb _ _ hw
    have := hb _ _ hx
    have := hb _ _ hy
    have := hb _ _ hz
    omega
  · cases h

theorem toNat_ofNat {n : Nat} (h : n.isValidChar) : (Char.ofNat n).toNat = n := by
  simp only [Char.ofNat, h, dite_true]
  rfl

theorem jstr_spec : ∀ (n : Nat) (s cs r : List Char), s.length ≤ n → jstr s = .ok (cs, r) →
    ∃ t, StrText cs t ∧ s = t ++ '"' :: r
  | 0, s, cs, r, hn, h => by
    have : s = [] := List.length_eq_zero_iff.1 (by omega)
    subst this
    rw [jstr.eq_def] at h
    cases h
  | n + 1, s, cs, r, hn, h => by
    rw [jstr.eq_def] at h
    have step : ∀ {c : Char} {p s' : List Char}, CharText c p → s = p ++ s' → s'.length ≤ n →
        consChar c (jstr s') = .ok (cs, r) → ∃ t, StrText cs t ∧ s = t ++ '"' :: r := by
      intro c p s' hp hs hl hj
      obtain ⟨cs', rfl, hj'⟩ := consChar_ok hj
      obtain ⟨t, ht, rfl⟩ := jstr_spec n s' cs' r hl hj'
      exact ⟨p ++ t, .cons hp ht, by rw [hs, List.append_assoc]⟩
    split at h
    · cases h
    · next c s1 =>
      simp only [List.length_cons] at hn
      split at h
      · next hq => cases h; exact ⟨[], .nil, by rw [hq]; rfl⟩
      · next hq =>
        split at h
        · next hb =>
          subst hb
          split at h
          · cases h
          · next e s2 =>
            simp only [List.length_cons] at hn
            split at h
            · next he =>
              subst he
              split at h
              · next a b d e s3 =>
                simp only [List.length_cons] at hn
                split at h
                · cases h
                · next x hx =>
                  have hxl := hex4_lt hx
                  split at h
                  · next hhi =>
                    split at h
                    · next b1 b2 a' b' d' e' s4 =>
                      simp only [List.length_cons] at hn
                      split at h
                      · next hbb =>
                        obtain ⟨rfl, rfl⟩ := hbb
                        split at h
                        · cases h
                        · next y hy =>
                          split at h
                          · next hlo =>
                            refine step (p := ['\\', 'u', a, b, d, e] ++ ['\\', 'u', a', b', d', e'])
                              (.pair ((hex4_iff _ _ _ _ _).1 hx) ((hex4_iff _ _ _ _ _).1 hy) (by omega) (by omega)
                                (by omega) (by omega) ?_) rfl (by omega) h
                            rw [toNat_ofNat (by unfold Nat.isValidChar; omega)]
                          · cases h
                      · cases h
                    · cases h
                  · split at h
                    · cases h
                    · refine step (p := ['\\', 'u', a, b, d, e]) (.unit ?_) rfl (by omega) h
                      rw [toNat_ofNat (by unfold Nat.isValidChar; omega)]
                      exact (hex4_iff _ _ _ _ _).1 hx
              · cases h
            · split at h
              · next x hx => exact step (simpleEsc_text hx) rfl (by omega) h
              · cases h
        · next hb =>
          split at h
          · cases h
          · next h32 => exact step (.plain (by omega) hq hb) rfl (by omega) h

/-! ## numbers -/

/-- What may follow a value: a delimiter or whitespace. -/
def Ends (r : List Char) : Prop :=
  ∀ c, r.head? = some c → c = ',' ∨ c = ']' ∨ c = '}' ∨ c = ' ' ∨ c = '\t' ∨ c = '\n' ∨ c = '\r'

theorem Ends.noDigit {r : List Char} (h : Ends r) : NoDigit r := by
  intro c hc
  rcases h c hc with rfl | rfl | rfl | rfl | rfl | rfl | rfl <;> decide

theorem Ends.not_dot {r : List Char} (h : Ends r) : ∀ t, r ≠ '.' :: t := by
  rintro t rfl
  rcases h '.' rfl with h | h | h | h | h | h | h <;> exact absurd h (by decide)

theorem Ends.no_exp {r : List Char} (h : Ends r) : scanExp r = (none, r) := by
  unfold scanExp
  split
  · rfl
  · next c t =>
    rw [if_neg]
    rcases h c rfl with rfl | rfl | rfl | rfl | rfl | rfl | rfl <;> decide

theorem ends_blank {w r : List Char} (hw : Blank w) (hr : Ends r) : Ends (w ++ r) := by
  cases w with
  | nil => exact hr
  | cons c w =>
    intro x hx
    simp only [List.cons_append, List.head?_cons, Option.some.injEq] at hx
    subst hx
    rcases hw c (by simp) with h | h | h | h <;> simp [h]

theorem ends_cons {c : Char} {r : List Char} (h : c = ',' ∨ c = ']' ∨ c = '}') : Ends (c :: r) := by
  intro x hx
  simp only [List.head?_cons, Option.some.injEq] at hx
  subst hx
  rcases h with h | h | h <;> simp [h]

/-- an exponent, before the end of the number -/
theorem scanExp_text {x : Int} {es : List Char} (h : ExpText x es) {r : List Char} (hr : Ends r) :
    (es = [] ∧ x = 0 ∧ scanExp (es ++ r) = (none, r)) ∨ (es ≠ [] ∧ scanExp (es ++ r) = (some x, r)) := by
  have sign : ∀ {ds : List Char}, DigitsText ds → scanSign (ds ++ r) = (false, ds ++ r) := by
    intro ds hd
    cases ds with
    | nil => exact absurd rfl hd.1
    | cons c t =>
      have hc := hd.digit c (by simp)
      have h1 : ¬ c = '-' := by rintro rfl; exact absurd hc (by decide)
      have h2 : ¬ c = '+' := by rintro rfl; exact absurd hc (by decide)
      simp [scanSign, h1, h2]
  have fin : ∀ {e : Char} {ds t : List Char} {neg : Bool}, e = 'e' ∨ e = 'E' → DigitsText ds → scanSign t = (neg, ds ++ r) →
      scanExp (e :: t) = (some (if neg then - (digitsVal ds : Int) else digitsVal ds), r) := by
    intro e ds t neg he hd ht
    simp only [scanExp, if_pos he, ht]
    rw [takeWhile_digits hd.digit hr.noDigit]
    have : ds.isEmpty = false := by simp [hd.1]
    rw [this]
    simp
  cases h with
  | none => exact .inl ⟨rfl, rfl, hr.no_exp⟩
  | plain he hd => exact .inr ⟨by simp, fin (neg := false) he hd (sign hd)⟩
  | plus he hd => exact .inr ⟨by simp, fin (neg := false) he hd (by simp [scanSign])⟩
  | minus he hd => exact .inr ⟨by simp, fin (neg := true) he hd (by simp [scanSign])⟩

theorem expText_head {x : Int} {es r : List Char} (h : ExpText x es) (hr : Ends r) :
    NoDigit (es ++ r) ∧ ∀ t, es ++ r ≠ '.' :: t := by
  have aux : ∀ {e : Char} {t : List Char}, e = 'e' ∨ e = 'E' → NoDigit (e :: t) ∧ ∀ u, e :: t ≠ '.' :: u := by
    intro e t he
    rcases he with rfl | rfl
    · exact ⟨noDigit_cons (by decide), by intro u hu; cases hu⟩
    · exact ⟨noDigit_cons (by decide), by intro u hu; cases hu⟩
  cases h with
  | none => exact ⟨hr.noDigit, hr.not_dot⟩
  | plain he _ => exact aux he
  | plus he _ => exact aux he
  | minus he _ => exact aux he

theorem jnum_number {v : Val} {s : List Char} (h : NumberText v s) {r : List Char} (hr : Ends r) :
    jnum (s ++ r) = .ok (v, r) := by
  cases h with
  | @int neg ds hi =>
    have := jnum_digits neg ds r hi.1.digit hi.1.1 hi.2 hr.noDigit
    unfold minusText
    rw [List.append_assoc, this]
    unfold jnumTail
    rw [scanFrac_none hr.not_dot]
    simp only []
    rw [hr.no_exp]
    simp
  | @flt neg ds fr fs es x m hi hf he hne hm h1 h2 =>
    have hx := expText_head he hr
    have hsf : scanFrac (fs ++ (es ++ r)) = (fr, es ++ r) := by
      cases hf with
      | none => exact scanFrac_none hx.2
      | some hd => exact scanFrac_some hd.digit hd.1 hx.1
    have hnd : NoDigit (fs ++ (es ++ r)) := by
      cases hf with
      | none => exact hx.1
      | some hd => exact noDigit_cons (by decide)
    have := jnum_digits neg ds (fs ++ (es ++ r)) hi.1.digit hi.1.1 hi.2 hnd
    unfold minusText
    rw [List.append_assoc, List.append_assoc, List.append_assoc, this]
    unfold jnumTail
    simp only [hsf]
    have hcond : ¬ (unitsEnd ≤ m ∨ (neg = true ∧ m = 0)) := by
      rintro (h | ⟨h, h'⟩)
      · omega
      · exact h2 h h'
    rcases scanExp_text he hr with ⟨rfl, rfl, h⟩ | ⟨hn, h⟩
    · have hfr : fr.isEmpty = false := by
        cases hf with
        | none => simp at hne
        | some hd => simp [hd.1]
      simp only [h, hfr, Bool.false_and, Bool.false_eq_true, if_false, Option.getD_none, hm]
      rw [if_neg hcond]
    · simp only [h, Option.isNone_some, Bool.and_false, Bool.false_eq_true, if_false, Option.getD_some, hm]
      rw [if_neg hcond]

theorem digits_takeWhile {s : List Char} (h : s.takeWhile isDigitC ≠ []) : DigitsText (s.takeWhile isDigitC) :=
  ⟨h, fun _ hc => (isDigitC_iff _).1 (mem_takeWhile_of hc)⟩

theorem drop_takeWhile (s : List Char) : s = s.takeWhile isDigitC ++ s.drop (s.takeWhile isDigitC).length := by
  induction s with
  | nil => rfl
  | cons c s ih =>
    by_cases hc : isDigitC c = true
    · simpa [hc] using ih
    · simp [hc]

theorem scanFrac_spec (r : List Char) : ∃ fs, FracText (scanFrac r).1 fs ∧ r = fs ++ (scanFrac r).2 := by
  unfold scanFrac
  split
  · exact ⟨[], .none, rfl⟩
  · next c t =>
    split
    · next hc =>
      subst hc
      simp only []
      split
      · exact ⟨[], .none, rfl⟩
      · next he =>
        refine ⟨'.' :: t.takeWhile isDigitC, .some (digits_takeWhile (by simpa using he)), ?_⟩
        rw [List.cons_append, ← drop_takeWhile]
    · exact ⟨[], .none, rfl⟩

theorem scanExp_spec (r : List Char) :
    ∃ es, ExpText ((scanExp r).1.getD 0) es ∧ r = es ++ (scanExp r).2 ∧ ((scanExp r).1 = none ↔ es = []) := by
  unfold scanExp
  split
  · exact ⟨[], .none, rfl, by simp⟩
  · next c t =>
    split
    · next hc =>
      simp only []
      split
      · exact ⟨[], .none, rfl, by simp⟩
      · next he =>
        have hd : DigitsText ((scanSign t).2.takeWhile isDigitC) := digits_takeWhile (by simpa using he)
        have hdr := drop_takeWhile (scanSign t).2
        unfold scanSign at hd hdr ⊢
        split at hd
        · simp at hd; exact absurd rfl hd.1
        · next c' u =>
          split at hd
          · next hm =>
            subst hm
            simp only [if_true] at hd hdr ⊢
            exact ⟨_, .minus hc hd, by rw [List.cons_append, List.cons_append, ← hdr], by simp⟩
          · next hm =>
            simp only [if_neg hm] at hdr ⊢
            split at hd
            · next hp =>
              subst hp
              simp only [if_true] at hd hdr ⊢
              exact ⟨_, .plus hc hd, by rw [List.cons_append, List.cons_append, ← hdr], by simp⟩
            · next hp =>
              simp only [if_neg hp] at hd hdr ⊢
              exact ⟨_, .plain hc hd, by rw [List.cons_append, ← hdr], by simp⟩
    · exact ⟨[], .none, rfl, by simp⟩

theorem jnumTail_spec {neg : Bool} {ds r r' : List Char} {v : Val} (hi : IntPart ds)
    (h : jnumTail neg ds r = .ok (v, r')) :
    ∃ s, NumberText v (minusText neg ++ (ds ++ s)) ∧ r = s ++ r' := by
  unfold jnumTail at h
  simp only [] at h
  obtain ⟨fs, hf, hfr⟩ := scanFrac_spec r
  obtain ⟨es, he, her, hne⟩ := scanExp_spec (scanFrac r).2
  split at h
  · cases h
    exact ⟨[], by rw [List.append_nil]; exact .int hi, rfl⟩
  · next hx =>
    split at h
    · cases h
    · next hc =>
      cases h
      refine ⟨fs ++ es, .flt hi hf he ?_ rfl (by omega) ?_, ?_⟩
      · by_cases hes : es = []
        · left
          intro hfs
          apply hx
          rw [hne.2 hes]
          rw [hfs] at hf
          generalize (scanFrac r).1 = fr at hf
          cases hf
          rfl
        · exact .inr hes
      · exact fun hn hm => hc (.inr ⟨hn, hm⟩)
      · rw [List.append_assoc, ← her, ← hfr]

theorem intPart_take {s : List Char} :
    let ds := s.takeWhile isDigitC
    let ds' := if ds.head? == some '0' then ds.take 1 else ds
    ds' ≠ [] → IntPart ds' ∧ s = ds' ++ s.drop ds'.length := by
  intro ds ds' hne
  have hd := drop_takeWhile s
  change s = ds ++ s.drop ds.length at hd
  by_cases h0 : ds.head? = some '0'
  · have : ds' = ['0'] := by
      change (if ds.head? == some '0' then ds.take 1 else ds) = _
      rw [h0]
      cases hds : ds with
      | nil => rw [hds] at h0; cases h0
      | cons c t => rw [hds] at h0; simp at h0; simp [h0]
    rw [this]
    refine ⟨⟨⟨by simp, by simp⟩, .inl rfl⟩, ?_⟩
    cases hds : ds with
    | nil => rw [hds] at h0; cases h0
    | cons c t =>
      rw [hds] at h0 hd
      simp at h0
      subst h0
      cases s with
      | nil => cases hd
      | cons a s => simp at hd; simp [hd.1]
  · have : ds' = ds := by
      change (if ds.head? == some '0' then ds.take 1 else ds) = _
      have : (ds.head? == some '0') = false := by simpa using h0
      rw [this]; rfl
    rw [this] at hne ⊢
    exact ⟨⟨digits_takeWhile hne, .inr h0⟩, hd⟩

theorem jnum_spec {s r : List Char} {v : Val} (h : jnum s = .ok (v, r)) : ∃ t, NumberText v t ∧ s = t ++ r := by
  unfold jnum at h
  simp only [] at h
  generalize hb : (if (s.head? == some '-') = true then s.tail else s) = body at h
  by_cases hne : (if (body.takeWhile isDigitC).head? == some '0' then (body.takeWhile isDigitC).take 1
      else body.takeWhile isDigitC) = []
  · rw [hne] at h
    simp only [List.isEmpty_nil, if_true] at h
    split at h <;> cases h
  · rw [if_neg (by simpa using hne)] at h
    obtain ⟨hi, hs⟩ := intPart_take hne
    obtain ⟨u, hu, hr⟩ := jnumTail_spec hi h
    refine ⟨_, hu, ?_⟩
    rw [hr] at hs
    rw [List.append_assoc, List.append_assoc, ← hs]
    subst hb
    by_cases hm : s.head? = some '-'
    · cases s with
      | nil => cases hm
      | cons c t => simp at hm; simp [hm, minusText]
    · have : (s.head? == some '-') = false := by simpa using hm
      simp [this, minusText]

/-! ## values -/

theorem number_start {v : Val} {s : List Char} (h : NumberText v s) :
    ∃ c t, s = c :: t ∧ (isDigitC c = true ∨ c = '-') := by
  have aux : ∀ (neg : Bool) (ds u : List Char), IntPart ds →
      ∃ c t, minusText neg ++ (ds ++ u) = c :: t ∧ (isDigitC c = true ∨ c = '-') := by
    intro neg ds u hi
    cases neg with
    | true => exact ⟨'-', _, rfl, .inr rfl⟩
    | false =>
      cases ds with
      | nil => exact absurd rfl hi.1.1
      | cons c t => exact ⟨c, t ++ u, rfl, .inl (hi.1.digit c (by simp))⟩
  cases h with
  | @int neg ds hi => have := aux neg ds [] hi; rwa [List.append_nil] at this
  | @flt neg ds fr fs es x m hi => exact aux neg ds _ hi

theorem value_start {v : Val} {s : List Char} (h : ValueText v s) :
    ∃ c t, s = c :: t ∧ isJsonWs c = false ∧ c ≠ ']' ∧ c ≠ '}' := by
  cases h with
  | null => exact ⟨_, _, rfl, by decide⟩
  | «true» => exact ⟨_, _, rfl, by decide⟩
  | «false» => exact ⟨_, _, rfl, by decide⟩
  | number hn =>
    obtain ⟨c, t, h, hc⟩ := number_start hn
    refine ⟨c, t, h, ?_⟩
    have := okStart_digit hc
    exact this
  | string _ => exact ⟨_, _, rfl, by decide⟩
  | emptyArray _ => exact ⟨_, _, rfl, by decide⟩
  | array _ _ => exact ⟨_, _, rfl, by decide⟩
  | emptyObject _ => exact ⟨_, _, rfl, by decide⟩
  | object _ _ => exact ⟨_, _, rfl, by decide⟩

theorem skipWs_value {v : Val} {s w : List Char} (h : ValueText v s) (hw : Blank w) (r : List Char) :
    skipWs (w ++ (s ++ r)) = s ++ r := by
  obtain ⟨c, t, rfl, hc, _⟩ := value_start h
  rw [skipWs_blank hw, List.cons_append, skipWs_of_not_ws hc]

theorem skipWs_char {c : Char} (h : isJsonWs c = false) {w : List Char} (hw : Blank w) (r : List Char) :
    skipWs (w ++ c :: r) = c :: r := by
  rw [skipWs_blank hw, skipWs_of_not_ws h]

theorem elems_start {l : List Val} {s : List Char} (h : ElemsText l s) :
    ∃ c t, s = c :: t ∧ isJsonWs c = false ∧ c ≠ ']' := by
  cases h with
  | last hv _ => obtain ⟨c, t, rfl, h1, h2, _⟩ := value_start hv; exact ⟨c, _, rfl, h1, h2⟩
  | more hv _ _ _ => obtain ⟨c, t, rfl, h1, h2, _⟩ := value_start hv; exact ⟨c, _, rfl, h1, h2⟩

theorem members_start {l : List (String × Val)} {s : List Char} (h : MembersText l s) : ∃ t, s = '"' :: t := by
  cases h with
  | last _ _ _ _ _ => exact ⟨_, rfl⟩
  | more _ _ _ _ _ _ _ => exact ⟨_, rfl⟩

mutual
/-- A value is read as far as its text goes. -/
theorem jval_text : ∀ {v : Val} {s : List Char}, ValueText v s → ∀ {r : List Char} {n : Nat}, Ends r → s.length + 1 ≤ n →
    jval n (s ++ r) = .ok (v, r)
  | _, _, .null, r, n + 1, hr, hn => by
    simp [jval, dropPrefix?, show "null".toList = ['n','u','l','l'] from rfl]
  | _, _, .true, r, n + 1, hr, hn => by
    simp [jval, dropPrefix?, show "null".toList = ['n','u','l','l'] from rfl,
      show "true".toList = ['t','r','u','e'] from rfl]
  | _, _, .false, r, n + 1, hr, hn => by
    simp [jval, dropPrefix?, show "null".toList = ['n','u','l','l'] from rfl,
      show "true".toList = ['t','r','u','e'] from rfl, show "false".toList = ['f','a','l','s','e'] from rfl]
  | _, _, .number h, r, n + 1, hr, hn => by
    obtain ⟨c, t, hc, hs⟩ := number_start h
    rw [jval_jnum n _ ⟨c, t ++ r, by rw [hc]; rfl, hs⟩, jnum_number h hr]
  | _, _, .string h, r, n + 1, hr, hn => by
    rw [List.cons_append, List.append_assoc, jval, if_pos rfl, List.cons_append, List.nil_append, jstr_text h]
  | _, _, .emptyArray hw, r, n + 1, hr, hn => by
    rw [List.cons_append, List.append_assoc, jval, if_neg (by decide), if_neg (by decide), if_pos rfl, List.cons_append,
      List.nil_append, skipWs_char (by decide) hw]
    simp
  | _, _, .array (s := s) hw he, r, n + 1, hr, hn => by
    rw [List.cons_append, List.append_assoc, jval, if_neg (by decide), if_neg (by decide), if_pos rfl]
    simp only [List.length_cons, List.length_append] at hn
    have := jelems_text he (acc := []) (r := r) (n := n) (by omega)
    obtain ⟨c, t, rfl, h1, h2⟩ := elems_start he
    rw [List.cons_append, skipWs_char h1 hw]
    simp only [if_neg h2]
    exact this
  | _, _, .emptyObject hw, r, n + 1, hr, hn => by
    rw [List.cons_append, List.append_assoc, jval, if_neg (by decide), if_pos rfl, List.cons_append,
      List.nil_append, skipWs_char (by decide) hw]
    simp
  | _, _, .object (s := s) hw he, r, n + 1, hr, hn => by
    rw [List.cons_append, List.append_assoc, jval, if_neg (by decide), if_pos rfl]
    simp only [List.length_cons, List.length_append] at hn
    have := jmembers_text he (acc := []) (r := r) (n := n) (by omega)
    obtain ⟨t, rfl⟩ := members_start he
    rw [List.cons_append, skipWs_char (by decide) hw]
    simp only []
    rw [if_neg (by decide)]
    exact this
theorem jelems_text : ∀ {l : List Val} {s : List Char}, ElemsText l s → ∀ {acc : List Val} {r : List Char} {n : Nat},
    s.length + 1 ≤ n → jelems n acc (s ++ r) = .ok (.list (acc ++ l), r)
  | _, _, .last (v := v) (s := s) (w := w) hv hw, acc, r, n + 1, hn => by
    simp only [List.length_append, List.length_cons] at hn
    have e := jval_text hv (r := w ++ ']' :: r) (n := n) (ends_blank hw (ends_cons (by simp))) (by omega)
    simp only [List.append_assoc, List.cons_append, List.nil_append]
    rw [jelems, e]
    simp only []
    rw [skipWs_char (by decide) hw]
    simp
  | _, _, .more (v := v) (s := s) (w := w) (w' := w') (t := t) hv hw hw' ht, acc, r, n + 1, hn => by
    simp only [List.length_append, List.length_cons] at hn
    have e := jval_text hv (r := w ++ ',' :: (w' ++ (t ++ r))) (n := n) (ends_blank hw (ends_cons (by simp))) (by omega)
    simp only [List.append_assoc, List.cons_append, List.nil_append]
    rw [jelems, e]
    simp only []
    rw [skipWs_char (by decide) hw]
    have e2 := jelems_text ht (acc := acc ++ [v]) (r := r) (n := n) (by omega)
    obtain ⟨c, u, rfl, h1, h2⟩ := elems_start ht
    simp only []
    rw [if_neg (by decide), if_pos trivial, List.cons_append, skipWs_char h1 hw', ← List.cons_append, e2]
    simp
theorem jmembers_text : ∀ {l : List (String × Val)} {s : List Char}, MembersText l s →
    ∀ {acc : List (String × Val)} {r : List Char} {n : Nat}, s.length + 1 ≤ n →
    jmembers n acc (s ++ r) = .ok (.dict (l.foldl (fun d p => dset d p.1 p.2) acc), r)
  | _, _, .last (k := k) (t := t) (s := s) (w1 := w1) (w2 := w2) (w3 := w3) (v := v) hk h1 h2 hv h3, acc, r, n + 1, hn => by
    simp only [List.length_append, List.length_cons] at hn
    have e := jval_text hv (r := w3 ++ '}' :: r) (n := n) (ends_blank h3 (ends_cons (by simp))) (by omega)
    simp only [List.append_assoc, List.cons_append, List.nil_append]
    rw [jmembers, if_pos rfl, jstr_text hk]
    simp only []
    rw [skipWs_char (by decide) h1]
    simp only [if_true]
    rw [skipWs_value hv h2, e]
    simp only []
    rw [skipWs_char (by decide) h3]
    simp
  | _, _, .more (k := k) (t := t) (s := s) (w1 := w1) (w2 := w2) (w3 := w3) (w4 := w4) (u := u) (v := v) hk h1 h2 hv h3 h4 hu,
      acc, r, n + 1, hn => by
    simp only [List.length_append, List.length_cons] at hn
    have e := jval_text hv (r := w3 ++ ',' :: (w4 ++ (u ++ r))) (n := n) (ends_blank h3 (ends_cons (by simp))) (by omega)
    simp only [List.append_assoc, List.cons_append, List.nil_append]
    rw [jmembers, if_pos rfl, jstr_text hk]
    simp only []
    rw [skipWs_char (by decide) h1]
    simp only [if_true]
    rw [skipWs_value hv h2, e]
    simp only []
    rw [skipWs_char (by decide) h3]
    have e2 := jmembers_text hu (acc := dset acc (String.ofList k) v) (r := r) (n := n) (by omega)
    obtain ⟨u', rfl⟩ := members_start hu
    simp only []
    rw [if_neg (by decide), if_pos trivial, List.cons_append, skipWs_char (by decide) h4, ← List.cons_append, e2]
    rfl
end

theorem dropPrefix_spec : ∀ (p s r : List Char), dropPrefix? p s = some r → s = p ++ r
  | [], s, r, h => by simp [dropPrefix?] at h; simp [h]
  | _ :: _, [], r, h => by cases h
  | a :: p, c :: s, r, h => by
    rw [dropPrefix?] at h
    split at h
    · next hc => rw [hc, dropPrefix_spec p s r h]; rfl
    · cases h

mutual
/-- What is read is a value of the grammar. -/
theorem jval_spec : ∀ (n : Nat) (s r : List Char) (v : Val), jval n s = .ok (v, r) → ∃ t, ValueText v t ∧ s = t ++ r
  | 0, s, r, v, h => by rw [jval] at h; cases h
  | n + 1, [], r, v, h => by rw [jval] at h; cases h
  | n + 1, c :: s, r, v, h => by
    rw [jval] at h
    split at h
    · next hc =>
      split at h
      · next cs r' hj =>
        cases h
        obtain ⟨t, ht, rfl⟩ := jstr_spec _ s cs _ (Nat.le_refl _) hj
        exact ⟨'"' :: (t ++ ['"']), .string ht, by simp [hc]⟩
      · cases h
    · split at h
      · next hc =>
        obtain ⟨w, hw, hs⟩ := skipWs_spec s
        split at h
        · cases h
        · next c' r' hsk =>
          rw [hsk] at hs
          split at h
          · next hc' =>
            cases h
            exact ⟨'{' :: (w ++ ['}']), .emptyObject hw, by rw [hc, hs, hc']; simp⟩
          · obtain ⟨l, t, ht, hst, hv⟩ := jmembers_spec n [] (c' :: r') r v h
            subst hv
            exact ⟨'{' :: (w ++ t), .object hw ht, by rw [hc, hs, hst]; simp⟩
      · split at h
        · next hc =>
          obtain ⟨w, hw, hs⟩ := skipWs_spec s
          split at h
          · cases h
          · next c' r' hsk =>
            rw [hsk] at hs
            split at h
            · next hc' =>
              cases h
              exact ⟨'[' :: (w ++ [']']), .emptyArray hw, by rw [hc, hs, hc']; simp⟩
            · obtain ⟨l, t, ht, hst, hv⟩ := jelems_spec n [] (c' :: r') r v h
              subst hv
              exact ⟨'[' :: (w ++ t), .array hw ht, by rw [hc, hs, hst]; simp⟩
        · split at h
          · next hp => cases h; exact ⟨_, .null, dropPrefix_spec _ _ _ hp⟩
          · split at h
            · next hp => cases h; exact ⟨_, .true, dropPrefix_spec _ _ _ hp⟩
            · split at h
              · next hp => cases h; exact ⟨_, .false, dropPrefix_spec _ _ _ hp⟩
              · split at h
                · cases h
                · obtain ⟨t, ht, hs⟩ := jnum_spec h
                  exact ⟨t, .number ht, hs⟩
theorem jmembers_spec : ∀ (n : Nat) (acc : List (String × Val)) (s r : List Char) (v : Val),
    jmembers n acc s = .ok (v, r) →
    ∃ l t, MembersText l t ∧ s = t ++ r ∧ v = .dict (l.foldl (fun d p => dset d p.1 p.2) acc)
  | 0, acc, s, r, v, h => by rw [jmembers] at h; cases h
  | n + 1, acc, [], r, v, h => by rw [jmembers] at h; cases h
  | n + 1, acc, c :: s, r, v, h => by
    rw [jmembers] at h
    split at h
    · next hc =>
      split at h
      · cases h
      · next k r1 hj =>
        obtain ⟨t, ht, hs⟩ := jstr_spec _ s k _ (Nat.le_refl _) hj
        obtain ⟨w1, hw1, hs1⟩ := skipWs_spec r1
        split at h
        · cases h
        · next c2 r2 hsk1 =>
          rw [hsk1] at hs1
          split at h
          · next hc2 =>
            obtain ⟨w2, hw2, hs2⟩ := skipWs_spec r2
            split at h
            · cases h
            · next x r3 hv =>
              obtain ⟨u, hu, hsu⟩ := jval_spec n _ _ _ hv
              obtain ⟨w3, hw3, hs3⟩ := skipWs_spec r3
              split at h
              · cases h
              · next c4 r4 hsk3 =>
                rw [hsk3] at hs3
                split at h
                · next hc4 =>
                  cases h
                  refine ⟨_, _, .last ht hw1 hw2 hu hw3, ?_, rfl⟩
                  rw [hc, hs, hs1, hc2, hs2, hsu, hs3, hc4]
                  simp
                · split at h
                  · next hc4 =>
                    obtain ⟨w4, hw4, hs4⟩ := skipWs_spec r4
                    obtain ⟨l, t', ht', hst', hv'⟩ := jmembers_spec n _ _ _ _ h
                    subst hv'
                    refine ⟨_, _, .more ht hw1 hw2 hu hw3 hw4 ht', ?_, rfl⟩
                    rw [hc, hs, hs1, hc2, hs2, hsu, hs3, hc4, hs4, hst']
                    simp
                  · cases h
          · cases h
    · cases h
theorem jelems_spec : ∀ (n : Nat) (acc : List Val) (s r : List Char) (v : Val), jelems n acc s = .ok (v, r) →
    ∃ l t, ElemsText l t ∧ s = t ++ r ∧ v = .list (acc ++ l)
  | 0, acc, s, r, v, h => by rw [jelems] at h; cases h
  | n + 1, acc, s, r, v, h => by
    rw [jelems] at h
    split at h
    · cases h
    · next x r3 hv =>
      obtain ⟨u, hu, hsu⟩ := jval_spec n _ _ _ hv
      obtain ⟨w, hw, hs3⟩ := skipWs_spec r3
      split at h
      · cases h
      · next c4 r4 hsk =>
        rw [hsk] at hs3
        split at h
        · next hc4 =>
          cases h
          refine ⟨[x], _, .last hu hw, ?_, rfl⟩
          rw [hsu, hs3, hc4]; simp
        · split at h
          · next hc4 =>
            obtain ⟨w', hw', hs4⟩ := skipWs_spec r4
            obtain ⟨l, t', ht', hst', hv'⟩ := jelems_spec n _ _ _ _ h
            subst hv'
            refine ⟨x :: l, _, .more hu hw hw' ht', ?_, by simp⟩
            rw [hsu, hs3, hc4, hs4, hst']; simp
          · cases h
end

/-! ## C145 -/

/-- **C145, reading.**  A text is read as a value exactly when it is a document of this value by the grammar of RFC 8259. -/
theorem C145_grammar (s : List Char) (v : Val) : loads (String.ofList s) = .ok v ↔ DocText v s := by
  rw [loads, String.toList_ofList]
  constructor
  · intro h
    unfold loadsC at h
    split at h
    · cases h
    · next x r hv =>
      split at h
      · next hr =>
        cases h
        obtain ⟨t, ht, hs⟩ := jval_spec _ _ _ _ hv
        obtain ⟨w, hw, hsw⟩ := skipWs_spec s
        obtain ⟨w', hw', hrw⟩ := skipWs_spec r
        rw [hr, List.append_nil] at hrw
        exact ⟨w, t, w', hw, ht, hw', by rw [hsw, hs, ← hrw]⟩
      · cases h
  · rintro ⟨w, t, w', hw, ht, hw', rfl⟩
    unfold loadsC
    have hE : Ends w' := by
      have := ends_blank hw' (r := []) (by intro c hc; cases hc)
      rwa [List.append_nil] at this
    rw [skipWs_value ht hw, jval_text ht hE (by simp only [List.length_append]; omega)]
    simp only [skipWs_all_blank hw', if_true]

end Verif
