import Verif.Props.Time

/-!
# C44: exactly which texts `str_to_time` reads, and as which time

The accepted texts are described by a grammar of their own; the theorems say that `time.strptime` with the format
of the module, and `str_to_time` on top of it, accept those texts and no others.
-/

namespace Verif

/-- a field of one or two digits with a largest value: one decimal digit of any script, or an ASCII digit for the
tens and a digit for the units; the units are in ASCII too where not all ten of them are possible -/
def FieldText (mx : Nat) (t : List Char) (n : Nat) : Prop :=
  (∃ c, t = [c] ∧ IsDecimal c n) ∨
  (n ≤ mx ∧ ∃ c, t = [digit (n / 10), c] ∧ IsDecimal c (n % 10) ∧ (n / 10 * 10 + 9 ≤ mx ∨ c = digit (n % 10)))

/-- `HH:MM:SSZ` -/
def ClockText (s : List Char) (h mi sec : Nat) : Prop :=
  ∃ ht mt st z, s = ht ++ ':' :: (mt ++ ':' :: (st ++ [z])) ∧ FieldText 23 ht h ∧ FieldText 59 mt mi ∧
    FieldText 61 st sec ∧ (z = 'Z' ∨ z = 'z')

/-- `YYYY-MM-DD`, an existing day -/
def DateText (s : List Char) (y m d : Nat) : Prop :=
  ∃ yt mt dt, s = yt ++ '-' :: (mt ++ '-' :: dt) ∧ YearText yt y ∧ 1 ≤ y ∧ MonthText mt m ∧ DayText dt d ∧
    (d : Int) ≤ monthLen y m

/-- `YYYY-MM-DDTHH:MM:SSZ` -/
def TimeText (s : List Char) (y m d h mi sec : Nat) : Prop :=
  ∃ dt ct t, s = dt ++ t :: ct ∧ DateText dt y m d ∧ ClockText ct h mi sec ∧ (t = 'T' ∨ t = 't')

theorem isDecimal_lt {c : Char} {n : Nat} (h : IsDecimal c n) : n < 10 := h.1

theorem strpTwo_iff {mx : Nat} (hm : mx < 100) (t : List Char) (n : Nat) :
    strpTwo mx t = some n ↔ FieldText mx t n := by
  unfold FieldText
  constructor
  · intro h
    unfold strpTwo at h
    split at h
    · exact .inl ⟨_, rfl, (decimalVal_iff _ _).1 h⟩
    · next a b =>
      split at h
      · next x hx =>
        split at h
        · next u hu =>
          split at h
          · next hle =>
            simp only [Option.some.injEq] at h
            subst h
            unfold strpUnit at hu
            have hx1 : x < 10 ∧ a = digit x := digitVal_some hx
            split at hu
            · next h9 =>
              have hd := (decimalVal_iff _ _).1 hu
              have := isDecimal_lt hd
              refine .inr ⟨hle, b, ?_, ?_, .inl ?_⟩
              · rw [show (x * 10 + u) / 10 = x by omega, hx1.2]
              · rw [show (x * 10 + u) % 10 = u by omega]; exact hd
              · omega
            · have hu1 : u < 10 ∧ b = digit u := digitVal_some hu
              have := hu1.1
              refine .inr ⟨hle, b, ?_, ?_, .inr ?_⟩
              · rw [show (x * 10 + u) / 10 = x by omega, hx1.2]
              · rw [show (x * 10 + u) % 10 = u by omega]
                rw [hu1.2]
                exact (decimalVal_iff _ _).1 (decimal_digit (by omega))
              · rw [show (x * 10 + u) % 10 = u by omega]; exact hu1.2
          · simp at h
        · simp at h
      · simp at h
    · simp at h
  · rintro (⟨c, rfl, h⟩ | ⟨hle, c, rfl, hc, hu⟩)
    · exact (decimalVal_iff _ _).2 h
    · have : strpUnit mx (n / 10) c = some (n % 10) := by
        unfold strpUnit
        split
        · exact (decimalVal_iff _ _).2 hc
        · rcases hu with hu | rfl
          · omega
          · exact digitVal_digit (by omega)
      simp only [strpTwo, digitVal_digit (show n / 10 < 10 by omega), this]
      rw [show n / 10 * 10 + n % 10 = n by omega, if_pos hle]

theorem splitFirstP_some_iff {p : Char → Bool} {s a b : List Char} :
    splitFirstP p s = (a, some b) ↔ ∃ c, s = a ++ c :: b ∧ p c = true ∧ ∀ x ∈ a, p x = false := by
  constructor
  · intro h
    induction s generalizing a with
    | nil => simp [splitFirstP] at h
    | cons x xs ih =>
      unfold splitFirstP at h
      by_cases hx : p x = true
      · simp only [hx, if_true, Prod.mk.injEq, Option.some.injEq] at h
        obtain ⟨rfl, rfl⟩ := h
        exact ⟨x, rfl, hx, by simp⟩
      · simp only [hx] at h
        cases hs : splitFirstP p xs with
        | mk u v =>
          rw [hs] at h
          simp only [Bool.false_eq_true, if_false, Prod.mk.injEq] at h
          obtain ⟨rfl, rfl⟩ := h
          obtain ⟨c, h1, h2, h3⟩ := ih hs
          refine ⟨c, by rw [h1]; rfl, h2, fun y hy => ?_⟩
          rcases List.mem_cons.1 hy with rfl | hy
          · simpa using hx
          · exact h3 y hy
  · rintro ⟨c, rfl, hc, ha⟩
    exact splitFirstP_some ha hc

/-- no field contains a separator -/
theorem isDecimal_ne {c x : Char} {n : Nat} (h : IsDecimal c n)
    (hx : x ∈ ['-', ':', 'T', 't', 'Z', 'z', '.', '\n', ' ']) : c ≠ x := by
  rintro rfl
  have h0 : ∀ x ∈ ['-', ':', 'T', 't', 'Z', 'z', '.', '\n', ' '], decimalVal? x = none := by decide +kernel
  have := (decimalVal_iff _ _).2 h
  rw [h0 c hx] at this
  simp at this

theorem digit_isDecimal {n : Nat} (h : n < 10) : IsDecimal (digit n) n := (decimalVal_iff _ _).1 (decimal_digit h)

theorem fieldText_chars {mx n : Nat} {t : List Char} (hm : mx < 100) (h : FieldText mx t n) :
    ∀ c ∈ t, ∃ k, IsDecimal c k := by
  rcases h with ⟨c, rfl, h⟩ | ⟨hle, c, rfl, hc, _⟩
  · intro x hx
    simp only [List.mem_cons, List.not_mem_nil, or_false] at hx
    subst hx; exact ⟨_, h⟩
  · intro x hx
    simp only [List.mem_cons, List.not_mem_nil, or_false] at hx
    rcases hx with rfl | rfl
    · exact ⟨_, digit_isDecimal (by omega)⟩
    · exact ⟨_, hc⟩

theorem fieldText_not_mem {mx n : Nat} {t : List Char} (hm : mx < 100) (h : FieldText mx t n) {x : Char}
    (hx : x ∈ ['-', ':', 'T', 't', 'Z', 'z', '.', '\n', ' ']) : x ∉ t := fun hm' => by
  obtain ⟨k, hk⟩ := fieldText_chars hm h x hm'
  exact isDecimal_ne hk hx rfl

theorem strpSecZ_iff (s : List Char) (n : Nat) :
    strpSecZ s = some n ↔ ∃ st z, s = st ++ [z] ∧ FieldText 61 st n ∧ (z = 'Z' ∨ z = 'z') := by
  unfold strpSecZ
  constructor
  · intro h
    split at h
    · next st hs =>
      obtain ⟨z, h1, h2, _⟩ := splitFirstP_some_iff.1 hs
      refine ⟨st, z, h1, (strpTwo_iff (by decide) _ _).1 h, ?_⟩
      simpa using h2
    · simp at h
  · rintro ⟨st, z, rfl, h, hz⟩
    rw [splitFirstP_some_iff.2 ⟨z, rfl, by simpa using hz, fun x hx => ?_⟩]
    · exact (strpTwo_iff (by decide) _ _).2 h
    · have h1 : x ≠ 'Z' := fun e => fieldText_not_mem (by decide) h (by decide) (e ▸ hx)
      have h2 : x ≠ 'z' := fun e => fieldText_not_mem (by decide) h (by decide) (e ▸ hx)
      simp [h1, h2]

theorem strpMinSec_iff (s : List Char) (m n : Nat) :
    strpMinSec s = some (m, n) ↔ ∃ mt st z, s = mt ++ ':' :: (st ++ [z]) ∧ FieldText 59 mt m ∧ FieldText 61 st n ∧
      (z = 'Z' ∨ z = 'z') := by
  unfold strpMinSec
  constructor
  · intro h
    split at h
    · simp at h
    · next mt r hs =>
      split at h
      · next m' n' hm hn =>
        simp only [Option.some.injEq, Prod.mk.injEq] at h
        obtain ⟨rfl, rfl⟩ := h
        obtain ⟨st, z, rfl, h1, h2⟩ := (strpSecZ_iff _ _).1 hn
        exact ⟨mt, st, z, (splitFirst_some_iff.1 hs).1, (strpTwo_iff (by decide) _ _).1 hm, h1, h2⟩
      · simp at h
  · rintro ⟨mt, st, z, rfl, hm, hn, hz⟩
    rw [splitFirst_some_iff.2 ⟨rfl, fieldText_not_mem (by decide) hm (by decide)⟩]
    simp only [(strpTwo_iff (by decide) _ _).2 hm, (strpSecZ_iff _ _).2 ⟨st, z, rfl, hn, hz⟩]

theorem strpClock_iff (s : List Char) (h m n : Nat) : strpClock s = some (h, m, n) ↔ ClockText s h m n := by
  unfold strpClock ClockText
  constructor
  · intro hh
    split at hh
    · simp at hh
    · next ht r hs =>
      split at hh
      · next h' m' n' h1 h2 =>
        simp only [Option.some.injEq, Prod.mk.injEq] at hh
        obtain ⟨rfl, rfl, rfl⟩ := hh
        obtain ⟨mt, st, z, rfl, h3, h4, h5⟩ := (strpMinSec_iff _ _ _).1 h2
        exact ⟨ht, mt, st, z, (splitFirst_some_iff.1 hs).1, (strpTwo_iff (by decide) _ _).1 h1, h3, h4, h5⟩
      · simp at hh
  · rintro ⟨ht, mt, st, z, rfl, h1, h2, h3, h4⟩
    rw [splitFirst_some_iff.2 ⟨rfl, fieldText_not_mem (by decide) h1 (by decide)⟩]
    simp only [(strpTwo_iff (by decide) _ _).2 h1, (strpMinSec_iff _ _ _).2 ⟨mt, st, z, rfl, h2, h3, h4⟩]

theorem strpDate_iff (s : List Char) (y m d : Nat) : strpDate s = some (y, m, d) ↔ DateText s y m d := by
  unfold strpDate DateText
  constructor
  · intro h
    split at h
    · simp at h
    · next yt rest hs =>
      split at h
      · next y' m' d' hy hmd =>
        split at h
        · next he =>
          simp only [Option.some.injEq, Prod.mk.injEq] at h
          obtain ⟨rfl, rfl, rfl⟩ := h
          have hy1 := (strpYear_iff _ _).1 hy
          obtain ⟨mt, dt, rfl, hm, hd⟩ := (strpMonthDay_iff _ _ _).1 hmd
          simp only [dateExists, Bool.and_eq_true, decide_eq_true_eq] at he
          exact ⟨yt, mt, dt, (splitFirst_some_iff.1 hs).1, hy1, by omega, hm, hd, he.2⟩
        · simp at h
      · simp at h
  · rintro ⟨yt, mt, dt, rfl, hy, h1, hm, hd, hl⟩
    rw [splitFirst_some_iff.2 ⟨rfl, dash_not_mem_year hy⟩]
    have h2 := yearText_le hy
    simp only [(strpYear_iff _ _).2 hy, (strpMonthDay_iff _ _ _).2 ⟨mt, dt, rfl, hm, hd⟩]
    obtain ⟨hm1, hm2, _⟩ := hm
    obtain ⟨hd1, hd2, _⟩ := hd
    rw [if_pos (by simp [dateExists, h1, h2, hm1, hm2, hd1, hl])]

/-- the characters of a date -/
theorem dateText_chars {s : List Char} {y m d : Nat} (h : DateText s y m d) :
    ∀ c ∈ s, c = '-' ∨ c = ' ' ∨ ∃ k, IsDecimal c k := by
  obtain ⟨yt, mt, dt, rfl, ⟨_, _, _, _, _, _, _, _, rfl, ha, hb, hc, hd, _⟩, _, ⟨m1, m2, hm⟩, ⟨d1, d2, hd'⟩, _⟩ := h
  have hmt : ∀ c ∈ mt, ∃ k, IsDecimal c k := by
    rcases hm with rfl | ⟨_, rfl⟩
    · intro c hc
      simp only [pad2, List.mem_cons, List.not_mem_nil, or_false] at hc
      rcases hc with rfl | rfl <;> exact ⟨_, digit_isDecimal (by omega)⟩
    · intro c hc
      simp only [List.mem_cons, List.not_mem_nil, or_false] at hc
      subst hc; exact ⟨_, digit_isDecimal (by omega)⟩
  have hdt : ∀ c ∈ dt, c = ' ' ∨ ∃ k, IsDecimal c k := by
    rcases hd' with rfl | ⟨_, rfl | rfl⟩ | ⟨_, _, c, rfl, hc⟩
    · intro c hc
      simp only [pad2, List.mem_cons, List.not_mem_nil, or_false] at hc
      rcases hc with rfl | rfl <;> exact .inr ⟨_, digit_isDecimal (by omega)⟩
    · intro c hc
      simp only [List.mem_cons, List.not_mem_nil, or_false] at hc
      subst hc; exact .inr ⟨_, digit_isDecimal (by omega)⟩
    · intro c hc
      simp only [List.mem_cons, List.not_mem_nil, or_false] at hc
      rcases hc with rfl | rfl
      · exact .inl rfl
      · exact .inr ⟨_, digit_isDecimal (by omega)⟩
    · intro x hx
      simp only [List.mem_cons, List.not_mem_nil, or_false] at hx
      rcases hx with rfl | rfl
      · exact .inr ⟨_, digit_isDecimal (by omega)⟩
      · exact .inr ⟨_, hc⟩
  intro c hc'
  simp only [List.cons_append, List.nil_append, List.mem_cons, List.mem_append] at hc'
  rcases hc' with rfl | rfl | rfl | rfl | rfl | hc' | rfl | hc'
  · exact .inr (.inr ⟨_, ha⟩)
  · exact .inr (.inr ⟨_, hb⟩)
  · exact .inr (.inr ⟨_, hc⟩)
  · exact .inr (.inr ⟨_, hd⟩)
  · exact .inl rfl
  · exact .inr (.inr (hmt c hc'))
  · exact .inl rfl
  · exact .inr (hdt c hc')

/-- **C44, exactly which texts the format accepts**: `time.strptime` with `%Y-%m-%dT%H:%M:%SZ` reads the texts of the
grammar, with their fields, and refuses all others. -/
theorem C44_read_exact (s : List Char) (tm : Tm) :
    strptimeTs s = some tm ↔ ∃ y m d h mi sec : Nat, TimeText s y m d h mi sec ∧
      tm = { year := y, mon := m, mday := d, hour := h, min := mi, sec := sec,
             wday := (ymd2ord y m d + 6) % 7, yday := daysBeforeMonth y m + d } := by
  unfold strptimeTs TimeText
  constructor
  · intro hh
    split at hh
    · simp at hh
    · next dt ct hs =>
      split at hh
      · next y m d h mi sec h1 h2 =>
        simp only [Option.some.injEq] at hh
        obtain ⟨t, e, ht, _⟩ := splitFirstP_some_iff.1 hs
        exact ⟨y, m, d, h, mi, sec, ⟨dt, ct, t, e, (strpDate_iff _ _ _ _).1 h1, (strpClock_iff _ _ _ _).1 h2,
          by simpa using ht⟩, hh.symm⟩
      · simp at hh
  · rintro ⟨y, m, d, h, mi, sec, ⟨dt, ct, t, rfl, h1, h2, ht⟩, rfl⟩
    rw [splitFirstP_some_iff.2 ⟨t, rfl, by simpa using ht, fun x hx => ?_⟩]
    · simp only [(strpDate_iff _ _ _ _).2 h1, (strpClock_iff _ _ _ _).2 h2]
    · rcases dateText_chars h1 x hx with rfl | rfl | ⟨k, hk⟩
      · decide
      · decide
      · have h1 : x ≠ 'T' := isDecimal_ne hk (by decide)
        have h2 : x ≠ 't' := isDecimal_ne hk (by decide)
        simp [h1, h2]

/-- `n` digits of any scripts -/
def NDigits (n : Nat) (l : List Char) : Prop := l.length = n ∧ ∀ c ∈ l, ∃ k, IsDecimal c k

/-- what stands before the fraction: all fields in full width -/
def WideTime (b : List Char) : Prop :=
  ∃ y m d h mi sec, b = y ++ '-' :: (m ++ '-' :: (d ++ 'T' :: (h ++ ':' :: (mi ++ ':' :: sec)))) ∧
    NDigits 4 y ∧ NDigits 2 m ∧ NDigits 2 d ∧ NDigits 2 h ∧ NDigits 2 mi ∧ NDigits 2 sec

/-- a time with a fraction: `b` before the point, any number of digits after it, `Z`, and perhaps a line end -/
def FractionText (s b : List Char) : Prop :=
  ∃ ds nl, s = b ++ '.' :: (ds ++ 'Z' :: nl) ∧ WideTime b ∧ (∀ c ∈ ds, ∃ k, IsDecimal c k) ∧ (nl = [] ∨ nl = ['\n'])

theorem isSome_decimal (c : Char) : (decimalVal? c).isSome = true ↔ ∃ k, IsDecimal c k := by
  rw [Option.isSome_iff_exists]
  simp only [decimalVal_iff]

theorem matchShape_d (ps s : List Char) :
    matchShape ('d' :: ps) s = true ↔ ∃ c cs, s = c :: cs ∧ (∃ k, IsDecimal c k) ∧ matchShape ps cs = true := by
  cases s with
  | nil => simp [matchShape]
  | cons c cs =>
    simp only [matchShape, if_true, Bool.and_eq_true, isSome_decimal, List.cons.injEq]
    constructor
    · intro h; exact ⟨c, cs, ⟨rfl, rfl⟩, h⟩
    · rintro ⟨_, _, ⟨rfl, rfl⟩, h⟩; exact h

theorem matchShape_c {p : Char} (hp : p ≠ 'd') (ps s : List Char) :
    matchShape (p :: ps) s = true ↔ ∃ cs, s = p :: cs ∧ matchShape ps cs = true := by
  cases s with
  | nil => simp [matchShape]
  | cons c cs =>
    simp only [matchShape, hp, if_false, Bool.and_eq_true, decide_eq_true_eq, List.cons.injEq]
    constructor
    · rintro ⟨rfl, h⟩; exact ⟨cs, ⟨rfl, rfl⟩, h⟩
    · rintro ⟨_, ⟨rfl, rfl⟩, h⟩; exact ⟨rfl, h⟩

theorem matchShape_nil (s : List Char) : matchShape [] s = true ↔ s = [] := by
  cases s <;> simp [matchShape]

theorem digits_two {l : List Char} (h : NDigits 2 l) : ∃ a b, l = [a, b] ∧ (∃ k, IsDecimal a k) ∧ ∃ k, IsDecimal b k := by
  obtain ⟨h1, h2⟩ := h
  match l, h1 with
  | [a, b], _ => exact ⟨a, b, rfl, h2 a (by simp), h2 b (by simp)⟩

theorem digits_two' {a b : Char} (ha : ∃ k, IsDecimal a k) (hb : ∃ k, IsDecimal b k) : NDigits 2 [a, b] :=
  ⟨rfl, fun c hc => by
    simp only [List.mem_cons, List.not_mem_nil, or_false] at hc
    rcases hc with rfl | rfl <;> assumption⟩

theorem wideTime_iff (b : List Char) : matchShape "dddd-dd-ddTdd:dd:dd".toList b = true ↔ WideTime b := by
  have e : "dddd-dd-ddTdd:dd:dd".toList = ['d', 'd', 'd', 'd', '-', 'd', 'd', '-', 'd', 'd', 'T', 'd', 'd', ':', 'd', 'd',
    ':', 'd', 'd'] := by decide
  rw [e]
  constructor
  · intro h
    obtain ⟨y1, _, rfl, hy1, h⟩ := (matchShape_d _ _).1 h
    obtain ⟨y2, _, rfl, hy2, h⟩ := (matchShape_d _ _).1 h
    obtain ⟨y3, _, rfl, hy3, h⟩ := (matchShape_d _ _).1 h
    obtain ⟨y4, _, rfl, hy4, h⟩ := (matchShape_d _ _).1 h
    obtain ⟨_, rfl, h⟩ := (matchShape_c (by decide) _ _).1 h
    obtain ⟨m1, _, rfl, hm1, h⟩ := (matchShape_d _ _).1 h
    obtain ⟨m2, _, rfl, hm2, h⟩ := (matchShape_d _ _).1 h
    obtain ⟨_, rfl, h⟩ := (matchShape_c (by decide) _ _).1 h
    obtain ⟨d1, _, rfl, hd1, h⟩ := (matchShape_d _ _).1 h
    obtain ⟨d2, _, rfl, hd2, h⟩ := (matchShape_d _ _).1 h
    obtain ⟨_, rfl, h⟩ := (matchShape_c (by decide) _ _).1 h
    obtain ⟨h1, _, rfl, hh1, h⟩ := (matchShape_d _ _).1 h
    obtain ⟨h2, _, rfl, hh2, h⟩ := (matchShape_d _ _).1 h
    obtain ⟨_, rfl, h⟩ := (matchShape_c (by decide) _ _).1 h
    obtain ⟨i1, _, rfl, hi1, h⟩ := (matchShape_d _ _).1 h
    obtain ⟨i2, _, rfl, hi2, h⟩ := (matchShape_d _ _).1 h
    obtain ⟨_, rfl, h⟩ := (matchShape_c (by decide) _ _).1 h
    obtain ⟨s1, _, rfl, hs1, h⟩ := (matchShape_d _ _).1 h
    obtain ⟨s2, _, rfl, hs2, h⟩ := (matchShape_d _ _).1 h
    rw [matchShape_nil] at h
    subst h
    refine ⟨[y1, y2, y3, y4], [m1, m2], [d1, d2], [h1, h2], [i1, i2], [s1, s2], rfl, ⟨rfl, ?_⟩, digits_two' hm1 hm2,
      digits_two' hd1 hd2, digits_two' hh1 hh2, digits_two' hi1 hi2, digits_two' hs1 hs2⟩
    intro c hc
    simp only [List.mem_cons, List.not_mem_nil, or_false] at hc
    rcases hc with rfl | rfl | rfl | rfl <;> assumption
  · rintro ⟨y, m, d, h, mi, sec, rfl, ⟨hy, hyd⟩, hm, hd, hh, hi, hs⟩
    obtain ⟨m1, m2, rfl, hm1, hm2⟩ := digits_two hm
    obtain ⟨d1, d2, rfl, hd1, hd2⟩ := digits_two hd
    obtain ⟨h1, h2, rfl, hh1, hh2⟩ := digits_two hh
    obtain ⟨i1, i2, rfl, hi1, hi2⟩ := digits_two hi
    obtain ⟨s1, s2, rfl, hs1, hs2⟩ := digits_two hs
    match y, hy with
    | [y1, y2, y3, y4], _ =>
      have q1 := hyd y1 (by simp)
      have q2 := hyd y2 (by simp)
      have q3 := hyd y3 (by simp)
      have q4 := hyd y4 (by simp)
      simp only [← isSome_decimal] at *
      simp [matchShape, *]

theorem fracTail_iff (r : List Char) :
    fracTail r = true ↔ ∃ ds nl, r = ds ++ 'Z' :: nl ∧ (∀ c ∈ ds, ∃ k, IsDecimal c k) ∧ (nl = [] ∨ nl = ['\n']) := by
  induction r with
  | nil => simp [fracTail]
  | cons c cs ih =>
    by_cases hz : c = 'Z'
    · subst hz
      have hn : decimalVal? 'Z' = none := by decide +kernel
      have hl : fracTail ('Z' :: cs) = true ↔ cs = [] ∨ cs = ['\n'] := by
        unfold fracTail
        split
        · next h => simp at h; simp [h]
        · next h => simp at h; simp [h]
        · next h3 h1 h2 h =>
          simp only [List.cons.injEq] at h
          obtain ⟨rfl, rfl⟩ := h
          simp only [hn, Option.isSome_none, Bool.false_and, Bool.false_eq_true, false_iff, not_or]
          exact ⟨fun e => h1 rfl e, fun e => h2 rfl e⟩
        · next h => simp at h
      rw [hl]
      constructor
      · intro h; exact ⟨[], cs, rfl, by simp, h⟩
      · rintro ⟨ds, nl, e, hd, h⟩
        cases ds with
        | nil => simp at e; subst e; exact h
        | cons d ds =>
          simp only [List.cons_append, List.cons.injEq] at e
          obtain ⟨k, hk⟩ := hd d (by simp)
          exact absurd e.1.symm (isDecimal_ne hk (by decide))
    · have hl : fracTail (c :: cs) = ((decimalVal? c).isSome && fracTail cs) := by
        rw [fracTail]
        · intro e _; exact hz e
        · intro e _; exact hz e
      rw [hl, Bool.and_eq_true, ih, isSome_decimal]
      constructor
      · rintro ⟨hc, ds, nl, rfl, hd, h⟩
        refine ⟨c :: ds, nl, rfl, ?_, h⟩
        intro x hx
        rcases List.mem_cons.1 hx with rfl | hx
        · exact hc
        · exact hd x hx
      · rintro ⟨ds, nl, e, hd, h⟩
        cases ds with
        | nil => simp only [List.nil_append, List.cons.injEq] at e; exact absurd e.1 hz
        | cons d ds =>
          simp only [List.cons_append, List.cons.injEq] at e
          obtain ⟨rfl, rfl⟩ := e
          exact ⟨hd _ (by simp), ds, nl, rfl, fun x hx => hd x (by simp [hx]), h⟩

theorem wideTime_length {b : List Char} (h : WideTime b) : b.length = 19 := by
  obtain ⟨y, m, d, h, mi, sec, rfl, hy, hm, hd, hh, hi, hs⟩ := h
  simp [hy.1, hm.1, hd.1, hh.1, hi.1, hs.1]

theorem fragmentMatch_iff (s b : List Char) : fragmentMatch s = some b ↔ FractionText s b := by
  unfold fragmentMatch FractionText
  constructor
  · intro h
    split at h
    · next hw =>
      have hw := (wideTime_iff _).1 hw
      split at h
      · next r hr =>
        split at h
        · next hf =>
          simp only [Option.some.injEq] at h
          subst h
          obtain ⟨ds, nl, rfl, hd, hn⟩ := (fracTail_iff _).1 hf
          exact ⟨ds, nl, by rw [← hr, List.take_append_drop], hw, hd, hn⟩
        · simp at h
      · simp at h
    · simp at h
  · rintro ⟨ds, nl, rfl, hw, hd, hn⟩
    have hl := wideTime_length hw
    have e1 : (b ++ '.' :: (ds ++ 'Z' :: nl)).take 19 = b := by rw [← hl]; simp
    have e2 : (b ++ '.' :: (ds ++ 'Z' :: nl)).drop 19 = '.' :: (ds ++ 'Z' :: nl) := by rw [← hl]; simp
    rw [e1, e2, if_pos ((wideTime_iff _).2 hw)]
    simp only [(fracTail_iff _).2 ⟨ds, nl, rfl, hd, hn⟩, if_true]

/-- a text of the plain format has no point -/
theorem timeText_no_point {s : List Char} {y m d h mi sec : Nat} (ht : TimeText s y m d h mi sec) : '.' ∉ s := by
  obtain ⟨dt, ct, t, rfl, h1, ⟨a, b, c, z, rfl, h2, h3, h4, hz⟩, ht⟩ := ht
  intro hm
  simp only [List.mem_append, List.mem_cons, List.not_mem_nil, or_false] at hm
  rcases hm with hm | hm | hm | hm | hm | hm | hm | hm
  · rcases dateText_chars h1 _ hm with e | e | ⟨k, hk⟩
    · exact absurd e (by decide)
    · exact absurd e (by decide)
    · exact isDecimal_ne hk (by decide) rfl
  · subst hm; rcases ht with e | e <;> exact absurd e (by decide)
  · exact fieldText_not_mem (by decide) h2 (by decide) hm
  · exact absurd hm (by decide)
  · exact fieldText_not_mem (by decide) h3 (by decide) hm
  · exact absurd hm (by decide)
  · exact fieldText_not_mem (by decide) h4 (by decide) hm
  · subst hm; rcases hz with e | e <;> exact absurd e (by decide)

/-- the second at which a time of day on a date falls, seconds since 1970 -/
def secondOf (y m d h mi sec : Nat) : Int := (ymd2ord y m d - epochOrd) * 86400 + h * 3600 + mi * 60 + sec

theorem timegm_secondOf (y m d h mi sec : Nat) (w yd : Int) :
    timegm { year := y, mon := m, mday := d, hour := h, min := mi, sec := sec, wday := w, yday := yd } =
      secondOf y m d h mi sec := by
  simp only [timegm, secondOf, ymd2ord]
  omega

/-- a text that is read, and the second it stands for: the format itself, or the format with a fraction, which is
cut off -/
def ReadAs (s : List Char) (x : Int) : Prop :=
  ∃ y m d h mi sec, x = secondOf y m d h mi sec ∧
    (TimeText s y m d h mi sec ∨ ∃ b, FractionText s b ∧ TimeText (b ++ ['Z']) y m d h mi sec)

theorem fractionText_point {s b : List Char} (h : FractionText s b) : '.' ∈ s := by
  obtain ⟨ds, nl, rfl, _⟩ := h
  simp

/-- **C44, the whole of `str_to_time`**: it gives a time exactly for the texts of the format, with or without a
fraction, and it is the time of the second they stand for; a text with a fraction whose other fields make no time is a
`ValueError`; every other text but the empty one an `AttributeError`. -/
theorem C44_exact (s : List Char) :
    (∀ tm, strToTime s = .ok (some tm) ↔ ∃ x, ReadAs s x ∧ tm = gmtime x) ∧
    (strToTime s = .ok none ↔ s = []) ∧
    (strToTime s = .error .valueError ↔ (∃ b, FractionText s b) ∧ ¬ ∃ x, ReadAs s x) ∧
    (strToTime s = .error .attributeError ↔ s ≠ [] ∧ (¬ ∃ b, FractionText s b) ∧ ¬ ∃ x, ReadAs s x) := by
  by_cases h0 : s = []
  · subst h0
    have h1 : ¬ ∃ x, ReadAs [] x := by
      rintro ⟨_, _, _, _, _, _, _, _, ⟨_, _, _, h, _⟩ | ⟨_, ⟨_, _, h, _⟩, _⟩⟩ <;> simp at h
    have h2 : ¬ ∃ b, FractionText [] b := by
      rintro ⟨_, _, _, h, _⟩; simp at h
    have e : strToTime [] = .ok none := rfl
    rw [e]
    refine ⟨fun tm => ⟨fun h => by simp at h, ?_⟩, by simp, ?_, by simp⟩
    · rintro ⟨x, hx, _⟩; exact absurd ⟨x, hx⟩ h1
    · constructor
      · intro h; simp at h
      · rintro ⟨h, _⟩; exact absurd h h2
  · have hs : strToTime s = match strptimeTs s with
        | some t => .ok (some (gmtime (timegm t)))
        | none => match fragmentMatch s with
          | none => .error .attributeError
          | some g => match strptimeTs (g ++ ['Z']) with
            | some t => .ok (some (gmtime (timegm t)))
            | none => .error .valueError := by
      unfold strToTime; rw [if_neg h0]; rfl
    cases h1 : strptimeTs s with
    | some t =>
      rw [h1] at hs
      obtain ⟨y, m, d, h, mi, sec, ht, rfl⟩ := (C44_read_exact _ _).1 h1
      have hx : ReadAs s (secondOf y m d h mi sec) := ⟨y, m, d, h, mi, sec, rfl, .inl ht⟩
      have hnf : ∀ b, ¬ FractionText s b := fun b hb => timeText_no_point ht (fractionText_point hb)
      simp only [timegm_secondOf] at hs
      rw [hs]
      refine ⟨fun tm => ⟨fun e => ?_, ?_⟩, by simp [h0], ⟨fun e => by simp at e, fun e => absurd ⟨_, hx⟩ e.2⟩,
        ⟨fun e => by simp at e, fun e => absurd ⟨_, hx⟩ e.2.2⟩⟩
      · simp only [Except.ok.injEq, Option.some.injEq] at e
        exact ⟨_, hx, e.symm⟩
      · rintro ⟨x, ⟨y', m', d', h', mi', sec', rfl, ht' | ⟨b, hb, _⟩⟩, rfl⟩
        · have := (C44_read_exact _ _).2 ⟨y', m', d', h', mi', sec', ht', rfl⟩
          rw [h1] at this
          simp only [Option.some.injEq, Tm.mk.injEq, Int.natCast_inj] at this
          obtain ⟨rfl, rfl, rfl, rfl, rfl, rfl, _, _⟩ := this
          rfl
        · exact absurd hb (hnf b)
    | none =>
      rw [h1] at hs
      have hnt : ∀ y m d h mi sec, ¬ TimeText s y m d h mi sec := fun y m d h mi sec ht => by
        rw [(C44_read_exact _ _).2 ⟨y, m, d, h, mi, sec, ht, rfl⟩] at h1
        simp at h1
      cases h2 : fragmentMatch s with
      | none =>
        have hnf : ∀ b, ¬ FractionText s b := fun b hb => by
          rw [(fragmentMatch_iff _ _).2 hb] at h2; simp at h2
        have hnx : ¬ ∃ x, ReadAs s x := by
          rintro ⟨_, _, _, _, _, _, _, _, h | ⟨b, hb, _⟩⟩
          · exact hnt _ _ _ _ _ _ h
          · exact hnf b hb
        simp only [h2] at hs
        rw [hs]
        refine ⟨fun tm => ⟨fun e => by simp at e, ?_⟩, by simp [h0], ⟨fun e => by simp at e, ?_⟩,
          ⟨fun _ => ⟨h0, fun ⟨b, hb⟩ => hnf b hb, hnx⟩, fun _ => rfl⟩⟩
        · rintro ⟨x, hx, _⟩; exact absurd ⟨x, hx⟩ hnx
        · rintro ⟨⟨b, hb⟩, _⟩; exact absurd hb (hnf b)
      | some g =>
        have hg := (fragmentMatch_iff _ _).1 h2
        have hu : ∀ b, FractionText s b → b = g := fun b hb => by
          have := (fragmentMatch_iff _ _).2 hb
          rw [h2] at this; simpa using this.symm
        simp only [h2] at hs
        cases h3 : strptimeTs (g ++ ['Z']) with
        | none =>
          simp only [h3] at hs
          have hnx : ¬ ∃ x, ReadAs s x := by
            rintro ⟨_, y, m, d, h, mi, sec, _, ht | ⟨b, hb, ht⟩⟩
            · exact hnt _ _ _ _ _ _ ht
            · rw [hu b hb] at ht
              rw [(C44_read_exact _ _).2 ⟨y, m, d, h, mi, sec, ht, rfl⟩] at h3
              simp at h3
          rw [hs]
          refine ⟨fun tm => ⟨fun e => by simp at e, ?_⟩, by simp [h0], ⟨fun _ => ⟨⟨g, hg⟩, hnx⟩, fun _ => rfl⟩,
            ⟨fun e => by simp at e, fun e => absurd ⟨g, hg⟩ e.2.1⟩⟩
          rintro ⟨x, hx, _⟩; exact absurd ⟨x, hx⟩ hnx
        | some t =>
          simp only [h3] at hs
          obtain ⟨y, m, d, h, mi, sec, ht, rfl⟩ := (C44_read_exact _ _).1 h3
          have hx : ReadAs s (secondOf y m d h mi sec) := ⟨y, m, d, h, mi, sec, rfl, .inr ⟨g, hg, ht⟩⟩
          simp only [timegm_secondOf] at hs
          rw [hs]
          refine ⟨fun tm => ⟨fun e => ?_, ?_⟩, by simp [h0], ⟨fun e => by simp at e, fun e => absurd ⟨_, hx⟩ e.2⟩,
            ⟨fun e => by simp at e, fun e => absurd ⟨_, hx⟩ e.2.2⟩⟩
          · simp only [Except.ok.injEq, Option.some.injEq] at e
            exact ⟨_, hx, e.symm⟩
          · rintro ⟨x, ⟨y', m', d', h', mi', sec', rfl, ht' | ⟨b, hb, ht'⟩⟩, rfl⟩
            · exact absurd ht' (hnt _ _ _ _ _ _)
            · rw [hu b hb] at ht'
              have := (C44_read_exact _ _).2 ⟨y', m', d', h', mi', sec', ht', rfl⟩
              rw [h3] at this
              simp only [Option.some.injEq, Tm.mk.injEq, Int.natCast_inj] at this
              obtain ⟨rfl, rfl, rfl, rfl, rfl, rfl, _, _⟩ := this
              rfl

/-! The digits of other scripts are read where the format has `\d`, small letters everywhere; an hour `2` takes no
other script after it. -/
example : strToTime "2024-02-29t1٣:0５:59z".toList = .ok (some (gmtime 1709211959)) := by decide +kernel
example : strToTime "2024-02-29T2٣:00:00Z".toList = .error .attributeError := by decide +kernel
example : strToTime "2024-02-30T12:00:00.5Z".toList = .error .valueError := by decide +kernel
example : strToTime "2024-02-29T12:00:00.5Z\n".toList = .ok (some (gmtime 1709208000)) := by decide +kernel
example : strToTime [] = .ok none := (C44_exact []).2.1.2 rfl
/-- a second 61 is read as the second after the next minute -/
example : strToTime "2024-02-29T11:59:61Z".toList = .ok (some (gmtime 1709208001)) := by decide +kernel
example : ReadAs "2024-02-29T12:00:00Z".toList 1709208000 := by
  obtain ⟨x, hx, e⟩ := ((C44_exact "2024-02-29T12:00:00Z".toList).1 (gmtime 1709208000)).1 (by decide +kernel)
  have : x = 1709208000 := by
    have h := congrArg timegm e
    rw [timegm_gmtime, timegm_gmtime] at h
    exact h.symm
  exact this ▸ hx

end Verif
