/-
Property C175: exactly which texts `parse_duration` takes for a duration, which numbers it finds in them, and with
which error it refuses every other text.
-/
import Verif.Props.Time

namespace Verif

/-- the whole number in front of the letter `c` at the beginning of `l`, and what follows the letter.  If the letter
does not occur the number is 0 and nothing is used up.  Nothing left is nothing given. -/
def NumberBefore (c : Char) (l : List Char) (n : Int) (r : List Char) : Prop :=
  (l = [] ∧ n = 0 ∧ r = []) ∨
  (l.head? ≠ some '-' ∧ l ≠ [] ∧
    ((∃ a, l = a ++ c :: r ∧ c ∉ a ∧ pyIntOfChars a = some n) ∨ (c ∉ l ∧ n = 0 ∧ r = l)))

/-- the seconds: as above with the letter `S`, but a number with a fraction will do; what follows does not matter -/
def SecondsBefore (pf : List Char → Option Rat) (l : List Char) (s : Secs) : Prop :=
  (l = [] ∧ s = .int 0) ∨
  (l.head? ≠ some '-' ∧ l ≠ [] ∧
    ((∃ a r, l = a ++ 'S' :: r ∧ 'S' ∉ a ∧
        ((∃ n, pyIntOfChars a = some n ∧ s = .int n) ∨ (pyIntOfChars a = none ∧ ∃ q, pf a = some q ∧ s = .flt q))) ∨
      ('S' ∉ l ∧ s = .int 0)))

/-- the `T` between days and hours: it has to be there if anything is left, and something has to follow it -/
def TimePart (l r : List Char) : Prop := (l = [] ∧ r = []) ∨ (l = 'T' :: r ∧ r ≠ [])

theorem intItem_iff {c : Char} {l r : List Char} {n : Int} (hl : l ≠ []) :
    intItem c l = .ok (n, r) ↔ NumberBefore c l n r := by
  unfold intItem NumberBefore
  cases l with
  | nil => exact absurd rfl hl
  | cons x xs =>
    by_cases hx : x = '-'
    · subst hx; simp [noMinus]
    · simp only [noMinus, if_neg hx]
      rcases e : splitFirst c (x :: xs) with ⟨a, _ | r'⟩
      · obtain ⟨h1, h2⟩ := splitFirst_none_iff.1 e
        constructor
        · intro h
          cases h
          exact .inr ⟨by simpa using hx, by simp, .inr ⟨h2, rfl, rfl⟩⟩
        · rintro (⟨h, -⟩ | ⟨-, -, ⟨a', h, -⟩ | ⟨-, rfl, rfl⟩⟩)
          · exact absurd h (by simp)
          · rw [h] at h2; exact absurd (by simp) h2
          · rfl
      · obtain ⟨h1, h2⟩ := splitFirst_some_iff.1 e
        constructor
        · intro h
          refine .inr ⟨by simpa using hx, by simp, .inl ⟨a, ?_⟩⟩
          cases e2 : pyIntOfChars a with
          | none => simp [e2] at h
          | some k =>
            simp [e2] at h
            obtain ⟨rfl, rfl⟩ := h
            exact ⟨h1, h2, rfl⟩
        · rintro (⟨h, -⟩ | ⟨-, -, ⟨a', h, h3, h4⟩ | ⟨h, -⟩⟩)
          · exact absurd h (by simp)
          · have := splitFirst_some_iff.2 ⟨h, h3⟩
            rw [e] at this
            cases this
            simp [h4]
          · rw [h1] at h; exact absurd (by simp) h

theorem secItem_iff {pf : List Char → Option Rat} {l : List Char} {s : Secs} (hl : l ≠ []) :
    (∃ r, secItem pf l = .ok (s, r)) ↔ SecondsBefore pf l s := by
  unfold secItem SecondsBefore
  cases l with
  | nil => exact absurd rfl hl
  | cons x xs =>
    by_cases hx : x = '-'
    · subst hx; simp [noMinus]
    · simp only [noMinus, if_neg hx]
      rcases e : splitFirst 'S' (x :: xs) with ⟨a, _ | r'⟩
      · obtain ⟨h1, h2⟩ := splitFirst_none_iff.1 e
        constructor
        · rintro ⟨r, h⟩
          cases h
          exact .inr ⟨by simpa using hx, by simp, .inr ⟨h2, rfl⟩⟩
        · rintro (⟨h, -⟩ | ⟨-, -, ⟨a', r, h, -⟩ | ⟨-, rfl⟩⟩)
          · exact absurd h (by simp)
          · rw [h] at h2; exact absurd (by simp) h2
          · exact ⟨_, rfl⟩
      · obtain ⟨h1, h2⟩ := splitFirst_some_iff.1 e
        constructor
        · rintro ⟨r, h⟩
          refine .inr ⟨by simpa using hx, by simp, .inl ⟨a, r', h1, h2, ?_⟩⟩
          cases e2 : pyIntOfChars a with
          | none =>
            cases e3 : pf a with
            | none => simp [e2, e3] at h
            | some q =>
              simp [e2, e3] at h
              exact .inr ⟨rfl, q, rfl, h.1.symm⟩
          | some k =>
            simp [e2] at h
            exact .inl ⟨k, rfl, h.1.symm⟩
        · rintro (⟨h, -⟩ | ⟨-, -, ⟨a', r, h, h3, h4⟩ | ⟨h, -⟩⟩)
          · exact absurd h (by simp)
          · have := splitFirst_some_iff.2 ⟨h, h3⟩
            rw [e] at this
            cases this
            rcases h4 with ⟨n, h4, rfl⟩ | ⟨h4, q, h5, rfl⟩
            · exact ⟨r', by simp [h4]⟩
            · exact ⟨r', by simp [h4, h5]⟩
          · rw [h1] at h; exact absurd (by simp) h

/-- the parts of a duration after the `P`, in turn -/
def DurationParts (pf : List Char → Option Rat) (l : List Char) (d : Dur) : Prop :=
  ∃ l1 l2 l3 l4 l5 l6, NumberBefore 'Y' l d.year l1 ∧ NumberBefore 'M' l1 d.mon l2 ∧ NumberBefore 'D' l2 d.mday l3 ∧
    TimePart l3 l4 ∧ NumberBefore 'H' l4 d.hour l5 ∧ NumberBefore 'M' l5 d.min l6 ∧ SecondsBefore pf l6 d.sec

theorem numberBefore_nil {c : Char} {n : Int} {r : List Char} : NumberBefore c [] n r ↔ n = 0 ∧ r = [] := by
  simp [NumberBefore]

theorem secondsBefore_nil {pf : List Char → Option Rat} {s : Secs} : SecondsBefore pf [] s ↔ s = .int 0 := by
  simp [SecondsBefore]

theorem timePart_nil {r : List Char} : TimePart [] r ↔ r = [] := by simp [TimePart]

theorem durS_iff {pf : List Char → Option Rat} {l : List Char} (hl : l ≠ []) (d e : Dur) :
    durS pf d l = .ok e ↔ ∃ s, SecondsBefore pf l s ∧ e = { d with sec := s } := by
  unfold durS
  constructor
  · intro h
    rcases e1 : secItem pf l with x | ⟨s, r⟩
    · rw [e1] at h; cases h
    · rw [e1] at h; cases h
      exact ⟨s, (secItem_iff hl).1 ⟨r, e1⟩, rfl⟩
  · rintro ⟨s, hs, rfl⟩
    obtain ⟨r, hr⟩ := (secItem_iff hl).2 hs
    rw [hr]

theorem durMin_iff {pf : List Char → Option Rat} {l : List Char} (hl : l ≠ []) (d e : Dur) (h0 : d.sec = .int 0) :
    durMin pf d l = .ok e ↔ ∃ n l1 s, NumberBefore 'M' l n l1 ∧ SecondsBefore pf l1 s ∧
      e = { d with min := n, sec := s } := by
  unfold durMin
  constructor
  · intro h
    rcases e1 : intItem 'M' l with x | ⟨n, _ | ⟨c, r⟩⟩
    · rw [e1] at h; cases h
    · rw [e1] at h; cases h
      exact ⟨n, [], .int 0, (intItem_iff hl).1 e1, secondsBefore_nil.2 rfl, by rw [← h0]⟩
    · rw [e1] at h
      obtain ⟨s, hs, rfl⟩ := (durS_iff (by simp) _ _).1 h
      exact ⟨n, _, s, (intItem_iff hl).1 e1, hs, rfl⟩
  · rintro ⟨n, l1, s, hn, hs, rfl⟩
    rw [(intItem_iff hl).2 hn]
    cases l1 with
    | nil => rw [secondsBefore_nil] at hs; subst hs; simp only; rw [← h0]
    | cons c r => exact (durS_iff (by simp) _ _).2 ⟨s, hs, rfl⟩

theorem durH_iff {pf : List Char → Option Rat} {l : List Char} (hl : l ≠ []) (d e : Dur) (h0 : d.sec = .int 0)
    (h1 : d.min = 0) :
    durH pf d l = .ok e ↔ ∃ h n s l1 l2, NumberBefore 'H' l h l1 ∧ NumberBefore 'M' l1 n l2 ∧ SecondsBefore pf l2 s ∧
      e = { d with hour := h, min := n, sec := s } := by
  unfold durH
  constructor
  · intro h
    rcases e1 : intItem 'H' l with x | ⟨n, _ | ⟨c, r⟩⟩
    · rw [e1] at h; cases h
    · rw [e1] at h; cases h
      exact ⟨n, 0, .int 0, [], [], (intItem_iff hl).1 e1, numberBefore_nil.2 ⟨rfl, rfl⟩, secondsBefore_nil.2 rfl,
        by rw [← h0, ← h1]⟩
    · rw [e1] at h
      obtain ⟨n', l2, s, hn, hs, rfl⟩ := (durMin_iff (by simp) _ _ (by exact h0)).1 h
      exact ⟨n, n', s, _, l2, (intItem_iff hl).1 e1, hn, hs, rfl⟩
  · rintro ⟨h, n, s, l1, l2, hh, hn, hs, rfl⟩
    rw [(intItem_iff hl).2 hh]
    cases l1 with
    | nil =>
      obtain ⟨rfl, rfl⟩ := numberBefore_nil.1 hn
      rw [secondsBefore_nil] at hs; subst hs; simp only; rw [← h0, ← h1]
    | cons c r => exact (durMin_iff (by simp) _ _ (by exact h0)).2 ⟨n, l2, s, hn, hs, rfl⟩

theorem durT_iff {pf : List Char → Option Rat} {l : List Char} (hl : l ≠ []) (d e : Dur) (h0 : d.sec = .int 0)
    (h1 : d.min = 0) :
    durT pf d l = .ok e ↔ ∃ h n s l0 l1 l2, TimePart l l0 ∧ NumberBefore 'H' l0 h l1 ∧ NumberBefore 'M' l1 n l2 ∧
      SecondsBefore pf l2 s ∧ e = { d with hour := h, min := n, sec := s } := by
  have key : ∀ r, tItem l = .ok r ↔ TimePart l r := by
    intro r
    unfold tItem TimePart
    cases l with
    | nil => exact absurd rfl hl
    | cons c cs =>
      by_cases hc : c = '-'
      · subst hc; simp
      · by_cases hT : c = 'T'
        · subst hT
          by_cases hr : cs = []
          · simp [hr, hc]
          · simp only [if_neg hc, if_true, if_neg hr]
            constructor
            · intro h; cases h; exact .inr ⟨rfl, hr⟩
            · rintro (⟨h, -⟩ | ⟨h, -⟩)
              · cases h
              · cases h; rfl
        · simp [hc, hT]
  unfold durT
  constructor
  · intro h
    rcases e1 : tItem l with x | r
    · rw [e1] at h; cases h
    · rw [e1] at h
      have hr := (key r).1 e1
      have hne : r ≠ [] := by
        rcases hr with ⟨h, -⟩ | ⟨-, h⟩
        · exact absurd h hl
        · exact h
      obtain ⟨a, b, s, l1, l2, ha, hb, hs, rfl⟩ := (durH_iff hne _ _ h0 h1).1 h
      exact ⟨a, b, s, r, l1, l2, hr, ha, hb, hs, rfl⟩
  · rintro ⟨h, n, s, l0, l1, l2, ht, hh, hn, hs, rfl⟩
    rw [(key l0).2 ht]
    have hne : l0 ≠ [] := by
      rcases ht with ⟨h, -⟩ | ⟨-, h⟩
      · exact absurd h hl
      · exact h
    exact (durH_iff hne _ _ h0 h1).2 ⟨h, n, s, l1, l2, hh, hn, hs, rfl⟩

theorem durD_iff {pf : List Char → Option Rat} {l : List Char} (hl : l ≠ []) (y m : Int) (e : Dur) :
    durD pf { year := y, mon := m } l = .ok e ↔ ∃ l3 l4 l5 l6, NumberBefore 'D' l e.mday l3 ∧ TimePart l3 l4 ∧
      NumberBefore 'H' l4 e.hour l5 ∧ NumberBefore 'M' l5 e.min l6 ∧ SecondsBefore pf l6 e.sec ∧
      e.year = y ∧ e.mon = m := by
  unfold durD
  constructor
  · intro h
    rcases e1 : intItem 'D' l with x | ⟨n, _ | ⟨c, r⟩⟩
    · rw [e1] at h; cases h
    · rw [e1] at h; cases h
      exact ⟨[], [], [], [], (intItem_iff hl).1 e1, timePart_nil.2 rfl, numberBefore_nil.2 ⟨rfl, rfl⟩,
        numberBefore_nil.2 ⟨rfl, rfl⟩, secondsBefore_nil.2 rfl, rfl, rfl⟩
    · rw [e1] at h
      obtain ⟨a, b, s, l0, l1, l2, ht, ha, hb, hs, rfl⟩ := (durT_iff (by simp) _ _ rfl rfl).1 h
      exact ⟨_, l0, l1, l2, (intItem_iff hl).1 e1, ht, ha, hb, hs, rfl, rfl⟩
  · rintro ⟨l3, l4, l5, l6, hd, ht, hh, hn, hs, rfl, rfl⟩
    rw [(intItem_iff hl).2 hd]
    cases l3 with
    | nil =>
      obtain rfl := timePart_nil.1 ht
      obtain ⟨ea, rfl⟩ := numberBefore_nil.1 hh
      obtain ⟨eb, rfl⟩ := numberBefore_nil.1 hn
      have ec := secondsBefore_nil.1 hs
      rcases e with ⟨_, _, _, _, _, _⟩
      simp only at ea eb ec; subst ea eb ec; rfl
    | cons c r => exact (durT_iff (by simp) _ _ rfl rfl).2 ⟨_, _, _, l4, l5, l6, ht, hh, hn, hs, rfl⟩

theorem durMon_iff {pf : List Char → Option Rat} {l : List Char} (hl : l ≠ []) (y : Int) (e : Dur) :
    durMon pf { year := y } l = .ok e ↔ ∃ l2 l3 l4 l5 l6, NumberBefore 'M' l e.mon l2 ∧ NumberBefore 'D' l2 e.mday l3 ∧
      TimePart l3 l4 ∧ NumberBefore 'H' l4 e.hour l5 ∧ NumberBefore 'M' l5 e.min l6 ∧ SecondsBefore pf l6 e.sec ∧
      e.year = y := by
  unfold durMon
  constructor
  · intro h
    rcases e1 : intItem 'M' l with x | ⟨n, _ | ⟨c, r⟩⟩
    · rw [e1] at h; cases h
    · rw [e1] at h; cases h
      exact ⟨[], [], [], [], [], (intItem_iff hl).1 e1, numberBefore_nil.2 ⟨rfl, rfl⟩, timePart_nil.2 rfl,
        numberBefore_nil.2 ⟨rfl, rfl⟩, numberBefore_nil.2 ⟨rfl, rfl⟩, secondsBefore_nil.2 rfl, rfl⟩
    · rw [e1] at h
      obtain ⟨l3, l4, l5, l6, hd, ht, hh, hn, hs, hy, rfl⟩ := (durD_iff (by simp) _ _ _).1 h
      exact ⟨_, l3, l4, l5, l6, (intItem_iff hl).1 e1, hd, ht, hh, hn, hs, hy⟩
  · rintro ⟨l2, l3, l4, l5, l6, hm, hd, ht, hh, hn, hs, rfl⟩
    rw [(intItem_iff hl).2 hm]
    cases l2 with
    | nil =>
      obtain ⟨e0, rfl⟩ := numberBefore_nil.1 hd
      obtain rfl := timePart_nil.1 ht
      obtain ⟨ea, rfl⟩ := numberBefore_nil.1 hh
      obtain ⟨eb, rfl⟩ := numberBefore_nil.1 hn
      have ec := secondsBefore_nil.1 hs
      rcases e with ⟨_, _, _, _, _, _⟩
      simp only at e0 ea eb ec; subst e0 ea eb ec; rfl
    | cons c r => exact (durD_iff (by simp) _ _ _).2 ⟨l3, l4, l5, l6, hd, ht, hh, hn, hs, rfl, rfl⟩

theorem durY_iff {pf : List Char → Option Rat} {l : List Char} (hl : l ≠ []) (e : Dur) :
    durY pf {} l = .ok e ↔ DurationParts pf l e := by
  unfold durY DurationParts
  constructor
  · intro h
    rcases e1 : intItem 'Y' l with x | ⟨n, _ | ⟨c, r⟩⟩
    · rw [e1] at h; cases h
    · rw [e1] at h; cases h
      exact ⟨[], [], [], [], [], [], (intItem_iff hl).1 e1, numberBefore_nil.2 ⟨rfl, rfl⟩,
        numberBefore_nil.2 ⟨rfl, rfl⟩, timePart_nil.2 rfl,
        numberBefore_nil.2 ⟨rfl, rfl⟩, numberBefore_nil.2 ⟨rfl, rfl⟩, secondsBefore_nil.2 rfl⟩
    · rw [e1] at h
      obtain ⟨l2, l3, l4, l5, l6, hm, hd, ht, hh, hn, hs, rfl⟩ := (durMon_iff (by simp) _ _).1 h
      exact ⟨_, l2, l3, l4, l5, l6, (intItem_iff hl).1 e1, hm, hd, ht, hh, hn, hs⟩
  · rintro ⟨l1, l2, l3, l4, l5, l6, hy, hm, hd, ht, hh, hn, hs⟩
    rw [(intItem_iff hl).2 hy]
    cases l1 with
    | nil =>
      obtain ⟨em, rfl⟩ := numberBefore_nil.1 hm
      obtain ⟨e0, rfl⟩ := numberBefore_nil.1 hd
      obtain rfl := timePart_nil.1 ht
      obtain ⟨ea, rfl⟩ := numberBefore_nil.1 hh
      obtain ⟨eb, rfl⟩ := numberBefore_nil.1 hn
      have ec := secondsBefore_nil.1 hs
      rcases e with ⟨_, _, _, _, _, _⟩
      simp only at em e0 ea eb ec; subst em e0 ea eb ec; rfl
    | cons c r => exact (durMon_iff (by simp) _ _).2 ⟨l2, l3, l4, l5, l6, hm, hd, ht, hh, hn, hs, rfl⟩

/-- **C175.**  A text is taken for a duration with sign and numbers `d` exactly when it is `P`, after a minus for the
negative sign, followed by at least one character, and what follows has the parts of `d` in turn. -/
theorem C175_exact (pf : List Char → Option Rat) (s : List Char) (neg : Bool) (d : Dur) :
    parseDuration pf s = .ok (neg, d) ↔
      ∃ l, s = (if neg = true then ['-'] else []) ++ 'P' :: l ∧ l ≠ [] ∧ DurationParts pf l d := by
  have hP : ∀ x : List Char, durP pf x = .ok d ↔ ∃ l, x = 'P' :: l ∧ l ≠ [] ∧ DurationParts pf l d := by
    intro x
    unfold durP
    cases x with
    | nil => simp
    | cons c r =>
      by_cases hc : c = 'P'
      · subst hc
        by_cases hr : r = []
        · subst hr; simp [durY, intItem, noMinus]
        · simp only [if_true]
          rw [durY_iff hr]
          constructor
          · intro h; exact ⟨r, rfl, hr, h⟩
          · rintro ⟨l, h, -, h2⟩; cases h; exact h2
      · simp [hc]
  have hmap : ∀ (b : Bool) (x : Res Dur), x.map (fun d => (b, d)) = .ok (neg, d) ↔ b = neg ∧ x = .ok d := by
    intro b x
    cases x <;> simp [Except.map]
  unfold parseDuration
  cases s with
  | nil => cases neg <;> simp
  | cons c r =>
    by_cases hc : c = '-'
    · subst hc
      simp only [if_true]
      rw [hmap, hP]
      cases neg <;> simp
    · simp only [if_neg hc]
      rw [hmap, hP]
      cases neg <;> simp [hc]

/-- **C175**, refusals: `IndexError` exactly when the text ends before the first part (empty, `-`, `P`, `-P`);
`ValueError` exactly when the first character, after a minus, is not `P`; every other refusal is a `TimeUtilError`. -/
theorem C175_refused (pf : List Char → Option Rat) (s : List Char) (e : Exc) (h : parseDuration pf s = .error e) :
    (e = .indexError ∧ s ∈ [[], ['-'], ['P'], ['-', 'P']]) ∨
    (e = .valueError ∧ ∃ c r, c ≠ 'P' ∧ (s = '-' :: c :: r ∨ (c ≠ '-' ∧ s = c :: r))) ∨
    (e = .timeUtilError ∧ ∃ l, l ≠ [] ∧ (s = 'P' :: l ∨ s = '-' :: 'P' :: l)) := by
  have hI : ∀ (c : Char) (l : List Char) (x : Exc), l ≠ [] → intItem c l = .error x → x = .timeUtilError := by
    intro c l x hl h
    unfold intItem at h
    cases l with
    | nil => exact absurd rfl hl
    | cons a as =>
      by_cases ha : a = '-'
      · simp [noMinus, ha] at h; exact h.symm
      · simp only [noMinus, if_neg ha] at h
        split at h
        · cases h
        · split at h <;> cases h; rfl
  have hS : ∀ (l : List Char) (d : Dur) (x : Exc), l ≠ [] → durS pf d l = .error x → x = .timeUtilError := by
    intro l d x hl h
    unfold durS secItem at h
    cases l with
    | nil => exact absurd rfl hl
    | cons a as =>
      by_cases ha : a = '-'
      · simp [noMinus, ha] at h; exact h.symm
      · simp only [noMinus, if_neg ha] at h
        rcases e0 : splitFirst 'S' (a :: as) with ⟨b, _ | r⟩
        · rw [e0] at h; cases h
        · rw [e0] at h
          cases e1 : pyIntOfChars b with
          | some n => simp [e1] at h
          | none =>
            cases e2 : pf b with
            | some q => simp [e1, e2] at h
            | none => simp [e1, e2] at h; exact h.symm
  have hMin : ∀ (l : List Char) (d : Dur) (x : Exc), l ≠ [] → durMin pf d l = .error x → x = .timeUtilError := by
    intro l d x hl h
    unfold durMin at h
    split at h
    · cases h; rename_i h; exact hI _ _ _ hl h
    · cases h
    · rename_i hr _; exact hS _ _ _ hr h
  have hH : ∀ (l : List Char) (d : Dur) (x : Exc), l ≠ [] → durH pf d l = .error x → x = .timeUtilError := by
    intro l d x hl h
    unfold durH at h
    split at h
    · cases h; rename_i h; exact hI _ _ _ hl h
    · cases h
    · rename_i hr _; exact hMin _ _ _ hr h
  have hT : ∀ (l : List Char) (d : Dur) (x : Exc), l ≠ [] → durT pf d l = .error x → x = .timeUtilError := by
    intro l d x hl h
    unfold durT tItem at h
    cases l with
    | nil => exact absurd rfl hl
    | cons a as =>
      by_cases ha : a = '-'
      · simp [ha] at h; exact h.symm
      · by_cases hT : a = 'T'
        · by_cases hr : as = []
          · simp [hr, hT] at h; exact h.symm
          · simp [hr, hT] at h; exact hH _ _ _ hr h
        · simp [ha, hT] at h; exact h.symm
  have hD : ∀ (l : List Char) (d : Dur) (x : Exc), l ≠ [] → durD pf d l = .error x → x = .timeUtilError := by
    intro l d x hl h
    unfold durD at h
    split at h
    · cases h; rename_i h; exact hI _ _ _ hl h
    · cases h
    · rename_i hr _; exact hT _ _ _ hr h
  have hMon : ∀ (l : List Char) (d : Dur) (x : Exc), l ≠ [] → durMon pf d l = .error x → x = .timeUtilError := by
    intro l d x hl h
    unfold durMon at h
    split at h
    · cases h; rename_i h; exact hI _ _ _ hl h
    · cases h
    · rename_i hr _; exact hD _ _ _ hr h
  have hY : ∀ (l : List Char) (d : Dur) (x : Exc), l ≠ [] → durY pf d l = .error x → x = .timeUtilError := by
    intro l d x hl h
    unfold durY at h
    split at h
    · cases h; rename_i h; exact hI _ _ _ hl h
    · cases h
    · rename_i hr _; exact hMon _ _ _ hr h
  have hP : ∀ (x : List Char) (b : Bool), (durP pf x).map (fun d => (b, d)) = .error e →
      (e = .indexError ∧ (x = [] ∨ x = ['P'])) ∨ (e = .valueError ∧ ∃ c r, c ≠ 'P' ∧ x = c :: r) ∨
      (e = .timeUtilError ∧ ∃ l, l ≠ [] ∧ x = 'P' :: l) := by
    intro x b h
    have h' : durP pf x = .error e := by
      cases hx : durP pf x with
      | error y => rw [hx] at h; cases h; rfl
      | ok y => rw [hx] at h; cases h
    unfold durP at h'
    cases x with
    | nil => cases h'; exact .inl ⟨rfl, .inl rfl⟩
    | cons c r =>
      by_cases hc : c = 'P'
      · subst hc
        simp only [if_true] at h'
        by_cases hr : r = []
        · subst hr
          simp [durY, intItem, noMinus] at h'
          exact .inl ⟨h'.symm, .inr rfl⟩
        · exact .inr (.inr ⟨hY _ _ _ hr h', r, hr, rfl⟩)
      · simp only [if_neg hc] at h'
        cases h'
        exact .inr (.inl ⟨rfl, c, r, hc, rfl⟩)
  unfold parseDuration at h
  cases s with
  | nil => cases h; exact .inl ⟨rfl, by simp⟩
  | cons c r =>
    by_cases hc : c = '-'
    · subst hc
      simp only [if_true] at h
      rcases hP _ _ h with ⟨he, rfl | rfl⟩ | ⟨he, a, t, ha, rfl⟩ | ⟨he, l, hl, rfl⟩
      · exact .inl ⟨he, by simp⟩
      · exact .inl ⟨he, by simp⟩
      · exact .inr (.inl ⟨he, a, t, ha, .inl rfl⟩)
      · exact .inr (.inr ⟨he, l, hl, .inr rfl⟩)
    · simp only [if_neg hc] at h
      rcases hP _ _ h with ⟨he, h1 | h1⟩ | ⟨he, a, t, ha, h1⟩ | ⟨he, l, hl, h1⟩
      · cases h1
      · cases h1; exact .inl ⟨he, by simp⟩
      · cases h1; exact .inr (.inl ⟨he, c, r, ha, .inr ⟨hc, rfl⟩⟩)
      · cases h1; exact .inr (.inr ⟨he, r, hl, .inl rfl⟩)

-- a text with the parts in turn, one of them left out, and texts refused in each of the three ways
example : DurationParts (fun _ => none) "1Y2DT3H".toList { year := 1, mday := 2, hour := 3 } := by
  have h := (C175_exact (fun _ => none) "P1Y2DT3H".toList false { year := 1, mday := 2, hour := 3 }).1 (by decide +kernel)
  obtain ⟨l, h1, -, h2⟩ := h
  have : l = "1Y2DT3H".toList := by
    have h3 : "P1Y2DT3H".toList = 'P' :: "1Y2DT3H".toList := by decide +kernel
    rw [h3] at h1
    simpa using h1.symm
  exact this ▸ h2
example : parseDuration (fun _ => none) "-P".toList = .error .indexError := by decide +kernel
example : parseDuration (fun _ => none) "1Y".toList = .error .valueError := by decide +kernel
example : parseDuration (fun _ => none) "P1Y-2M".toList = .error .timeUtilError := by decide +kernel

end Verif
