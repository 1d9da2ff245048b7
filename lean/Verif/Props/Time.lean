import Verif.Model.TimeUtil
import Verif.Py.TimeLemmas
import Verif.Py.JsonLemmas
import Verif.Props.IdTokens

/-!
# `time_util`: C40–C45
-/

namespace Verif

/-! ## C40 -/

/-- a non-empty sequence of ASCII digits -/
def Digits (a : List Char) : Prop := a ≠ [] ∧ ∀ c ∈ a, isDigitC c = true

theorem digitVal_of_isDigit {c : Char} (h : isDigitC c = true) : digitVal? c = some (c.toNat - 48) := by
  unfold digitVal? isDigitC at *
  rw [if_pos h]

theorem intDigits_digits {a : List Char} (h : ∀ c ∈ a, isDigitC c = true) (n : Nat) :
    intDigits (some n) false a = some (a.foldl (fun x c => x * 10 + (c.toNat - 48)) n) := by
  induction a generalizing n with
  | nil => rfl
  | cons c cs ih =>
    rw [intDigits, decimal_of_digitVal (digitVal_of_isDigit (h c (by simp)))]
    simp only [Option.getD_some, List.foldl_cons]
    exact ih (fun x hx => h x (List.mem_cons_of_mem _ hx)) _

theorem isDigit_not_space {c : Char} (h : isDigitC c = true) : pyIsSpace c = false := by
  unfold isDigitC at h
  simp only [Bool.and_eq_true, decide_eq_true_eq] at h
  unfold pyIsSpace
  simp only [Bool.or_eq_false_iff, Bool.and_eq_false_iff, decide_eq_false_iff_not, beq_eq_false_iff_ne]
  omega

theorem lstripC_head {c : Char} {cs : List Char} (h : pyIsSpace c = false) : lstripC (c :: cs) = c :: cs := by
  simp [lstripC, h]

theorem stripC_digits {a : List Char} (h : Digits a) : stripC a = a := by
  obtain ⟨hn, hd⟩ := h
  have hl : lstripC a = a := by
    cases a with
    | nil => exact absurd rfl hn
    | cons c cs => exact lstripC_head (isDigit_not_space (hd c (by simp)))
  unfold stripC rstripC
  rw [hl]
  have : lstripC a.reverse = a.reverse := by
    cases h : a.reverse with
    | nil => rfl
    | cons c cs =>
      refine lstripC_head (isDigit_not_space (hd c ?_))
      rw [← List.mem_reverse, h]; simp
  rw [this, List.reverse_reverse]

theorem pyInt_digits {a : List Char} (h : Digits a) : pyIntOfChars a = some (digitsVal a : Int) := by
  unfold pyIntOfChars
  rw [stripC_digits h]
  obtain ⟨hn, hd⟩ := h
  cases a with
  | nil => exact absurd rfl hn
  | cons c cs =>
    have hc := hd c (by simp)
    have h1 : c ≠ '-' := by rintro rfl; revert hc; decide
    have h2 : c ≠ '+' := by rintro rfl; revert hc; decide
    have hi : intDigits none false (c :: cs) = some (digitsVal (c :: cs)) := by
      rw [intDigits, decimal_of_digitVal (digitVal_of_isDigit hc)]
      simp only [Option.getD_none]
      rw [intDigits_digits (fun x hx => hd x (List.mem_cons_of_mem _ hx))]
      rfl
    split
    · next e => simp only [List.cons.injEq] at e; exact absurd e.1 h1
    · next e => simp only [List.cons.injEq] at e; exact absurd e.1 h2
    · rw [hi]; rfl

theorem Digits.not_mem {a : List Char} (h : Digits a) {c : Char} (hc : isDigitC c = false) : c ∉ a := by
  intro hm; rw [h.2 c hm] at hc; cases hc

theorem noMinus_digits {a r : List Char} (h : Digits a) : noMinus (a ++ r) = .ok () := by
  obtain ⟨hn, hd⟩ := h
  cases a with
  | nil => exact absurd rfl hn
  | cons c cs =>
    have hc := hd c (by simp)
    have h1 : c ≠ '-' := by rintro rfl; revert hc; decide
    simp [noMinus, h1]

theorem intItem_digits {a r : List Char} (h : Digits a) {code : Char} (hc : isDigitC code = false) :
    intItem code (a ++ code :: r) = .ok ((digitsVal a : Int), r) := by
  unfold intItem
  rw [noMinus_digits h, splitFirst_some_iff.2 ⟨rfl, h.not_mem hc⟩]
  simp only [pyInt_digits h]

theorem secItem_digits {pf : List Char → Option Rat} {a r : List Char} (h : Digits a) :
    secItem pf (a ++ 'S' :: r) = .ok (.int (digitsVal a : Int), r) := by
  unfold secItem
  rw [noMinus_digits h, splitFirst_some_iff.2 ⟨rfl, h.not_mem (by decide)⟩]
  simp only [pyInt_digits h]

/-- `PnYnMnDTnHnMnS`, with the texts of the six numbers, optionally with a minus in front, and a rest -/
def durTextR (neg : Bool) (y m d h mi s rest : List Char) : List Char :=
  (if neg then ['-'] else []) ++
    'P' :: (y ++ 'Y' :: (m ++ 'M' :: (d ++ 'D' :: 'T' :: (h ++ 'H' :: (mi ++ 'M' :: (s ++ 'S' :: rest))))))

/-- without a rest -/
def durText (neg : Bool) (y m d h mi s : List Char) : List Char := durTextR neg y m d h mi s []

theorem parse_rest (pf : List Char → Option Rat) (neg : Bool) {y m d h mi s : List Char}
    (hy : Digits y) (hm : Digits m) (hd : Digits d) (hh : Digits h) (hmi : Digits mi) (hs : Digits s) (rest : List Char) :
    parseDuration pf (durTextR neg y m d h mi s rest) = .ok (neg,
      { year := digitsVal y, mon := digitsVal m, mday := digitsVal d, hour := digitsVal h, min := digitsVal mi,
        sec := .int (digitsVal s) }) := by
  have hP : durP pf ('P' :: (y ++ 'Y' :: (m ++ 'M' :: (d ++ 'D' :: 'T' :: (h ++ 'H' :: (mi ++ 'M' :: (s ++ 'S' :: rest)))))))
      = .ok { year := digitsVal y, mon := digitsVal m, mday := digitsVal d, hour := digitsVal h,
              min := digitsVal mi, sec := .int (digitsVal s) } := by
    obtain ⟨c1, r1, e1⟩ := List.exists_cons_of_ne_nil hm.1
    obtain ⟨c2, r2, e2⟩ := List.exists_cons_of_ne_nil hd.1
    obtain ⟨c3, r3, e3⟩ := List.exists_cons_of_ne_nil hh.1
    obtain ⟨c4, r4, e4⟩ := List.exists_cons_of_ne_nil hmi.1
    obtain ⟨c5, r5, e5⟩ := List.exists_cons_of_ne_nil hs.1
    simp only [durP, if_true, durY, intItem_digits hy (show isDigitC 'Y' = false by decide)]
    simp only [e1, List.cons_append]
    rw [← List.cons_append, ← e1]
    simp only [durMon, intItem_digits hm (show isDigitC 'M' = false by decide)]
    simp only [e2, List.cons_append]
    rw [← List.cons_append, ← e2]
    simp only [durD, intItem_digits hd (show isDigitC 'D' = false by decide)]
    simp only [durT, tItem]
    simp only [show ¬ ('T' = '-') by decide, if_false, if_true]
    have hne : ¬ (h ++ 'H' :: (mi ++ 'M' :: (s ++ 'S' :: rest)) = []) := by simp
    simp only [hne, if_false, durH, intItem_digits hh (show isDigitC 'H' = false by decide)]
    simp only [e4, List.cons_append]
    rw [← List.cons_append, ← e4]
    simp only [durMin, intItem_digits hmi (show isDigitC 'M' = false by decide)]
    simp only [e5, List.cons_append]
    rw [← List.cons_append, ← e5]
    simp only [durS, secItem_digits hs]
  cases neg with
  | true =>
    unfold durTextR
    simp only [if_true, List.cons_append, List.nil_append, parseDuration, hP]
    rfl
  | false =>
    unfold durTextR
    simp only [Bool.false_eq_true, if_false, List.nil_append, parseDuration, show ¬ ('P' = '-') by decide, hP]
    rfl

/-- C40: the full form parses to exactly its numbers and sign (leading zeros do not matter). -/
theorem C40_parse (pf : List Char → Option Rat) (neg : Bool) {y m d h mi s : List Char}
    (hy : Digits y) (hm : Digits m) (hd : Digits d) (hh : Digits h) (hmi : Digits mi) (hs : Digits s) :
    parseDuration pf (durText neg y m d h mi s) = .ok (neg,
      { year := digitsVal y, mon := digitsVal m, mday := digitsVal d, hour := digitsVal h, min := digitsVal mi,
        sec := .int (digitsVal s) }) := parse_rest pf neg hy hm hd hh hmi hs []

/-- Finding: whatever follows the seconds is ignored. -/
theorem C40_trailing (pf : List Char → Option Rat) (neg : Bool) {y m d h mi s : List Char}
    (hy : Digits y) (hm : Digits m) (hd : Digits d) (hh : Digits h) (hmi : Digits mi) (hs : Digits s)
    (rest : List Char) :
    parseDuration pf (durText neg y m d h mi s ++ rest) = parseDuration pf (durText neg y m d h mi s) := by
  rw [C40_parse pf neg hy hm hd hh hmi hs, ← parse_rest pf neg hy hm hd hh hmi hs rest]
  congr 1
  simp [durText, durTextR]

theorem digits_natDigits (n : Nat) : Digits (natDigits n) := ⟨natDigits_ne_nil n, natDigits_digit n⟩

/-- the duration text of six natural numbers -/
def durOf (neg : Bool) (y m d h mi s : Nat) : List Char :=
  durText neg (natDigits y) (natDigits m) (natDigits d) (natDigits h) (natDigits mi) (natDigits s)

/-- C40 for the canonical text of six natural numbers. -/
theorem C40_numbers (pf : List Char → Option Rat) (neg : Bool) (y m d h mi s : Nat) :
    parseDuration pf (durOf neg y m d h mi s) = .ok (neg,
      { year := y, mon := m, mday := d, hour := h, min := mi, sec := .int s }) := by
  unfold durOf
  rw [C40_parse pf neg (digits_natDigits y) (digits_natDigits m) (digits_natDigits d) (digits_natDigits h)
    (digits_natDigits mi) (digits_natDigits s)]
  simp only [digitsVal_natDigits]

theorem lstripC_T (a : List Char) : ∃ b, stripC ('T' :: a) = 'T' :: b := by
  have h1 : lstripC ('T' :: a) = 'T' :: a := lstripC_head (by decide)
  unfold stripC rstripC
  rw [h1, List.reverse_cons]
  have : ∀ l : List Char, ∃ l', lstripC (l ++ ['T']) = l' ++ ['T'] := by
    intro l
    induction l with
    | nil => exact ⟨[], by decide⟩
    | cons c cs ih =>
      obtain ⟨l', hl⟩ := ih
      simp only [List.cons_append, lstripC]
      split
      · exact ⟨l', hl⟩
      · exact ⟨c :: cs, rfl⟩
  obtain ⟨l', hl⟩ := this a.reverse
  exact ⟨l'.reverse, by rw [hl]; simp⟩

/-- Finding: a duration without years, months and days that has minutes, such as `PT5M`, is refused: the search
for the months runs into the `M` of the minutes. -/
theorem C40_minutes_refused (pf : List Char → Option Rat) (a b : List Char) (hM : 'M' ∉ a) (hY : 'Y' ∉ a)
    (hY' : 'Y' ∉ b) : parseDuration pf ('P' :: 'T' :: (a ++ 'M' :: b)) = .error .timeUtilError := by
  have e1 : splitFirst 'Y' ('T' :: (a ++ 'M' :: b)) = ('T' :: (a ++ 'M' :: b), none) :=
    splitFirst_none_iff.2 ⟨rfl, by simp [hY, hY']⟩
  have e2 : splitFirst 'M' ('T' :: (a ++ 'M' :: b)) = ('T' :: a, some b) :=
    splitFirst_some_iff.2 ⟨rfl, by simp [hM]⟩
  have e3 : pyIntOfChars ('T' :: a) = none := by
    obtain ⟨l, hl⟩ := lstripC_T a
    unfold pyIntOfChars
    rw [hl]
    have : intDigits none false ('T' :: l) = none := by
      rw [intDigits]; rfl
    simp [this]
  simp only [parseDuration, show ¬ ('P' = '-') by decide, if_true, durP, durY, intItem, noMinus, show ¬ ('T' = '-') by decide, if_false, e1, durMon, e2, e3]
  rfl

example : parseDuration (fun _ => none) "-P1Y2M3DT4H5M6S".toList = .ok (true, ⟨1, 2, 3, 4, 5, .int 6⟩) := by decide
example : parseDuration (fun _ => none) "P1D".toList = .ok (false, ⟨0, 0, 1, 0, 0, .int 0⟩) := by decide
example : parseDuration (fun _ => none) "PT5M".toList = .error .timeUtilError := by decide

/-! ## C79: components left out -/

/-- a component, if present, with its letter -/
def optItem (o : Option (List Char)) (c : Char) : List Char :=
  match o with
  | none => []
  | some a => a ++ [c]

/-- its number -/
def optVal (o : Option (List Char)) : Int :=
  match o with
  | none => 0
  | some a => digitsVal a

def OptDigits (o : Option (List Char)) : Prop := ∀ a, o = some a → Digits a

def textS (s : Option (List Char)) := optItem s 'S'
def textMin (mi s : Option (List Char)) := optItem mi 'M' ++ textS s
def textH (h mi s : Option (List Char)) := optItem h 'H' ++ textMin mi s
/-- the `T` is there if anything follows it -/
def textT (h mi s : Option (List Char)) := if textH h mi s = [] then [] else 'T' :: textH h mi s
def textD (d h mi s : Option (List Char)) := optItem d 'D' ++ textT h mi s
def textMon (m d h mi s : Option (List Char)) := optItem m 'M' ++ textD d h mi s
def textY (y m d h mi s : Option (List Char)) := optItem y 'Y' ++ textMon m d h mi s

theorem optItem_not_mem {o : Option (List Char)} {c x : Char} (h : OptDigits o) (hx : isDigitC x = false) (hc : x ≠ c) :
    x ∉ optItem o c := by
  cases o with
  | none => simp [optItem]
  | some a => simp [optItem, (h a rfl).not_mem hx, hc]

/-- what begins with a digit or `T` has no minus in front -/
def Starts (l : List Char) : Prop := ∃ c r, l = c :: r ∧ c ≠ '-'

theorem Starts.noMinus {l : List Char} (h : Starts l) : noMinus l = .ok () := by
  obtain ⟨c, r, rfl, hc⟩ := h
  simp [Verif.noMinus, hc]

theorem Digits.starts {a r : List Char} (h : Digits a) : Starts (a ++ r) := by
  obtain ⟨hn, hd⟩ := h
  cases a with
  | nil => exact absurd rfl hn
  | cons c cs =>
    refine ⟨c, cs ++ r, rfl, ?_⟩
    have hc := hd c (by simp)
    rintro rfl; revert hc; decide

theorem starts_opt {o : Option (List Char)} {c : Char} {rest : List Char} (ho : OptDigits o)
    (hr : rest ≠ [] → Starts rest) (hn : optItem o c ++ rest ≠ []) : Starts (optItem o c ++ rest) := by
  cases o with
  | none => simp only [optItem, List.nil_append] at *; exact hr hn
  | some a => simp only [optItem, List.append_assoc]; exact (ho a rfl).starts

theorem intItem_opt {o : Option (List Char)} {c : Char} {rest : List Char} (ho : OptDigits o)
    (hc : isDigitC c = false) (hr : rest ≠ [] → Starts rest) (hm : o = none → c ∉ rest) (hn : optItem o c ++ rest ≠ []) :
    intItem c (optItem o c ++ rest) = .ok (optVal o, rest) := by
  cases o with
  | none =>
    simp only [optItem, List.nil_append, optVal] at *
    unfold intItem
    rw [(hr hn).noMinus, splitFirst_none_iff.2 ⟨rfl, hm trivial⟩]
  | some a =>
    simp only [optItem, List.append_assoc, List.cons_append, List.nil_append, optVal]
    exact intItem_digits (ho a rfl) hc

/-- C79, the part that holds: components may be left out (the `T` with them if nothing follows it), except that
minutes need months.  At least one component has to be there. -/
theorem C79_partial (pf : List Char → Option Rat) (y m d h mi s : Option (List Char)) (hy : OptDigits y)
    (hm : OptDigits m) (hd : OptDigits d) (hh : OptDigits h) (hmi : OptDigits mi) (hs : OptDigits s)
    (hmm : m = none → mi = none) (hne : textY y m d h mi s ≠ []) :
    parseDuration pf ('P' :: textY y m d h mi s) = .ok (false,
      { year := optVal y, mon := optVal m, mday := optVal d, hour := optVal h, min := optVal mi,
        sec := .int (optVal s) }) := by
  have sS : textS s ≠ [] → Starts (textS s) := by
    intro e
    have := starts_opt (c := 'S') (rest := []) hs (fun x => absurd rfl x) (by simpa [textS] using e)
    simpa [textS] using this
  have sMin : textMin mi s ≠ [] → Starts (textMin mi s) := starts_opt hmi sS
  have sH : textH h mi s ≠ [] → Starts (textH h mi s) := starts_opt hh sMin
  have sT : textT h mi s ≠ [] → Starts (textT h mi s) := by
    intro e
    unfold textT at *
    split at e
    · exact absurd rfl e
    · next hx => rw [if_neg hx]; exact ⟨'T', _, rfl, by decide⟩
  have sD : textD d h mi s ≠ [] → Starts (textD d h mi s) := starts_opt hd sT
  have sMon : textMon m d h mi s ≠ [] → Starts (textMon m d h mi s) := starts_opt hm sD
  -- seconds
  have rS : ∀ a b c e f, textS s ≠ [] → durS pf ⟨a, b, c, e, f, .int 0⟩ (textS s)
      = .ok ⟨a, b, c, e, f, .int (optVal s)⟩ := by
    intro a b c e f hx
    cases s with
    | none => simp [textS, optItem] at hx
    | some t =>
      simp only [textS, optItem, durS, optVal]
      rw [secItem_digits (hs t rfl)]
  have rMin : ∀ a b c e, textMin mi s ≠ [] → durMin pf ⟨a, b, c, e, 0, .int 0⟩ (textMin mi s)
      = .ok ⟨a, b, c, e, optVal mi, .int (optVal s)⟩ := by
    intro a b c e hx
    have hi := intItem_opt (c := 'M') hmi (by decide) sS (fun _ => optItem_not_mem hs (by decide) (by decide)) hx
    unfold durMin textMin
    rw [hi]
    cases hts : textS s with
    | nil =>
      have : s = none := by cases s with
        | none => rfl
        | some t => simp [textS, optItem] at hts
      subst this
      rfl
    | cons z zs =>
      simp only
      rw [← hts]
      exact rS a b c e _ (by rw [hts]; simp)
  have nMin : textMin mi s = [] → mi = none ∧ s = none := by
    intro e
    cases mi <;> cases s <;> simp_all [textMin, textS, optItem]
  have rH : ∀ a b c, textH h mi s ≠ [] → durH pf ⟨a, b, c, 0, 0, .int 0⟩ (textH h mi s)
      = .ok ⟨a, b, c, optVal h, optVal mi, .int (optVal s)⟩ := by
    intro a b c hx
    have hi := intItem_opt (c := 'H') hh (by decide) sMin (fun _ => by
      simp only [textMin, textS, List.mem_append, not_or]
      exact ⟨optItem_not_mem hmi (by decide) (by decide), optItem_not_mem hs (by decide) (by decide)⟩) hx
    unfold durH textH
    rw [hi]
    cases hts : textMin mi s with
    | nil =>
      obtain ⟨rfl, rfl⟩ := nMin hts
      rfl
    | cons z zs =>
      simp only
      rw [← hts]
      exact rMin a b c _ (by rw [hts]; simp)
  have nH : textH h mi s = [] → h = none ∧ mi = none ∧ s = none := by
    intro e
    unfold textH at e
    obtain ⟨e1, e2⟩ := List.append_eq_nil_iff.1 e
    refine ⟨?_, nMin e2⟩
    cases h <;> simp_all [optItem]
  have nT : textT h mi s = [] → h = none ∧ mi = none ∧ s = none := by
    intro e
    unfold textT at e
    split at e
    · next hx => exact nH hx
    · simp at e
  have rT : ∀ a b c, textT h mi s ≠ [] → durT pf ⟨a, b, c, 0, 0, .int 0⟩ (textT h mi s)
      = .ok ⟨a, b, c, optVal h, optVal mi, .int (optVal s)⟩ := by
    intro a b c hx
    have hH : textH h mi s ≠ [] := by
      intro e; apply hx; simp [textT, e]
    unfold durT textT
    rw [if_neg hH]
    simp only [tItem, show ¬ ('T' = '-') by decide, if_false, if_true, hH]
    exact rH a b c hH
  have notin : ∀ x, isDigitC x = false → x ≠ 'H' → x ≠ 'S' → x ≠ 'T' → (x ≠ 'M' ∨ mi = none) → x ∉ textT h mi s := by
    intro x h1 h2 h3 h4 h5
    have hm' : x ∉ optItem mi 'M' := by
      rcases h5 with h5 | rfl
      · exact optItem_not_mem hmi h1 h5
      · simp [optItem]
    unfold textT
    split
    · simp
    · simp only [textH, textMin, textS, List.mem_cons, List.mem_append, not_or]
      exact ⟨h4, optItem_not_mem hh h1 h2, hm', optItem_not_mem hs h1 h3⟩
  have rD : ∀ a b, textD d h mi s ≠ [] → durD pf ⟨a, b, 0, 0, 0, .int 0⟩ (textD d h mi s)
      = .ok ⟨a, b, optVal d, optVal h, optVal mi, .int (optVal s)⟩ := by
    intro a b hx
    have hi := intItem_opt (c := 'D') hd (by decide) sT
      (fun _ => notin 'D' (by decide) (by decide) (by decide) (by decide) (.inl (by decide))) hx
    unfold durD textD
    rw [hi]
    cases hts : textT h mi s with
    | nil =>
      obtain ⟨rfl, rfl, rfl⟩ := nT hts
      rfl
    | cons z zs =>
      simp only
      rw [← hts]
      exact rT a b _ (by rw [hts]; simp)
  have nD : textD d h mi s = [] → d = none ∧ h = none ∧ mi = none ∧ s = none := by
    intro e
    unfold textD at e
    obtain ⟨e1, e2⟩ := List.append_eq_nil_iff.1 e
    refine ⟨?_, nT e2⟩
    cases d <;> simp_all [optItem]
  have rMon : ∀ a, textMon m d h mi s ≠ [] → durMon pf ⟨a, 0, 0, 0, 0, .int 0⟩ (textMon m d h mi s)
      = .ok ⟨a, optVal m, optVal d, optVal h, optVal mi, .int (optVal s)⟩ := by
    intro a hx
    have hi := intItem_opt (c := 'M') hm (by decide) sD (fun e => by
      simp only [textD, List.mem_append, not_or]
      exact ⟨optItem_not_mem hd (by decide) (by decide),
        notin 'M' (by decide) (by decide) (by decide) (by decide) (.inr (hmm e))⟩) hx
    unfold durMon textMon
    rw [hi]
    cases hts : textD d h mi s with
    | nil =>
      obtain ⟨rfl, rfl, rfl, rfl⟩ := nD hts
      rfl
    | cons z zs =>
      simp only
      rw [← hts]
      exact rD a _ (by rw [hts]; simp)
  have nMon : textMon m d h mi s = [] → m = none ∧ d = none ∧ h = none ∧ mi = none ∧ s = none := by
    intro e
    unfold textMon at e
    obtain ⟨e1, e2⟩ := List.append_eq_nil_iff.1 e
    refine ⟨?_, nD e2⟩
    cases m <;> simp_all [optItem]
  have hi := intItem_opt (c := 'Y') hy (by decide) sMon (fun _ => by
    simp only [textMon, textD, List.mem_append, not_or]
    exact ⟨optItem_not_mem hm (by decide) (by decide), optItem_not_mem hd (by decide) (by decide),
      notin 'Y' (by decide) (by decide) (by decide) (by decide) (.inl (by decide))⟩) hne
  have rY : durY pf {} (textY y m d h mi s)
      = .ok ⟨optVal y, optVal m, optVal d, optVal h, optVal mi, .int (optVal s)⟩ := by
    unfold durY textY
    rw [hi]
    cases hts : textMon m d h mi s with
    | nil =>
      obtain ⟨rfl, rfl, rfl, rfl, rfl⟩ := nMon hts
      rfl
    | cons z zs =>
      simp only
      rw [← hts]
      exact rMon _ (by rw [hts]; simp)
  simp only [parseDuration, show ¬ ('P' = '-') by decide, if_false, durP, if_true, rY]
  rfl

example : textY none none (some ['3']) (some ['4']) none none = "3DT4H".toList := by decide
example : parseDuration (fun _ => none) "P1M".toList = .ok (false, ⟨0, 1, 0, 0, 0, .int 0⟩) := by decide

/-- A duration may not end with the `T`, whichever of years, months and days are given in front of it. -/
theorem C79_ending_T_refused (pf : List Char → Option Rat) (y m d : Option (List Char)) (hy : OptDigits y)
    (hm : OptDigits m) (hd : OptDigits d) :
    parseDuration pf ('P' :: (optItem y 'Y' ++ (optItem m 'M' ++ (optItem d 'D' ++ ['T'])))) = .error .timeUtilError := by
  have sT : Starts ['T'] := ⟨'T', [], rfl, by decide⟩
  have nD : optItem d 'D' ++ ['T'] ≠ [] := by simp
  have sD : Starts (optItem d 'D' ++ ['T']) := starts_opt hd (fun _ => sT) nD
  have nM : optItem m 'M' ++ (optItem d 'D' ++ ['T']) ≠ [] := by simp
  have sM := starts_opt (c := 'M') hm (fun _ => sD) nM
  have iY := intItem_opt (c := 'Y') hy (by decide) (fun _ => sM) (fun _ => by
    simp only [List.mem_append, not_or]
    exact ⟨optItem_not_mem hm (by decide) (by decide), optItem_not_mem hd (by decide) (by decide), by decide⟩)
    (by simp)
  have iM := intItem_opt (c := 'M') hm (by decide) (fun _ => sD) (fun _ => by
    simp only [List.mem_append, not_or]
    exact ⟨optItem_not_mem hd (by decide) (by decide), by decide⟩) nM
  have iD := intItem_opt (c := 'D') hd (by decide) (fun _ => sT) (fun _ => by decide) nD
  have rD : ∀ x : Dur, durD pf x (optItem d 'D' ++ ['T']) = .error .timeUtilError := by
    intro x
    unfold durD
    rw [iD]
    rfl
  have rM : ∀ x : Dur, durMon pf x (optItem m 'M' ++ (optItem d 'D' ++ ['T'])) = .error .timeUtilError := by
    intro x
    unfold durMon
    rw [iM]
    obtain ⟨c, r, e, _⟩ := sD
    rw [e]
    simp only
    rw [← e]
    exact rD _
  have rY : durY pf {} (optItem y 'Y' ++ (optItem m 'M' ++ (optItem d 'D' ++ ['T']))) = .error .timeUtilError := by
    unfold durY
    rw [iY]
    obtain ⟨c, r, e, _⟩ := sM
    rw [e]
    simp only
    rw [← e]
    exact rM _
  simp only [parseDuration, show ¬ ('P' = '-') by decide, if_false, durP, if_true, rY]
  rfl

example : optItem none 'Y' ++ (optItem none 'M' ++ (optItem (some ['5']) 'D' ++ ['T'])) = "5DT".toList := by decide

/-- C79 is false: `PT5M` is refused. -/
theorem C79_counterexample (pf : List Char → Option Rat) : parseDuration pf "PT5M".toList = .error .timeUtilError :=
  C40_minutes_refused pf ['5'] [] (by decide) (by decide) (by decide)

/-- Text after the `T` that has none of the letters of the components is ignored: `P5DTx` is five days. -/
theorem C79_rest_ignored (pf : List Char → Option Rat) (d : List Char) (hd : Digits d) (c : Char) (r : List Char)
    (hc : c ≠ '-') (hr : ∀ x ∈ ['Y', 'M', 'D', 'H', 'S'], x ∉ c :: r) :
    parseDuration pf ('P' :: (d ++ 'D' :: 'T' :: c :: r)) = .ok (false, { mday := digitsVal d, sec := .int 0 }) := by
  have skip : ∀ x t, x ∉ t → noMinus t = .ok () → intItem x t = .ok (0, t) := by
    intro x t h1 h2
    unfold intItem
    rw [h2, splitFirst_none_iff.2 ⟨rfl, h1⟩]
  have hm : noMinus (c :: r) = .ok () := by simp [noMinus, hc]
  have hall : ∀ x, isDigitC x = false → x ≠ 'D' → x ≠ 'T' → x ∉ c :: r → x ∉ d ++ 'D' :: 'T' :: c :: r := by
    intro x h1 h2 h3 h4
    rw [List.mem_append, List.mem_cons, List.mem_cons]
    rintro (h | h | h | h)
    · exact hd.not_mem h1 h
    · exact h2 h
    · exact h3 h
    · exact h4 h
  have iY := skip 'Y' _ (hall 'Y' (by decide) (by decide) (by decide) (hr _ (by simp))) (noMinus_digits hd)
  have iM := skip 'M' _ (hall 'M' (by decide) (by decide) (by decide) (hr _ (by simp))) (noMinus_digits hd)
  have iH := skip 'H' _ (hr 'H' (by simp)) hm
  have iMin := skip 'M' _ (hr 'M' (by simp)) hm
  have iS : secItem pf (c :: r) = .ok (.int 0, c :: r) := by
    unfold secItem
    rw [hm, splitFirst_none_iff.2 ⟨rfl, hr 'S' (by simp)⟩]
  have rT : ∀ x : Dur, durT pf x ('T' :: c :: r) = .ok { x with hour := 0, min := 0, sec := .int 0 } := by
    intro x
    simp only [durT, tItem, show ¬ ('T' = '-') by decide, if_false, if_true, List.cons_ne_nil, durH, iH, durMin, iMin, durS, iS]
  have rD : ∀ x : Dur, durD pf x (d ++ 'D' :: 'T' :: c :: r) =
      .ok { x with mday := digitsVal d, hour := 0, min := 0, sec := .int 0 } := by
    intro x
    simp only [durD, intItem_digits hd (show isDigitC 'D' = false by decide), rT]
  obtain ⟨e, t, he⟩ := List.exists_cons_of_ne_nil (show d ++ 'D' :: 'T' :: c :: r ≠ [] by simp)
  simp only [parseDuration, show ¬ ('P' = '-') by decide, if_false, durP, if_true]
  rw [durY, iY, he]
  simp only
  rw [durMon, ← he, iM, he]
  simp only
  rw [← he, rD]
  rfl

example : parseDuration (fun _ => none) "P5DTx".toList = .ok (false, ⟨0, 0, 5, 0, 0, .int 0⟩) := by decide

/-! ## C41, C42 -/

/-- a broken-down time as `gmtime`/`localtime` give it -/
def ValidTm (t : Tm) : Prop :=
  ValidDate t.year t.mon t.mday ∧ 0 ≤ t.hour ∧ t.hour < 24 ∧ 0 ≤ t.min ∧ t.min < 60 ∧ 0 ≤ t.sec ∧ t.sec < 60

theorem validTm_gmtime (x : Int) : ValidTm (gmtime x) := by
  obtain ⟨h, _⟩ := gmtime_date x
  obtain ⟨a, b, c, d, e, f, _⟩ := gmtime_clock x
  exact ⟨h, a, b, c, d, e, f⟩

/-- the next month -/
theorem next_month {y m : Int} (h1 : 1 ≤ m) (h2 : m ≤ 12) :
    1 ≤ modulo3 (m + 1) 1 13 ∧ modulo3 (m + 1) 1 13 ≤ 12 ∧
    ymd2ord (y + fQuotient3 (m + 1) 1 13) (modulo3 (m + 1) 1 13) 1 = ymd2ord y m 1 + monthLen y m := by
  unfold modulo3 fQuotient3
  by_cases h : m = 12
  · subst h
    have hy := daysBeforeYear_succ y
    have hm := daysBeforeMonth_year y
    refine ⟨by decide, by decide, ?_⟩
    rw [show y + (12 + 1 - 1 : Int) / (13 - 1) = y + 1 by omega, show (12 + 1 - 1 : Int) % (13 - 1) + 1 = 1 by decide]
    unfold ymd2ord
    rw [daysBeforeMonth_one]
    omega
  · have hm := daysBeforeMonth_succ (y := y) h1 (by omega)
    refine ⟨by omega, by omega, ?_⟩
    rw [show y + (m + 1 - 1 : Int) / (13 - 1) = y by omega, show (m + 1 - 1 : Int) % (13 - 1) + 1 = m + 1 by omega]
    unfold ymd2ord
    omega

/-- The loop of `add_duration` ends when it starts with a positive number of days, and keeps the day. -/
theorem dayLoop_ends (k : Nat) : ∀ (y m d c : Int), 1 ≤ m → m ≤ 12 → 1 ≤ d → d.toNat ≤ k →
    ∃ N y' m' d', (∀ n, N ≤ n → dayLoop n y m d c = some (y', m', d')) ∧
      ymd2ord y' m' 1 + d' = ymd2ord y m 1 + d := by
  induction k with
  | zero => intro y m d c _ _ h3 h4; omega
  | succ k ih =>
    intro y m d c h1 h2 h3 h4
    by_cases hd : d > monthLen y m
    · obtain ⟨n1, n2, n3⟩ := next_month (y := y) h1 h2
      have := monthLen_ge y m
      obtain ⟨N, y', m', d', hN, ho⟩ := ih (y + fQuotient3 (m + 1) 1 13) (modulo3 (m + 1) 1 13) (d - monthLen y m) 1
        n1 n2 (by omega) (by omega)
      refine ⟨N + 1, y', m', d', ?_, by omega⟩
      intro n hn
      cases n with
      | zero => omega
      | succ n =>
        have : dayTurn y m d c = some (y + fQuotient3 (m + 1) 1 13, modulo3 (m + 1) 1 13, d - monthLen y m, 1) := by
          unfold dayTurn; rw [if_neg (by omega), if_pos hd]
        rw [dayLoop, this]
        exact hN n (by omega)
    · refine ⟨1, y, m, d, ?_, rfl⟩
      intro n hn
      cases n with
      | zero => omega
      | succ n =>
        have : dayTurn y m d c = none := by unfold dayTurn; rw [if_neg (by omega), if_neg hd]
        rw [dayLoop, this]

/-- … and never ends otherwise. -/
theorem dayLoop_runs (n : Nat) : ∀ (y m d c : Int), d < 1 → dayLoop n y m d c = none := by
  induction n with
  | zero => intros; rfl
  | succ n ih =>
    intro y m d c hd
    have : dayTurn y m d c = some (y + fQuotient3 (m + c) 1 13, modulo3 (m + c) 1 13, d, c) := by
      unfold dayTurn; rw [if_pos hd]
    rw [dayLoop, this]
    exact ih _ _ _ _ hd

/-- the seconds of the day plus those of the time part of a duration -/
def daySeconds (t : Tm) (h mi s : Int) : Int := (t.hour + h) * 3600 + (t.min + mi) * 60 + (t.sec + s)

theorem addStart_spec (t : Tm) (d : Dur) (s : Int) :
    ∃ y m c h mi ss, addStart t d s =
        ((y, m, clampDay y m d.mday + t.mday + daySeconds t d.hour d.min s / 3600 / 60, c), h, mi, ss) ∧
      y = t.year + d.year + (t.mon - 1 + d.mon) / 12 ∧ m = (t.mon - 1 + d.mon) % 12 + 1 ∧
      h * 3600 + mi * 60 + ss = daySeconds t d.hour d.min s - 216000 * (daySeconds t d.hour d.min s / 3600 / 60) := by
  have hth : (t.hour + d.hour + (t.min + d.min + (t.sec + s) / 60) / 60) / 60
      = daySeconds t d.hour d.min s / 3600 / 60 := by unfold daySeconds; omega
  refine ⟨_, _, _, _, _, _, by unfold addStart; simp only [hth]; rfl, ?_, ?_, ?_⟩
  · unfold fQuotient3; omega
  · unfold modulo3; omega
  · unfold daySeconds; omega

theorem addStart_days (t : Tm) (d : Dur) (s : Int) :
    (addStart t d s).1.2.2.1 = clampDay (t.year + d.year + (t.mon - 1 + d.mon) / 12) ((t.mon - 1 + d.mon) % 12 + 1) d.mday
      + t.mday + daySeconds t d.hour d.min s / 3600 / 60 := by
  obtain ⟨y, m, c, h, mi, ss, e, rfl, rfl, _⟩ := addStart_spec t d s
  rw [e]

theorem clampDay_pos (y m d : Int) : 1 ≤ clampDay y m d := by
  have := monthLen_ge y m
  unfold clampDay; split <;> (try split) <;> omega

/-- C41, exactly what is computed, for every duration `PnYnMnDTnHnMnS`: with year `Y` and month `M` the month sum,
the result is `day + clamp(d)` days after the beginning of that month — where `clamp` makes at least 1 and at most
the month length of the days of the duration — plus the time of day and duration, in which every full 60 hours
count as one day (36 hours less). -/
theorem C41_exact (pf : List Char → Option Rat) (t : Tm) (ht : ValidTm t) (y m d h mi s : Nat) :
    ∃ N, ∀ n, N ≤ n → addDuration pf n t (durOf false y m d h mi s) =
      .tm (gmtime (
        (ymd2ord (t.year + y + (t.mon - 1 + m) / 12) ((t.mon - 1 + m) % 12 + 1) 1 - 1
          + (t.mday + clampDay (t.year + y + (t.mon - 1 + m) / 12) ((t.mon - 1 + m) % 12 + 1) d) - epochOrd) * 86400
        + daySeconds t h mi s - 129600 * (daySeconds t h mi s / 216000))) := by
  obtain ⟨Y, M, c, hh, mm, ss, e, hY, hM, hk⟩ := addStart_spec t
    { year := y, mon := m, mday := d, hour := h, min := mi, sec := .int s } s
  simp only at hY hM hk e
  obtain ⟨hv, t1, t2, t3, t4, t5, t6⟩ := ht
  have hp : 0 ≤ daySeconds t h mi s / 3600 / 60 := by unfold daySeconds; omega
  have hc := clampDay_pos Y M d
  obtain ⟨N, y', m', d', hN, ho⟩ := dayLoop_ends _ Y M (clampDay Y M d + t.mday + daySeconds t h mi s / 3600 / 60) c
    (by omega) (by omega) (by have := hv.2.2.1; omega) (Nat.le_refl _)
  refine ⟨N, fun n hn => ?_⟩
  unfold addDuration
  rw [C40_numbers]
  simp only [e, hN n hn]
  unfold normalise
  rw [← hY, ← hM]
  congr 2
  omega

/-- C41, the part that holds: without years and months, with one day up to the length of the month, and as long as
the hours stay below 60, exactly the duration is added. -/
theorem C41_partial (pf : List Char → Option Rat) (t : Tm) (ht : ValidTm t) (d h mi s : Nat)
    (h1 : 1 ≤ d) (h2 : (d : Int) ≤ monthLen t.year t.mon) (h3 : daySeconds t h mi s < 216000) :
    ∃ N, ∀ n, N ≤ n → addDuration pf n t (durOf false 0 0 d h mi s) =
      .tm (gmtime (timegm t + d * 86400 + h * 3600 + mi * 60 + s)) := by
  obtain ⟨N, hN⟩ := C41_exact pf t ht 0 0 d h mi s
  refine ⟨N, fun n hn => ?_⟩
  rw [hN n hn]
  obtain ⟨hv, t1, t2, t3, t4, t5, t6⟩ := ht
  have e1 : t.year + ((0 : Nat) : Int) + (t.mon - 1 + ((0 : Nat) : Int)) / 12 = t.year := by
    have := hv.1; have := hv.2.1; omega
  have e2 : (t.mon - 1 + ((0 : Nat) : Int)) % 12 + 1 = t.mon := by have := hv.1; have := hv.2.1; omega
  have e3 : clampDay t.year t.mon d = d := by unfold clampDay; rw [if_neg (by omega), if_neg (by omega)]
  rw [e1, e2, e3]
  congr 2
  unfold timegm daySeconds at *
  unfold ymd2ord
  omega

/-- C41 is false: a duration of less than a day always adds one day too much; in particular adding nothing is
never the identity. -/
theorem C41_counterexample (pf : List Char → Option Rat) (t : Tm) (ht : ValidTm t) (h mi s : Nat)
    (h3 : daySeconds t h mi s < 216000) :
    ∃ N, ∀ n, N ≤ n → addDuration pf n t (durOf false 0 0 0 h mi s) =
      .tm (gmtime (timegm t + 86400 + h * 3600 + mi * 60 + s)) := by
  obtain ⟨N, hN⟩ := C41_exact pf t ht 0 0 0 h mi s
  refine ⟨N, fun n hn => ?_⟩
  rw [hN n hn]
  obtain ⟨hv, t1, t2, t3, t4, t5, t6⟩ := ht
  have e1 : t.year + ((0 : Nat) : Int) + (t.mon - 1 + ((0 : Nat) : Int)) / 12 = t.year := by
    have := hv.1; have := hv.2.1; omega
  have e2 : (t.mon - 1 + ((0 : Nat) : Int)) % 12 + 1 = t.mon := by have := hv.1; have := hv.2.1; omega
  have e3 : clampDay t.year t.mon ((0 : Nat) : Int) = 1 := by
    have := monthLen_ge t.year t.mon
    unfold clampDay; rw [if_neg (by omega), if_pos (by omega)]
  rw [e1, e2, e3]
  congr 2
  unfold timegm daySeconds at *
  unfold ymd2ord
  omega

/-- C41 is also false for long durations of hours: 72 hours added at midnight (together with one day) end up 36 hours
early, and for days beyond the month length: they are cut off. -/
theorem C41_more_counterexamples :
    addDuration (fun _ => none) 5 (gmtime 0) (durOf false 0 0 1 72 0 0) = .tm (gmtime ((4 * 24 - 36) * 3600)) ∧
    addDuration (fun _ => none) 5 (gmtime 0) (durOf false 0 0 100 0 0 0) = .tm (gmtime (31 * 86400)) := by
  decide +kernel

example : addDuration (fun _ => none) 5 (gmtime 0) (durOf false 1 2 3 4 5 6) = .tm (gmtime 36907506) := by decide +kernel
example : ValidTm (gmtime 0) := validTm_gmtime 0

/-- C42, exactly: for a duration with a plus sign the loop ends if and only if it begins with at least one day. -/
theorem C42_iff (pf : List Char → Option Rat) (t : Tm) (txt : List Char) (d : Dur) (s : Int)
    (h : parseDuration pf txt = .ok (false, d)) (hs : d.sec = .int s) :
    (∃ n, addDuration pf n t txt ≠ .running) ↔
      1 ≤ clampDay (t.year + d.year + (t.mon - 1 + d.mon) / 12) ((t.mon - 1 + d.mon) % 12 + 1) d.mday
        + t.mday + daySeconds t d.hour d.min s / 3600 / 60 := by
  obtain ⟨Y, M, c, hh, mm, ss, e, rfl, rfl, _⟩ := addStart_spec t d s
  constructor
  · rintro ⟨n, hn⟩
    by_cases hd : 1 ≤ clampDay (t.year + d.year + (t.mon - 1 + d.mon) / 12) ((t.mon - 1 + d.mon) % 12 + 1) d.mday
        + t.mday + daySeconds t d.hour d.min s / 3600 / 60
    · exact hd
    · exfalso
      apply hn
      unfold addDuration
      simp only [h, hs, e, dayLoop_runs n _ _ _ _ (Int.not_le.1 hd)]
  · intro hd
    obtain ⟨N, y', m', d', hN, _⟩ := dayLoop_ends _ (t.year + d.year + (t.mon - 1 + d.mon) / 12) _ _ c (by omega : 1 ≤ (t.mon - 1 + d.mon) % 12 + 1) (by omega) hd
      (Nat.le_refl _)
    refine ⟨N, ?_⟩
    unfold addDuration
    simp only [h, hs, e, hN N (Nat.le_refl _)]
    simp

/-- C42, the part that holds: durations without negative hours, minutes and seconds. -/
theorem C42_partial (pf : List Char → Option Rat) (t : Tm) (ht : ValidTm t) (txt : List Char) (d : Dur)
    (h : parseDuration pf txt = .ok (false, d)) (h1 : 0 ≤ d.hour) (h2 : 0 ≤ d.min)
    (h3 : (∃ s, d.sec = .int s ∧ 0 ≤ s) ∨ ∃ q, d.sec = .flt q ∧ 0 ≤ q) :
    ∃ n, addDuration pf n t txt ≠ .running := by
  obtain ⟨hv, t1, t2, t3, t4, t5, t6⟩ := ht
  rcases h3 with ⟨s, hs, h3⟩ | ⟨q, hs, h3⟩
  · rw [C42_iff pf t txt d s h hs]
    have := clampDay_pos (t.year + d.year + (t.mon - 1 + d.mon) / 12) ((t.mon - 1 + d.mon) % 12 + 1) d.mday
    have : 0 ≤ daySeconds t d.hour d.min s / 3600 / 60 := by unfold daySeconds; omega
    have := hv.2.2.1
    omega
  · obtain ⟨Y, M, c, hh, mm, ss, e, rfl, rfl, _⟩ := addStart_spec t d (60 * (((t.sec : Rat) + q) / 60).floor - t.sec)
    have hf : 0 ≤ (((t.sec : Rat) + q) / 60).floor := by
      rw [Rat.le_floor_iff]
      have : (0 : Rat) ≤ (t.sec : Rat) := by
        have := Rat.intCast_le_intCast.2 t5
        simpa using this
      grind
    have hd : 1 ≤ clampDay (t.year + d.year + (t.mon - 1 + d.mon) / 12) ((t.mon - 1 + d.mon) % 12 + 1) d.mday
        + t.mday + daySeconds t d.hour d.min (60 * (((t.sec : Rat) + q) / 60).floor - t.sec) / 3600 / 60 := by
      have := clampDay_pos (t.year + d.year + (t.mon - 1 + d.mon) / 12) ((t.mon - 1 + d.mon) % 12 + 1) d.mday
      have : 0 ≤ daySeconds t d.hour d.min (60 * (((t.sec : Rat) + q) / 60).floor - t.sec) / 3600 / 60 := by
        unfold daySeconds; omega
      have := hv.2.2.1
      omega
    obtain ⟨N, y', m', d', hN, _⟩ := dayLoop_ends _ (t.year + d.year + (t.mon - 1 + d.mon) / 12) _ _ c (by omega : 1 ≤ (t.mon - 1 + d.mon) % 12 + 1) (by omega) hd
      (Nat.le_refl _)
    refine ⟨N, ?_⟩
    unfold addDuration
    simp only [h, hs, e, hN N (Nat.le_refl _)]
    simp

/-- C42 is false: a blank hides the minus sign of a component from the check, and then the loop never ends. -/
theorem C42_counterexample (pf : List Char → Option Rat) (n : Nat) :
    addDuration pf n (gmtime 0) "P0Y0M0DT -170H0M0S".toList = .running := by
  have h : parseDuration pf "P0Y0M0DT -170H0M0S".toList = .ok (false, ⟨0, 0, 0, -170, 0, .int 0⟩) := rfl
  unfold addDuration
  simp only [h]
  have e : addStart (gmtime 0) ⟨0, 0, 0, -170, 0, .int 0⟩ 0 = ((1970, 1, -1, -3), 10, 0, 0) := by decide +kernel
  simp only [e]
  rw [dayLoop_runs n _ _ _ _ (by decide)]

/-- A duration with a minus sign adds nothing: the result is `None`. -/
theorem C42_negative (pf : List Char → Option Rat) (n : Nat) (t : Tm) (y m d h mi s : Nat) :
    addDuration pf n t (durOf true y m d h mi s) = .none := by
  unfold addDuration
  rw [C40_numbers]

/-! ## C43 -/

/-- C43: the comparisons agree with the order of epoch seconds. -/
theorem C43_order (now p a b : Int) (hp : p ≠ 0) :
    before now (.int p) = .ok (decide (now < p)) ∧ after now (.int p) = .ok (decide (p ≤ now)) ∧
    laterThan (.int a) (.int b) = .ok (decide (b ≤ a)) := by
  have hb : before now (.int p) = .ok (decide (now < p)) := by
    unfold before
    simp only [Point.truthy, hp, ne_eq, not_false_eq_true, decide_true, Bool.not_true, Bool.false_eq_true, if_false,
      Point.toCmp]
    congr 1
    rw [Bool.eq_iff_iff, gmtime_lt_iff, decide_eq_true_eq]
  refine ⟨hb, ?_, ?_⟩
  · unfold after
    simp only [Point.truthy, hp, ne_eq, not_false_eq_true, decide_true, Bool.not_true, Bool.false_eq_true, if_false, hb]
    congr 1
    rw [Bool.eq_iff_iff]
    simp
  · unfold laterThan
    simp only [Point.toCmp, geCmp]
    congr 1
    rw [Bool.eq_iff_iff]
    simp only [Bool.not_eq_true', ← Bool.not_eq_true, gmtime_lt_iff, decide_eq_true_eq]
    omega

/-- The point 0 (and `None`, and an empty text) counts as absent: both before and after. -/
theorem C43_zero (now : Int) : before now (.int 0) = .ok true ∧ after now (.int 0) = .ok true ∧
    before now .none = .ok true ∧ after now .none = .ok true ∧ before now (.str []) = .ok true ∧
    after now (.str []) = .ok true := by
  simp [before, after, Point.truthy]

/-- An absent point can not be ordered against an instant: `later_than` raises `TypeError`; two absent points given as
empty texts are equal. -/
theorem C43_later_absent (a : Int) : laterThan (.int a) .none = .error .typeError ∧
    laterThan .none (.int a) = .error .typeError ∧ laterThan (.int a) (.str []) = .error .typeError ∧
    laterThan (.str []) (.int a) = .error .typeError ∧ laterThan (.str []) (.str []) = .ok true ∧
    laterThan .none .none = .error .typeError := by
  simp [laterThan, Point.toCmp, geCmp, strToTime]

example : before 100 (.int 101) = .ok true ∧ before 100 (.int (-5)) = .ok false := by decide +kernel

/-! ## C44 -/

theorem splitFirstP_some {p : Char → Bool} {a : List Char} {c : Char} {b : List Char} (ha : ∀ x ∈ a, p x = false)
    (hc : p c = true) : splitFirstP p (a ++ c :: b) = (a, some b) := by
  induction a with
  | nil => simp [splitFirstP, hc]
  | cons x xs ih =>
    simp only [List.cons_append, splitFirstP, ha x (by simp)]
    rw [ih (fun y hy => ha y (List.mem_cons_of_mem _ hy))]
    simp

theorem digit_facts : ∀ n, n < 10 → digit n ≠ '-' ∧ digit n ≠ ':' ∧ digit n ≠ 'T' ∧ digit n ≠ 't' ∧ digit n ≠ 'Z' ∧
    digit n ≠ 'z' ∧ digit n ≠ '.' ∧ digit n ≠ 'd' := by decide

theorem mem_pad2 {n : Nat} (h : n < 100) {c : Char} (hc : c ∈ pad2 n) : ∃ k, k < 10 ∧ c = digit k := by
  simp only [pad2, List.mem_cons, List.not_mem_nil, or_false] at hc
  rcases hc with rfl | rfl
  · exact ⟨_, by omega, rfl⟩
  · exact ⟨_, by omega, rfl⟩

theorem mem_pad4 {n : Nat} (h : n ≤ 9999) {c : Char} (hc : c ∈ pad4 n) : ∃ k, k < 10 ∧ c = digit k := by
  unfold pad4 at hc
  rcases List.mem_append.1 hc with hc | hc
  · exact mem_pad2 (by omega) hc
  · exact mem_pad2 (by omega) hc

theorem strpTwo_pad2 {mx n : Nat} (h : n ≤ mx) (hm : mx < 100) : strpTwo mx (pad2 n) = some n := by
  have : strpUnit mx (n / 10) (digit (n % 10)) = some (n % 10) := by
    unfold strpUnit
    split
    · exact decimal_digit (by omega)
    · exact digitVal_digit (by omega)
  simp only [pad2, strpTwo, digitVal_digit (show n / 10 < 10 by omega), this]
  rw [show n / 10 * 10 + n % 10 = n by omega, if_pos h]

theorem strpMonthDay_pad {m d : Nat} (h1 : 1 ≤ m) (h2 : m ≤ 12) (h3 : 1 ≤ d) (h4 : d ≤ 31) :
    strpMonthDay (pad2 m ++ '-' :: pad2 d) = some (m, d) :=
  (strpMonthDay_iff _ _ _).2 ⟨pad2 m, pad2 d, rfl, ⟨h1, h2, .inl rfl⟩, ⟨h3, h4, .inl rfl⟩⟩

theorem strpDate_pad {y m d : Nat} (h0 : 1 ≤ y) (h0' : y ≤ 9999) (h1 : 1 ≤ m) (h2 : m ≤ 12) (h3 : 1 ≤ d)
    (h4 : (d : Int) ≤ monthLen y m) : strpDate (pad4 y ++ '-' :: (pad2 m ++ '-' :: pad2 d)) = some (y, m, d) := by
  unfold strpDate
  rw [splitFirst_some_iff.2 ⟨rfl, dash_not_mem_pad4 h0'⟩]
  have := monthLen_le y m
  simp only [strpYear_pad4 h0', strpMonthDay_pad h1 h2 h3 (by omega : d ≤ 31)]
  have : dateExists y m d = true := by simp [dateExists, *]
  rw [if_pos this]

theorem colon_not_mem_pad2 {n : Nat} (h : n < 100) : ':' ∉ pad2 n := by
  intro hc
  obtain ⟨k, hk, e⟩ := mem_pad2 h hc
  exact (digit_facts k hk).2.1 e.symm

theorem strpClock_pad {h mi s : Nat} (h1 : h ≤ 23) (h2 : mi ≤ 59) (h3 : s ≤ 61) :
    strpClock (pad2 h ++ ':' :: (pad2 mi ++ ':' :: (pad2 s ++ ['Z']))) = some (h, mi, s) := by
  have e3 : strpSecZ (pad2 s ++ ['Z']) = some s := by
    unfold strpSecZ
    rw [splitFirstP_some (fun x hx => ?_) (by decide)]
    · exact strpTwo_pad2 h3 (by decide)
    · obtain ⟨k, hk, rfl⟩ := mem_pad2 (by omega) hx
      simp [(digit_facts k hk).2.2.2.2.1, (digit_facts k hk).2.2.2.2.2.1]
  have e2 : strpMinSec (pad2 mi ++ ':' :: (pad2 s ++ ['Z'])) = some (mi, s) := by
    unfold strpMinSec
    rw [splitFirst_some_iff.2 ⟨rfl, colon_not_mem_pad2 (by omega)⟩]
    simp only [strpTwo_pad2 h2 (by decide), e3]
  unfold strpClock
  rw [splitFirst_some_iff.2 ⟨rfl, colon_not_mem_pad2 (by omega)⟩]
  simp only [strpTwo_pad2 h1 (by decide), e2]

/-- the text up to the seconds, and a tail -/
def tsText (y m d h mi s : Nat) (tail : List Char) : List Char :=
  (pad4 y ++ '-' :: (pad2 m ++ '-' :: pad2 d)) ++ 'T' :: (pad2 h ++ ':' :: (pad2 mi ++ ':' :: (pad2 s ++ tail)))

theorem date_no_T {y m d : Nat} (h0' : y ≤ 9999) (h2 : m ≤ 12) (h4 : d ≤ 31) :
    ∀ x ∈ pad4 y ++ '-' :: (pad2 m ++ '-' :: pad2 d), (decide (x = 'T') || decide (x = 't')) = false := by
  intro x hx
  simp only [List.mem_append, List.mem_cons] at hx
  rcases hx with hx | rfl | hx | rfl | hx
  · obtain ⟨k, hk, rfl⟩ := mem_pad4 h0' hx; simp [(digit_facts k hk).2.2.1, (digit_facts k hk).2.2.2.1]
  · decide
  · obtain ⟨k, hk, rfl⟩ := mem_pad2 (by omega) hx; simp [(digit_facts k hk).2.2.1, (digit_facts k hk).2.2.2.1]
  · decide
  · obtain ⟨k, hk, rfl⟩ := mem_pad2 (by omega) hx; simp [(digit_facts k hk).2.2.1, (digit_facts k hk).2.2.2.1]

theorem strptimeTs_text {y m d h mi s : Nat} (h0 : 1 ≤ y) (h0' : y ≤ 9999) (h1 : 1 ≤ m) (h2 : m ≤ 12) (h3 : 1 ≤ d)
    (h4 : (d : Int) ≤ monthLen y m) (h5 : h ≤ 23) (h6 : mi ≤ 59) (h7 : s ≤ 61) :
    strptimeTs (tsText y m d h mi s ['Z']) =
      some { year := y, mon := m, mday := d, hour := h, min := mi, sec := s, wday := (ymd2ord y m d + 6) % 7,
             yday := daysBeforeMonth y m + d } := by
  unfold strptimeTs tsText
  have := monthLen_le y m
  rw [splitFirstP_some (date_no_T h0' h2 (by omega)) (by decide)]
  simp only [strpDate_pad h0 h0' h1 h2 h3 h4, strpClock_pad h5 h6 h7]

theorem strftime_text (t : Tm) : strftimeTs t =
    tsText t.year.toNat t.mon.toNat t.mday.toNat t.hour.toNat t.min.toNat t.sec.toNat ['Z'] := by
  simp [strftimeTs, tsText]

/-- reading the text of an instant as a structured time gives all of its fields, the day of the week and of the year
included -/
theorem strptime_exact (x : Int) (h1 : 1 ≤ (gmtime x).year) (h2 : (gmtime x).year ≤ 9999) :
    strptimeTs (strftimeTs (gmtime x)) = some (gmtime x) := by
  obtain ⟨hv, _⟩ := gmtime_date x
  obtain ⟨a1, a2, a3, a4, a5, a6, _⟩ := gmtime_clock x
  obtain ⟨v1, v2, v3, v4⟩ := hv
  rw [strftime_text]
  have ey : ((gmtime x).year.toNat : Int) = (gmtime x).year := by omega
  have em : ((gmtime x).mon.toNat : Int) = (gmtime x).mon := by omega
  have ed : ((gmtime x).mday.toNat : Int) = (gmtime x).mday := by omega
  have eh : ((gmtime x).hour.toNat : Int) = (gmtime x).hour := by omega
  have emi : ((gmtime x).min.toNat : Int) = (gmtime x).min := by omega
  have es : ((gmtime x).sec.toNat : Int) = (gmtime x).sec := by omega
  rw [strptimeTs_text (y := (gmtime x).year.toNat) (m := (gmtime x).mon.toNat)
    (d := (gmtime x).mday.toNat) (h := (gmtime x).hour.toNat) (mi := (gmtime x).min.toNat)
    (s := (gmtime x).sec.toNat) (by omega) (by omega) (by omega) (by omega) (by omega)
    (by rw [ey, em, ed]; exact v4) (by omega) (by omega) (by omega)]
  simp only [ey, em, ed, eh, emi, es]
  have hy : daysBeforeMonth (gmtime x).year (gmtime x).mon + (gmtime x).mday = (gmtime x).yday := by
    simp only [gmtime, tmOf]; omega
  have hw : (ymd2ord (gmtime x).year (gmtime x).mon (gmtime x).mday + 6) % 7 = (gmtime x).wday := by
    have : ymd2ord (gmtime x).year (gmtime x).mon (gmtime x).mday = x / 86400 + epochOrd := by
      unfold ymd2ord
      simp only [gmtime, tmOf]; omega
    rw [this]; rfl
  rw [hy, hw]

/-- reading the text of an instant as a structured time, then as seconds -/
theorem strptime_strftime (x : Int) (h1 : 1 ≤ (gmtime x).year) (h2 : (gmtime x).year ≤ 9999) :
    ∃ t, strptimeTs (strftimeTs (gmtime x)) = some t ∧ timegm t = x :=
  ⟨_, strptime_exact x h1 h2, timegm_gmtime x⟩

/-- C44: the rendering of an instant with a year of four digits reads back as the same instant. -/
theorem C44_roundtrip (x : Int) (h1 : 1000 ≤ (gmtime x).year) (h2 : (gmtime x).year ≤ 9999) :
    strToTime (instant x) = .ok (some (gmtime x)) := by
  obtain ⟨t, ht, hx⟩ := strptime_strftime x (by omega) h2
  unfold strToTime instant
  have : ¬ strftimeTs (gmtime x) = [] := by simp [strftime_text, tsText, pad4, pad2]
  simp only [this, if_false, ht, hx]

/-- C44 with fractional seconds: they are dropped. -/
theorem C44_fraction (x : Int) (h1 : 1000 ≤ (gmtime x).year) (h2 : (gmtime x).year ≤ 9999) (ds : List Char)
    (hd : ∀ c ∈ ds, ∃ n, IsDecimal c n) (base : List Char) (hb : instant x = base ++ ['Z']) :
    strToTime (base ++ '.' :: (ds ++ ['Z'])) = .ok (some (gmtime x)) := by
  replace hd : ∀ c ∈ ds, (decimalVal? c).isSome = true := fun c hc => by
    obtain ⟨n, hn⟩ := hd c hc
    rw [(decimalVal_iff c n).mpr hn]; rfl
  obtain ⟨t, ht, hx⟩ := strptime_strftime x (by omega) h2
  obtain ⟨hv, _⟩ := gmtime_date x
  obtain ⟨a1, a2, a3, a4, a5, a6, _⟩ := gmtime_clock x
  obtain ⟨v1, v2, v3, v4⟩ := hv
  unfold instant at hb
  have hbase : base = tsText (gmtime x).year.toNat (gmtime x).mon.toNat (gmtime x).mday.toNat (gmtime x).hour.toNat
      (gmtime x).min.toNat (gmtime x).sec.toNat [] := by
    rw [strftime_text] at hb
    have : tsText (gmtime x).year.toNat (gmtime x).mon.toNat (gmtime x).mday.toNat (gmtime x).hour.toNat
      (gmtime x).min.toNat (gmtime x).sec.toNat ['Z'] = tsText (gmtime x).year.toNat (gmtime x).mon.toNat
      (gmtime x).mday.toNat (gmtime x).hour.toNat (gmtime x).min.toNat (gmtime x).sec.toNat [] ++ ['Z'] := by
      simp [tsText]
    rw [this] at hb
    exact (List.append_cancel_right hb).symm
  generalize hy : (gmtime x).year.toNat = y at hbase
  generalize hm : (gmtime x).mon.toNat = m at hbase
  generalize hdd : (gmtime x).mday.toNat = d at hbase
  generalize hh : (gmtime x).hour.toNat = h at hbase
  generalize hmi : (gmtime x).min.toNat = mi at hbase
  generalize hs : (gmtime x).sec.toNat = s at hbase
  have hml := monthLen_le (gmtime x).year (gmtime x).mon
  have by' : y ≤ 9999 := by omega
  have bm : m ≤ 12 := by omega
  have bd : d ≤ 31 := by omega
  have bh : h < 100 := by omega
  have bmi : mi < 100 := by omega
  have bs : s < 100 := by omega
  have hdig : ∀ n, n < 10 → (decimalVal? (digit n)).isSome = true := by decide +kernel
  -- the plain format does not match
  have e1 : strptimeTs (base ++ '.' :: (ds ++ ['Z'])) = none := by
    have : base ++ '.' :: (ds ++ ['Z']) = tsText y m d h mi s ('.' :: (ds ++ ['Z'])) := by
      rw [hbase]; simp [tsText]
    rw [this]
    unfold strptimeTs tsText
    rw [splitFirstP_some (date_no_T by' bm bd) (by decide)]
    have : strpSecZ (pad2 s ++ '.' :: (ds ++ ['Z'])) = none := by
      unfold strpSecZ
      have : pad2 s ++ '.' :: (ds ++ ['Z']) = (pad2 s ++ '.' :: ds) ++ ['Z'] := by simp
      rw [this, splitFirstP_some (fun c hc => ?_) (by decide)]
      · simp [pad2, strpTwo]
      · have isD : (decimalVal? c).isSome = true ∨ c = '.' := by
          simp only [List.mem_append, List.mem_cons] at hc
          rcases hc with hc | rfl | hc
          · obtain ⟨k, hk, rfl⟩ := mem_pad2 bs hc; exact .inl (hdig k hk)
          · exact .inr rfl
          · exact .inl (hd c hc)
        have z1 : c ≠ 'Z' := by rintro rfl; revert isD; decide +kernel
        have z2 : c ≠ 'z' := by rintro rfl; revert isD; decide +kernel
        simp [z1, z2]
    have : strpMinSec (pad2 mi ++ ':' :: (pad2 s ++ '.' :: (ds ++ ['Z']))) = none := by
      unfold strpMinSec
      rw [splitFirst_some_iff.2 ⟨rfl, colon_not_mem_pad2 bmi⟩]
      simp only [this]
      split <;> simp_all
    have : strpClock (pad2 h ++ ':' :: (pad2 mi ++ ':' :: (pad2 s ++ '.' :: (ds ++ ['Z'])))) = none := by
      unfold strpClock
      rw [splitFirst_some_iff.2 ⟨rfl, colon_not_mem_pad2 bh⟩]
      simp only [this]
      split <;> simp_all
    simp only [this]
    split <;> simp_all
  -- the one with fraction does
  have hlen : base.length = 19 := by rw [hbase]; simp [tsText, pad4, pad2]
  have e2 : fragmentMatch (base ++ '.' :: (ds ++ ['Z'])) = some base := by
    unfold fragmentMatch
    have t1 : (base ++ '.' :: (ds ++ ['Z'])).take 19 = base := by
      rw [← hlen]; simp
    have t2 : (base ++ '.' :: (ds ++ ['Z'])).drop 19 = '.' :: (ds ++ ['Z']) := by
      rw [← hlen]; simp
    rw [t1, t2]
    have hm : matchShape "dddd-dd-ddTdd:dd:dd".toList base = true := by
      rw [hbase]
      have f := hdig
      simp only [tsText, pad4, pad2, List.cons_append, List.nil_append, List.append_nil]
      simp only [show "dddd-dd-ddTdd:dd:dd".toList = ['d','d','d','d','-','d','d','-','d','d','T','d','d',':','d','d',':','d','d'] from rfl]
      simp only [matchShape]
      rw [f _ (show y / 100 / 10 < 10 by omega), f _ (show y / 100 % 10 < 10 by omega),
        f _ (show y % 100 / 10 < 10 by omega), f _ (show y % 100 % 10 < 10 by omega),
        f _ (show m / 10 < 10 by omega), f _ (show m % 10 < 10 by omega),
        f _ (show d / 10 < 10 by omega), f _ (show d % 10 < 10 by omega),
        f _ (show h / 10 < 10 by omega), f _ (show h % 10 < 10 by omega),
        f _ (show mi / 10 < 10 by omega), f _ (show mi % 10 < 10 by omega),
        f _ (show s / 10 < 10 by omega), f _ (show s % 10 < 10 by omega)]
      rfl
    have hf : ∀ ds : List Char, (∀ c ∈ ds, (decimalVal? c).isSome = true) → fracTail (ds ++ ['Z']) = true := by
      intro ds
      induction ds with
      | nil => intro _; rfl
      | cons c cs ih =>
        intro h
        have hc := h c (by simp)
        have ih' := ih (fun x hx => h x (List.mem_cons_of_mem _ hx))
        have c1 : c ≠ 'Z' := by rintro rfl; revert hc; decide +kernel
        rw [List.cons_append]
        unfold fracTail
        split
        · next e => simp only [List.cons.injEq] at e; exact absurd e.1 c1
        · next e => simp only [List.cons.injEq] at e; exact absurd e.1 c1
        · next e => simp only [List.cons.injEq] at e; obtain ⟨rfl, rfl⟩ := e; simp [hc, ih']
        · next e => simp at e
    rw [if_pos hm]
    simp only [hf ds hd, if_true]
  unfold strToTime
  have : ¬ base ++ '.' :: (ds ++ ['Z']) = [] := by simp
  simp only [this, if_false, e1, e2]
  rw [← hb, ht]
  simp only [hx]

theorem matchShape_mem {x : Char} (hx : x ≠ 'd') : ∀ {ps cs : List Char}, matchShape ps cs = true → x ∈ ps → x ∈ cs := by
  intro ps
  induction ps with
  | nil => intro cs _ h; cases h
  | cons p ps ih =>
    intro cs h hm
    cases cs with
    | nil => cases h
    | cons c cs =>
      simp only [matchShape, Bool.and_eq_true] at h
      rcases List.mem_cons.1 hm with rfl | hm
      · rw [if_neg hx, decide_eq_true_eq] at h
        rw [← h.1]
        exact List.mem_cons_self
      · exact List.mem_cons_of_mem _ (ih h.2 hm)

/-- Finding: a text without a `T` is refused, but with an `AttributeError` (`None` has no `groups`). -/
theorem C44_refused {s : List Char} (h0 : s ≠ []) (hT : 'T' ∉ s) (ht : 't' ∉ s) :
    strToTime s = .error .attributeError := by
  have e1 : strptimeTs s = none := by
    have : ∀ l : List Char, 'T' ∉ l → 't' ∉ l →
        (splitFirstP (fun c => decide (c = 'T') || decide (c = 't')) l).2 = none := by
      intro l
      induction l with
      | nil => intro _ _; rfl
      | cons c cs ih =>
        intro h1 h2
        simp only [List.mem_cons, not_or] at h1 h2
        have hc : (decide (c = 'T') || decide (c = 't')) = false := by
          simp [Ne.symm h1.1, Ne.symm h2.1]
        simp [splitFirstP, hc, ih h1.2 h2.2]
    unfold strptimeTs
    have hn := this s hT ht
    cases hh : splitFirstP (fun c => decide (c = 'T') || decide (c = 't')) s with
    | mk a b => rw [hh] at hn; simp only at hn; subst hn; rfl
  have e2 : fragmentMatch s = none := by
    unfold fragmentMatch
    split
    · next h =>
      exact absurd (List.mem_of_mem_take (matchShape_mem (x := 'T') (by decide) h (by decide))) hT
    · rfl
  unfold strToTime
  simp only [h0, if_false, e1, e2]

example : strToTime "2024-02-29 12:00:00Z".toList = .error .attributeError :=
  C44_refused (by decide) (by decide) (by decide)
example : strToTime "2024-02-29T12:00:00Z".toList = .ok (some (gmtime 1709208000)) := by decide +kernel
example : strToTime "2024-02-29T12:00:00.125Z".toList = .ok (some (gmtime 1709208000)) := by decide +kernel
example : strToTime "2024-02-30T12:00:00Z".toList = .error .attributeError := by decide +kernel
example : instant 1709208000 = "2024-02-29T12:00:00Z".toList := by decide +kernel

/-- C43 for texts: comparing with the rendering of an instant is comparing with the instant. -/
theorem C43_text (now x : Int) (h1 : 1000 ≤ (gmtime x).year) (h2 : (gmtime x).year ≤ 9999) :
    before now (.str (instant x)) = .ok (decide (now < x)) := by
  have hne : ¬ instant x = [] := by simp [instant, strftime_text, tsText, pad4, pad2]
  unfold before
  simp only [Point.truthy, ne_eq, hne, not_false_eq_true, decide_true, Bool.not_true, Bool.false_eq_true, if_false,
    Point.toCmp, C44_roundtrip x h1 h2]
  congr 1
  rw [Bool.eq_iff_iff, gmtime_lt_iff, decide_eq_true_eq]

/-! ## C45 -/

theorem doubleDiv_trunc (n : Nat) (h : n < 2 ^ 34 * 1000000) :
    (doubleDiv n 1000000).1 / 2 ^ (doubleDiv n 1000000).2 = n / 1000000 := by
  unfold doubleDiv
  simp only
  generalize hq0 : n / 1000000 = q0
  have hq : q0 < 2 ^ 34 := by omega
  generalize hs : 52 - Nat.log2 q0 = s
  have hs19 : 19 ≤ s := by
    have : Nat.log2 q0 < 34 := by
      by_cases h0 : q0 = 0
      · subst h0; decide
      · exact (Nat.log2_lt h0).2 hq
    omega
  have hp : 2 ^ 19 ≤ 2 ^ s := Nat.pow_le_pow_right (by decide) hs19
  generalize 2 ^ s = P at hp ⊢
  generalize hN : n * P = N
  generalize hM : (if 2 * (N % 1000000) < 1000000 then N / 1000000 else if 2 * (N % 1000000) > 1000000 then N / 1000000 + 1
    else N / 1000000 + N / 1000000 % 2) = M
  have m1 : N / 1000000 ≤ M := by rw [← hM]; split <;> (try split) <;> omega
  have m2 : 2 * M * 1000000 ≤ 2 * N + 1000000 := by rw [← hM]; split <;> (try split) <;> omega
  have hn1 : q0 * 1000000 ≤ n := by rw [← hq0]; exact Nat.div_mul_le_self _ _
  have hn2 : n + 1 ≤ (q0 + 1) * 1000000 :=
    (Nat.div_lt_iff_lt_mul (by decide)).1 (by rw [hq0]; exact Nat.lt_succ_self _)
  have k1 : q0 * P ≤ M := by
    have : q0 * P * 1000000 ≤ N := by
      rw [← hN]
      calc q0 * P * 1000000 = q0 * 1000000 * P := by rw [Nat.mul_right_comm]
        _ ≤ n * P := Nat.mul_le_mul_right _ hn1
    omega
  have k2 : M < (q0 + 1) * P := by
    have : N + P ≤ (q0 + 1) * P * 1000000 := by
      rw [← hN]
      calc n * P + P = (n + 1) * P := by rw [Nat.add_mul, Nat.one_mul]
        _ ≤ (q0 + 1) * 1000000 * P := Nat.mul_le_mul_right _ hn2
        _ = (q0 + 1) * P * 1000000 := by rw [Nat.mul_right_comm]
    omega
  have hP : 0 < P := by omega
  exact Nat.le_antisymm (Nat.le_of_lt_succ ((Nat.div_lt_iff_lt_mul hP).2 k2)) ((Nat.le_div_iff_mul_le hP).2 k1)

/-- the truncation of `int(td.total_seconds())` is exact up to the year 2514 -/
theorem intTotalSeconds_eq (us : Int) (h : us.natAbs < 2 ^ 34 * 1000000) : intTotalSeconds us = us.tdiv 1000000 := by
  unfold intTotalSeconds
  simp only [doubleDiv_trunc _ h]
  obtain ⟨n, rfl | rfl⟩ := Int.eq_nat_or_neg us
  · rw [Int.natAbs_natCast]
    rcases Nat.eq_zero_or_pos n with rfl | h0
    · rfl
    · rw [Int.sign_eq_one_of_pos (by omega), Int.one_mul]; rfl
  · rw [Int.natAbs_neg, Int.natAbs_natCast]
    rcases Nat.eq_zero_or_pos n with rfl | h0
    · rfl
    · rw [Int.sign_eq_neg_one_of_neg (by omega), Int.neg_tdiv, Int.neg_one_mul]; rfl

/-- the offset in microseconds -/
def offsetUs (days seconds microseconds milliseconds minutes hours weeks : Int) : Int :=
  weeks * 604800000000 + days * 86400000000 + hours * 3600000000 + minutes * 60000000 + seconds * 1000000
    + milliseconds * 1000 + microseconds

theorem timedelta_ok {d s us ms mi h w x : Int} (e : timedelta d s us ms mi h w = .ok x) :
    x = offsetUs d s us ms mi h w := by
  unfold timedelta at e
  simp only at e
  split at e
  · simp only [ok_ok] at e; subst e; unfold offsetUs; omega
  · cases e

theorem dtAdd_ok {a b x : Int} (e : dtAdd a b = .ok x) : x = a + b := by
  unfold dtAdd at e
  split at e
  · simp only [ok_ok] at e; exact e.symm
  · cases e

/-- C45: `time_in_a_while`/`time_a_while_ago` add and subtract exactly, and `in_a_while` renders the whole second. -/
theorem C45_linear (nowUs d s us ms mi h w : Int) :
    (∀ x, timeInAWhile nowUs d s us ms mi h w = .ok x → x = nowUs + offsetUs d s us ms mi h w) ∧
    (∀ x, timeAWhileAgo nowUs d s us ms mi h w = .ok x → x = nowUs - offsetUs d s us ms mi h w) ∧
    (∀ x, inAWhile nowUs d s us ms mi h w = .ok x →
      x = instant ((nowUs + offsetUs d s us ms mi h w) / 1000000)) ∧
    (∀ x, aWhileAgo nowUs d s us ms mi h w = .ok x →
      x = instant ((nowUs - offsetUs d s us ms mi h w) / 1000000)) ∧
    (∀ x, shiftTime nowUs s = .ok x → x = nowUs + s * 1000000) := by
  have i1 : ∀ x, timeInAWhile nowUs d s us ms mi h w = .ok x → x = nowUs + offsetUs d s us ms mi h w := by
    intro x e
    unfold timeInAWhile at e
    split at e
    · next y hy => rw [dtAdd_ok e, timedelta_ok hy]
    · cases e
  have i2 : ∀ x, timeAWhileAgo nowUs d s us ms mi h w = .ok x → x = nowUs - offsetUs d s us ms mi h w := by
    intro x e
    unfold timeAWhileAgo at e
    split at e
    · next y hy => rw [dtAdd_ok e, timedelta_ok hy]; omega
    · cases e
  refine ⟨i1, i2, ?_, ?_, ?_⟩
  · intro x e
    unfold inAWhile at e
    simp only [map_ok] at e
    obtain ⟨y, hy, rfl⟩ := e
    rw [i1 y hy]; rfl
  · intro x e
    unfold aWhileAgo at e
    simp only [map_ok] at e
    obtain ⟨y, hy, rfl⟩ := e
    rw [i2 y hy]; rfl
  · intro x e
    unfold shiftTime at e
    split at e
    · next y hy => rw [dtAdd_ok e, timedelta_ok hy]; unfold offsetUs; omega
    · cases e

/-- When they succeed: the clock and the result lie in the years 1 to 9999 (microseconds `-62135596800000000` up to,
not including, `253402300800000000`). -/
theorem C45_total (nowUs d s us ms mi h w : Int)
    (h0 : -62135596800000000 ≤ nowUs) (h1 : nowUs < 253402300800000000)
    (h2 : -62135596800000000 ≤ nowUs + offsetUs d s us ms mi h w)
    (h3 : nowUs + offsetUs d s us ms mi h w < 253402300800000000) :
    timeInAWhile nowUs d s us ms mi h w = .ok (nowUs + offsetUs d s us ms mi h w) := by
  have e1 : ((w * 7 + d) * 86400 + h * 3600 + mi * 60 + s) * 1000000 + ms * 1000 + us = offsetUs d s us ms mi h w := by
    unfold offsetUs; omega
  unfold timeInAWhile timedelta
  simp only [e1]
  rw [if_pos (by omega)]
  simp only [dtAdd]
  rw [if_pos (by unfold epochOrd; omega)]

/-- C45: `epoch_in_a_while` gives the exact sum truncated toward zero, as long as it is before the year 2514. -/
theorem C45_epoch_partial (nowUs d s us ms mi h w x : Int)
    (hb : (nowUs + offsetUs d s us ms mi h w).natAbs < 2 ^ 34 * 1000000)
    (e : epochInAWhile nowUs d s us ms mi h w = .ok x) :
    x = (nowUs + offsetUs d s us ms mi h w).tdiv 1000000 := by
  unfold epochInAWhile at e
  simp only [map_ok] at e
  obtain ⟨y, hy, rfl⟩ := e
  rw [(C45_linear nowUs d s us ms mi h w).1 y hy, intTotalSeconds_eq _ hb]

/-- Beyond, the division by a million as a float rounds up across the second. -/
theorem C45_epoch_counterexample :
    epochInAWhile 0 0 (2 ^ 34) 999999 0 0 0 0 = .ok (2 ^ 34 + 1) ∧
      ((0 + offsetUs 0 (2 ^ 34) 999999 0 0 0 0).tdiv 1000000 = 2 ^ 34) := by decide +kernel

/-- All arguments zero: the clock itself.  Going forth and back: the same instant. -/
theorem C45_cancel (nowUs d s us ms mi h w x y : Int) (h1 : timeInAWhile nowUs d s us ms mi h w = .ok x)
    (h2 : timeAWhileAgo x d s us ms mi h w = .ok y) : y = nowUs := by
  rw [(C45_linear _ d s us ms mi h w).2.1 y h2, (C45_linear _ d s us ms mi h w).1 x h1]
  omega

theorem C45_zero (nowUs : Int) (h0 : -62135596800000000 ≤ nowUs) (h1 : nowUs < 253402300800000000) :
    timeInAWhile nowUs 0 0 0 0 0 0 0 = .ok nowUs := by
  have := C45_total nowUs 0 0 0 0 0 0 0 h0 h1 (by unfold offsetUs; omega) (by unfold offsetUs; omega)
  rw [this]; unfold offsetUs; congr 1; omega

example : epochInAWhile 1700000000500000 1 2 3 4 5 6 7 = .ok 1704341902 := by decide +kernel

/-- `utc_time_sans_frac()` is the second in which it is called (until the year 2514), and whole seconds later `epoch_in_a_while` is that
second plus their number. -/
theorem C45_now_partial (nowUs s x : Int) (h0 : 0 ≤ nowUs) (hs : 0 ≤ s) (hb : nowUs + s * 1000000 < 2 ^ 34 * 1000000) :
    utcTimeSansFrac nowUs * 1000000 ≤ nowUs ∧ nowUs < (utcTimeSansFrac nowUs + 1) * 1000000 ∧
      (epochInAWhile nowUs 0 s 0 0 0 0 0 = .ok x → x = utcTimeSansFrac nowUs + s) := by
  have h1 : nowUs.natAbs < 2 ^ 34 * 1000000 := by omega
  have h2 : nowUs + offsetUs 0 s 0 0 0 0 0 = nowUs + s * 1000000 := by unfold offsetUs; omega
  have e : utcTimeSansFrac nowUs = nowUs / 1000000 := by
    rw [utcTimeSansFrac, intTotalSeconds_eq _ h1, Int.tdiv_eq_ediv_of_nonneg h0]
  rw [e]
  refine ⟨by omega, by omega, fun h => ?_⟩
  rw [C45_epoch_partial nowUs 0 s 0 0 0 0 0 x (by rw [h2]; omega) h, h2, Int.tdiv_eq_ediv_of_nonneg (by omega)]
  omega

example : utcTimeSansFrac 1700000000999999 = 1700000000 := by decide +kernel

end Verif
