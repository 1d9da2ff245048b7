/-!
# Python string primitives

`str` methods used by the library, on `List Char`; wrappers on `String` at the
end.  Lean characters are unicode scalar values: lone surrogates, which Python
strings can hold, are not represented.
-/

namespace Verif

/-- `s.split(c)` for a one-character separator: never returns `[]`. -/
def splitC (c : Char) : List Char → List (List Char)
  | [] => [[]]
  | x :: xs =>
    if x = c then [] :: splitC c xs
    else match splitC c xs with
      | [] => [[x]]            -- unreachable, `splitC` is never empty
      | p :: ps => (x :: p) :: ps

/-- `c.join(parts)` for a one-character separator. -/
def joinC (c : Char) : List (List Char) → List Char
  | [] => []
  | [p] => p
  | p :: q :: ps => p ++ c :: joinC c (q :: ps)

theorem splitC_ne_nil (c : Char) (s : List Char) : splitC c s ≠ [] := by
  cases s with
  | nil => simp [splitC]
  | cons x xs =>
    simp only [splitC]
    split
    · simp
    · split <;> simp

theorem joinC_cons {c : Char} {p : List Char} {ps : List (List Char)} (h : ps ≠ []) :
    joinC c (p :: ps) = p ++ c :: joinC c ps := by
  cases ps with
  | nil => exact absurd rfl h
  | cons q qs => rfl

/-- `c.join(s.split(c)) == s`, for every string. -/
theorem joinC_splitC (c : Char) (s : List Char) : joinC c (splitC c s) = s := by
  induction s with
  | nil => rfl
  | cons x xs ih =>
    simp only [splitC]
    split
    · next h => rw [joinC_cons (splitC_ne_nil c xs), ih, h]; rfl
    · split
      · next h => exact absurd h (splitC_ne_nil c xs)
      · next p ps h =>
        rw [h] at ih
        cases ps with
        | nil => simp only [joinC] at ih ⊢; rw [ih]
        | cons q qs =>
          simp only [joinC] at ih ⊢; rw [List.cons_append, ih]

/-- No piece of `s.split(c)` contains the separator. -/
theorem splitC_not_mem (c : Char) (s : List Char) : ∀ p ∈ splitC c s, c ∉ p := by
  induction s with
  | nil => simp [splitC]
  | cons x xs ih =>
    simp only [splitC]
    split
    · simpa using ih
    · next hx =>
      split
      · intro p hp; simp at hp; subst hp; simp; exact fun e => hx e.symm
      · next p ps h =>
        rw [h] at ih
        intro q hq
        rcases List.mem_cons.1 hq with e | e
        · subst e
          have := ih p (by simp)
          simp only [List.mem_cons, not_or]
          exact ⟨fun e => hx e.symm, this⟩
        · exact ih q (by simp [e])

theorem splitC_of_not_mem {c : Char} {p : List Char} (h : c ∉ p) : splitC c p = [p] := by
  induction p with
  | nil => rfl
  | cons x xs ih =>
    simp only [List.mem_cons, not_or] at h
    simp only [splitC]
    rw [if_neg (fun e => h.1 e.symm), ih h.2]

theorem splitC_append {c : Char} {p : List Char} (h : c ∉ p) (s : List Char) :
    splitC c (p ++ c :: s) = p :: splitC c s := by
  induction p with
  | nil => simp [splitC]
  | cons x xs ih =>
    simp only [List.mem_cons, not_or] at h
    simp only [List.cons_append, splitC]
    rw [if_neg (fun e => h.1 e.symm), ih h.2]

/-- `c.join(ps).split(c) == ps` for a non-empty list of separator-free pieces. -/
theorem splitC_joinC {c : Char} {ps : List (List Char)} (hne : ps ≠ [])
    (h : ∀ p ∈ ps, c ∉ p) : splitC c (joinC c ps) = ps := by
  induction ps with
  | nil => exact absurd rfl hne
  | cons p ps ih =>
    cases ps with
    | nil => exact splitC_of_not_mem (h p (by simp))
    | cons q qs =>
      simp only [joinC]
      rw [splitC_append (h p (by simp)), ih (by simp) (fun r hr => h r (by simp [hr]))]

/-- `c.join(ps).split(c) == ps` iff the list is non-empty and its items have no separator. -/
theorem splitC_joinC_iff (c : Char) (ps : List (List Char)) :
    splitC c (joinC c ps) = ps ↔ ps ≠ [] ∧ ∀ p ∈ ps, c ∉ p := by
  constructor
  · intro h
    refine ⟨?_, ?_⟩
    · intro e; subst e; exact splitC_ne_nil c _ h
    · intro p hp; rw [← h] at hp; exact splitC_not_mem c _ p hp
  · rintro ⟨h₁, h₂⟩; exact splitC_joinC h₁ h₂

/-- `prefix` test: `s.startswith(p)`. -/
def startsWithC (p s : List Char) : Bool := p.isPrefixOf s

/-- `needle in hay` for strings. -/
def isSubstrC (needle : List Char) : List Char → Bool
  | [] => needle.isEmpty
  | x :: xs => needle.isPrefixOf (x :: xs) || isSubstrC needle xs

/-- `" ".join(parts)` on strings. -/
def pyJoin (c : Char) (ps : List String) : String := String.ofList (joinC c (ps.map String.toList))

/-- `s.split(c)` on strings. -/
def pySplit (c : Char) (s : String) : List String := (splitC c s.toList).map String.ofList

theorem pyJoin_pySplit (c : Char) (s : String) : pyJoin c (pySplit c s) = s := by
  simp [pyJoin, pySplit, Function.comp_def, joinC_splitC]

theorem map_ofList_toList (l : List String) : (l.map String.toList).map String.ofList = l := by
  simp [Function.comp_def]

theorem pySplit_ne_nil (c : Char) (s : String) : pySplit c s ≠ [] := by
  simp [pySplit, splitC_ne_nil]

theorem pySplit_pyJoin {c : Char} {ps : List String} (hne : ps ≠ [])
    (h : ∀ p ∈ ps, c ∉ p.toList) : pySplit c (pyJoin c ps) = ps := by
  simp only [pySplit, pyJoin, String.toList_ofList]
  rw [splitC_joinC]
  · exact map_ofList_toList ps
  · simpa using hne
  · intro p hp
    obtain ⟨q, hq, rfl⟩ := List.mem_map.1 hp
    exact h q hq

theorem pySplit_pyJoin_iff (c : Char) (ps : List String) :
    pySplit c (pyJoin c ps) = ps ↔ ps ≠ [] ∧ ∀ p ∈ ps, c ∉ p.toList := by
  constructor
  · intro h
    refine ⟨?_, ?_⟩
    · intro e; subst e; exact pySplit_ne_nil c _ h
    · intro p hp; rw [← h] at hp
      simp only [pySplit, List.mem_map] at hp
      obtain ⟨q, hq, rfl⟩ := hp
      rw [String.toList_ofList]
      exact splitC_not_mem c _ q hq
  · rintro ⟨h₁, h₂⟩; exact pySplit_pyJoin h₁ h₂

/-- Python's `str.isspace`/`str.strip` whitespace characters (Unicode `White_Space` as
CPython has it, plus U+001C–U+001F). -/
def pyIsSpace (c : Char) : Bool :=
  let n := c.toNat
  (9 ≤ n && n ≤ 13) || (28 ≤ n && n ≤ 32) || n == 0x85 || n == 0xA0 || n == 0x1680 ||
  (0x2000 ≤ n && n ≤ 0x200A) || n == 0x2028 || n == 0x2029 || n == 0x202F || n == 0x205F ||
  n == 0x3000

/-- `s.lstrip()` -/
def lstripC : List Char → List Char
  | [] => []
  | x :: xs => if pyIsSpace x then lstripC xs else x :: xs

/-- `s.rstrip()` -/
def rstripC (s : List Char) : List Char := (lstripC s.reverse).reverse

/-- `s.strip()` -/
def stripC (s : List Char) : List Char := rstripC (lstripC s)

/-- ASCII digit value. -/
def digitVal? (c : Char) : Option Nat :=
  if 48 ≤ c.toNat && c.toNat ≤ 57 then some (c.toNat - 48) else none

/-- The zeros of the decimal digits (general category `Nd` of Unicode 14, the version of Python 3.11); each is followed by the
digits one to nine. -/
def decimalZeros : List Nat :=
  [0x30, 0x660, 0x6f0, 0x7c0, 0x966, 0x9e6, 0xa66, 0xae6, 0xb66, 0xbe6, 0xc66, 0xce6, 0xd66, 0xde6, 0xe50,
   0xed0, 0xf20, 0x1040, 0x1090, 0x17e0, 0x1810, 0x1946, 0x19d0, 0x1a80, 0x1a90, 0x1b50, 0x1bb0, 0x1c40,
   0x1c50, 0xa620, 0xa8d0, 0xa900, 0xa9d0, 0xa9f0, 0xaa50, 0xabf0, 0xff10, 0x104a0, 0x10d30, 0x11066, 0x110f0,
   0x11136, 0x111d0, 0x112f0, 0x11450, 0x114d0, 0x11650, 0x116c0, 0x11730, 0x118e0, 0x11950, 0x11c50, 0x11d50,
   0x11da0, 0x16a60, 0x16ac0, 0x16b50, 0x1d7ce, 0x1d7d8, 0x1d7e2, 0x1d7ec, 0x1d7f6, 0x1e140, 0x1e2f0, 0x1e950,
   0x1fbf0]

/-- Value of a decimal digit of any script: `str.isdecimal`, `\d` of regular expressions, and the digits `int()` takes. -/
def decimalVal? (c : Char) : Option Nat :=
  (decimalZeros.find? (fun z => z ≤ c.toNat && c.toNat ≤ z + 9)).map (fun z => c.toNat - z)

/-- The digit part of `int(s)`: digits with optional single underscores between them.
`acc = none` before the first digit; `us` tells whether the last character was `_`. -/
def intDigits : Option Nat → Bool → List Char → Option Nat
  | none, _, [] => none
  | some n, us, [] => if us then none else some n
  | acc, us, c :: cs =>
    match decimalVal? c with
    | some d => intDigits (some (acc.getD 0 * 10 + d)) false cs
    | none =>
      if c = '_' then
        match acc with
        | none => none
        | some n => if us then none else intDigits (some n) true cs
      else none

/-- `int(s)` for a string (base 10).  `none` is `ValueError`.  Digits of all
scripts are digits.  Simplification: no 4300-digit limit (as with `PYTHONINTMAXSTRDIGITS=0`). -/
def pyIntOfChars (s : List Char) : Option Int :=
  match stripC s with
  | '-' :: ds => (intDigits none false ds).map (fun n => -(n : Int))
  | '+' :: ds => (intDigits none false ds).map (fun n => (n : Int))
  | ds => (intDigits none false ds).map (fun n => (n : Int))

def pyIntOfString (s : String) : Option Int := pyIntOfChars s.toList

end Verif
