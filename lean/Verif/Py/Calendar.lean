import Verif.Py.Url

/-!
# Calendar facts used by the standard library

`calendar.isleap`, `calendar.monthrange`, and the part of `time.strptime` that the library relies on.
-/

namespace Verif

/-- the decimal digit for `n < 10` -/
def digit (n : Nat) : Char := Char.ofNat (48 + n)

/-- zero-padded decimal of two and of four digits -/
def pad2 (n : Nat) : List Char := [digit (n / 10), digit (n % 10)]
def pad4 (n : Nat) : List Char := pad2 (n / 100) ++ pad2 (n % 100)

/-- `calendar.isleap` -/
def isLeap (y : Int) : Bool := y % 4 = 0 && (y % 100 ≠ 0 || y % 400 = 0)

/-- `calendar.monthrange(y, m)[1]` for `1 ≤ m ≤ 12` -/
def monthLen (y : Int) (m : Int) : Int :=
  if m = 2 then (if isLeap y then 29 else 28)
  else if m = 4 ∨ m = 6 ∨ m = 9 ∨ m = 11 then 30
  else 31

/-! ## `time.strptime`, Lib/_strptime.py (Python 3.11), for `%Y-%m-%d`, `%Y` and `0000-%m-%d`

The regular expressions there are `\d\d\d\d` for `%Y`, `1[0-2]|0[1-9]|[1-9]` for `%m` and
`3[0-1]|[1-2]\d|0[1-9]|[1-9]| [1-9]` for `%d`; the whole string has to match, and
`datetime.date(year, month, day)` has to exist.  `\d` is a decimal digit of any script, `[0-9]` an ASCII digit. -/

/-- `%Y` -/
def strpYear : List Char → Option Nat
  | [a, b, c, d] =>
    match decimalVal? a, decimalVal? b, decimalVal? c, decimalVal? d with
    | some a, some b, some c, some d => some (((a * 10 + b) * 10 + c) * 10 + d)
    | _, _, _, _ => none
  | _ => none

/-- `%m` -/
def strpMonth : List Char → Option Nat
  | [a] =>
    match digitVal? a with
    | some n => if n = 0 then none else some n
    | none => none
  | [a, b] =>
    match digitVal? a, digitVal? b with
    | some a, some b => if 1 ≤ a * 10 + b ∧ a * 10 + b ≤ 12 then some (a * 10 + b) else none
    | _, _ => none
  | _ => none

/-- `%d` -/
def strpDay : List Char → Option Nat
  | [a] =>
    match digitVal? a with
    | some n => if n = 0 then none else some n
    | none => none
  | [a, b] =>
    match (if a = ' ' then some 0 else digitVal? a), (if a = '1' ∨ a = '2' then decimalVal? b else digitVal? b) with
    | some a, some b => if 1 ≤ a * 10 + b ∧ a * 10 + b ≤ 31 then some (a * 10 + b) else none
    | _, _ => none
  | _ => none

/-- `datetime.date(y, m, d)` does not raise -/
def dateExists (y m d : Nat) : Bool :=
  1 ≤ y && y ≤ 9999 && 1 ≤ m && m ≤ 12 && 1 ≤ d && decide ((d : Int) ≤ monthLen y m)

/-- `%m-%d` -/
def strpMonthDay (s : List Char) : Option (Nat × Nat) :=
  match splitFirst '-' s with
  | (_, none) => none
  | (m, some d) =>
    match strpMonth m, strpDay d with
    | some m, some d => some (m, d)
    | _, _ => none

/-- `time.strptime(s, "%Y-%m-%d")` succeeds -/
def strptimeYmd (s : List Char) : Bool :=
  match splitFirst '-' s with
  | (_, none) => false
  | (y, some md) =>
    match strpYear y, strpMonthDay md with
    | some y, some (m, d) => dateExists y m d
    | _, _ => false

/-- `time.strptime(s, "%Y")` succeeds -/
def strptimeY (s : List Char) : Bool :=
  match strpYear s with
  | some y => dateExists y 1 1
  | none => false

/-- `time.strptime(s, "0000-%m-%d")` succeeds: the year is 1900, or 1904 for February 29 -/
def strptime0md (s : List Char) : Bool :=
  match splitFirst '-' s with
  | (_, none) => false
  | (y, some md) =>
    if y = ['0', '0', '0', '0'] then
      match strpMonthDay md with
      | some (m, d) => dateExists (if m = 2 ∧ d = 29 then 1904 else 1900) m d
      | none => false
    else false

end Verif
