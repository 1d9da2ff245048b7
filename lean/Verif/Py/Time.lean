import Verif.Py.Calendar
import Verif.Py.Val

/-!
# Time in the standard library: ordinals, `gmtime`, `timegm`, `strptime`, `strftime`, `timedelta`

Modelled from Lib/datetime.py, Lib/calendar.py and Lib/_strptime.py of Python 3.11.  `time.gmtime` is C code;
it is taken to be the proleptic Gregorian calendar (no leap seconds), for all integers (the real one raises
`OverflowError` when the year does not fit a C `int`).
-/

namespace Verif

/-- `_days_before_year`, Lib/datetime.py:44 -/
def daysBeforeYear (y : Int) : Int := (y - 1) * 365 + (y - 1) / 4 - (y - 1) / 100 + (y - 1) / 400

/-- `_days_before_month`, Lib/datetime.py:54, for `1 ≤ m ≤ 12` -/
def daysBeforeMonth (y m : Int) : Int :=
  (if m ≤ 1 then 0 else if m = 2 then 31 else if m = 3 then 59 else if m = 4 then 90 else if m = 5 then 120
   else if m = 6 then 151 else if m = 7 then 181 else if m = 8 then 212 else if m = 9 then 243
   else if m = 10 then 273 else if m = 11 then 304 else 334)
  + (if m > 2 && isLeap y then 1 else 0)

/-- `_ymd2ord`, Lib/datetime.py:59 -/
def ymd2ord (y m d : Int) : Int := daysBeforeYear y + daysBeforeMonth y m + d

/-- `date(1970, 1, 1).toordinal()` -/
def epochOrd : Int := 719163

/-- the month that the day number `n` (from 0) of a year falls into -/
def monthOf (y n : Int) : Int :=
  if n < daysBeforeMonth y 2 then 1 else if n < daysBeforeMonth y 3 then 2 else if n < daysBeforeMonth y 4 then 3
  else if n < daysBeforeMonth y 5 then 4 else if n < daysBeforeMonth y 6 then 5 else if n < daysBeforeMonth y 7 then 6
  else if n < daysBeforeMonth y 8 then 7 else if n < daysBeforeMonth y 9 then 8 else if n < daysBeforeMonth y 10 then 9
  else if n < daysBeforeMonth y 11 then 10 else if n < daysBeforeMonth y 12 then 11 else 12

/-- the year of an ordinal, the first half of `_ord2ymd`, Lib/datetime.py:96-141 -/
def ordYear (n : Int) : Int :=
  let n := n - 1
  let n400 := n / 146097
  let n := n % 146097
  let n100 := n / 36524
  let n := n % 36524
  let n4 := n / 1461
  let n := n % 1461
  let n1 := n / 365
  let y := n400 * 400 + 1 + n100 * 100 + n4 * 4 + n1
  if n1 = 4 ∨ n100 = 4 then y - 1 else y

/-- `struct_time` without `tm_isdst`, which is 0 everywhere here -/
structure Tm where
  year : Int
  mon : Int
  mday : Int
  hour : Int
  min : Int
  sec : Int
  wday : Int
  yday : Int
deriving DecidableEq, Repr

/-- the tuple, as compared by `<` -/
def Tm.tuple (t : Tm) : List Int := [t.year, t.mon, t.mday, t.hour, t.min, t.sec, t.wday, t.yday]

/-- `<` on tuples of integers of the same length -/
def tupleLt : List Int → List Int → Bool
  | x :: xs, y :: ys => if x = y then tupleLt xs ys else decide (x < y)
  | [], _ :: _ => true
  | _, [] => false

def Tm.lt (a b : Tm) : Bool := tupleLt a.tuple b.tuple

/-- the broken-down time of an ordinal and a second of the day -/
def tmOf (ord sod : Int) : Tm :=
  let y := ordYear ord
  let n := ord - 1 - daysBeforeYear y
  let m := monthOf y n
  { year := y, mon := m, mday := n - daysBeforeMonth y m + 1, hour := sod / 3600, min := sod % 3600 / 60,
    sec := sod % 60, wday := (ord + 6) % 7, yday := n + 1 }

/-- `time.gmtime(secs)` for an integer -/
def gmtime (secs : Int) : Tm := tmOf (secs / 86400 + epochOrd) (secs % 86400)

/-- `calendar.timegm(t)`, Lib/calendar.py:655-663 (it raises for years outside 1..9999, see the callers) -/
def timegm (t : Tm) : Int :=
  ((ymd2ord t.year t.mon 1 - epochOrd + t.mday - 1) * 24 + t.hour) * 3600 + t.min * 60 + t.sec

/-! ## `time.strptime(s, "%Y-%m-%dT%H:%M:%SZ")`

The format becomes a regular expression that ignores case.  Every field is followed by a character that no field
can contain, so the text is cut at those characters.  `%H` is `2[0-3]|[0-1]\d|\d`, `%M` is `[0-5]\d|\d`, `%S` is
`6[0-1]|[0-5]\d|\d`. -/

/-- the second digit after the tens `a`: `\d` where ten values are possible, otherwise a range of ASCII digits -/
def strpUnit (mx a : Nat) (b : Char) : Option Nat := if a * 10 + 9 ≤ mx then decimalVal? b else digitVal? b

/-- one or two digits with a largest value -/
def strpTwo (mx : Nat) : List Char → Option Nat
  | [a] => decimalVal? a
  | [a, b] =>
    match digitVal? a with
    | some a =>
      match strpUnit mx a b with
      | some b => if a * 10 + b ≤ mx then some (a * 10 + b) else none
      | none => none
    | none => none
  | _ => none

/-- cut at the first character with a property -/
def splitFirstP (p : Char → Bool) : List Char → List Char × Option (List Char)
  | [] => ([], none)
  | x :: xs =>
    if p x then ([], some xs)
    else match splitFirstP p xs with
      | (a, b) => (x :: a, b)

/-- `%Y-%m-%d` -/
def strpDate (s : List Char) : Option (Nat × Nat × Nat) :=
  match splitFirst '-' s with
  | (_, none) => none
  | (y, some md) =>
    match strpYear y, strpMonthDay md with
    | some y, some (m, d) => if dateExists y m d then some (y, m, d) else none
    | _, _ => none

/-- `%SZ` -/
def strpSecZ (s : List Char) : Option Nat :=
  match splitFirstP (fun c => c = 'Z' || c = 'z') s with
  | (sec, some []) => strpTwo 61 sec
  | _ => none

/-- `%M:%SZ` -/
def strpMinSec (s : List Char) : Option (Nat × Nat) :=
  match splitFirst ':' s with
  | (_, none) => none
  | (m, some r) =>
    match strpTwo 59 m, strpSecZ r with
    | some m, some s => some (m, s)
    | _, _ => none

/-- `%H:%M:%SZ` -/
def strpClock (s : List Char) : Option (Nat × Nat × Nat) :=
  match splitFirst ':' s with
  | (_, none) => none
  | (h, some r) =>
    match strpTwo 23 h, strpMinSec r with
    | some h, some (m, s) => some (h, m, s)
    | _, _ => none

/-- the whole format; `none` is `ValueError`.  The last two fields are computed from the date. -/
def strptimeTs (s : List Char) : Option Tm :=
  match splitFirstP (fun c => c = 'T' || c = 't') s with
  | (_, none) => none
  | (d, some c) =>
    match strpDate d, strpClock c with
    | some (y, m, d), some (h, mi, s) =>
      some { year := y, mon := m, mday := d, hour := h, min := mi, sec := s,
             wday := (ymd2ord y m d + 6) % 7, yday := daysBeforeMonth y m + d }
    | _, _ => none

/-- `strftime("%Y-%m-%dT%H:%M:%SZ")` for a year of four digits and the other fields in range (glibc does not pad
the year, so shorter years give shorter texts; the model always gives four digits) -/
def strftimeTs (t : Tm) : List Char :=
  pad4 t.year.toNat ++ '-' :: pad2 t.mon.toNat ++ '-' :: pad2 t.mday.toNat ++ 'T' :: pad2 t.hour.toNat ++
    ':' :: pad2 t.min.toNat ++ ':' :: pad2 t.sec.toNat ++ ['Z']

/-! ## `datetime` and `timedelta`

A naive UTC `datetime` is the number of microseconds since 1970-01-01T00:00:00, a `timedelta` a number of
microseconds. -/

/-- integer arguments of `timedelta`; `OverflowError` when there are more than 999999999 days -/
def timedelta (days seconds microseconds milliseconds minutes hours weeks : Int) : Res Int :=
  let us := ((weeks * 7 + days) * 86400 + hours * 3600 + minutes * 60 + seconds) * 1000000
    + milliseconds * 1000 + microseconds
  if -999999999 ≤ us / 86400000000 ∧ us / 86400000000 ≤ 999999999 then .ok us else .error .overflowError

/-- `datetime + timedelta`: `OverflowError` outside of the years 1 to 9999 -/
def dtAdd (dt us : Int) : Res Int :=
  if 1 ≤ (dt + us) / 86400000000 + epochOrd ∧ (dt + us) / 86400000000 + epochOrd ≤ 3652059 then .ok (dt + us)
  else .error .overflowError

/-- The correctly rounded (half to even) double for `n / d`, as mantissa and number of binary places, for
`n / d < 2 ^ 53`.  For `n / d < 1` the real one has more places. -/
def doubleDiv (n d : Nat) : Nat × Nat :=
  let s := 52 - Nat.log2 (n / d)
  let q := n * 2 ^ s / d
  let r := n * 2 ^ s % d
  (if 2 * r < d then q else if 2 * r > d then q + 1 else q + q % 2, s)

/-- `int(td.total_seconds())`, Lib/datetime.py:596 (`us / 10**6` as a float) and truncation -/
def intTotalSeconds (us : Int) : Int :=
  let p := doubleDiv us.natAbs 1000000
  us.sign * (p.1 / 2 ^ p.2 : Nat)

end Verif
