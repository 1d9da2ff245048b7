/-!
# `float`

Reading and writing finite floats (IEEE 754 binary64).  A float is held as a rational number, see `Val.flt`; here the
absolute value is counted in units of `2^-1074`, the smallest positive float, so that every finite float is a natural number
of units.  `roundUnits` is CPython's `float(text)` (correctly rounded, ties to even); `floatRepr` is `float.__repr__`
(the shortest text that is read back as the same float, the nearest one among those).  Not modelled: infinities, NaN and
the negative zero (`jnum` gives `unmodelled` where one of them would arise).
-/

namespace Verif

/-- decimal digits, most significant first -/
def natDigits (n : Nat) : List Char :=
  if n < 10 then [Char.ofNat (48 + n)] else natDigits (n / 10) ++ [Char.ofNat (48 + n % 10)]

/-- `str(i)` -/
def intRepr (i : Int) : List Char :=
  match i with
  | .ofNat n => natDigits n
  | .negSucc n => '-' :: natDigits (n + 1)

def isDigitC (c : Char) : Bool := 48 ≤ c.toNat && c.toNat ≤ 57

/-- value of a digit sequence -/
def digitsVal (l : List Char) : Nat := l.foldl (fun a c => a * 10 + (c.toNat - 48)) 0

/-- quotient rounded to the nearest integer, ties to the even one -/
def divEven (a b : Nat) : Nat :=
  if b < 2 * (a % b) ∨ (2 * (a % b) = b ∧ a / b % 2 = 1) then a / b + 1 else a / b

/-- `2^1074`: that many units make 1 -/
@[irreducible] def unitDen : Nat := 2 ^ 1074

/-- `5^1074`: a unit is that many `10^-1074` -/
@[irreducible] def fiveDen : Nat := 5 ^ 1074

/-- binary exponent (in units) of the last place of the floats near `n / d`: 53 bits of precision -/
def ulpExp (n d : Nat) : Nat := Nat.log2 (n * unitDen / d) - 52

/-- the float nearest to `n / d`, in units of `2^-1074`, as if there were no largest float -/
def roundUnits (n d : Nat) : Nat := divEven (n * unitDen) (d * 2 ^ ulpExp n d) * 2 ^ ulpExp n d

/-- from here on a rounded value is an infinity: `2^1024` -/
@[irreducible] def unitsEnd : Nat := 2 ^ 2098

/-- the rational number of `m` units -/
def fltOfUnits (neg : Bool) (m : Nat) : Rat := mkRat (if neg then - (m : Int) else m) (unitDen)

/-- absolute value in units -/
def fltUnits (q : Rat) : Nat := q.num.natAbs * unitDen / q.den

/-- The rational is a finite float. -/
def isDouble (q : Rat) : Bool :=
  decide (roundUnits q.num.natAbs q.den < unitsEnd) &&
    q == fltOfUnits (decide (q.num < 0)) (roundUnits q.num.natAbs q.den)

/-- numerator and denominator of `c * 10^x` -/
def decNum (c : Nat) (x : Int) : Nat := c * 10 ^ x.toNat
def decDen (x : Int) : Nat := 10 ^ (-x).toNat

/-- the float that the decimal number `c * 10^x` is read as, in units -/
def decUnits (c : Nat) (x : Int) : Nat := roundUnits (decNum c x) (decDen x)

/-! ## `float.__repr__` -/

/-- number of decimal digits, 0 for 0 -/
def decLen (n : Nat) : Nat := if n = 0 then 0 else (natDigits n).length

/-- decimal exponent of the first digit of `m` units, `m` positive -/
def decExp (m : Nat) : Int :=
  if unitDen ≤ m then (decLen (m / unitDen) : Int) - 1 else - (decLen ((unitDen - 1) / m) : Int)

/-- `m` units scaled by `10^-x`: numerator -/
def scaleNum (m : Nat) (x : Int) : Nat := m * 10 ^ (-x).toNat
/-- `m` units scaled by `10^-x`: denominator -/
def scaleDen (x : Int) : Nat := unitDen * 10 ^ x.toNat

/-- the decimal number with last digit at `10^x` that is read as `m` units, the nearest one if there are several -/
def decAt (m : Nat) (x : Int) : Option (Nat × Int) :=
  let c := scaleNum m x / scaleDen x
  let lo := decide (decUnits c x = m)
  let hi := decide (decUnits (c + 1) x = m)
  if lo && hi then some (divEven (scaleNum m x) (scaleDen x), x)
  else if lo then some (c, x)
  else if hi then some (c + 1, x)
  else none

/-- the first of the precisions `p`, `p + 1`, … (`n` of them) that suffices -/
def decSearch (m : Nat) (e : Int) : Nat → Nat → Option (Nat × Int)
  | 0, _ => none
  | n + 1, p => (decAt m (e - p + 1)).or (decSearch m e n (p + 1))

/-- The shortest decimal of `m` units: at most 17 digits.  (They always suffice, see `decAt_seventeen`; the exact decimal
expansion stands here only to make the function total.) -/
def shortest (m : Nat) : Nat × Int := (decSearch m (decExp m) 17 1).getD (m * fiveDen, -1074)

/-- remove trailing zeros -/
def strip10 : Nat → Nat → Int → Nat × Int
  | 0, c, x => (c, x)
  | n + 1, c, x => if c % 10 = 0 then strip10 n (c / 10) (x + 1) else (c, x)

/-- an exponent with at least two digits -/
def expDigits (n : Nat) : List Char := if n < 10 then '0' :: natDigits n else natDigits n

/-- `format_float_short` with format code `r`: the digits `ds` of an integer times `10^x` -/
def fmtShort (ds : List Char) (x : Int) : List Char :=
  let pt : Int := ds.length + x
  if pt - 1 < -4 ∨ 16 ≤ pt - 1 then
    ds.take 1 ++ (if ds.length = 1 then [] else '.' :: ds.drop 1) ++
      'e' :: (if pt - 1 < 0 then '-' else '+') :: expDigits (pt - 1).natAbs
  else if pt ≤ 0 then '0' :: '.' :: (List.replicate (-pt).toNat '0' ++ ds)
  else if (ds.length : Int) ≤ pt then ds ++ List.replicate (pt - ds.length).toNat '0' ++ ['.', '0']
  else ds.take pt.toNat ++ '.' :: ds.drop pt.toNat

/-- `repr` of `m` units -/
def unitsRepr (m : Nat) : List Char :=
  if m = 0 then ['0', '.', '0']
  else
    let r := shortest m
    let s := strip10 (decLen r.1) r.1 r.2
    fmtShort (natDigits s.1) s.2

/-- `float.__repr__(q)` -/
def floatRepr (q : Rat) : List Char :=
  if q.num < 0 then '-' :: unitsRepr (fltUnits q) else unitsRepr (fltUnits q)

/-! ## the scanner -/

/-- `.` and at least one digit: the digits and what follows them -/
def scanFrac (r : List Char) : List Char × List Char :=
  match r with
  | [] => ([], r)
  | c :: t =>
    if c = '.' then
      let ds := t.takeWhile isDigitC
      if ds.isEmpty then ([], r) else (ds, t.drop ds.length)
    else ([], r)

/-- an optional sign -/
def scanSign (t : List Char) : Bool × List Char :=
  match t with
  | [] => (false, t)
  | c :: u => if c = '-' then (true, u) else if c = '+' then (false, u) else (false, t)

/-- `e` or `E`, an optional sign and at least one digit: the exponent and what follows it -/
def scanExp (r : List Char) : Option Int × List Char :=
  match r with
  | [] => (none, r)
  | c :: t =>
    if c = 'e' ∨ c = 'E' then
      let s := scanSign t
      let ds := s.2.takeWhile isDigitC
      if ds.isEmpty then (none, r)
      else (some (if s.1 then - (digitsVal ds : Int) else digitsVal ds), s.2.drop ds.length)
    else (none, r)

end Verif
