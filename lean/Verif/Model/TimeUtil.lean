import Verif.Py.Time

/-!
# `src/oidcmsg/time_util.py`
-/

namespace Verif

/-! ## Durations -/

/-- `f_quotient(arg0, arg1, arg2)` with `arg2`, time_util.py:46-48 -/
def fQuotient3 (a lo hi : Int) : Int := (a - lo) / (hi - lo)

/-- `modulo(arg0, arg1, arg2)` with `arg2`, time_util.py:55-57 -/
def modulo3 (a lo hi : Int) : Int := (a - lo) % (hi - lo) + lo

/-- a number of seconds: `int`, or `float` (kept exact), time_util.py:106-112 -/
inductive Secs where
  | int (i : Int)
  | flt (q : Rat)
deriving DecidableEq, Repr

/-- the parsed components; `parse_duration` returns a dict, time_util.py:89 -/
structure Dur where
  year : Int := 0
  mon : Int := 0
  mday : Int := 0
  hour : Int := 0
  min : Int := 0
  sec : Secs := .int 0
deriving DecidableEq, Repr

/-- time_util.py:96-97: `duration[index] == '-'`; `rest` is `duration[index:]` -/
def noMinus (rest : List Char) : Res Unit :=
  match rest with
  | [] => .error .indexError
  | c :: _ => if c = '-' then .error .timeUtilError else .ok ()

/-- One non-`T` item other than seconds, time_util.py:96-119: the number and the remaining text. -/
def intItem (code : Char) (rest : List Char) : Res (Int × List Char) :=
  match noMinus rest with
  | .error e => .error e
  | .ok () =>
    match splitFirst code rest with
    | (_, none) => .ok (0, rest)
    | (a, some r) =>
      match pyIntOfChars a with
      | some n => .ok (n, r)
      | none => .error .timeUtilError

/-- The item for seconds; `pf` is `float(text)`. time_util.py:103-118 -/
def secItem (pf : List Char → Option Rat) (rest : List Char) : Res (Secs × List Char) :=
  match noMinus rest with
  | .error e => .error e
  | .ok () =>
    match splitFirst 'S' rest with
    | (_, none) => .ok (.int 0, rest)
    | (a, some r) =>
      match pyIntOfChars a with
      | some n => .ok (.int n, r)
      | none =>
        match pf a with
        | some q => .ok (.flt q, r)
        | none => .error .timeUtilError

/-- time_util.py:98-104 -/
def tItem (rest : List Char) : Res (List Char) :=
  match rest with
  | [] => .error .indexError
  | c :: r =>
    if c = '-' then .error .timeUtilError
    else if c = 'T' then (if r = [] then .error .timeUtilError else .ok r)
    else .error .timeUtilError

/-- the loop over `D_FORMAT`, time_util.py:94-121, from minutes on; text after the seconds is ignored -/
def durS (pf : List Char → Option Rat) (d : Dur) (rest : List Char) : Res Dur :=
  match secItem pf rest with
  | .ok (s, _) => .ok { d with sec := s }
  | .error e => .error e

/-- minutes, time_util.py:91-121 -/
def durMin (pf : List Char → Option Rat) (d : Dur) (rest : List Char) : Res Dur :=
  match intItem 'M' rest with
  | .error e => .error e
  | .ok (n, []) => .ok { d with min := n }
  | .ok (n, r) => durS pf { d with min := n } r

/-- hours, time_util.py:91-121 -/
def durH (pf : List Char → Option Rat) (d : Dur) (rest : List Char) : Res Dur :=
  match intItem 'H' rest with
  | .error e => .error e
  | .ok (n, []) => .ok { d with hour := n }
  | .ok (n, r) => durMin pf { d with hour := n } r

/-- the `T`, time_util.py:95-102 -/
def durT (pf : List Char → Option Rat) (d : Dur) (rest : List Char) : Res Dur :=
  match tItem rest with
  | .error e => .error e
  | .ok r => durH pf d r

/-- days, time_util.py:91-121 -/
def durD (pf : List Char → Option Rat) (d : Dur) (rest : List Char) : Res Dur :=
  match intItem 'D' rest with
  | .error e => .error e
  | .ok (n, []) => .ok { d with mday := n }
  | .ok (n, r) => durT pf { d with mday := n } r

/-- months, time_util.py:91-121 -/
def durMon (pf : List Char → Option Rat) (d : Dur) (rest : List Char) : Res Dur :=
  match intItem 'M' rest with
  | .error e => .error e
  | .ok (n, []) => .ok { d with mon := n }
  | .ok (n, r) => durD pf { d with mon := n } r

/-- years, time_util.py:91-121 -/
def durY (pf : List Char → Option Rat) (d : Dur) (rest : List Char) : Res Dur :=
  match intItem 'Y' rest with
  | .error e => .error e
  | .ok (n, []) => .ok { d with year := n }
  | .ok (n, r) => durMon pf { d with year := n } r

/-- time_util.py:86-87 -/
def durP (pf : List Char → Option Rat) (rest : List Char) : Res Dur :=
  match rest with
  | [] => .error .indexError
  | c :: r => if c = 'P' then durY pf {} r else .error .valueError

/-- `parse_duration(duration)`, time_util.py:77-123; the sign is `true` for `-` -/
def parseDuration (pf : List Char → Option Rat) (s : List Char) : Res (Bool × Dur) :=
  match s with
  | [] => .error .indexError
  | c :: r => if c = '-' then (durP pf r).map (fun d => (true, d)) else (durP pf (c :: r)).map (fun d => (false, d))

/-- One turn of the `while True` loop of `add_duration`, time_util.py:156-166, on (year, month, days, carry).
`none`: the loop is left. -/
def dayTurn (y m d c : Int) : Option (Int × Int × Int × Int) :=
  if d < 1 then some (y + fQuotient3 (m + c) 1 13, modulo3 (m + c) 1 13, d, c)
  else if d > monthLen y m then
    some (y + fQuotient3 (m + 1) 1 13, modulo3 (m + 1) 1 13, d - monthLen y m, 1)
  else none

/-- at most `n` turns of the loop; `none` when it is still running, time_util.py:156-166 -/
def dayLoop : Nat → Int → Int → Int → Int → Option (Int × Int × Int)
  | 0, _, _, _, _ => none
  | n + 1, y, m, d, c =>
    match dayTurn y m d c with
    | none => some (y, m, d)
    | some (y', m', d', c') => dayLoop n y' m' d' c'

/-- time_util.py:149-154 -/
def clampDay (y m d : Int) : Int :=
  if d > monthLen y m then monthLen y m else if d < 1 then 1 else d

/-- The state before the loop, time_util.py:130-155, for integer seconds:
(year, month, days, carry), (hour, minutes, seconds).  `f_quotient(temp, 60)` is `temp // 60`. -/
def addStart (t : Tm) (d : Dur) (s : Int) : (Int × Int × Int × Int) × Int × Int × Int :=
  let temp := t.mon + d.mon
  let month := modulo3 temp 1 13
  let year := t.year + d.year + fQuotient3 temp 1 13
  let ts := t.sec + s
  let tm := t.min + d.min + ts / 60
  let th := t.hour + d.hour + tm / 60
  ((year, month, clampDay year month d.mday + t.mday + th / 60, th / 60), th % 60, tm % 60, ts % 60)

/-- `time.localtime(time.mktime(...))` in a zone with a fixed offset: the fields brought into range,
time_util.py:168-169 -/
def normalise (y m d h mi s : Int) : Tm :=
  gmtime (((ymd2ord y m 1 - epochOrd + d - 1) * 24 + h) * 3600 + mi * 60 + s)

/-- What `add_duration` comes to within `n` turns of its loop. time_util.py:126-172 -/
inductive AddRes where
  /-- the loop has not finished -/
  | running
  | none
  | tm (t : Tm)
  | raised (e : Exc)
deriving DecidableEq, Repr

/-- `add_duration(tid, duration)`, time_util.py:126-171.  A negative sign gives `None`.  Seconds with a fraction
make `mktime` raise `TypeError` (after the loop, so with a loop that ends).  Simplifications: the local zone has a
fixed offset; years are not bounded; `inf` and `nan` are not among the values of `float`. -/
def addDuration (pf : List Char → Option Rat) (n : Nat) (t : Tm) (s : List Char) : AddRes :=
  match parseDuration pf s with
  | .error e => .raised e
  | .ok (true, _) => .none
  | .ok (false, d) =>
    match d.sec with
    | .flt q =>
      -- `int((tm_sec + q) // 60)` whole minutes are carried
      match addStart t d (60 * ((t.sec + q) / 60).floor - t.sec) with
      | ((y, m, dd, c), _, _, _) =>
        match dayLoop n y m dd c with
        | .none => .running
        | some _ => .raised .typeError
    | .int sec =>
      match addStart t d sec with
      | ((y, m, dd, c), h, mi, ss) =>
        match dayLoop n y m dd c with
        | .none => .running
        | some (y, m, dd) => .tm (normalise y m dd h mi ss)

/-! ## Time texts -/

/-- does the text have the shape: `d` stands for a digit, time_util.py:30-31 -/
def matchShape : List Char → List Char → Bool
  | [], [] => true
  | p :: ps, c :: cs => (if p = 'd' then (decimalVal? c).isSome else p = c) && matchShape ps cs
  | _, _ => false

/-- `\d*Z$`: digits, `Z`, and the end or a line end at the end, time_util.py:30-31 -/
def fracTail : List Char → Bool
  | ['Z'] => true
  | ['Z', '\n'] => true
  | c :: cs => (decimalVal? c).isSome && fracTail cs
  | [] => false

/-- `TIME_FORMAT_WITH_FRAGMENT.match(timestr)`, time_util.py:30-31: the group -/
def fragmentMatch (s : List Char) : Option (List Char) :=
  if matchShape "dddd-dd-ddTdd:dd:dd".toList (s.take 19) then
    match s.drop 19 with
    | '.' :: r => if fracTail r then some (s.take 19) else none
    | _ => none
  else none

/-- `str_to_time(timestr)` with the default format, time_util.py:262-281; `none` is the integer 0 returned for
an empty text. -/
def strToTime (s : List Char) : Res (Option Tm) :=
  if s = [] then .ok none
  else match strptimeTs s with
    | some t => .ok (some (gmtime (timegm t)))
    | none =>
      match fragmentMatch s with
      | none => .error .attributeError
      | some g =>
        match strptimeTs (g ++ ['Z']) with
        | some t => .ok (some (gmtime (timegm t)))
        | none => .error .valueError

/-- `instant()`, time_util.py:284-285; `now` is `time.time()` in whole seconds -/
def instant (now : Int) : List Char := strftimeTs (gmtime now)

/-! ## Comparisons -/

/-- the arguments that `before`, `after` and `later_than` distinguish (a `bool` is an integer; floats, which make
them raise `TypeError`, are left out), time_util.py:291-334 -/
inductive Point where
  /-- `None` -/
  | none
  | int (i : Int)
  | str (s : List Char)
  | tm (t : Tm)

/-- `bool(point)`; a `struct_time` is never empty, time_util.py:293, 307 -/
def Point.truthy : Point → Bool
  | .none => false
  | .int i => i ≠ 0
  | .str s => s ≠ []
  | .tm _ => true

/-- what is compared: `None`, the integer 0 that `str_to_time` gives for an empty text, or a `struct_time`,
time_util.py:291-334 -/
inductive Cmp where
  | none
  | zero
  | tm (t : Tm)

/-- time_util.py:296-299 -/
def Point.toCmp : Point → Res Cmp
  | .none => .ok .none
  | .int i => .ok (.tm (gmtime i))
  | .str s =>
    match strToTime s with
    | .error e => .error e
    | .ok .none => .ok .zero
    | .ok (some t) => .ok (.tm t)
  | .tm t => .ok (.tm t)

/-- `before(point)`, time_util.py:291-301 -/
def before (now : Int) (p : Point) : Res Bool :=
  if !p.truthy then .ok true
  else match p.toCmp with
    | .error e => .error e
    | .ok (.tm t) => .ok (Tm.lt (gmtime now) t)
    | .ok _ => .error .typeError

/-- `after(point)`, time_util.py:304-309; `now` is the clock at the time of the call of `before` -/
def after (now : Int) (p : Point) : Res Bool :=
  if !p.truthy then .ok true
  else match before now p with
    | .ok b => .ok (!b)
    | .error e => .error e

/-- `a >= b`, time_util.py:334 -/
def geCmp : Cmp → Cmp → Res Bool
  | .tm a, .tm b => .ok (!Tm.lt a b)
  | .zero, .zero => .ok true
  | _, _ => .error .typeError

/-- `later_than(after, before)`, time_util.py:322-334 -/
def laterThan (a b : Point) : Res Bool :=
  match a.toCmp with
  | .error e => .error e
  | .ok a =>
    match b.toCmp with
    | .error e => .error e
    | .ok b => geCmp a b

/-! ## Relative times

`nowUs` is `datetime.utcnow()` in microseconds since 1970. -/

/-- `time_in_a_while`, time_util.py:177-186 -/
def timeInAWhile (nowUs days seconds microseconds milliseconds minutes hours weeks : Int) : Res Int :=
  match timedelta days seconds microseconds milliseconds minutes hours weeks with
  | .ok d => dtAdd nowUs d
  | .error e => .error e

/-- `time_a_while_ago`, time_util.py:189-205 -/
def timeAWhileAgo (nowUs days seconds microseconds milliseconds minutes hours weeks : Int) : Res Int :=
  match timedelta days seconds microseconds milliseconds minutes hours weeks with
  | .ok d => dtAdd nowUs (-d)
  | .error e => .error e

/-- `strftime(TIME_FORMAT)` of a `datetime`: microseconds are dropped, time_util.py:224-225, 242-243 -/
def dtStrftime (us : Int) : List Char := strftimeTs (gmtime (us / 1000000))

/-- `in_a_while` with the default format, time_util.py:208-225 -/
def inAWhile (nowUs days seconds microseconds milliseconds minutes hours weeks : Int) : Res (List Char) :=
  (timeInAWhile nowUs days seconds microseconds milliseconds minutes hours weeks).map dtStrftime

/-- `a_while_ago`, time_util.py:228-243 -/
def aWhileAgo (nowUs days seconds microseconds milliseconds minutes hours weeks : Int) : Res (List Char) :=
  (timeAWhileAgo nowUs days seconds microseconds milliseconds minutes hours weeks).map dtStrftime

/-- `shift_time(dtime, shift)`, time_util.py:249-256 -/
def shiftTime (dt shift : Int) : Res Int :=
  match timedelta 0 shift 0 0 0 0 0 with
  | .ok d => dtAdd dt d
  | .error e => .error e

/-- `utc_time_sans_frac()`, time_util.py:337-338 -/
def utcTimeSansFrac (nowUs : Int) : Int := intTotalSeconds nowUs

/-- `epoch_in_a_while`, time_util.py:345-363 -/
def epochInAWhile (nowUs days seconds microseconds milliseconds minutes hours weeks : Int) : Res Int :=
  (timeInAWhile nowUs days seconds microseconds milliseconds minutes hours weeks).map intTotalSeconds

end Verif
