import Verif.Py.Json
import Verif.Py.Time

/-!
# Time stamps and dates of `src/oidcmsg/oidc/identity_assurance.py`

The local time zone is a function `z` from instants to seconds east of UTC, so changes of the offset (summer time) are
included.  `ltz` is the offset the library finds for "now".  Offsets are whole seconds.
-/

namespace Verif

/-- `int(v)`; floats truncate towards zero. message.py:422 -/
def pyInt : Val → Option Int
  | .bool b => some (if b then 1 else 0)
  | .int i => some i
  | .flt q => some (Int.tdiv q.num q.den)
  | .str s => pyIntOfString s
  | _ => none

/-- seconds east of UTC at an instant (the local zone: identity_assurance.py:61, 67, 82) -/
abbrev Zone := Int → Int

/-- `strftime("%Y-%m-%d")`: glibc does not pad the year, identity_assurance.py:51, 73 -/
def isoDateText (loc : Int) : List Char :=
  intRepr (gmtime loc).year ++ '-' :: (pad2 (gmtime loc).mon.toNat ++ '-' :: pad2 (gmtime loc).mday.toNat)

/-- `%z`, identity_assurance.py:50 -/
def isoZoneText (off : Int) : List Char :=
  (if off < 0 then '-' else '+') :: (pad2 (off.natAbs / 3600) ++ (pad2 (off.natAbs / 60 % 60) ++
    (if off.natAbs % 60 = 0 then [] else pad2 (off.natAbs % 60))))

/-- `strftime("%Y-%m-%dT%H:%M:%S%z")`, identity_assurance.py:50, 73 -/
def isoTimeText (loc off : Int) : List Char :=
  isoDateText loc ++ 'T' :: (pad2 (gmtime loc).hour.toNat ++ ':' :: (pad2 (gmtime loc).min.toNat ++
    ':' :: (pad2 (gmtime loc).sec.toNat ++ isoZoneText off)))

/-- the two formats, identity_assurance.py:50-51 -/
inductive IsoFmt where
  | time
  | date
deriving DecidableEq

/-- `d.replace(tzinfo=ltz).strftime(format)`, identity_assurance.py:73 -/
def isoText (fmt : IsoFmt) (loc ltz : Int) : List Char :=
  match fmt with
  | .time => isoTimeText loc ltz
  | .date => isoDateText loc

/-- `datetime.datetime.fromtimestamp(i)` as seconds of local time; `ValueError` outside of the years 1 to 9999
(for instants far outside it is another exception), identity_assurance.py:67 -/
def fromTimestamp (z : Zone) (i : Int) : Res Int :=
  if 1 ≤ (gmtime (i + z i)).year ∧ (gmtime (i + z i)).year ≤ 9999 then .ok (i + z i) else .error .valueError

/-- `to_iso8601_2004(i, format)`, identity_assurance.py:54-73, for an integer: 0 means now -/
def toIso (z : Zone) (ltz now : Int) (fmt : IsoFmt) (i : Int) : Res (List Char) :=
  match (if i = 0 then .ok (now + z now) else fromTimestamp z i) with
  | .ok loc => .ok (isoText fmt loc ltz)
  | .error e => .error e

/-- `time_stamp_ser`, identity_assurance.py:101-112, and `date_ser`, 126-137 -/
def isoSer (z : Zone) (ltz now : Int) (fmt : IsoFmt) (v : Val) : Res Val :=
  match v with
  | .bool _ | .int _ | .flt _ | .str _ =>
    match pyInt v with
    | some i =>
      match toIso z ltz now fmt i with
      | .ok t => .ok (.str (String.ofList t))
      | .error e => .error e
    | none => .error .valueError
  | _ => .error .valueError

/-- two digits `\d\d`, identity_assurance.py:50, 81 -/
def twoDigits (a b : Char) : Option Nat :=
  match decimalVal? a, decimalVal? b with
  | some a, some b => some (a * 10 + b)
  | _, _ => none

/-- the two digits `[0-5]\d` of minutes and seconds (that the first is below 6 is checked in `mkOffset`),
identity_assurance.py:50, 81 -/
def sixtyDigits (a b : Char) : Option Nat :=
  match digitVal? a, decimalVal? b with
  | some a, some b => some (a * 10 + b)
  | _, _ => none

/-- an offset from its fields: minutes and seconds below 60 (the regular expression), in all less than a day,
identity_assurance.py:50, 81 -/
def mkOffset (neg : Bool) (h m s : Option Nat) : Option Int :=
  match h, m, s with
  | some h, some m, some s =>
    if m ≤ 59 ∧ s ≤ 59 ∧ h ≤ 23 then some (if neg then -(h * 3600 + m * 60 + s : Int) else h * 3600 + m * 60 + s)
    else none
  | _, _, _ => none

/-- `[+-]` with `hhmm`, `hh:mm`, `hhmmss` or `hh:mm:ss`; the mixed forms raise `ValueError` as well
(Lib/_strptime.py:446-468); identity_assurance.py:50, 81 -/
def strpOffset (neg : Bool) (s : List Char) : Option Int :=
  match s with
  | [a, b, c, d] => mkOffset neg (twoDigits a b) (sixtyDigits c d) (some 0)
  | [a, b, x, c, d] => if x = ':' then mkOffset neg (twoDigits a b) (sixtyDigits c d) (some 0) else none
  | [a, b, c, d, e, f] => mkOffset neg (twoDigits a b) (sixtyDigits c d) (sixtyDigits e f)
  | [a, b, x, c, d, y, e, f] =>
    if x = ':' ∧ y = ':' then mkOffset neg (twoDigits a b) (sixtyDigits c d) (sixtyDigits e f) else none
  | _ => none

/-- the fraction `\d{1,6}` in microseconds, padded with zeros (Lib/_strptime.py:460-463),
identity_assurance.py:50, 81 -/
def fracUs (f : List Char) : Option Nat :=
  if f ≠ [] ∧ f.length ≤ 6 ∧ f.all (fun c => (decimalVal? c).isSome) then
    some (f.foldl (fun n c => n * 10 + (decimalVal? c).getD 0) 0 * 10 ^ (6 - f.length))
  else none

/-- an offset and its fraction in microseconds; the sign is that of the offset (Lib/_strptime.py:464-466),
identity_assurance.py:50, 81 -/
def addFrac (neg : Bool) (o : Option Int) (u : Option Nat) : Option Int :=
  match o, u with
  | some o, some u => some (o * 1000000 + (if neg then -(u : Int) else u))
  | _, _ => none

/-- the offset in microseconds; a fraction comes only after seconds, identity_assurance.py:50, 81 -/
def strpOffsetUs (neg : Bool) (s : List Char) : Option Int :=
  match splitFirst '.' s with
  | (_, none) => addFrac neg (strpOffset neg s) (some 0)
  | (a, some f) => if 6 ≤ a.length then addFrac neg (strpOffset neg a) (fracUs f) else none

/-- `%S%z`: the seconds end at the first sign or `Z`; the offset is in microseconds, identity_assurance.py:50, 81 -/
def strpSecOff (s : List Char) : Option (Nat × Int) :=
  match splitFirst '+' s with
  | (sec, some r) =>
    match strpTwo 59 sec, strpOffsetUs false r with
    | some s, some o => some (s, o)
    | _, _ => none
  | (_, none) =>
    match splitFirst '-' s with
    | (sec, some r) =>
      match strpTwo 59 sec, strpOffsetUs true r with
      | some s, some o => some (s, o)
      | _, _ => none
    | (_, none) =>
      match splitFirst 'Z' s with
      | (sec, some []) => (strpTwo 59 sec).map (fun s => (s, 0))
      | _ => none

/-- `%M:%S%z`, identity_assurance.py:50, 81 -/
def strpMinSecOff (s : List Char) : Option (Nat × Nat × Int) :=
  match splitFirst ':' s with
  | (_, none) => none
  | (m, some r) =>
    match strpTwo 59 m, strpSecOff r with
    | some m, some (s, o) => some (m, s, o)
    | _, _ => none

/-- `%H:%M:%S%z`, identity_assurance.py:50, 81 -/
def strpClockOff (s : List Char) : Option (Nat × Nat × Nat × Int) :=
  match splitFirst ':' s with
  | (_, none) => none
  | (h, some r) =>
    match strpTwo 23 h, strpMinSecOff r with
    | some h, some (m, s, o) => some (h, m, s, o)
    | _, _ => none

/-- the structured time of the fields, identity_assurance.py:81 -/
def tmFields (y m d h mi s : Nat) : Tm :=
  { year := y, mon := m, mday := d, hour := h, min := mi, sec := s,
    wday := (ymd2ord y m d + 6) % 7, yday := daysBeforeMonth y m + d }

/-- `datetime.strptime(text, TIME_FORMAT)` as microseconds since 1970; year 0 is refused by `datetime`,
identity_assurance.py:76-82, 93-94 -/
def fromIsoTime (s : List Char) : Option Int :=
  match splitFirstP (fun c => c = 'T' || c = 't') s with
  | (_, none) => none
  | (d, some c) =>
    match strpDate d, strpClockOff c with
    | some (y, m, d), some (h, mi, s, o) => some (timegm (tmFields y m d h mi s) * 1000000 - o)
    | _, _ => none

/-- a solution of `u + z u = t` near `t` when there is one: `datetime._mktime`, Lib/datetime.py:1866-1898 (`fold` 0) -/
def pyMktime (z : Zone) (t : Int) : Int :=
  let a := z t
  let u1 := t - a
  let t1 := u1 + z u1
  let b := if t1 = t then z (u1 - 86400) else t1 - u1
  if t1 = t ∧ a = b then u1
  else
    let u2 := t - b
    if u2 + z u2 = t then u2
    else if t1 = t then u1
    else max u1 u2

/-- `datetime.strptime(text, DATE_FORMAT).timestamp()`: midnight, local time, identity_assurance.py:76-82, 97-98 -/
def fromIsoDate (z : Zone) (s : List Char) : Option Int :=
  match strpDate s with
  | some (y, m, d) => some (pyMktime z (timegm (tmFields y m d 0 0 0)))
  | none => none

/-- `timedelta.total_seconds()`: the microseconds divided by a million, as a float, identity_assurance.py:82 -/
def secondsOfUs (us : Int) : Rat := fltOfUnits (decide (us < 0)) (roundUnits us.natAbs 1000000)

/-- `from_iso8601_2004(text, format)`, identity_assurance.py:76-82 -/
def fromIso (z : Zone) (fmt : IsoFmt) (s : List Char) : Res Val :=
  match (match fmt with | .time => (fromIsoTime s).map secondsOfUs | .date => (fromIsoDate z s).map (fun i : Int => (i : Rat))) with
  | some q => .ok (.flt q)
  | none => .error .valueError

/-- `time_stamp_deser`, identity_assurance.py:115-119, and `date_deser`, 140-144 -/
def isoDeser (z : Zone) (fmt : IsoFmt) (v : Val) : Res Val :=
  match v with
  | .bool b => .ok (.bool b)
  | .int i => .ok (.int i)
  | .flt q => .ok (.flt q)
  | .str s => fromIso z fmt s.toList
  | _ => .error .typeError

/-- an offset from UTC: less than a day, as `datetime.timezone` demands, Lib/datetime.py:2299-2302 -/
abbrev Offset := {o : Int // -86400 < o ∧ o < 86400}

instance : Inhabited Offset := ⟨⟨0, by decide⟩⟩

/-- the local time zone of the process, about which nothing else is assumed, identity_assurance.py:61, 67 -/
opaque theZone : Int → Offset
/-- the offset found for the current time, identity_assurance.py:61.  (That it stays the same from one call to the next is
assumed: no change of summer time while the process runs.) -/
opaque theOffset : Offset

/-- identity_assurance.py:67 -/
def localZone : Zone := fun i => (theZone i).1
/-- identity_assurance.py:61 -/
def zoneNow : Int := theOffset.1

/-- `time_stamp_ser` as the serialiser of a parameter, identity_assurance.py:101-112.  For 0 it writes the current time, which
is not modelled here. -/
def timeStampSer (v : Val) : Res Val :=
  if pyInt v = some 0 then .error .unmodelled else isoSer localZone zoneNow 0 .time v

/-- the text of `time_stamp_ser`, identity_assurance.py:101-112 -/
def timeStampText (v : Val) : Res String :=
  match timeStampSer v with
  | .ok (.str t) => .ok t
  | .ok _ => .error .typeError
  | .error e => .error e

end Verif
