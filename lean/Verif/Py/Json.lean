import Verif.Py.Val
import Verif.Py.Url
import Verif.Py.Float

/-!
# `json`

`json.dumps` (default `ensure_ascii=True`, separators `", "` and `": "`) and `json.loads`
(C scanner, strict).  Not modelled: `NaN`/`Infinity` (also by overflow) and the negative zero,
lone surrogates in `\u` escapes, the recursion limit and the int digit limit.
-/

namespace Verif

/-- lower-case hex digit -/
def hexDigitL (n : Nat) : Char := if n < 10 then Char.ofNat (48 + n) else Char.ofNat (87 + n)

/-- `'\\u{0:04x}'.format(n)` -/
def uEsc (n : Nat) : List Char :=
  ['\\', 'u', hexDigitL (n / 4096 % 16), hexDigitL (n / 256 % 16), hexDigitL (n / 16 % 16),
   hexDigitL (n % 16)]

/-- one character of `py_encode_basestring_ascii` -/
def jsonEscChar (c : Char) : List Char :=
  if c = '"' then ['\\', '"']
  else if c = '\\' then ['\\', '\\']
  else if c = '\n' then ['\\', 'n']
  else if c = '\r' then ['\\', 'r']
  else if c = '\t' then ['\\', 't']
  else if c.toNat = 12 then ['\\', 'f']
  else if c.toNat = 8 then ['\\', 'b']
  else if 32 ≤ c.toNat ∧ c.toNat ≤ 126 then [c]
  else if c.toNat < 0x10000 then uEsc c.toNat
  else uEsc (0xD800 + (c.toNat - 0x10000) / 1024) ++ uEsc (0xDC00 + (c.toNat - 0x10000) % 1024)

def jsonEsc (s : List Char) : List Char := s.flatMap jsonEscChar

def jsonStr (s : String) : List Char := '"' :: (jsonEsc s.toList ++ ['"'])

/-- `float.__repr__(q)`; a rational number that is no float does not occur -/
def floatText (q : Rat) : Res (List Char) := if isDouble q = true then .ok (floatRepr q) else .error .unmodelled

mutual
/-- `json.dumps(v)`: a `Message` is not serialisable (`TypeError`). -/
def dumpsC : Val → Res (List Char)
  | .none => .ok ['n', 'u', 'l', 'l']
  | .bool true => .ok ['t', 'r', 'u', 'e']
  | .bool false => .ok ['f', 'a', 'l', 's', 'e']
  | .int i => .ok (intRepr i)
  | .flt q => floatText q
  | .str s => .ok (jsonStr s)
  | .list [] => .ok ['[', ']']
  | .list (v :: vs) => do
    let a ← dumpsC v
    let b ← dumpsList vs
    .ok ('[' :: (a ++ b))
  | .dict [] => .ok ['{', '}']
  | .dict ((k, v) :: d) => do
    let a ← dumpsC v
    let b ← dumpsDict d
    .ok ('{' :: (jsonStr k ++ ':' :: ' ' :: (a ++ b)))
  | .msg _ _ => .error .typeError
/-- the remaining items of a list and the closing bracket -/
def dumpsList : List Val → Res (List Char)
  | [] => .ok [']']
  | v :: vs => do
    let a ← dumpsC v
    let b ← dumpsList vs
    .ok (',' :: ' ' :: (a ++ b))
/-- the remaining members of a dict and the closing brace -/
def dumpsDict : List (String × Val) → Res (List Char)
  | [] => .ok ['}']
  | (k, v) :: d => do
    let a ← dumpsC v
    let b ← dumpsDict d
    .ok (',' :: ' ' :: (jsonStr k ++ ':' :: ' ' :: (a ++ b)))
end

def dumps (v : Val) : Res String := (dumpsC v).map String.ofList

/-! ## loads -/

def isJsonWs (c : Char) : Bool := c == ' ' || c == '\t' || c == '\n' || c == '\r'

def skipWs (s : List Char) : List Char := s.dropWhile isJsonWs

/-- value of four hex digits -/
def hex4? (a b c d : Char) : Option Nat :=
  match hexVal? a, hexVal? b, hexVal? c, hexVal? d with
  | some w, some x, some y, some z => some (w * 4096 + x * 256 + y * 16 + z)
  | _, _, _, _ => none

/-- the character after a backslash, other than `u` -/
def simpleEsc (e : Char) : Option Char :=
  if e = '"' then some '"'
  else if e = '\\' then some '\\'
  else if e = '/' then some '/'
  else if e = 'b' then some (Char.ofNat 8)
  else if e = 'f' then some (Char.ofNat 12)
  else if e = 'n' then some '\n'
  else if e = 'r' then some '\r'
  else if e = 't' then some '\t'
  else none

/-- Prepend a character to a scanned string. -/
def consChar (c : Char) : Res (List Char × List Char) → Res (List Char × List Char)
  | .ok (s, r) => .ok (c :: s, r)
  | .error e => .error e

/-- scan a string body up to the closing quote -/
def jstr : List Char → Res (List Char × List Char)
  | [] => .error .jsonDecodeError
  | c :: r =>
    if c = '"' then .ok ([], r)
    else if c = '\\' then
      match r with
      | [] => .error .jsonDecodeError
      | e :: r1 =>
        if e = 'u' then
          match r1 with
          | h1 :: h2 :: h3 :: h4 :: r2 =>
            match hex4? h1 h2 h3 h4 with
            | none => .error .jsonDecodeError
            | some n =>
              if 0xD800 ≤ n ∧ n ≤ 0xDBFF then
                match r2 with
                | b1 :: b2 :: g1 :: g2 :: g3 :: g4 :: r3 =>
                  if b1 = '\\' ∧ b2 = 'u' then
                    match hex4? g1 g2 g3 g4 with
                    | none => .error .jsonDecodeError
                    | some m =>
                      if 0xDC00 ≤ m ∧ m ≤ 0xDFFF then
                        consChar (Char.ofNat (0x10000 + (n - 0xD800) * 1024 + (m - 0xDC00))) (jstr r3)
                      else .error .unmodelled
                  else .error .unmodelled
                | _ => .error .unmodelled
              else if 0xDC00 ≤ n ∧ n ≤ 0xDFFF then .error .unmodelled
              else consChar (Char.ofNat n) (jstr r2)
          | _ => .error .jsonDecodeError
        else
          match simpleEsc e with
          | some x => consChar x (jstr r1)
          | none => .error .jsonDecodeError
    else if c.toNat < 32 then .error .jsonDecodeError
    else consChar c (jstr r)

/-- The number after its integer part `ds`: a fraction or an exponent makes it a float.  A value that overflows (CPython:
an infinity) and a negative zero are not modelled. -/
def jnumTail (neg : Bool) (ds r : List Char) : Res (Val × List Char) :=
  let f := scanFrac r
  let e := scanExp f.2
  if f.1.isEmpty && e.1.isNone then .ok (.int (if neg then - (digitsVal ds : Int) else digitsVal ds), r)
  else
    let m := decUnits (digitsVal (ds ++ f.1)) (e.1.getD 0 - f.1.length)
    if unitsEnd ≤ m ∨ (neg = true ∧ m = 0) then .error .unmodelled
    else .ok (.flt (fltOfUnits neg m), e.2)

/-- Number scanner `-?(0|[1-9]\d*)(\.\d+)?([eE][-+]?\d+)?`. -/
def jnum (cs : List Char) : Res (Val × List Char) :=
  let neg := cs.head? == some '-'
  let body := if neg then cs.tail else cs
  let ds := body.takeWhile isDigitC
  let ds' := if ds.head? == some '0' then ds.take 1 else ds
  let r := body.drop ds'.length
  if ds'.isEmpty then
    -- `-Infinity` is accepted by CPython
    if neg && body.head? == some 'I' then .error .unmodelled else .error .jsonDecodeError
  else jnumTail neg ds' r

/-- Strip a literal prefix. -/
def dropPrefix? : List Char → List Char → Option (List Char)
  | [], r => some r
  | _ :: _, [] => none
  | p :: ps, c :: cs => if p = c then dropPrefix? ps cs else none

mutual
/-- `scan_once`.  The first argument bounds the number of nested calls; see `Py/JsonFuel` for why any
sufficiently large bound gives the same. -/
def jval : Nat → List Char → Res (Val × List Char)
  | 0, _ => .error .unmodelled
  | _ + 1, [] => .error .jsonDecodeError
  | n + 1, c :: r =>
    if c = '"' then
      match jstr r with
      | .ok (s, r') => .ok (.str (String.ofList s), r')
      | .error e => .error e
    else if c = '{' then
      match skipWs r with
      | [] => .error .jsonDecodeError
      | c' :: r' => if c' = '}' then .ok (.dict [], r') else jmembers n [] (c' :: r')
    else if c = '[' then
      match skipWs r with
      | [] => .error .jsonDecodeError
      | c' :: r' => if c' = ']' then .ok (.list [], r') else jelems n [] (c' :: r')
    else
      match dropPrefix? "null".toList (c :: r) with
      | some r' => .ok (.none, r')
      | none =>
      match dropPrefix? "true".toList (c :: r) with
      | some r' => .ok (.bool true, r')
      | none =>
      match dropPrefix? "false".toList (c :: r) with
      | some r' => .ok (.bool false, r')
      | none =>
      if c = 'N' ∨ c = 'I' then .error .unmodelled
      else jnum (c :: r)
/-- object members; `acc` holds the members read so far (a repeated name overwrites) -/
def jmembers : Nat → List (String × Val) → List Char → Res (Val × List Char)
  | 0, _, _ => .error .unmodelled
  | _ + 1, _, [] => .error .jsonDecodeError
  | n + 1, acc, c :: r =>
    if c = '"' then
      match jstr r with
      | .error e => .error e
      | .ok (k, r1) =>
        match skipWs r1 with
        | [] => .error .jsonDecodeError
        | c2 :: r2 =>
          if c2 = ':' then
            match jval n (skipWs r2) with
            | .error e => .error e
            | .ok (v, r3) =>
              match skipWs r3 with
              | [] => .error .jsonDecodeError
              | c4 :: r4 =>
                if c4 = '}' then .ok (.dict (dset acc (String.ofList k) v), r4)
                else if c4 = ',' then jmembers n (dset acc (String.ofList k) v) (skipWs r4)
                else .error .jsonDecodeError
          else .error .jsonDecodeError
    else .error .jsonDecodeError
/-- array elements; `acc` holds the elements read so far -/
def jelems : Nat → List Val → List Char → Res (Val × List Char)
  | 0, _, _ => .error .unmodelled
  | n + 1, acc, cs =>
    match jval n cs with
    | .error e => .error e
    | .ok (v, r3) =>
      match skipWs r3 with
      | [] => .error .jsonDecodeError
      | c4 :: r4 =>
        if c4 = ']' then .ok (.list (acc ++ [v]), r4)
        else if c4 = ',' then jelems n (acc ++ [v]) (skipWs r4)
        else .error .jsonDecodeError
end

def loadsC (s : List Char) : Res Val :=
  match jval (2 * s.length + 2) (skipWs s) with
  | .error e => .error e
  | .ok (v, r) => if skipWs r = [] then .ok v else .error .jsonDecodeError

/-- `json.loads(s)` for a string `s` -/
def loads (s : String) : Res Val := loadsC s.toList

/-- `json.loads(v)`: only `str`/`bytes` are accepted, anything else is a `TypeError`. -/
def loadsVal : Val → Res Val
  | .str s => loads s
  | _ => .error .typeError

end Verif
