import Verif.Py.Json

/-!
# `repr` and `str`

The text of a container as `str()` gives it (CPython `unicode_repr`, `list_repr`, `dict_repr`).  Not modelled:
messages inside containers (their `repr` contains a memory address).
-/

namespace Verif

/-- `Py_UNICODE_ISPRINTABLE` for a character above `~`: a table of the Unicode database, about which nothing is assumed -/
opaque uniPrintable : Char → Bool

/-- two lower-case hex digits -/
def hex2 (n : Nat) : List Char := [hexDigitL (n / 16 % 16), hexDigitL (n % 16)]

/-- four lower-case hex digits -/
def hex4 (n : Nat) : List Char := hex2 (n / 256) ++ hex2 n

/-- one character of `repr(s)` in a text quoted with `q` -/
def reprChar (q c : Char) : List Char :=
  if c = q ∨ c = '\\' then ['\\', c]
  else if c = '\t' then ['\\', 't']
  else if c = '\n' then ['\\', 'n']
  else if c = '\r' then ['\\', 'r']
  else if 32 ≤ c.toNat ∧ c.toNat ≤ 126 then [c]
  else if 127 < c.toNat ∧ uniPrintable c = true then [c]
  else if c.toNat < 0x100 then '\\' :: 'x' :: hex2 c.toNat
  else if c.toNat < 0x10000 then '\\' :: 'u' :: hex4 c.toNat
  else '\\' :: 'U' :: (hex4 (c.toNat / 0x10000) ++ hex4 c.toNat)

/-- the quote: double only when there is a single one and no double one inside -/
def reprQuote (s : List Char) : Char := if s.contains '\'' && !s.contains '"' then '"' else '\''

/-- `repr(s)` -/
def strRepr (s : String) : List Char :=
  reprQuote s.toList :: (s.toList.flatMap (reprChar (reprQuote s.toList)) ++ [reprQuote s.toList])

mutual
/-- `repr(v)` -/
def reprC : Val → Res (List Char)
  | .none => .ok ['N', 'o', 'n', 'e']
  | .bool true => .ok ['T', 'r', 'u', 'e']
  | .bool false => .ok ['F', 'a', 'l', 's', 'e']
  | .int i => .ok (intRepr i)
  | .flt q => floatText q
  | .str s => .ok (strRepr s)
  | .list [] => .ok ['[', ']']
  | .list (v :: vs) => do
    let a ← reprC v
    let b ← reprList vs
    .ok ('[' :: (a ++ b))
  | .dict [] => .ok ['{', '}']
  | .dict ((k, v) :: d) => do
    let a ← reprC v
    let b ← reprDict d
    .ok ('{' :: (strRepr k ++ ':' :: ' ' :: (a ++ b)))
  | .msg _ _ => .error .unmodelled
/-- the remaining items of a list and the closing bracket -/
def reprList : List Val → Res (List Char)
  | [] => .ok [']']
  | v :: vs => do
    let a ← reprC v
    let b ← reprList vs
    .ok (',' :: ' ' :: (a ++ b))
/-- the remaining members of a dict and the closing brace -/
def reprDict : List (String × Val) → Res (List Char)
  | [] => .ok ['}']
  | (k, v) :: d => do
    let a ← reprC v
    let b ← reprDict d
    .ok (',' :: ' ' :: (strRepr k ++ ':' :: ' ' :: (a ++ b)))
end

/-- `str(v)` for anything but a message -/
def pyStr : Val → Res String
  | .str s => .ok s
  | v => (reprC v).map String.ofList

end Verif
