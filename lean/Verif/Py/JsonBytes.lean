import Verif.Py.Json
import Verif.Py.Utf8

/-!
# `json.loads` of `bytes`

CPython 3.11, `json/__init__.py`: `detect_encoding` (lines 244-270) and the branch of `loads` for `bytes` (339-343).  The codecs
are those of Unicode; what decodes to a lone surrogate (`errors='surrogatepass'`) is outside the model, since the texts of the
model are sequences of characters.
-/

namespace Verif

/-- the encodings `detect_encoding` tells apart; `be`: big endian, `bom`: with a byte order mark in front -/
inductive Enc where
  | utf8 (bom : Bool)
  | utf16 (be bom : Bool)
  | utf32 (be bom : Bool)
deriving DecidableEq, Repr

/-- the two bytes of a code unit -/
def bytes2 (be : Bool) (n : Nat) : List Nat := if be then [n / 256, n % 256] else [n % 256, n / 256]

/-- the four bytes of a code point -/
def bytes4 (be : Bool) (n : Nat) : List Nat :=
  if be then [n / 16777216, n / 65536 % 256, n / 256 % 256, n % 256]
  else [n % 256, n / 256 % 256, n / 65536 % 256, n / 16777216]

/-- `c.encode('utf-16-be')`, `c.encode('utf-16-le')` -/
def utf16Char (be : Bool) (c : Char) : List Nat :=
  if c.toNat < 0x10000 then bytes2 be c.toNat
  else bytes2 be (0xD800 + (c.toNat - 0x10000) / 0x400) ++ bytes2 be (0xDC00 + (c.toNat - 0x10000) % 0x400)

/-- `c.encode('utf-32-be')`, `c.encode('utf-32-le')` -/
def utf32Char (be : Bool) (c : Char) : List Nat := bytes4 be c.toNat

/-- the byte order mark -/
def bomOf : Enc → List Nat
  | .utf8 true => [0xEF, 0xBB, 0xBF]
  | .utf16 true true => [0xFE, 0xFF]
  | .utf16 false true => [0xFF, 0xFE]
  | .utf32 true true => [0, 0, 0xFE, 0xFF]
  | .utf32 false true => [0xFF, 0xFE, 0, 0]
  | _ => []

/-- the text without a mark -/
def bodyOf : Enc → List Char → List Nat
  | .utf8 _, s => utf8Encode s
  | .utf16 be _, s => s.flatMap (utf16Char be)
  | .utf32 be _, s => s.flatMap (utf32Char be)

/-- the text in an encoding -/
def encodeAs (e : Enc) (s : List Char) : List Nat := bomOf e ++ bodyOf e s

/-- `detect_encoding(b)`, CPython 3.11 json/__init__.py:244-270 -/
def detectEncoding (b : List Nat) : Enc :=
  if [0, 0, 0xFE, 0xFF].isPrefixOf b then .utf32 true true
  else if [0xFF, 0xFE, 0, 0].isPrefixOf b then .utf32 false true
  else if [0xFE, 0xFF].isPrefixOf b then .utf16 true true
  else if [0xFF, 0xFE].isPrefixOf b then .utf16 false true
  else if [0xEF, 0xBB, 0xBF].isPrefixOf b then .utf8 true
  else
    match b with
    | b0 :: b1 :: b2 :: b3 :: _ =>
      if b0 = 0 then (if b1 = 0 then .utf32 true false else .utf16 true false)
      else if b1 = 0 then (if b2 = 0 ∧ b3 = 0 then .utf32 false false else .utf16 false false)
      else .utf8 false
    | [b0, b1] =>
      if b0 = 0 then .utf16 true false
      else if b1 = 0 then .utf16 false false
      else .utf8 false
    | _ => .utf8 false

/-- lone surrogates in UTF-8: the bytes `ED A0` to `ED BF` -/
def hasSurrogate8 : List Nat → Bool
  | a :: b :: r => (a = 0xED && 0xA0 ≤ b && b ≤ 0xBF) || hasSurrogate8 (b :: r)
  | _ => false

/-- `b.decode('utf-8', 'surrogatepass')`: a text whose encoding is `b`; `UnicodeDecodeError` is a `ValueError` -/
def decode8 (b : List Nat) : Res (List Char) :=
  if utf8Encode (utf8Decode b) = b then .ok (utf8Decode b)
  else if hasSurrogate8 b then .error .unmodelled
  else .error .valueError

/-- the code units; `none` if the bytes are truncated -/
def units16 (be : Bool) : List Nat → Option (List Nat)
  | [] => some []
  | [_] => none
  | a :: b :: r => (units16 be r).map (fun l => (if be then a * 256 + b else b * 256 + a) :: l)

/-- the characters of code units -/
def chars16 : List Nat → Res (List Char)
  | [] => .ok []
  | [n] => if n < 0xD800 ∨ 0xE000 ≤ n then .ok [Char.ofNat n] else .error .unmodelled
  | n :: m :: r =>
    if n < 0xD800 ∨ 0xE000 ≤ n then (chars16 (m :: r)).map (fun l => Char.ofNat n :: l)
    else if n < 0xDC00 ∧ 0xDC00 ≤ m ∧ m < 0xE000 then
      (chars16 r).map (fun l => Char.ofNat (0x10000 + (n - 0xD800) * 0x400 + (m - 0xDC00)) :: l)
    else .error .unmodelled

/-- `b.decode('utf-16-be', 'surrogatepass')`, and for little endian -/
def decode16 (be : Bool) (b : List Nat) : Res (List Char) :=
  match units16 be b with
  | none => .error .valueError
  | some l => chars16 l

/-- the number in four bytes -/
def fromBytes4 (be : Bool) (a b c d : Nat) : Nat :=
  if be then ((a * 256 + b) * 256 + c) * 256 + d else ((d * 256 + c) * 256 + b) * 256 + a

/-- `b.decode('utf-32-be', 'surrogatepass')`, and for little endian -/
def decode32 (be : Bool) : List Nat → Res (List Char)
  | [] => .ok []
  | a :: b :: c :: d :: r =>
    if fromBytes4 be a b c d < 0xD800 ∨ (0xE000 ≤ fromBytes4 be a b c d ∧ fromBytes4 be a b c d < 0x110000) then
      (decode32 be r).map (fun l => Char.ofNat (fromBytes4 be a b c d) :: l)
    else if fromBytes4 be a b c d < 0xE000 then .error .unmodelled
    else .error .valueError
  | _ => .error .valueError

/-- decoding after a mark -/
def decodeBody : Enc → List Nat → Res (List Char)
  | .utf8 _, b => decode8 b
  | .utf16 be _, b => decode16 be b
  | .utf32 be _, b => decode32 be b

/-- `b.decode(encoding, 'surrogatepass')`: the codecs `utf-8-sig`, `utf-16` and `utf-32` skip the mark -/
def decodeAs (e : Enc) (b : List Nat) : Res (List Char) := decodeBody e (b.drop (bomOf e).length)

/-- `json.loads(b)` for `bytes` -/
def loadsBytes (b : List Nat) : Res Val :=
  match decodeAs (detectEncoding b) b with
  | .ok s => loads (String.ofList s)
  | .error e => .error e

end Verif
