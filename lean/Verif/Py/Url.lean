import Verif.Py.Utf8
import Verif.Py.Dict
import Verif.Py.Str

/-!
# `urllib.parse`

`quote_plus`, `unquote_plus`, `urlencode`, `parse_qs` as in CPython 3.7+ (`Lib/urllib/parse.py`),
and the part of `urlsplit` the library looks at (scheme, query, fragment).
-/

namespace Verif

/-- `_ALWAYS_SAFE`: letters, digits and `_.-~`. -/
def isSafeByte (b : Nat) : Bool :=
  (65 ≤ b && b ≤ 90) || (97 ≤ b && b ≤ 122) || (48 ≤ b && b ≤ 57) ||
  b == 95 || b == 46 || b == 45 || b == 126

/-- upper-case hex digit -/
def hexDigit (n : Nat) : Char := if n < 10 then Char.ofNat (48 + n) else Char.ofNat (55 + n)

def hexVal? (c : Char) : Option Nat :=
  let n := c.toNat
  if 48 ≤ n && n ≤ 57 then some (n - 48)
  else if 65 ≤ n && n ≤ 70 then some (n - 55)
  else if 97 ≤ n && n ≤ 102 then some (n - 87)
  else none

/-- one byte of `quote_plus` (a space becomes `+`) -/
def quoteByte (b : Nat) : List Char :=
  if b = 32 then ['+']
  else if isSafeByte b then [Char.ofNat b]
  else ['%', hexDigit (b / 16), hexDigit (b % 16)]

/-- `quote_plus(s)` -/
def quotePlusC (s : List Char) : List Char := (utf8Encode s).flatMap quoteByte

/-- `unquote_to_bytes` on an ASCII run -/
def unquoteBytes : List Char → List Nat
  | [] => []
  | c :: rest =>
    if c = '%' then
      match rest with
      | a :: b :: r =>
        match hexVal? a, hexVal? b with
        | some x, some y => (x * 16 + y) :: unquoteBytes r
        | _, _ => 37 :: unquoteBytes (a :: b :: r)
      | [a] => 37 :: unquoteBytes [a]
      | [] => [37]
    else c.toNat :: unquoteBytes rest

/-- `unquote`: ASCII runs are percent-decoded and UTF-8 decoded with replacement, other
characters are kept.  `acc` is the current ASCII run, reversed. -/
def unquoteRuns : List Char → List Char → List Char
  | acc, [] => utf8Decode (unquoteBytes acc.reverse)
  | acc, c :: cs =>
    if c.toNat < 128 then unquoteRuns (c :: acc) cs
    else utf8Decode (unquoteBytes acc.reverse) ++ c :: unquoteRuns [] cs

def plusToSpace (c : Char) : Char := if c = '+' then ' ' else c

/-- `unquote_plus(s)` -/
def unquotePlusC (s : List Char) : List Char := unquoteRuns [] (s.map plusToSpace)

def quotePlus (s : String) : String := String.ofList (quotePlusC s.toList)
def unquotePlus (s : String) : String := String.ofList (unquotePlusC s.toList)

/-- `urlencode(params)` for string names and values -/
def urlencodeC (ps : List (List Char × List Char)) : List Char :=
  joinC '&' (ps.map (fun p => quotePlusC p.1 ++ '=' :: quotePlusC p.2))

def urlencode (ps : List (String × String)) : String :=
  String.ofList (urlencodeC (ps.map (fun p => (p.1.toList, p.2.toList))))

/-- `s.partition('=')`, `none` if there is no `=` -/
def splitEq : List Char → Option (List Char × List Char)
  | [] => none
  | c :: cs =>
    if c = '=' then some ([], cs)
    else (splitEq cs).map (fun p => (c :: p.1, p.2))

/-- One `name=value` piece of `parse_qsl` with the default `keep_blank_values=False`. -/
def parsePiece (s : List Char) : Option (List Char × List Char) :=
  match splitEq s with
  | none => none
  | some (n, v) => if v.isEmpty then none else some (unquotePlusC n, unquotePlusC v)

/-- `parse_qsl(qs)` -/
def parseQslC (qs : List Char) : List (List Char × List Char) :=
  (splitC '&' qs).filterMap parsePiece

def parseQsl (qs : String) : List (String × String) :=
  (parseQslC qs.toList).map (fun p => (String.ofList p.1, String.ofList p.2))

/-- add one pair to the dict of lists built by `parse_qs` -/
def qsAdd (d : Assoc (List String)) (p : String × String) : Assoc (List String) :=
  dset d p.1 (((dget d p.1).getD []) ++ [p.2])

/-- `parse_qs(qs)` -/
def parseQs (qs : String) : Assoc (List String) := (parseQsl qs).foldl qsAdd []

/-! ## urlsplit -/

/-- `s.find(c)`-style split at the first occurrence: part before, and part after if found. -/
def splitFirst (c : Char) : List Char → List Char × Option (List Char)
  | [] => ([], none)
  | x :: xs =>
    if x = c then ([], some xs)
    else ((x :: (splitFirst c xs).1), (splitFirst c xs).2)

def isAsciiAlpha (c : Char) : Bool :=
  (65 ≤ c.toNat && c.toNat ≤ 90) || (97 ≤ c.toNat && c.toNat ≤ 122)

def isSchemeChar (c : Char) : Bool :=
  isAsciiAlpha c || (48 ≤ c.toNat && c.toNat ≤ 57) || c == '+' || c == '-' || c == '.'

def asciiLower (c : Char) : Char :=
  if 65 ≤ c.toNat && c.toNat ≤ 90 then Char.ofNat (c.toNat + 32) else c

/-- C0 controls and space are stripped on the left, tab/CR/LF removed everywhere. -/
def urlClean (s : List Char) : List Char :=
  (s.dropWhile (fun c => c.toNat ≤ 32)).filter (fun c => !(c == '\t' || c == '\r' || c == '\n'))

structure UrlParts where
  scheme : List Char
  query : List Char
  fragment : List Char
deriving DecidableEq, Repr

/-- the scheme of a cleaned URL, and what follows the colon after it -/
def schemeSplit (u : List Char) : List Char × List Char :=
  match splitFirst ':' u with
  | (_, none) => ([], u)
  | (pre, some r) =>
    match pre with
    | [] => ([], u)
    | c :: _ => if isAsciiAlpha c && pre.all isSchemeChar then (pre.map asciiLower, r) else ([], u)

/-- scheme, query and fragment of `urlsplit(url)`; the library uses nothing else of the result.  The netloc ends at the first
of `/?#`, so splitting at `#` and then at `?` gives the same parts. -/
def urlsplitC (url : List Char) : UrlParts :=
  let rest := (schemeSplit (urlClean url)).2
  let (r1, frag) := splitFirst '#' rest
  let (_, q) := splitFirst '?' r1
  { scheme := (schemeSplit (urlClean url)).1, query := q.getD [], fragment := frag.getD [] }

/-- the network location of a URL -/
def netlocC (url : List Char) : List Char :=
  match (schemeSplit (urlClean url)).2 with
  | '/' :: '/' :: r => r.takeWhile (fun c => !(c == '/' || c == '?' || c == '#'))
  | _ => []

/-- The checks of `urlsplit` on the network location: a bracket without its counterpart is an error.  The checks on the host
between brackets (`ipaddress`) and on characters that are not ASCII (NFKC) are the parameter. -/
def netlocValid (ok : List Char → Bool) (n : List Char) : Bool :=
  if n.contains '[' != n.contains ']' then false
  else if n.contains '[' || !n.all (fun c => c.toNat < 128) then ok n
  else true

def urlsplit (url : String) : UrlParts := urlsplitC url.toList

end Verif
