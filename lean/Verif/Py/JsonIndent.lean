import Verif.Py.Json

/-!
# `json.dumps` with an `indent`

With an indentation the pure Python encoder (`json.encoder._make_iterencode`) is used: item separator `,` followed by a line
break and the indentation of the level, key separator `": "`; an empty list or dict is written without line breaks.
-/

namespace Verif

/-- a line break and the indentation of a level: `'\n' + _indent * _current_indent_level` -/
def newlineIndent (ind : List Char) (lev : Nat) : List Char := '\n' :: (List.replicate lev ind).flatten

mutual
/-- `_iterencode(v, lev)` -/
def dumpsI (ind : List Char) (lev : Nat) : Val → Res (List Char)
  | .none => dumpsC .none
  | .bool b => dumpsC (.bool b)
  | .int i => dumpsC (.int i)
  | .flt q => dumpsC (.flt q)
  | .str s => dumpsC (.str s)
  | .list [] => dumpsC (.list [])
  | .list (v :: vs) => do
    let a ← dumpsI ind (lev + 1) v
    let b ← dumpsIList ind lev vs
    .ok ('[' :: (newlineIndent ind (lev + 1) ++ (a ++ b)))
  | .dict [] => dumpsC (.dict [])
  | .dict ((k, v) :: d) => do
    let a ← dumpsI ind (lev + 1) v
    let b ← dumpsIDict ind lev d
    .ok ('{' :: (newlineIndent ind (lev + 1) ++ (jsonStr k ++ ':' :: ' ' :: (a ++ b))))
  | .msg c d => dumpsC (.msg c d)
/-- `_iterencode_list`: the remaining items of a list at level `lev` and the closing bracket -/
def dumpsIList (ind : List Char) (lev : Nat) : List Val → Res (List Char)
  | [] => .ok (newlineIndent ind lev ++ [']'])
  | v :: vs => do
    let a ← dumpsI ind (lev + 1) v
    let b ← dumpsIList ind lev vs
    .ok (',' :: (newlineIndent ind (lev + 1) ++ (a ++ b)))
/-- `_iterencode_dict`: the remaining members of a dict at level `lev` and the closing brace -/
def dumpsIDict (ind : List Char) (lev : Nat) : List (String × Val) → Res (List Char)
  | [] => .ok (newlineIndent ind lev ++ ['}'])
  | (k, v) :: d => do
    let a ← dumpsI ind (lev + 1) v
    let b ← dumpsIDict ind lev d
    .ok (',' :: (newlineIndent ind (lev + 1) ++ (jsonStr k ++ ':' :: ' ' :: (a ++ b))))
end

/-- the indentation of one level: a string as it is, a number of spaces (none for a negative one), no indentation for
`None`; `' ' * indent` is a `TypeError` for anything else -/
def indentOf : Val → Res (Option (List Char))
  | .none => .ok none
  | .str s => .ok (some s.toList)
  | .int i => .ok (some (List.replicate i.toNat ' '))
  | .bool b => .ok (some (List.replicate b.toNat ' '))
  | _ => .error .typeError

/-- the text, with or without an indentation -/
def dumpsWith (v : Val) : Option (List Char) → Res String
  | none => dumps v
  | some ind => (dumpsI ind 0 v).map String.ofList

/-- `json.dumps(v, indent=indent)`, for a `v` other than a string (which is written before the indentation is looked at) -/
def dumpsIndent (v indent : Val) : Res String := indentOf indent >>= dumpsWith v

end Verif
