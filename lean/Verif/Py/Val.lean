import Verif.Py.Dict
import Verif.Py.Str

/-!
# Python values and exceptions
-/

namespace Verif

/-- A reference to a message class: module and class name. -/
structure Cls where
  mod : String
  name : String
deriving DecidableEq, Repr

/-- The Python values that occur in messages.  `flt` is a finite float (as a rational; NaN and
infinities are not modelled); dict keys are strings; `msg c d` is an instance of the message
class `c` whose `_dict` is `d` (the attributes `lax`, `jwt`, `jws_header`, `jwe_header` live in
the models of the methods that use them). -/
inductive Val where
  | none
  | bool (b : Bool)
  | int (i : Int)
  | flt (q : Rat)
  | str (s : String)
  | list (l : List Val)
  | dict (d : List (String × Val))
  | msg (c : Cls) (d : List (String × Val))
deriving Repr, Inhabited

abbrev Dict := Assoc Val

/-- Exceptions (payloads dropped).  Names follow `src/oidcmsg/exception.py:1-160`,
`oidc/__init__.py:51-64`, Python builtins and cryptojwt. -/
inductive Exc where
  -- builtins
  | valueError | keyError | typeError | attributeError | indexError | nameError
  | jsonDecodeError      -- subclass of ValueError
  | osError | overflowError | recursionError | unboundLocalError | importError
  -- oidcmsg.exception
  | oidcMsgError | missingAttribute | notForMe | messageException | issuerMismatch
  | formatError | verificationError | missingRequiredValue | missingSigningKey
  | tooManyValues | decodeError | schemeError | notAllowedValue
  | missingRequiredAttribute | invalidRequest
  -- oidcmsg.oidc
  | atHashError | cHashError | expError | iatError
  -- others
  | timeUtilError | configurationError
  | unsupportedAlgorithm | noSuitableSigningKeys
  | crypto (n : Nat)     -- any other exception of the crypto library
  -- behaviour outside the model (stated at the place of use)
  | unmodelled
deriving DecidableEq, Repr

/-- `except ValueError` catches these. -/
def Exc.isValueError : Exc → Bool
  | .valueError | .jsonDecodeError => true
  | _ => false

abbrev Res (α : Type) := Except Exc α

namespace Val

/-- numeric value of bool/int/float -/
def num? : Val → Option Rat
  | .bool b => some (if b then 1 else 0)
  | .int i => some (i : Rat)
  | .flt q => some q
  | _ => Option.none

/-- Python truthiness. `Message` has `__len__` (message.py:731-737), hence an empty message is
false. -/
def truthy : Val → Bool
  | .none => false
  | .bool b => b
  | .int i => i ≠ 0
  | .flt q => q ≠ 0
  | .str s => s ≠ ""
  | .list l => !l.isEmpty
  | .dict d => !d.isEmpty
  | .msg _ d => !d.isEmpty

def isNone : Val → Bool
  | .none => true
  | _ => false

def isStr : Val → Bool
  | .str _ => true
  | _ => false

def isMsg : Val → Bool
  | .msg _ _ => true
  | _ => false

def isDict : Val → Bool
  | .dict _ => true
  | _ => false

mutual
/-- Python `==`.  Numbers compare by value (bool ⊂ int, int/float mixed), lists item-wise, dicts
as maps, messages per `Message.__eq__` (message.py:708-723): same class *name* and equal
`_dict`.  Values of different kinds are different. -/
def eq : Val → Val → Bool
  | .none, .none => true
  | .str a, .str b => a == b
  | .list a, .list b => eqList a b
  | .dict a, .dict b => a.length == b.length && eqDict a b
  | .msg c a, .msg c' b => c.name == c'.name && (a.length == b.length && eqDict a b)
  | a, b =>
    match a.num?, b.num? with
    | some x, some y => x == y
    | _, _ => false
def eqList : List Val → List Val → Bool
  | [], [] => true
  | x :: xs, y :: ys => eq x y && eqList xs ys
  | _, _ => false
/-- every entry of the first dict has an equal entry in the second -/
def eqDict : List (String × Val) → List (String × Val) → Bool
  | [], _ => true
  | (k, v) :: xs, b =>
    (match dget b k with
     | some w => eq v w
     | Option.none => false) && eqDict xs b
end

/-- `x in l` for a Python list. -/
def memList (x : Val) (l : List Val) : Bool := l.any (fun y => eq x y)

/-- hashable (usable as a dict key without `TypeError`): `Message` defines `__eq__` without
`__hash__`, so it is unhashable too. -/
def hashable : Val → Bool
  | .list _ | .dict _ | .msg _ _ => false
  | _ => true

/-- `x in c` for a general container. -/
def contains (x : Val) : Val → Res Bool
  | .list l => .ok (memList x l)
  | .str s => match x with
    | .str t => .ok (isSubstrC t.toList s.toList)
    | _ => .error .typeError
  | .dict d | .msg _ d => match x with
    | .str k => .ok (dhas d k)
    | y => if y.hashable then .ok false else .error .typeError
  | _ => .error .typeError

/-- `len(v)` -/
def len : Val → Res Nat
  | .list l => .ok l.length
  | .str s => .ok s.toList.length
  | .dict d | .msg _ d => .ok d.length
  | _ => .error .typeError

/-- `for x in v` -/
def iter : Val → Res (List Val)
  | .list l => .ok l
  | .str s => .ok (s.toList.map (fun c => .str (String.ofList [c])))
  | .dict d | .msg _ d => .ok (d.map (fun p => .str p.1))
  | _ => .error .typeError

/-! ## decidable equality (used to check concrete cases) -/

mutual
def beq : Val → Val → Bool
  | .none, .none => true
  | .bool a, .bool b => a == b
  | .int a, .int b => a == b
  | .flt a, .flt b => a == b
  | .str a, .str b => a == b
  | .list a, .list b => beqList a b
  | .dict a, .dict b => beqDict a b
  | .msg c a, .msg c' b => c == c' && beqDict a b
  | _, _ => false
def beqList : List Val → List Val → Bool
  | [], [] => true
  | x :: xs, y :: ys => beq x y && beqList xs ys
  | _, _ => false
def beqDict : List (String × Val) → List (String × Val) → Bool
  | [], [] => true
  | (k, v) :: xs, (k', v') :: ys => (k == k') && beq v v' && beqDict xs ys
  | _, _ => false
end

mutual
theorem beq_iff : (a b : Val) → (beq a b = true ↔ a = b)
  | .none, b => by cases b <;> simp [beq]
  | .bool _, b => by cases b <;> simp [beq]
  | .int _, b => by cases b <;> simp [beq]
  | .flt _, b => by cases b <;> simp [beq]
  | .str _, b => by cases b <;> simp [beq]
  | .list l, b => by cases b <;> simp [beq, beqList_iff l]
  | .dict l, b => by cases b <;> simp [beq, beqDict_iff l]
  | .msg c l, b => by cases b <;> simp [beq, beqDict_iff l]
theorem beqList_iff : (a b : List Val) → (beqList a b = true ↔ a = b)
  | [], b => by cases b <;> simp [beqList]
  | x :: xs, b => by cases b <;> simp [beqList, beq_iff x, beqList_iff xs]
theorem beqDict_iff : (a b : List (String × Val)) → (beqDict a b = true ↔ a = b)
  | [], b => by cases b <;> simp [beqDict]
  | (k, v) :: xs, b => by
    cases b with
    | nil => simp [beqDict]
    | cons p ys => rcases p with ⟨k', v'⟩; simp [beqDict, beq_iff v, beqDict_iff xs]
end
instance : DecidableEq Val := fun a b =>
  if h : beq a b = true then isTrue ((beq_iff a b).1 h) else isFalse (fun e => h ((beq_iff a b).2 e))

end Val

deriving instance DecidableEq for Except

end Verif
