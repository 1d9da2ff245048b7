import Verif.Model.Oidc

/-!
# `src/oidcmsg/oidc/identity_assurance.py`: claims requests, evidence, claim construction
-/

namespace Verif

/-! ## claims requests, 406-470 -/

/-- `value.get("essential") in (None, True, False)`, identity_assurance.py:420: membership by `==`. -/
def essentialOk (d : Dict) : Bool :=
  match dget d "essential" with
  | none => true
  | some e => Val.memList e [.none, .bool true, .bool false]

/-- identity_assurance.py:423-426.  `value_type` is always a class, never a `Message` instance, so
`_correct_value_type` (406-412) is `isinstance`. -/
def valueOk (t : Ty) (d : Dict) : Bool :=
  match dget d "value" with
  | none => true
  | some v => !v.truthy || t.isInst v

/-- identity_assurance.py:428-431 -/
def valuesOk (t : Ty) (d : Dict) : Res Bool :=
  match dget d "values" with
  | none => .ok true
  | some vs =>
    match vs.iter with
    | .error e => .error e
    | .ok l => .ok (l.all (fun v => t.isInst v))

/-- identity_assurance.py:435-438, for a true `purpose` -/
def purposeChars (p : Val) : Res Bool :=
  match p.len with
  | .error e => .error e
  | .ok n =>
    if n < 3 ∨ n > 300 then .ok false
    else
      match p.iter with
      | .error e => .error e
      | .ok l => allErrorChars l

/-- identity_assurance.py:433-438 -/
def purposeOk (d : Dict) : Res Bool :=
  match dget d "purpose" with
  | none => .ok true
  | some p => if p.truthy then purposeChars p else .ok true

/-- `_verify_claims_request_value`, identity_assurance.py:415-440 -/
def verifyClaimsRequestValue (v : Val) (t : Ty) : Res Bool :=
  match v with
  | .dict d =>
    if !essentialOk d then .ok false
    else if !valueOk t d then .ok false
    else
      match valuesOk t d with
      | .error e => .error e
      | .ok false => .ok false
      | .ok true => purposeOk d
  | _ => .ok true

/-- `instance[key]`: the value, `none` for a `KeyError`; `TypeError` for anything but a dict or message,
identity_assurance.py:446 -/
def subscript (inst : Val) (k : String) : Res (Option Val) :=
  match inst with
  | .dict d | .msg _ d => .ok (dget d k)
  | _ => .error .typeError

/-- `c().c_param`, identity_assurance.py:444, 458, 470 -/
def paramsOf (c : Cls) : Assoc Spec :=
  match allSchemas.find? (fun s => s.cls == c) with
  | some s => s.params
  | none => []

/-- `if not _verify_claims_request_value(..): raise ValueError`, identity_assurance.py:452-454 -/
def requireValue (v : Val) (t : Ty) : Res Unit :=
  match verifyClaimsRequestValue v t with
  | .error e => .error e
  | .ok true => .ok ()
  | .ok false => .error .valueError

/-- One value against one type, identity_assurance.py:452-458 and 464-470; `rec` is the recursive call.  A type
that is neither a scalar nor a message class (`dict`) is skipped. -/
def claimsReqItem (rec : Assoc Spec → Val → Res Unit) (t : Ty) (v : Val) : Res Unit :=
  match t with
  | .msg c _ _ => if v.isNone then .ok () else rec (paramsOf c) v
  | .dict => .ok ()
  | t => requireValue v t

/-- the loop over the items of a list, identity_assurance.py:463-470 -/
def claimsReqItems (rec : Assoc Spec → Val → Res Unit) (t : Ty) : List Val → Res Unit
  | [] => .ok ()
  | v :: vs =>
    match claimsReqItem rec t v with
    | .error e => .error e
    | .ok () => claimsReqItems rec t vs

/-- identity_assurance.py:450-470, for a key that is present -/
def claimsReqParam (rec : Assoc Spec → Val → Res Unit) (sp : Spec) (v : Val) : Res Unit :=
  match sp.vtyp with
  | .single t => claimsReqItem rec t v
  | .list t =>
    if v.isNone then .ok ()
    else
      match v.iter with
      | .error e => .error e
      | .ok l => claimsReqItems rec t l

/-- the loop over `c_param`, identity_assurance.py:444-470 -/
def claimsReqParams (rec : Assoc Spec → Val → Res Unit) (inst : Val) : List (String × Spec) → Res Unit
  | [] => .ok ()
  | (k, sp) :: rest =>
    match subscript inst k with
    | .error e => .error e
    | .ok none => claimsReqParams rec inst rest
    | .ok (some v) =>
      match claimsReqParam rec sp v with
      | .error e => .error e
      | .ok () => claimsReqParams rec inst rest

/-- `verify_claims_request`, identity_assurance.py:443-470, with `n` stack frames left. -/
def verifyClaimsRequest : Nat → Assoc Spec → Val → Res Unit
  | 0, _, _ => .error .recursionError
  | n + 1, ps, inst => claimsReqParams (verifyClaimsRequest n) inst ps

/-- `VerificationElementRequest.verify`, identity_assurance.py:481-483 -/
def verificationElementRequestVerify (n : Nat) (st : Dict) : Res Unit := do
  verifyBase ida_VerificationElementRequest st
  verifyClaimsRequest n ida_VerificationElement.params (.msg ida_VerificationElementRequest.cls st)

/-- `VerifiedClaimsRequest.verify`, identity_assurance.py:500-502 -/
def verifiedClaimsRequestVerify (n : Nat) (st : Dict) : Res Unit := do
  verifyBase ida_VerifiedClaimsRequest st
  verifyClaimsRequest n ida_VerifiedClaims.params (.msg ida_VerifiedClaimsRequest.cls st)

/-- `f(**v)`: `TypeError` unless `v` is a mapping, identity_assurance.py:510 -/
def Val.kwargsOf : Val → Res Dict
  | .dict d | .msg _ d => .ok d
  | _ => .error .typeError

/-- identity_assurance.py:509-512, for a true `verified_claims` -/
def idaVerifiedClaims (n : Nat) (st : Dict) (vc : Val) : Res Dict := do
  let d ← vc.kwargsOf
  let vci ← construct ida_VerifiedClaimsRequest d
  verifiedClaimsRequestVerify n vci
  setItem ida_IDAClaimsRequest st "verified_claims" (.msg ida_VerifiedClaimsRequest.cls vci)

/-- `IDAClaimsRequest.verify`, identity_assurance.py:505-512: the message afterwards. -/
def idaClaimsRequestVerify (n : Nat) (st : Dict) : Res Dict := do
  verifyBase ida_IDAClaimsRequest st
  match dget st "verified_claims" with
  | none => .ok st
  | some vc => if vc.truthy then idaVerifiedClaims n st vc else .ok st

/-! ## evidence, 224-257 -/

/-- identity_assurance.py:230-238: the class for a declared type -/
def evidenceClass (t : Val) : Res Schema :=
  if t.eq (.str "id_document") then .ok ida_IdDocument
  else if t.eq (.str "utility_bill") then .ok ida_UtilityBill
  else if t.eq (.str "qes") then .ok ida_QES
  else .error .valueError

/-- `all(x in self.keys() for x in C.c_param.keys())`, identity_assurance.py:244, 248, 252 -/
def hasAll (st : Dict) (sch : Schema) : Bool := sch.params.all (fun p => dhas st p.1)

/-- identity_assurance.py:243-257: the guessed class and its name -/
def guessClass (st : Dict) : Res (Schema × String) :=
  if hasAll st ida_IdDocument then .ok (ida_IdDocument, "id_document")
  else if hasAll st ida_UtilityBill then .ok (ida_UtilityBill, "utility_bill")
  else if hasAll st ida_QES then .ok (ida_QES, "qes")
  else .error .valueError

/-- the value of `self.get("type")`, when true, identity_assurance.py:230-231 -/
def declaredType (st : Dict) : Option Val :=
  match dget st "type" with
  | none => none
  | some t => if t.truthy then some t else none

/-- `Evidence.verify`, identity_assurance.py:229-257, on an instance of `cls` (`Evidence`, or one of the three
subclasses, which inherit the method), with `n` stack frames left: the message afterwards. -/
def evidenceVerify : Nat → Cls → Dict → Res Dict
  | 0, _, _ => .error .recursionError
  | n + 1, cls, st =>
    match declaredType st with
    | some t => do
      let sch ← evidenceClass t
      let d ← toDict libEnv cls st
      let x ← construct sch d
      let _ ← evidenceVerify n sch.cls x
      .ok st
    | none => do
      let g ← guessClass st
      let d ← toDict libEnv cls st
      let x ← construct g.1 d
      let _ ← evidenceVerify n g.1.cls x
      setItem ida_Evidence st "type" (.str g.2)

/-! ## ClaimsConstructor, 515-555 -/

/-- A value given to a `ClaimsConstructor`: a plain value, or another constructor (its base class and content).
identity_assurance.py:515-543 -/
inductive CVal where
  | val (v : Val)
  | con (base : Cls) (info : List (String × CVal))
deriving Repr

/-- `isinstance(value, _value_type)` (identity_assurance.py:531-539); with a list type it is a `TypeError`.  For a
constructor the instance of its base class is tested. -/
def CVal.isInst : CVal → VTyp → Res Bool
  | _, .list _ => .error .typeError
  | .val v, .single t => .ok (t.isInst v)
  | .con b _, .single (.msg _ sub _) => .ok (sub b)
  | .con _ _, .single _ => .ok false

/-- `value is not None`, identity_assurance.py:534 -/
def CVal.isNone : CVal → Bool
  | .val v => v.isNone
  | .con _ _ => false

/-- `ClaimsConstructor.__setitem__`, identity_assurance.py:524-541, for the parameters of the base class: the
content afterwards. -/
def ccSet (ps : Assoc Spec) (info : List (String × CVal)) (k : String) (v : CVal) : Res (List (String × CVal)) :=
  if v.isNone then .ok (dset info k v)
  else
    match dget ps k with
    | none => .ok (dset info k v)
    | some sp =>
      match v.isInst sp.vtyp with
      | .error e => .error e
      | .ok true => .ok (dset info k v)
      | .ok false => .error .valueError

/-- a sequence of assignments; the caller may catch the exceptions and go on, identity_assurance.py:526-543 -/
def ccRun (ps : Assoc Spec) : List (String × CVal) → List (String × CVal) → List (String × CVal)
  | info, [] => info
  | info, (k, v) :: rest =>
    match ccSet ps info k v with
    | .ok info' => ccRun ps info' rest
    | .error _ => ccRun ps info rest

mutual
/-- `ClaimsConstructor.to_dict`, identity_assurance.py:543-550 -/
def ccToDict : List (String × CVal) → Dict
  | [] => []
  | (k, v) :: rest => (k, ccVal v) :: ccToDict rest
/-- one value, identity_assurance.py:547-551 -/
def ccVal : CVal → Val
  | .val v => v
  | .con _ info => .dict (ccToDict info)
end

/-- `ClaimsConstructor.to_json`, identity_assurance.py:554-555 -/
def ccToJson (info : List (String × CVal)) : Res String := dumps (.dict (ccToDict info))

end Verif
