import Verif.Model.Config
import Verif.Model.Labeled
import Verif.Model.Message

/-!
# `src/oidcmsg/context.py`: `OidcContext`, and the directory of a file storage (abfile.py:45-54)

Key jars are in `Model/ContextKeys`.
-/

namespace Verif

/-- What a context needs of a storage: `db[item]` and `db[item] = value`. context.py:80-82, 86-88 -/
structure Store (σ : Type) where
  item : String → σ → Res Val × σ
  setItem : String → Val → σ → Res Unit × σ

/-- the `LabeledDict` made by `init_storage`, context.py:39-41 -/
def memStore : Store LDict where
  item k d := (.ok (ldItem k d), d)
  setItem k v d := (.ok (), ldSet k v d)

/-- an `AbstractFileSystem`, at the time `now`, context.py:37 -/
def fileStore (conv : Conv) (now : Nat) : Store (Inst × Dir) where
  item k s := ((fsGet conv now k s.1 s.2).res, (fsGet conv now k s.1 s.2).inst, (fsGet conv now k s.1 s.2).dir)
  setItem k v s := ((fsSet conv now k v s.1 s.2).res, (fsSet conv now k v s.1 s.2).inst, (fsSet conv now k v s.1 s.2).dir)

/-- what `OidcContext.get` returns, context.py:84-88 -/
inductive CtxVal where
  | val (v : Val)
  | bytes (b : ByteArray)

/-- `OidcContext.set`, context.py:78-82 -/
def ctxSet {σ : Type} (S : Store σ) (env : SerEnv) (item : String) (v : Val) (s : σ) : Res Unit × σ :=
  match v with
  | .msg c d =>
    match toDict env c d with
    | .ok d' => S.setItem item (.dict d') s
    | .error e => (.error e, s)
  | v => S.setItem item v s

/-- `bytes(v, 'utf-8')`, context.py:86 -/
def pyBytes : Val → Res CtxVal
  | .str t => .ok (.bytes t.toUTF8)
  | _ => .error .typeError

/-- `OidcContext.get`, context.py:84-88 -/
def ctxGet {σ : Type} (S : Store σ) (item : String) (s : σ) : Res CtxVal × σ :=
  match S.item item s with
  | (.error e, s') => (.error e, s')
  | (.ok v, s') => if item = "seed" then (pyBytes v, s') else (.ok (.val v), s')

/-- a section with its issuer, context.py:19-20: `quote_plus` takes a text only.  Sections that are messages are not
modelled. -/
def issuerSection (iss : Val) (val : Val) : Res Val :=
  match iss, val with
  | .str t, .dict d => .ok (.dict (dset d "issuer" (.str (quotePlus t))))
  | .str _, .msg _ _ => .error .unmodelled
  | _, _ => .error .typeError

/-- `add_issuer`, context.py:13-22, on values (the objects are in `Model/Heap`) -/
def addIssuerTo (iss : Val) : List (String × Val) → Dict → Res Dict
  | [], res => .ok res
  | (key, val) :: rest, res =>
    if key = "abstract_storage_cls" then addIssuerTo iss rest (dset res key val)
    else
      match issuerSection iss val with
      | .ok sec => addIssuerTo iss rest (dset res key sec)
      | .error e => .error e

/-- context.py:32-34: `db_conf` with the issuer, if there is one -/
def withIssuer (iss : Option Val) (db : Dict) : Res Dict :=
  if (iss.getD .none).truthy then addIssuerTo (iss.getD .none) db [] else .ok db

/-- context.py:36-39 -/
def defaultStorage {α : Type} (imp : Val → Res (Dict → Res α)) (mem : String → α) (db : Dict) : Res α :=
  if ((dget db "default").getD .none).truthy then initStorage imp mem db "default" else initStorage imp mem [] "default"

/-- `OidcContext.__init__`, context.py:26-41, the storage `self.db`.  A `db_conf` that is neither a dictionary
nor a message has no `items` or `get`. -/
def contextDb {α : Type} (imp : Val → Res (Dict → Res α)) (mem : String → α) (config : Dict) : Res α :=
  if ((dget config "db_conf").getD .none).truthy then
    match ((dget config "db_conf").getD .none).itemsOf with
    | .ok db =>
      match withIssuer (dget config "issuer") db with
      | .error e => .error e
      | .ok db' => defaultStorage imp mem db'
    | .error e => .error e
  else initStorage imp mem [] "default"

/-- `str.format(issuer=..)`: literal characters and the places of the issuer (`none`).  A template with any other
replacement field or a single brace is not modelled. abfile.py:52 -/
def fmtParts : List Char → Res (List (Option Char))
  | [] => .ok []
  | '{' :: '{' :: rest => (fmtParts rest).map (some '{' :: ·)
  | '}' :: '}' :: rest => (fmtParts rest).map (some '}' :: ·)
  | '{' :: 'i' :: 's' :: 's' :: 'u' :: 'e' :: 'r' :: '}' :: rest => (fmtParts rest).map (none :: ·)
  | c :: rest => if c = '{' || c = '}' then .error .unmodelled else (fmtParts rest).map (some c :: ·)

/-- the text with the issuer put in, abfile.py:52 -/
def fillParts (iss : List Char) (ps : List (Option Char)) : List Char :=
  ps.flatMap (fun p => match p with | some c => [c] | none => iss)

/-- abfile.py:48-52, for a template with `{issuer}` -/
def fillIssuer (iss : Option Val) (fdir : String) : Res String :=
  if (iss.getD .none).truthy then
    match iss.getD .none with
    | .str t => (fmtParts fdir.toList).map (fun ps => String.ofList (fillParts t.toList ps))
    | _ => .error .unmodelled
  else .error .valueError

/-- `self.fdir`, abfile.py:47-54.  A value of `fdir` that is not a text is not modelled. -/
def fdirOf (conf : Dict) : Res String :=
  match (dget conf "fdir").getD (.str "") with
  | .str fdir => if isSubstrC "{issuer}".toList fdir.toList then fillIssuer (dget conf "issuer") fdir else .ok fdir
  | _ => .error .unmodelled

end Verif
