import Verif.Model.Context
import Verif.Model.SqlStore

/-!
# `src/oidcmsg/context.py`: a context over the other two storages of the package

The storage is chosen by the `handler` of the configuration (storage/init.py:42-49), any class will do.
-/

namespace Verif

/-- a `LabeledAbstractFileSystem` with the label `lab`, at the time `now`: `db[item]` is `get` without a default, abfile.py:313-319,
context.py:80-82, 86-88 -/
def labStore (conv : Conv) (lab : String) (now : Nat) : Store (Inst × Dir) where
  item k s := ((labGet conv lab now k s.1 s.2).res, (labGet conv lab now k s.1 s.2).inst, (labGet conv lab now k s.1 s.2).dir)
  setItem k v s := ((labSet conv lab now k v s.1 s.2).res, (labSet conv lab now k v s.1 s.2).inst, (labSet conv lab now k v s.1 s.2).dir)

/-- `db[k] = v` on an `AbstractStorageSQLAlchemy`, absqlalchemy.py:88-89, for a text; what the database makes of other values in
a `String` column is not modelled. -/
def sqlSetItem (k : String) (v : Val) (db : Sql.Db) : Res Unit × Sql.Db :=
  match v with
  | .str t => (.ok (), Sql.apply db (.set k t))
  | _ => (.error .unmodelled, db)

/-- an `AbstractStorageSQLAlchemy`: it has `__setitem__` but no `__getitem__`, so that `db[item]` is a `TypeError`,
absqlalchemy.py:9-89, context.py:80-82, 86-88 -/
def sqlStore : Store Sql.Db where
  item _ db := (.error .typeError, db)
  setItem := sqlSetItem

end Verif
