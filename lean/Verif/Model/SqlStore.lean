import Verif.Py.Dict

/-!
# `src/oidcmsg/storage/absqlalchemy.py`: `AbstractStorageSQLAlchemy`

One process with one session (`scoped_session` in one thread) over the table of `storage/db_setup.py:9-22`.  A session
opens a transaction at its first statement and sees its own changes; `commit` makes them durable; a transaction that is
never committed is rolled back by the database.  `owner` is not unique and not the primary key (db_setup.py:15-16).
Limits on the length of the columns (80 and 4096), which some databases enforce, are not modelled.
-/

namespace Verif.Sql

/-- a row: `id`, `owner`, `data` (`created`, a time, plays no role), db_setup.py:9-20 -/
structure Row where
  id : Nat
  owner : String
  data : String
deriving DecidableEq, Repr

/-- The committed table and the table as the session sees it; `next` is the next value for `id`.
absqlalchemy.py:10-18 -/
structure Db where
  committed : List Row
  cur : List Row
  next : Nat
deriving DecidableEq, Repr

/-- individual statements of the session, absqlalchemy.py:28-31, 39-43, 50-52 -/
inductive Stmt where
  | delete (k : String)
  | insert (k v : String)
  | update (k v : String)
  | commit

/-- the effect of a statement, absqlalchemy.py:28-31, 39-43, 50-52 -/
def exec (db : Db) : Stmt → Db
  | .delete k => { db with cur := db.cur.filter (fun r => r.owner != k) }
  | .insert k v => { db with cur := db.cur ++ [⟨db.next, k, v⟩], next := db.next + 1 }
  | .update k v => { db with cur := db.cur.map (fun r => if r.owner = k then { r with data := v } else r) }
  | .commit => { db with committed := db.cur }

/-- several statements, absqlalchemy.py:26-53 -/
def execAll (db : Db) (ss : List Stmt) : Db := ss.foldl exec db

/-- the methods that change something, as the statements they execute.  (The `SELECT count` of `delete`, line 51, is
`sqlDeleteCount`.), absqlalchemy.py:26-53, 78-89 -/
inductive Op where
  /-- lines 26-32, and `__setitem__`, lines 88-89 -/
  | set (k v : String)
  /-- lines 34-44 -/
  | update (k v : String)
  /-- lines 46-53: no commit -/
  | delete (k : String)
  /-- lines 78-86, without a failing commit -/
  | flush

/-- the statements of a method, absqlalchemy.py:26-53, 78-89 -/
def Op.stmts : Op → List Stmt
  | .set k v => [.delete k, .insert k v, .commit]
  | .update k v => [.update k v, .commit]
  | .delete k => [.delete k]
  | .flush => [.commit]

/-- a method call, absqlalchemy.py:26-53, 78-89 -/
def apply (db : Db) (o : Op) : Db := execAll db o.stmts

/-- the process dies and the database is opened again, absqlalchemy.py:10-18 -/
def crash (db : Db) : Db := { db with cur := db.committed }

/-- `get`, lines 20-24, absqlalchemy.py:20-24 -/
def get (db : Db) (k : String) : Option String := (db.cur.find? (fun r => r.owner = k)).map (·.data)

/-- the count returned by `delete`, lines 51-53, absqlalchemy.py:46-53 -/
def deleteCount (db : Db) (k : String) : Nat := (db.cur.filter (fun r => r.owner = k)).length

/-- `__contains__`, lines 55-58: `k in entry` compares the key with every column of the row.  (The integer and the time
are not equal to a string.)  `true` is `1`, `false` is `None`. absqlalchemy.py:55-58 -/
def contains (db : Db) (k : String) : Bool := db.cur.any (fun r => decide (k = r.owner) || decide (k = r.data))

/-- a history: complete operations, operations cut off by a crash after some of their statements, and crashes between
operations, absqlalchemy.py:26-89 -/
inductive Event where
  | op (o : Op)
  | cut (o : Op) (n : Nat)

/-- one event of a history, absqlalchemy.py:26-89 -/
def step (db : Db) : Event → Db
  | .op o => apply db o
  | .cut o n => crash (execAll db (o.stmts.take n))

/-- a history, absqlalchemy.py:26-89 -/
def run (db : Db) (es : List Event) : Db := es.foldl step db

end Verif.Sql
