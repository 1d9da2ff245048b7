import Verif.Model.SqlStore
import Verif.Py.JsonIndent

/-!
# Listing a SQL store, /repo/src/oidcmsg/storage/absqlalchemy.py

The column `created` is a parameter: the text of its time stamp, or `None` (its default is not part of a reflected table).
-/

namespace Verif.Sql

/-- `__call__`, absqlalchemy.py:60-61 -/
def call (db : Db) : List Row := db.cur

/-- what an `__iter__` may return: an object with `__next__`, or one that can only be iterated itself, as a `Query` -/
inductive Iterated where
  | iterator (rows : List Row)
  | iterable (rows : List Row)

/-- `__iter__`, absqlalchemy.py:63-64: a `Query` over the table -/
def dunderIter (db : Db) : Iterated := .iterable db.cur

/-- `iter(store)`, as in a `for` loop: `TypeError` if `__iter__` did not return an iterator.  absqlalchemy.py:63-64 -/
def iterate : Iterated → Res (List Row)
  | .iterator rows => .ok rows
  | .iterable _ => .error .typeError

/-- the elements of a row, a time stamp as its text, absqlalchemy.py:68-74, db_setup.py:12-20 -/
def rowList (created : Row → Option String) (r : Row) : Val :=
  .list [.int r.id, .str r.owner, .str r.data, ((created r).map Val.str).getD .none]

/-- `__str__`, absqlalchemy.py:66-76 -/
def show' (created : Row → Option String) (db : Db) : Res String :=
  dumpsIndent (.list ((call db).map (rowList created))) (.int 2)

end Verif.Sql
