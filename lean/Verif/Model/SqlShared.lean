import Verif.Model.SqlStore

/-!
# `src/oidcmsg/storage/absqlalchemy.py`: several sessions on one table

Any number of processes, each with its session over the same table (absqlalchemy.py:10-18).  What the database does with
transactions that overlap is an assumption, made here for the two kinds of database the class is used with:

* `oneWriter` (SQLite): the first statement that writes takes the write lock of the database, which is kept until the
  transaction ends;
* `rowLocks` (PostgreSQL and others at their default isolation level, read committed): a statement works on the rows that
  were committed when it began, waits for the locks other transactions have on them, and then changes those that are
  still there; rows that have been added meanwhile are not considered.  `INSERT` waits for nobody, since no column but
  `id` is unique (db_setup.py:12-20).
-/

namespace Verif.Sql

/-- how the database treats overlapping transactions (an assumption, not code; the engine is made in
absqlalchemy.py:11) -/
inductive Mode where
  | oneWriter
  | rowLocks
deriving DecidableEq

/-- a session: the changes of its open transaction (`del` and `upd` of committed rows, by `id`; `ins` are its new rows),
whether it has one that writes, the statements that its method call still has to execute, and the rows that the first of
them has found. absqlalchemy.py:16-18, 26-53 -/
structure Sess where
  del : List Nat := []
  upd : List (Nat × String) := []
  ins : List Row := []
  tx : Bool := false
  todo : List Stmt := []
  snap : Option (List Nat) := none

/-- the table and the sessions, absqlalchemy.py:10-18 -/
structure Shared where
  committed : List Row
  next : Nat
  sess : Nat → Sess

/-- change one session, absqlalchemy.py:16-18 -/
def Shared.put (st : Shared) (i : Nat) (s : Sess) : Shared :=
  { st with sess := fun j => if j = i then s else st.sess j }

/-- the value a session has given to a row, absqlalchemy.py:39-42 -/
def updated (upd : List (Nat × String)) (r : Row) : Row :=
  match upd.find? (fun p => p.1 = r.id) with
  | some p => { r with data := p.2 }
  | none => r

/-- the table as a session sees it: what is committed now, with its own changes, absqlalchemy.py:20-24, 60-61 -/
def view (c : List Row) (s : Sess) : List Row :=
  (c.filter (fun r => !decide (r.id ∈ s.del))).map (updated s.upd) ++ s.ins

/-- `get` in a session, absqlalchemy.py:20-24 (`first()`: the order of the table is that of the rows) -/
def getIn (st : Shared) (i : Nat) (k : String) : Option String :=
  ((view st.committed (st.sess i)).find? (fun r => r.owner = k)).map (·.data)

/-- the rows a `DELETE` or `UPDATE` finds, absqlalchemy.py:39-41, 50 -/
def found (c : List Row) (s : Sess) (k : String) : List Nat :=
  (c.filter (fun r => decide (r.owner = k) && !decide (r.id ∈ s.del))).map (·.id)

/-- nobody else has the write lock, absqlalchemy.py:11 (assumption `oneWriter`) -/
def Free (mode : Mode) (st : Shared) (i : Nat) : Prop := mode = .oneWriter → ∀ j, j ≠ i → (st.sess j).tx = false

/-- nobody else has a lock on these rows, absqlalchemy.py:11 (assumption `rowLocks`) -/
def Unlocked (st : Shared) (i : Nat) (ids : List Nat) : Prop :=
  ∀ j, j ≠ i → ∀ n ∈ ids, n ∉ (st.sess j).del ∧ n ∉ (st.sess j).upd.map (·.1)

/-- the key a `DELETE` or `UPDATE` is about, absqlalchemy.py:39-41, 50 -/
def Stmt.key : Stmt → Option String
  | .delete k => some k
  | .update k _ => some k
  | _ => none

/-- the effect of `DELETE` and `UPDATE` on the rows that were found and on the session's own new rows,
absqlalchemy.py:39-42, 50-52 -/
def act (s : Sess) (stmt : Stmt) (ids : List Nat) : Sess :=
  match stmt with
  | .delete k => { s with del := ids ++ s.del, ins := s.ins.filter (fun r => r.owner != k) }
  | .update k v =>
    { s with
      upd := ids.map (fun n => (n, v)) ++ s.upd
      ins := s.ins.map (fun r => if r.owner = k then { r with data := v } else r) }
  | _ => s

/-- one step of one session, absqlalchemy.py:26-53, 78-89; `P` tells which calls the program makes -/
inductive SStep (mode : Mode) (P : Op → Prop) : Shared → Shared → Prop
  /-- a method is called -/
  | call (st : Shared) (i : Nat) (o : Op) (hp : P o) (h : (st.sess i).todo = []) :
      SStep mode P st (st.put i { st.sess i with todo := o.stmts })
  /-- a `DELETE` or `UPDATE` begins -/
  | see (st : Shared) (i : Nat) (s : Stmt) (rest : List Stmt) (k : String) (h : (st.sess i).todo = s :: rest)
      (hk : s.key = some k) (hs : (st.sess i).snap = none) (hf : Free mode st i) :
      SStep mode P st (st.put i { st.sess i with snap := some (found st.committed (st.sess i) k), tx := true })
  /-- it has the locks and is carried out -/
  | act (st : Shared) (i : Nat) (s : Stmt) (rest : List Stmt) (ids : List Nat) (h : (st.sess i).todo = s :: rest)
      (hs : (st.sess i).snap = some ids) (hu : Unlocked st i ids) :
      SStep mode P st (st.put i { act (st.sess i) s ids with snap := none, todo := rest })
  /-- `INSERT` -/
  | insert (st : Shared) (i : Nat) (k v : String) (rest : List Stmt) (h : (st.sess i).todo = .insert k v :: rest)
      (hf : Free mode st i) :
      SStep mode P st { st.put i { st.sess i with
        ins := (st.sess i).ins ++ [⟨st.next, k, v⟩], tx := true, todo := rest } with next := st.next + 1 }
  /-- `COMMIT` -/
  | commit (st : Shared) (i : Nat) (rest : List Stmt) (h : (st.sess i).todo = .commit :: rest) :
      SStep mode P st { st.put i { todo := rest } with committed := view st.committed (st.sess i) }
  /-- the process dies: the database rolls its transaction back -/
  | die (st : Shared) (i : Nat) : SStep mode P st (st.put i {})

/-- an execution from an empty table, absqlalchemy.py:10-18 -/
inductive SReach (mode : Mode) (P : Op → Prop) : Shared → Prop
  | start : SReach mode P ⟨[], 0, fun _ => {}⟩
  | step {st st' : Shared} (h : SReach mode P st) (hs : SStep mode P st st') : SReach mode P st'

end Verif.Sql
