import Verif.Model.Message

/-!
# The mapping methods `Message` inherits from `collections.abc.MutableMapping`

`Message` is a `MutableMapping` (message.py:29) and overrides `keys`, `items`, `values`, `get` and `update`; the methods here are
those of the standard library (Lib/_collections_abc.py:885-965) over `__getitem__`, `__setitem__`, `__delitem__` and `__iter__`.
-/

namespace Verif

/-- `msg.pop(key)` and `msg.pop(key, default)`, Lib/_collections_abc.py:907-919 over message.py:643, 729: the value and the
content afterwards -/
def msgPop (st : Dict) (k : String) (dflt : Option Val) : Res (Val × Dict) :=
  match dget st k with
  | some v => .ok (v, ddel st k)
  | none =>
    match dflt with
    | some d => .ok (d, st)
    | none => .error .keyError

/-- `msg.popitem()`, Lib/_collections_abc.py:921-931 over message.py:55, 643, 729: the first key of the iterator (a plain dict
takes the last) -/
def msgPopItem (st : Dict) : Res ((String × Val) × Dict) :=
  match st with
  | [] => .error .keyError
  | (k, v) :: rest => .ok ((k, v), ddel ((k, v) :: rest) k)

theorem msgPopItem_shorter {st st' : Dict} {p : String × Val} (h : msgPopItem st = .ok (p, st')) : st'.length < st.length := by
  cases st with
  | nil => cases h
  | cons q rest =>
    obtain ⟨k, v⟩ := q
    simp only [msgPopItem, Except.ok.injEq, Prod.mk.injEq] at h
    rw [← h.2]
    simp only [ddel, List.length_cons]
    rw [List.filter_cons_of_neg (by simp)]
    exact Nat.lt_succ_of_le (List.length_filter_le _ _)

/-- `msg.clear()`, Lib/_collections_abc.py:933-939: `popitem` until `KeyError` -/
def msgClear (st : Dict) : Dict :=
  match h : msgPopItem st with
  | .ok (_, st') => msgClear st'
  | .error _ => st
termination_by st.length
decreasing_by exact msgPopItem_shorter h

/-- `msg.setdefault(key, default)`, Lib/_collections_abc.py:959-965 over message.py:643, 701-706: the value returned and the
content afterwards -/
def msgSetDefault (sch : Schema) (st : Dict) (k : String) (dflt : Val) : Res (Val × Dict) :=
  match dget st k with
  | some v => .ok (v, st)
  | none =>
    match setItem sch st k dflt with
    | .ok st' => .ok (dflt, st')
    | .error e => .error e

end Verif
