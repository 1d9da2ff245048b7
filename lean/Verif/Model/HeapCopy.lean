import Verif.Model.Heap

/-!
# Copies of messages

`Message.copy()` and the ways in which a list object gets from one message into another.  As in `Model/Heap` the list
objects are those directly in a message; what is inside the lists is immutable.
-/

namespace Verif

/-- the memo of `copy.deepcopy`: old address to new address, message.py:810-811 -/
abbrev Memo := List (Nat × Nat)

/-- the address the memo has for a list object, message.py:810-811 -/
def Memo.find : Memo → Nat → Option Nat
  | [], _ => none
  | (a, b) :: rest, n => if a = n then some b else Memo.find rest n

/-- `copy.deepcopy` of the dictionary of a message, message.py:810-811: a list object met for the first time is copied, one
met again is the copy made before.  Immutable values are themselves. -/
def copySlots : List (String × Slot) → Memo → Cells → Assoc Slot × Cells
  | [], _, cells => ([], cells)
  | (k, .lit v) :: rest, memo, cells =>
    let r := copySlots rest memo cells
    ((k, .lit v) :: r.1, r.2)
  | (k, .cell n) :: rest, memo, cells =>
    match memo.find n with
    | some n' =>
      let r := copySlots rest memo cells
      ((k, .cell n') :: r.1, r.2)
    | none =>
      let r := copySlots rest ((n, cells.length) :: memo) (cells ++ [cells.getD n []])
      ((k, .cell cells.length) :: r.1, r.2)

/-- what a program can do with messages, with copying, message.py:37-47, 701-706, 763-775, 810-811 -/
inductive COp where
  /-- the operations of `Model/Heap` -/
  | base (o : MOp)
  /-- `m.copy()`, message.py:810-811 -/
  | copy (m : Nat)
  /-- `m2[k2] = m[k]`, message.py:701-706: the object itself is stored when the parameter is not declared, and when it is a
  list of strings with `list_deserializer` (360-381, 872-879) and the list is not empty.  `m2.update(m)` (763-775) and
  `Cls(**m.to_dict())` (236-271, 273-320) are sequences of these for such parameters. -/
  | share (m : Nat) (k : String) (m2 : Nat) (k2 : String)

/-- the effect of an operation, message.py:37-47, 701-706, 810-811 -/
def cStep (p : Prog) : COp → Prog
  | .base o => mStep p o
  | .copy m =>
    match p.msgs[m]? with
    | some md =>
      { p with
        cells := (copySlots md.2 [] p.cells).2
        msgs := p.msgs ++ [(md.1, (copySlots md.2 [] p.cells).1)] }
    | none => p
  | .share m k m2 k2 =>
    match p.slot m k with
    | some s => p.modify m2 (fun _ d => dset d k2 s)
    | none => p

/-- a history of operations, message.py:37-47, 701-706, 810-811 -/
def cRun : List COp → Prog → Prog
  | [], p => p
  | o :: rest, p => cRun rest (cStep p o)

end Verif
