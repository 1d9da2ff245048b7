import Verif.Model.MappingMore
import Verif.Model.Schemas

/-!
# C165: taking parameters out of a message, and setting them unless they are there
-/

namespace Verif

/-- C165: `pop` gives the value of the parameter and removes exactly that parameter. -/
theorem C165_pop_present {st : Dict} {k : String} {v : Val} (h : dget st k = some v) (dflt : Option Val) :
    ∃ st', msgPop st k dflt = .ok (v, st') ∧ dget st' k = none ∧ (∀ k', k' ≠ k → dget st' k' = dget st k') ∧
      dkeys st' = (dkeys st).filter (· ≠ k) := by
  refine ⟨ddel st k, by simp [msgPop, h], dget_ddel_same st k, fun k' hk => dget_ddel_ne st (Ne.symm hk), ?_⟩
  rw [dkeys_ddel]
  simp

/-- C165: for a parameter that is not there, `pop` gives the default and changes nothing; without default it is a
`KeyError`. -/
theorem C165_pop_absent {st : Dict} {k : String} (h : dget st k = none) :
    (∀ d, msgPop st k (some d) = .ok (d, st)) ∧ msgPop st k none = .error .keyError := by
  simp [msgPop, h]

/-- C165: `popitem` takes the parameter that was set first, and leaves the others in their order. -/
theorem C165_popitem {st rest : Dict} {k : String} {v : Val} (hn : DNodup st) (h : st = (k, v) :: rest) :
    msgPopItem st = .ok ((k, v), rest) := by
  subst h
  simp only [DNodup, dkeys_cons, List.nodup_cons] at hn
  have : ddel ((k, v) :: rest) k = rest := by
    unfold ddel
    rw [List.filter_cons_of_neg (by simp), List.filter_eq_self]
    intro p hp
    have : p.1 ≠ k := fun e => hn.1 (e ▸ List.mem_map.2 ⟨p, hp, rfl⟩)
    simp [this]
  simp [msgPopItem, this]

/-- C165: only from an empty message nothing can be taken. -/
theorem C165_popitem_empty (st : Dict) : msgPopItem st = .error .keyError ↔ st = [] := by
  cases st with
  | nil => simp [msgPopItem]
  | cons p rest => simp [msgPopItem]

/-- what `n` calls of `popitem` give, up to the first `KeyError`, and what is left -/
def popItems : Nat → Dict → List (String × Val) × Dict
  | 0, st => ([], st)
  | n + 1, st =>
    match msgPopItem st with
    | .ok (p, st') => (p :: (popItems n st').1, (popItems n st').2)
    | .error _ => ([], st)

/-- C165: taking one parameter after the other gives each of them once, in the order in which they were set. -/
theorem C165_popitems (n : Nat) {st : Dict} (hn : DNodup st) : popItems n st = (st.take n, st.drop n) := by
  induction n generalizing st with
  | zero => rfl
  | succ n ih =>
    cases st with
    | nil => rfl
    | cons p rest =>
      obtain ⟨k, v⟩ := p
      have hr : DNodup rest := by
        simp only [DNodup, dkeys_cons, List.nodup_cons] at hn
        exact hn.2
      simp only [popItems, C165_popitem hn rfl, ih hr, List.take_succ_cons, List.drop_succ_cons]

/-- C165: `clear` ends, and leaves nothing. -/
theorem C165_clear (st : Dict) : msgClear st = [] := by
  induction h : st.length using Nat.strongRecOn generalizing st with
  | ind n ih =>
    rw [msgClear]
    split
    · next p st' he =>
      have := msgPopItem_shorter he
      exact ih st'.length (by omega) st' rfl
    · next e he =>
      cases st with
      | nil => rfl
      | cons p rest => simp [msgPopItem] at he

/-- C165: `setdefault` on a parameter that is there gives its value and changes nothing. -/
theorem C165_setdefault_present (sch : Schema) {st : Dict} {k : String} {v : Val} (h : dget st k = some v) (d : Val) :
    msgSetDefault sch st k d = .ok (v, st) := by
  simp [msgSetDefault, h]

/-- C165: on a parameter that is not there it is the assignment, with the same exceptions. -/
theorem C165_setdefault_absent (sch : Schema) {st : Dict} {k : String} (h : dget st k = none) (d : Val) :
    (∀ st', setItem sch st k d = .ok st' → msgSetDefault sch st k d = .ok (d, st')) ∧
    (∀ e, setItem sch st k d = .error e → msgSetDefault sch st k d = .error e) := by
  constructor
  · intro st' h'
    simp [msgSetDefault, h, h']
  · intro e h'
    simp [msgSetDefault, h, h']

/-- The class does not declare the parameter, or the value is of the kind it declares (no list). -/
def KeptAsGiven (sch : Schema) (k : String) (d : Val) : Prop :=
  dget sch.params k = none ∨ ∃ sp, dget sch.params k = some sp ∧
    ((sp.vtyp = .single .str ∧ ∃ s, d = .str s) ∨ (sp.vtyp = .single .int ∧ ∃ i, d = .int i) ∨
     (sp.vtyp = .single .bool ∧ ∃ b, d = .bool b) ∨ (sp.vtyp = .single .dict ∧ ∃ x, d = .dict x))

/-- C165, what holds of "what `setdefault` returns is what the message has then" (`_partial`: for values that are converted when
they are stored, or not stored, it does not hold, see the counterexamples). -/
theorem C165_setdefault_returned_partial (sch : Schema) (st : Dict) (k : String) (d : Val) (hk : KeptAsGiven sch k d) :
    ∃ v st', msgSetDefault sch st k d = .ok (v, st') ∧ dget st' k = some v ∧ (∀ k', k' ≠ k → dget st' k' = dget st k') ∧
      v = (dget st k).getD d := by
  cases h : dget st k with
  | some v => exact ⟨v, st, C165_setdefault_present sch h d, h, fun _ _ => rfl, rfl⟩
  | none =>
    have key : setItem sch st k d = .ok (dset st k d) := by
      rcases hk with hk | ⟨sp, hk, hs⟩
      · simp [setItem, hk]
      · rcases hs with ⟨ht, s, rfl⟩ | ⟨ht, s, rfl⟩ | ⟨ht, s, rfl⟩ | ⟨ht, s, rfl⟩ <;>
          simp [setItem, hk, addValue, ignoredList, ht, singleValue, Ty.isInst]
    exact ⟨d, dset st k d, (C165_setdefault_absent sch h d).1 _ key, dget_dset_same st k d,
      fun k' hk' => dget_dset_ne st d (Ne.symm hk'), rfl⟩

/-- C165 as stated is false: what `setdefault` returns is not what the message has then. -/
theorem C165_counterexample_converted :
    msgSetDefault oauth2_AuthorizationRequest [] "scope" (.str "openid email") =
      .ok (.str "openid email", [("scope", .list [.str "openid", .str "email"])]) := by
  decide +kernel

/-- C165 as stated is false: an empty list is returned, and the parameter is still absent. -/
theorem C165_counterexample_not_stored :
    msgSetDefault oauth2_AuthorizationRequest [] "scope" (.list []) = .ok (.list [], []) := by
  decide +kernel

example : msgPop [("a", .int 1), ("b", .str "x")] "a" none = .ok (.int 1, [("b", .str "x")]) := by decide +kernel
example : popItems 5 [("b", .str "x"), ("a", .int 1)] = ([("b", .str "x"), ("a", .int 1)], []) := by decide +kernel
example : KeptAsGiven oauth2_AuthorizationRequest "client_id" (.str "c") := .inr ⟨_, rfl, .inl ⟨rfl, "c", rfl⟩⟩
example : KeptAsGiven oauth2_AuthorizationRequest "claims_locales" (.int 2) := .inl rfl

end Verif
