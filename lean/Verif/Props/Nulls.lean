import Verif.Props.Refusals

/-!
# Null and empty values: C171
-/

namespace Verif

/-- the evidence of the two identity assurance classes -/
def EvidenceOf (sch : Schema) (k : String) : Prop :=
  k = "evidence" ∧ (sch.cls = ⟨"ida", "VerificationElement"⟩ ∨ sch.cls = ⟨"ida", "VerificationElementRequest"⟩)

instance (sch : Schema) (k : String) : Decidable (EvidenceOf sch k) := by unfold EvidenceOf; infer_instance

theorem null_only_evidence : allSchemas.all (fun sch => sch.params.all (fun p =>
    decide (p.2.nullAllowed = true ↔ EvidenceOf sch p.1))) = true := by
  decide +kernel

/-- **C171, which parameters may be null.**  Of all the parameters of all classes only the evidence of the two identity assurance
classes is declared so. -/
theorem C171_declared {sch : Schema} (hs : sch ∈ allSchemas) {k : String} {sp : Spec} (hp : (k, sp) ∈ sch.params) :
    sp.nullAllowed = true ↔ EvidenceOf sch k := by
  have := List.all_eq_true.1 (List.all_eq_true.1 null_only_evidence _ hs) _ hp
  exact of_decide_eq_true this

theorem not_null {sch : Schema} (hs : sch ∈ allSchemas) {k : String} {sp : Spec} (hk : dget sch.params k = some sp)
    (he : ¬ EvidenceOf sch k) : sp.nullAllowed = false := by
  cases h : sp.nullAllowed with
  | false => rfl
  | true => exact absurd ((C171_declared hs (dget_mem hk)).1 h) he

/-- **C171, lists.**  Null for a parameter that is a list, other than evidence, is a `ValueError`; so an object with such a member
is refused, whatever else is in it. -/
theorem C171_list_refused {sch : Schema} (hs : sch ∈ allSchemas) {k : String} {sp : Spec} {t : Ty}
    (hk : dget sch.params k = some sp) (ht : sp.vtyp = .list t) (he : ¬ EvidenceOf sch k) :
    (∀ st, fromDictR sch st [(k, .none)] = .error .valueError) ∧
    (∀ st, setItem sch st k .none = .error .valueError) ∧
    ∀ (d : List (String × Val)) st, (k, Val.none) ∈ d → ∃ e, fromDictR sch st d = .error e := by
  have hn := not_null hs hk he
  have ha : ∀ st, addValue sp st k .none = .error .valueError := by
    intro st
    simp [addValue, ignoredList, ht, addToList, Val.isNone, hn]
  have hi : ∀ st, addItem sch st k .none = .error .valueError := by
    intro st
    simp [addItem, isBlank, lookupSpec_declared hk, ha]
  refine ⟨fun st => ?_, fun st => ?_, ?_⟩
  · simp [fromDictR, fromDict, hi]
  · simp [setItem, hk, ha]
  · intro d
    induction d with
    | nil => intro st h; cases h
    | cons p d ih =>
      intro st h
      obtain ⟨k', v'⟩ := p
      unfold fromDictR fromDict
      cases h' : addItem sch st k' v' with
      | error e => exact ⟨e, rfl⟩
      | ok st' =>
        rcases List.mem_cons.1 h with e | h
        · cases e; rw [hi] at h'; cases h'
        · obtain ⟨e, he⟩ := ih st' h
          exact ⟨e, by unfold fromDictR at he; exact he⟩

/-- **C171, empty lists.**  An empty list, or a list that starts with null, for any parameter other than evidence leaves the
message as it is: also a value that was there before stays. -/
theorem C171_empty_ignored {sch : Schema} (hs : sch ∈ allSchemas) {k : String} {sp : Spec} (hk : dget sch.params k = some sp)
    (he : ¬ EvidenceOf sch k) {v : Val} (hv : v = .list [] ∨ ∃ l, v = .list (.none :: l)) (st : Dict) :
    fromDictR sch st [(k, v)] = .ok st ∧ setItem sch st k v = .ok st := by
  have hn := not_null hs hk he
  have ha : addValue sp st k v = .ok st := by
    rcases hv with rfl | ⟨l, rfl⟩ <;> simp [addValue, ignoredList, hn, Val.isNone]
  have hb : isBlank v = false := by rcases hv with rfl | ⟨l, rfl⟩ <;> rfl
  constructor
  · simp [fromDictR, fromDict, addItem, hb, lookupSpec_declared hk, ha]
  · simp [setItem, hk, ha]

/-- **C171, evidence.**  Null and the empty list are kept there. -/
theorem C171_evidence {sch : Schema} (hs : sch = ida_VerificationElement ∨ sch = ida_VerificationElementRequest) (st : Dict) :
    fromDictR sch st [("evidence", .none)] = .ok (dset st "evidence" .none) ∧
    fromDictR sch st [("evidence", .list [])] = .ok (dset st "evidence" (.list [])) := by
  rcases hs with rfl | rfl <;> exact ⟨rfl, rfl⟩

/-- **C171, where it fails.**  For every parameter that is not a list null is kept, although no such parameter is declared to
allow it. -/
theorem C171_counterexample_single {sch : Schema} (hs : sch ∈ allSchemas) {k : String} {sp : Spec} {t : Ty}
    (hk : dget sch.params k = some sp) (ht : sp.vtyp = .single t) (st : Dict) :
    sp.nullAllowed = false ∧
    fromDictR sch st [(k, .none)] = .ok (dset st k .none) ∧ setItem sch st k .none = .ok (dset st k .none) := by
  have ha : addValue sp st k .none = .ok (dset st k .none) := by
    simp [addValue, ignoredList, ht, singleValue]
  have hne : ¬ EvidenceOf sch k := by
    intro he
    have h1 : allSchemas.all (fun sch => sch.params.all (fun p => decide (EvidenceOf sch p.1 →
        (match p.2.vtyp with | .list _ => true | .single _ => false) = true))) = true := by decide +kernel
    have := List.all_eq_true.1 (List.all_eq_true.1 h1 _ hs) _ (dget_mem hk)
    simp [he, ht] at this
  refine ⟨not_null hs hk hne, ?_, ?_⟩
  · simp [fromDictR, fromDict, addItem, isBlank, lookupSpec_declared hk, ha]
  · simp [setItem, hk, ha]

/-- **C171, forms.**  A null is left out of a form, under every name but that of the evidence, where it is written as the word
`None`. -/
theorem C171_form (env : SerEnv) {sch : Schema} (hs : sch ∈ allSchemas) {k : String} {sp : Spec}
    (hk : dget sch.params k = some sp) (pos : Bool) :
    urlPairs env pos sch.params k .none = .ok (if EvidenceOf sch k then [(k, "None")] else []) := by
  have hd := C171_declared hs (dget_mem hk)
  unfold urlPairs nullFor
  rw [lookupSpec_declared hk]
  by_cases he : EvidenceOf sch k
  · simp [he, hd.2 he]
  · simp [he, not_null hs hk he]

/-- a list, a text and a message -/
example :
    fromDictR oidc_AuthorizationRequest [] [("scope", .none)] = .error .valueError ∧
    fromDictR oidc_AuthorizationRequest [("state", .str "s")] [("state", .list [])] = .ok [("state", .str "s")] ∧
    fromDictR oidc_AuthorizationRequest [] [("state", .none)] = .ok [("state", .none)] ∧
    fromDictR oidc_OpenIDSchema [] [("_claim_names", .list [])] = .ok [] := by
  exact ⟨rfl, rfl, rfl, rfl⟩

end Verif
