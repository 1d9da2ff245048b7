import Verif.Props.C01_C05
import Verif.Props.FormIn
import Verif.Props.RoundTrip
import Verif.Props.Mapping
import Verif.Model.Schemas

/-!
# C136: language-tagged parameters (`client_name#ja`), `message.py:96-108, 201-216, 247-258, 291-317, 701-706`
-/

namespace Verif

/-- the name of the version of a parameter in a language -/
def tagged (k t : String) : String := k ++ "#" ++ t

/-- What a message is after a value was judged: refused, ignored, or stored under the name. -/
def stored (st : Dict) (k : String) : Res (Option Val) → Res Dict
  | .error e => .error e
  | .ok none => .ok st
  | .ok (some v) => .ok (dset st k v)

theorem splitFirst_tag {c : Char} {l : List Char} (h : c ∉ l) (r : List Char) : (splitFirst c (l ++ c :: r)).1 = l := by
  induction l with
  | nil => simp [splitFirst]
  | cons a l ih =>
    simp only [List.mem_cons, not_or] at h
    simp only [List.cons_append, splitFirst]
    rw [if_neg (Ne.symm h.1)]
    simp [ih h.2]

theorem langBase_tagged {k : String} (h : '#' ∉ k.toList) (t : String) : langBase (tagged k t) = k := by
  unfold langBase tagged
  rw [show (k ++ "#" ++ t).toList = k.toList ++ '#' :: t.toList by simp, splitFirst_tag h]
  simp

/-- No class declares a name with a language tag. -/
theorem untagged_names : allSchemas.all (fun s => s.params.all (fun p => !p.1.toList.contains '#')) = true := by decide +kernel

theorem tagged_undeclared {sch : Schema} (hs : sch ∈ allSchemas) (k t : String) : dget sch.params (tagged k t) = none := by
  rw [dget_eq_none_iff]
  intro hm
  obtain ⟨p, hp, e⟩ := List.mem_map.1 hm
  have := List.all_eq_true.1 (List.all_eq_true.1 untagged_names sch hs) p hp
  rw [e] at this
  simp [tagged] at this

theorem declared_untagged {sch : Schema} (hs : sch ∈ allSchemas) {k : String} {sp : Spec} (h : dget sch.params k = some sp) :
    '#' ∉ k.toList := by
  have := List.all_eq_true.1 (List.all_eq_true.1 untagged_names sch hs) _ (dget_mem h)
  simpa using this

theorem lookupSpec_tagged {sch : Schema} (hs : sch ∈ allSchemas) {k : String} {sp : Spec} (h : dget sch.params k = some sp)
    (t : String) : lookupSpec sch.params (tagged k t) = lookupSpec sch.params k := by
  rw [lookupSpec_declared h]
  unfold lookupSpec
  rw [tagged_undeclared hs, langBase_tagged (declared_untagged hs h), h]

theorem addToList_stored (t : Ty) (sp : Spec) (v : Val) : ∃ o, ∀ st k, addToList t sp st k v = stored st k o := by
  unfold addToList
  split
  · split
    · exact ⟨.ok (some v), fun _ _ => rfl⟩
    · exact ⟨.error .valueError, fun _ _ => rfl⟩
  · split
    · split
      · exact ⟨.ok (some (.list [v])), fun _ _ => rfl⟩
      · split
        · rename_i f _
          cases h : orDecodeError (f v .urlencoded) with
          | ok x => exact ⟨.ok (some x), fun _ _ => rfl⟩
          | error e => exact ⟨.error e, fun _ _ => rfl⟩
        · exact ⟨.ok none, fun _ _ => rfl⟩
    · split
      · rename_i l _ _
        cases h : addListOfList t sp.deser l with
        | ok x => exact ⟨.ok (some x), fun _ _ => rfl⟩
        | error e => exact ⟨.error e, fun _ _ => rfl⟩
      · split
        · rename_i d _ _ _ f _
          cases h : orDecodeError (f (.dict d) .dict) with
          | ok x => exact ⟨.ok (some x), fun _ _ => rfl⟩
          | error e => exact ⟨.error e, fun _ _ => rfl⟩
        · exact ⟨.error .decodeError, fun _ _ => rfl⟩
      · exact ⟨.error .decodeError, fun _ _ => rfl⟩

theorem addValue_stored (sp : Spec) (v : Val) : ∃ o, ∀ st k, addValue sp st k v = stored st k o := by
  unfold addValue
  split
  · exact ⟨.ok none, fun _ _ => rfl⟩
  · split
    · exact addToList_stored _ sp v
    · rename_i t _
      cases h : singleValue t sp v with
      | ok x => exact ⟨.ok (some x), fun _ _ => rfl⟩
      | error e => exact ⟨.error e, fun _ _ => rfl⟩

/-- **C136**, reading data: a value for a tagged name is judged, converted, ignored or refused exactly as for the name itself. -/
theorem C136_from_dict {sch : Schema} (hs : sch ∈ allSchemas) {k : String} {sp : Spec} (h : dget sch.params k = some sp)
    (v : Val) : ∃ o, (∀ st, addItem sch st k v = stored st k o) ∧ ∀ t st, addItem sch st (tagged k t) v = stored st (tagged k t) o := by
  by_cases hb : isBlank v = true
  · exact ⟨.ok none, fun st => by simp [addItem, hb, stored], fun t st => by simp [addItem, hb, stored]⟩
  · obtain ⟨o, ho⟩ := addValue_stored sp v
    refine ⟨o, fun st => ?_, fun t st => ?_⟩
    · simp [addItem, hb, lookupSpec_declared h, ho]
    · simp [addItem, hb, lookupSpec_tagged hs h, lookupSpec_declared h, ho]

theorem addUrl_stored (o : Option (Bool × Spec)) (vs : List String) :
    ∃ r, ∀ (sch : Schema) (st : Dict) (k : String), lookupSpec sch.params k = o → addUrl sch st k vs = stored st k r := by
  cases o with
  | none =>
    rcases vs with _ | ⟨w, _ | ⟨w', ws⟩⟩
    · exact ⟨.ok (some (.list [])), fun sch st k h => by simp [addUrl, h, stored]⟩
    · exact ⟨.ok (some (.str w)), fun sch st k h => by simp [addUrl, h, stored]⟩
    · exact ⟨.ok (some (.list ((w :: w' :: ws).map .str))), fun sch st k h => by simp [addUrl, h, stored]⟩
  | some p =>
    obtain ⟨b, sp⟩ := p
    cases hv : sp.vtyp with
    | list t =>
      cases hd : sp.deser with
      | none => exact ⟨.ok (some (.list (vs.map .str))), fun sch st k h => by simp [addUrl, h, hv, hd, stored]⟩
      | some f =>
        cases vs with
        | nil => exact ⟨.error .indexError, fun sch st k h => by simp [addUrl, h, hv, hd, stored]⟩
        | cons w ws =>
          cases hf : f (.str w) .urlencoded with
          | error e => exact ⟨.error e, fun sch st k h => by simp [addUrl, h, hv, hd, hf, stored, bind, Except.bind]⟩
          | ok x => exact ⟨.ok (some x), fun sch st k h => by simp [addUrl, h, hv, hd, hf, stored, bind, Except.bind]⟩
    | single t =>
      rcases vs with _ | ⟨w, _ | ⟨w', ws⟩⟩
      · exact ⟨.error .tooManyValues, fun sch st k h => by simp [addUrl, h, hv, stored]⟩
      · cases hd : sp.deser with
        | none => exact ⟨.ok (some (.str w)), fun sch st k h => by simp [addUrl, h, hv, hd, stored]⟩
        | some f =>
          cases hf : f (.str w) .urlencoded with
          | error e => exact ⟨.error e, fun sch st k h => by simp [addUrl, h, hv, hd, hf, stored, bind, Except.bind]⟩
          | ok x => exact ⟨.ok (some x), fun sch st k h => by simp [addUrl, h, hv, hd, hf, stored, bind, Except.bind]⟩
      · exact ⟨.error .tooManyValues, fun sch st k h => by simp [addUrl, h, hv, stored]⟩

/-- **C136**, reading forms: so are the values of a tagged name in a form. -/
theorem C136_from_form {sch : Schema} (hs : sch ∈ allSchemas) {k : String} {sp : Spec} (h : dget sch.params k = some sp)
    (vs : List String) : ∃ o, (∀ st, addUrl sch st k vs = stored st k o) ∧
      ∀ t st, addUrl sch st (tagged k t) vs = stored st (tagged k t) o := by
  obtain ⟨o, ho⟩ := addUrl_stored (lookupSpec sch.params k) vs
  exact ⟨o, fun st => ho sch st k rfl, fun t st => ho sch st _ (lookupSpec_tagged hs h t)⟩

theorem serFor_tagged {sch : Schema} (hs : sch ∈ allSchemas) {k : String} {sp : Spec} (h : dget sch.params k = some sp) (t : String) :
    serFor sch.params (tagged k t) = serFor sch.params k ∧ nullFor sch.params (tagged k t) = nullFor sch.params k := by
  simp [serFor, nullFor, lookupSpec_tagged hs h]

/-- **C136**, writing JSON: a value is written under a tagged name as it is under the name. -/
theorem C136_to_dict {env : SerEnv} {sch : Schema} (hs : sch ∈ allSchemas) (henv : ∀ k, env sch.cls k = serFor sch.params k)
    {k : String} {sp : Spec} (h : dget sch.params k = some sp) (v : Val) :
    ∃ o : Res Val, toDict env sch.cls [(k, v)] = o.map (fun w => [(k, w)]) ∧
      ∀ t, toDict env sch.cls [(tagged k t, v)] = o.map (fun w => [(tagged k t, w)]) := by
  refine ⟨serDict env (serFor sch.params k) v, ?_, fun t => ?_⟩
  · simp only [toDict, henv]
    cases serDict env (serFor sch.params k) v <;> rfl
  · simp only [toDict, henv, (serFor_tagged hs h t).1]
    cases serDict env (serFor sch.params k) v <;> rfl

theorem pyStrEach_rename (env : SerEnv) (k k' : String) (l : List Val) :
    pyStrEach env k' l = (pyStrEach env k l).map (fun ps => ps.map (fun p => (k', p.2))) := by
  induction l with
  | nil => rfl
  | cons v l ih =>
    simp only [pyStrEach, ih, bind, Except.bind]
    cases pyStrOf env v with
    | error e => rfl
    | ok s => cases pyStrEach env k l <;> rfl

theorem pyStrEach_names (env : SerEnv) (k : String) (l : List Val) {ps} (h : pyStrEach env k l = .ok ps) : ∀ p ∈ ps, p.1 = k := by
  induction l generalizing ps with
  | nil => cases h; simp
  | cons v l ih =>
    simp only [pyStrEach, bind, Except.bind] at h
    cases h1 : pyStrOf env v with
    | error e => rw [h1] at h; cases h
    | ok s =>
      rw [h1] at h
      cases h2 : pyStrEach env k l with
      | error e => rw [h2] at h; cases h
      | ok r =>
        rw [h2] at h; cases h
        intro p hp
        rcases List.mem_cons.1 hp with rfl | hp
        · rfl
        · exact ih h2 p hp

theorem urlPairs_rename (env : SerEnv) (pos : Bool) (ps : Assoc Spec) (k k' : String) (v : Val)
    (hser : serFor ps k' = serFor ps k) (hnull : nullFor ps k' = nullFor ps k) :
    urlPairs env pos ps k' v = (urlPairs env pos ps k v).map (fun q => q.map (fun p => (k', p.2))) := by
  have one : ∀ (r : Res String), r.map (fun t => [(k', t)]) = (r.map (fun t => [(k, t)])).map (fun q => q.map (fun p => (k', p.2))) := by
    intro r; cases r <;> rfl
  cases v with
  | none => simp only [urlPairs, hnull]; split <;> rfl
  | str s => rfl
  | list l =>
    simp only [urlPairs, hser]
    cases serFor ps k with
    | none => exact pyStrEach_rename env k k' l
    | some s =>
      cases s with
      | msgList =>
        simp only [bind, Except.bind]
        cases msgUrlEach env l with
        | error e => rfl
        | ok r => simp only; cases pyStr (.list r) <;> rfl
      | linkList =>
        simp only [bind, Except.bind]
        cases linkUrlEach env l with
        | error e => rfl
        | ok r => simp only; cases pyStr (.list r) <;> rfl
      | claims => exact one _
      | _ => exact one _
  | msg c d => simp only [urlPairs, hser]; exact one _
  | _ => simp only [urlPairs, hser]; exact one _

/-- **C136**, writing forms: the texts written for a value under a tagged name are those written under the name. -/
theorem C136_to_form (env : SerEnv) (pos : Bool) {sch : Schema} (hs : sch ∈ allSchemas) {k : String} {sp : Spec}
    (h : dget sch.params k = some sp) (v : Val) (t : String) :
    urlPairs env pos sch.params (tagged k t) v =
      (urlPairs env pos sch.params k v).map (fun q => q.map (fun p => (tagged k t, p.2))) :=
  urlPairs_rename env pos sch.params k (tagged k t) v (serFor_tagged hs h t).1 (serFor_tagged hs h t).2

/-- Violated by assignment: whatever the value, it is stored under a tagged name unchecked and unconverted. -/
theorem C136_assign {sch : Schema} (hs : sch ∈ allSchemas) (k t : String) (st : Dict) (v : Val) :
    setItem sch st (tagged k t) v = .ok (dset st (tagged k t) v) := by
  simp [setItem, tagged_undeclared hs]

/-- Violated: a registration request refuses a number as client name, and as Japanese client name when it is made from data, but not
when it is assigned. -/
theorem C136_counterexample_assign :
    setItem oidc_RegistrationRequest [] "client_name" (.list [.int 5]) = .error .valueError ∧
    fromDictR oidc_RegistrationRequest [] [("client_name#ja", .list [.int 5])] = .error .valueError ∧
    setItem oidc_RegistrationRequest [] "client_name#ja" (.list [.int 5]) = .ok [("client_name#ja", .list [.int 5])] := by
  decide +kernel

/-- `verify` of a plain message does not look at tagged names. -/
theorem C136_verify {sch : Schema} (hs : sch ∈ allSchemas) (k t : String) (st : Dict) (v : Val) :
    verifyBase sch (dset st (tagged k t) v) = verifyBase sch st := by
  refine C05_verify_declared_only sch _ st fun a ha => ?_
  have : a ≠ tagged k t := by
    rintro rfl
    exact (dget_eq_none_iff _ _).1 (tagged_undeclared hs k t) ha
  rw [dget_dset_ne _ _ (by first | exact this | exact this.symm)]

/-- Violated: `weed` and `by_schema` take tagged names for names the class does not know and drop them; `extra` lists them. -/
theorem C136_counterexample_weed {sch : Schema} (hs : sch ∈ allSchemas) (k t : String) (st : Dict) :
    dget (weed sch st) (tagged k t) = none ∧ dget (bySchema sch st) (tagged k t) = none ∧
    dget (extra sch st) (tagged k t) = dget st (tagged k t) := by
  have h : ¬ Declares sch (tagged k t) := by
    intro h
    have := tagged_undeclared hs k t
    unfold Declares at h
    simp_all
  exact ⟨(C14_weed sch st _).2 h, (C14_by_schema sch st _).2 h, (C14_extra sch st _).2 h⟩

/-- a registration in two languages, and the tests on the Japanese name: too many texts, one text, a text in a form -/
example : dget oidc_RegistrationRequest.params "client_name" = some singleOptionalString ∧
    tagged "client_name" "ja" = "client_name#ja" ∧
    addItem oidc_RegistrationRequest [] "client_name#ja" (.str "x") = .ok [("client_name#ja", .str "x")] ∧
    addItem oidc_RegistrationRequest [] "client_name#ja" (.list [.str "x", .str "y"]) = .error .valueError ∧
    addUrl oidc_RegistrationRequest [] "client_name#ja" ["x", "y"] = .error .tooManyValues ∧
    addUrl oidc_RegistrationRequest [] "contacts#ja" ["x y"] = .ok [("contacts#ja", .list [.str "x", .str "y"])] ∧
    weed oidc_RegistrationRequest [("client_name", .str "a"), ("client_name#ja", .str "b")] = [("client_name", .str "a")] :=
  ⟨rfl, by decide +kernel, by decide +kernel, by decide +kernel, by decide +kernel, by decide +kernel, by decide +kernel⟩

/-- the hypothesis on the serialisers holds for the library; the contacts are written as a list under both names -/
example : ∃ o : Res Val, toDict libEnv oidc_RegistrationRequest.cls [("contacts", .list [.str "a"])] = o.map (fun w => [("contacts", w)]) ∧
    ∀ t, toDict libEnv oidc_RegistrationRequest.cls [(tagged "contacts" t, .list [.str "a"])] = o.map (fun w => [(tagged "contacts" t, w)]) :=
  C136_to_dict (sp := optionalListOfStrings) (by simp [allSchemas]) (fun _ => rfl) rfl _

end Verif
