import Verif.Props.C01_C05
import Verif.Model.Schemas

/-!
# What list parameters and defaults hold: C104, C105
-/

namespace Verif

/-! ## C104 -/

theorem checkItems_strs (ss : List String) :
    checkItems .str (.list (ss.map .str)) = .ok (.list (ss.map .str)) := by
  have : (ss.map Val.str).all (fun v => Ty.isInst .str v) = true := by simp [Ty.isInst]
  simp only [checkItems, Val.iter, bind, Except.bind]
  rw [if_pos this]

theorem addValue_strs {sp : Spec} (hsp : StrListSpec sp) {ss : List String} (hne : ss ≠ [])
    (h : sp.ser = some .spSep → ∀ s, ss = [s] → ' ' ∉ s.toList) (st : Dict) (k : String) :
    addValue sp st k (.list (ss.map .str)) = .ok (dset st k (.list (ss.map .str))) := by
  have hc := checkItems_strs ss
  obtain ⟨s, r, rfl⟩ := List.exists_cons_of_ne_nil hne
  cases hsp with
  | plain req =>
    simp only [List.map_cons] at hc ⊢
    simp [addValue, ignoredList, Val.isNone, addToList, Ty.isInst, addListOfList, deserList, listDeser, orDecodeError,
      hc, bind, Except.bind]
  | spSep req =>
    cases r with
    | nil =>
      have hs := h rfl s rfl
      have : pySplit ' ' s = [s] := by
        have := pySplit_pyJoin (c := ' ') (ps := [s]) (by simp) (by simpa using hs)
        simpa [pyJoin, joinC] using this
      simp only [List.map_cons, List.map_nil] at hc ⊢
      simp [addValue, ignoredList, Val.isNone, addToList, Ty.isInst, addListOfList, deserList, spSepDeser, orDecodeError,
        splitItem, this, hc, bind, Except.bind]
    | cons s2 r =>
      simp only [List.map_cons] at hc ⊢
      simp [addValue, ignoredList, Val.isNone, addToList, Ty.isInst, addListOfList, deserList, spSepDeser, orDecodeError,
        hc, bind, Except.bind]

theorem addValue_text {sp : Spec} (hsp : StrListSpec sp) (s : String) (st : Dict) (k : String) :
    addValue sp st k (.str s) = .ok (dset st k (.list ((pySplit ' ' s).map .str))) := by
  cases hsp <;>
    simp [addValue, ignoredList, Val.isNone, addToList, Ty.isInst, listDeser, spSepDeser, orDecodeError]

/-- Assignment (C104): a non-empty list of strings is stored as it is, in a space-separated parameter if it is not a
single string with a space in it; the other parameters keep their values. -/
theorem C104_assign_partial (sch : Schema) (k : String) (sp : Spec) (hk : dget sch.params k = some sp)
    (hsp : StrListSpec sp) (ss : List String) (hne : ss ≠ [])
    (h : sp.ser = some .spSep → ∀ s, ss = [s] → ' ' ∉ s.toList) (st : Dict) :
    ∃ st', setItem sch st k (.list (ss.map .str)) = .ok st' ∧ dget st' k = some (.list (ss.map .str)) ∧
      ∀ k', k' ≠ k → dget st' k' = dget st k' := by
  refine ⟨dset st k (.list (ss.map .str)), ?_, dget_dset_same .., fun k' h' => dget_dset_ne _ _ (Ne.symm h')⟩
  simp [setItem, hk, addValue_strs hsp hne h]

/-- Building from a dictionary (C104): the same, where the list with only the empty string counts as blank. -/
theorem C104_load_partial (sch : Schema) (k : String) (sp : Spec) (hk : dget sch.params k = some sp)
    (hsp : StrListSpec sp) (ss : List String) (hne : ss ≠ []) (hb : ss ≠ [""])
    (h : sp.ser = some .spSep → ∀ s, ss = [s] → ' ' ∉ s.toList) (st : Dict) :
    ∃ st', fromDictR sch st [(k, .list (ss.map .str))] = .ok st' ∧ dget st' k = some (.list (ss.map .str)) ∧
      ∀ k', k' ≠ k → dget st' k' = dget st k' := by
  refine ⟨dset st k (.list (ss.map .str)), ?_, dget_dset_same .., fun k' h' => dget_dset_ne _ _ (Ne.symm h')⟩
  have : isBlank (.list (ss.map .str)) = false := by
    unfold isBlank
    split
    · rename_i h'; cases h'
    · rename_i h'
      simp only [Val.list.injEq] at h'
      rcases ss with _ | ⟨a, _ | ⟨b, r⟩⟩ <;> simp at h' hb
      subst h'
      simpa using hb
    · rfl
  simp [fromDictR, fromDict, addItem, this, lookupSpec_declared hk, addValue_strs hsp hne h]

/-- A text (C104): assigned to a list parameter of either kind, its space-separated pieces are stored. -/
theorem C104_text (sch : Schema) (k : String) (sp : Spec) (hk : dget sch.params k = some sp) (hsp : StrListSpec sp)
    (ss : List String) (hne : ss ≠ []) (h : ∀ s ∈ ss, ' ' ∉ s.toList) (st : Dict) :
    ∃ st', setItem sch st k (.str (pyJoin ' ' ss)) = .ok st' ∧ dget st' k = some (.list (ss.map .str)) ∧
      ∀ k', k' ≠ k → dget st' k' = dget st k' := by
  refine ⟨dset st k (.list (ss.map .str)), ?_, dget_dset_same .., fun k' h' => dget_dset_ne _ _ (Ne.symm h')⟩
  simp [setItem, hk, addValue_text hsp, pySplit_pyJoin hne h]

/-- C104 fails for the empty list, in every class: the assignment succeeds and the old value stays. -/
theorem C104_counterexample_empty (sch : Schema) (k : String) (sp : Spec) (hk : dget sch.params k = some sp)
    (hsp : StrListSpec sp) (st : Dict) : setItem sch st k (.list []) = .ok st := by
  cases hsp <;> simp [setItem, hk, addValue, ignoredList]

/-- C104 fails for one string with a space in it, in every class: its pieces are stored. -/
theorem C104_counterexample_space (sch : Schema) (k : String) (req : Bool)
    (hk : dget sch.params k = some ⟨.list .str, req, some .spSep, some spSepDeser, false⟩) (s : String) (st : Dict) :
    setItem sch st k (.list [.str s]) = .ok (dset st k (.list ((pySplit ' ' s).map .str))) := by
  simp [setItem, hk, addValue, ignoredList, Val.isNone, addToList, Ty.isInst, addListOfList, deserList, spSepDeser,
    splitItem, orDecodeError, checkItems_strs, bind, Except.bind]

example : dget demoSchema.params "scope" = some optionalListOfSpSepStrings ∧ StrListSpec optionalListOfSpSepStrings ∧
    setItem demoSchema [("scope", .list [.str "a"])] "scope" (.list [.str "b c", .str "d"]) =
      .ok [("scope", .list [.str "b c", .str "d"])] ∧
    setItem demoSchema [("scope", .list [.str "a"])] "scope" (.list [.str "b c"]) =
      .ok [("scope", .list [.str "b", .str "c"])] ∧
    setItem demoSchema [("scope", .list [.str "a"])] "scope" (.list []) = .ok [("scope", .list [.str "a"])] :=
  ⟨rfl, .spSep false, by decide +kernel, by decide +kernel, by decide +kernel⟩

/-! ## C105 -/

/-- `set_defaults` (C105): what is there stays, what is absent gets the default of the class, nothing else appears. -/
theorem C105_defaults (sch : Schema) (hd : DNodup sch.default) (st : Dict) (k : String) :
    dget (setDefaults sch st) k = (dget st k).or (dget sch.default k) := by
  unfold setDefaults
  revert hd
  generalize sch.default = ds
  induction ds generalizing st with
  | nil => intro _; simp [dget]
  | cons p r ih =>
    obtain ⟨k', v⟩ := p
    intro hd
    simp only [DNodup, dkeys_cons, List.nodup_cons] at hd
    rw [List.foldl_cons, ih _ hd.2, dget_cons]
    by_cases e : k' = k
    · subst e
      have hr : dget r k' = none := (dget_eq_none_iff r k').2 hd.1
      cases hh : dhas st k' with
      | true =>
        obtain ⟨x, hx⟩ : ∃ x, dget st k' = some x := by
          cases hx : dget st k' with
          | none => rw [(dhas_eq_false_iff st k').2 hx] at hh; cases hh
          | some x => exact ⟨x, rfl⟩
        simp [hx]
      | false =>
        have hx := (dhas_eq_false_iff st k').1 hh
        simp [hx, dget_dset_same]
    · have : dget (if dhas st k' = true then st else dset st k' v) k = dget st k := by
        split
        · rfl
        · exact dget_dset_ne _ _ e
      simp [this, e]

theorem dset_fresh {d : Dict} {k : String} {v : Val} (h : dget d k = none) : dset d k v = d ++ [(k, v)] := by
  induction d with
  | nil => rfl
  | cons p r ih =>
    obtain ⟨k', w⟩ := p
    rw [dget_cons] at h
    split at h
    · cases h
    · next e => simp [dset, e, ih h]

/-- The names already there keep their order, and come first. -/
theorem C105_order (sch : Schema) (st : Dict) : ∃ new, setDefaults sch st = st ++ new ∧
    ∀ p ∈ new, p ∈ sch.default ∧ dget st p.1 = none := by
  unfold setDefaults
  generalize sch.default = ds
  induction ds generalizing st with
  | nil => exact ⟨[], by simp, by simp⟩
  | cons p r ih =>
    rw [List.foldl_cons]
    cases hh : dhas st p.1 with
    | true =>
      obtain ⟨new, h1, h2⟩ := ih st
      exact ⟨new, by simpa using h1, fun q hq => ⟨List.mem_cons_of_mem _ (h2 q hq).1, (h2 q hq).2⟩⟩
    | false =>
      have hx := (dhas_eq_false_iff st p.1).1 hh
      have hset : dset st p.1 p.2 = st ++ [p] := dset_fresh hx
      obtain ⟨new, h1, h2⟩ := ih (dset st p.1 p.2)
      refine ⟨p :: new, ?_, ?_⟩
      · simp only [Bool.false_eq_true, if_false]
        rw [h1, hset]
        simp
      · intro q hq
        rcases List.mem_cons.1 hq with rfl | hq
        · exact ⟨List.mem_cons_self, hx⟩
        · refine ⟨List.mem_cons_of_mem _ (h2 q hq).1, ?_⟩
          have := (h2 q hq).2
          rw [dget_dset] at this
          split at this
          · cases this
          · exact this

/-- A second `set_defaults` changes nothing. -/
theorem C105_idempotent (sch : Schema) (hd : DNodup sch.default) (st : Dict) :
    setDefaults sch (setDefaults sch st) = setDefaults sch st := by
  obtain ⟨new, h1, h2⟩ := C105_order sch (setDefaults sch st)
  cases new with
  | nil => simpa using h1
  | cons p r =>
    obtain ⟨hp, hn⟩ := h2 p List.mem_cons_self
    rw [C105_defaults sch hd, mem_dget hd hp] at hn
    cases h : dget st p.1 <;> rw [h] at hn <;> cases hn

/-- A new message (C105): a parameter that is not given has the default of the class, unless `set_defaults=False` is
given. -/
theorem C105_construct (sch : Schema) (d st : Dict) (h : construct sch d = .ok st) (k : String)
    (hk : k ∉ dkeys d) :
    dget st k = match dget d "set_defaults" with
      | some v => if v.truthy then dget sch.default k else none
      | none => dget sch.default k := by
  unfold construct at h
  split at h
  · cases h
  · unfold fromDictR at h
    split at h
    · next h' =>
      cases h
      have hd : k ∉ dkeys (ddel d "set_defaults") := by
        intro hm
        apply hk
        simp only [ddel, dkeys, List.mem_map, List.mem_filter] at hm ⊢
        obtain ⟨p, ⟨hp, _⟩, e⟩ := hm
        exact ⟨p, hp, e⟩
      rw [fromDict_get_other h' hd, initialDict]
      cases dget d "set_defaults" with
      | none => rfl
      | some v => cases hv : v.truthy <;> simp [hv, dget]
    · cases h

example : DNodup oidc_RegistrationRequest.default ∧
    setDefaults oidc_RegistrationRequest [("application_type", .str "native")] =
      [("application_type", .str "native"), ("response_types", .list [.str "code"])] ∧
    construct oidc_RegistrationRequest [("set_defaults", .bool false), ("scope", .str "x")] =
      .ok [("scope", .str "x")] ∧
    construct oidc_RegistrationRequest [] =
      .ok [("application_type", .str "web"), ("response_types", .list [.str "code"])] := by decide +kernel

end Verif
