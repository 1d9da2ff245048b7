import Verif.Model.Factory

/-!
# C92: the factories
-/

namespace Verif

theorem orDecodeError_no_attr {α : Type} (r : Res α) : orDecodeError r ≠ .error .attributeError := by
  unfold orDecodeError
  split <;> simp

theorem iter_no_attr (v : Val) : v.iter ≠ .error .attributeError := by
  cases v <;> simp [Val.iter]

theorem checkItems_no_attr (t : Ty) (v : Val) : checkItems t v ≠ .error .attributeError := by
  have h := iter_no_attr v
  unfold checkItems
  split
  · exact orDecodeError_no_attr _
  · cases hv : v.iter with
    | error e => rw [hv] at h; simpa [bind, Except.bind] using h
    | ok l =>
      simp only [bind, Except.bind]
      split <;> simp

theorem addListOfList_no_attr (t : Ty) (f : Option (Val → Fmt → Res Val)) (l : List Val) :
    addListOfList t f l ≠ .error .attributeError := by
  unfold addListOfList
  cases h : deserList f l with
  | error e =>
    intro hc
    simp only [bind, Except.bind] at hc
    cases hc
    unfold deserList at h
    split at h
    · exact orDecodeError_no_attr _ h
    · cases h
  | ok v => exact checkItems_no_attr t v

theorem addToList_no_attr (t : Ty) (sp : Spec) (st : Dict) (k : String) (v : Val) :
    addToList t sp st k v ≠ .error .attributeError := by
  unfold addToList
  split
  · split <;> simp
  · split
    · split
      · simp
      · split
        · split
          · simp
          · rename_i he
            intro hc; cases hc
            exact orDecodeError_no_attr _ he
        · simp
    · split
      · split
        · simp
        · rename_i he
          intro hc; cases hc
          exact addListOfList_no_attr _ _ _ he
      · split
        · split
          · simp
          · rename_i he
            intro hc; cases hc
            exact orDecodeError_no_attr _ he
        · simp
      · simp

theorem singleValue_no_attr (t : Ty) (sp : Spec) (v : Val) : singleValue t sp v ≠ .error .attributeError := by
  unfold singleValue
  split
  · simp
  · split <;> simp
  · split
    · simp
    · split
      · exact orDecodeError_no_attr _
      · unfold coerceSingle
        split
        · split <;> simp
        · split
          · split <;> simp
          · simp
        · simp

theorem addItem_no_attr (sch : Schema) (st : Dict) (k : String) (v : Val) :
    addItem sch st k v ≠ .error .attributeError := by
  unfold addItem
  split
  · simp
  · split
    · simp
    · split
      · simp
      · unfold addValue
        split
        · simp
        · split
          · exact addToList_no_attr _ _ _ _ _
          · split
            · simp
            · rename_i he
              intro hc; cases hc
              exact singleValue_no_attr _ _ _ he

theorem fromDict_no_attr (sch : Schema) (d : List (String × Val)) :
    ∀ st, (fromDict sch st d).2 ≠ some .attributeError := by
  induction d with
  | nil => intro st; simp [fromDict]
  | cons p r ih =>
    intro st
    obtain ⟨k, v⟩ := p
    have := addItem_no_attr sch st k v
    simp only [fromDict]
    split
    · rename_i e he
      rw [he] at this
      simpa using this
    · exact ih _

/-- Making an instance of a message class never raises an `AttributeError`. -/
theorem ctor_no_attr (sch : Schema) (d : Dict) : ctor sch d ≠ .error .attributeError := by
  unfold ctor construct
  split
  · simp [Except.map]
  · have := fromDict_no_attr sch (ddel d "set_defaults") (initialDict sch d)
    unfold fromDictR
    split
    · simp [Except.map]
    · rename_i e he
      rw [he] at this
      simpa [Except.map] using this

theorem searchMembers_eq (name : String) (kw : Dict) (l : List Schema) :
    searchMembers name kw l = (l.find? (fun s => s.cls.name = name)).map (fun s => ctor s kw) := by
  induction l with
  | nil => rfl
  | cons s r ih =>
    unfold searchMembers
    by_cases h : s.cls.name = name
    · have := ctor_no_attr s kw
      simp only [h, if_pos, List.find?_cons, decide_true, Option.map_some]
    · simp only [h, if_false, List.find?_cons, decide_false, ih]

theorem find_unique {l : List Schema} (hn : (l.map (fun s => s.cls.name)).Nodup) {s : Schema} (hs : s ∈ l) :
    l.find? (fun s' => decide (s'.cls.name = s.cls.name)) = some s := by
  induction l with
  | nil => simp at hs
  | cons a r ih =>
    simp only [List.map_cons, List.nodup_cons, List.mem_map, not_exists, not_and] at hn
    rcases List.mem_cons.1 hs with rfl | hs
    · simp
    · have : a.cls.name ≠ s.cls.name := fun e => hn.1 s hs e.symm
      simp only [List.find?_cons, this, decide_false]
      exact ih hn.2 hs

theorem oidcMembers_nodup : (oidcMembers.map (fun s => s.cls.name)).Nodup := by decide +kernel
theorem oauth2Members_nodup : (oauth2Members.map (fun s => s.cls.name)).Nodup := by decide +kernel

/-- the names of the classes the library defines in a module -/
def definedIn (m : String) : List String := (allSchemas.filter (fun s => s.cls.mod == m)).map (fun s => s.cls.name)

/-- nothing is missing from the tables of members -/
theorem members_complete : (∀ n ∈ definedIn "oidc", n ∈ oidcMembers.map (fun s => s.cls.name)) ∧
    (∀ n ∈ definedIn "oauth2", n ∈ oauth2Members.map (fun s => s.cls.name)) := by decide +kernel

theorem find_none {l : List Schema} {name : String} (h : name ∉ l.map (fun s => s.cls.name)) :
    l.find? (fun s => decide (s.cls.name = name)) = none := by
  rw [List.find?_eq_none]
  intro s hs
  simp only [decide_eq_true_eq]
  intro e
  exact h (List.mem_map.2 ⟨s, hs, e⟩)

/-- C92, OIDC classes: the factory does what the constructor of the class does, exceptions included. -/
theorem C92_oidc (s : Schema) (hs : s ∈ oidcMembers) (kw : Dict) (hk : dhas kw "msgtype" = false) :
    oidcFactory s.cls.name kw = ctor s kw := by
  simp only [oidcFactory, hk, Bool.false_eq_true, if_false, searchMembers_eq, find_unique oidcMembers_nodup hs, Option.map_some,
    Option.getD_some]

/-- C92, OAuth2 classes, -/
theorem C92_oauth2 (s : Schema) (hs : s ∈ oauth2Members) (kw : Dict) (hk : dhas kw "msgtype" = false) :
    oauth2Factory s.cls.name kw = ctor s kw := by
  simp only [oauth2Factory, hk, Bool.false_eq_true, if_false, searchMembers_eq, find_unique oauth2Members_nodup hs, Option.map_some,
    Option.getD_some]

/-- which the OIDC factory makes too, unless there is an OIDC class of the same name. -/
theorem C92_fallback (s : Schema) (hs : s ∈ oauth2Members) (ho : ∀ s' ∈ oidcMembers, s'.cls.name ≠ s.cls.name) (kw : Dict)
    (hk : dhas kw "msgtype" = false) : oidcFactory s.cls.name kw = ctor s kw := by
  have : s.cls.name ∉ oidcMembers.map (fun s => s.cls.name) := by
    simp only [List.mem_map, not_exists, not_and]
    exact fun s' h => ho s' h
  rw [← C92_oauth2 s hs kw hk]
  simp only [oidcFactory, hk, Bool.false_eq_true, if_false, searchMembers_eq, find_none this, Option.map_none,
    Option.getD_none]

/-- A name without class gives `None`, whatever the arguments. -/
theorem C92_unknown (name : String) (h1 : ∀ s ∈ oauth2Members, s.cls.name ≠ name) (h2 : ∀ s ∈ oidcMembers, s.cls.name ≠ name)
    (kw : Dict) (hk : dhas kw "msgtype" = false) :
    oidcFactory name kw = .ok .none ∧ oauth2Factory name kw = .ok .none := by
  have e1 : name ∉ oauth2Members.map (fun s => s.cls.name) := by
    simp only [List.mem_map, not_exists, not_and]; exact fun s h => h1 s h
  have e2 : name ∉ oidcMembers.map (fun s => s.cls.name) := by
    simp only [List.mem_map, not_exists, not_and]; exact fun s h => h2 s h
  simp [oidcFactory, oauth2Factory, hk, searchMembers_eq, find_none e1, find_none e2]

/-- C92: whatever a factory returns is an instance of the class named by the first argument, or `None` when neither module
has such a class. -/
theorem C92_class (name : String) (kw : Dict) (v : Val) (h : oidcFactory name kw = .ok v) :
    (∃ c st, v = .msg c st ∧ c.name = name ∧ ∃ s ∈ oidcMembers ++ oauth2Members, s.cls = c) ∨
      (v = .none ∧ ∀ s ∈ oidcMembers ++ oauth2Members, s.cls.name ≠ name) := by
  have hk : dhas kw "msgtype" = false := by
    cases hk : dhas kw "msgtype" with
    | false => rfl
    | true => simp [oidcFactory, hk] at h
  have key : ∀ l : List Schema, ∀ s, l.find? (fun s => decide (s.cls.name = name)) = some s → s ∈ l ∧ s.cls.name = name :=
    fun l s hf => ⟨List.mem_of_find?_eq_some hf, by simpa using List.find?_some hf⟩
  have inst : ∀ s, s.cls.name = name → s ∈ oidcMembers ++ oauth2Members → ctor s kw = .ok v →
      ∃ c st, v = .msg c st ∧ c.name = name ∧ ∃ s ∈ oidcMembers ++ oauth2Members, s.cls = c := by
    intro s e hm hc
    unfold ctor at hc
    cases hd : construct s kw with
    | error e => rw [hd] at hc; cases hc
    | ok st => rw [hd] at hc; cases hc; exact ⟨_, st, rfl, e, s, hm, rfl⟩
  simp only [oidcFactory, hk, Bool.false_eq_true, if_false, searchMembers_eq, oauth2Factory] at h
  cases h1 : oidcMembers.find? (fun s => decide (s.cls.name = name)) with
  | some s =>
    rw [h1] at h
    obtain ⟨a, b⟩ := key _ _ h1
    exact .inl (inst s b (List.mem_append_left _ a) h)
  | none =>
    rw [h1] at h
    cases h2 : oauth2Members.find? (fun s => decide (s.cls.name = name)) with
    | some s =>
      rw [h2] at h
      obtain ⟨a, b⟩ := key _ _ h2
      exact .inl (inst s b (List.mem_append_right _ a) h)
    | none =>
      rw [h2] at h
      cases h
      refine .inr ⟨rfl, fun s hs e => ?_⟩
      rw [List.find?_eq_none] at h1 h2
      rcases List.mem_append.1 hs with hs | hs
      · exact h1 s hs (by simpa using e)
      · exact h2 s hs (by simpa using e)

example : oidcFactory "AccessTokenRequest" [("code", .str "x"), ("redirect_uri", .str "y")] =
    ctor oidc_AccessTokenRequest [("code", .str "x"), ("redirect_uri", .str "y")] :=
  C92_oidc oidc_AccessTokenRequest (by simp [oidcMembers]) _ (by decide)

example : oidcFactory "TokenExchangeRequest" [("grant_type", .str "g")] = ctor oauth2_TokenExchangeRequest [("grant_type", .str "g")] :=
  C92_fallback oauth2_TokenExchangeRequest (by simp [oauth2Members]) (by decide +kernel) _ (by decide)

/-- Classes of the other modules of the library cannot be made. -/
theorem C92_other_modules : oidcFactory "LogoutToken" [] = .ok .none ∧ oidcFactory "EndSessionRequest" [] = .ok .none ∧
    oidcFactory "VerifiedClaims" [] = .ok .none := by
  refine ⟨(C92_unknown _ ?_ ?_ _ rfl).1, (C92_unknown _ ?_ ?_ _ rfl).1, (C92_unknown _ ?_ ?_ _ rfl).1⟩ <;> decide +kernel

end Verif
