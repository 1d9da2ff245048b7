import Verif.Props.Encoding
import Verif.Props.Nested
import Verif.Props.FormIn

/-!
# C109: what `required_parameters()` names
-/

namespace Verif

theorem mem_required (sch : Schema) (p : String) :
    p ∈ requiredParameters sch ↔ ∃ sp, (p, sp) ∈ sch.params ∧ sp.required = true := by
  simp only [requiredParameters, List.mem_map, List.mem_filter]
  constructor
  · rintro ⟨⟨k, sp⟩, ⟨h1, h2⟩, rfl⟩
    exact ⟨sp, h1, h2⟩
  · rintro ⟨sp, h1, h2⟩
    exact ⟨(p, sp), ⟨h1, h2⟩, rfl⟩

/-- C109: without one of the named parameters, or with one of them false (`None`, `""`, `[]`, `0`), `verify()` raises. -/
theorem C109_verify_needs (sch : Schema) (st : Dict) (p : String) (hp : p ∈ requiredParameters sch) (hs : p ≠ "*")
    (hm : dget st p = none) : ∃ e, verifyBase sch st = .error e := by
  obtain ⟨sp, h1, h2⟩ := (mem_required sch p).1 hp
  cases h : verifyBase sch st with
  | error e => exact ⟨e, rfl⟩
  | ok u =>
    cases u
    have hq := (verifyParams_iff sch.allowed st sch.params).1 h p sp h1
    have hv := (verifyParam_iff sch.allowed st p sp).2 hq
    simp [verifyParam, hs, hm, h2] at hv

theorem verifyParam_missing {allowed : Assoc (List Val)} {st : Dict} {p : String} {sp : Spec}
    (h : verifyParam allowed st p sp = .error .missingRequiredAttribute) :
    sp.required = true ∧ ∀ v, dget st p = some v → v.truthy = false := by
  unfold verifyParam at h
  split at h
  · cases h
  · split at h
    · split at h
      · rename_i hn hr; exact ⟨hr, fun v hv => by rw [hn] at hv; cases hv⟩
      · cases h
    · rename_i v hv
      split at h
      · split at h
        · rename_i ht hr
          refine ⟨hr, fun w hw => ?_⟩
          rw [hv] at hw; cases hw
          simp only [Bool.and_eq_true, Bool.not_eq_true'] at ht
          exact ht.2
        · cases h
      · split at h
        · cases h
        · split at h <;> cases h

theorem verifyParams_missing {allowed : Assoc (List Val)} {st : Dict} : ∀ {ps : List (String × Spec)},
    verifyParams allowed st ps = .error .missingRequiredAttribute →
    ∃ p sp, (p, sp) ∈ ps ∧ sp.required = true ∧ ∀ v, dget st p = some v → v.truthy = false
  | [], h => by simp [verifyParams] at h
  | (a, sp) :: ps, h => by
    simp only [verifyParams] at h
    split at h
    · rename_i e he
      cases h
      exact ⟨a, sp, List.mem_cons_self .., verifyParam_missing he⟩
    · obtain ⟨p, sp', hm, hr⟩ := verifyParams_missing h
      exact ⟨p, sp', List.mem_cons_of_mem _ hm, hr⟩

/-- C109: `verify()` complains about a missing parameter only when one of the named parameters is absent or false. -/
theorem C109_verify_complains (sch : Schema) (st : Dict)
    (h : verifyBase sch st = .error .missingRequiredAttribute) :
    ∃ p ∈ requiredParameters sch, ∀ v, dget st p = some v → v.truthy = false := by
  obtain ⟨p, sp, hm, hr, hv⟩ := verifyParams_missing h
  exact ⟨p, (mem_required sch p).2 ⟨sp, hm, hr⟩, hv⟩

/-- C109: the same names decide whether `to_urlencoded()` complains (unless a message in a list inside is incomplete). -/
theorem C109_form_complains (env : SerEnv) (sch : Schema) (st : Dict) (hl : ¬ ListedLacks env st) :
    toUrlencoded env sch st = .error .missingRequiredAttribute ↔
      (∃ p ∈ requiredParameters sch, dget st p = none) ∧ ∃ d, toDict env sch.cls st = .ok d := by
  rw [C11_to_urlencoded_missing env sch st hl]
  refine and_congr_left fun _ => ?_
  simp only [RequiredMissing, dget_eq_none_iff]
  constructor
  · rintro ⟨p, sp, hm, hr, hk⟩
    exact ⟨p, (mem_required sch p).2 ⟨sp, hm, hr⟩, hk⟩
  · rintro ⟨p, hp, hk⟩
    obtain ⟨sp, hm, hr⟩ := (mem_required sch p).1 hp
    exact ⟨p, sp, hm, hr, hk⟩

/-- C109: a message without one of these names is never written. -/
theorem C109_form_refused (env : SerEnv) (sch : Schema) (st : Dict) {p : String} (hp : p ∈ requiredParameters sch)
    (hn : dget st p = none) : ∃ e, toUrlencoded env sch st = .error e := by
  obtain ⟨sp, hm, hr⟩ := (mem_required sch p).1 hp
  exact (C11_refused env sch st ⟨p, sp, hm, hr, (dget_eq_none_iff st p).1 hn⟩).1

/-- **C11** as stated is false: the exception may be another one.  An authorization request without `client_id` that holds a
list of a message and something else under an undeclared name. -/
theorem C11_other_exception : ∃ st, RequiredMissing oauth2_AuthorizationRequest st ∧
    toUrlencoded libEnv oauth2_AuthorizationRequest st = .error .attributeError :=
  ⟨[("response_type", .list [.str "code"]), ("x", .list [.msg messageSchema.cls [], .int 5])],
    (anyMissing_iff _ _).1 (by decide +kernel), by decide +kernel⟩

/-- **C11** as stated is false in the other direction as well: the exception is raised though no required parameter of the
message is absent.  A resource descriptor with a link without `rel`. -/
theorem C11_counterexample_listed : ∃ st, ¬ RequiredMissing oidc_JRD st ∧
    toUrlencoded libEnv oidc_JRD st = .error .missingRequiredAttribute ∧
    ∀ loc frag, request libEnv oidc_JRD st loc frag = .error .missingRequiredAttribute := by
  have h : toUrlencoded libEnv oidc_JRD [("links", .list [.msg linkCls [("href", .str "https://op")]])] =
      .error .missingRequiredAttribute := by decide +kernel
  refine ⟨[("links", .list [.msg linkCls [("href", .str "https://op")]])], ?_, h, fun loc frag => ?_⟩
  · rw [← anyMissing_iff]
    decide +kernel
  · unfold request
    rw [h]
    rfl

/-! ### No name could be left out -/

/-- a value for a required parameter: the first allowed one, or something of the type -/
def someValue (sch : Schema) (p : String) (sp : Spec) : Val :=
  match dget sch.allowed p with
  | some (v :: _) => (match sp.vtyp with | .list _ => .list [v] | .single _ => v)
  | _ =>
    match sp.vtyp with
    | .single .str => .str "x"
    | .single .int => .int 1
    | .single .bool => .bool true
    | .single .dict => .dict [("x", .str "x")]
    | .single (.msg c _ _) => .msg c [("x", .str "x")]
    | .list .dict => .list [.dict [("x", .str "x")]]
    | .list (.msg c _ _) => .list [.msg c [("x", .str "x")]]
    | .list _ => .list [.str "x"]

/-- a message with the named parameters and nothing else -/
def onlyRequired (sch : Schema) : Dict :=
  (sch.params.filter (fun p => p.2.required)).map (fun p => (p.1, someValue sch p.1 p.2))

/-- C109: for every class of the library the named parameters suffice: a message with these and no others passes the
verification that all classes have in common.  So no declared parameter outside the list is insisted on. -/
theorem C109_suffice : ∀ sch ∈ allSchemas, dkeys (onlyRequired sch) = requiredParameters sch ∧
    verifyBase sch (onlyRequired sch) = .ok () := by
  decide +kernel

/-! ### What is written -/

theorem urlPairs_key {env : SerEnv} {pos : Bool} {ps : Assoc Spec} {k : String} {v : Val} {l : List (String × String)}
    (h : urlPairs env pos ps k v = .ok l) (h1 : v ≠ .none) (h2 : v ≠ .list []) : ∃ t, (k, t) ∈ l := by
  have hm : ∀ {r : Res String}, (r.map (fun t => [(k, t)])) = .ok l → ∃ t, (k, t) ∈ l := by
    intro r hr
    cases r with
    | error e => cases hr
    | ok t => cases hr; exact ⟨t, List.mem_cons_self ..⟩
  cases v with
  | none => exact absurd rfl h1
  | str s => simp only [urlPairs] at h; cases h; exact ⟨s, List.mem_cons_self ..⟩
  | list vs =>
    simp only [urlPairs] at h
    split at h
    · cases vs with
      | nil => exact absurd rfl h2
      | cons v vs =>
        simp only [pyStrEach, bind, Except.bind] at h
        split at h
        · cases h
        · rename_i t _
          split at h
          · cases h
          · cases h; exact ⟨t, List.mem_cons_self ..⟩
    · obtain ⟨r, _, h⟩ := res_bind_ok h
      obtain ⟨t, _, h⟩ := res_bind_ok h
      cases h; exact ⟨t, List.mem_cons_self ..⟩
    · obtain ⟨r, _, h⟩ := res_bind_ok h
      obtain ⟨t, _, h⟩ := res_bind_ok h
      cases h; exact ⟨t, List.mem_cons_self ..⟩
    · exact hm h
    · exact hm h
  | msg c d => rw [urlPairs] at h; exact hm h
  | bool b => rw [urlPairs.eq_def] at h; exact hm h
  | int b => rw [urlPairs.eq_def] at h; exact hm h
  | flt b => rw [urlPairs.eq_def] at h; exact hm h
  | dict b => rw [urlPairs.eq_def] at h; exact hm h

theorem urlPairsAll_key {env : SerEnv} {pos : Bool} {ps : Assoc Spec} {k : String} {v : Val} : ∀ {st : Dict} {l : List (String × String)},
    urlPairsAll env pos ps st = .ok l → (k, v) ∈ st → v ≠ .none → v ≠ .list [] → ∃ t, (k, t) ∈ l
  | [], _, _, hm, _, _ => by cases hm
  | (k', v') :: st, l, h, hm, h1, h2 => by
    rw [urlPairsAll] at h
    obtain ⟨a, ha, h⟩ := res_bind_ok h
    obtain ⟨b, hb, h⟩ := res_bind_ok h
    cases h
    rcases List.mem_cons.1 hm with e | hm
    · cases e
      obtain ⟨t, ht⟩ := urlPairs_key ha h1 h2
      exact ⟨t, List.mem_append_left _ ht⟩
    · obtain ⟨t, ht⟩ := urlPairsAll_key hb hm h1 h2
      exact ⟨t, List.mem_append_right _ ht⟩

/-- C109: what `to_urlencoded()` writes is an encoded list of pairs that has every named parameter, except those that
are null or an empty list. -/
theorem C109_form_carries_partial (env : SerEnv) (sch : Schema) (st : Dict) (txt : String)
    (h : toUrlencoded env sch st = .ok txt) :
    ∃ l, txt = urlencode l ∧ ∀ p ∈ requiredParameters sch, dget st p ≠ some .none → dget st p ≠ some (.list []) →
      ∃ t, (p, t) ∈ l := by
  have hc : ∀ p ∈ requiredParameters sch, dget st p ≠ none := fun p hp hn => by
    obtain ⟨e, he⟩ := C109_form_refused env sch st hp hn
    cases he.symm.trans h
  unfold toUrlencoded urlFinish at h
  split at h
  · unfold raiseMissing at h
    split at h <;> cases h
  · cases hl : urlPairsAll env false sch.params st with
    | error e => rw [hl] at h; cases h
    | ok l =>
    rw [hl] at h
    cases h
    refine ⟨l, rfl, fun p hp h1 h2 => ?_⟩
    cases hv : dget st p with
    | none => exact absurd hv (hc p hp)
    | some v =>
      rw [hv] at h1 h2
      exact urlPairsAll_key hl (dget_mem hv) (fun e => h1 (by rw [e])) (fun e => h2 (by rw [e]))

/-- C109 is false for null: an access token request with the code `None` is written without one. -/
theorem C109_counterexample_null :
    ∃ d st, construct oauth2_AccessTokenRequest d = .ok st ∧ "code" ∈ requiredParameters oauth2_AccessTokenRequest ∧
      toUrlencoded libEnv oauth2_AccessTokenRequest st =
        .ok "grant_type=authorization_code&redirect_uri=https%3A%2F%2Frp" :=
  ⟨[("code", .none), ("redirect_uri", .str "https://rp")],
    [("grant_type", .str "authorization_code"), ("code", .none), ("redirect_uri", .str "https://rp")], by decide +kernel, by decide +kernel, by decide +kernel⟩

example : requiredParameters oauth2_AccessTokenRequest = ["grant_type", "code", "redirect_uri"] := by decide +kernel
example : verifyBase oauth2_AccessTokenRequest [("code", .str "c")] = .error .missingRequiredAttribute := by
  decide +kernel
example : toUrlencoded libEnv oauth2_AccessTokenRequest [("code", .str "c")] = .error .missingRequiredAttribute := by
  decide +kernel

/-- the ready-made specifications for classes of an application, by name, message.py:965-1019 and oidc/__init__.py:92 -/
def readyMade : List (String × Spec) :=
  [("SINGLE_REQUIRED_STRING", singleRequiredString), ("SINGLE_OPTIONAL_STRING", singleOptionalString),
   ("SINGLE_OPTIONAL_INT", singleOptionalInt), ("SINGLE_REQUIRED_INT", singleRequiredInt),
   ("SINGLE_REQUIRED_BOOLEAN", singleRequiredBoolean), ("SINGLE_OPTIONAL_BOOLEAN", singleOptionalBoolean),
   ("OPTIONAL_LIST_OF_STRINGS", optionalListOfStrings), ("REQUIRED_LIST_OF_STRINGS", requiredListOfStrings),
   ("OPTIONAL_LIST_OF_SP_SEP_STRINGS", optionalListOfSpSepStrings), ("REQUIRED_LIST_OF_SP_SEP_STRINGS", requiredListOfSpSepStrings),
   ("SINGLE_OPTIONAL_JSON", singleOptionalJson), ("SINGLE_REQUIRED_JSON", singleRequiredJson),
   ("OPTIONAL_MESSAGE", optionalMessage), ("REQUIRED_MESSAGE", requiredMessage),
   ("OPTIONAL_LIST_OF_MESSAGES", optionalListOfMessages), ("REQUIRED_LIST_OF_DICTS", requiredListOfDicts),
   ("OPTIONAL_LIST_OF_DICTS", optionalListOfDicts)]

/-- the name of a specification speaks of a required parameter -/
def saysRequired (n : String) : Bool := startsWithC "SINGLE_REQUIRED".toList n.toList || startsWithC "REQUIRED".toList n.toList

theorem readyMade_required : readyMade.all (fun p => p.2.required == saysRequired p.1) = true := by decide +kernel

/-- **C109** for classes of an application: a parameter declared with a ready-made specification is insisted on, by `verify` and
`to_urlencoded`, exactly when the name of the specification says so: a message without it is refused, or judged as by the class
without the parameter. -/
theorem C109_ready_made {n : String} {sp : Spec} (hn : (n, sp) ∈ readyMade) (env : SerEnv) (sch : Schema) (k : String)
    (hk : k ≠ "*") (st : Dict) (h : dget st k = none) :
    (saysRequired n = true → (k, sp) ∈ sch.params → verifyBase sch st ≠ .ok () ∧ ∀ txt, toUrlencoded env sch st ≠ .ok txt) ∧
    (saysRequired n = false → verifyBase { sch with params := (k, sp) :: sch.params } st = verifyBase sch st) := by
  have hr : sp.required = saysRequired n := by
    simpa using List.all_eq_true.1 readyMade_required _ hn
  refine ⟨fun hs hm => ?_, fun hs => ?_⟩
  · rw [hs] at hr
    have hmiss : RequiredMissing sch st := ⟨k, sp, hm, hr, (dget_eq_none_iff st k).1 h⟩
    refine ⟨fun hv => ?_, fun txt ht => ?_⟩
    · obtain ⟨v, hv, -⟩ := ((C04_verify_iff sch st).1 hv k sp hm hk).1 hr
      rw [h] at hv; cases hv
    · simp only [toUrlencoded, urlFinish, (anyMissing_iff sch st).2 hmiss, if_true] at ht
      unfold raiseMissing at ht
      split at ht <;> cases ht
  · rw [hs] at hr
    have : verifyParam sch.allowed st k sp = .ok () := by
      rw [verifyParam_iff]
      intro _
      refine ⟨fun h' => ?_, fun v av hv => ?_⟩
      · rw [hr] at h'; cases h'
      · rw [h] at hv; cases hv
    simp [verifyBase, verifyParams, this]

example : readyMade.length = 17 ∧ saysRequired "REQUIRED_LIST_OF_DICTS" = true ∧
    saysRequired "OPTIONAL_MESSAGE" = false := by decide +kernel

end Verif
