import Verif.Props.RoundTrip
import Verif.Model.Schemas

/-!
# C89: messages inside messages survive JSON
-/

namespace Verif

/-- The deserialiser turns an object into a message of the class `sub`. -/
def Reads (f : Val → Fmt → Res Val) (sub : Schema) : Prop :=
  ∀ d r, (Val.dict d).isJson = true → fromDictR sub sub.default d = .ok r → f (.dict d) .dict = .ok (.msg sub.cls r)

/-- The deserialiser turns a list of objects into a list of messages of the class `sub`. -/
def ReadsList (f : Val → Fmt → Res Val) (sub : Schema) : Prop :=
  ∀ ds rs : List Dict, (∀ d ∈ ds, (Val.dict d).isJson = true) →
    ds.map (fromDictR sub sub.default) = rs.map .ok →
    f (.list (ds.map .dict)) .dict = .ok (.list (rs.map (.msg sub.cls)))

/-- The values that are expected to survive: the plain ones of C07, and messages, alone or in lists, in parameters
declared for them, with values that survive inside.  The flag says that the value is also taken as it is, which matters
inside lists of messages, whose members are built a second time from their entries. -/
inductive Faithful (env : SerEnv) : Bool → Schema → String → Val → Prop
  | plain {s sch k v} : JsonFaithful sch k v → Faithful env s sch k v
  | msg {s sch k b sp c isSub build f sub st} : lookupSpec sch.params k = some (b, sp) →
      sp.vtyp = .single (.msg c isSub build) → sp.ser ∈ [some .msg, some .msgJson, some .claims] →
      sp.deser = some f → Reads f sub → isSub sub.cls = true → sub.default = [] →
      (∀ k, env sub.cls k = serFor sub.params k) → DNodup st → (∀ k v, (k, v) ∈ st → Faithful env false sub k v) →
      Faithful env s sch k (.msg sub.cls st)
  | msgs {s sch k b sp isSub f sub sts} : lookupSpec sch.params k = some (b, sp) →
      sp.vtyp = .list (.msg sub.cls isSub (ctor sub)) →
      (sp.ser = some .msgList ∨ sp.ser = some .linkList ∧ sub.cls = ⟨"oidc", "Link"⟩) →
      sp.deser = some f → ReadsList f sub →
      (s = true → ∀ sts : List Dict, f (.list (sts.map (.msg sub.cls))) .dict = .ok (.list (sts.map (.msg sub.cls)))) →
      sub.default = [] → (∀ k, env sub.cls k = serFor sub.params k) → sts ≠ [] →
      (∀ st ∈ sts, DNodup st ∧ dhas st "self" = false ∧ dhas st "set_defaults" = false) →
      (∀ st ∈ sts, ∀ k v, (k, v) ∈ st → Faithful env true sub k v) →
      Faithful env s sch k (.list (sts.map (.msg sub.cls)))

/-- what is proved of every value: its JSON form is read as the value, and so is the value itself -/
def EntryOk (env : SerEnv) (sch : Schema) (k : String) (v : Val) : Prop :=
  (∃ v', serDict env (serFor sch.params k) v = .ok v' ∧ v'.isJson = true ∧ ∀ st, addItem sch st k v' = .ok (dset st k v)) 

/-- The value itself is accepted as it is (a message built from the entries of a message). -/
def Stable (sch : Schema) (k : String) (v : Val) : Prop := ∀ st, addItem sch st k v = .ok (dset st k v)

theorem stable_plain {sch : Schema} {k : String} {v : Val} (h : JsonFaithful sch k v) : Stable sch k v := by
  intro st
  cases h with
  | undeclared hl hj h1 h2 =>
    obtain ⟨v', e1, _, e3⟩ := entry_roundtrip ⟨fun _ => []⟩ sch k v (.undeclared hl hj h1 h2)
    simp only [serFor, hl, Option.bind, serDict_none_json _ _ hj, Except.ok.injEq] at e1
    subst e1
    exact e3 st
  | @null b sp t hl ht hs =>
    cases b <;> simp [addItem, isBlank, hl, addValue, ignoredList, ht, singleValue, Val.isNone]
  | @str b sp s hl ht hs hne =>
    simp [addItem, isBlank, hne, hl, addValue, ignoredList, ht, singleValue, Val.isNone, Ty.isInst]
  | @int b sp i hl ht hs =>
    simp [addItem, isBlank, hl, addValue, ignoredList, ht, singleValue, Val.isNone, Ty.isInst]
  | @bool b sp x hl ht hs =>
    simp [addItem, isBlank, hl, addValue, ignoredList, ht, singleValue, Val.isNone]
  | @strList b sp ss hl ht hs hd hne hne' =>
    obtain ⟨v', e1, _, e3⟩ := entry_roundtrip ⟨fun _ => []⟩ sch k _ (.strList hl ht hs hd hne hne')
    obtain ⟨s, t, rfl⟩ := List.exists_cons_of_ne_nil hne
    simp only [serFor, hl, Option.bind, hs, serDict, List.map_cons, Except.ok.injEq] at e1
    subst e1
    exact e3 st
  | @spSep b sp ss hl ht hs hd hne hne' hsp =>
    obtain ⟨s, t, rfl⟩ := List.exists_cons_of_ne_nil hne
    have hb := isBlank_list_strs hne'
    simp only [addItem, hb, hl, Val.isNone, Bool.and_false, addValue]
    have hd' : spSepDeser (.list ((s :: t).map .str)) .dict = .ok (.list ((s :: t).map .str)) := by
      cases t with
      | nil =>
        have : pySplit ' ' s = [s] := by
          have := pySplit_pyJoin (c := ' ') (ps := [s]) (by simp) (by simpa using hsp)
          rwa [show pyJoin ' ' [s] = s by simp [pyJoin, joinC]] at this
        simp [spSepDeser, splitItem, this]
      | cons _ _ => rfl
    have hall : (List.all ((s :: t).map Val.str) fun v => Ty.isInst .str v) = true := by
      simp [Ty.isInst]
    simp only [List.map_cons] at hall hd' ⊢
    simp [ignoredList, ht, addToList, Val.isNone, Ty.isInst, addListOfList, deserList, hd, hd',
      orDecodeError, bind, Except.bind, checkItems, Val.iter]
  | @json b sp d hl ht hs hd hj =>
    simp [addItem, isBlank, hl, addValue, ignoredList, ht, singleValue, Val.isNone, Ty.isInst]
  | @dict b sp d hl ht hs hj =>
    simp [addItem, isBlank, hl, addValue, ignoredList, ht, singleValue, Val.isNone, Ty.isInst]

theorem dict_roundtrip {env : SerEnv} {sch : Schema} (henv : ∀ k, env sch.cls k = serFor sch.params k) :
    ∀ {st : Dict}, (∀ k v, (k, v) ∈ st → EntryOk env sch k v) →
    ∃ d, toDict env sch.cls st = .ok d ∧ Val.isJsonDict d = true ∧ dkeys d = dkeys st ∧
      ∀ st0, fromDictR sch st0 d = .ok (dupdate st0 st) 
  | [], _ => ⟨[], by simp [toDict], rfl, rfl, fun st0 => rfl⟩
  | (k, v) :: r, h => by
    obtain ⟨v', h1, h2, h3⟩ := h k v (by simp)
    obtain ⟨d, h4, h5, h6, h7⟩ := dict_roundtrip henv (st := r) (fun k v hm => h k v (by simp [hm]))
    refine ⟨(k, v') :: d, ?_, ?_, ?_, fun st0 => ?_⟩
    · simp [toDict, henv, h1, h4, bind, Except.bind]
    · simp [Val.isJsonDict, h2, h5]
    · simp [h6]
    · have := h7 (dset st0 k v)
      simp only [fromDictR, fromDict, h3, dupdate_cons] at this ⊢
      exact this

theorem dict_stable {sch : Schema} : ∀ {st : Dict}, (∀ k v, (k, v) ∈ st → Stable sch k v) → ∀ st0,
    fromDictR sch st0 st = .ok (dupdate st0 st)
  | [], _, _ => rfl
  | (k, v) :: r, h, st0 => by
    have := dict_stable (st := r) (fun k v hm => h k v (by simp [hm])) (dset st0 k v)
    simp only [fromDictR, fromDict, h k v (by simp) st0, dupdate_cons] at this ⊢
    exact this

/-- one message: its JSON form, and what is read from it -/
theorem inner_roundtrip {env : SerEnv} {sub : Schema} (henv : ∀ k, env sub.cls k = serFor sub.params k)
    (hd : sub.default = []) {st : Dict} (hn : DNodup st) (h : ∀ k v, (k, v) ∈ st → EntryOk env sub k v) :
    ∃ d, toDict env sub.cls st = .ok d ∧ (Val.dict d).isJson = true ∧ fromDictR sub sub.default d = .ok st := by
  obtain ⟨d, h1, h2, h3, h4⟩ := dict_roundtrip henv h
  refine ⟨d, h1, ?_, ?_⟩
  · have : (dkeys d).Nodup := by rw [h3]; exact hn
    simp [Val.isJson, h2, this]
  · rw [hd, h4, dupdate_nil_left hn]

theorem inner_list {env : SerEnv} {sub : Schema} (henv : ∀ k, env sub.cls k = serFor sub.params k)
    (hd : sub.default = []) : ∀ {sts : List Dict}, (∀ st ∈ sts, DNodup st) →
    (∀ st ∈ sts, ∀ k v, (k, v) ∈ st → EntryOk env sub k v) →
    ∃ ds : List Dict, msgSerEach env (sts.map (.msg sub.cls)) = .ok (ds.map .dict) ∧
      (sub.cls = ⟨"oidc", "Link"⟩ → linkSerEach env (sts.map (.msg sub.cls)) = .ok (ds.map .dict)) ∧
      (∀ d ∈ ds, (Val.dict d).isJson = true) ∧ ds.map (fromDictR sub sub.default) = sts.map .ok
  | [], _, _ => ⟨[], by simp [msgSerEach], fun _ => by simp [linkSerEach], by simp, rfl⟩
  | st :: rest, hn, h => by
    obtain ⟨d, h1, h2, h3⟩ := inner_roundtrip henv hd (hn st (by simp)) (h st (by simp))
    obtain ⟨ds, e1, e2, e3, e4⟩ := inner_list henv hd (sts := rest) (fun s hs => hn s (by simp [hs]))
      (fun s hs => h s (by simp [hs]))
    refine ⟨d :: ds, ?_, fun hc => ?_, ?_, ?_⟩
    · simp [msgSerEach, h1, e1, bind, Except.bind]
    · have := e2 hc
      simp only [List.map_cons, linkSerEach, h1, this, bind, Except.bind]
      rw [if_pos (show sub.cls = linkCls from hc)]
    · intro x hx
      rcases List.mem_cons.1 hx with rfl | hx
      · exact h2
      · exact e3 x hx
    · simp [h3, e4]

theorem ddel_fresh {d : Dict} {k : String} (h : dget d k = none) : ddel d k = d := by
  induction d with
  | nil => rfl
  | cons p r ih =>
    obtain ⟨k', v⟩ := p
    rw [dget_cons] at h
    split at h
    · cases h
    · next hne => rw [ddel, List.filter_cons, if_pos (by simpa using hne)]; rw [← ddel, ih h]

theorem build_stable {sub : Schema} (hd : sub.default = []) : ∀ {sts : List Dict},
    (∀ st ∈ sts, DNodup st ∧ dhas st "self" = false ∧ dhas st "set_defaults" = false) →
    (∀ st ∈ sts, ∀ k v, (k, v) ∈ st → Stable sub k v) →
    buildEach (ctor sub) (sts.map (.msg sub.cls)) = .ok (sts.map (.msg sub.cls))
  | [], _, _ => rfl
  | st :: rest, hn, h => by
    obtain ⟨n1, n2, n3⟩ := hn st (by simp)
    have ih := build_stable hd (sts := rest) (fun s hs => hn s (by simp [hs])) (fun s hs => h s (by simp [hs]))
    have hdel : ddel st "set_defaults" = st := by
      rw [dhas_eq_false_iff] at n3
      exact ddel_fresh n3
    have hi : initialDict sub st = [] := by
      rw [dhas_eq_false_iff] at n3
      simp [initialDict, n3, hd]
    have : construct sub st = .ok st := by
      rw [construct, n2, hdel, hi, dict_stable (h st (by simp)), dupdate_nil_left n1]
      rfl
    simp [buildEach, Val.itemsOf, ctor, this, ih, bind, Except.bind, Except.map]

theorem isJsonList_dicts : ∀ {ds : List Dict}, (∀ d ∈ ds, (Val.dict d).isJson = true) →
    Val.isJsonList (ds.map .dict) = true
  | [], _ => rfl
  | d :: ds, h => by
    simp only [List.map_cons, Val.isJsonList, h d (by simp), Bool.true_and]
    exact isJsonList_dicts (fun x hx => h x (by simp [hx]))

theorem faithful_ok {env : SerEnv} {s : Bool} {sch : Schema} {k : String} {v : Val} (h : Faithful env s sch k v) :
    EntryOk env sch k v ∧ (s = true → Stable sch k v) := by
  induction h with
  | plain h => exact ⟨entry_roundtrip env _ _ _ h, fun _ => stable_plain h⟩
  | @msg s sch k b sp c isSub build f sub st hl ht hs hf hr hi hd he hn _ ih =>
    obtain ⟨d, h1, h2, h3⟩ := inner_roundtrip he hd hn (fun k v hm => (ih k v hm).1)
    refine ⟨⟨.dict d, ?_, h2, fun st0 => ?_⟩, fun hst st0 => ?_⟩
    · have : serFor sch.params k = sp.ser := by simp [serFor, hl]
      rw [this]
      simp only [List.mem_cons, List.not_mem_nil, or_false] at hs
      rcases hs with e | e | e <;> rw [e] <;> simp [serDict, h1, Except.map]
    · simp [addItem, isBlank, hl, addValue, ignoredList, ht, singleValue, Val.isNone, Ty.isInst, hf, hr d st h2 h3,
        orDecodeError]
    · simp [addItem, isBlank, hl, addValue, ignoredList, ht, singleValue, Val.isNone, Ty.isInst, hi]
  | @msgs s sch k b sp isSub f sub sts hl ht hs hf hr hr' hd he hne hn _ ih =>
    obtain ⟨ds, e1, e2, e3, e4⟩ := inner_list he hd (fun s hs => (hn s hs).1) (fun s hs k v hm => (ih s hs k v hm).1)
    have hb := build_stable hd hn (fun s hs k v hm => (ih s hs k v hm).2 rfl)
    have hread := hr ds sts e3 e4
    obtain ⟨s0, rest, rfl⟩ := List.exists_cons_of_ne_nil hne
    obtain ⟨d0, drest, rfl⟩ : ∃ d0 drest, ds = d0 :: drest := by
      cases ds with
      | nil => simp at e4
      | cons d0 drest => exact ⟨d0, drest, rfl⟩
    refine ⟨⟨.list ((d0 :: drest).map .dict), ?_, isJsonList_dicts e3, fun st0 => ?_⟩, fun hst st0 => ?_⟩
    · have : serFor sch.params k = sp.ser := by simp [serFor, hl]
      rw [this]
      rcases hs with e | ⟨e, hc⟩ <;> rw [e]
      · simp only [List.map_cons] at e1 ⊢
        simp only [serDict, e1, Except.map]
      · have e2 := e2 hc
        simp only [List.map_cons] at e2 ⊢
        simp only [serDict, e2, Except.map]
    · simp only [List.map_cons] at hread hb ⊢
      simp [addItem, isBlank, hl, addValue, ignoredList, ht, addToList, Val.isNone, Ty.isInst, addListOfList, deserList,
        hf, hread, checkItems, Val.iter, hb, orDecodeError, bind, Except.bind]
    · have hread' := hr' hst (s0 :: rest)
      simp only [List.map_cons] at hread' hb ⊢
      simp [addItem, isBlank, hl, addValue, ignoredList, ht, addToList, Val.isNone, Ty.isInst, addListOfList, deserList,
        hf, hread', checkItems, Val.iter, hb, orDecodeError, bind, Except.bind]

/-- C89: a message whose values survive, messages inside messages at any depth included, comes back from its JSON text;
every message inside with its own class. -/
theorem C89_partial (env : SerEnv) (sch : Schema) (henv : ∀ k, env sch.cls k = serFor sch.params k) (st : Dict)
    (hn : DNodup st) (h : ∀ k v, (k, v) ∈ st → Faithful env false sch k v) :
    ∃ txt, toJson env sch.cls st = .ok txt ∧ fromJson sch [] txt = .ok st ∧
      ∀ st0, ∃ r, fromJson sch st0 txt = .ok r ∧ ∀ k, dget r k = (dget st k).or (dget st0 k) := by
  obtain ⟨d, h1, h2, h3, h4⟩ := dict_roundtrip henv (fun k v hm => (faithful_ok (h k v hm)).1)
  have hj : (Val.dict d).isJson = true := by
    have : (dkeys d).Nodup := by rw [h3]; exact hn
    simp [Val.isJson, h2, this]
  obtain ⟨txt, h5, h6⟩ := loads_dumps _ hj
  have hf : ∀ st0, fromJson sch st0 txt = .ok (dupdate st0 st) := by
    intro st0
    simp [fromJson, h6, Val.itemsOf, bind, Except.bind, h4]
  refine ⟨txt, by simp [toJson, h1, h5, bind, Except.bind], ?_, fun st0 => ⟨_, hf st0, fun k => ?_⟩⟩
  · rw [hf, dupdate_nil_left hn]
  · exact dget_dupdate st0 hn k

/-! ## the deserialisers of the library read -/

theorem reads_json {sub : Schema} {d r : Dict} {t : String} (h : fromDictR sub sub.default d = .ok r)
    (ht : loads t = .ok (.dict d)) : deserializeMsg sub (.str t) .json = .ok (.msg sub.cls r) := by
  simp [deserializeMsg, deserialize, loadsVal, ht, Val.itemsOf, h, bind, Except.bind, Except.map]

theorem reads_oneOf (sub : Schema) : Reads (deserializeFromOneOf sub) sub := by
  intro d r hj h
  obtain ⟨t, h1, h2⟩ := loads_dumps _ hj
  simp [deserializeFromOneOf, textOf, Val.isStr, dumpsVal, h1, Except.map, tryFormats, reads_json h h2]

theorem reads_jsonMsg (sub : Schema) : Reads (jsonMsgDeser sub) sub := by
  intro d r _ h
  simp [jsonMsgDeser, deserializeMsg, deserialize, Val.itemsOf, h, bind, Except.bind, Except.map]

theorem reads_msg (sub : Schema) : Reads (msgDeserFor sub) sub := by
  intro d r hj h
  obtain ⟨t, h1, h2⟩ := loads_dumps _ hj
  simp [msgDeserFor, Val.isMsg, Val.isStr, dumpsVal, h1, Except.map, reads_json h h2, bind, Except.bind]

theorem mapDeser_dicts {g : Val → Fmt → Res Val} {sub : Schema} (hg : Reads g sub) : ∀ {ds rs : List Dict},
    (∀ d ∈ ds, (Val.dict d).isJson = true) → ds.map (fromDictR sub sub.default) = rs.map .ok →
    mapDeser g .dict (ds.map .dict) = .ok (rs.map (.msg sub.cls))
  | [], rs, _, h => by cases rs <;> simp at h; rfl
  | d :: ds, rs, hj, h => by
    cases rs with
    | nil => simp at h
    | cons r rs =>
      simp only [List.map_cons, List.cons.injEq] at h
      have ih := mapDeser_dicts hg (fun x hx => hj x (by simp [hx])) h.2
      simp only [List.map_cons, mapDeser, hg d r (hj d (by simp)) h.1, ih, bind, Except.bind]

theorem mapDeser_msgs {g : Val → Fmt → Res Val} {c : Cls} (hg : ∀ d, g (.msg c d) .dict = .ok (.msg c d)) :
    ∀ ds : List Dict, mapDeser g .dict (ds.map (.msg c)) = .ok (ds.map (.msg c))
  | [] => rfl
  | d :: ds => by simp only [List.map_cons, mapDeser, hg, mapDeser_msgs hg ds, bind, Except.bind]

theorem reads_link (link : Schema) : Reads (lDeser link) link := by
  intro d r hj h
  obtain ⟨t, h1, h2⟩ := loads_dumps _ hj
  simp [lDeser, dumpsVal, h1, Except.map, reads_json h h2]

theorem reads_links (link : Schema) : ReadsList (linkDeser link) link := by
  intro ds rs hj h
  simp [linkDeser, mapDeser_dicts (reads_link link) hj h, Except.map]

theorem reads_links' (link : Schema) (sts : List Dict) :
    linkDeser link (.list (sts.map (.msg link.cls))) .dict = .ok (.list (sts.map (.msg link.cls))) := by
  simp [linkDeser, mapDeser_msgs (g := lDeser link) (c := link.cls) (by intro d; simp [lDeser]) sts, Except.map]

theorem reads_evidence (ev : Schema) : ReadsList (evidenceListDeser ev) ev := by
  intro ds rs hj h
  simp [evidenceListDeser, Val.iter, mapDeser_dicts (reads_oneOf ev) hj h, Except.map]

/-! ## concrete messages -/

/-- an authorization request with a claims request, two levels of messages -/
def nestedRequest : Dict :=
  [("scope", .list [.str "openid"]), ("client_id", .str "c"),
   ("claims", .msg ⟨"oidc", "ClaimsRequest"⟩
     [("id_token", .msg ⟨"oidc", "Claims"⟩ [("auth_time", .dict [("essential", .bool true)]), ("acr", .none)])])]

theorem nestedRequest_faithful : ∀ k v, (k, v) ∈ nestedRequest → Faithful libEnv false oidc_AuthorizationRequest k v := by
  intro k v h
  simp only [nestedRequest, List.mem_cons, Prod.mk.injEq, List.not_mem_nil, or_false] at h
  rcases h with ⟨rfl, rfl⟩ | ⟨rfl, rfl⟩ | ⟨rfl, rfl⟩
  · exact .plain (.spSep (ss := ["openid"]) (sp := requiredListOfSpSepStrings) (b := false) (by rfl) rfl rfl rfl
      (by decide) (by decide) (by decide))
  · exact .plain (.str (sp := singleRequiredString) (b := false) (by rfl) rfl rfl (by decide))
  · refine .msg (sub := oidc_ClaimsRequest) (b := false)
      (sp := ⟨.single messageTy, false, some .msgJson, some (jsonMsgDeser oidc_ClaimsRequest), false⟩)
      (by rfl) rfl (by decide) rfl (reads_jsonMsg _) rfl rfl (fun _ => rfl) (by decide) ?_
    intro k v h
    simp only [List.mem_cons, Prod.mk.injEq, List.not_mem_nil, or_false] at h
    obtain ⟨rfl, rfl⟩ := h
    refine .msg (sub := oidc_Claims) (b := false)
      (sp := ⟨.single messageTy, false, some .claims, some (deserializeFromOneOf oidc_Claims), false⟩)
      (by rfl) rfl (by decide) rfl (reads_oneOf _) rfl rfl (fun _ => rfl) (by decide) ?_
    intro k v h
    simp only [List.mem_cons, Prod.mk.injEq, List.not_mem_nil, or_false] at h
    rcases h with ⟨rfl, rfl⟩ | ⟨rfl, rfl⟩
    · exact .plain (.undeclared (by rfl) rfl (by decide) (by decide))
    · exact .plain (.undeclared (by rfl) rfl (by decide) (by decide))

/-- a list of links -/
example : Faithful libEnv false oidc_JRD "links" (.list [.msg ⟨"oidc", "Link"⟩ [("rel", .str "self"), ("href", .str "x")],
    .msg ⟨"oidc", "Link"⟩ []]) := by
  refine .msgs (sub := oidc_Link) (b := false) (sts := [[("rel", .str "self"), ("href", .str "x")], []])
    (sp := ⟨.list (tyOf oidc_Link), true, some .linkList, some (linkDeser oidc_Link), false⟩)
    (by rfl) rfl (.inr ⟨rfl, rfl⟩) rfl (reads_links _) (fun _ => reads_links' _) rfl (fun _ => rfl) (by simp)
    (by decide) ?_
  intro st hs k v h
  simp only [List.mem_cons, List.not_mem_nil, or_false] at hs
  rcases hs with rfl | rfl
  · simp only [List.mem_cons, Prod.mk.injEq, List.not_mem_nil, or_false] at h
    rcases h with ⟨rfl, rfl⟩ | ⟨rfl, rfl⟩
    · exact .plain (.str (sp := singleRequiredString) (b := false) (by rfl) rfl rfl (by decide))
    · exact .plain (.str (sp := singleOptionalString) (b := false) (by rfl) rfl rfl (by decide))
  · simp at h

/-! ## where it does not hold -/

/-- The claims of verified claims come back as a message of the base class. -/
theorem C89_counterexample_claims :
    (toJson libEnv ida_VerifiedClaims.cls
        [("claims", .msg ⟨"ida", "IdentityAssuranceClaims"⟩ [("title", .str "Dr")])]).bind
      (fromJson ida_VerifiedClaims []) =
    .ok [("claims", .msg ⟨"message", "Message"⟩ [("title", .str "Dr")])] := by decide +kernel

/-- Pieces of evidence come back as messages of the class `Evidence`. -/
theorem C89_counterexample_evidence :
    (toJson libEnv ida_VerificationElement.cls
        [("trust_framework", .str "de_aml"), ("evidence", .list [.msg ⟨"ida", "IdDocument"⟩ [("type", .str "id_document")]])]).bind
      (fromJson ida_VerificationElement []) =
    .ok [("trust_framework", .str "de_aml"),
      ("evidence", .list [.msg ⟨"ida", "Evidence"⟩ [("type", .str "id_document")]])] := by decide +kernel

/-- An ID token object in a response comes back as a dictionary. -/
theorem C89_counterexample_idtoken :
    (toJson libEnv oidc_AuthorizationResponse.cls
        [("id_token", .msg ⟨"oidc", "IdToken"⟩ [("sub", .str "diana")])]).bind
      (fromJson oidc_AuthorizationResponse []) =
    .ok [("id_token", .dict [("sub", .str "diana")])] := by decide +kernel

end Verif
