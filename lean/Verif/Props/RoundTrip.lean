import Verif.Props.Encoding

/-!
# C07, C08: messages survive JSON and form encoding
-/

namespace Verif

/-! ## C07 -/

/-- The parameter values that survive JSON serialisation, by the kind of specification the class
has for the name. -/
inductive JsonFaithful (sch : Schema) (k : String) : Val → Prop
  /-- not covered by the class: any JSON data except the blanks `""` and `[""]` -/
  | undeclared {v} : lookupSpec sch.params k = none → v.isJson = true → v ≠ .str "" →
      v ≠ .list [.str ""] → JsonFaithful sch k v
  /-- null, for single-valued parameters without serialiser -/
  | null {b sp t} : lookupSpec sch.params k = some (b, sp) → sp.vtyp = .single t → sp.ser = none →
      JsonFaithful sch k .none
  | str {b sp s} : lookupSpec sch.params k = some (b, sp) → sp.vtyp = .single .str → sp.ser = none →
      s ≠ "" → JsonFaithful sch k (.str s)
  | int {b sp i} : lookupSpec sch.params k = some (b, sp) → sp.vtyp = .single .int → sp.ser = none →
      JsonFaithful sch k (.int i)
  | bool {b sp x} : lookupSpec sch.params k = some (b, sp) → sp.vtyp = .single .bool → sp.ser = none →
      JsonFaithful sch k (.bool x)
  /-- list of strings (`OPTIONAL_LIST_OF_STRINGS` …) -/
  | strList {b sp ss} : lookupSpec sch.params k = some (b, sp) → sp.vtyp = .list .str →
      sp.ser = some .list → sp.deser = some listDeser → ss ≠ [] → ss ≠ [""] →
      JsonFaithful sch k (.list (ss.map .str))
  /-- space separated list of strings -/
  | spSep {b sp ss} : lookupSpec sch.params k = some (b, sp) → sp.vtyp = .list .str →
      sp.ser = some .spSep → sp.deser = some spSepDeser → ss ≠ [] → ss ≠ [""] →
      (∀ s ∈ ss, ' ' ∉ s.toList) → JsonFaithful sch k (.list (ss.map .str))
  /-- `SINGLE_OPTIONAL_JSON` -/
  | json {b sp d} : lookupSpec sch.params k = some (b, sp) → sp.vtyp = .single .dict →
      sp.ser = some .json → sp.deser = some jsonDeser → (Val.dict d).isJson = true →
      JsonFaithful sch k (.dict d)
  /-- `SINGLE_OPTIONAL_DICT` -/
  | dict {b sp d} : lookupSpec sch.params k = some (b, sp) → sp.vtyp = .single .dict →
      sp.ser = some .msgJson → (Val.dict d).isJson = true → JsonFaithful sch k (.dict d)

theorem isJsonList_strs (ss : List String) : Val.isJsonList (ss.map .str) = true := by
  induction ss with
  | nil => rfl
  | cons s ss ih => simp [Val.isJsonList, Val.isJson, ih]

theorem joinStrs_map (ss : List String) : joinStrs (ss.map .str) = some ss := by
  induction ss with
  | nil => rfl
  | cons s ss ih => simp [joinStrs, ih]

theorem joinC_eq_nil {c : Char} {ps : List (List Char)} (h : joinC c ps = []) : ps = [] ∨ ps = [[]] := by
  cases ps with
  | nil => exact .inl rfl
  | cons p ps =>
    cases ps with
    | nil => right; simp [joinC] at h; simp [h]
    | cons q qs => rw [joinC_cons (by simp)] at h; simp at h

theorem pyJoin_ne_empty {ss : List String} (h1 : ss ≠ []) (h2 : ss ≠ [""]) : pyJoin ' ' ss ≠ "" := by
  intro h
  have h' : joinC ' ' (ss.map String.toList) = [] := by
    have := congrArg String.toList h
    simpa [pyJoin] using this
  rcases joinC_eq_nil h' with e | e
  · simp at e; exact h1 e
  · cases ss with
    | nil => exact h1 rfl
    | cons s t =>
      simp at e
      obtain ⟨e1, e2⟩ := e
      apply h2
      rw [e1, e2]

theorem dumps_ne_empty {v : Val} {t : String} (h : dumps v = .ok t) : t ≠ "" := by
  unfold dumps at h
  cases hd : dumpsC v with
  | error e => simp [hd, Except.map] at h
  | ok s =>
    simp [hd, Except.map] at h
    obtain ⟨c, r, e, _⟩ := dumpsC_start v s hd
    subst h
    intro e'
    have := congrArg String.toList e'
    simp [e] at this

theorem isBlank_list_strs {ss : List String} (h : ss ≠ [""]) : isBlank (.list (ss.map .str)) = false := by
  cases ss with
  | nil => rfl
  | cons s t =>
    cases t with
    | nil => simp [isBlank]; intro e; exact h (by rw [e])
    | cons _ _ => rfl

/-- toDict env for a plain value -/
theorem serDict_none_json (env : SerEnv) (v : Val) (h : v.isJson = true) : serDict env none v = .ok v := by
  cases v with
  | list l =>
    cases l with
    | nil => simp [serDict]
    | cons x xs =>
      cases x <;> simp [serDict]
      simp [Val.isJson, Val.isJsonList] at h
  | msg c d => simp [Val.isJson] at h
  | _ => simp [serDict, serPlain]

theorem serDict_spSep (env : SerEnv) (l : List Val) : serDict env (some .spSep) (.list l) = spaceJoin l := by
  cases l <;> simp only [serDict]

/-- One entry: it serialises to a JSON value from which `from_dict` stores the entry again. -/
theorem entry_roundtrip (env : SerEnv) (sch : Schema) (k : String) (v : Val) (h : JsonFaithful sch k v) :
    ∃ v', serDict env (serFor sch.params k) v = .ok v' ∧ v'.isJson = true ∧
      ∀ st, addItem sch st k v' = .ok (dset st k v) := by
  cases h with
  | undeclared hl hj h1 h2 =>
    refine ⟨v, by simp [serFor, hl, serDict_none_json env v hj], hj, fun st => ?_⟩
    have hb : isBlank v = false := by
      cases v with
      | str s => simp [isBlank]; rintro rfl; exact h1 rfl
      | list l =>
        cases l with
        | nil => rfl
        | cons x xs =>
          cases xs with
          | nil => cases x <;> simp [isBlank]; rintro rfl; exact h2 rfl
          | cons _ _ => cases x <;> rfl
      | _ => rfl
    simp [addItem, hb, hl]
  | @null b sp t hl ht hs =>
    refine ⟨.none, by simp [serFor, hl, hs, serDict, serPlain], rfl, fun st => ?_⟩
    cases b <;> simp [addItem, isBlank, hl, addValue, ignoredList, ht, singleValue, Val.isNone]
  | @str b sp s hl ht hs hne =>
    refine ⟨.str s, by simp [serFor, hl, hs, serDict, serPlain], rfl, fun st => ?_⟩
    simp [addItem, isBlank, hne, hl, addValue, ignoredList, ht, singleValue, Val.isNone, Ty.isInst]
  | @int b sp i hl ht hs =>
    refine ⟨.int i, by simp [serFor, hl, hs, serDict, serPlain], rfl, fun st => ?_⟩
    simp [addItem, isBlank, hl, addValue, ignoredList, ht, singleValue, Val.isNone, Ty.isInst]
  | @bool b sp x hl ht hs =>
    refine ⟨.bool x, by simp [serFor, hl, hs, serDict, serPlain], rfl, fun st => ?_⟩
    simp [addItem, isBlank, hl, addValue, ignoredList, ht, singleValue, Val.isNone]
  | @strList b sp ss hl ht hs hd hne hne' =>
    obtain ⟨s, t, rfl⟩ := List.exists_cons_of_ne_nil hne
    refine ⟨.list ((s :: t).map .str), by simp [serFor, hl, hs, serDict], isJsonList_strs _, fun st => ?_⟩
    have hb := isBlank_list_strs hne'
    have hall : (List.all ((s :: t).map Val.str) fun v => Ty.isInst .str v) = true := by
      simp [Ty.isInst]
    simp only [addItem, hb, hl, Val.isNone, Bool.and_false, addValue]
    simp only [List.map_cons] at hall ⊢
    simp [ignoredList, ht, addToList, Val.isNone, Ty.isInst, addListOfList, deserList, hd, listDeser,
      orDecodeError, bind, Except.bind, checkItems, Val.iter]
  | @spSep b sp ss hl ht hs hd hne hne' hsp =>
    refine ⟨.str (pyJoin ' ' ss), ?_, rfl, fun st => ?_⟩
    · have : serFor sch.params k = some .spSep := by simp [serFor, hl, hs]
      rw [this, serDict_spSep]; simp [spaceJoin, joinStrs_map]
    · have hb := pyJoin_ne_empty hne hne'
      simp only [addItem, isBlank, beq_iff_eq, hb, if_false, hl, Val.isNone, Bool.and_false, addValue]
      simp [ignoredList, ht, addToList, Val.isNone, Ty.isInst, hd, spSepDeser, orDecodeError,
        pySplit_pyJoin hne hsp]
  | @json b sp d hl ht hs hd hj =>
    obtain ⟨t, h1, h2⟩ := loads_dumps _ hj
    refine ⟨.str t, by simp [serFor, hl, hs, serDict, serPlain, h1, Except.map], rfl, fun st => ?_⟩
    have hb := dumps_ne_empty h1
    simp [addItem, isBlank, hb, hl, addValue, ignoredList, ht, singleValue, Val.isNone, Ty.isInst, hd,
      jsonDeser, loadsVal, h2, orDecodeError]
  | @dict b sp d hl ht hs hj =>
    refine ⟨.dict d, by simp [serFor, hl, hs, serDict, serPlain], hj, fun st => ?_⟩
    simp [addItem, isBlank, hl, addValue, ignoredList, ht, singleValue, Val.isNone, Ty.isInst]

theorem toDict_roundtrip (env : SerEnv) (sch : Schema) (henv : ∀ k, env sch.cls k = serFor sch.params k)
    (st : Dict) (h : ∀ k v, (k, v) ∈ st → JsonFaithful sch k v) :
    ∃ d, toDict env sch.cls st = .ok d ∧ Val.isJsonDict d = true ∧ dkeys d = dkeys st ∧
      ∀ st0, fromDictR sch st0 d = .ok (dupdate st0 st) := by
  induction st with
  | nil => exact ⟨[], by simp [toDict], rfl, rfl, fun st0 => rfl⟩
  | cons p r ih =>
    obtain ⟨k, v⟩ := p
    obtain ⟨v', h1, h2, h3⟩ := entry_roundtrip env sch k v (h k v (by simp))
    obtain ⟨d, h4, h5, h6, h7⟩ := ih (fun k v hm => h k v (by simp [hm]))
    refine ⟨(k, v') :: d, ?_, ?_, ?_, fun st0 => ?_⟩
    · simp [toDict, henv, h1, h4, bind, Except.bind]
    · simp [Val.isJsonDict, h2, h5]
    · simp [h6]
    · have := h7 (dset st0 k v)
      simp only [fromDictR, fromDict, h3, dupdate_cons] at this ⊢
      exact this

theorem dupdate_nil_left {st : Dict} (h : DNodup st) : dupdate [] st = st := by
  have key : ∀ (a b : Dict), DNodup (a ++ b) → dupdate a b = a ++ b := by
    intro a b
    induction b generalizing a with
    | nil => intro _; simp [dupdate_nil]
    | cons p t ih =>
      intro hn
      obtain ⟨k, v⟩ := p
      have hk : k ∉ dkeys a := by
        intro hm
        simp only [DNodup, dkeys, List.map_append, List.map_cons] at hn
        rw [List.nodup_append] at hn
        exact hn.2.2 k hm k (by simp) rfl
      rw [dupdate_cons]
      show dupdate (dset a k v) t = _
      rw [dset_append_new a k v hk, ih]
      · simp
      · simpa using hn
  simpa using key [] st (by simpa using h)

/-- **C07**: a message whose values are of the declared kinds survives `to_json` followed by
`from_json`.  Loading on top of existing content (e.g. the class defaults) overrides it entry by
entry; loading into an empty instance gives back exactly the message, in the same order. -/
theorem C07_json_roundtrip (env : SerEnv) (sch : Schema)
    (henv : ∀ k, env sch.cls k = serFor sch.params k) (st : Dict) (hn : DNodup st)
    (h : ∀ k v, (k, v) ∈ st → JsonFaithful sch k v) :
    ∃ txt, toJson env sch.cls st = .ok txt ∧ fromJson sch [] txt = .ok st ∧
      ∀ st0, ∃ r, fromJson sch st0 txt = .ok r ∧ ∀ k, dget r k = (dget st k).or (dget st0 k) := by
  obtain ⟨d, h1, h2, h3, h4⟩ := toDict_roundtrip env sch henv st h
  have hj : (Val.dict d).isJson = true := by
    have : (dkeys d).Nodup := by rw [h3]; exact hn
    simp [Val.isJson, h2, this]
  obtain ⟨txt, h5, h6⟩ := loads_dumps _ hj
  have hf : ∀ st0, fromJson sch st0 txt = .ok (dupdate st0 st) := by
    intro st0
    simp [fromJson, h6, Val.itemsOf, bind, Except.bind, h4]
  refine ⟨txt, by simp [toJson, h1, h5, bind, Except.bind], ?_, fun st0 => ⟨_, hf st0, fun k => ?_⟩⟩
  · rw [hf, dupdate_nil_left hn]
  · exact dget_dupdate st0 hn k

/-- A class with all kinds of parameters and a message using each of them. -/
def rtSchema : Schema :=
  { cls := ⟨"t", "RT"⟩
    params := [("s", singleRequiredString), ("i", singleOptionalInt), ("b", singleOptionalBoolean),
      ("aud", optionalListOfStrings), ("scope", optionalListOfSpSepStrings), ("j", singleOptionalJson)] }

example : ∀ k v, (k, v) ∈
    ([("s", .str "x y"), ("s#de", .str "z"), ("i", .int (-4)), ("b", .bool false),
      ("aud", .list [.str "a b", .str ""]), ("scope", .list [.str "openid", .str "p"]),
      ("j", .dict [("k", .list [.none])]), ("extra", .list []), ("i#x", .none)] : Dict) →
    JsonFaithful rtSchema k v := by
  intro k v h
  simp only [List.mem_cons, Prod.mk.injEq, List.not_mem_nil, or_false] at h
  rcases h with h | h | h | h | h | h | h | h | h <;> obtain ⟨rfl, rfl⟩ := h
  · exact .str (sp := singleRequiredString) (b := false) (by rfl) rfl rfl (by decide)
  · exact .str (sp := singleRequiredString) (b := false) (by rfl) rfl rfl (by decide)
  · exact .int (sp := singleOptionalInt) (b := false) (by rfl) rfl rfl
  · exact .bool (sp := singleOptionalBoolean) (b := false) (by rfl) rfl rfl
  · exact .strList (ss := ["a b", ""]) (sp := optionalListOfStrings) (b := false) (by rfl) rfl rfl rfl
      (by decide) (by decide)
  · exact .spSep (ss := ["openid", "p"]) (sp := optionalListOfSpSepStrings) (b := false) (by rfl) rfl rfl rfl
      (by decide) (by decide) (by decide)
  · exact .json (sp := singleOptionalJson) (b := false) (by rfl) rfl rfl rfl (by decide)
  · exact .undeclared (by rfl) rfl (by decide) (by decide)
  · exact .null (sp := singleOptionalInt) (b := false) (by rfl) rfl rfl

/-! ## C08 -/

/-- The class has no conversion for the name: it is undeclared, or single-valued without serialiser
and deserialiser (strings, integers, booleans). -/
def Unconverted (sch : Schema) (k : String) : Prop :=
  lookupSpec sch.params k = none ∨
  ∃ b sp t, lookupSpec sch.params k = some (b, sp) ∧ sp.vtyp = .single t ∧ sp.ser = none ∧
    sp.deser = none

/-- A list-of-strings parameter in one of the two library forms. -/
def StrListParam (sch : Schema) (k : String) : Prop :=
  ∃ b sp, lookupSpec sch.params k = some (b, sp) ∧ sp.vtyp = .list .str ∧
    ((sp.ser = some .list ∧ sp.deser = some listDeser) ∨ (sp.ser = some .spSep ∧ sp.deser = some spSepDeser))

/-- What comes back (`none`: the parameter is lost) after form-encoding and decoding. -/
inductive UrlReturns (sch : Schema) (k : String) : Val → Option Val → Prop
  | str {s} : Unconverted sch k → s ≠ "" → UrlReturns sch k (.str s) (some (.str s))
  /-- empty strings are lost, whatever the parameter -/
  | empty : UrlReturns sch k (.str "") none
  /-- null values are lost -/
  | null : nullFor sch.params k = false → UrlReturns sch k .none none
  /-- integers and booleans come back as strings -/
  | int {i} : Unconverted sch k → UrlReturns sch k (.int i) (some (.str (String.ofList (intRepr i))))
  | true : Unconverted sch k → UrlReturns sch k (.bool true) (some (.str "True"))
  | false : Unconverted sch k → UrlReturns sch k (.bool false) (some (.str "False"))
  /-- lists of space-free strings -/
  | strList {ss} : StrListParam sch k → ss ≠ [] → ss ≠ [""] → (∀ s ∈ ss, ' ' ∉ s.toList) →
      UrlReturns sch k (.list (ss.map .str)) (some (.list (ss.map .str)))
  | strListEmpty : StrListParam sch k → UrlReturns sch k (.list []) none
  /-- undeclared lists: two or more items survive, a single item loses its list -/
  | many {s t ss} : lookupSpec sch.params k = none → (∀ x ∈ s :: t :: ss, x ≠ "") →
      UrlReturns sch k (.list ((s :: t :: ss).map .str)) (some (.list ((s :: t :: ss).map .str)))
  | one {s} : lookupSpec sch.params k = none → s ≠ "" →
      UrlReturns sch k (.list [.str s]) (some (.str s))
  | noItems : lookupSpec sch.params k = none → UrlReturns sch k (.list []) none
  /-- `SINGLE_OPTIONAL_JSON` -/
  | json {b sp d} : lookupSpec sch.params k = some (b, sp) → sp.vtyp = .single .dict →
      sp.ser = some .json → sp.deser = some jsonDeser → (Val.dict d).isJson = true →
      UrlReturns sch k (.dict d) (some (.dict d))

theorem intRepr_ne (i : Int) : String.ofList (intRepr i) ≠ "" := by
  intro h
  have := congrArg String.toList h
  obtain ⟨c, r, e, _⟩ := intRepr_start i
  simp [e] at this

theorem addUrl_unconverted {sch : Schema} {k : String} (h : Unconverted sch k) (st : Dict) (s : String) :
    addUrl sch st k [s] = .ok (dset st k (.str s)) := by
  rcases h with h | ⟨b, sp, t, h, h1, h2, h3⟩
  · simp [addUrl, h]
  · simp [addUrl, h, h1, h3]

theorem Unconverted.ser {sch : Schema} {k : String} (h : Unconverted sch k) : serFor sch.params k = none := by
  rcases h with h | ⟨b, sp, t, h, h1, h2, h3⟩
  · simp [serFor, h]
  · simp [serFor, h, h2]

theorem pyStrEach_strs (env : SerEnv) (k : String) (ss : List String) :
    pyStrEach env k (ss.map .str) = .ok (ss.map (fun s => (k, s))) := by
  induction ss with
  | nil => rfl
  | cons s ss ih => simp [pyStrEach, pyStrOf, pyStr, ih, bind, Except.bind]

/-- One entry: the strings put on the wire, and what the non-empty ones give when read. -/
def UrlEntry (env : SerEnv) (sch : Schema) (k : String) (v : Val) (o : Option Val) : Prop :=
  ∃ ws : List String, urlPairs env false sch.params k v = .ok (ws.map (fun w => (k, w))) ∧
    ((ws.filter (fun w => !decide (w = "")) = [] ∧ o = none) ∨
     (ws.filter (fun w => !decide (w = "")) ≠ [] ∧ ∃ x, o = some x ∧
       ∀ st, addUrl sch st k (ws.filter (fun w => !decide (w = ""))) = .ok (dset st k x)))

theorem entry_url (env : SerEnv) (sch : Schema) (k : String) (v : Val) (o : Option Val)
    (h : UrlReturns sch k v o) : UrlEntry env sch k v o := by
  cases h with
  | @str s hu hs =>
    refine ⟨[s], by simp [urlPairs], .inr ⟨by simp [hs], _, rfl, fun st => ?_⟩⟩
    simp [hs, addUrl_unconverted hu]
  | empty => exact ⟨[""], by simp [urlPairs], .inl ⟨by simp, rfl⟩⟩
  | null hn => exact ⟨[], by simp [urlPairs, hn], .inl ⟨by simp, rfl⟩⟩
  | @int i hu =>
    refine ⟨[String.ofList (intRepr i)], by simp [urlPairs, hu.ser, serUrlOther, pyStr, reprC, Except.map],
      .inr ?_⟩
    have hf : [String.ofList (intRepr i)].filter (fun w => !decide (w = "")) = [String.ofList (intRepr i)] := by
      rw [List.filter_eq_self]; intro x hx; rw [List.mem_singleton] at hx; subst hx
      rw [decide_eq_false (intRepr_ne i)]; rfl
    rw [hf]
    exact ⟨by simp, _, rfl, fun st => addUrl_unconverted hu st _⟩
  | true hu =>
    refine ⟨["True"], by simp [urlPairs, hu.ser, serUrlOther, pyStr, reprC, Except.map],
      .inr ⟨by simp, _, rfl, fun st => ?_⟩⟩
    simp [addUrl_unconverted hu]
  | false hu =>
    refine ⟨["False"], by simp [urlPairs, hu.ser, serUrlOther, pyStr, reprC, Except.map],
      .inr ⟨by simp, _, rfl, fun st => ?_⟩⟩
    simp [addUrl_unconverted hu]
  | @strList ss hp h1 h2 h3 =>
    obtain ⟨b, sp, hl, ht, hsd⟩ := hp
    have hb := pyJoin_ne_empty h1 h2
    have hsplit := pySplit_pyJoin h1 h3
    refine ⟨[pyJoin ' ' ss], ?_, .inr ⟨by simp [hb], _, rfl, fun st => ?_⟩⟩
    · rcases hsd with ⟨hs, _⟩ | ⟨hs, _⟩ <;>
        simp [urlPairs, serFor, hl, hs, serUrlList, joinStrs_map, Except.map]
    · rcases hsd with ⟨_, hd⟩ | ⟨_, hd⟩ <;>
        simp [hb, addUrl, hl, ht, hd, listDeser, spSepDeser, hsplit, bind, Except.bind]
  | strListEmpty hp =>
    obtain ⟨b, sp, hl, ht, hsd⟩ := hp
    refine ⟨[""], ?_, .inl ⟨by simp, rfl⟩⟩
    rcases hsd with ⟨hs, _⟩ | ⟨hs, _⟩ <;>
      simp [urlPairs, serFor, hl, hs, serUrlList, joinStrs, Except.map, pyJoin, joinC]
  | @many s t ss hl hne =>
    refine ⟨s :: t :: ss, ?_, .inr ?_⟩
    · simp only [urlPairs, serFor, hl, Option.bind_none]
      exact pyStrEach_strs env k (s :: t :: ss)
    · have hf : (s :: t :: ss).filter (fun w => !decide (w = "")) = s :: t :: ss := by
        rw [List.filter_eq_self]; intro x hx; simp [hne x hx]
      rw [hf]
      exact ⟨by simp, _, rfl, fun st => by simp [addUrl, hl]⟩
  | @one s hl hs =>
    refine ⟨[s], ?_, .inr ⟨by simp [hs], _, rfl, fun st => by simp [hs, addUrl, hl]⟩⟩
    simp [urlPairs, serFor, hl, pyStrEach, pyStrOf, pyStr, bind, Except.bind]
  | noItems hl => exact ⟨[], by simp [urlPairs, serFor, hl, pyStrEach], .inl ⟨by simp, rfl⟩⟩
  | @json b sp d hl ht hs hd hj =>
    obtain ⟨t, h1, h2⟩ := loads_dumps _ hj
    have hb := dumps_ne_empty h1
    refine ⟨[t], by simp [urlPairs, serFor, hl, hs, serUrlOther, orStr, h1, Except.map],
      .inr ⟨by simp [hb], _, rfl, fun st => ?_⟩⟩
    simp [hb, addUrl, hl, ht, hd, jsonDeser, loadsVal, h2, bind, Except.bind]

theorem foldl_qsAdd_block (d : Assoc (List String)) (k : String) (ws : List String) (hk : k ∉ dkeys d)
    (hw : ws ≠ []) : (ws.map (fun w => (k, w))).foldl qsAdd d = d ++ [(k, ws)] := by
  have step : ∀ (pre ws : List String), pre ≠ [] →
      (ws.map (fun w => (k, w))).foldl qsAdd (d ++ [(k, pre)]) = d ++ [(k, pre ++ ws)] := by
    intro pre ws
    induction ws generalizing pre with
    | nil => intro _; simp
    | cons w ws ih =>
      intro hp
      have hg : dget (d ++ [(k, pre)]) k = some pre := by
        rw [← dset_append_new d k pre hk, dget_dset_same]
      have hset : ∀ x, dset (d ++ [(k, pre)]) k x = d ++ [(k, x)] := by
        intro x
        clear hg ih
        induction d with
        | nil => simp [dset]
        | cons p t ihd =>
          obtain ⟨k', v'⟩ := p
          simp only [dkeys_cons, List.mem_cons, not_or] at hk
          have : ¬ k' = k := fun e => hk.1 e.symm
          simp only [List.cons_append, dset, this, if_false, ihd hk.2]
      simp only [List.map_cons, List.foldl_cons]
      rw [show qsAdd (d ++ [(k, pre)]) (k, w) = d ++ [(k, pre ++ [w])] by
        simp [qsAdd, hg, hset]]
      rw [ih _ (by simp)]
      simp
  cases ws with
  | nil => exact absurd rfl hw
  | cons w ws =>
    have hg : dget d k = none := (dget_eq_none_iff d k).2 hk
    simp only [List.map_cons, List.foldl_cons]
    rw [show qsAdd d (k, w) = d ++ [(k, [w])] by simp [qsAdd, hg, dset_append_new d k _ hk]]
    rw [step [w] ws (by simp)]
    simp

/-- Decoding the whole message: the surviving entries, in order. -/
theorem url_all (env : SerEnv) (sch : Schema) (ret : String → Val → Option Val) (st : Dict)
    (hn : DNodup st) (h : ∀ k v, (k, v) ∈ st → UrlEntry env sch k v (ret k v)) :
    ∃ (ps : List (String × String)) (blocks : Assoc (List String)),
      urlPairsAll env false sch.params st = .ok ps ∧
      (∀ d : Assoc (List String), (∀ k, k ∈ dkeys st → k ∉ dkeys d) →
        (ps.filter (fun p => !decide (p.2 = ""))).foldl qsAdd d = d ++ blocks) ∧
      (∀ k, k ∈ dkeys blocks → k ∈ dkeys st) ∧
      (blocks = [] ↔ st.filterMap (fun p => (ret p.1 p.2).map (fun x => (p.1, x))) = []) ∧
      ∀ acc, addUrls sch acc blocks =
        .ok (dupdate acc (st.filterMap (fun p => (ret p.1 p.2).map (fun x => (p.1, x))))) := by
  induction st with
  | nil => exact ⟨[], [], rfl, by simp, by simp, by simp, fun acc => rfl⟩
  | cons p t ih =>
    obtain ⟨k, v⟩ := p
    simp only [DNodup, dkeys_cons, List.nodup_cons] at hn
    obtain ⟨ws, h1, h2⟩ := h k v (by simp)
    obtain ⟨ps, bl, h3, h4, h5, h6, h7⟩ := ih hn.2 (fun k v hm => h k v (by simp [hm]))
    have hfilt : (ws.map (fun w => (k, w))).filter (fun p => !decide (p.2 = ""))
        = (ws.filter (fun w => !decide (w = ""))).map (fun w => (k, w)) := by
      rw [List.filter_map]; rfl
    rcases h2 with ⟨hnil, hnone⟩ | ⟨hne, x, hx, hadd⟩
    · refine ⟨ws.map (fun w => (k, w)) ++ ps, bl, by simp [urlPairsAll, h1, h3, bind, Except.bind], ?_, ?_, ?_, ?_⟩
      · intro d hd
        rw [List.filter_append, hfilt, hnil]
        simp only [List.map_nil, List.nil_append]
        exact h4 d (fun k' hk' => hd k' (by simp [hk']))
      · intro k' hk'; simp [h5 k' hk']
      · simp only [List.filterMap_cons, hnone, Option.map_none]; exact h6
      · intro acc; simp only [List.filterMap_cons, hnone, Option.map_none]; exact h7 acc
    · refine ⟨ws.map (fun w => (k, w)) ++ ps, (k, ws.filter (fun w => !decide (w = ""))) :: bl,
        by simp [urlPairsAll, h1, h3, bind, Except.bind], ?_, ?_, ?_, ?_⟩
      · intro d hd
        rw [List.filter_append, hfilt, List.foldl_append,
          foldl_qsAdd_block d k _ (hd k (by simp)) hne, h4]
        · simp
        · intro k' hk' hm
          simp only [dkeys, List.map_append, List.map_cons, List.map_nil, List.mem_append,
            List.mem_singleton] at hm
          rcases hm with hm | hm
          · exact hd k' (by simp [hk']) hm
          · subst hm; exact hn.1 hk'
      · intro k' hk'
        simp only [dkeys_cons, List.mem_cons] at hk' ⊢
        rcases hk' with e | e
        · exact .inl e
        · exact .inr (h5 k' e)
      · simp [List.filterMap_cons, hx]
      · intro acc
        simp only [List.filterMap_cons, hx, Option.map_some, addUrls, hadd, dupdate_cons]
        exact h7 _

/-- The message one gets back. -/
def survivors (ret : String → Val → Option Val) (st : Dict) : Dict :=
  st.filterMap (fun p => (ret p.1 p.2).map (fun x => (p.1, x)))

theorem survivors_keys (ret : String → Val → Option Val) (st : Dict) (k : String)
    (h : k ∈ dkeys (survivors ret st)) : k ∈ dkeys st := by
  simp only [survivors, dkeys, List.mem_map, List.mem_filterMap] at h ⊢
  obtain ⟨⟨k', x⟩, ⟨⟨k'', v⟩, hm, he⟩, rfl⟩ := h
  refine ⟨(k'', v), hm, ?_⟩
  cases hr : ret k'' v <;> simp [hr] at he
  exact he.1

theorem survivors_nodup (ret : String → Val → Option Val) {st : Dict} (hn : DNodup st) :
    DNodup (survivors ret st) := by
  induction st with
  | nil => simp [survivors, DNodup]
  | cons p t ih =>
    obtain ⟨k, v⟩ := p
    simp only [DNodup, dkeys_cons, List.nodup_cons] at hn
    have iht := ih hn.2
    unfold survivors at iht ⊢
    cases hr : ret k v with
    | none => simp [List.filterMap_cons, hr]; exact iht
    | some x =>
      simp only [List.filterMap_cons, hr, Option.map_some, DNodup, dkeys_cons, List.nodup_cons]
      exact ⟨fun hm => hn.1 (survivors_keys ret t k hm), iht⟩

theorem dget_survivors (ret : String → Val → Option Val) {st : Dict} (hn : DNodup st) (k : String) :
    dget (survivors ret st) k = (dget st k).bind (ret k) := by
  induction st with
  | nil => rfl
  | cons p t ih =>
    obtain ⟨k', v⟩ := p
    simp only [DNodup, dkeys_cons, List.nodup_cons] at hn
    have iht := ih hn.2
    unfold survivors at iht ⊢
    by_cases e : k' = k
    · subst e
      cases hr : ret k' v with
      | none =>
        simp only [List.filterMap_cons, hr, Option.map_none, dget_cons, if_true, Option.bind_some, iht]
        rw [(dget_eq_none_iff t k').2 hn.1]; rfl
      | some x => simp [List.filterMap_cons, hr]
    · cases hr : ret k' v with
      | none => simp [List.filterMap_cons, hr, iht, e]
      | some x => simp [List.filterMap_cons, hr, iht, e]

/-- **C08** (what form encoding does to a message): if each value is of one of the kinds of
`UrlReturns`, all required parameters are present and something survives, then decoding the encoded
message succeeds and every parameter comes back exactly as `UrlReturns` says: strings, lists of
space-free strings and JSON objects unchanged, integers and booleans as strings, empty and null
values not at all. -/
theorem C08_urlencoded (env : SerEnv) (sch : Schema) (ret : String → Val → Option Val) (st : Dict)
    (hn : DNodup st) (h : ∀ k v, (k, v) ∈ st → UrlReturns sch k v (ret k v))
    (hreq : ¬ RequiredMissing sch st) (hsome : ∃ k v, dget st k = some v ∧ ret k v ≠ none) :
    ∃ txt r, toUrlencoded env sch st = .ok txt ∧ fromUrlencoded sch [] txt = .ok r ∧
      dkeys r = (dkeys st).filter (fun k => ((dget st k).bind (ret k)).isSome) ∧
      ∀ k, dget r k = (dget st k).bind (ret k) := by
  obtain ⟨ps, bl, h1, h2, h3, h4, h5⟩ := url_all env sch ret st hn (fun k v hm => entry_url env sch k v _ (h k v hm))
  have hq : parseQs (urlencode ps) = bl := by
    have := h2 [] (by simp)
    rw [parseQs, parseQsl_urlencode, this]; rfl
  have hbl : bl ≠ [] := by
    rw [ne_eq, h4]
    obtain ⟨k, v, hk, hr⟩ := hsome
    intro he
    have := dget_survivors ret hn k
    rw [survivors, he, hk] at this
    simp at this
    exact hr this.symm
  have hm : ¬ sch.params.any (fun p => p.2.required && !dhas st p.1) = true := by
    rw [anyMissing_iff]; exact hreq
  refine ⟨urlencode ps, survivors ret st, ?_, ?_, ?_, fun k => dget_survivors ret hn k⟩
  · simp only [toUrlencoded, urlFinish, hm, h1, Except.map]
    rfl
  · simp only [fromUrlencoded, hq, hbl, and_false, if_false, h5]
    show Except.ok (dupdate [] (survivors ret st)) = _
    rw [dupdate_nil_left (survivors_nodup ret hn)]
  · have hs := fun k => dget_survivors ret hn k
    clear h1 h2 h3 h4 h5 hq hbl hm hreq hsome h
    have key : ∀ (t : Dict), (∀ k v, (k, v) ∈ t → dget st k = some v) →
        dkeys (survivors ret t) = (dkeys t).filter (fun k => ((dget st k).bind (ret k)).isSome) := by
      intro t
      induction t with
      | nil => intro _; rfl
      | cons p t ih =>
        obtain ⟨k, v⟩ := p
        intro hg
        have hkv := hg k v (by simp)
        have iht := ih (fun k v hm => hg k v (by simp [hm]))
        unfold survivors at iht ⊢
        cases hr : ret k v with
        | none => simp [List.filterMap_cons, hr, iht, hkv, dkeys_cons, List.filter_cons]
        | some x => simp [List.filterMap_cons, hr, iht, hkv, dkeys_cons, List.filter_cons]
    exact key st (fun k v hm => mem_dget hn hm)

/-- A message all of whose entries come back unchanged. -/
theorem url_same (env : SerEnv) (sch : Schema) (st : Dict) (hn : DNodup st) (hne : st ≠ [])
    (h : ∀ k v, (k, v) ∈ st → UrlEntry env sch k v (some v)) (hreq : ¬ RequiredMissing sch st) :
    ∃ txt, toUrlencoded env sch st = .ok txt ∧ fromUrlencoded sch [] txt = .ok st := by
  obtain ⟨ps, bl, h1, h2, h3, h4, h5⟩ := url_all env sch (fun _ v => some v) st hn h
  have hid : st.filterMap (fun p => (some p.2).map (fun x => (p.1, x))) = st := by
    simp
  rw [hid] at h4
  have hq : parseQs (urlencode ps) = bl := by
    have := h2 [] (by simp)
    rw [parseQs, parseQsl_urlencode, this]; rfl
  have hbl : bl ≠ [] := by rw [ne_eq, h4]; exact hne
  have hm : ¬ sch.params.any (fun p => p.2.required && !dhas st p.1) = true := by
    rw [anyMissing_iff]; exact hreq
  refine ⟨urlencode ps, ?_, ?_⟩
  · simp only [toUrlencoded, urlFinish, hm, h1, Except.map]
    rfl
  · simp only [fromUrlencoded, hq, hbl, and_false, if_false, h5, hid]
    rw [dupdate_nil_left hn]

/-- **C08** (round-trip): a message all of whose values come back unchanged is returned exactly, in
the same order. -/
theorem C08_roundtrip (env : SerEnv) (sch : Schema) (st : Dict) (hn : DNodup st) (hne : st ≠ [])
    (h : ∀ k v, (k, v) ∈ st → UrlReturns sch k v (some v)) (hreq : ¬ RequiredMissing sch st) :
    ∃ txt, toUrlencoded env sch st = .ok txt ∧ fromUrlencoded sch [] txt = .ok st :=
  url_same env sch st hn hne (fun k v hm => entry_url env sch k v _ (h k v hm)) hreq

/-- A message in which every value is lost cannot be decoded at all unless its encoding is empty:
`from_urlencoded` raises `FormatError`. -/
theorem C08_nothing_survives (env : SerEnv) (sch : Schema) (ret : String → Val → Option Val) (st : Dict)
    (hn : DNodup st) (h : ∀ k v, (k, v) ∈ st → UrlReturns sch k v (ret k v))
    (hreq : ¬ RequiredMissing sch st) (hnone : ∀ k v, dget st k = some v → ret k v = none) :
    ∃ txt, toUrlencoded env sch st = .ok txt ∧
      fromUrlencoded sch [] txt = if txt = "" then .ok [] else .error .formatError := by
  obtain ⟨ps, bl, h1, h2, h3, h4, h5⟩ := url_all env sch ret st hn (fun k v hm => entry_url env sch k v _ (h k v hm))
  have hq : parseQs (urlencode ps) = bl := by
    have := h2 [] (by simp)
    rw [parseQs, parseQsl_urlencode, this]; rfl
  have hbl : bl = [] := by
    rw [h4, List.filterMap_eq_nil_iff]
    rintro ⟨k, v⟩ hm
    simp [hnone k v (mem_dget hn hm)]
  have hm : ¬ sch.params.any (fun p => p.2.required && !dhas st p.1) = true := by
    rw [anyMissing_iff]; exact hreq
  refine ⟨urlencode ps, ?_, ?_⟩
  · simp only [toUrlencoded, urlFinish, hm, h1, Except.map]
    rfl
  · simp only [fromUrlencoded, hq, hbl, and_true]
    by_cases he : urlencode ps = "" <;> simp [he, addUrls]

/-- Hypotheses of the three theorems on concrete messages. -/
example : (∀ k v, (k, v) ∈ ([("s", .str "a&b=c é"), ("scope", .list [.str "openid", .str "p"]),
      ("j", .dict [("k", .int 1)]), ("x", .list [.str "1", .str "2"])] : Dict) →
      UrlReturns rtSchema k v (some v)) ∧
    ¬ RequiredMissing rtSchema [("s", .str "a&b=c é")] ∧
    UrlReturns rtSchema "i" (.int 3) (some (.str "3")) ∧ UrlReturns rtSchema "y" (.str "") none := by
  refine ⟨?_, ?_, ?_, .empty⟩
  · intro k v h
    simp only [List.mem_cons, Prod.mk.injEq, List.not_mem_nil, or_false] at h
    rcases h with h | h | h | h <;> obtain ⟨rfl, rfl⟩ := h
    · exact .str (.inr ⟨false, singleRequiredString, .str, rfl, rfl, rfl, rfl⟩) (by decide)
    · exact .strList (ss := ["openid", "p"]) ⟨false, optionalListOfSpSepStrings, rfl, rfl, .inr ⟨rfl, rfl⟩⟩
        (by decide) (by decide) (by decide)
    · exact .json (b := false) (sp := singleOptionalJson) rfl rfl rfl rfl (by decide)
    · exact .many (s := "1") (t := "2") (ss := []) rfl (by decide)
  · rintro ⟨a, sp, hm, hr, hk⟩
    simp [rtSchema] at hm
    rcases hm with ⟨rfl, rfl⟩ | ⟨rfl, rfl⟩ | ⟨rfl, rfl⟩ | ⟨rfl, rfl⟩ | ⟨rfl, rfl⟩ | ⟨rfl, rfl⟩ <;>
      first | (exact absurd hr (by decide)) | (exact hk (by simp))
  · have : String.ofList (intRepr 3) = "3" := by decide +kernel
    rw [← this]
    exact .int (.inr ⟨false, singleOptionalInt, .int, rfl, rfl, rfl, rfl⟩)

end Verif
