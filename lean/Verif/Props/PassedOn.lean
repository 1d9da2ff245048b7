import Verif.Props.ReadWrite
import Verif.Props.FormIn

/-!
# C159: a message that was read can be passed on: written and read again it is the same message
-/

namespace Verif

/-- The values that may stand in a JSON text: undeclared parameters; plain single values; lists of strings, unless given
as an object; space separated strings, unless given as an object or as a list of several texts of which one has a
space; objects in parameters for objects; objects and lists of objects in parameters for messages, with entries of these
kinds for the class that is read.  The flag is true inside lists of messages. -/
inductive Tidy (env : SerEnv) : Bool → Schema → String → Val → Prop
  | undeclared {s sch k v} : lookupSpec sch.params k = none → Tidy env s sch k v
  | single {s sch k v b sp t} : lookupSpec sch.params k = some (b, sp) → sp.vtyp = .single t →
      t = .str ∨ t = .int ∨ t = .bool → sp.ser = none → sp.deser = none → Tidy env s sch k v
  | strList {s sch k v sp} : lookupSpec sch.params k = some (false, sp) → sp.vtyp = .list .str → sp.nullAllowed = false →
      sp.ser = some .list → sp.deser = some listDeser → (∀ d, v ≠ .dict d) → Tidy env s sch k v
  | spSep {s sch k v sp} : lookupSpec sch.params k = some (false, sp) → sp.vtyp = .list .str → sp.nullAllowed = false →
      sp.ser = some .spSep → sp.deser = some spSepDeser → (∀ d, v ≠ .dict d) →
      (∀ x y l, v = .list (x :: y :: l) → ∀ t, .str t ∈ x :: y :: l → ' ' ∉ t.toList) → Tidy env s sch k v
  | obj {s sch k b sp d} : lookupSpec sch.params k = some (b, sp) → sp.vtyp = .single .dict →
      sp.ser = some .json ∧ sp.deser = some jsonDeser ∨ sp.ser = some .msgJson → Tidy env s sch k (.dict d)
  | msg {s sch k b sp c isSub build f sub d} : lookupSpec sch.params k = some (b, sp) →
      sp.vtyp = .single (.msg c isSub build) → sp.ser ∈ [some .msg, some .msgJson, some .claims] →
      sp.deser = some f → Reads f sub → ReadsOnly f sub → isSub sub.cls = true → sub.default = [] →
      (∀ k, env sub.cls k = serFor sub.params k) → (∀ k v, (k, v) ∈ d → Tidy env false sub k v) →
      Tidy env s sch k (.dict d)
  | msgs {sch k b sp isSub f sub} {ds : List Dict} : lookupSpec sch.params k = some (b, sp) →
      sp.vtyp = .list (.msg sub.cls isSub (ctor sub)) →
      (sp.ser = some .msgList ∨ sp.ser = some .linkList ∧ sub.cls = ⟨"oidc", "Link"⟩) →
      sp.deser = some f → ReadsList f sub → ReadsListOnly f sub → sub.default = [] →
      (∀ k, env sub.cls k = serFor sub.params k) → ds ≠ [] →
      (∀ d ∈ ds, ∀ k v, (k, v) ∈ d → Tidy env true sub k v) → Tidy env false sch k (.list (ds.map .dict))

theorem pySplit_blank {s : String} (h : pySplit ' ' s = [""]) : s = "" := by
  have h1 : splitC ' ' s.toList = [[]] := by
    have := congrArg (List.map String.toList) h
    simpa [pySplit, Function.comp_def] using this
  have h2 := joinC_splitC ' ' s.toList
  rw [h1] at h2
  have : s.toList = [] := by simpa [joinC] using h2.symm
  rw [← String.ofList_toList (s := s), this]

theorem pySplit_noSpace (s : String) : ∀ p ∈ pySplit ' ' s, ' ' ∉ p.toList := by
  intro p hp
  simp only [pySplit, List.mem_map] at hp
  obtain ⟨q, hq, rfl⟩ := hp
  rw [String.toList_ofList]
  exact splitC_not_mem ' ' _ q hq

/-- what is stored in a parameter for lists of strings -/
theorem strs_kept {sp : Spec} {st st' : Dict} {k : String} {v : Val} (ht : sp.vtyp = .list .str)
    (hn : sp.nullAllowed = false) (hd : sp.deser = some listDeser ∨ sp.deser = some spSepDeser) (hv : ∀ d, v ≠ .dict d)
    (hb : isBlank v = false) (h : addValue sp st k v = .ok st') :
    st' = st ∨ ∃ ss : List String, st' = dset st k (.list (ss.map .str)) ∧ ss ≠ [] ∧ ss ≠ [""] ∧
      (sp.deser = some spSepDeser → (∀ p ∈ ss, ' ' ∉ p.toList) ∨ ∃ x y l, v = .list (x :: y :: l) ∧ ss.map .str = x :: y :: l) := by
  have hsplit : ∀ s : String, s ≠ "" → pySplit ' ' s ≠ [] ∧ pySplit ' ' s ≠ [""] ∧ ∀ p ∈ pySplit ' ' s, ' ' ∉ p.toList :=
    fun s hs => ⟨pySplit_ne_nil _ _, fun e => hs (pySplit_blank e), pySplit_noSpace s⟩
  cases v with
  | dict d => exact absurd rfl (hv d)
  | none => simp [addValue, ignoredList, ht, addToList, Val.isNone, hn] at h
  | bool _ => simp [addValue, ignoredList, ht, addToList, Val.isNone, Ty.isInst] at h
  | int _ => simp [addValue, ignoredList, ht, addToList, Val.isNone, Ty.isInst] at h
  | flt _ => simp [addValue, ignoredList, ht, addToList, Val.isNone, Ty.isInst] at h
  | msg _ _ => simp [addValue, ignoredList, ht, addToList, Val.isNone, Ty.isInst] at h
  | str s =>
    have hs : s ≠ "" := by simpa [isBlank] using hb
    obtain ⟨a, b, c⟩ := hsplit s hs
    simp only [addValue, ignoredList, ht, addToList, Val.isNone, Ty.isInst, Bool.false_eq_true, if_false, if_true] at h
    rcases hd with hd | hd <;> rw [hd] at h
    · simp only [listDeser, if_true, orDecodeError] at h
      cases h; exact .inr ⟨_, rfl, a, b, fun _ => .inl c⟩
    · simp only [spSepDeser, orDecodeError] at h
      cases h; exact .inr ⟨_, rfl, a, b, fun _ => .inl c⟩
  | list l =>
    unfold addValue at h
    split at h
    · cases h; exact .inl rfl
    next hig =>
    simp only [ht, addToList, Val.isNone, Ty.isInst, Bool.false_eq_true, if_false] at h
    right
    have hl0 : l ≠ [] := by
      rintro rfl
      simp [ignoredList, hn] at hig
    have hkeep : ∀ ss : List String, l = ss.map .str → ss ≠ [] ∧ ss ≠ [""] := by
      rintro ss rfl
      refine ⟨fun e => hl0 (by rw [e]; rfl), ?_⟩
      rintro rfl
      simp [isBlank] at hb
    cases hw : addListOfList .str sp.deser l with
    | error e => rw [hw] at h; cases h
    | ok w =>
      rw [hw] at h
      cases h
      simp only [addListOfList] at hw
      obtain ⟨u, hu, hw⟩ := res_bind_ok hw
      have same : ∀ l, u = .list l → w = .list l ∧ ∃ ss : List String, l = ss.map .str := by
        rintro l rfl
        have hw' : w = .list l := by
          simp only [checkItems, Val.iter, bind, Except.bind] at hw
          split at hw <;> cases hw
          rfl
        subst hw'
        obtain ⟨ss, hs⟩ := checked_strs hw ⟨l, rfl⟩
        simp only [Val.list.injEq] at hs
        exact ⟨rfl, ss, hs⟩
      rcases hd with hd | hd
      · rw [hd] at hu
        have hu := orDecode_ok (r := listDeser (.list l) .dict) hu
        simp only [listDeser] at hu
        cases hu
        obtain ⟨rfl, ss, rfl⟩ := same l rfl
        obtain ⟨a, b⟩ := hkeep ss rfl
        refine ⟨ss, rfl, a, b, fun e => ?_⟩
        rw [hd] at e
        simp only [Option.some.injEq] at e
        have := congrFun (congrFun e (.int 0)) .urlencoded
        simp [listDeser, spSepDeser] at this
      · rw [hd] at hu
        have hu := orDecode_ok (r := spSepDeser _ _) hu
        rcases l with _ | ⟨x, _ | ⟨y, l⟩⟩
        · exact absurd rfl hl0
        · simp only [spSepDeser] at hu
          cases x with
          | str s =>
            cases hu
            have hs : s ≠ "" := by simpa [isBlank] using hb
            obtain ⟨a, b, c⟩ := hsplit s hs
            obtain ⟨rfl, _⟩ := same _ rfl
            exact ⟨_, rfl, a, b, fun _ => .inl c⟩
          | _ => cases hu
        · simp only [spSepDeser] at hu
          cases hu
          obtain ⟨rfl, ss, hs⟩ := same _ rfl
          obtain ⟨a, b⟩ := hkeep ss hs
          exact ⟨ss, by rw [hs], a, b, fun _ => .inr ⟨_, _, _, rfl, hs.symm⟩⟩

/-- the messages of a list are built a second time, and come out as they were -/
theorem built_same {env : SerEnv} {sub : Schema} (hd : sub.default = []) : ∀ {rs : List Dict} {ms : List Val},
    (∀ r ∈ rs, DNodup r ∧ ∀ k v, (k, v) ∈ r → Faithful env true sub k v) →
    buildEach (ctor sub) (rs.map (.msg sub.cls)) = .ok ms →
    ∃ qs : List Dict, ms = qs.map (.msg sub.cls) ∧ qs.length = rs.length ∧
      (∀ q ∈ qs, DNodup q ∧ dhas q "self" = false ∧ dhas q "set_defaults" = false) ∧
      ∀ q ∈ qs, ∀ k v, (k, v) ∈ q → Faithful env true sub k v
  | [], ms, _, h => by cases h; exact ⟨[], rfl, rfl, by simp, by simp⟩
  | r :: rs, ms, hk, h => by
    simp only [List.map_cons, buildEach, Val.itemsOf] at h
    obtain ⟨_, h0, h⟩ := res_bind_ok h
    cases h0
    obtain ⟨m, h1, h⟩ := res_bind_ok h
    obtain ⟨ms', h2, h⟩ := res_bind_ok h
    cases h
    obtain ⟨qs, rfl, hl, hq1, hq2⟩ := built_same hd (fun x hx => hk x (by simp [hx])) h2
    obtain ⟨q, h3, rfl⟩ := res_map_ok h1
    obtain ⟨hrn, hrf⟩ := hk r (by simp)
    unfold construct at h3
    split at h3
    · cases h3
    next hself =>
    have hi : initialDict sub r = [] := by
      unfold initialDict
      split
      · rw [hd]; split <;> rfl
      · exact hd
    have hmem : ∀ k v, (k, v) ∈ ddel r "set_defaults" → (k, v) ∈ r := fun k v hm => (List.mem_filter.1 hm).1
    have hdn : DNodup (ddel r "set_defaults") := ddel_nodup hrn _
    rw [hi, dict_stable (fun k v hm => (faithful_ok (hrf k v (hmem k v hm))).2 rfl), dupdate_nil_left hdn] at h3
    cases h3
    refine ⟨ddel r "set_defaults" :: qs, by simp, by simp [hl], fun x hx => ?_, fun x hx => ?_⟩
    · rcases List.mem_cons.1 hx with rfl | hx
      · refine ⟨hdn, ?_, ?_⟩
        · rw [dhas_eq_false_iff, dget_ddel_ne _ (by decide)]
          rw [← dhas_eq_false_iff]
          simpa using hself
        · rw [dhas_eq_false_iff, dget_ddel_same]
      · exact hq1 x hx
    · rcases List.mem_cons.1 hx with rfl | hx
      · exact fun k v hm => hrf k v (hmem k v hm)
      · exact hq2 x hx

/-- one entry, at any depth -/
theorem tidy_step {env : SerEnv} {s : Bool} {sch : Schema} {k : String} {v : Val} (ht : Tidy env s sch k v) :
    v.isJson = true → ∀ st st', addItem sch st k v = .ok st' → st' = st ∨ ∃ w, st' = dset st k w ∧ Faithful env s sch k w := by
  induction ht with
  | @undeclared s sch k v hl =>
    intro hj st st' h
    unfold addItem at h
    split at h
    · cases h; exact .inl rfl
    next hb =>
    rw [hl] at h
    cases h
    refine .inr ⟨v, rfl, .plain (.undeclared hl hj ?_ ?_)⟩ <;> rintro rfl <;> simp [isBlank] at hb
  | @single s sch k v b sp t hl ht htt hs hd =>
    intro hj st st' h
    unfold addItem at h
    split at h
    · cases h; exact .inl rfl
    next hb =>
    rw [hl] at h
    simp only at h
    split at h
    · next hnn =>
      cases h
      have : v = .none := by
        simp only [Bool.and_eq_true] at hnn
        cases v <;> first | rfl | (cases hnn.2; done)
      subst this
      exact .inr ⟨_, rfl, .plain (.null hl ht hs)⟩
    · unfold addValue at h
      split at h
      · cases h; exact .inl rfl
      rw [ht] at h
      simp only at h
      split at h
      · next w hw =>
        cases h
        refine .inr ⟨w, rfl, .plain ?_⟩
        rcases htt with rfl | rfl | rfl
        · cases v <;> simp [singleValue, Ty.isInst, hd, coerceSingle] at hw
          · subst hw; exact .null hl ht hs
          · subst hw; exact .str hl ht hs (by simpa [isBlank] using hb)
        · unfold singleValue at hw
          split at hw
          · cases hw; exact .null hl ht hs
          · cases hw
          · next hne hnb =>
            split at hw
            · next hi =>
              cases hw
              cases v <;> first | (cases hi; done) | skip
              · exact absurd rfl (hnb _)
              · exact .int hl ht hs
            · rw [hd] at hw
              simp only [coerceSingle] at hw
              split at hw
              · cases hw; exact .int hl ht hs
              · cases hw
        · cases v <;> simp [singleValue, Ty.isInst, hd, coerceSingle] at hw
          · subst hw; exact .null hl ht hs
          · subst hw; exact .bool hl ht hs
      · cases h
  | @strList s sch k v sp hl ht hn hs hd hv =>
    intro hj st st' h
    unfold addItem at h
    split at h
    · cases h; exact .inl rfl
    next hb =>
    rw [hl] at h
    simp only [Bool.false_and, Bool.false_eq_true, if_false] at h
    rcases strs_kept ht hn (.inl hd) hv (by simpa using hb) h with e | ⟨ss, e, h1, h2, _⟩
    · exact .inl e
    · exact .inr ⟨_, e, .plain (.strList hl ht hs hd h1 h2)⟩
  | @spSep s sch k v sp hl ht hn hs hd hv hsp =>
    intro hj st st' h
    unfold addItem at h
    split at h
    · cases h; exact .inl rfl
    next hb =>
    rw [hl] at h
    simp only [Bool.false_and, Bool.false_eq_true, if_false] at h
    rcases strs_kept ht hn (.inr hd) hv (by simpa using hb) h with e | ⟨ss, e, h1, h2, h3⟩
    · exact .inl e
    · refine .inr ⟨_, e, .plain (.spSep hl ht hs hd h1 h2 ?_)⟩
      rcases h3 hd with h3 | ⟨x, y, l, h3, h4⟩
      · exact h3
      · intro p hp
        exact hsp x y l h3 p (by rw [← h4]; exact List.mem_map.2 ⟨p, hp, rfl⟩)
  | @obj s sch k b sp d hl ht hs =>
    intro hj st st' h
    have hadd : addItem sch st k (.dict d) = .ok (dset st k (.dict d)) := by
      simp [addItem, isBlank, hl, addValue, ignoredList, ht, singleValue, Val.isNone, Ty.isInst]
    rw [hadd] at h
    cases h
    refine .inr ⟨_, rfl, .plain ?_⟩
    rcases hs with ⟨hs, hd⟩ | hs
    · exact .json hl ht hs hd hj
    · exact .dict hl ht hs hj
  | @msg s sch k b sp c isSub build f sub d hl ht hs hf hr hro hi hd he _ ih =>
    intro hj st st' h
    simp only [addItem, isBlank, hl, Val.isNone, Bool.and_false, addValue, ignoredList, ht, singleValue, Ty.isInst, hf,
      Bool.false_eq_true, if_false] at h
    split at h
    · next w hw =>
      cases h
      obtain ⟨r, hr1, rfl⟩ := hro d w hj (orDecode_ok hw)
      rw [hd] at hr1
      obtain ⟨a1, a2⟩ := all_entries (Q := fun k v => Faithful env false sub k v)
        (fun k v hm st st' e => ih k v hm (isJsonDict_mem (isJson_dict hj) hm) st st' e) (by simp) (by simp [DNodup]) hr1
      exact .inr ⟨_, rfl, .msg hl ht hs hf hr hi hd he a2 a1⟩
    · cases h
  | @msgs sch k b sp isSub f sub ds hl ht hs hf hr hro hd he hne _ ih =>
    intro hj st st' h
    have hjs : ∀ d ∈ ds, (Val.dict d).isJson = true := by
      exact isJsonList_mem (by simpa [Val.isJson] using hj)
    have hb : isBlank (.list (ds.map .dict)) = false := by
      cases ds with
      | nil => rfl
      | cons d ds => cases ds <;> rfl
    simp only [addItem, hb, hl, Val.isNone, Bool.and_false, addValue, Bool.false_eq_true, if_false, ht] at h
    split at h
    · cases h; exact .inl rfl
    · simp only [addToList, Val.isNone, Ty.isInst, Bool.false_eq_true, if_false] at h
      split at h
      · next w hw =>
        cases h
        simp only [addListOfList, hf, deserList] at hw
        obtain ⟨u, hu, hw⟩ := res_bind_ok hw
        obtain ⟨rs, hrs, rfl⟩ := hro ds u hjs (orDecode_ok hu)
        simp only [checkItems, Val.iter] at hw
        have hw := orDecode_ok hw
        obtain ⟨_, h0, hw⟩ := res_bind_ok hw
        cases h0
        obtain ⟨ms, h1, hw⟩ := res_bind_ok hw
        cases hw
        have hk : ∀ r ∈ rs, DNodup r ∧ ∀ k v, (k, v) ∈ r → Faithful env true sub k v := by
          intro r hr
          have : Except.ok r ∈ rs.map (Except.ok : Dict → Res Dict) := List.mem_map.2 ⟨r, hr, rfl⟩
          rw [← hrs] at this
          obtain ⟨d, hd1, hd2⟩ := List.mem_map.1 this
          rw [hd] at hd2
          exact (all_entries (Q := fun k v => Faithful env true sub k v)
            (fun k v hm st st' e => ih d hd1 k v hm (isJsonDict_mem (isJson_dict (hjs d hd1)) hm) st st' e)
            (by simp) (by simp [DNodup]) hd2).symm
        obtain ⟨qs, rfl, hlen, hq1, hq2⟩ := built_same hd hk h1
        have hlr : ds.length = rs.length := by simpa using congrArg List.length hrs
        refine .inr ⟨_, rfl, .msgs hl ht hs hf hr (fun e => by cases e) hd he ?_ hq1 hq2⟩
        rintro rfl
        simp only [List.length_nil] at hlen
        exact hne (List.length_eq_zero_iff.1 (by omega))
      · cases h

/-- C159, JSON: a message that was read from a JSON object by a new instance can be written, and what is written is read
as the same message: the same parameters in the same order with the same values. -/
theorem C159_json_partial (env : SerEnv) (sch : Schema) (henv : ∀ k, env sch.cls k = serFor sch.params k) (d : Dict)
    (txt : String) (st : Dict) (hj : (Val.dict d).isJson = true) (ht : loads txt = .ok (.dict d))
    (htidy : ∀ k v, (k, v) ∈ d → Tidy env false sch k v) (h : fromJson sch [] txt = .ok st) :
    ∃ txt', toJson env sch.cls st = .ok txt' ∧ fromJson sch [] txt' = .ok st := by
  simp only [fromJson, ht, bind, Except.bind, Val.itemsOf] at h
  obtain ⟨h1, h2⟩ := all_entries (Q := fun k v => Faithful env false sch k v)
    (fun k v hm st st' e => tidy_step (htidy k v hm) (isJsonDict_mem (isJson_dict hj) hm) st st' e)
    (by simp) (by simp [DNodup]) h
  obtain ⟨t, t1, t2, _⟩ := C89_partial env sch henv st h2 h1
  exact ⟨t, t1, t2⟩

/-! ## forms -/

theorem utf8Decode_ne_nil {bs : List Nat} (h : bs ≠ []) : utf8Decode bs ≠ [] := by
  cases bs with
  | nil => exact absurd rfl h
  | cons b r =>
    unfold utf8Decode
    repeat' split
    all_goals simp

theorem unquoteBytes_ne_nil {s : List Char} (h : s ≠ []) : unquoteBytes s ≠ [] := by
  cases s with
  | nil => exact absurd rfl h
  | cons c r =>
    unfold unquoteBytes
    repeat' split
    all_goals simp

theorem unquoteRuns_ne_nil : ∀ (s acc : List Char), s ≠ [] ∨ acc ≠ [] → unquoteRuns acc s ≠ []
  | [], acc, h => by
    simp only [unquoteRuns]
    exact utf8Decode_ne_nil (unquoteBytes_ne_nil (by simpa using h))
  | c :: cs, acc, h => by
    unfold unquoteRuns
    split
    · exact unquoteRuns_ne_nil cs (c :: acc) (.inr (by simp))
    · simp

/-- `parse_qsl` never gives an empty value -/
theorem parseQsl_value {qs : String} {p : String × String} (h : p ∈ parseQsl qs) : p.2 ≠ "" := by
  simp only [parseQsl, List.mem_map] at h
  obtain ⟨q, hq, rfl⟩ := h
  simp only [parseQslC, List.mem_filterMap] at hq
  obtain ⟨t, -, ht⟩ := hq
  unfold parsePiece at ht
  split at ht
  · cases ht
  · next n v _ =>
    split at ht
    · cases ht
    · next hv =>
      cases ht
      have : unquotePlusC v ≠ [] := unquoteRuns_ne_nil _ _ (.inl (by
        intro e
        apply hv
        simpa using e))
      intro e
      exact this (by simpa using congrArg String.toList e)

theorem valuesOf_value {qs k v : String} (h : v ∈ valuesOf k (parseQsl qs)) : v ≠ "" := by
  simp only [valuesOf, List.mem_map, List.mem_filter] at h
  obtain ⟨p, ⟨hp, -⟩, rfl⟩ := h
  exact parseQsl_value hp

theorem addUrls_keys {sch : Schema} : ∀ {info : Assoc (List String)} {st st' : Dict}, addUrls sch st info = .ok st' →
    DNodup st → DNodup st'
  | [], st, st', h, hn => by cases h; exact hn
  | (k, vs) :: t, st, st', h, hn => by
    simp only [addUrls] at h
    cases e : addUrl sch st k vs with
    | error x => rw [e] at h; cases h
    | ok s1 =>
      rw [e] at h
      obtain ⟨x, rfl, _⟩ := addUrl_get e
      exact addUrls_keys h (dset_nodup hn _ _)

/-- C159, forms: a form that was read by a new instance, with parameters that are undeclared, single values without
conversion, or lists of strings, is written and read again as the same message, when the required parameters are there. -/
theorem C159_form (env : SerEnv) (sch : Schema) (txt : String) (st : Dict) (htxt : txt ≠ "")
    (hp : ∀ k ∈ (parseQsl txt).map Prod.fst, Unconverted sch k ∨ StrListParam sch k)
    (h : fromUrlencoded sch [] txt = .ok st) (hreq : ¬ RequiredMissing sch st) :
    ∃ txt', toUrlencoded env sch st = .ok txt' ∧ fromUrlencoded sch [] txt' = .ok st := by
  have hg := form_get h
  have h' := h
  unfold fromUrlencoded at h'
  simp only at h'
  split at h'
  · cases h'
  next hinfo =>
  have hn : DNodup st := addUrls_keys h' (by simp [DNodup])
  have hne : st ≠ [] := by
    rintro rfl
    cases hi : parseQs txt with
    | nil => exact hinfo ⟨htxt, hi⟩
    | cons p r =>
      obtain ⟨k, vs⟩ := p
      have hk : dget (parseQs txt) k = some vs := by rw [hi]; simp [dget_cons]
      rw [dget_parseQs] at hk
      split at hk
      · cases hk
      · next hv =>
        obtain ⟨x, hx, _⟩ := (hg k).2 hv
        simp at hx
  refine C08_roundtrip env sch st hn hne (fun k v hm => ?_) hreq
  have hd : dget st k = some v := mem_dget hn hm
  have hv : valuesOf k (parseQsl txt) ≠ [] := by
    intro e
    have := (hg k).1 e
    rw [hd] at this
    cases this
  obtain ⟨x, hx, ha⟩ := (hg k).2 hv
  rw [hd] at hx
  cases hx
  have hval : ∀ u ∈ valuesOf k (parseQsl txt), u ≠ "" := fun u hu => valuesOf_value hu
  have hkm : k ∈ (parseQsl txt).map Prod.fst := by
    by_cases hk : k ∈ (parseQsl txt).map Prod.fst
    · exact hk
    · exact absurd ((valuesOf_nil_iff _ _).2 hk) hv
  have ha := ha []
  revert hval ha hv
  generalize valuesOf k (parseQsl txt) = vs
  intro hv hval ha
  rcases hp k hkm with hu | hs
  · rcases vs with _ | ⟨a, _ | ⟨b, vs⟩⟩
    · exact absurd rfl hv
    · rw [addUrl_unconverted hu] at ha
      simp [dset] at ha
      subst ha
      exact .str hu (hval a (by simp))
    · rcases hu with hl | ⟨b', sp, t, hl, ht, _, _⟩
      · simp [addUrl, hl, dset] at ha
        subst ha
        have := UrlReturns.many (sch := sch) (k := k) (s := a) (t := b) (ss := vs) hl (fun x hx => hval x hx)
        simpa using this
      · simp [addUrl, hl, ht] at ha
  · have hs0 := hs
    obtain ⟨b, sp, hl, ht, hsd⟩ := hs
    rcases vs with _ | ⟨a, vs⟩
    · exact absurd rfl hv
    · have hx : v = .list ((pySplit ' ' a).map .str) := by
        rcases hsd with ⟨_, hd⟩ | ⟨_, hd⟩ <;>
        · simp [addUrl, hl, ht, hd, listDeser, spSepDeser, dset, bind, Except.bind] at ha
          exact ha.symm
      subst hx
      exact .strList hs0 (pySplit_ne_nil _ _) (fun e => hval a (by simp) (pySplit_blank e)) (pySplit_noSpace a)

/-! ## the hypotheses can be met -/

/-- a request with a request for claims inside -/
example : ∀ k v, (k, v) ∈ ([("client_id", .str "c"), ("scope", .list [.str "openid email"]), ("x", .list [.int 1, .none]),
      ("claims", .dict [("id_token", .dict [("acr", .dict [("essential", .bool true)])])])] : Dict) →
    Tidy libEnv false oidc_AuthorizationRequest k v := by
  intro k v h
  simp only [List.mem_cons, Prod.mk.injEq, List.not_mem_nil, or_false] at h
  rcases h with ⟨rfl, rfl⟩ | ⟨rfl, rfl⟩ | ⟨rfl, rfl⟩ | ⟨rfl, rfl⟩
  · exact .single (b := false) (sp := singleRequiredString) (by rfl) rfl (.inl rfl) rfl rfl
  · exact .spSep (sp := requiredListOfSpSepStrings) (by rfl) rfl rfl rfl rfl (by simp) (by simp)
  · exact .undeclared (by rfl)
  · refine .msg (sub := oidc_ClaimsRequest) (b := false)
      (sp := ⟨.single messageTy, false, some .msgJson, some (jsonMsgDeser oidc_ClaimsRequest), false⟩)
      (by rfl) rfl (by decide) rfl (reads_jsonMsg _) (only_jsonMsg _) rfl rfl (fun _ => rfl) ?_
    intro k v h
    simp only [List.mem_cons, Prod.mk.injEq, List.not_mem_nil, or_false] at h
    obtain ⟨rfl, rfl⟩ := h
    refine .msg (sub := oidc_Claims) (b := false)
      (sp := ⟨.single messageTy, false, some .claims, some (deserializeFromOneOf oidc_Claims), false⟩)
      (by rfl) rfl (by decide) rfl (reads_oneOf _) (only_oneOf _) rfl rfl (fun _ => rfl) ?_
    intro k v h
    simp only [List.mem_cons, Prod.mk.injEq, List.not_mem_nil, or_false] at h
    obtain ⟨rfl, rfl⟩ := h
    exact .undeclared (by rfl)

/-- a list of links, and a registration -/
example : Tidy libEnv false oidc_JRD "links" (.list [.dict [("rel", .str "self"), ("titles", .dict [("en", .str "x")])],
    .dict []]) := by
  refine .msgs (sub := oidc_Link) (b := false) (ds := [[("rel", .str "self"), ("titles", .dict [("en", .str "x")])], []])
    (sp := ⟨.list (tyOf oidc_Link), true, some .linkList, some (linkDeser oidc_Link), false⟩)
    (by rfl) rfl (.inr ⟨rfl, rfl⟩) rfl (reads_links _) (only_links _) rfl (fun _ => rfl) (by simp) ?_
  intro d hd k v h
  simp only [List.mem_cons, List.not_mem_nil, or_false] at hd
  rcases hd with rfl | rfl
  · simp only [List.mem_cons, Prod.mk.injEq, List.not_mem_nil, or_false] at h
    rcases h with ⟨rfl, rfl⟩ | ⟨rfl, rfl⟩
    · exact .single (b := false) (sp := singleRequiredString) (by rfl) rfl (.inl rfl) rfl rfl
    · exact .obj (b := false) (sp := ⟨.single .dict, false, some .msgJson, some dictDeser, false⟩) (by rfl) rfl (.inr rfl)
  · simp at h

/-- a form: the hypotheses, and the message -/
example : (∀ k ∈ (parseQsl "client_id=c&response_type=code+id_token&x=1&x=2").map Prod.fst,
      Unconverted oauth2_AuthorizationRequest k ∨ StrListParam oauth2_AuthorizationRequest k) ∧
    fromUrlencoded oauth2_AuthorizationRequest [] "client_id=c&response_type=code+id_token&x=1&x=2" =
      .ok [("client_id", .str "c"), ("response_type", .list [.str "code", .str "id_token"]),
        ("x", .list [.str "1", .str "2"])] := by
  refine ⟨?_, by decide +kernel⟩
  have : (parseQsl "client_id=c&response_type=code+id_token&x=1&x=2").map Prod.fst =
    ["client_id", "response_type", "x", "x"] := by decide +kernel
  rw [this]
  intro k hk
  simp only [List.mem_cons, List.not_mem_nil, or_false] at hk
  rcases hk with rfl | rfl | rfl | rfl
  · exact .inl (.inr ⟨false, singleRequiredString, .str, by rfl, rfl, rfl, rfl⟩)
  · exact .inr ⟨false, requiredListOfSpSepStrings, by rfl, rfl, .inr ⟨rfl, rfl⟩⟩
  · exact .inl (.inl (by rfl))
  · exact .inl (.inl (by rfl))

/-! ## where it fails -/

/-- A list of several texts in a space separated parameter is kept as it is, and passing it on gives the same list just
when none of the texts has a space. -/
theorem C159_space_separated (env : SerEnv) (sch : Schema) (henv : ∀ k, env sch.cls k = serFor sch.params k) (k : String)
    (sp : Spec) (hl : lookupSpec sch.params k = some (false, sp)) (ht : sp.vtyp = .list .str) (hs : sp.ser = some .spSep)
    (hd : sp.deser = some spSepDeser) (x y : String) (l : List String) :
    fromDictR sch [] [(k, .list ((x :: y :: l).map .str))] = .ok [(k, .list ((x :: y :: l).map .str))] ∧
    ∃ txt st', toJson env sch.cls [(k, .list ((x :: y :: l).map .str))] = .ok txt ∧ fromJson sch [] txt = .ok st' ∧
      dget st' k = some (.list ((pySplit ' ' (pyJoin ' ' (x :: y :: l))).map .str)) ∧
      (st' = [(k, .list ((x :: y :: l).map .str))] ↔ ∀ p ∈ x :: y :: l, ' ' ∉ p.toList) := by
  have hall : ∀ l : List String, ((l.map Val.str).all fun v => Ty.isInst .str v) = true := by
    intro l
    simp [Ty.isInst]
  constructor
  · have := hall (x :: y :: l)
    simp only [List.map_cons] at this ⊢
    simp [fromDictR, fromDict, addItem, isBlank, hl, addValue, ignoredList, ht, addToList, Val.isNone, Ty.isInst,
      addListOfList, deserList, hd, spSepDeser, orDecodeError, checkItems, Val.iter, bind, Except.bind, dset] at this ⊢
  · have hj : pyJoin ' ' (x :: y :: l) ≠ "" := by
      intro e
      have := congrArg String.toList e
      simp [pyJoin, joinC] at this
    obtain ⟨txt, h1, h2⟩ := loads_dumps (.dict [(k, .str (pyJoin ' ' (x :: y :: l)))])
      (by simp [Val.isJson, Val.isJsonDict])
    have hser : serDict env (serFor sch.params k) (.list ((x :: y :: l).map .str)) = .ok (.str (pyJoin ' ' (x :: y :: l))) := by
      simp only [serFor, hl, Option.bind, hs, serDict_spSep, spaceJoin, joinStrs_map]
    refine ⟨txt, [(k, .list ((pySplit ' ' (pyJoin ' ' (x :: y :: l))).map .str))], ?_, ?_, ?_, ?_⟩
    · simp only [toJson, toDict, henv, hser, h1, bind, Except.bind]
    · simp [fromJson, h2, bind, Except.bind, Val.itemsOf, fromDictR, fromDict, addItem, isBlank, hj, hl, addValue, ignoredList,
        ht, addToList, Val.isNone, Ty.isInst, hd, spSepDeser, orDecodeError, dset]
    · simp [dget]
    · have hinj : ∀ a b : List String, a.map Val.str = b.map Val.str ↔ a = b := fun a b =>
        List.map_inj_right (fun _ _ e => by injection e)
      simp only [List.cons.injEq, Prod.mk.injEq, true_and, and_true, Val.list.injEq]
      rw [hinj, pySplit_pyJoin_iff]
      simp

/-- C159 fails for space separated strings in general: a list of several texts is kept as it is, the text with a space
comes apart when the message is passed on.  The second reader sees a scope the first did not see. -/
theorem C159_counterexample_scope : ∃ st txt' st',
    fromJson oauth2_AccessTokenResponse [] "{\"access_token\": \"t\", \"token_type\": \"b\", \"scope\": [\"openid admin\", \"email\"]}" = .ok st ∧
    dget st "scope" = some (.list [.str "openid admin", .str "email"]) ∧
    toJson libEnv oauth2_AccessTokenResponse.cls st = .ok txt' ∧ fromJson oauth2_AccessTokenResponse [] txt' = .ok st' ∧
    dget st' "scope" = some (.list [.str "openid", .str "admin", .str "email"]) :=
  ⟨[("access_token", .str "t"), ("token_type", .str "b"), ("scope", .list [.str "openid admin", .str "email"])],
    "{\"access_token\": \"t\", \"token_type\": \"b\", \"scope\": \"openid admin email\"}",
    [("access_token", .str "t"), ("token_type", .str "b"), ("scope", .list [.str "openid", .str "admin", .str "email"])],
    by decide +kernel, by decide +kernel, by decide +kernel, by decide +kernel, by decide +kernel⟩

end Verif
