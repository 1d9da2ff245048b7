import Verif.Props.NestedRoundTrip
import Verif.Props.OneOf
import Verif.Props.Nested

/-!
# C91: what was read from JSON can be written as JSON again
-/

namespace Verif

/-- The value can be written, and what is written is JSON data. -/
def Writable (env : SerEnv) (sch : Schema) (k : String) (v : Val) : Prop :=
  ∃ v', serDict env (serFor sch.params k) v = .ok v' ∧ v'.isJson = true

/-- Parameters and values for which reading leaves something that can be written: undeclared parameters; single values
without serialiser and deserialiser; lists of strings, unless the value is an object. -/
def Tame (sch : Schema) (k : String) (v : Val) : Prop :=
  lookupSpec sch.params k = none ∨
  (∃ b sp t, lookupSpec sch.params k = some (b, sp) ∧ sp.vtyp = .single t ∧ sp.ser = none ∧ sp.deser = none) ∨
  (∃ b sp, lookupSpec sch.params k = some (b, sp) ∧ sp.vtyp = .list .str ∧ sp.nullAllowed = false ∧ b = false ∧
    (sp.ser = some .list ∧ sp.deser = some listDeser ∨ sp.ser = some .spSep ∧ sp.deser = some spSepDeser) ∧
    ∀ d, v ≠ .dict d)

theorem coerce_json {t : Ty} {v w : Val} (h : coerceSingle t v = .ok w) (hv : v.isJson = true) : w.isJson = true := by
  cases t with
  | int =>
    simp only [coerceSingle] at h
    cases hp : pyInt v with
    | none => rw [hp] at h; cases h
    | some i => rw [hp] at h; cases h; rfl
  | msg c _ _ =>
    simp only [coerceSingle] at h
    split at h
    · cases v <;> cases h
      · rfl
      · exact hv
    · cases h
  | _ => cases h

theorem single_json {t : Ty} {sp : Spec} {v w : Val} (hd : sp.deser = none) (h : singleValue t sp v = .ok w)
    (hv : v.isJson = true) : w.isJson = true := by
  unfold singleValue at h
  split at h
  · cases h; rfl
  · split at h <;> cases h; rfl
  · split at h
    · cases h; exact hv
    · rw [hd] at h
      exact coerce_json h hv

theorem all_str {vs : List Val} (h : (vs.all fun v => Ty.isInst .str v) = true) : ∃ ss : List String, vs = ss.map .str := by
  induction vs with
  | nil => exact ⟨[], rfl⟩
  | cons v vs ih =>
    simp only [List.all_cons, Bool.and_eq_true] at h
    obtain ⟨ss, rfl⟩ := ih h.2
    have h1 := h.1
    cases v <;> first | (cases h1; done) | skip
    exact ⟨_ :: ss, rfl⟩

theorem splitItem_strs {v w : Val} (h : splitItem v = .ok w) : ∃ ss : List String, w = .list (ss.map .str) := by
  cases v <;> first | (cases h; done) | skip
  cases h
  exact ⟨_, rfl⟩

/-- the checked items of a list of strings -/
theorem checked_strs {v w : Val} (h : checkItems .str v = .ok w) (hl : ∃ l, v = .list l) :
    ∃ ss : List String, w = .list (ss.map .str) := by
  obtain ⟨l, rfl⟩ := hl
  simp only [checkItems, Val.iter, bind, Except.bind] at h
  split at h
  · next ha =>
    cases h
    obtain ⟨ss, rfl⟩ := all_str ha
    exact ⟨ss, rfl⟩
  · cases h

theorem orDecode_ok {α : Type} {r : Res α} {a : α} (h : orDecodeError r = .ok a) : r = .ok a := by
  unfold orDecodeError at h
  split at h
  · exact h
  · cases h
  · cases h

theorem strs_of_list {sp : Spec} {st st' : Dict} {k : String} {v : Val} (ht : sp.vtyp = .list .str)
    (hn : sp.nullAllowed = false) (hd : sp.deser = some listDeser ∨ sp.deser = some spSepDeser) (hv : ∀ d, v ≠ .dict d)
    (h : addValue sp st k v = .ok st') : st' = st ∨ ∃ ss : List String, st' = dset st k (.list (ss.map .str)) := by
  unfold addValue at h
  split at h
  · cases h; exact .inl rfl
  · rw [ht] at h
    simp only at h
    unfold addToList at h
    split at h
    · rw [hn] at h; cases h
    · split at h
      · next hi =>
        cases v <;> first | (cases hi; done) | skip
        rcases hd with hd | hd <;> rw [hd] at h
        · simp only [listDeser, if_true, orDecodeError] at h
          cases h; exact .inr ⟨_, rfl⟩
        · simp only [spSepDeser, orDecodeError] at h
          cases h; exact .inr ⟨_, rfl⟩
      · split at h
        · next l =>
          split at h
          · next w hw =>
            cases h
            right
            simp only [addListOfList, bind, Except.bind] at hw
            split at hw
            · cases hw
            · next u hu =>
              have hl : ∃ l, u = .list l := by
                rcases hd with hd | hd <;> rw [hd] at hu <;> simp only [deserList] at hu
                · have := orDecode_ok (r := listDeser _ _) hu
                  simp [listDeser] at this
                  exact ⟨_, this.symm⟩
                · have := orDecode_ok (r := spSepDeser _ _) hu
                  unfold spSepDeser at this
                  split at this
                  · next e => cases e
                  · obtain ⟨ss, rfl⟩ := splitItem_strs this; exact ⟨_, rfl⟩
                  · cases this; exact ⟨_, rfl⟩
              obtain ⟨ss, rfl⟩ := checked_strs hw hl
              exact ⟨ss, rfl⟩
          · cases h
        · exact absurd rfl (hv _)
        · cases h

theorem serDict_list_strs (env : SerEnv) (ss : List String) :
    serDict env (some .list) (.list (ss.map .str)) = .ok (.list (ss.map .str)) := by
  cases ss <;> simp [serDict]

/-- one entry -/
theorem tame_step {env : SerEnv} {sch : Schema} {st st' : Dict} {k : String} {v : Val} (ht : Tame sch k v)
    (hj : v.isJson = true) (h : addItem sch st k v = .ok st') :
    st' = st ∨ ∃ w, st' = dset st k w ∧ Writable env sch k w ∧ Tame sch k w ∧ w.isJson = true := by
  unfold addItem at h
  split at h
  · cases h; exact .inl rfl
  · rcases ht with hl | ⟨b, sp, t, hl, ht, hs, hd⟩ | ⟨b, sp, hl, ht, hn, hb, hsd, hv⟩
    · rw [hl] at h
      cases h
      exact .inr ⟨v, rfl, ⟨v, by simp [serFor, hl, serDict_none_json env v hj], hj⟩, .inl hl, hj⟩
    · rw [hl] at h
      simp only at h
      have hw : ∀ w, w.isJson = true → Writable env sch k w ∧ Tame sch k w ∧ w.isJson = true := fun w hw =>
        ⟨⟨w, by simp [serFor, hl, hs, serDict_none_json env w hw], hw⟩, .inr (.inl ⟨b, sp, t, hl, ht, hs, hd⟩), hw⟩
      split at h
      · cases h; exact .inr ⟨v, rfl, hw v hj⟩
      · unfold addValue at h
        split at h
        · cases h; exact .inl rfl
        · rw [ht] at h
          simp only at h
          split at h
          · next w e => cases h; exact .inr ⟨w, rfl, hw w (single_json hd e hj)⟩
          · cases h
    · rw [hl, hb] at h
      simp only [Bool.false_and, Bool.false_eq_true, if_false] at h
      have hds : sp.deser = some listDeser ∨ sp.deser = some spSepDeser := by
        rcases hsd with ⟨_, h⟩ | ⟨_, h⟩
        · exact .inl h
        · exact .inr h
      rcases strs_of_list ht hn hds hv h with e | ⟨ss, e⟩
      · exact .inl e
      · refine .inr ⟨_, e, ?_, .inr (.inr ⟨b, sp, hl, ht, hn, hb, hsd, fun d => by simp⟩), isJsonList_strs ss⟩
        rcases hsd with ⟨hs, _⟩ | ⟨hs, _⟩
        · exact ⟨.list (ss.map .str), by simp only [serFor, hl, Option.bind, hs]; exact serDict_list_strs env ss, isJsonList_strs ss⟩
        · exact ⟨.str (pyJoin ' ' ss), by simp only [serFor, hl, Option.bind, hs, serDict_spSep, spaceJoin, joinStrs_map],
            rfl⟩

/-- what holds of every value that is stored holds of all entries afterwards -/
theorem all_entries {sch : Schema} {Q : String → Val → Prop} : ∀ {d st r : Dict},
    (∀ k v, (k, v) ∈ d → ∀ st st', addItem sch st k v = .ok st' → st' = st ∨ ∃ w, st' = dset st k w ∧ Q k w) →
    (∀ k v, (k, v) ∈ st → Q k v) → DNodup st → fromDictR sch st d = .ok r → (∀ k v, (k, v) ∈ r → Q k v) ∧ DNodup r
  | [], st, r, _, hst, hn, h => by
    simp only [fromDictR, fromDict] at h
    cases h; exact ⟨hst, hn⟩
  | (k, v) :: d, st, r, hd, hst, hn, h => by
    simp only [fromDictR, fromDict] at h
    cases e : addItem sch st k v with
    | error x => rw [e] at h; cases h
    | ok st1 =>
      rw [e] at h
      rcases hd k v (by simp) st st1 e with rfl | ⟨w, rfl, hw⟩
      · exact all_entries (fun k v hm => hd k v (by simp [hm])) hst hn h
      · refine all_entries (st := dset st k w) (fun k v hm => hd k v (by simp [hm])) (fun k' v' hm => ?_)
          (dset_nodup hn k w) h
        have := mem_dget (dset_nodup hn k w) hm
        rw [dget_dset] at this
        split at this
        · next hk => cases this; subst hk; exact hw
        · exact hst _ _ (dget_mem this)

theorem writable_toDict {env : SerEnv} {sch : Schema} (henv : ∀ k, env sch.cls k = serFor sch.params k) :
    ∀ {st : Dict}, (∀ k v, (k, v) ∈ st → Writable env sch k v) →
    ∃ d, toDict env sch.cls st = .ok d ∧ Val.isJsonDict d = true ∧ dkeys d = dkeys st
  | [], _ => ⟨[], by simp [toDict], rfl, rfl⟩
  | (k, v) :: st, h => by
    obtain ⟨w, h1, h2⟩ := h k v (by simp)
    obtain ⟨d, h3, h4, h5⟩ := writable_toDict henv (st := st) (fun k v hm => h k v (by simp [hm]))
    refine ⟨(k, w) :: d, ?_, ?_, ?_⟩
    · simp [toDict, henv, h1, h3, bind, Except.bind]
    · simp [Val.isJsonDict, h2, h4]
    · simp [h5]

theorem isJsonDict_mem {d : Dict} (h : Val.isJsonDict d = true) : ∀ {k v}, (k, v) ∈ d → v.isJson = true := by
  induction d with
  | nil => intro k v hm; simp at hm
  | cons p r ih =>
    obtain ⟨k', v'⟩ := p
    simp only [Val.isJsonDict, Bool.and_eq_true] at h
    intro k v hm
    rcases List.mem_cons.1 hm with e | hm
    · cases e; exact h.1
    · exact ih h.2 hm

/-- The deserialiser reads an object as a message of the class `sub`, or fails. -/
def ReadsOnly (f : Val → Fmt → Res Val) (sub : Schema) : Prop :=
  ∀ d w, (Val.dict d).isJson = true → f (.dict d) .dict = .ok w →
    ∃ r, fromDictR sub sub.default d = .ok r ∧ w = .msg sub.cls r

/-- The deserialiser reads a list of objects as a list of messages of the class `sub`, or fails. -/
def ReadsListOnly (f : Val → Fmt → Res Val) (sub : Schema) : Prop :=
  ∀ (ds : List Dict) w, (∀ d ∈ ds, (Val.dict d).isJson = true) → f (.list (ds.map .dict)) .dict = .ok w →
    ∃ rs : List Dict, ds.map (fromDictR sub sub.default) = rs.map .ok ∧ w = .list (rs.map (.msg sub.cls))

/-- `Tame`, with objects in parameters for objects, objects in parameters for messages whose entries are tame for the
class that is read, and lists of these.  The flag is true inside lists, whose messages are built a second time from
their entries; there are no further lists of messages there. -/
inductive TameIn (env : SerEnv) : Bool → Schema → String → Val → Prop
  | plain {s sch k v} : Tame sch k v → TameIn env s sch k v
  | obj {s sch k b sp d} : lookupSpec sch.params k = some (b, sp) → sp.vtyp = .single .dict →
      sp.ser ∈ [none, some .json, some .msg, some .msgJson, some .claims] → TameIn env s sch k (.dict d)
  | msg {s sch k b sp c isSub build f sub d} : lookupSpec sch.params k = some (b, sp) →
      sp.vtyp = .single (.msg c isSub build) → sp.ser ∈ [some .msg, some .msgJson, some .claims] →
      sp.deser = some f → ReadsOnly f sub → isSub sub.cls = true → sub.default = [] →
      (∀ k, env sub.cls k = serFor sub.params k) → (∀ k v, (k, v) ∈ d → TameIn env false sub k v) →
      TameIn env s sch k (.dict d)
  | msgs {sch k b sp isSub f sub} {ds : List Dict} : lookupSpec sch.params k = some (b, sp) →
      sp.vtyp = .list (.msg sub.cls isSub (ctor sub)) →
      (sp.ser = some .msgList ∨ sp.ser = some .linkList ∧ sub.cls = ⟨"oidc", "Link"⟩) →
      sp.deser = some f → ReadsListOnly f sub → sub.default = [] → (∀ k, env sub.cls k = serFor sub.params k) →
      (∀ d ∈ ds, ∀ k v, (k, v) ∈ d → TameIn env true sub k v) → TameIn env false sch k (.list (ds.map .dict))

/-- what may be in a parameter after reading: it can be written, and (with the flag) what comes of it when it is stored
once more can be written as well -/
def KeptIn (env : SerEnv) (s : Bool) (sch : Schema) (k : String) (w : Val) : Prop :=
  Writable env sch k w ∧
    (s = true → ∀ st st', addItem sch st k w = .ok st' → st' = st ∨ ∃ w', st' = dset st k w' ∧ Writable env sch k w')

theorem isJson_dict {d : Dict} (h : (Val.dict d).isJson = true) : Val.isJsonDict d = true := by
  simp only [Val.isJson, Bool.and_eq_true] at h
  first | exact h.1 | exact h.2

/-- a message all of whose entries can be written -/
theorem msg_writable {env : SerEnv} {sub : Schema} (henv : ∀ k, env sub.cls k = serFor sub.params k) {r : Dict}
    (h : ∀ k v, (k, v) ∈ r → Writable env sub k v) (hn : DNodup r) :
    ∃ e, toDict env sub.cls r = .ok e ∧ (Val.dict e).isJson = true := by
  obtain ⟨e, e1, e2, e3⟩ := writable_toDict henv h
  refine ⟨e, e1, ?_⟩
  have : (dkeys e).Nodup := by rw [e3]; exact hn
  simp [Val.isJson, e2, this]

/-- the messages of a list are built a second time -/
theorem built_again {env : SerEnv} {sub : Schema} (henv : ∀ k, env sub.cls k = serFor sub.params k)
    (hd : sub.default = []) : ∀ {rs : List Dict} {ms : List Val},
    (∀ r ∈ rs, ∀ k v, (k, v) ∈ r → KeptIn env true sub k v) →
    buildEach (ctor sub) (rs.map (.msg sub.cls)) = .ok ms →
    ∃ qs : List Dict, ms = qs.map (.msg sub.cls) ∧
      ∀ q ∈ qs, ∃ e, toDict env sub.cls q = .ok e ∧ (Val.dict e).isJson = true
  | [], ms, _, h => by cases h; exact ⟨[], rfl, by simp⟩
  | r :: rs, ms, hk, h => by
    simp only [List.map_cons, buildEach, Val.itemsOf] at h
    obtain ⟨_, h0, h⟩ := res_bind_ok h
    cases h0
    obtain ⟨m, h1, h⟩ := res_bind_ok h
    obtain ⟨ms', h2, h⟩ := res_bind_ok h
    cases h
    obtain ⟨qs, rfl, hq⟩ := built_again henv hd (fun x hx => hk x (by simp [hx])) h2
    obtain ⟨q, h3, rfl⟩ := res_map_ok h1
    unfold construct at h3
    split at h3
    · cases h3
    · have hi : initialDict sub r = [] := by
        unfold initialDict
        split
        · rw [hd]; split <;> rfl
        · exact hd
      rw [hi] at h3
      obtain ⟨a1, a2⟩ := all_entries (Q := fun k v => Writable env sub k v) (fun k v hm st st' e => by
        have hm' : (k, v) ∈ r := (List.mem_filter.1 hm).1
        exact (hk r (by simp) k v hm').2 rfl st st' e) (by simp) (by simp [DNodup]) h3
      refine ⟨q :: qs, by simp, fun x hx => ?_⟩
      rcases List.mem_cons.1 hx with rfl | hx
      · exact msg_writable henv a1 a2
      · exact hq x hx

theorem written_list {env : SerEnv} {c : Cls} : ∀ {qs : List Dict},
    (∀ q ∈ qs, ∃ e, toDict env c q = .ok e ∧ (Val.dict e).isJson = true) →
    ∃ es : List Dict, msgSerEach env (qs.map (.msg c)) = .ok (es.map .dict) ∧
      (c = linkCls → linkSerEach env (qs.map (.msg c)) = .ok (es.map .dict)) ∧
      ∀ e ∈ es, (Val.dict e).isJson = true
  | [], _ => ⟨[], by simp [msgSerEach], by simp [linkSerEach], by simp⟩
  | q :: qs, h => by
    obtain ⟨e, h1, h2⟩ := h q (by simp)
    obtain ⟨es, i1, i2, i3⟩ := written_list (qs := qs) (fun x hx => h x (by simp [hx]))
    refine ⟨e :: es, by simp [msgSerEach, h1, i1, bind, Except.bind], fun hc => ?_, fun x hx => ?_⟩
    · simp only [List.map_cons, linkSerEach, h1, i2 hc, bind, Except.bind]
      rw [if_pos hc]
    · rcases List.mem_cons.1 hx with rfl | hx
      · exact h2
      · exact i3 x hx

theorem isJsonList_mem : ∀ {ds : List Dict}, Val.isJsonList (ds.map .dict) = true → ∀ d ∈ ds, (Val.dict d).isJson = true
  | [], _ => by simp
  | d :: ds, h => by
    simp only [List.map_cons, Val.isJsonList, Bool.and_eq_true] at h
    intro x hx
    rcases List.mem_cons.1 hx with rfl | hx
    · exact h.1
    · exact isJsonList_mem h.2 x hx

/-- one entry, at any depth -/
theorem tameIn_step {env : SerEnv} {s : Bool} {sch : Schema} {k : String} {v : Val} (ht : TameIn env s sch k v) :
    v.isJson = true → ∀ st st', addItem sch st k v = .ok st' → st' = st ∨ ∃ w, st' = dset st k w ∧ KeptIn env s sch k w := by
  induction ht with
  | plain ht =>
    intro hj st st' h
    rcases tame_step (env := env) ht hj h with e | ⟨w, e, h1, h2, h3⟩
    · exact .inl e
    · refine .inr ⟨w, e, h1, fun _ st st' h => ?_⟩
      rcases tame_step (env := env) h2 h3 h with e | ⟨w', e, h4, _⟩
      · exact .inl e
      · exact .inr ⟨w', e, h4⟩
  | @obj s sch k b sp d hl ht hs =>
    intro hj st st' h
    have hadd : ∀ st, addItem sch st k (.dict d) = .ok (dset st k (.dict d)) := by
      intro st
      simp [addItem, isBlank, hl, addValue, ignoredList, ht, singleValue, Val.isNone, Ty.isInst]
    have hw : Writable env sch k (.dict d) := by
      have : serFor sch.params k = sp.ser := by simp [serFor, hl]
      unfold Writable
      rw [this]
      simp only [List.mem_cons, List.not_mem_nil, or_false] at hs
      rcases hs with e | e | e | e | e <;> rw [e]
      · exact ⟨.dict d, by simp [serDict, serPlain], hj⟩
      · obtain ⟨t, t1, _⟩ := loads_dumps _ hj
        exact ⟨.str t, by simp [serDict, serPlain, t1, Except.map], rfl⟩
      · exact ⟨.dict d, by simp [serDict, serPlain], hj⟩
      · exact ⟨.dict d, by simp [serDict, serPlain], hj⟩
      · exact ⟨.dict d, by simp [serDict, serPlain], hj⟩
    rw [hadd] at h
    cases h
    refine .inr ⟨_, rfl, hw, fun _ st st' h => ?_⟩
    rw [hadd] at h
    cases h
    exact .inr ⟨_, rfl, hw⟩
  | @msg s sch k b sp c isSub build f sub d hl ht hs hf hr hi hd he _ ih =>
    intro hj st st' h
    simp only [addItem, isBlank, hl, Val.isNone, Bool.and_false, addValue, ignoredList, ht, singleValue, Ty.isInst, hf,
      Bool.false_eq_true, if_false] at h
    split at h
    · next w hw =>
      cases h
      obtain ⟨r, hr1, rfl⟩ := hr d w hj (orDecode_ok hw)
      rw [hd] at hr1
      obtain ⟨a1, a2⟩ := all_entries (Q := fun k v => KeptIn env false sub k v)
        (fun k v hm st st' e => ih k v hm (isJsonDict_mem (isJson_dict hj) hm) st st' e) (by simp) (by simp [DNodup]) hr1
      obtain ⟨e, e1, e2⟩ := msg_writable he (fun k v hm => (a1 k v hm).1) a2
      have hw : Writable env sch k (.msg sub.cls r) := by
        have : serFor sch.params k = sp.ser := by simp [serFor, hl]
        unfold Writable
        rw [this]
        refine ⟨.dict e, ?_, e2⟩
        simp only [List.mem_cons, List.not_mem_nil, or_false] at hs
        rcases hs with e | e | e <;> rw [e] <;> simp [serDict, e1, Except.map]
      refine .inr ⟨_, rfl, hw, fun _ st st' h => ?_⟩
      have : addItem sch st k (.msg sub.cls r) = .ok (dset st k (.msg sub.cls r)) := by
        simp [addItem, isBlank, hl, addValue, ignoredList, ht, singleValue, Val.isNone, Ty.isInst, hi]
      rw [this] at h
      cases h
      exact .inr ⟨_, rfl, hw⟩
    · cases h
  | @msgs sch k b sp isSub f sub ds hl ht hs hf hr hd he _ ih =>
    intro hj st st' h
    have hjs : ∀ d ∈ ds, (Val.dict d).isJson = true := by
      exact isJsonList_mem (by simpa [Val.isJson] using hj)
    have hb : isBlank (.list (ds.map .dict)) = false := by
      cases ds with
      | nil => rfl
      | cons d ds => cases ds <;> rfl
    simp only [addItem, hb, hl, Val.isNone, Bool.and_false, addValue, Bool.false_eq_true, if_false, ht] at h
    split at h
    · cases h; exact .inl rfl
    · simp only [addToList, Val.isNone, Ty.isInst, Bool.false_eq_true, if_false] at h
      split at h
      · next w hw =>
        cases h
        simp only [addListOfList, hf, deserList] at hw
        obtain ⟨u, hu, hw⟩ := res_bind_ok hw
        obtain ⟨rs, hrs, rfl⟩ := hr ds u hjs (orDecode_ok hu)
        simp only [checkItems, Val.iter] at hw
        have hw := orDecode_ok hw
        obtain ⟨_, h0, hw⟩ := res_bind_ok hw
        cases h0
        obtain ⟨ms, h1, hw⟩ := res_bind_ok hw
        cases hw
        have hk : ∀ r ∈ rs, ∀ k v, (k, v) ∈ r → KeptIn env true sub k v := by
          intro r hr
          have : Except.ok r ∈ rs.map (Except.ok : Dict → Res Dict) := List.mem_map.2 ⟨r, hr, rfl⟩
          rw [← hrs] at this
          obtain ⟨d, hd1, hd2⟩ := List.mem_map.1 this
          rw [hd] at hd2
          exact (all_entries (Q := fun k v => KeptIn env true sub k v)
            (fun k v hm st st' e => ih d hd1 k v hm (isJsonDict_mem (isJson_dict (hjs d hd1)) hm) st st' e)
            (by simp) (by simp [DNodup]) hd2).1
        obtain ⟨qs, rfl, hq⟩ := built_again he hd hk h1
        obtain ⟨es, w1, w2, w3⟩ := written_list hq
        refine .inr ⟨_, rfl, ?_, fun h => by cases h⟩
        have : serFor sch.params k = sp.ser := by simp [serFor, hl]
        unfold Writable
        rw [this]
        refine ⟨.list (es.map .dict), ?_, isJsonList_dicts w3⟩
        rcases hs with e | ⟨e, hc⟩ <;> rw [e]
        · simp [serDict, w1, Except.map]
        · simp [serDict, w2 hc, Except.map]
      · cases h

/-- C91 where it holds: a message read from a JSON object can be written, when every parameter in it is undeclared, a
plain single value, a list of strings not given as an object, an object in a parameter for objects, or an object or a
list of objects in a parameter for messages, with entries of these kinds at any depth. -/
theorem C91_partial (env : SerEnv) (sch : Schema) (henv : ∀ k, env sch.cls k = serFor sch.params k) (d : Dict)
    (txt : String) (st : Dict) (hj : (Val.dict d).isJson = true) (ht : loads txt = .ok (.dict d))
    (htame : ∀ k v, (k, v) ∈ d → TameIn env false sch k v) (h : fromJson sch [] txt = .ok st) :
    ∃ txt', toJson env sch.cls st = .ok txt' := by
  simp only [fromJson, ht, bind, Except.bind, Val.itemsOf] at h
  obtain ⟨h1, h2⟩ := all_entries (Q := fun k v => KeptIn env false sch k v)
    (fun k v hm st st' e => tameIn_step (htame k v hm) (isJsonDict_mem (isJson_dict hj) hm) st st' e)
    (by simp) (by simp [DNodup]) h
  obtain ⟨e, e1, e2⟩ := msg_writable henv (fun k v hm => (h1 k v hm).1) h2
  obtain ⟨t, t1, _⟩ := loads_dumps _ e2
  exact ⟨t, by simp [toJson, e1, t1, bind, Except.bind]⟩

/-! ## the deserialisers of the library -/

theorem only_oneOf (sub : Schema) : ReadsOnly (deserializeFromOneOf sub) sub := by
  intro d w hj h
  obtain ⟨t, h1, h2⟩ := loads_dumps _ hj
  rw [C69_json_value sub _ _ (by decide) rfl, h1] at h
  simp only [deserializeMsg, deserialize, loadsVal, h2, Val.itemsOf, bind, Except.bind] at h
  obtain ⟨r, e, rfl⟩ := res_map_ok h
  exact ⟨r, e, rfl⟩

theorem only_jsonMsg (sub : Schema) : ReadsOnly (jsonMsgDeser sub) sub := by
  intro d w _ h
  simp only [jsonMsgDeser, deserializeMsg, deserialize, Val.itemsOf, bind, Except.bind] at h
  obtain ⟨r, e, rfl⟩ := res_map_ok h
  exact ⟨r, e, rfl⟩

theorem only_link (link : Schema) : ReadsOnly (lDeser link) link := by
  intro d w hj h
  obtain ⟨t, h1, h2⟩ := loads_dumps _ hj
  simp only [lDeser, dumpsVal, h1, Except.map, deserializeMsg, deserialize, loadsVal, h2, Val.itemsOf, bind,
    Except.bind] at h
  split at h
  · cases h
  · next r e => cases h; exact ⟨r, e, rfl⟩

theorem mapDeser_only {g : Val → Fmt → Res Val} {sub : Schema} (hg : ReadsOnly g sub) : ∀ {ds : List Dict} {ws : List Val},
    (∀ d ∈ ds, (Val.dict d).isJson = true) → mapDeser g .dict (ds.map .dict) = .ok ws →
    ∃ rs : List Dict, ds.map (fromDictR sub sub.default) = rs.map .ok ∧ ws = rs.map (.msg sub.cls)
  | [], ws, _, h => by cases h; exact ⟨[], rfl, rfl⟩
  | d :: ds, ws, hj, h => by
    simp only [List.map_cons, mapDeser] at h
    obtain ⟨w, h1, h⟩ := res_bind_ok h
    obtain ⟨ws', h2, h⟩ := res_bind_ok h
    cases h
    obtain ⟨r, e, rfl⟩ := hg d w (hj d (by simp)) h1
    obtain ⟨rs, e', rfl⟩ := mapDeser_only hg (fun x hx => hj x (by simp [hx])) h2
    exact ⟨r :: rs, by simp [e, e'], by simp⟩

theorem only_links (link : Schema) : ReadsListOnly (linkDeser link) link := by
  intro ds w hj h
  obtain ⟨ws, h1, rfl⟩ := res_map_ok (show (mapDeser (lDeser link) .dict (ds.map .dict)).map Val.list = .ok w from h)
  obtain ⟨rs, e, rfl⟩ := mapDeser_only (only_link link) hj h1
  exact ⟨rs, e, rfl⟩

theorem only_evidence (ev : Schema) : ReadsListOnly (evidenceListDeser ev) ev := by
  intro ds w hj h
  obtain ⟨ws, h1, rfl⟩ := res_map_ok
    (show (mapDeser (deserializeFromOneOf ev) .dict (ds.map .dict)).map Val.list = .ok w from h)
  obtain ⟨rs, e, rfl⟩ := mapDeser_only (only_oneOf ev) hj h1
  exact ⟨rs, e, rfl⟩

/-- a message of the library that is tame as a whole -/
example : ∀ k v, (k, v) ∈ ([("client_id", .str "c"), ("scope", .str "a b"), ("redirect_uri", .int 5), ("x", .none)] : Dict) →
    TameIn libEnv false oauth2_AuthorizationRequest k v := by
  intro k v h
  simp only [List.mem_cons, Prod.mk.injEq, List.not_mem_nil, or_false] at h
  rcases h with ⟨rfl, rfl⟩ | ⟨rfl, rfl⟩ | ⟨rfl, rfl⟩ | ⟨rfl, rfl⟩
  · exact .plain (.inr (.inl ⟨false, singleRequiredString, .str, by rfl, rfl, rfl, rfl⟩))
  · exact .plain (.inr (.inr ⟨false, optionalListOfSpSepStrings, by rfl, rfl, rfl, rfl, .inr ⟨rfl, rfl⟩, by simp⟩))
  · exact .plain (.inr (.inl ⟨false, singleOptionalString, .str, by rfl, rfl, rfl, rfl⟩))
  · exact .plain (.inl (by rfl))

/-- one with a message inside a message -/
example : ∀ k v, (k, v) ∈ ([("client_id", .str "c"),
      ("claims", .dict [("id_token", .dict [("acr", .dict [("essential", .bool true)])])])] : Dict) →
    TameIn libEnv false oidc_AuthorizationRequest k v := by
  intro k v h
  simp only [List.mem_cons, Prod.mk.injEq, List.not_mem_nil, or_false] at h
  rcases h with ⟨rfl, rfl⟩ | ⟨rfl, rfl⟩
  · exact .plain (.inr (.inl ⟨false, singleRequiredString, .str, by rfl, rfl, rfl, rfl⟩))
  · refine .msg (sub := oidc_ClaimsRequest) (b := false)
      (sp := ⟨.single messageTy, false, some .msgJson, some (jsonMsgDeser oidc_ClaimsRequest), false⟩)
      (by rfl) rfl (by decide) rfl (only_jsonMsg _) rfl rfl (fun _ => rfl) ?_
    intro k v h
    simp only [List.mem_cons, Prod.mk.injEq, List.not_mem_nil, or_false] at h
    obtain ⟨rfl, rfl⟩ := h
    refine .msg (sub := oidc_Claims) (b := false)
      (sp := ⟨.single messageTy, false, some .claims, some (deserializeFromOneOf oidc_Claims), false⟩)
      (by rfl) rfl (by decide) rfl (only_oneOf _) rfl rfl (fun _ => rfl) ?_
    intro k v h
    simp only [List.mem_cons, Prod.mk.injEq, List.not_mem_nil, or_false] at h
    obtain ⟨rfl, rfl⟩ := h
    exact .plain (.inl (by rfl))

/-- and a list of links -/
example : TameIn libEnv false oidc_JRD "links" (.list [.dict [("rel", .str "self"), ("titles", .dict [("en", .str "x")])],
    .dict []]) := by
  refine .msgs (sub := oidc_Link) (b := false) (ds := [[("rel", .str "self"), ("titles", .dict [("en", .str "x")])], []])
    (sp := ⟨.list (tyOf oidc_Link), true, some .linkList, some (linkDeser oidc_Link), false⟩)
    (by rfl) rfl (.inr ⟨rfl, rfl⟩) rfl (only_links _) rfl (fun _ => rfl) ?_
  intro d hd k v h
  simp only [List.mem_cons, List.not_mem_nil, or_false] at hd
  rcases hd with rfl | rfl
  · simp only [List.mem_cons, Prod.mk.injEq, List.not_mem_nil, or_false] at h
    rcases h with ⟨rfl, rfl⟩ | ⟨rfl, rfl⟩
    · exact .plain (.inr (.inl ⟨false, singleRequiredString, .str, by rfl, rfl, rfl, rfl⟩))
    · exact .obj (b := false) (sp := ⟨.single .dict, false, some .msgJson, some dictDeser, false⟩) (by rfl) rfl (by decide)
  · simp at h

/-- Time stamps: a text is stored as it is, whatever it says, and can then never be written unless it is a number. -/
theorem C91_time_stamp (env : SerEnv) (sch : Schema) (henv : ∀ k, env sch.cls k = serFor sch.params k) (k t : String)
    (b : Bool) (sp : Spec) (hl : lookupSpec sch.params k = some (b, sp)) (ht : sp.vtyp = .single .str)
    (hs : sp.ser = some .timeStamp) (hne : t ≠ "") (hi : pyIntOfString t = none) :
    fromDictR sch [] [(k, .str t)] = .ok [(k, .str t)] ∧ toJson env sch.cls [(k, .str t)] = .error .valueError := by
  constructor
  · simp [fromDictR, fromDict, addItem, isBlank, hne, hl, addValue, ignoredList, ht, singleValue, Val.isNone, Ty.isInst, dset]
  · have : serDict env (serFor sch.params k) (.str t) = .error .valueError := by
      simp [serFor, hl, hs, serDict, serPlain, timeStampSer, isoSer, pyInt, hi]
    simp [toJson, toDict, henv, this, bind, Except.bind]

/-- C91 fails for a verification with its time, as in the specification of identity assurance. -/
theorem C91_counterexample_time : ∃ st,
    fromJson ida_VerificationElement [] "{\"trust_framework\": \"de_aml\", \"time\": \"2012-04-23T18:25:43+0100\"}" = .ok st ∧
    toJson libEnv ida_VerificationElement.cls st = .error .valueError :=
  ⟨[("trust_framework", .str "de_aml"), ("time", .str "2012-04-23T18:25:43+0100")], by decide +kernel, by decide +kernel⟩

/-- C91 fails for null, -/
theorem C91_counterexample_null : ∃ st, fromJson oidc_OpenIDSchema [] "{\"sub\": \"diana\", \"address\": null}" = .ok st ∧
    toJson libEnv oidc_OpenIDSchema.cls st = .error .messageException :=
  ⟨[("sub", .str "diana"), ("address", .none)], by decide +kernel, by decide +kernel⟩

/-- for an object instead of a list of strings, -/
theorem C91_counterexample_object : ∃ st, fromJson oidc_IdToken [] "{\"aud\": {\"a\": 1}}" = .ok st ∧
    toJson libEnv oidc_IdToken.cls st = .error .valueError :=
  ⟨[("aud", .dict [("a", .int 1)])], by decide +kernel, by decide +kernel⟩

/-- and for a text where an object is expected. -/
theorem C91_counterexample_text : ∃ st, fromJson oidc_RegistrationRequest [] "{\"jwks\": \"none\"}" = .ok st ∧
    toJson libEnv oidc_RegistrationRequest.cls st = .error .messageException :=
  ⟨[("jwks", .str "none")], by decide +kernel, by decide +kernel⟩

end Verif
