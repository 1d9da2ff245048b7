import Verif.Model.Message

/-!
# C01–C05: construction and base verification of messages
-/

namespace Verif

/-! ## Specification vocabulary (independent of the model's helpers) -/

/-- Values of a scalar type.  A `bool` is not counted as an `int`. -/
inductive HasTy : Ty → Val → Prop
  | str (s : String) : HasTy .str (.str s)
  | int (i : Int) : HasTy .int (.int i)
  | bool (b : Bool) : HasTy .bool (.bool b)

/-- str, int and bool -/
inductive ScalarTy : Ty → Prop
  | str : ScalarTy .str
  | int : ScalarTy .int
  | bool : ScalarTy .bool

/-- Every declared scalar parameter that is present holds a value of its type or `None`. -/
def ScalarsTyped (sch : Schema) (st : Dict) : Prop :=
  ∀ k sp t v, dget sch.params k = some sp → sp.vtyp = .single t → ScalarTy t →
    dget st k = some v → v = .none ∨ HasTy t v

/-- The deserialisers of scalar parameters (if any) return values of the declared type. -/
def SoundScalarDesers (sch : Schema) : Prop :=
  ∀ k sp t, dget sch.params k = some sp → sp.vtyp = .single t → ScalarTy t →
    ∀ f, sp.deser = some f → ∀ v fmt r, f v fmt = .ok r → r = .none ∨ HasTy t r

/-- What a caller can do to a message: load a dictionary or assign an item. -/
inductive MsgOp where
  | load (d : List (String × Val))
  | assign (k : String) (v : Val)

/-- The state after an operation; an operation that raises may have had a partial effect. -/
def MsgOp.run (sch : Schema) (st : Dict) : MsgOp → Dict
  | .load d => (fromDict sch st d).1
  | .assign k v => match setItem sch st k v with
    | .ok st' => st'
    | .error _ => st

/-! ## C01 -/

/-- `addValue` changes at most the given key. -/
theorem addValue_frame {sp : Spec} {st st' : Dict} {k : String} {v : Val}
    (h : addValue sp st k v = .ok st') : st' = st ∨ ∃ w, st' = dset st k w := by
  unfold addValue at h
  split at h
  · cases h; exact Or.inl rfl
  · split at h
    · unfold addToList at h
      repeat' split at h
      all_goals first
        | (cases h; exact Or.inl rfl)
        | (cases h; exact Or.inr ⟨_, rfl⟩)
        | cases h
    · split at h
      · cases h; exact Or.inr ⟨_, rfl⟩
      · cases h

theorem orDecodeError_ok {α} {r : Res α} {a : α} (h : orDecodeError r = .ok a) : r = .ok a := by
  unfold orDecodeError at h
  split at h <;> first | (cases h; rfl) | cases h

theorem singleValue_typed {sp : Spec} {t : Ty} {v w : Val} (ht : ScalarTy t)
    (hd : ∀ f, sp.deser = some f → ∀ v fmt r, f v fmt = .ok r → r = .none ∨ HasTy t r)
    (h : singleValue t sp v = .ok w) : w = .none ∨ HasTy t w := by
  unfold singleValue at h
  split at h
  · cases h; exact Or.inl rfl
  · split at h
    · cases h; exact Or.inr (.bool _)
    · cases h
  · split at h
    · rename_i hi
      cases h
      right
      cases ht <;> cases v <;> simp_all [Ty.isInst] <;> constructor
    · split at h
      · rename_i f hf
        exact hd f hf _ _ _ (orDecodeError_ok h)
      · cases ht <;> simp only [coerceSingle] at h
        · cases h
        · split at h
          · cases h; exact Or.inr (.int _)
          · cases h
        · cases h

theorem addValue_scalar {sp : Spec} {t : Ty} {st st' : Dict} {k : String} {v : Val}
    (hv : sp.vtyp = .single t) (ht : ScalarTy t)
    (hd : ∀ f, sp.deser = some f → ∀ v fmt r, f v fmt = .ok r → r = .none ∨ HasTy t r)
    (h : addValue sp st k v = .ok st') :
    st' = st ∨ ∃ w, st' = dset st k w ∧ (w = .none ∨ HasTy t w) := by
  unfold addValue at h
  split at h
  · cases h; exact Or.inl rfl
  · right
    rw [hv] at h
    simp only at h
    split at h
    · rename_i w hw
      cases h; exact ⟨w, rfl, singleValue_typed ht hd hw⟩
    · cases h

theorem lookupSpec_declared {ps : Assoc Spec} {k : String} {sp : Spec} (h : dget ps k = some sp) :
    lookupSpec ps k = some (false, sp) := by
  unfold lookupSpec; rw [h]

theorem addItem_frame {sch : Schema} {st st' : Dict} {k : String} {v : Val}
    (h : addItem sch st k v = .ok st') : st' = st ∨ ∃ w, st' = dset st k w := by
  unfold addItem at h
  split at h
  · cases h; exact Or.inl rfl
  · split at h
    · cases h; exact Or.inr ⟨_, rfl⟩
    · split at h
      · cases h; exact Or.inr ⟨_, rfl⟩
      · exact addValue_frame h

theorem addItem_typed {sch : Schema} {st st' : Dict} {k : String} {v : Val}
    (hs : SoundScalarDesers sch) (hst : ScalarsTyped sch st) (h : addItem sch st k v = .ok st') :
    ScalarsTyped sch st' := by
  intro k' sp t w hk hv ht hw
  by_cases e : k' = k
  · subst e
    unfold addItem at h
    split at h
    · cases h; exact hst k' sp t w hk hv ht hw
    · rw [lookupSpec_declared hk] at h
      simp only [Bool.false_and, Bool.false_eq_true, if_false] at h
      rcases addValue_scalar hv ht (hs k' sp t hk hv ht) h with e | ⟨x, e, hx⟩
      · subst e; exact hst k' sp t w hk hv ht hw
      · subst e; rw [dget_dset_same] at hw; cases hw; exact hx
  · rcases addItem_frame h with e' | ⟨x, e'⟩
    · subst e'; exact hst k' sp t w hk hv ht hw
    · subst e'; rw [dget_dset_ne _ _ (Ne.symm e)] at hw; exact hst k' sp t w hk hv ht hw

theorem fromDict_typed {sch : Schema} (hs : SoundScalarDesers sch) (d : List (String × Val)) :
    ∀ st, ScalarsTyped sch st → ScalarsTyped sch (fromDict sch st d).1 := by
  induction d with
  | nil => intro st h; exact h
  | cons p d ih =>
    intro st h
    rcases p with ⟨k, v⟩
    simp only [fromDict]
    split
    · exact h
    · rename_i st' e
      exact ih st' (addItem_typed hs h e)

theorem setItem_typed {sch : Schema} {st st' : Dict} {k : String} {v : Val}
    (hs : SoundScalarDesers sch) (hst : ScalarsTyped sch st) (h : setItem sch st k v = .ok st') :
    ScalarsTyped sch st' := by
  intro k' sp t w hk hv ht hw
  unfold setItem at h
  by_cases e : k' = k
  · subst e
    rw [hk] at h
    rcases addValue_scalar hv ht (hs k' sp t hk hv ht) h with e | ⟨x, e, hx⟩
    · subst e; exact hst k' sp t w hk hv ht hw
    · subst e; rw [dget_dset_same] at hw; cases hw; exact hx
  · have : st' = st ∨ ∃ w, st' = dset st k w := by
      split at h
      · exact addValue_frame h
      · cases h; exact Or.inr ⟨_, rfl⟩
    rcases this with e' | ⟨x, e'⟩
    · subst e'; exact hst k' sp t w hk hv ht hw
    · subst e'; rw [dget_dset_ne _ _ (Ne.symm e)] at hw; exact hst k' sp t w hk hv ht hw

/-- **C01 (partial: parameters whose deserialiser respects the type).**  For every schema and every
history of dictionary loads and item assignments — including ones that raise midway — every declared
string/int/bool parameter that is present holds `None` or a value of its own type; in particular an
int parameter never holds a bool.  What is missing for the full statement is refuted below: the
ISO-8601 time-stamp parameters of `identity_assurance` are declared `str` but their deserialiser
keeps numbers. -/
theorem C01_history_typed_partial (sch : Schema) (hs : SoundScalarDesers sch)
    (ops : List MsgOp) (st : Dict) (hst : ScalarsTyped sch st) :
    ScalarsTyped sch (ops.foldl (MsgOp.run sch) st) := by
  induction ops generalizing st with
  | nil => exact hst
  | cons op ops ih =>
    apply ih
    cases op with
    | load d => exact fromDict_typed hs d st hst
    | assign k v =>
      simp only [MsgOp.run]
      split
      · rename_i st' e; exact setItem_typed hs hst e
      · exact hst

/-- **C01 for the constructor.** -/
theorem C01_construct_typed_partial (sch : Schema) (hs : SoundScalarDesers sch)
    (hdef : ScalarsTyped sch sch.default) (d st : Dict) (h : construct sch d = .ok st) :
    ScalarsTyped sch st := by
  unfold construct at h
  split at h
  · cases h
  · simp only [fromDictR] at h
    split at h
    · rename_i st' e
      cases h
      have := fromDict_typed hs (ddel d "set_defaults") (initialDict sch d) (by
        unfold initialDict
        repeat' split
        all_goals first
          | exact hdef
          | (intro k sp t v _ _ _ hv; simp [dget] at hv))
      rw [e] at this
      exact this
    · cases h

/-- Assigning to a declared string parameter without deserialiser: exactly strings and `None` are
stored, an empty list or a list starting with `None` is ignored, everything else raises
`ValueError`. -/
theorem C01_assign_str (sch : Schema) (st : Dict) (k : String) (sp : Spec) (v : Val)
    (hk : dget sch.params k = some sp) (hv : sp.vtyp = .single .str) (hd : sp.deser = none)
    (hn : sp.nullAllowed = false) :
    setItem sch st k v =
      match v with
      | .str s => .ok (dset st k (.str s))
      | .none => .ok (dset st k .none)
      | .list [] => .ok st
      | .list (.none :: _) => .ok st
      | _ => .error .valueError := by
  unfold setItem; rw [hk]
  unfold addValue
  simp only [hv]
  rcases v with _ | _ | _ | _ | _ | l | _ | _
  case list =>
    rcases l with _ | ⟨x, l⟩
    · simp [ignoredList, hn]
    · cases x <;> simp [ignoredList, hn, singleValue, coerceSingle, hd, Val.isNone, Ty.isInst]
  all_goals simp [ignoredList, singleValue, coerceSingle, hd, Ty.isInst]

/-- The same for booleans: only `True`, `False`, `None`. -/
theorem C01_assign_bool (sch : Schema) (st : Dict) (k : String) (sp : Spec) (v : Val)
    (hk : dget sch.params k = some sp) (hv : sp.vtyp = .single .bool) (hd : sp.deser = none)
    (hn : sp.nullAllowed = false) :
    setItem sch st k v =
      match v with
      | .bool b => .ok (dset st k (.bool b))
      | .none => .ok (dset st k .none)
      | .list [] => .ok st
      | .list (.none :: _) => .ok st
      | _ => .error .valueError := by
  unfold setItem; rw [hk]
  unfold addValue
  simp only [hv]
  rcases v with _ | _ | _ | _ | _ | l | _ | _
  case list =>
    rcases l with _ | ⟨x, l⟩
    · simp [ignoredList, hn]
    · cases x <;> simp [ignoredList, hn, singleValue, coerceSingle, hd, Val.isNone, Ty.isInst]
  all_goals simp [ignoredList, singleValue, coerceSingle, hd, Ty.isInst]

/-- The same for integers: ints and `None` are stored as they are, floats and numeric strings are
converted, booleans are rejected. -/
theorem C01_assign_int (sch : Schema) (st : Dict) (k : String) (sp : Spec) (v : Val)
    (hk : dget sch.params k = some sp) (hv : sp.vtyp = .single .int) (hd : sp.deser = none)
    (hn : sp.nullAllowed = false) :
    setItem sch st k v =
      match v with
      | .int i => .ok (dset st k (.int i))
      | .flt q => .ok (dset st k (.int (Int.tdiv q.num q.den)))
      | .str s => match pyIntOfString s with
        | some i => .ok (dset st k (.int i))
        | none => .error .valueError
      | .none => .ok (dset st k .none)
      | .list [] => .ok st
      | .list (.none :: _) => .ok st
      | _ => .error .valueError := by
  unfold setItem; rw [hk]
  unfold addValue
  simp only [hv]
  rcases v with _ | _ | _ | _ | s | l | _ | _
  case list =>
    rcases l with _ | ⟨x, l⟩
    · simp [ignoredList, hn]
    · cases x <;> simp [ignoredList, hn, singleValue, coerceSingle, hd, Val.isNone, Ty.isInst, pyInt]
  case str =>
    simp only [ignoredList, singleValue, coerceSingle, hd, Ty.isInst, pyInt]
    cases pyIntOfString s <;> simp
  all_goals simp [ignoredList, singleValue, coerceSingle, hd, Ty.isInst, pyInt]

/-- **C01 is false in full**: a declared string parameter (time stamp) ends up holding an int. -/
theorem C01_timestamp_counterexample :
    ∃ (sch : Schema) (sp : Spec) (d st : Dict), sp = optionalTimeStamp ∧
      dget sch.params "time" = some sp ∧ construct sch d = .ok st ∧
      dget st "time" = some (.int 7) :=
  ⟨{ cls := ⟨"t", "T"⟩, params := [("time", optionalTimeStamp)] }, optionalTimeStamp,
    [("time", .int 7)], [("time", .int 7)], rfl, rfl, by decide +kernel, rfl⟩

/-- A small schema used to show that hypotheses are satisfiable. -/
def demoSchema : Schema :=
  { cls := ⟨"demo", "Demo"⟩,
    params := [("name", singleRequiredString), ("age", singleOptionalInt),
      ("flag", singleOptionalBoolean), ("scope", optionalListOfSpSepStrings),
      ("aud", requiredListOfStrings)],
    default := [("name", .str "x")],
    allowed := [("name", [.str "x", .str "y"])] }

theorem demoSchema_sound : SoundScalarDesers demoSchema := by
  intro k sp t hk hv ht f hf
  simp only [demoSchema, dget] at hk
  repeat' split at hk
  all_goals first
    | cases hk
    | skip
  all_goals simp_all [singleRequiredString, singleOptionalInt, singleOptionalBoolean,
      optionalListOfSpSepStrings, requiredListOfStrings]

example : SoundScalarDesers demoSchema ∧
    construct demoSchema [("age", .str "12"), ("flag", .bool true), ("other", .int 3)] =
      .ok [("name", .str "x"), ("age", .int 12), ("flag", .bool true), ("other", .int 3)] ∧
    setItem demoSchema [] "age" (.bool true) = .error .valueError :=
  ⟨demoSchema_sound, by decide +kernel, by decide +kernel⟩

/-! ## C02 -/

/-- The library's list-of-strings parameter kinds (message.py:971-978). -/
inductive StrListSpec : Spec → Prop
  | plain (r : Bool) : StrListSpec ⟨.list .str, r, some .list, some listDeser, false⟩
  | spSep (r : Bool) : StrListSpec ⟨.list .str, r, some .spSep, some spSepDeser, false⟩

/-- A list of strings. -/
def IsStrList (v : Val) : Prop := ∃ l : List String, v = .list (l.map .str)

/-- Every declared list-of-strings parameter that is present holds a list of strings. -/
def StrListsTyped (sch : Schema) (st : Dict) : Prop :=
  ∀ k sp v, dget sch.params k = some sp → StrListSpec sp → dget st k = some v → IsStrList v

theorem all_str_isStrList : (l : List Val) → l.all (fun v => Ty.isInst .str v) = true →
    ∃ ss : List String, l = ss.map .str
  | [], _ => ⟨[], rfl⟩
  | v :: vs, h => by
    simp only [List.all_cons, Bool.and_eq_true] at h
    obtain ⟨ss, e⟩ := all_str_isStrList vs h.2
    cases v <;> simp_all [Ty.isInst]
    rename_i s
    exact ⟨s :: ss, by simp⟩

theorem splitItem_ok {v w : Val} (h : splitItem v = .ok w) : IsStrList w := by
  cases v <;> simp [splitItem] at h
  exact ⟨_, h.symm⟩

theorem checkItems_str {v w : Val} (h : checkItems .str v = .ok w) (hv : v.isDict = false) (hm : v.isMsg = false)
    (hs : v.isStr = false) :
    IsStrList w := by
  simp only [checkItems, bind, Except.bind] at h
  cases v <;> simp [Val.iter, Val.isDict, Val.isMsg, Val.isStr] at h hv hm hs
  split at h
  · cases h
    rename_i l hl
    obtain ⟨ss, e⟩ := all_str_isStrList l (by simpa using hl)
    exact ⟨ss, by rw [e]⟩
  · cases h

/-- What assigning to a list-of-strings parameter stores, when the value is not a dict. -/
theorem addValue_strList {sp : Spec} (hsp : StrListSpec sp) {st st' : Dict} {k : String} {v : Val}
    (hv : v.isDict = false) (h : addValue sp st k v = .ok st') :
    st' = st ∨ ∃ w, st' = dset st k w ∧ IsStrList w := by
  have hvt : sp.vtyp = .list .str := by cases hsp <;> rfl
  unfold addValue at h
  split at h
  · cases h; exact Or.inl rfl
  · rename_i hig
    right
    rw [hvt] at h
    simp only [addToList] at h
    split at h
    · cases hsp <;> simp at h
    · split at h
      · rename_i hi
        cases v <;> simp [Ty.isInst] at hi
        rename_i s
        cases hsp <;> simp [listDeser, spSepDeser, orDecodeError] at h <;>
          exact ⟨_, h.symm, _, rfl⟩
      · split at h
        · rename_i l _ _
          split at h
          · rename_i w hw
            cases h
            refine ⟨w, rfl, ?_⟩
            simp only [addListOfList, bind, Except.bind] at hw
            split at hw
            · cases hw
            · rename_i x hx
              have hx' : x = .list l ∨ IsStrList x := by
                cases hsp
                · simp [deserList, listDeser, orDecodeError] at hx
                  exact Or.inl hx.symm
                · simp only [deserList] at hx
                  have := orDecodeError_ok hx
                  unfold spSepDeser at this
                  split at this
                  · rename_i e; cases e
                  · exact Or.inr (splitItem_ok this)
                  · cases this; exact Or.inl rfl
              rcases hx' with e | ⟨ss, e⟩ <;> subst e <;>
                exact checkItems_str hw rfl rfl rfl
          · cases h
        · simp [Val.isDict] at hv
        · cases h

/-- **C02 is false in full**: a dict given for a list-of-strings parameter is stored as it is. -/
theorem C02_dict_counterexample :
    ∃ (sch : Schema) (d st : Dict), dget sch.params "aud" = some requiredListOfStrings ∧
      StrListSpec requiredListOfStrings ∧
      construct sch d = .ok st ∧ dget st "aud" = some (.dict [("a", .int 1)]) ∧
      ¬ StrListsTyped sch st := by
  refine ⟨{ cls := ⟨"t", "T"⟩, params := [("aud", requiredListOfStrings)] },
    [("aud", .dict [("a", .int 1)])], [("aud", .dict [("a", .int 1)])], rfl, .plain true,
    by decide +kernel, rfl, ?_⟩
  intro h
  obtain ⟨l, e⟩ := h "aud" requiredListOfStrings _ rfl (.plain true) rfl
  cases e

/-- The values an operation offers for a key. -/
def MsgOp.offers : MsgOp → List (String × Val)
  | .load d => d
  | .assign k v => [(k, v)]

theorem addItem_strLists {sch : Schema} {st st' : Dict} {k : String} {v : Val}
    (hv : v.isDict = false) (hst : StrListsTyped sch st) (h : addItem sch st k v = .ok st') :
    StrListsTyped sch st' := by
  intro k' sp w hk hsp hw
  by_cases e : k' = k
  · subst e
    unfold addItem at h
    split at h
    · cases h; exact hst k' sp w hk hsp hw
    · rw [lookupSpec_declared hk] at h
      simp only [Bool.false_and, Bool.false_eq_true, if_false] at h
      rcases addValue_strList hsp hv h with e | ⟨x, e, hx⟩
      · subst e; exact hst k' sp w hk hsp hw
      · subst e; rw [dget_dset_same] at hw; cases hw; exact hx
  · rcases addItem_frame h with e' | ⟨x, e'⟩
    · subst e'; exact hst k' sp w hk hsp hw
    · subst e'; rw [dget_dset_ne _ _ (Ne.symm e)] at hw; exact hst k' sp w hk hsp hw

theorem addItem_strLists_other {sch : Schema} {st st' : Dict} {k : String} {v : Val}
    (hk' : ∀ sp, dget sch.params k = some sp → ¬ StrListSpec sp)
    (hst : StrListsTyped sch st) (h : addItem sch st k v = .ok st') :
    StrListsTyped sch st' := by
  intro k' sp w hk hsp hw
  by_cases e : k' = k
  · subst e; exact absurd hsp (hk' sp hk)
  · rcases addItem_frame h with e' | ⟨x, e'⟩
    · subst e'; exact hst k' sp w hk hsp hw
    · subst e'; rw [dget_dset_ne _ _ (Ne.symm e)] at hw; exact hst k' sp w hk hsp hw

theorem setItem_frame {sch : Schema} {st st' : Dict} {k : String} {v : Val}
    (h : setItem sch st k v = .ok st') : st' = st ∨ ∃ w, st' = dset st k w := by
  unfold setItem at h
  split at h
  · exact addValue_frame h
  · cases h; exact Or.inr ⟨_, rfl⟩

/-- **C02 (partial: no dict is offered for a list-of-strings parameter).**  For every schema and every
history of loads and assignments, including failing ones, every declared list-of-strings parameter
that is present holds a list of strings. -/
theorem C02_history_strlists_partial (sch : Schema) (ops : List MsgOp) (st : Dict)
    (hst : StrListsTyped sch st)
    (hops : ∀ op ∈ ops, ∀ k v sp, (k, v) ∈ op.offers → dget sch.params k = some sp → StrListSpec sp →
      v.isDict = false) :
    StrListsTyped sch (ops.foldl (MsgOp.run sch) st) := by
  induction ops generalizing st with
  | nil => exact hst
  | cons op ops ih =>
    have hop := hops op (List.mem_cons_self ..)
    apply ih
    · clear ih hops
      cases op with
      | load d =>
        simp only [MsgOp.run, MsgOp.offers] at hop ⊢
        induction d generalizing st with
        | nil => exact hst
        | cons p d ih =>
          rcases p with ⟨k, v⟩
          simp only [fromDict]
          split
          · exact hst
          · rename_i st' e
            apply ih
            · by_cases hk : ∃ sp, dget sch.params k = some sp ∧ StrListSpec sp
              · obtain ⟨sp, hk, hsp⟩ := hk
                exact addItem_strLists (hop k v sp (List.mem_cons_self ..) hk hsp) hst e
              · exact addItem_strLists_other (fun sp h1 h2 => hk ⟨sp, h1, h2⟩) hst e
            · intro k' v' sp hm; exact hop k' v' sp (List.mem_cons_of_mem _ hm)
      | assign k v =>
        simp only [MsgOp.run]
        split
        · rename_i st' e
          intro k' sp w hk hsp hw
          by_cases ek : k' = k
          · subst ek
            have hv := hop k' v sp (by simp [MsgOp.offers]) hk hsp
            unfold setItem at e
            rw [hk] at e
            rcases addValue_strList hsp hv e with e | ⟨x, e, hx⟩
            · subst e; exact hst k' sp w hk hsp hw
            · subst e; rw [dget_dset_same] at hw; cases hw; exact hx
          · rcases setItem_frame e with e' | ⟨x, e'⟩
            · subst e'; exact hst k' sp w hk hsp hw
            · subst e'; rw [dget_dset_ne _ _ (Ne.symm ek)] at hw; exact hst k' sp w hk hsp hw
        · exact hst
    · intro op' hm; exact hops op' (List.mem_cons_of_mem _ hm)

/-- Form-decoding always gives lists of strings for these parameters (no exception for dicts needed,
the input is text). -/
theorem C02_urlencoded_strlist (sch : Schema) (st st' : Dict) (k : String) (sp : Spec)
    (vals : List String) (hk : dget sch.params k = some sp) (hsp : StrListSpec sp)
    (h : addUrl sch st k vals = .ok st') : ∃ w, dget st' k = some w ∧ IsStrList w := by
  unfold addUrl at h
  rw [lookupSpec_declared hk] at h
  cases hsp <;> rcases vals with _ | ⟨v, vs⟩ <;>
    simp [listDeser, spSepDeser, bind, Except.bind] at h
  all_goals
    rw [← h, dget_dset_same]
    exact ⟨_, rfl, _, rfl⟩

example : StrListsTyped demoSchema [] ∧ (MsgOp.offers (.load [("scope", .str "a b"), ("aud", .list [.str "x"])])).all
      (fun p => !p.2.isDict) = true ∧
    MsgOp.run demoSchema [] (.load [("scope", .str "a b"), ("aud", .list [.str "x"])]) =
      [("scope", .list [.str "a", .str "b"]), ("aud", .list [.str "x"])] := by
  refine ⟨?_, by decide +kernel, by decide +kernel⟩
  intro k sp v _ _ h; simp [dget] at h

/-! ## C03 -/

/-- `k` is governed by no specification: it is not declared, it is not `name#tag` for a declared
`name`, and there is no `*` entry. -/
def Ungoverned (sch : Schema) (k : String) : Prop :=
  k ∉ dkeys sch.params ∧ "*" ∉ dkeys sch.params ∧
  ∀ name tag : List Char, k = String.ofList (name ++ '#' :: tag) → '#' ∉ name →
    String.ofList name ∉ dkeys sch.params

theorem splitFirst_spec (c : Char) (s : List Char) :
    c ∉ (splitFirst c s).1 ∧ ((splitFirst c s).1 = s ∨ ∃ r, s = (splitFirst c s).1 ++ c :: r) := by
  induction s with
  | nil => simp [splitFirst]
  | cons x s ih =>
    unfold splitFirst
    by_cases e : x = c
    · subst e; simp
    · simp only [e, if_false]
      refine ⟨?_, ?_⟩
      · simp only [List.mem_cons, not_or]; exact ⟨fun h => e h.symm, ih.1⟩
      · rcases ih.2 with h | ⟨r, h⟩
        · left; rw [h]
        · right; exact ⟨r, by rw [List.cons_append, ← h]⟩

theorem lookupSpec_ungoverned {sch : Schema} {k : String} (h : Ungoverned sch k) :
    lookupSpec sch.params k = none := by
  obtain ⟨h1, h2, h3⟩ := h
  unfold lookupSpec
  rw [(dget_eq_none_iff _ _).2 h1]
  have hb : langBase k ∉ dkeys sch.params := by
    unfold langBase
    obtain ⟨hn, he⟩ := splitFirst_spec '#' k.toList
    rcases he with e | ⟨r, e⟩
    · rw [e, String.ofList_toList]; exact h1
    · exact h3 _ r (by rw [← e, String.ofList_toList]) hn
  rw [(dget_eq_none_iff _ _).2 hb, (dget_eq_none_iff _ _).2 h2]

theorem fromDict_get_other {sch : Schema} {d : List (String × Val)} {st st' : Dict} {k : String}
    (h : fromDict sch st d = (st', none)) (hk : k ∉ dkeys d) : dget st' k = dget st k := by
  induction d generalizing st with
  | nil => cases h; rfl
  | cons p d ih =>
    rcases p with ⟨k1, v⟩
    simp only [dkeys, List.map_cons, List.mem_cons, not_or] at hk
    simp only [fromDict] at h
    split at h
    · cases h
    · rename_i st1 e
      rw [ih h hk.2]
      rcases addItem_frame e with e' | ⟨w, e'⟩
      · rw [e']
      · rw [e', dget_dset_ne _ _ (Ne.symm hk.1)]

theorem fromDict_get_mem {sch : Schema} {d : List (String × Val)} {st st' : Dict} {k : String} {v : Val}
    (hd : DNodup d) (h : fromDict sch st d = (st', none)) (hk : dget d k = some v) :
    ∃ st1 st2, dget st1 k = dget st k ∧ addItem sch st1 k v = .ok st2 ∧ dget st' k = dget st2 k := by
  induction d generalizing st with
  | nil => simp [dget] at hk
  | cons p d ih =>
    rcases p with ⟨k1, v1⟩
    have hd' : DNodup d := by
      unfold DNodup dkeys at hd ⊢; simp only [List.map_cons, List.nodup_cons] at hd; exact hd.2
    have hk1 : k1 ∉ dkeys d := by
      unfold DNodup dkeys at hd; simp only [List.map_cons, List.nodup_cons] at hd; exact hd.1
    simp only [fromDict] at h
    split at h
    · cases h
    · rename_i st1 e
      by_cases ek : k1 = k
      · subst ek
        simp [dget] at hk
        subst hk
        exact ⟨st, st1, rfl, e, fromDict_get_other h hk1⟩
      · have hk2 : dget d k = some v := by simpa [dget, ek] using hk
        obtain ⟨s1, s2, a, b, c⟩ := ih hd' h hk2
        refine ⟨s1, s2, ?_, b, c⟩
        rw [a]
        rcases addItem_frame e with e' | ⟨w, e'⟩
        · rw [e']
        · rw [e', dget_dset_ne _ _ ek]

/-- **C03.**  After a successful `from_dict` with a dictionary (distinct keys): parameters not
mentioned are unchanged; blank values change nothing; an ungoverned parameter has exactly the given
value. -/
theorem C03_from_dict (sch : Schema) (st st' : Dict) (d : Dict) (hd : DNodup d)
    (h : fromDict sch st d = (st', none)) (k : String) :
    (dget d k = none → dget st' k = dget st k) ∧
    (dget d k = some (.str "") ∨ dget d k = some (.list [.str ""]) → dget st' k = dget st k) ∧
    (∀ v, Ungoverned sch k → dget d k = some v → v ≠ .str "" → v ≠ .list [.str ""] →
      dget st' k = some v) := by
  refine ⟨fun hk => fromDict_get_other h ((dget_eq_none_iff _ _).1 hk), ?_, ?_⟩
  · intro hk
    rcases hk with hk | hk <;>
    · obtain ⟨s1, s2, a, b, c⟩ := fromDict_get_mem hd h hk
      simp [addItem, isBlank] at b
      rw [c, ← b, a]
  · intro v hu hk h1 h2
    obtain ⟨s1, s2, a, b, c⟩ := fromDict_get_mem hd h hk
    have hb : isBlank v = false := by
      unfold isBlank
      split <;> simp_all
    simp only [addItem, hb, Bool.false_eq_true, if_false, lookupSpec_ungoverned hu] at b
    cases b
    rw [c, dget_dset_same]

/-- `from_dict` never raises because of ungoverned or blank parameters. -/
theorem C03_no_raise (sch : Schema) (st : Dict) (d : Dict)
    (hd : ∀ k v, (k, v) ∈ d → Ungoverned sch k ∨ v = .str "" ∨ v = .list [.str ""]) :
    (fromDict sch st d).2 = none := by
  induction d generalizing st with
  | nil => rfl
  | cons p d ih =>
    rcases p with ⟨k, v⟩
    simp only [fromDict]
    have : ∃ st', addItem sch st k v = .ok st' := by
      rcases hd k v (List.mem_cons_self ..) with hu | e | e
      · unfold addItem
        rw [lookupSpec_ungoverned hu]
        split <;> exact ⟨_, rfl⟩
      · subst e; exact ⟨st, rfl⟩
      · subst e; exact ⟨st, rfl⟩
    obtain ⟨st', e⟩ := this
    rw [e]
    exact ih _ (fun k v hm => hd k v (List.mem_cons_of_mem _ hm))

example : Ungoverned demoSchema "x" ∧ DNodup [("x", Val.int 1), ("scope", .str "")] ∧
    fromDict demoSchema [("scope", .list [.str "a"])] [("x", .int 1), ("scope", .str "")] =
      ([("scope", .list [.str "a"]), ("x", .int 1)], none) := by
  refine ⟨⟨by decide +kernel, by decide +kernel, ?_⟩, by decide +kernel, by decide +kernel⟩
  intro n t e
  have := congrArg String.toList e
  simp at this
  rcases n with _ | ⟨c, n⟩ <;> simp at this

/-! ## C04, C05 -/

/-- `v` occurs in the list (Python `==`). -/
def OneOf (v : Val) (l : List Val) : Prop := ∃ w ∈ l, Val.eq v w = true

/-- The allowed-values rule by declared type. -/
def RespectsAllowed (sp : Spec) (v : Val) (allowed : List Val) : Prop :=
  match sp.vtyp with
  | .single .str | .single .int => OneOf v allowed
  | .list _ => ∀ l, v = .list l → ∀ x ∈ l, OneOf x allowed
  | _ => v = .none → sp.nullAllowed = true

/-- A value that counts as given: truthy, or of a boolean parameter. -/
def Given (sp : Spec) (v : Val) : Prop := v.truthy = true ∨ sp.vtyp = .single .bool

/-- The acceptance condition of a plain message. -/
def Acceptable (sch : Schema) (st : Dict) : Prop :=
  ∀ a sp, (a, sp) ∈ sch.params → a ≠ "*" →
    (sp.required = true → ∃ v, dget st a = some v ∧ Given sp v) ∧
    (∀ v av, dget st a = some v → Given sp v → dget sch.allowed a = some av → RespectsAllowed sp v av)

theorem memList_iff (v : Val) (l : List Val) : Val.memList v l = true ↔ OneOf v l := by
  simp [Val.memList, OneOf]

theorem typeCheck_iff (sp : Spec) (v : Val) (av : List Val) :
    typeCheck sp.vtyp av v sp.nullAllowed = true ↔ RespectsAllowed sp v av := by
  unfold RespectsAllowed typeCheck
  rcases sp.vtyp with t | t
  · cases t <;> simp only [memList_iff] <;> cases v <;> cases sp.nullAllowed <;> simp [Val.isNone]
  · cases v <;> simp [memList_iff]

theorem notGiven_iff (sp : Spec) (v : Val) :
    (!sp.vtyp.isBool && !v.truthy) = true ↔ ¬ Given sp v := by
  unfold Given
  rcases sp.vtyp with t | t
  · cases t <;> simp [VTyp.isBool]
  · simp [VTyp.isBool]

/-- the condition on one parameter -/
def ParamAcceptable (allowed : Assoc (List Val)) (st : Dict) (a : String) (sp : Spec) : Prop :=
  a ≠ "*" →
    (sp.required = true → ∃ v, dget st a = some v ∧ Given sp v) ∧
    (∀ v av, dget st a = some v → Given sp v → dget allowed a = some av → RespectsAllowed sp v av)

theorem verifyParam_iff (allowed : Assoc (List Val)) (st : Dict) (a : String) (sp : Spec) :
    verifyParam allowed st a sp = .ok () ↔ ParamAcceptable allowed st a sp := by
  unfold verifyParam ParamAcceptable
  by_cases hs : a = "*"
  · simp [hs]
  · simp only [hs, if_false, ne_eq, not_false_eq_true, true_imp_iff]
    cases hg : dget st a with
    | none => cases sp.required <;> simp
    | some val =>
      simp only [Option.some.injEq]
      have hgiv := notGiven_iff sp val
      by_cases hG : Given sp val
      · rw [if_neg (by rw [hgiv]; exact fun h => h hG)]
        cases ha : dget allowed a with
        | none => simp [hG]
        | some av =>
          by_cases ht : typeCheck sp.vtyp av val sp.nullAllowed = true
          · simp only [ht, if_true, true_iff]
            have := (typeCheck_iff sp val av).1 ht
            simp [hG, this]
          · simp only [ht]
            have : ¬ RespectsAllowed sp val av := fun h => ht ((typeCheck_iff sp val av).2 h)
            simp [hG, this]
      · rw [if_pos (hgiv.2 hG)]
        cases sp.required <;> simp [hG]
        intro v av e hv; subst e; exact absurd hv hG

theorem verifyParams_iff (allowed : Assoc (List Val)) (st : Dict) (ps : List (String × Spec)) :
    verifyParams allowed st ps = .ok () ↔ ∀ a sp, (a, sp) ∈ ps → ParamAcceptable allowed st a sp := by
  induction ps with
  | nil => simp [verifyParams]
  | cons p ps ih =>
    rcases p with ⟨a, sp⟩
    simp only [verifyParams]
    have h1 := verifyParam_iff allowed st a sp
    split
    · rename_i e he
      simp only [reduceCtorEq, false_iff]
      intro h
      rw [h1.2 (h a sp (List.mem_cons_self ..))] at he
      cases he
    · rename_i he
      rw [ih]
      constructor
      · intro h a' sp' hm
        rcases List.mem_cons.1 hm with e | e
        · cases e; exact h1.1 he
        · exact h a' sp' e
      · intro h a' sp' hm; exact h a' sp' (List.mem_cons_of_mem _ hm)

/-- **C04.**  `verify()` of a plain message returns `True` exactly when every required declared
parameter is given and every given parameter with allowed values respects them. -/
theorem C04_verify_iff (sch : Schema) (st : Dict) : verifyBase sch st = .ok () ↔ Acceptable sch st :=
  verifyParams_iff _ _ _

/-- **C04, failures.**  It raises nothing but `MissingRequiredAttribute`, and then a required
parameter is absent or not given, or `NotAllowedValue`, and then a given parameter has a forbidden
value. -/
theorem C04_verify_errors (sch : Schema) (st : Dict) (e : Exc) (h : verifyBase sch st = .error e) :
    (e = .missingRequiredAttribute ∧ ∃ a sp, (a, sp) ∈ sch.params ∧ a ≠ "*" ∧ sp.required = true ∧
        ∀ v, dget st a = some v → ¬ Given sp v) ∨
    (e = .notAllowedValue ∧ ∃ a sp v av, (a, sp) ∈ sch.params ∧ dget st a = some v ∧ Given sp v ∧
        dget sch.allowed a = some av ∧ ¬ RespectsAllowed sp v av) := by
  unfold verifyBase at h
  generalize sch.params = ps at h
  induction ps with
  | nil => cases h
  | cons p ps ih =>
    rcases p with ⟨a, sp⟩
    simp only [verifyParams] at h
    split at h
    · rename_i e' he
      cases h
      unfold verifyParam at he
      split at he
      · cases he
      · rename_i hs
        split at he
        · rename_i hg
          split at he
          · rename_i hr
            cases he
            exact Or.inl ⟨rfl, a, sp, List.mem_cons_self .., hs, hr, by simp [hg]⟩
          · cases he
        · rename_i val hg
          have hgiv := notGiven_iff sp val
          by_cases hG : Given sp val
          · rw [if_neg (by rw [hgiv]; exact fun h => h hG)] at he
            split at he
            · cases he
            · rename_i av hav
              split at he
              · cases he
              · rename_i ht
                cases he
                exact Or.inr ⟨rfl, a, sp, val, av, List.mem_cons_self .., hg, hG, hav,
                  fun h => ht ((typeCheck_iff sp val av).2 h)⟩
          · rw [if_pos (hgiv.2 hG)] at he
            split at he
            · rename_i hr
              cases he
              refine Or.inl ⟨rfl, a, sp, List.mem_cons_self .., hs, hr, ?_⟩
              intro v hv
              rw [hg] at hv; cases hv; exact hG
            · cases he
    · rcases ih h with ⟨e1, a', sp', hm, r⟩ | ⟨e1, a', sp', v, av, hm, r⟩
      · exact Or.inl ⟨e1, a', sp', List.mem_cons_of_mem _ hm, r⟩
      · exact Or.inr ⟨e1, a', sp', v, av, List.mem_cons_of_mem _ hm, r⟩

example : Acceptable demoSchema [("name", .str "y"), ("aud", .list [.str "c"]), ("zz", .int 0)] ∧
    verifyBase demoSchema [("name", .str "z"), ("aud", .list [.str "c"])] = .error .notAllowedValue ∧
    verifyBase demoSchema [("name", .str "y")] = .error .missingRequiredAttribute :=
  ⟨(C04_verify_iff _ _).1 (by decide +kernel), by decide +kernel, by decide +kernel⟩

/-- **C05.**  The base verification has the same outcome (acceptance or the very same exception) on
any two contents that agree on the declared parameters: extra parameters and order are irrelevant. -/
theorem C05_verify_declared_only (sch : Schema) (st st' : Dict)
    (h : ∀ a ∈ dkeys sch.params, dget st a = dget st' a) : verifyBase sch st = verifyBase sch st' := by
  unfold verifyBase
  generalize sch.params = ps at h
  induction ps with
  | nil => rfl
  | cons p ps ih =>
    rcases p with ⟨a, sp⟩
    simp only [verifyParams]
    have h1 : dget st a = dget st' a := h a (by simp [dkeys])
    have h2 : verifyParam sch.allowed st a sp = verifyParam sch.allowed st' a sp := by
      unfold verifyParam; rw [h1]
    rw [h2, ih (fun a ha => h a (by simp only [dkeys, List.map_cons, List.mem_cons] at ha ⊢; exact Or.inr ha))]

/-- Extra parameters and reordering, spelled out. -/
theorem C05_extra_and_order (sch : Schema) (st : Dict) (hst : DNodup st) (st' : Dict) (hst' : DNodup st')
    (hp : ∀ k v, (k, v) ∈ st ↔ (k, v) ∈ st') (k : String) (v : Val) (hk : k ∉ dkeys sch.params) :
    verifyBase sch (dset st' k v) = verifyBase sch st := by
  apply C05_verify_declared_only
  intro a ha
  have hne : k ≠ a := fun e => hk (e ▸ ha)
  rw [dget_dset_ne _ _ hne]
  cases h : dget st a with
  | some w => exact mem_dget hst' ((hp a w).1 (dget_mem h))
  | none =>
    cases h' : dget st' a with
    | none => rfl
    | some w => rw [mem_dget hst ((hp a w).2 (dget_mem h'))] at h; cases h

example : ∀ a ∈ dkeys demoSchema.params,
    dget [("name", Val.str "y"), ("aud", .list [.str "c"])] a =
    dget [("zz", .int 0), ("aud", .list [.str "c"]), ("name", .str "y")] a := by decide +kernel

end Verif
