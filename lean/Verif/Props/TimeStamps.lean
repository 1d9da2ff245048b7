import Verif.Props.RoundTrip
import Verif.Props.IsoTime
import Verif.Model.Schemas

/-!
# C130: time stamps in messages
-/

namespace Verif

/-! ## a text with a letter is no number -/

theorem mem_lstripC {c : Char} {s : List Char} (hc : pyIsSpace c = false) (h : c ∈ s) : c ∈ lstripC s := by
  induction s with
  | nil => cases h
  | cons x xs ih =>
    rw [lstripC]
    by_cases hx : pyIsSpace x = true
    · rw [if_pos hx]
      rcases List.mem_cons.1 h with rfl | h
      · rw [hc] at hx; cases hx
      · exact ih h
    · rw [if_neg hx]; exact h

theorem mem_stripC {c : Char} {s : List Char} (hc : pyIsSpace c = false) (h : c ∈ s) : c ∈ stripC s := by
  rw [stripC, rstripC, List.mem_reverse]
  exact mem_lstripC hc (List.mem_reverse.2 (mem_lstripC hc h))

theorem intDigits_letter {c : Char} (h1 : decimalVal? c = none) (h2 : c ≠ '_') (s : List Char) (h : c ∈ s) (acc : Option Nat)
    (us : Bool) : intDigits acc us s = none := by
  induction s generalizing acc us with
  | nil => cases h
  | cons x xs ih =>
    rw [intDigits.eq_def]
    rcases List.mem_cons.1 h with rfl | h
    · cases acc <;> simp [h1, h2]
    · cases acc <;> (simp only [ih h]; repeat' split) <;> rfl

theorem pyInt_letter {c : Char} (h0 : pyIsSpace c = false) (h1 : decimalVal? c = none) (h2 : c ≠ '_') (h3 : c ≠ '-')
    (h4 : c ≠ '+') (s : List Char) (h : c ∈ s) : pyIntOfChars s = none := by
  have hm := mem_stripC h0 h
  rw [pyIntOfChars]
  split
  · rename_i ds e
    rw [e, List.mem_cons] at hm
    rw [intDigits_letter h1 h2 ds (hm.resolve_left h3)]; rfl
  · rename_i ds e
    rw [e, List.mem_cons] at hm
    rw [intDigits_letter h1 h2 ds (hm.resolve_left h4)]; rfl
  · rw [intDigits_letter h1 h2 _ hm]; rfl

/-! ## time stamps -/

/-- The parameter is for time stamps: declared as `REQURIED_TIME_STAMP` or `OPTIONAL_TIME_STAMP`. -/
def ForMoments (sch : Schema) (k : String) : Prop :=
  ∃ b sp, lookupSpec sch.params k = some (b, sp) ∧ sp.vtyp = .single .str ∧ sp.ser = some .timeStamp ∧
    sp.deser = some timeStampDeser

/-- The parameters for time stamps of the library. -/
theorem C130_parameters : ForMoments ida_Document "date_of_issuance" ∧ ForMoments ida_Document "date_of_expiry" ∧
    ForMoments ida_IdDocument "time" ∧ ForMoments ida_UtilityBill "date" ∧ ForMoments ida_QES "created_at" ∧
    ForMoments ida_VerificationElement "time" ∧ ForMoments ida_VerificationElementRequest "time" :=
  ⟨⟨false, _, by rfl, rfl, rfl, rfl⟩, ⟨false, _, by rfl, rfl, rfl, rfl⟩, ⟨false, _, by rfl, rfl, rfl, rfl⟩,
    ⟨false, _, by rfl, rfl, rfl, rfl⟩, ⟨false, _, by rfl, rfl, rfl, rfl⟩, ⟨false, _, by rfl, rfl, rfl, rfl⟩,
    ⟨false, _, by rfl, rfl, rfl, rfl⟩⟩

/-- an instant from 2 January 1000 to 30 December 9999, but not 0, which stands for "now" -/
def Datable (i : Int) : Prop := i ≠ 0 ∧ -30610137600 ≤ i ∧ i < 253402214400

/-- then the year has four digits, whatever the zone -/
theorem Datable.year {i : Int} (h : Datable i) :
    1000 ≤ (gmtime (i + localZone i)).year ∧ (gmtime (i + localZone i)).year ≤ 9999 := by
  have hz := (theZone i).2
  obtain ⟨_, h1, h2⟩ := h
  constructor
  · rw [show (1000 : Int) = (gmtime (-30610224000)).year by decide +kernel]
    exact year_mono (by simp only [localZone]; omega)
  · rw [show (9999 : Int) = (gmtime 253402300799).year by decide +kernel]
    exact year_mono (by simp only [localZone]; omega)

/-- A text written for an instant and what the deserialiser makes of it. -/
theorem C130_text {i : Int} (h : Datable i) :
    ∃ t : String, timeStampSer (.int i) = .ok (.str t) ∧ t ≠ "" ∧
      (∀ f, timeStampDeser (.str t) f = .ok (.flt ((i + localZone i - zoneNow : Int) : Rat))) ∧
      timeStampSer (.str t) = .error .valueError := by
  obtain ⟨h1, h2⟩ := h.year
  have h0 := h.1
  obtain ⟨o1, o2⟩ : -86400 < zoneNow ∧ zoneNow < 86400 := theOffset.2
  have hne : pyInt (.int i) ≠ some 0 := by simpa [pyInt] using h0
  have hser : timeStampSer (.int i) = .ok (.str (String.ofList (isoTimeText (i + localZone i) zoneNow))) := by
    rw [timeStampSer, if_neg hne]
    simp only [isoSer, pyInt, toIso, if_neg h0, fromTimestamp]
    rw [if_pos ⟨by omega, h2⟩]
    rfl
  have hT : 'T' ∈ isoTimeText (i + localZone i) zoneNow := by simp [isoTimeText]
  refine ⟨_, hser, ?_, fun f => ?_, ?_⟩
  · intro e
    have := congrArg String.toList e
    rw [String.toList_ofList] at this
    rw [this] at hT; simp at hT
  · simp only [timeStampDeser, isoDeser, String.toList_ofList, fromIso_text _ _ _ h1 h2 o1 o2]
  · have hp : pyIntOfString (String.ofList (isoTimeText (i + localZone i) zoneNow)) = none := by
      rw [pyIntOfString, String.toList_ofList]
      exact pyInt_letter (c := 'T') (by decide) (by decide) (by decide) (by decide) (by decide) _ hT
    simp [timeStampSer, isoSer, pyInt, hp]

/-- A number given for a time stamp is stored as it is. -/
theorem C130_stored {sch : Schema} {k : String} (h : ForMoments sch k) (st : Dict) (i : Int) :
    addItem sch st k (.int i) = .ok (dset st k (.int i)) := by
  obtain ⟨b, sp, hl, ht, _, hd⟩ := h
  simp [addItem, isBlank, hl, addValue, ignoredList, ht, singleValue, Val.isNone, Ty.isInst, hd, timeStampDeser, isoDeser,
    orDecodeError]

/-! ## JSON -/

/-- what the entries of a message are: faithful ones, and instants -/
def JsonMoment (sch : Schema) (k : String) (v : Val) : Prop :=
  JsonFaithful sch k v ∨ (ForMoments sch k ∧ ∃ i, v = .int i ∧ Datable i)

theorem serFor_moment {sch : Schema} {k : String} (h : ForMoments sch k) : serFor sch.params k = some .timeStamp := by
  obtain ⟨b, sp, hl, _, hs, _⟩ := h
  simp [serFor, hl, hs]

theorem addItem_moment_text {sch : Schema} {k t : String} (h : ForMoments sch k) (ht : t ≠ "") (st : Dict) :
    addItem sch st k (.str t) = .ok (dset st k (.str t)) := by
  obtain ⟨b, sp, hl, hv, _, _⟩ := h
  simp [addItem, isBlank, ht, hl, addValue, ignoredList, hv, singleValue, Val.isNone, Ty.isInst]

/-- one entry -/
theorem entry_moment (env : SerEnv) (sch : Schema) (k : String) (v : Val)
    (h : JsonMoment sch k v) :
    ∃ v' x, serDict env (serFor sch.params k) v = .ok v' ∧ v'.isJson = true ∧
      (∀ st, addItem sch st k v' = .ok (dset st k x)) ∧
      ((JsonFaithful sch k v ∧ x = v) ∨
       (∃ i t, ForMoments sch k ∧ v = .int i ∧ x = .str t ∧ timeStampSer (.int i) = .ok (.str t) ∧
         timeStampSer (.str t) = .error .valueError)) := by
  rcases h with h | ⟨h, i, rfl, hi⟩
  · obtain ⟨v', h1, h2, h3⟩ := entry_roundtrip env sch k v h
    exact ⟨v', v, h1, h2, h3, .inl ⟨h, rfl⟩⟩
  · obtain ⟨t, h1, h2, _, h4⟩ := C130_text hi
    refine ⟨.str t, .str t, ?_, rfl, addItem_moment_text h h2, .inr ⟨i, t, h, rfl, rfl, h1, h4⟩⟩
    rw [serFor_moment h]
    simp [serDict, serPlain, h1]

theorem faithful_not_moment {sch : Schema} {k : String} {v : Val} (h : JsonFaithful sch k v) : ¬ ForMoments sch k := by
  rintro ⟨b, sp, hl, ht, hs, hd⟩
  cases h with
  | undeclared hl' => rw [hl'] at hl; cases hl
  | null hl' h1 h2 => rw [hl'] at hl; cases hl; rw [h2] at hs; cases hs
  | str hl' h1 h2 => rw [hl'] at hl; cases hl; rw [h2] at hs; cases hs
  | int hl' h1 h2 => rw [hl'] at hl; cases hl; rw [h2] at hs; cases hs
  | bool hl' h1 h2 => rw [hl'] at hl; cases hl; rw [h2] at hs; cases hs
  | strList hl' h1 h2 => rw [hl'] at hl; cases hl; rw [h2] at hs; cases hs
  | spSep hl' h1 h2 => rw [hl'] at hl; cases hl; rw [h2] at hs; cases hs
  | json hl' h1 h2 => rw [hl'] at hl; cases hl; rw [h2] at hs; cases hs
  | dict hl' h1 h2 => rw [hl'] at hl; cases hl; rw [h2] at hs; cases hs

theorem json_moments (env : SerEnv) (sch : Schema) (henv : ∀ k, env sch.cls k = serFor sch.params k)
    (st : Dict) (h : ∀ k v, (k, v) ∈ st → JsonMoment sch k v) :
    ∃ d st', toDict env sch.cls st = .ok d ∧ Val.isJsonDict d = true ∧ dkeys d = dkeys st ∧ dkeys st' = dkeys st ∧
      (∀ st0, fromDictR sch st0 d = .ok (dupdate st0 st')) ∧
      (∀ k v, (k, v) ∈ st → JsonFaithful sch k v → (k, v) ∈ st') ∧
      (∀ k i, (k, .int i) ∈ st → ForMoments sch k →
        ∃ t, (k, .str t) ∈ st' ∧ timeStampSer (.int i) = .ok (.str t)) ∧
      ((∃ k v, (k, v) ∈ st ∧ ForMoments sch k) → toDict env sch.cls st' = .error .valueError) := by
  induction st with
  | nil => exact ⟨[], [], by simp [toDict], rfl, rfl, rfl, fun _ => rfl, by simp, by simp, by simp⟩
  | cons p r ih =>
    obtain ⟨k, v⟩ := p
    obtain ⟨v', x, h1, h2, h3, h4⟩ := entry_moment env sch k v (h k v (by simp))
    obtain ⟨d, r', e1, e2, e3, e4, e5, e6, e7, e8⟩ := ih (fun k v hm => h k v (by simp [hm]))
    refine ⟨(k, v') :: d, (k, x) :: r', ?_, ?_, ?_, ?_, fun st0 => ?_, ?_, ?_, ?_⟩
    · simp [toDict, henv, h1, e1, bind, Except.bind]
    · simp [Val.isJsonDict, h2, e2]
    · simp [e3]
    · simp [e4]
    · have := e5 (dset st0 k x)
      simp only [fromDictR, fromDict, h3, dupdate_cons] at this ⊢
      exact this
    · intro k' w hm hw
      rcases List.mem_cons.1 hm with e | hm
      · cases e
        rcases h4 with ⟨_, rfl⟩ | ⟨i, t, hk, _⟩
        · simp
        · exact absurd hk (faithful_not_moment hw)
      · exact List.mem_cons_of_mem _ (e6 k' w hm hw)
    · intro k' i hm hk
      rcases List.mem_cons.1 hm with e | hm
      · cases e
        rcases h4 with ⟨hw, rfl⟩ | ⟨j, t, _, e, rfl, ht, _⟩
        · exact absurd hk (faithful_not_moment hw)
        · cases e; exact ⟨t, by simp, ht⟩
      · obtain ⟨t, ht, hs⟩ := e7 k' i hm hk
        exact ⟨t, List.mem_cons_of_mem _ ht, hs⟩
    · rintro ⟨k', w, hm, hk⟩
      rcases h4 with ⟨hw, rfl⟩ | ⟨j, t, hk', _, rfl, _, ht⟩
      · have hr : (k', w) ∈ r := by
          rcases List.mem_cons.1 hm with e | hm
          · cases e; exact absurd hk (faithful_not_moment hw)
          · exact hm
        simp [toDict, henv, h1, e8 ⟨k', w, hr, hk⟩, bind, Except.bind]
      · simp [toDict, henv, serFor_moment hk', serDict, serPlain, ht, bind, Except.bind]

/-- C130 fails for JSON, at every message with a time stamp: it is written, in ISO 8601 form, and read without exception, but
then the time stamp is a text, and the message that was read cannot be written again. -/
theorem C130_counterexample_json (env : SerEnv) (sch : Schema) (henv : ∀ k, env sch.cls k = serFor sch.params k)
    (st : Dict) (hn : DNodup st)
    (h : ∀ k v, (k, v) ∈ st → JsonMoment sch k v) (k : String) (i : Int) (hk : dget st k = some (.int i))
    (hm : ForMoments sch k) :
    ∃ txt r t, toJson env sch.cls st = .ok txt ∧ fromJson sch [] txt = .ok r ∧ dkeys r = dkeys st ∧
      dget r k = some (.str t) ∧ timeStampSer (.int i) = .ok (.str t) ∧
      (∀ k' v, dget st k' = some v → JsonFaithful sch k' v → dget r k' = some v) ∧
      toJson env sch.cls r = .error .valueError := by
  obtain ⟨d, st', e1, e2, e3, e4, e5, e6, e7, e8⟩ := json_moments env sch henv st h
  have hj : (Val.dict d).isJson = true := by
    have : (dkeys d).Nodup := by rw [e3]; exact hn
    simp [Val.isJson, e2, this]
  have hn' : DNodup st' := by rw [DNodup, e4]; exact hn
  obtain ⟨txt, h5, h6⟩ := loads_dumps _ hj
  obtain ⟨t, ht, hs⟩ := e7 k i (dget_mem hk) hm
  refine ⟨txt, st', t, by simp [toJson, e1, h5, bind, Except.bind], ?_, e4, mem_dget hn' ht, hs, ?_, ?_⟩
  · simp [fromJson, h6, Val.itemsOf, bind, Except.bind, e5, dupdate_nil_left hn']
  · intro k' v hv hf
    exact mem_dget hn' (e6 k' v (dget_mem hv) hf)
  · simp [toJson, e8 ⟨k, _, dget_mem hk, hm⟩, bind, Except.bind]

/-- a verification as the specification of identity assurance has it, with its time in seconds -/
example : ∀ k v, (k, v) ∈ ([("trust_framework", .str "de_aml"), ("time", .int 1335201943)] : Dict) →
    JsonMoment ida_VerificationElement k v := by
  intro k v h
  simp only [List.mem_cons, Prod.mk.injEq, List.not_mem_nil, or_false] at h
  rcases h with ⟨rfl, rfl⟩ | ⟨rfl, rfl⟩
  · exact .inl (.str (sp := singleRequiredString) (b := false) (by rfl) rfl rfl (by decide))
  · exact .inr ⟨⟨false, optionalTimeStamp, by rfl, rfl, rfl, rfl⟩, 1335201943, rfl, by decide, by decide, by decide⟩

/-! ## forms -/

/-- the values of a form: those of C08, and instants -/
def UrlMoment (sch : Schema) (k : String) (v : Val) (o : Option Val) : Prop :=
  UrlReturns sch k v o ∨
  (ForMoments sch k ∧ ∃ i, v = .int i ∧ Datable i ∧ o = some (.flt ((i + localZone i - zoneNow : Int) : Rat)))

theorem entry_url_moment (env : SerEnv) (sch : Schema) (k : String) (v : Val)
    (o : Option Val) (h : UrlMoment sch k v o) : UrlEntry env sch k v o := by
  rcases h with h | ⟨hk, i, rfl, hi, rfl⟩
  · exact entry_url env sch k v o h
  · obtain ⟨t, h1, h2, h3, _⟩ := C130_text hi
    have hser := serFor_moment hk
    obtain ⟨b, sp, hl, hv, _, hd⟩ := hk
    refine ⟨[t], ?_, .inr ⟨by simp [h2], _, rfl, fun st => ?_⟩⟩
    · simp [urlPairs, hser, serUrlOther, timeStampText, h1, orStr, Except.map]
    · simp [h2, addUrl, hl, hv, hd, h3, bind, Except.bind]

theorem form_moments (env : SerEnv) (sch : Schema)
    (ret : String → Val → Option Val) (st : Dict) (hn : DNodup st)
    (h : ∀ k v, (k, v) ∈ st → UrlMoment sch k v (ret k v)) (hreq : ¬ RequiredMissing sch st)
    (hsome : ∃ k v, dget st k = some v ∧ ret k v ≠ none) :
    ∃ txt, toUrlencoded env sch st = .ok txt ∧ fromUrlencoded sch [] txt = .ok (survivors ret st) := by
  obtain ⟨ps, bl, h1, h2, h3, h4, h5⟩ := url_all env sch ret st hn
    (fun k v hm => entry_url_moment env sch k v _ (h k v hm))
  have hq : parseQs (urlencode ps) = bl := by
    have := h2 [] (by simp)
    rw [parseQs, parseQsl_urlencode, this]; rfl
  have hbl : bl ≠ [] := by
    rw [ne_eq, h4]
    obtain ⟨k, v, hk, hr⟩ := hsome
    intro he
    have := dget_survivors ret hn k
    rw [survivors, he, hk] at this
    simp at this
    exact hr this.symm
  have hm : ¬ sch.params.any (fun p => p.2.required && !dhas st p.1) = true := by
    rw [anyMissing_iff]; exact hreq
  refine ⟨urlencode ps, ?_, ?_⟩
  · simp only [toUrlencoded, urlFinish, hm, h1, Except.map]
    rfl
  · simp only [fromUrlencoded, hq, hbl, and_false, if_false, h5]
    show Except.ok (dupdate [] (survivors ret st)) = _
    rw [dupdate_nil_left (survivors_nodup ret hn)]

/-- C130 in forms: reading a written form gives every time stamp the instant it had, shifted by the difference between the
offsets of the local zone at that instant and now; the other parameters are as C08 says. -/
theorem C130_form (env : SerEnv) (sch : Schema)
    (ret : String → Val → Option Val) (st : Dict) (hn : DNodup st)
    (h : ∀ k v, (k, v) ∈ st → UrlMoment sch k v (ret k v)) (hreq : ¬ RequiredMissing sch st)
    (hsome : ∃ k v, dget st k = some v ∧ ret k v ≠ none) :
    ∃ txt r, toUrlencoded env sch st = .ok txt ∧ fromUrlencoded sch [] txt = .ok r ∧
      ∀ k, dget r k = (dget st k).bind (ret k) := by
  obtain ⟨txt, h1, h2⟩ := form_moments env sch ret st hn h hreq hsome
  exact ⟨txt, _, h1, h2, fun k => dget_survivors ret hn k⟩

/-- the same verification in a form -/
example : ∀ k v, (k, v) ∈ ([("trust_framework", .str "de_aml"), ("time", .int 1335201943)] : Dict) →
    UrlMoment ida_VerificationElement k v
      (if k = "time" then some (.flt ((1335201943 + localZone 1335201943 - zoneNow : Int) : Rat)) else some v) := by
  intro k v h
  simp only [List.mem_cons, Prod.mk.injEq, List.not_mem_nil, or_false] at h
  rcases h with ⟨rfl, rfl⟩ | ⟨rfl, rfl⟩
  · exact .inl (.str (.inr ⟨false, singleRequiredString, .str, by rfl, rfl, rfl, rfl⟩) (by decide))
  · exact .inr ⟨⟨false, optionalTimeStamp, by rfl, rfl, rfl, rfl⟩, 1335201943, rfl, ⟨by decide, by decide, by decide⟩, rfl⟩

/-- An instant that came back as a float is written as before. -/
theorem C130_again (i : Int) : timeStampSer (.flt (i : Rat)) = timeStampSer (.int i) := by
  simp [timeStampSer, isoSer, pyInt]

/-- an instant as the float that a form gives -/
def asFloat : Val → Val
  | .int i => .flt (i : Rat)
  | v => v

/-- C130 in forms: while the offset of the local zone is the one it had at the instants, the texts and time stamps of a message
survive, and writing what was read gives the same form again. -/
theorem C130_form_same (env : SerEnv) (sch : Schema) (st : Dict)
    (hn : DNodup st) (hne : st ≠ []) (hreq : ¬ RequiredMissing sch st)
    (h : ∀ k v, (k, v) ∈ st → (Unconverted sch k ∧ ∃ s, v = .str s ∧ s ≠ "") ∨
      (ForMoments sch k ∧ ∃ i, v = .int i ∧ Datable i ∧ localZone i = zoneNow)) :
    ∃ txt r, toUrlencoded env sch st = .ok txt ∧ fromUrlencoded sch [] txt = .ok r ∧ dkeys r = dkeys st ∧
      (∀ k v, dget st k = some v → ∃ w, dget r k = some w ∧ Val.eq w v = true) ∧
      toUrlencoded env sch r = .ok txt := by
  obtain ⟨txt, h1, h2⟩ := form_moments env sch (fun _ v => some (asFloat v)) st hn (by
      intro k v hm
      rcases h k v hm with ⟨hu, s, rfl, hs⟩ | ⟨hk, i, rfl, hi, hz⟩
      · exact .inl (.str hu hs)
      · refine .inr ⟨hk, i, rfl, hi, ?_⟩
        rw [show i + localZone i - zoneNow = i by omega]; rfl) hreq (by
      obtain ⟨p, r, rfl⟩ := List.exists_cons_of_ne_nil hne
      obtain ⟨k, v⟩ := p
      exact ⟨k, v, by simp [dget_cons], by simp⟩)
  have hs : survivors (fun _ v => some (asFloat v)) st = st.map (fun p => (p.1, asFloat p.2)) := by
    simp only [survivors, Option.map_some]
    rw [← List.filterMap_eq_map']
  have hkeys : dkeys (st.map (fun p => (p.1, asFloat p.2))) = dkeys st := by simp [dkeys]
  rw [hs] at h2
  refine ⟨txt, _, h1, h2, hkeys, ?_, ?_⟩
  · intro k v hv
    refine ⟨asFloat v, mem_dget (by rw [DNodup, hkeys]; exact hn) (List.mem_map.2 ⟨(k, v), dget_mem hv, rfl⟩), ?_⟩
    rcases h k v (dget_mem hv) with ⟨hu, s, rfl, hs⟩ | ⟨hk, i, rfl, hi, hz⟩
    · simp [asFloat, Val.eq]
    · simp [asFloat, Val.eq, Val.num?]
  · have hp : urlPairsAll env false sch.params (st.map (fun p => (p.1, asFloat p.2))) = urlPairsAll env false sch.params st := by
      clear h1 h2 hs hkeys hn hne hreq
      induction st with
      | nil => rfl
      | cons p r ih =>
        obtain ⟨k, v⟩ := p
        have hk : urlPairs env false sch.params k (asFloat v) = urlPairs env false sch.params k v := by
          rcases h k v (by simp) with ⟨hu, s, rfl, hs⟩ | ⟨hk, i, rfl, hi, hz⟩
          · rfl
          · obtain ⟨t, ht, _⟩ := C130_text hi
            simp [asFloat, urlPairs, serFor_moment hk, serUrlOther, timeStampText, C130_again, ht, orStr]
        simp only [List.map_cons, urlPairsAll, hk, ih (fun k v hm => h k v (by simp [hm]))]
    rw [← h1]
    have hh : ∀ k, dhas (st.map (fun p => (p.1, asFloat p.2))) k = dhas st k := by
      intro k
      clear h1 h2 hs hkeys hn hne hreq hp h
      induction st with
      | nil => rfl
      | cons p r ih =>
        obtain ⟨k', v'⟩ := p
        simp only [dhas, List.map_cons, dget_cons] at ih ⊢
        split
        · rfl
        · exact ih
    have hm : ¬ sch.params.any (fun p => p.2.required && !dhas st p.1) = true := by
      rw [anyMissing_iff]; exact hreq
    simp only [toUrlencoded, urlFinish, hh, hp]
    simp only [hm]
    rfl

end Verif
