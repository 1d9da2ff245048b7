import Verif.Model.Message
import Verif.Model.Schemas
import Verif.Py.UrlLemmas
import Verif.Props.C01_C05

/-!
# C100–C102: reading forms, and `update`

`C100`: repeated parameters in a form; `C101`: `Message.update`; `C102`: the types of what was read from a form.
-/

namespace Verif

/-! ## C100 -/

theorem addUrl_get {sch : Schema} {st st' : Dict} {k : String} {vals : List String}
    (h : addUrl sch st k vals = .ok st') : ∃ x, st' = dset st k x ∧ ∀ st2, addUrl sch st2 k vals = .ok (dset st2 k x) := by
  unfold addUrl at h ⊢
  cases hl : lookupSpec sch.params k with
  | none =>
    simp only [hl] at h ⊢
    split at h <;> cases h <;> exact ⟨_, rfl, fun _ => rfl⟩
  | some p =>
    obtain ⟨b, sp⟩ := p
    simp only [hl] at h ⊢
    cases hv : sp.vtyp with
    | list t =>
      simp only [hv] at h ⊢
      cases hd : sp.deser with
      | none => simp only [hd] at h ⊢; cases h; exact ⟨_, rfl, fun _ => rfl⟩
      | some f =>
        simp only [hd] at h ⊢
        cases vals with
        | nil => cases h
        | cons v vs =>
          simp only [bind, Except.bind] at h ⊢
          cases hf : f (.str v) .urlencoded with
          | error e => simp only [hf] at h; cases h
          | ok x => simp only [hf] at h ⊢; cases h; exact ⟨_, rfl, fun _ => rfl⟩
    | single t =>
      simp only [hv] at h ⊢
      rcases vals with _ | ⟨v, _ | ⟨w, vs⟩⟩
      · cases h
      · cases hd : sp.deser with
        | none => simp only [hd] at h ⊢; cases h; exact ⟨_, rfl, fun _ => rfl⟩
        | some f =>
          simp only [hd, bind, Except.bind] at h ⊢
          cases hf : f (.str v) .urlencoded with
          | error e => simp only [hf] at h; cases h
          | ok x => simp only [hf] at h ⊢; cases h; exact ⟨_, rfl, fun _ => rfl⟩
      · cases h

theorem addUrls_get {sch : Schema} {info : Assoc (List String)} (hn : DNodup info) {st st' : Dict}
    (h : addUrls sch st info = .ok st') (k : String) :
    match dget info k with
    | none => dget st' k = dget st k
    | some vs => ∃ x, dget st' k = some x ∧ ∀ st2, addUrl sch st2 k vs = .ok (dset st2 k x) := by
  induction info generalizing st with
  | nil => cases h; rfl
  | cons p t ih =>
    obtain ⟨k0, vs⟩ := p
    simp only [DNodup, dkeys_cons, List.nodup_cons] at hn
    simp only [addUrls] at h
    cases ha : addUrl sch st k0 vs with
    | error e => rw [ha] at h; cases h
    | ok s1 =>
      rw [ha] at h
      obtain ⟨x, hx, hall⟩ := addUrl_get ha
      have hi := ih hn.2 h
      rw [dget_cons]
      by_cases e : k0 = k
      · subst e
        rw [(dget_eq_none_iff t k0).2 hn.1] at hi
        simp only [if_true]
        exact ⟨x, by rw [hi, hx, dget_dset_same], hall⟩
      · simp only [e, if_false]
        cases hd : dget t k with
        | none => rw [hd] at hi; simp only at hi ⊢; rw [hi, hx, dget_dset_ne _ _ e]
        | some ws => rw [hd] at hi; exact hi

theorem form_get {sch : Schema} {st st' : Dict} {txt : String} (h : fromUrlencoded sch st txt = .ok st') (k : String) :
    (valuesOf k (parseQsl txt) = [] → dget st' k = dget st k) ∧
    (valuesOf k (parseQsl txt) ≠ [] → ∃ x, dget st' k = some x ∧
      ∀ st2, addUrl sch st2 k (valuesOf k (parseQsl txt)) = .ok (dset st2 k x)) := by
  unfold fromUrlencoded at h
  simp only at h
  split at h
  · cases h
  · have := addUrls_get (parseQs_nodup txt) h k
    rw [dget_parseQs] at this
    constructor
    · intro he; rw [if_pos he] at this; exact this
    · intro he; rw [if_neg he] at this; exact this

/-- **C100**, single values: a form in which a single-valued parameter is given more than once is never read. -/
theorem C100_repeated {sch : Schema} {k : String} {sp : Spec} {t : Ty} {txt : String}
    (hk : dget sch.params k = some sp) (ht : sp.vtyp = .single t)
    (h2 : 2 ≤ (valuesOf k (parseQsl txt)).length) (st st' : Dict) : fromUrlencoded sch st txt ≠ .ok st' := by
  intro h
  have hne : valuesOf k (parseQsl txt) ≠ [] := by intro e; rw [e] at h2; simp at h2
  obtain ⟨x, -, hx⟩ := (form_get h k).2 hne
  have := hx []
  revert h2 this
  generalize valuesOf k (parseQsl txt) = vs
  intro h2 this
  rcases vs with _ | ⟨v, _ | ⟨w, vs⟩⟩
  · simp at h2
  · simp at h2
  · simp [addUrl, lookupSpec_declared hk, ht] at this

/-- **C100**, parameters the class does not know: no value is lost; one value is stored as a string, several as a
list in their order. -/
theorem C100_undeclared {sch : Schema} {k : String} {txt : String} (hk : Ungoverned sch k) {st st' : Dict}
    (h : fromUrlencoded sch st txt = .ok st') :
    (∀ v, valuesOf k (parseQsl txt) = [v] → dget st' k = some (.str v)) ∧
    (2 ≤ (valuesOf k (parseQsl txt)).length →
      dget st' k = some (.list ((valuesOf k (parseQsl txt)).map .str))) := by
  have hl := lookupSpec_ungoverned hk
  have hg := (form_get h k).2
  revert hg
  generalize valuesOf k (parseQsl txt) = vs
  intro hg
  refine ⟨?_, ?_⟩
  · rintro v rfl
    obtain ⟨x, hx, ha⟩ := hg (by simp)
    have := ha []
    simp [addUrl, hl, dset] at this
    rw [hx, this]
  · intro h2
    rcases vs with _ | ⟨v, _ | ⟨w, vs⟩⟩
    · simp at h2
    · simp at h2
    · obtain ⟨x, hx, ha⟩ := hg (by simp)
      have := ha []
      simp [addUrl, hl, dset] at this
      rw [hx, ← this]; rfl

/-- Parameters that are not in the form keep their value. -/
theorem C100_absent {sch : Schema} {k : String} {txt : String} {st st' : Dict}
    (h : fromUrlencoded sch st txt = .ok st') (hk : k ∉ (parseQsl txt).map Prod.fst) : dget st' k = dget st k :=
  (form_get h k).1 ((valuesOf_nil_iff k _).2 hk)

/-- What is stored for a list parameter is computed from the **first** value alone; `sp.deser` is the deserialiser of
the parameter. -/
theorem C100_list_first {sch : Schema} {k : String} {sp : Spec} {t : Ty} {f : Val → Fmt → Res Val} {txt : String}
    (hk : dget sch.params k = some sp) (ht : sp.vtyp = .list t) (hf : sp.deser = some f) {v : String} {vs : List String}
    (hv : valuesOf k (parseQsl txt) = v :: vs) {st st' : Dict} (h : fromUrlencoded sch st txt = .ok st') :
    ∃ x, f (.str v) .urlencoded = .ok x ∧ dget st' k = some x := by
  obtain ⟨x, hx, ha⟩ := (form_get h k).2 (by rw [hv]; simp)
  have := ha []
  rw [hv] at this
  simp only [addUrl, lookupSpec_declared hk, ht, hf, bind, Except.bind] at this
  cases hfx : f (.str v) .urlencoded with
  | error e => rw [hfx] at this; cases this
  | ok y =>
    rw [hfx] at this
    simp [dset] at this
    exact ⟨y, rfl, by rw [hx, this]⟩

/-- C100 fails for list parameters: of `scope=openid&scope=admin` only the first is kept, silently. -/
theorem C100_counterexample_list :
    fromUrlencoded oauth2_AuthorizationRequest [] "scope=openid&scope=admin&client_id=c&response_type=code" =
      .ok [("scope", .list [.str "openid"]), ("client_id", .str "c"), ("response_type", .list [.str "code"])] := by
  decide +kernel

/-- Every reason for which a form is not read: nothing can be parsed, a single-valued parameter is given more than
once, or the deserialiser of a parameter raises. -/
theorem C100_errors {sch : Schema} {txt : String} {st : Dict} {e : Exc} (h : fromUrlencoded sch st txt = .error e) :
    (e = .formatError ∧ txt ≠ "" ∧ parseQsl txt = []) ∨
    ∃ k sp b, lookupSpec sch.params k = some (b, sp) ∧ k ∈ (parseQsl txt).map Prod.fst ∧
      ((e = .tooManyValues ∧ 2 ≤ (valuesOf k (parseQsl txt)).length ∧ ∃ t, sp.vtyp = .single t) ∨
       ∃ f v, sp.deser = some f ∧ v ∈ valuesOf k (parseQsl txt) ∧ f (.str v) .urlencoded = .error e) := by
  have key : ∀ (info : Assoc (List String)) (st : Dict), addUrls sch st info = .error e →
      ∃ k vs st1, (k, vs) ∈ info ∧ addUrl sch st1 k vs = .error e := by
    intro info
    induction info with
    | nil => intro st h; cases h
    | cons p t ih =>
      obtain ⟨k0, vs⟩ := p
      intro st h
      simp only [addUrls] at h
      cases ha : addUrl sch st k0 vs with
      | error e' => rw [ha] at h; cases h; exact ⟨k0, vs, st, by simp, ha⟩
      | ok s1 =>
        rw [ha] at h
        obtain ⟨k, ws, st1, hm, h1⟩ := ih s1 h
        exact ⟨k, ws, st1, by simp [hm], h1⟩
  unfold fromUrlencoded at h
  simp only at h
  split at h
  · rename_i hc
    cases h
    refine .inl ⟨rfl, hc.1, ?_⟩
    cases hq : parseQsl txt with
    | nil => rfl
    | cons p t =>
      have h0 : dget (parseQs txt) p.1 = none := by rw [hc.2]; rfl
      rw [dget_parseQs, hq, valuesOf_cons] at h0
      simp at h0
  · obtain ⟨k, vs, st1, hm, ha⟩ := key _ _ h
    have hg := mem_dget (parseQs_nodup txt) hm
    rw [dget_parseQs] at hg
    split at hg
    · cases hg
    · rename_i hne
      cases hg
      have hin : k ∈ (parseQsl txt).map Prod.fst := by
        apply Classical.byContradiction
        intro hx; exact hne ((valuesOf_nil_iff k _).2 hx)
      right
      unfold addUrl at ha
      cases hl : lookupSpec sch.params k with
      | none =>
        simp only [hl] at ha
        split at ha <;> cases ha
      | some p =>
        obtain ⟨b, sp⟩ := p
        refine ⟨k, sp, b, hl, hin, ?_⟩
        simp only [hl] at ha
        revert ha hne
        generalize valuesOf k (parseQsl txt) = ws
        intro hne ha
        cases hv : sp.vtyp with
        | list t =>
          simp only [hv] at ha
          cases hd : sp.deser with
          | none => simp only [hd] at ha; cases ha
          | some f =>
            simp only [hd] at ha
            cases ws with
            | nil => exact absurd rfl hne
            | cons v ws =>
              simp only [bind, Except.bind] at ha
              cases hf : f (.str v) .urlencoded with
              | error e' => simp only [hf] at ha; cases ha; exact .inr ⟨f, v, rfl, by simp, hf⟩
              | ok x => simp only [hf] at ha; cases ha
        | single t =>
          simp only [hv] at ha
          rcases ws with _ | ⟨v, _ | ⟨w, ws⟩⟩
          · exact absurd rfl hne
          · cases hd : sp.deser with
            | none => simp only [hd] at ha; cases ha
            | some f =>
              simp only [hd, bind, Except.bind] at ha
              cases hf : f (.str v) .urlencoded with
              | error e' => simp only [hf] at ha; cases ha; exact .inr ⟨f, v, rfl, by simp, hf⟩
              | ok x => simp only [hf] at ha; cases ha
          · cases ha; exact .inl ⟨rfl, by simp, t, rfl⟩

example : dget oauth2_AuthorizationRequest.params "client_id" = some singleRequiredString ∧
    valuesOf "client_id" (parseQsl "client_id=a&response_type=code&client_id=b") = ["a", "b"] ∧
    fromUrlencoded oauth2_AuthorizationRequest [] "client_id=a&response_type=code&client_id=b" = .error .tooManyValues :=
  ⟨rfl, by decide +kernel, by decide +kernel⟩

example : fromUrlencoded oauth2_AuthorizationRequest [("state", .str "s")] "x=1&x=2&y=3" =
    .ok [("state", .str "s"), ("x", .list [.str "1", .str "2"]), ("y", .str "3")] := by decide +kernel

/-! ## C101 -/

/-- **C101**, content: after `update` with a dictionary or message every parameter of the argument has the argument's
value, every other parameter the old value, and no parameter occurs twice. -/
theorem C101_content {st d : Dict} (hn : DNodup st) (hd : DNodup d) (item : Val)
    (hi : item = .dict d ∨ ∃ c, item = .msg c d) :
    ∃ st', update st item = .ok st' ∧ DNodup st' ∧
      (∀ k v, (k, v) ∈ d → dget st' k = some v) ∧ (∀ k, k ∉ d.map Prod.fst → dget st' k = dget st k) := by
  refine ⟨dupdate st d, ?_, dupdate_nodup hn d, ?_, ?_⟩
  · rcases hi with rfl | ⟨c, rfl⟩ <;> rfl
  · intro k v hm
    rw [dget_dupdate st hd k, mem_dget hd hm]; rfl
  · intro k hk
    rw [dget_dupdate st hd k, (dget_eq_none_iff d k).2 hk]; rfl

/-- **C101**, everything else raises `ValueError`. -/
theorem C101_refused (st : Dict) (item : Val) (h : ∀ d, item ≠ .dict d) (h' : ∀ c d, item ≠ .msg c d) :
    update st item = .error .valueError := by
  unfold update
  split
  · exact absurd rfl (h _)
  · exact absurd rfl (h' _ _)
  · rfl

/-- `update` does not convert or check: a message all of whose values have their declared types loses that. -/
theorem C101_counterexample_types :
    ∃ (st st' : Dict), construct oauth2_AccessTokenResponse [("access_token", .str "a"), ("expires_in", .str "60")] = .ok st ∧
      dget st "expires_in" = some (.int 60) ∧
      update st (.dict [("expires_in", .str "60"), ("access_token", .int 1)]) = .ok st' ∧
      ¬ ScalarsTyped oauth2_AccessTokenResponse st' := by
  refine ⟨[("access_token", .str "a"), ("expires_in", .int 60)],
    [("access_token", .int 1), ("expires_in", .str "60")], by decide +kernel, by decide +kernel, by decide +kernel, ?_⟩
  intro h
  have := h "access_token" singleRequiredString .str (.int 1) rfl rfl .str rfl
  rcases this with e | e
  · cases e
  · cases e

example : update [("a", .int 1), ("b", .int 2)] (.dict [("b", .int 3), ("c", .int 4)]) =
    .ok [("a", .int 1), ("b", .int 3), ("c", .int 4)] := by decide +kernel

/-! ## C102 -/

/-- **C102**, the part that holds: text parameters hold texts, list-of-strings parameters lists of strings. -/
theorem C102_texts_partial {sch : Schema} {k : String} {sp : Spec} {txt : String} {st st' : Dict}
    (hk : dget sch.params k = some sp) (h : fromUrlencoded sch st txt = .ok st')
    (hin : k ∈ (parseQsl txt).map Prod.fst) :
    (sp.vtyp = .single .str → sp.deser = none → ∃ s, dget st' k = some (.str s)) ∧
    (StrListSpec sp → ∃ w, dget st' k = some w ∧ IsStrList w) := by
  have hne : valuesOf k (parseQsl txt) ≠ [] := fun e => (valuesOf_nil_iff k _).1 e hin
  obtain ⟨x, hx, ha⟩ := (form_get h k).2 hne
  refine ⟨?_, ?_⟩
  · intro ht hd
    have := ha []
    revert this
    generalize valuesOf k (parseQsl txt) = vs
    intro this
    simp only [addUrl, lookupSpec_declared hk, ht, hd] at this
    split at this
    · simp [dset] at this; exact ⟨_, by rw [hx, this]⟩
    · cases this
  · intro hs
    obtain ⟨w, hw, hl⟩ := C02_urlencoded_strlist sch [] _ k sp _ hk hs (ha [])
    rw [dget_dset_same] at hw
    cases hw
    exact ⟨x, hx, hl⟩

/-- C102 fails for **every** number, boolean or other single-valued parameter without deserialiser: a text is stored. -/
theorem C102_never {sch : Schema} {k : String} {sp : Spec} {t : Ty} {txt : String} {st st' : Dict}
    (hk : dget sch.params k = some sp) (ht : sp.vtyp = .single t) (hd : sp.deser = none)
    (h : fromUrlencoded sch st txt = .ok st') (hin : k ∈ (parseQsl txt).map Prod.fst) :
    ∃ s, dget st' k = some (.str s) ∧ valuesOf k (parseQsl txt) = [s] := by
  have hne : valuesOf k (parseQsl txt) ≠ [] := fun e => (valuesOf_nil_iff k _).1 e hin
  obtain ⟨x, hx, ha⟩ := (form_get h k).2 hne
  have := ha []
  revert this hne
  generalize valuesOf k (parseQsl txt) = vs
  intro hne this
  simp only [addUrl, lookupSpec_declared hk, ht, hd] at this
  split at this
  · simp [dset] at this; exact ⟨_, by rw [hx, this], rfl⟩
  · cases this

/-- The life time of a token in an authorization response: read from JSON it is a number, read from the form of the
implicit flow a text. -/
theorem C102_counterexample :
    fromUrlencoded oauth2_AccessTokenResponse [] "access_token=a&expires_in=60" =
      .ok [("access_token", .str "a"), ("expires_in", .str "60")] ∧
    (fromJson oauth2_AccessTokenResponse [] "{\"access_token\": \"a\", \"expires_in\": \"60\"}") =
      .ok [("access_token", .str "a"), ("expires_in", .int 60)] := by
  constructor <;> decide +kernel

end Verif
