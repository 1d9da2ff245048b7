import Verif.Props.FormIn
import Verif.Props.Verdict
import Verif.Model.Schemas

/-!
# C137: what a message holds after a reading that failed, `message.py:177-320, 456-466`
-/

namespace Verif

/-- The state model agrees with the one that gives a result. -/
theorem fromUrlencodedState_eq (sch : Schema) (st : Dict) (txt : String) :
    fromUrlencoded sch st txt = (match (fromUrlencodedState sch st txt).2 with
      | none => .ok (fromUrlencodedState sch st txt).1
      | some e => .error e) := by
  have key : ∀ (info : List (String × List String)) (st : Dict), addUrls sch st info = (match (addUrlsState sch st info).2 with
      | none => .ok (addUrlsState sch st info).1
      | some e => .error e) := by
    intro info
    induction info with
    | nil => intro st; rfl
    | cons p info ih =>
      obtain ⟨k, vs⟩ := p
      intro st
      simp only [addUrls, addUrlsState]
      cases addUrl sch st k vs with
      | error e => rfl
      | ok st' => exact ih st'
  simp only [fromUrlencoded, fromUrlencodedState]
  split
  · rfl
  · exact key _ st

theorem fromJsonState_eq (sch : Schema) (st : Dict) (txt : String) :
    fromJson sch st txt = (match (fromJsonState sch st txt).2 with
      | none => .ok (fromJsonState sch st txt).1
      | some e => .error e) := by
  simp only [fromJson, fromJsonState, bind, Except.bind]
  cases loads txt with
  | error e => rfl
  | ok v =>
    simp only
    cases v.itemsOf with
    | error e => rfl
    | ok d =>
      simp only [fromDictR]
      split <;> rename_i h <;> rw [h]

/-- **C137**, data: after a failure the message holds the items before the one that was refused, as if only these had been given. -/
theorem C137_from_dict_partial {sch : Schema} {d : List (String × Val)} {st st' : Dict} {e : Exc}
    (h : fromDict sch st d = (st', some e)) :
    ∃ pre k v post, d = pre ++ (k, v) :: post ∧ fromDict sch st pre = (st', none) ∧ addItem sch st' k v = .error e := by
  induction d generalizing st with
  | nil => cases h
  | cons p d ih =>
    obtain ⟨k, v⟩ := p
    simp only [fromDict] at h
    cases ha : addItem sch st k v with
    | error e' =>
      rw [ha] at h; cases h
      exact ⟨[], k, v, d, rfl, rfl, ha⟩
    | ok s1 =>
      rw [ha] at h
      obtain ⟨pre, k', v', post, rfl, h1, h2⟩ := ih h
      exact ⟨(k, v) :: pre, k', v', post, rfl, by simp only [fromDict, ha, h1], h2⟩

/-- **C137**, JSON: a text that is not a JSON object changes nothing; otherwise as for data. -/
theorem C137_from_json_partial {sch : Schema} {txt : String} {st st' : Dict} {e : Exc} (h : fromJsonState sch st txt = (st', some e)) :
    st' = st ∨ ∃ w d pre k v post, loads txt = .ok w ∧ w.itemsOf = .ok d ∧ d = pre ++ (k, v) :: post ∧ fromDict sch st pre = (st', none) ∧
      addItem sch st' k v = .error e := by
  unfold fromJsonState at h
  split at h
  · cases h; exact .inl rfl
  · rename_i v hv
    split at h
    · cases h; exact .inl rfl
    · rename_i d hd
      obtain ⟨pre, k, w, post, h1, h2, h3⟩ := C137_from_dict_partial h
      exact .inr ⟨v, d, pre, k, w, post, hv, hd, h1, h2, h3⟩

/-- **C137**, forms: a text without any pair changes nothing; otherwise the message holds the pairs before the one that was refused. -/
theorem C137_from_form_partial {sch : Schema} {txt : String} {st st' : Dict} {e : Exc}
    (h : fromUrlencodedState sch st txt = (st', some e)) :
    st' = st ∨ ∃ pre k vs post, parseQs txt = pre ++ (k, vs) :: post ∧ addUrls sch st pre = .ok st' ∧ addUrl sch st' k vs = .error e := by
  have key : ∀ (info : List (String × List String)) (st : Dict), addUrlsState sch st info = (st', some e) →
      ∃ pre k vs post, info = pre ++ (k, vs) :: post ∧ addUrls sch st pre = .ok st' ∧ addUrl sch st' k vs = .error e := by
    intro info
    induction info with
    | nil => intro st h; cases h
    | cons p info ih =>
      obtain ⟨k, vs⟩ := p
      intro st h
      simp only [addUrlsState] at h
      cases ha : addUrl sch st k vs with
      | error e' =>
        rw [ha] at h; cases h
        exact ⟨[], k, vs, info, rfl, rfl, ha⟩
      | ok s1 =>
        rw [ha] at h
        obtain ⟨pre, k', v', post, rfl, h1, h2⟩ := ih s1 h
        exact ⟨(k, vs) :: pre, k', v', post, rfl, by simp only [addUrls, ha, h1], h2⟩
  unfold fromUrlencodedState at h
  simp only at h
  split at h
  · cases h; exact .inl rfl
  · exact .inr (key _ st h)

/-- Violated: a client that had been answered with a token reads an answer with a broken lifetime; it is refused, but the token of the
refused answer has replaced the earlier one. -/
theorem C137_counterexample :
    fromDict oauth2_AccessTokenResponse [("access_token", .str "old"), ("token_type", .str "Bearer")]
        [("access_token", .str "new"), ("expires_in", .str "soon"), ("token_type", .str "Bearer")] =
      ([("access_token", .str "new"), ("token_type", .str "Bearer")], some .valueError) ∧
    fromUrlencodedState oauth2_AccessTokenResponse [("access_token", .str "old"), ("token_type", .str "Bearer")]
        "access_token=new&expires_in=1&expires_in=2" =
      ([("access_token", .str "new"), ("token_type", .str "Bearer")], some .tooManyValues) := by
  decide +kernel

/-- a text that is no JSON, one that is no object, one with a refused member -/
example : fromJsonState oauth2_AccessTokenResponse [("access_token", .str "old")] "{" = ([("access_token", .str "old")], some .jsonDecodeError) ∧
    fromJsonState oauth2_AccessTokenResponse [("access_token", .str "old")] "5" = ([("access_token", .str "old")], some .attributeError) ∧
    fromJsonState oauth2_AccessTokenResponse [] "{\"state\": \"s\", \"scope\": 5, \"token_type\": \"x\"}" =
      ([("state", .str "s")], some .decodeError) := by
  decide +kernel

end Verif
