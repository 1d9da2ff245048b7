import Verif.Model.Deser
import Verif.Model.Schemas
import Verif.Props.RoundTrip

/-!
# Deserialising from one of several formats: C69

`deserialize_from_one_of` tries two formats and moves on at `FormatError`.  Reading JSON never raises `FormatError`
(`json_no_formatError`, for every class), so the order of the two formats decides everything.
-/

namespace Verif

/-- The result is not a `FormatError`. -/
def NotFormat {α} (r : Res α) : Prop := r ≠ .error .formatError

theorem nf_ok {α} (a : α) : NotFormat (.ok a : Res α) := by intro h; cases h

theorem nf_err {α} {e : Exc} (h : e ≠ .formatError) : NotFormat (.error e : Res α) := by
  intro h'; cases h'; exact h rfl

theorem nf_bind {α β} {r : Res α} {f : α → Res β} (hr : NotFormat r) (hf : ∀ a, r = .ok a → NotFormat (f a)) :
    NotFormat (r >>= f) := by
  cases r with
  | ok a => exact hf a rfl
  | error e => intro h; apply hr; cases h; rfl

theorem nf_map {α β} {r : Res α} {f : α → β} (hr : NotFormat r) : NotFormat (r.map f) := by
  cases r with
  | ok a => exact nf_ok _
  | error e => intro h; apply hr; cases h; rfl

theorem nf_orDecode {α} (r : Res α) : NotFormat (orDecodeError r) := by
  unfold orDecodeError
  split
  · exact nf_ok _
  · exact nf_err (by decide)
  · exact nf_err (by decide)

theorem nf_itemsOf (v : Val) : NotFormat v.itemsOf := by
  cases v <;> first | exact nf_ok _ | exact nf_err (by decide)

theorem nf_iter (v : Val) : NotFormat v.iter := by
  cases v <;> first | exact nf_ok _ | exact nf_err (by decide)

theorem nf_consChar (c : Char) {r} (h : NotFormat r) : NotFormat (consChar c r) := by
  unfold consChar
  split
  · exact nf_ok _
  · exact h

theorem nf_of {α β} {r : Res α} {e : Exc} (h : r = .error e) (hr : NotFormat r) : NotFormat (.error e : Res β) := by
  intro hx
  apply hr
  rw [h]
  cases hx
  rfl

theorem nf_jstr_len : ∀ (n : Nat) (s : List Char), s.length ≤ n → NotFormat (jstr s)
  | n, [], _ => by rw [jstr]; exact nf_err (by decide)
  | 0, _ :: _, h => absurd h (by simp)
  | n + 1, c :: r, h => by
    rw [jstr.eq_def]
    simp only [List.length_cons] at h
    dsimp only
    repeat' split
    all_goals first
      | exact nf_ok _
      | exact nf_err (by decide)
      | (refine nf_consChar _ (nf_jstr_len n _ ?_); simp_all <;> omega)

theorem nf_jstr (s : List Char) : NotFormat (jstr s) := nf_jstr_len _ s (Nat.le_refl _)

theorem nf_jnum (s : List Char) : NotFormat (jnum s) := by
  unfold jnum jnumTail
  dsimp only
  repeat' split
  all_goals first | exact nf_ok _ | exact nf_err (by decide)

mutual
theorem nf_jval : (n : Nat) → (s : List Char) → NotFormat (jval n s)
  | 0, _ => by rw [jval]; exact nf_err (by decide)
  | _ + 1, [] => by rw [jval]; exact nf_err (by decide)
  | n + 1, c :: r => by
    rw [jval]
    repeat' split
    all_goals first
      | exact nf_ok _
      | exact nf_err (by decide)
      | exact nf_jmembers n _ _
      | exact nf_jelems n _ _
      | exact nf_jnum _
      | (rename_i h; exact nf_of h (nf_jstr _))
theorem nf_jmembers : (n : Nat) → (acc : List (String × Val)) → (s : List Char) → NotFormat (jmembers n acc s)
  | 0, _, _ => by rw [jmembers]; exact nf_err (by decide)
  | _ + 1, _, [] => by rw [jmembers]; exact nf_err (by decide)
  | n + 1, acc, c :: r => by
    rw [jmembers]
    have h1 := nf_jstr r
    repeat' split
    all_goals first
      | exact nf_ok _
      | exact nf_err (by decide)
      | exact nf_jmembers n _ _
      | (rename_i h; exact nf_of h (nf_jval n _))
      | (rename_i h; exact nf_of h (nf_jstr _))
theorem nf_jelems : (n : Nat) → (acc : List Val) → (s : List Char) → NotFormat (jelems n acc s)
  | 0, _, _ => by rw [jelems]; exact nf_err (by decide)
  | n + 1, acc, s => by
    rw [jelems]
    have h1 := nf_jval n s
    repeat' split
    all_goals first
      | exact nf_ok _
      | exact nf_err (by decide)
      | exact nf_jelems n _ _
      | (simp_all [NotFormat]; done)
end

theorem nf_loads (s : String) : NotFormat (loads s) := by
  unfold loads loadsC
  have h := nf_jval (2 * s.toList.length + 2) (skipWs s.toList)
  repeat' split
  all_goals first
    | exact nf_ok _
    | exact nf_err (by decide)
    | (simp_all [NotFormat]; done)

mutual
theorem nf_dumpsC : (v : Val) → NotFormat (dumpsC v)
  | .none => nf_ok _
  | .bool true => nf_ok _
  | .bool false => nf_ok _
  | .int _ => nf_ok _
  | .flt q => by
    rw [dumpsC, floatText]
    split
    · exact nf_ok _
    · exact nf_err (by decide)
  | .str _ => nf_ok _
  | .list [] => nf_ok _
  | .list (v :: vs) => by
    rw [dumpsC]
    exact nf_bind (nf_dumpsC v) (fun _ _ => nf_bind (nf_dumpsList vs) (fun _ _ => nf_ok _))
  | .dict [] => nf_ok _
  | .dict ((k, v) :: d) => by
    rw [dumpsC]
    exact nf_bind (nf_dumpsC v) (fun _ _ => nf_bind (nf_dumpsDict d) (fun _ _ => nf_ok _))
  | .msg _ _ => nf_err (by decide)
theorem nf_dumpsList : (l : List Val) → NotFormat (dumpsList l)
  | [] => nf_ok _
  | v :: vs => by
    rw [dumpsList]
    exact nf_bind (nf_dumpsC v) (fun _ _ => nf_bind (nf_dumpsList vs) (fun _ _ => nf_ok _))
theorem nf_dumpsDict : (l : List (String × Val)) → NotFormat (dumpsDict l)
  | [] => nf_ok _
  | (_, v) :: d => by
    rw [dumpsDict]
    exact nf_bind (nf_dumpsC v) (fun _ _ => nf_bind (nf_dumpsDict d) (fun _ _ => nf_ok _))
end

theorem nf_coerce (t : Ty) (v : Val) : NotFormat (coerceSingle t v) := by
  unfold coerceSingle
  repeat' split
  all_goals first | exact nf_ok _ | exact nf_err (by decide)

theorem nf_single (t : Ty) (sp : Spec) (v : Val) : NotFormat (singleValue t sp v) := by
  unfold singleValue
  repeat' split
  all_goals first | exact nf_ok _ | exact nf_err (by decide) | exact nf_orDecode _ | exact nf_coerce _ _

theorem nf_checkItems (t : Ty) (v : Val) : NotFormat (checkItems t v) := by
  unfold checkItems
  split
  · exact nf_orDecode _
  · refine nf_bind (nf_iter v) (fun _ _ => ?_)
    split
    · exact nf_ok _
    · exact nf_err (by decide)

theorem nf_addListOfList (t : Ty) (f) (l : List Val) : NotFormat (addListOfList t f l) := by
  unfold addListOfList deserList
  refine nf_bind ?_ (fun _ _ => nf_checkItems t _)
  split
  · exact nf_orDecode _
  · exact nf_ok _

theorem nf_addToList (t : Ty) (sp : Spec) (st : Dict) (k : String) (v : Val) : NotFormat (addToList t sp st k v) := by
  have hd : ∀ {α β} {r : Res α} {f : α → β} {e}, NotFormat r → r = .error e → NotFormat (.error e : Res β) := by
    intro α β r f e hr he hx
    apply hr; rw [he]; cases hx; rfl
  unfold addToList
  repeat' split
  all_goals first
    | exact nf_ok _
    | exact nf_err (by decide)
    | (rename_i h; exact hd (f := fun _ : Val => st) (nf_orDecode _) h)
    | (rename_i h; exact hd (f := fun _ : Val => st) (nf_addListOfList _ _ _) h)

theorem nf_addItem (sch : Schema) (st : Dict) (k : String) (v : Val) : NotFormat (addItem sch st k v) := by
  unfold addItem addValue
  repeat' split
  all_goals first
    | exact nf_ok _
    | exact nf_addToList _ _ _ _ _
    | (rename_i h; exact nf_of h (nf_single _ _ _))

theorem nf_fromDict (sch : Schema) : ∀ (d : List (String × Val)) (st : Dict), NotFormat (fromDictR sch st d)
  | [], st => nf_ok _
  | (k, v) :: rest, st => by
    have h := nf_addItem sch st k v
    unfold fromDictR
    rw [fromDict]
    cases ha : addItem sch st k v with
    | error e => rw [ha] at h; dsimp only; intro hx; apply h; cases hx; rfl
    | ok st' =>
      dsimp only
      have := nf_fromDict sch rest st'
      rwa [fromDictR] at this

/-- Reading JSON never raises `FormatError`, whatever the class, its deserialisers and the text: exceptions of
deserialisers are turned into `DecodeError`. -/
theorem json_no_formatError (sch : Schema) (v : Val) : NotFormat (deserializeMsg sch v .json) := by
  unfold deserializeMsg deserialize
  refine nf_map (nf_bind ?_ (fun _ _ => nf_bind (nf_itemsOf _) (fun _ _ => nf_fromDict _ _ _)))
  unfold loadsVal
  split
  · exact nf_loads _
  · exact nf_err (by decide)

/-- JSON formats (C69): the outcome is that of reading the text as JSON; the second format, urlencoded, is never tried.
A value that is not a string is first written as JSON. -/
theorem C69_json (sch : Schema) (s : String) (f : Fmt) (hf : f ≠ .urlencoded) :
    deserializeFromOneOf sch (.str s) f = deserializeMsg sch (.str s) .json := by
  have hn := json_no_formatError sch (.str s)
  have : deserializeFromOneOf sch (.str s) f = tryFormats sch (.str s) [.json, .urlencoded] := by
    cases f <;> first | rfl | exact absurd rfl hf
  rw [this, tryFormats]
  split
  · rename_i h; rw [h]
  · rename_i h; exact absurd h hn
  · rename_i h; rw [h]

/-- JSON formats, a value that is not a string. -/
theorem C69_json_value (sch : Schema) (v : Val) (f : Fmt) (hf : f ≠ .urlencoded) (hv : v.isStr = false) :
    deserializeFromOneOf sch v f =
      match dumps v with
      | .ok s => deserializeMsg sch (.str s) .json
      | .error e => .error e := by
  have : deserializeFromOneOf sch v f =
      match textOf v with
      | .ok v => tryFormats sch v [.json, .urlencoded]
      | .error e => .error e := by
    cases f <;> first | rfl | exact absurd rfl hf
  rw [this, textOf, hv]
  simp only [Bool.false_eq_true, if_false, dumpsVal]
  cases hd : dumps v with
  | error e => rfl
  | ok s =>
    have := C69_json sch s .json (by decide)
    exact this

/-- Urlencoded (C69): the outcome is that of reading the form, and only where that is a `FormatError` that of reading
JSON. -/
theorem C69_urlencoded (sch : Schema) (v : Val) :
    (deserializeMsg sch v .urlencoded ≠ .error .formatError →
      deserializeFromOneOf sch v .urlencoded = deserializeMsg sch v .urlencoded) ∧
    (deserializeMsg sch v .urlencoded = .error .formatError →
      deserializeFromOneOf sch v .urlencoded = deserializeMsg sch v .json) := by
  have hn := json_no_formatError sch v
  refine ⟨fun h => ?_, fun h => ?_⟩
  · rw [deserializeFromOneOf, tryFormats]
    split
    · rename_i h'; rw [h']
    · rename_i h'; exact absurd h' h
    · rename_i h'; rw [h']
  · rw [deserializeFromOneOf, tryFormats, h]
    simp only
    rw [tryFormats]
    split
    · rename_i h'; rw [h']
    · rename_i h'; exact absurd h' hn
    · rename_i h'; rw [h']

/-- The function never raises `FormatError`: its last line cannot be reached. -/
theorem C69_never (sch : Schema) (v : Val) (f : Fmt) : deserializeFromOneOf sch v f ≠ .error .formatError := by
  by_cases hf : f = .urlencoded
  · subst hf
    by_cases h : deserializeMsg sch v .urlencoded = .error .formatError
    · rw [(C69_urlencoded sch v).2 h]; exact json_no_formatError sch v
    · rw [(C69_urlencoded sch v).1 h]; exact h
  · by_cases hv : v.isStr = true
    · cases v <;> first | (cases hv; done) | skip
      rw [C69_json sch _ f hf]
      exact json_no_formatError sch _
    · rw [C69_json_value sch v f hf (by simpa using hv)]
      split
      · exact json_no_formatError sch _
      · rename_i h
        refine nf_of h (r := dumps v) ?_
        exact nf_map (nf_dumpsC v)

/-- What a caller can rely on (C69, partial): a message comes back only if one of the two formats reads it. -/
theorem C69_partial (sch : Schema) (v m : Val) (f : Fmt) (h : deserializeFromOneOf sch v f = .ok m) :
    (∃ t, (t = v ∨ dumpsVal v = .ok t) ∧ deserializeMsg sch t .json = .ok m) ∨
    (f = .urlencoded ∧ deserializeMsg sch v .urlencoded = .ok m) := by
  by_cases hf : f = .urlencoded
  · subst hf
    by_cases h' : deserializeMsg sch v .urlencoded = .error .formatError
    · rw [(C69_urlencoded sch v).2 h'] at h; exact .inl ⟨v, .inl rfl, h⟩
    · rw [(C69_urlencoded sch v).1 h'] at h; exact .inr ⟨rfl, h⟩
  · left
    by_cases hv : v.isStr = true
    · cases v <;> first | (cases hv; done) | skip
      rw [C69_json sch _ f hf] at h
      exact ⟨_, .inl rfl, h⟩
    · rw [C69_json_value sch v f hf (by simpa using hv)] at h
      cases hd : dumps v with
      | error e => rw [hd] at h; cases h
      | ok s =>
        rw [hd] at h
        exact ⟨.str s, .inr (by rw [dumpsVal, hd]; rfl), h⟩

/-- C69: what the form reader makes of a value that is neither a text nor a list.  Anything that counts as true is an
`AttributeError`; an empty dict or message gives a message with the defaults only; `None`, `False` and zero are a
`TypeError`. -/
theorem C69_not_text (sch : Schema) (v : Val) (hs : v.isStr = false) (hl : ∀ l, v ≠ .list l) :
    (v.truthy = true → deserialize sch v .urlencoded = .error .attributeError) ∧
    ((v = .dict [] ∨ ∃ c, v = .msg c []) → deserialize sch v .urlencoded = .ok sch.default) ∧
    ((v = .none ∨ v = .bool false ∨ v = .int 0 ∨ v = .flt 0) → deserialize sch v .urlencoded = .error .typeError) := by
  have h : deserialize sch v .urlencoded = notText sch v := by
    cases v with
    | str s => cases hs
    | list l => exact absurd rfl (hl l)
    | _ => rfl
  rw [h]
  refine ⟨fun ht => ?_, ?_, ?_⟩
  · simp [notText, ht]
  · rintro (rfl | ⟨c, rfl⟩) <;> rfl
  · rintro (rfl | rfl | rfl | rfl) <;> rfl

/-- C69: of a list only the first element is read, which then counts as above. -/
theorem C69_list (sch : Schema) (v : Val) (l : List Val) (hl : ∀ l, v ≠ .list l) :
    deserialize sch (.list (v :: l)) .urlencoded = deserialize sch v .urlencoded := by
  cases v with
  | list l' => exact absurd rfl (hl l')
  | _ => rfl

/-- C69 fails: text that is not JSON, given as JSON, is a `JSONDecodeError` although it is a perfectly good form and
urlencoded is the second format on the list. -/
theorem C69_counterexample (sch : Schema) (s : String) (h : loads s = .error .jsonDecodeError) (f : Fmt)
    (hf : f ≠ .urlencoded) : deserializeFromOneOf sch (.str s) f = .error .jsonDecodeError := by
  rw [C69_json sch s f hf, deserializeMsg, deserialize, loadsVal, h]
  rfl

/-- a class without parameters -/
def bareClass : Schema := { cls := ⟨"message", "Message"⟩, params := [], default := [], allowed := [] }

example : loads "a=b" = .error .jsonDecodeError ∧
    deserializeMsg bareClass (.str "a=b") .urlencoded =
      .ok (.msg ⟨"message", "Message"⟩ [("a", .str "b")]) ∧
    deserializeFromOneOf bareClass (.str "a=b") .json = .error .jsonDecodeError ∧
    deserializeFromOneOf bareClass (.str "a=b") .urlencoded =
      .ok (.msg ⟨"message", "Message"⟩ [("a", .str "b")]) ∧
    deserializeFromOneOf bareClass (.str "{}") .urlencoded = .ok (.msg ⟨"message", "Message"⟩ []) ∧
    deserializeMsg bareClass (.str "{}") .urlencoded = .error .formatError := by
  decide +kernel

end Verif
