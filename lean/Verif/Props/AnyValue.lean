import Verif.Model.AnyValue
import Verif.Props.FormOrJson

/-!
# C166: parameters declared to take any value
-/

namespace Verif

/-- C166 as stated is false, for all values: a parameter declared with `SINGLE_OPTIONAL_ANY` takes null and nothing else; apart
from null only values that are dropped are not refused. -/
theorem C166_takes (st st' : Dict) (k : String) (v : Val) :
    addAnyItem st k v = .ok st' ↔
      (v = .none ∧ st' = dset st k .none) ∨
      ((v = .str "" ∨ v = .list [.str ""] ∨ v = .list [] ∨ ∃ l, v = .list (.none :: l)) ∧ st' = st) := by
  unfold addAnyItem
  by_cases hb : isBlank v = true
  · rw [if_pos hb]
    have hv : v = .str "" ∨ v = .list [.str ""] := by
      unfold isBlank at hb
      split at hb
      · left; simpa using hb
      · right; simpa using hb
      · cases hb
    rcases hv with rfl | rfl <;> simp [eq_comm]
  · rw [if_neg hb]
    constructor
    · intro h
      unfold addAny at h
      split at h
      · cases h; exact .inr ⟨.inr (.inr (.inl rfl)), rfl⟩
      · next l => cases h; exact .inr ⟨.inr (.inr (.inr ⟨l, rfl⟩)), rfl⟩
      · cases h; exact .inl ⟨rfl, rfl⟩
      · cases h
      · cases h
    · rintro (⟨rfl, rfl⟩ | ⟨rfl | rfl | rfl | ⟨l, rfl⟩, rfl⟩)
      · rfl
      · exact absurd rfl hb
      · exact absurd rfl hb
      · rfl
      · rfl

/-- C166: texts, numbers, objects and messages are refused with `TypeError`. -/
theorem C166_refused (st : Dict) (k : String) (v : Val)
    (hv : (∃ s, v = .str s ∧ s ≠ "") ∨ (∃ i, v = .int i) ∨ (∃ q, v = .flt q) ∨ (∃ d, v = .dict d) ∨ (∃ c d, v = .msg c d)) :
    addAnyItem st k v = .error .typeError := by
  rcases hv with ⟨s, rfl, hs⟩ | ⟨i, rfl⟩ | ⟨q, rfl⟩ | ⟨d, rfl⟩ | ⟨c, d, rfl⟩ <;> simp_all [addAnyItem, addAny, isBlank]

/-- C166 as stated is false: a text is not taken. -/
theorem C166_counterexample_text : addAnyItem [] "x" (.str "a") = .error .typeError := by decide +kernel

/-- C166 as stated is false, for all values that are not lists: what `any_ser` writes, `any_deser` refuses, unless the value is a
message and written as a dict. -/
theorem C166_not_read (env : SerEnv) (v w : Val) (f f' : Fmt) (hl : ∀ l, v ≠ .list l) (hm : f = .dict → ∀ c d, v ≠ .msg c d)
    (h : anySer env v f = .ok w) : anyDeser w f' = .error .valueError := by
  have hs : ∀ {r : Res String} {w : Val}, r.map .str = .ok w → anyDeser w f' = .error .valueError := by
    intro r w h
    cases r with
    | error e => cases h
    | ok t => cases h; rfl
  cases v with
  | none => cases h
  | flt q => cases h
  | bool b => cases h; rfl
  | int i => cases h; rfl
  | str s => cases h; rfl
  | list l => exact absurd rfl (hl l)
  | dict d => exact hs h
  | msg c d =>
    cases f with
    | dict => exact absurd rfl (hm rfl c d)
    | urlencoded => exact hs h
    | json => exact hs h

/-- C166 as stated is false: an object is written as text, and the text is not read. -/
theorem C166_counterexample_object (env : SerEnv) :
    anySer env (.dict [("a", .int 1)]) .dict = .ok (.str "{\"a\": 1}") ∧
      anyDeser (.str "{\"a\": 1}") .dict = .error .valueError := by
  refine ⟨?_, rfl⟩
  show (dumps (.dict [("a", .int 1)])).map Val.str = _
  decide +kernel

theorem dset_at_end {st : Dict} {k : String} (v : Val) (h : k ∉ dkeys st) : dset st k v = st ++ [(k, v)] := by
  induction st with
  | nil => rfl
  | cons p st ih =>
    obtain ⟨k', v'⟩ := p
    simp only [dkeys_cons, List.mem_cons, not_or] at h
    rw [dset, if_neg (Ne.symm h.1), ih h.2, List.cons_append]

theorem fromDict_message {d : Dict} (hd : DNodup d) : ∀ {st : Dict}, (∀ k ∈ dkeys d, k ∉ dkeys st) →
    fromDict messageSchema st d = (st ++ d.filter (fun p => !isBlank p.2), none) := by
  induction d with
  | nil => intro st _; simp [fromDict]
  | cons p d ih =>
    obtain ⟨k, v⟩ := p
    intro st hs
    simp only [DNodup, dkeys_cons, List.nodup_cons] at hd
    have hk : k ∉ dkeys st := hs k (by simp)
    have hl : lookupSpec messageSchema.params k = none := rfl
    by_cases hb : isBlank v = true
    · have : addItem messageSchema st k v = .ok st := by simp [addItem, hb]
      simp only [fromDict, this]
      rw [ih hd.2 (fun x hx => hs x (by simp [hx])), List.filter_cons_of_neg (by simp [hb])]
    · have : addItem messageSchema st k v = .ok (st ++ [(k, v)]) := by
        simp only [addItem, hb, hl, dset_at_end v hk]; rfl
      simp only [fromDict, this]
      rw [ih hd.2, List.filter_cons_of_pos (by simp [hb])]
      · simp
      · intro x hx
        simp only [dkeys, List.map_append, List.mem_append, List.map_cons, List.map_nil, List.mem_singleton, not_or]
        refine ⟨hs x (by simp [hx]), ?_⟩
        rintro rfl
        exact hd.1 hx

/-- C166, what holds of it (`_partial`): an object is read as a message with its entries, without the blank ones. -/
theorem C166_object_read_partial {x : Dict} (hn : DNodup x) (h1 : dget x "self" = none) (h2 : dget x "set_defaults" = none)
    (f : Fmt) : anyDeser (.dict x) f = .ok (.msg messageSchema.cls (x.filter (fun p => !isBlank p.2))) := by
  have hd : ddel x "set_defaults" = x := by
    unfold ddel
    rw [List.filter_eq_self]
    intro p hp
    have : p.1 ≠ "set_defaults" := fun e => (dget_eq_none_iff _ _).1 h2 (e ▸ List.mem_map.2 ⟨p, hp, rfl⟩)
    simp [this]
  have hi : initialDict messageSchema x = [] := by simp [initialDict, h2, messageSchema]
  simp only [anyDeser, ctor, construct, (dhas_eq_false_iff _ _).2 h1, hd, hi, fromDictR]
  rw [fromDict_message hn (by simp)]
  rfl

/-- C166, what holds of it (`_partial`): a message written as a dict is read as a message with the entries of that dict, without
the blank ones. -/
theorem C166_message_partial (env : SerEnv) {c : Cls} {d x : Dict} (h : toDict env c d = .ok x) (hn : DNodup x)
    (h1 : dget x "self" = none) (h2 : dget x "set_defaults" = none) (f : Fmt) :
    anySer env (.msg c d) .dict = .ok (.dict x) ∧
      anyDeser (.dict x) f = .ok (.msg messageSchema.cls (x.filter (fun p => !isBlank p.2))) :=
  ⟨by simp only [anySer, msgSerMsg, h]; rfl, C166_object_read_partial hn h1 h2 f⟩

/-- C166, what is written for a message: as JSON a document of the dict of the message; as a form the form of the message, from
which its class reads the same message when its values survive a form. -/
theorem C166_message_texts (env : SerEnv) (sch : Schema) (henv : env.params sch.cls = sch.params) (st : Dict) :
    (∀ x, toDict env sch.cls st = .ok x → (Val.dict x).isJson = true →
      ∃ t, anySer env (.msg sch.cls st) .json = .ok (.str t) ∧ loads t = .ok (.dict x)) ∧
    (DNodup st → st ≠ [] → (∀ k v, (k, v) ∈ st → UrlReturns sch k v (some v)) → ¬ RequiredMissing sch st →
      ∃ t, anySer env (.msg sch.cls st) .urlencoded = .ok (.str t) ∧ fromUrlencoded sch [] t = .ok st) := by
  refine ⟨fun x hx hj => ?_, fun hn hne h hreq => ?_⟩
  · obtain ⟨t, h1, h2⟩ := loads_dumps _ hj
    refine ⟨t, ?_, h2⟩
    simp [anySer, msgSerMsg, toJson, hx, h1, bind, Except.bind, Except.map]
  · obtain ⟨t, h1, h2⟩ := C08_roundtrip env sch st hn hne h hreq
    refine ⟨t, ?_, h2⟩
    unfold toUrlencoded at h1
    simp [anySer, msgSerMsg, henv, h1, Except.map]

/-- an object of texts -/
def textDict (ps : List (String × String)) : Dict := ps.map (fun p => (p.1, .str p.2))

theorem pyStrValues_texts (env : SerEnv) (ps : List (String × String)) : pyStrValues env (textDict ps) = .ok ps := by
  induction ps with
  | nil => rfl
  | cons p ps ih =>
    rw [textDict, List.map_cons, pyStrValues, ← textDict, ih]
    rfl

theorem addUrls_message {ps : List (String × String)} (hn : (ps.map Prod.fst).Nodup) : ∀ {st : Dict},
    (∀ p ∈ ps, p.1 ∉ dkeys st) → addUrls messageSchema st (ps.map (fun p => (p.1, [p.2]))) = .ok (st ++ textDict ps) := by
  induction ps with
  | nil => intro st _; simp [addUrls, textDict]
  | cons p ps ih =>
    intro st hs
    simp only [List.map_cons, List.nodup_cons] at hn
    have : addUrl messageSchema st p.1 [p.2] = .ok (st ++ [(p.1, .str p.2)]) := by
      rw [← dset_at_end _ (hs p (by simp))]; rfl
    simp only [List.map_cons, addUrls, this]
    rw [ih hn.2]
    · simp [textDict]
    · intro q hq
      simp only [dkeys, List.map_append, List.mem_append, List.map_cons, List.map_nil, List.mem_singleton, not_or]
      refine ⟨hs q (by simp [hq]), ?_⟩
      intro e
      exact hn.1 (e ▸ List.mem_map.2 ⟨q, hq, rfl⟩)

/-- C166, what holds of it (`_partial`): a list of objects of non-empty texts is written as a list of forms, and these are
read as messages with the same entries. -/
theorem C166_listed_partial (env : SerEnv) (ls : List (List (String × String)))
    (hn : ∀ ps ∈ ls, (ps.map Prod.fst).Nodup ∧ ∀ p ∈ ps, p.2 ≠ "") (f : Fmt) :
    ∃ ts : List String, anySer env (.list (ls.map (fun ps => .dict (textDict ps)))) f = .ok (.list (ts.map .str)) ∧
      anyDeser (.list (ts.map .str)) .urlencoded = .ok (.list (ls.map (fun ps => .msg messageSchema.cls (textDict ps)))) := by
  have h1 : msgUrlEach env (ls.map (fun ps => .dict (textDict ps))) = .ok (ls.map (fun ps => .str (urlencode ps))) := by
    clear hn
    induction ls with
    | nil => rfl
    | cons ps ls ih =>
      rw [List.map_cons, msgUrlEach, urlencodeDict, pyStrValues_texts, ih]
      rfl
  have h2 : mapDeser msgDeser .urlencoded (ls.map (fun ps => .str (urlencode ps))) =
      .ok (ls.map (fun ps => .msg messageSchema.cls (textDict ps))) := by
    induction ls with
    | nil => rfl
    | cons ps ls ih =>
      obtain ⟨a, b⟩ := hn ps (by simp)
      have ih' := ih (fun q hq => hn q (by simp [hq])) (by
        rw [List.map_cons, msgUrlEach, urlencodeDict, pyStrValues_texts] at h1
        revert h1
        cases msgUrlEach env (ls.map fun ps => .dict (textDict ps)) with
        | error e => intro h; cases h
        | ok r =>
          intro h
          simp [bind, Except.bind, Except.map] at h
          rw [h])
      have hd : msgDeser (.str (urlencode ps)) .urlencoded = .ok (.msg messageSchema.cls (textDict ps)) := by
        show (fromUrlencoded messageSchema messageSchema.default (urlencode ps)).map _ = _
        have hq := parseQs_single ps a b
        have hu : fromUrlencoded messageSchema messageSchema.default (urlencode ps) = .ok (textDict ps) := by
          unfold fromUrlencoded
          simp only [hq]
          split
          · next hx =>
            cases ps with
            | nil => exact absurd rfl hx.1
            | cons p ps => simp at hx
          · have := addUrls_message a (st := []) (by simp)
            rw [List.nil_append] at this
            exact this
        rw [hu]; rfl
      rw [List.map_cons, mapDeser, hd, ih']
      rfl
  refine ⟨ls.map urlencode, ?_, ?_⟩
  · simp only [anySer, h1, Except.map, List.map_map]; rfl
  · simp only [anyDeser, List.map_map]
    rw [show (Val.str ∘ urlencode) = (fun ps => Val.str (urlencode ps)) from rfl, h2]
    rfl

example : (∀ ps ∈ [[("a", "1"), ("b", "x y")], []], (ps.map Prod.fst).Nodup ∧ ∀ p ∈ ps, p.2 ≠ "") := by decide
example : DNodup ([("a", .int 1), ("b", .str "")] : Dict) := by decide
example : ∃ t, anySer ⟨fun _ => []⟩ (.msg messageSchema.cls [("a", .str "1 2")]) .urlencoded = .ok (.str t) ∧
    fromUrlencoded messageSchema [] t = .ok [("a", .str "1 2")] := by
  refine (C166_message_texts ⟨fun _ => []⟩ messageSchema rfl _).2 (by decide) (by decide) ?_ ?_
  · intro k v h
    simp only [List.mem_cons, Prod.mk.injEq, List.not_mem_nil, or_false] at h
    obtain ⟨rfl, rfl⟩ := h
    exact .str (.inl rfl) (by decide)
  · rintro ⟨k, sp, h, _⟩
    cases h

end Verif
