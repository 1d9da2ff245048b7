import Verif.Model.Message
import Verif.Props.IsoBasics
import Verif.Py.UrlLemmas
import Verif.Py.JsonLemmas

/-!
# C06, C09–C12, C17: encodings
-/

namespace Verif

/-! ## C06 -/

/-- **C06.**  JSON data (finite floats, distinct member names, any nesting and any unicode strings)
survives `json.loads(json.dumps(v))`; this is the `JSON` converter of `storage/converter.py:21-27`
and the text layer of `to_json`/`from_json`. -/
theorem C06_json_roundtrip (v : Val) (h : v.isJson = true) :
    ∃ s, dumps v = .ok s ∧ loads s = .ok v :=
  loads_dumps v h

/-- Hence different data never get the same text. -/
theorem C06_dumps_injective (v w : Val) (hv : v.isJson = true) (hw : w.isJson = true)
    (h : dumps v = dumps w) : v = w := by
  obtain ⟨s, h1, h2⟩ := loads_dumps v hv
  obtain ⟨t, h3, h4⟩ := loads_dumps w hw
  rw [h1, h3] at h
  cases h
  rw [h2] at h4
  cases h4
  rfl

example : (Val.dict [("a", .list [.none, .int (-12), .str "q\"\né"]), ("b", .dict [("c", .bool true), ("d", .flt (-3 / 4))])]).isJson
    = true := by decide +kernel

/-! ## C09 -/

/-- The letters, digits and signs that may occur in a percent-encoded string. -/
def safeAlphabet : List Char :=
  "ABCDEFGHIJKLMNOPQRSTUVWXYZabcdefghijklmnopqrstuvwxyz0123456789_.-~+%".toList

theorem isQuoted_safe {c : Char} (h : isQuoted c = true) : c ∈ safeAlphabet := by
  have hlt := isQuoted_lt h
  have key : ∀ n : Fin 128, isQuoted (Char.ofNat n.val) = true → Char.ofNat n.val ∈ safeAlphabet := by
    decide +kernel
  have := key ⟨c.toNat, hlt⟩
  simp only [Char.ofNat_toNat] at this
  exact this h

/-- **C09, alphabet.** -/
theorem C09_alphabet (s : String) : ∀ c ∈ (quotePlus s).toList, c ∈ safeAlphabet := by
  intro c hc
  unfold quotePlus at hc
  rw [String.toList_ofList] at hc
  exact isQuoted_safe (quotePlusC_quoted _ c hc)

/-- **C09, no delimiter** ever appears in an encoded string. -/
theorem C09_no_delimiter (s : String) (c : Char)
    (hc : c = '/' ∨ c = '&' ∨ c = '=' ∨ c = '#' ∨ c = '?' ∨ c = ' ' ∨ c = ';' ∨ c = '\\' ∨ c = ':') :
    c ∉ (quotePlus s).toList := by
  intro h
  have := C09_alphabet s c h
  rcases hc with rfl | rfl | rfl | rfl | rfl | rfl | rfl | rfl | rfl <;> revert this <;> decide +kernel

/-- **C09, lossless.** -/
theorem C09_roundtrip (s : String) : unquotePlus (quotePlus s) = s := unquotePlus_quotePlus s

/-- **C09, injective.** -/
theorem C09_injective (a b : String) (h : quotePlus a = quotePlus b) : a = b := quotePlus_inj h

/-! ## C10 -/

/-- The non-empty values given for `k`, in order of appearance. -/
def nonEmptyValues (k : String) : List (String × String) → List String
  | [] => []
  | (n, v) :: ps => if n = k ∧ v ≠ "" then v :: nonEmptyValues k ps else nonEmptyValues k ps

theorem valuesOf_filter (k : String) (ps : List (String × String)) :
    valuesOf k (ps.filter (fun p => !decide (p.2 = ""))) = nonEmptyValues k ps := by
  induction ps with
  | nil => rfl
  | cons p ps ih =>
    rcases p with ⟨n, v⟩
    unfold nonEmptyValues
    by_cases hv : v = ""
    · simp [hv, ih]
    · by_cases hn : n = k
      · simp only [hv, decide_false, Bool.not_false, List.filter_cons, if_true, valuesOf_cons, hn, ih]
        simp [hv]
      · simp only [hv, decide_false, Bool.not_false, List.filter_cons, if_true, valuesOf_cons, hn, ih]
        simp

/-- **C10.**  For every sequence of pairs, `parse_qs(urlencode(ps))` maps each name to exactly the
list of its non-empty values in order, and contains no other name (and no name twice). -/
theorem C10_parse_urlencode (ps : List (String × String)) (k : String) :
    dget (parseQs (urlencode ps)) k =
        (if nonEmptyValues k ps = [] then none else some (nonEmptyValues k ps)) ∧
    DNodup (parseQs (urlencode ps)) := by
  refine ⟨?_, parseQs_nodup _⟩
  rw [dget_parseQs, parseQsl_urlencode, valuesOf_filter]

/-- With non-empty values the pair list itself comes back from `parse_qsl`. -/
theorem C10_parse_qsl (ps : List (String × String)) (h : ∀ p ∈ ps, p.2 ≠ "") :
    parseQsl (urlencode ps) = ps := by
  rw [parseQsl_urlencode, List.filter_eq_self]
  intro p hp
  simp [h p hp]

example : nonEmptyValues "a" [("a", "1&"), ("b", "="), ("a", ""), ("a", " é")] = ["1&", " é"] := by
  decide +kernel

/-! ## C11 -/

/-- A required declared parameter is absent. -/
def RequiredMissing (sch : Schema) (st : Dict) : Prop :=
  ∃ a sp, (a, sp) ∈ sch.params ∧ sp.required = true ∧ a ∉ dkeys st

theorem anyMissing_iff (sch : Schema) (st : Dict) :
    sch.params.any (fun p => p.2.required && !dhas st p.1) = true ↔ RequiredMissing sch st := by
  unfold RequiredMissing
  simp only [List.any_eq_true, Bool.and_eq_true, Bool.not_eq_true', Prod.exists]
  constructor
  · rintro ⟨a, sp, hm, hr, hh⟩
    exact ⟨a, sp, hm, hr, (dget_eq_none_iff _ _).1 ((dhas_eq_false_iff _ _).1 hh)⟩
  · rintro ⟨a, sp, hm, hr, hh⟩
    exact ⟨a, sp, hm, hr, (dhas_eq_false_iff _ _).2 ((dget_eq_none_iff _ _).2 hh)⟩

/-- Errors that encoding a value can produce: everything except `MissingRequiredAttribute`. -/
def NotMissing {α} (r : Res α) : Prop := r ≠ .error .missingRequiredAttribute

theorem NotMissing.bind {α β} {r : Res α} {f : α → Res β} (h : NotMissing r)
    (hf : ∀ a, NotMissing (f a)) : NotMissing (r >>= f) := by
  cases r with
  | error e => intro h'; apply h; cases h'; rfl
  | ok a => exact hf a

theorem NotMissing.map {α β} {r : Res α} {f : α → β} (h : NotMissing r) : NotMissing (r.map f) := by
  cases r with
  | error e => intro h'; apply h; cases h'; rfl
  | ok a => intro h'; cases h'

theorem NotMissing.ok {α} {a : α} : NotMissing (Except.ok a : Res α) := by intro h; cases h

theorem floatText_notMissing (q : Rat) : NotMissing (floatText q) := by
  unfold floatText
  split <;> simp [NotMissing]

mutual
theorem dumpsC_notMissing : (v : Val) → NotMissing (dumpsC v)
  | .none | .bool true | .bool false | .int _ | .str _ | .msg _ _ | .list [] | .dict [] => by
    simp [dumpsC, NotMissing]
  | .flt q => by rw [dumpsC]; exact floatText_notMissing q
  | .list (v :: vs) => by
    rw [dumpsC]
    exact (dumpsC_notMissing v).bind fun a => (dumpsList_notMissing vs).bind fun b => .ok
  | .dict ((k, v) :: d) => by
    rw [dumpsC]
    exact (dumpsC_notMissing v).bind fun a => (dumpsDict_notMissing d).bind fun b => .ok
theorem dumpsList_notMissing : (l : List Val) → NotMissing (dumpsList l)
  | [] => by simp [dumpsList, NotMissing]
  | v :: vs => by
    rw [dumpsList]
    exact (dumpsC_notMissing v).bind fun a => (dumpsList_notMissing vs).bind fun b => .ok
theorem dumpsDict_notMissing : (l : List (String × Val)) → NotMissing (dumpsDict l)
  | [] => by simp [dumpsDict, NotMissing]
  | (k, v) :: d => by
    rw [dumpsDict]
    exact (dumpsC_notMissing v).bind fun a => (dumpsDict_notMissing d).bind fun b => .ok
end

theorem dumps_notMissing (v : Val) : NotMissing (dumps v) := (dumpsC_notMissing v).map

theorem timeStampSer_notMissing (v : Val) : NotMissing (timeStampSer v) := by
  intro h
  rcases timeStampSer_error h with h | h <;> cases h

theorem serPlain_notMissing (s : Option Ser) (v : Val) : NotMissing (serPlain s v) := by
  unfold serPlain
  repeat' split
  all_goals first
    | exact (dumps_notMissing _).map
    | exact timeStampSer_notMissing v
    | simp [NotMissing]

theorem spaceJoin_notMissing (l : List Val) : NotMissing (spaceJoin l) := by
  unfold spaceJoin; split <;> simp [NotMissing]

mutual
theorem toDict_notMissing (env : SerEnv) : (c : Cls) → (d : List (String × Val)) →
    NotMissing (toDict env c d)
  | c, [] => by simp [toDict, NotMissing]
  | c, (k, v) :: rest => by
    rw [toDict]
    exact (serDict_notMissing env (env c k) v).bind fun a =>
      (toDict_notMissing env c rest).bind fun b => .ok
theorem serDict_notMissing (env : SerEnv) : (s : Option Ser) → (v : Val) → NotMissing (serDict env s v)
  | s, .none => by rw [serDict.eq_def]; exact serPlain_notMissing s .none
  | s, .bool b => by rw [serDict.eq_def]; exact serPlain_notMissing s (.bool b)
  | s, .int b => by rw [serDict.eq_def]; exact serPlain_notMissing s (.int b)
  | s, .flt b => by rw [serDict.eq_def]; exact serPlain_notMissing s (.flt b)
  | s, .str b => by rw [serDict.eq_def]; exact serPlain_notMissing s (.str b)
  | s, .dict b => by rw [serDict.eq_def]; exact serPlain_notMissing s (.dict b)
  | s, .msg c d => by
    rw [serDict.eq_def]
    simp only
    have := toDict_notMissing env c d
    repeat' split
    all_goals first
      | exact this.map
      | (rename_i e he; intro h; cases h; exact this he)
      | simp [NotMissing]
  | s, .list l => by
    rw [serDict.eq_def]
    simp only
    have h1 : ∀ c d r, l = .msg c d :: r → NotMissing (do
        let x ← toDict env c d
        let xs ← toDictEach env r
        .ok (Val.list (.dict x :: xs))) := by
      intro c d r e
      subst e
      exact (toDict_notMissing env c d).bind fun a => (toDictEach_notMissing env r).bind fun b => .ok
    have h2 : ∀ c d r, l = .msg c d :: r → NotMissing ((toDict env c d).map Val.dict) := by
      intro c d r e
      subst e
      exact (toDict_notMissing env c d).map
    have h3 := msgSerEach_notMissing env l
    have h4 := linkSerEach_notMissing env l
    repeat' split
    all_goals first
      | exact h1 _ _ _ rfl
      | exact h2 _ _ _ rfl
      | exact (dumps_notMissing _).map
      | exact spaceJoin_notMissing _
      | exact h3.map
      | exact h4.map
      | simp [NotMissing]
theorem toDictEach_notMissing (env : SerEnv) : (l : List Val) → NotMissing (toDictEach env l)
  | [] => by simp [toDictEach, NotMissing]
  | .msg c d :: rest => by
    rw [toDictEach]
    exact (toDict_notMissing env c d).bind fun a => (toDictEach_notMissing env rest).bind fun b => .ok
  | .none :: _ | .bool _ :: _ | .int _ :: _ | .flt _ :: _ | .str _ :: _ | .dict _ :: _ | .list _ :: _ => by
    simp [toDictEach, NotMissing]
theorem msgSerEach_notMissing (env : SerEnv) : (l : List Val) → NotMissing (msgSerEach env l)
  | [] => by simp [msgSerEach, NotMissing]
  | .msg c d :: rest => by
    rw [msgSerEach]
    exact (toDict_notMissing env c d).bind fun a => (msgSerEach_notMissing env rest).bind fun b => .ok
  | .none :: rest | .bool _ :: rest | .int _ :: rest | .flt _ :: rest | .str _ :: rest | .dict _ :: rest
  | .list _ :: rest => by
    rw [msgSerEach.eq_def]
    exact (serPlain_notMissing _ _).bind fun a => (msgSerEach_notMissing env rest).bind fun b => .ok
theorem linkSerEach_notMissing (env : SerEnv) : (l : List Val) → NotMissing (linkSerEach env l)
  | [] => by simp [linkSerEach, NotMissing]
  | .msg c d :: rest => by
    rw [linkSerEach]
    split
    · exact (toDict_notMissing env c d).bind fun a => (linkSerEach_notMissing env rest).bind fun b => .ok
    · simp [NotMissing]
  | .none :: rest | .bool _ :: rest | .int _ :: rest | .flt _ :: rest | .str _ :: rest | .dict _ :: rest
  | .list _ :: rest => by
    rw [linkSerEach.eq_def]
    exact (serPlain_notMissing _ _).bind fun a => (linkSerEach_notMissing env rest).bind fun b => .ok
end

mutual
theorem reprC_notMissing : (v : Val) → NotMissing (reprC v)
  | .none => by simp [reprC, NotMissing]
  | .bool true => by simp [reprC, NotMissing]
  | .bool false => by simp [reprC, NotMissing]
  | .int i => by simp [reprC, NotMissing]
  | .flt q => by rw [reprC]; exact floatText_notMissing q
  | .str s => by simp [reprC, NotMissing]
  | .list [] => by simp [reprC, NotMissing]
  | .list (v :: vs) => by
    rw [reprC]
    exact (reprC_notMissing v).bind fun a => (reprList_notMissing vs).bind fun b => .ok
  | .dict [] => by simp [reprC, NotMissing]
  | .dict ((k, v) :: d) => by
    rw [reprC]
    exact (reprC_notMissing v).bind fun a => (reprDict_notMissing d).bind fun b => .ok
  | .msg c d => by simp [reprC, NotMissing]
theorem reprList_notMissing : (l : List Val) → NotMissing (reprList l)
  | [] => by simp [reprList, NotMissing]
  | v :: vs => by
    rw [reprList]
    exact (reprC_notMissing v).bind fun a => (reprList_notMissing vs).bind fun b => .ok
theorem reprDict_notMissing : (d : List (String × Val)) → NotMissing (reprDict d)
  | [] => by simp [reprDict, NotMissing]
  | (k, v) :: d => by
    rw [reprDict]
    exact (reprC_notMissing v).bind fun a => (reprDict_notMissing d).bind fun b => .ok
end

theorem pyStr_notMissing (v : Val) : NotMissing (pyStr v) := by
  unfold pyStr
  split
  · simp [NotMissing]
  · exact (reprC_notMissing _).map

theorem pyStrOf_notMissing (env : SerEnv) (v : Val) : NotMissing (pyStrOf env v) := by
  unfold pyStrOf
  split
  · exact (toDict_notMissing env _ _).bind fun _ => pyStr_notMissing _
  · exact pyStr_notMissing _

theorem pyStrEach_notMissing (env : SerEnv) (k : String) (l : List Val) : NotMissing (pyStrEach env k l) := by
  induction l with
  | nil => simp [pyStrEach, NotMissing]
  | cons v l ih =>
    rw [pyStrEach]
    exact (pyStrOf_notMissing env v).bind fun a => ih.bind fun b => .ok

theorem pyStrValues_notMissing (env : SerEnv) (d : List (String × Val)) : NotMissing (pyStrValues env d) := by
  induction d with
  | nil => simp [pyStrValues, NotMissing]
  | cons p d ih =>
    rcases p with ⟨k, v⟩
    rw [pyStrValues]
    exact (pyStrOf_notMissing env v).bind fun a => ih.bind fun b => .ok

theorem orStr_notMissing (r : Res String) (v : Val) : NotMissing (orStr r v) := by
  unfold orStr
  split
  · simp [NotMissing]
  · simp [NotMissing]
  · exact pyStr_notMissing _

theorem urlMsg_notMissing (env : SerEnv) (s : Option Ser) (c : Cls) (d : Dict) : NotMissing (urlMsg env s c d) := by
  unfold urlMsg
  split
  · exact pyStrOf_notMissing _ _
  · rename_i s
    have h1 := serDict_notMissing env (some s) (.msg c d)
    repeat' split
    all_goals first
      | exact pyStrOf_notMissing _ _
      | simp [NotMissing]
      | skip
    · rename_i v _ _ e _ he
      intro h
      cases h
      exact dumps_notMissing v he
    · rename_i e _ he
      intro h
      cases h
      exact h1 he

theorem serUrlOther_notMissing (env : SerEnv) (pos : Bool) (s : Option Ser) (v : Val) :
    NotMissing (serUrlOther env pos s v) := by
  unfold serUrlOther
  repeat' split
  all_goals first
    | exact pyStr_notMissing _
    | exact orStr_notMissing _ _
    | simp [NotMissing]

theorem serUrlList_notMissing (pos : Bool) (s : Ser) (l : List Val) : NotMissing (serUrlList pos s l) := by
  unfold serUrlList
  repeat' split
  all_goals first
    | exact dumps_notMissing _
    | exact pyStr_notMissing _
    | simp [NotMissing]

theorem urlencodeDict_notMissing (env : SerEnv) (d : Dict) : NotMissing (urlencodeDict env d) :=
  (pyStrValues_notMissing env d).map

/-- A message of class `c` with the entries `d` lacks a required parameter of its class. -/
def Lacks (env : SerEnv) (c : Cls) (d : Dict) : Prop :=
  ∃ q sp, (q, sp) ∈ env.params c ∧ sp.required = true ∧ q ∉ dkeys d

/-- Some message in a list inside the message, at any depth, lacks a required parameter of its class. -/
inductive ListedLacks (env : SerEnv) : Dict → Prop
  | here {st : Dict} {k : String} {l : List Val} {c : Cls} {d : Dict} :
      (k, .list l) ∈ st → .msg c d ∈ l → Lacks env c d → ListedLacks env st
  | inside {st : Dict} {k : String} {l : List Val} {c : Cls} {d : Dict} :
      (k, .list l) ∈ st → .msg c d ∈ l → ListedLacks env d → ListedLacks env st

/-- a list with a message that lacks something, or holds such a list -/
def ListLacks (env : SerEnv) (l : List Val) : Prop := ∃ c d, .msg c d ∈ l ∧ (Lacks env c d ∨ ListedLacks env d)

theorem ListLacks.cons {env : SerEnv} {v : Val} {l : List Val} (h : ListLacks env l) : ListLacks env (v :: l) := by
  obtain ⟨c, d, hm, h⟩ := h
  exact ⟨c, d, List.mem_cons_of_mem _ hm, h⟩

theorem ListedLacks.of {env : SerEnv} {k : String} {l : List Val} {st : Dict} (h : ListLacks env l)
    (hm : (k, .list l) ∈ st) : ListedLacks env st := by
  obtain ⟨c, d, hc, h | h⟩ := h
  · exact .here hm hc h
  · exact .inside hm hc h

theorem ListedLacks.cons {env : SerEnv} {p : String × Val} {st : Dict} (h : ListedLacks env st) :
    ListedLacks env (p :: st) := by
  cases h with
  | here hm hc h => exact .here (List.mem_cons_of_mem _ hm) hc h
  | inside hm hc h => exact .inside (List.mem_cons_of_mem _ hm) hc h

theorem bind_missing {α β} {r : Res α} {f : α → Res β} (h : (r >>= f) = .error .missingRequiredAttribute) :
    r = .error .missingRequiredAttribute ∨ ∃ a, r = .ok a ∧ f a = .error .missingRequiredAttribute := by
  cases r with
  | error e => exact .inl (by cases h; rfl)
  | ok a => exact .inr ⟨a, rfl, h⟩

theorem map_missing {α β} {r : Res α} {f : α → β} (h : r.map f = .error .missingRequiredAttribute) :
    r = .error .missingRequiredAttribute := by
  cases r with
  | error e => cases h; rfl
  | ok a => cases h

theorem anyLacks_iff (ps : Assoc Spec) (st : Dict) :
    ps.any (fun p => p.2.required && !dhas st p.1) = true ↔
      ∃ q sp, (q, sp) ∈ ps ∧ sp.required = true ∧ q ∉ dkeys st := by
  simp only [List.any_eq_true, Bool.and_eq_true, Bool.not_eq_true', Prod.exists]
  constructor
  · rintro ⟨a, sp, hm, hr, hh⟩
    exact ⟨a, sp, hm, hr, (dget_eq_none_iff _ _).1 ((dhas_eq_false_iff _ _).1 hh)⟩
  · rintro ⟨a, sp, hm, hr, hh⟩
    exact ⟨a, sp, hm, hr, (dhas_eq_false_iff _ _).2 ((dget_eq_none_iff _ _).2 hh)⟩

theorem urlFinish_missing {env : SerEnv} {c : Cls} {ps : Assoc Spec} {d : Dict} {r : Res (List (String × String))}
    (h : urlFinish env c ps d r = .error .missingRequiredAttribute) :
    (∃ q sp, (q, sp) ∈ ps ∧ sp.required = true ∧ q ∉ dkeys d) ∨ r = .error .missingRequiredAttribute := by
  unfold urlFinish at h
  split at h
  · rename_i ha
    exact .inl ((anyLacks_iff ps d).1 ha)
  · exact .inr (map_missing h)

mutual
theorem urlPairs_missing (env : SerEnv) (pos : Bool) (ps : Assoc Spec) (k : String) : (v : Val) →
    urlPairs env pos ps k v = .error .missingRequiredAttribute → ∃ l, v = .list l ∧ ListLacks env l
  | .none, h => by rw [urlPairs] at h; split at h <;> cases h
  | .str s, h => by rw [urlPairs] at h; cases h
  | .list l, h => by
    refine ⟨l, rfl, ?_⟩
    rw [urlPairs] at h
    split at h
    · exact absurd h (pyStrEach_notMissing env k l)
    · rcases bind_missing h with h | ⟨r, _, h⟩
      · exact msgUrlEach_missing env l h
      · exact absurd h ((pyStr_notMissing _).bind fun _ => .ok)
    · rcases bind_missing h with h | ⟨r, _, h⟩
      · exact linkUrlEach_missing env l h
      · exact absurd h ((pyStr_notMissing _).bind fun _ => .ok)
    · exact claimsUrl_missing env l (map_missing h)
    · exact absurd (map_missing h) (serUrlList_notMissing _ _ _)
  | .msg c d, h => by
    rw [urlPairs] at h
    exact absurd (map_missing h) (urlMsg_notMissing _ _ _ _)
  | .bool _, h => by rw [urlPairs.eq_def] at h; exact absurd (map_missing h) (serUrlOther_notMissing _ _ _ _)
  | .int _, h => by rw [urlPairs.eq_def] at h; exact absurd (map_missing h) (serUrlOther_notMissing _ _ _ _)
  | .flt _, h => by rw [urlPairs.eq_def] at h; exact absurd (map_missing h) (serUrlOther_notMissing _ _ _ _)
  | .dict _, h => by rw [urlPairs.eq_def] at h; exact absurd (map_missing h) (serUrlOther_notMissing _ _ _ _)
theorem urlPairsAll_missing (env : SerEnv) (pos : Bool) (ps : Assoc Spec) : (st : List (String × Val)) →
    urlPairsAll env pos ps st = .error .missingRequiredAttribute → ListedLacks env st
  | [], h => by rw [urlPairsAll] at h; cases h
  | (k, v) :: rest, h => by
    rw [urlPairsAll] at h
    rcases bind_missing h with h | ⟨a, _, h⟩
    · obtain ⟨l, e, hl⟩ := urlPairs_missing env pos ps k v h
      exact .of (k := k) hl (by rw [e]; exact List.mem_cons_self ..)
    · rcases bind_missing h with h | ⟨b, _, h⟩
      · exact (urlPairsAll_missing env pos ps rest h).cons
      · cases h
theorem msgUrlEach_missing (env : SerEnv) : (l : List Val) →
    msgUrlEach env l = .error .missingRequiredAttribute → ListLacks env l
  | [], h => by rw [msgUrlEach] at h; cases h
  | .msg c d :: vs, h => by
    rw [msgUrlEach] at h
    rcases bind_missing h with h | ⟨a, _, h⟩
    · refine ⟨c, d, List.mem_cons_self .., ?_⟩
      exact (urlFinish_missing h).imp id (urlPairsAll_missing env false (env.params c) d)
    · rcases bind_missing h with h | ⟨b, _, h⟩
      · exact (msgUrlEach_missing env vs h).cons
      · cases h
  | .dict d :: vs, h => by
    rw [msgUrlEach] at h
    rcases bind_missing h with h | ⟨a, _, h⟩
    · exact absurd h (urlencodeDict_notMissing env d)
    · rcases bind_missing h with h | ⟨b, _, h⟩
      · exact (msgUrlEach_missing env vs h).cons
      · cases h
  | .none :: vs, h | .bool _ :: vs, h | .int _ :: vs, h | .flt _ :: vs, h | .str _ :: vs, h | .list _ :: vs, h => by
    rw [msgUrlEach.eq_def] at h
    rcases bind_missing h with h | ⟨b, _, h⟩
    · exact (msgUrlEach_missing env vs h).cons
    · cases h
theorem linkUrlEach_missing (env : SerEnv) : (l : List Val) →
    linkUrlEach env l = .error .missingRequiredAttribute → ListLacks env l
  | [], h => by rw [linkUrlEach] at h; cases h
  | .msg c d :: vs, h => by
    rw [linkUrlEach] at h
    rcases bind_missing h with h | ⟨a, _, h⟩
    · unfold linkText at h
      split at h
      · refine ⟨c, d, List.mem_cons_self .., ?_⟩
        exact (urlFinish_missing (map_missing h)).imp id (urlPairsAll_missing env false (env.params c) d)
      · cases h
    · rcases bind_missing h with h | ⟨b, _, h⟩
      · exact (linkUrlEach_missing env vs h).cons
      · cases h
  | .dict d :: vs, h => by
    rw [linkUrlEach] at h
    rcases bind_missing h with h | ⟨a, _, h⟩
    · exact absurd h (urlencodeDict_notMissing env d)
    · rcases bind_missing h with h | ⟨b, _, h⟩
      · exact (linkUrlEach_missing env vs h).cons
      · cases h
  | .none :: vs, h | .bool _ :: vs, h | .int _ :: vs, h | .flt _ :: vs, h | .str _ :: vs, h | .list _ :: vs, h => by
    rw [linkUrlEach.eq_def] at h
    rcases bind_missing h with h | ⟨b, _, h⟩
    · exact (linkUrlEach_missing env vs h).cons
    · cases h
theorem claimsUrl_missing (env : SerEnv) : (l : List Val) →
    claimsUrl env l = .error .missingRequiredAttribute → ListLacks env l
  | [], h => by rw [claimsUrl] at h; cases h
  | .msg c d :: _, h => by
    rw [claimsUrl] at h
    refine ⟨c, d, List.mem_cons_self .., ?_⟩
    exact (urlFinish_missing h).imp id (urlPairsAll_missing env true (env.params c) d)
  | .dict d :: _, h => by
    rw [claimsUrl] at h
    exact absurd h (urlencodeDict_notMissing env d)
  | .str s :: _, h => by
    rw [claimsUrl] at h
    split at h <;> cases h
  | .list [] :: _, h => by rw [claimsUrl] at h; cases h
  | .list (_ :: _) :: _, h | .none :: _, h | .bool _ :: _, h | .int _ :: _, h | .flt _ :: _, h => by
    rw [claimsUrl.eq_def] at h; cases h
end

/-- **C11.**  Without a required declared parameter `to_urlencoded` raises `MissingRequiredAttribute`, provided the message
can be formatted for the exception; and it raises it only then, or when a message in a list inside lacks one of its own. -/
theorem C11_only_missing (env : SerEnv) (sch : Schema) (st : Dict) :
    (RequiredMissing sch st → (∃ d, toDict env sch.cls st = .ok d) →
      toUrlencoded env sch st = .error .missingRequiredAttribute) ∧
    (toUrlencoded env sch st = .error .missingRequiredAttribute → RequiredMissing sch st ∨ ListedLacks env st) := by
  constructor
  · rintro h ⟨d, hd⟩
    unfold toUrlencoded urlFinish raiseMissing
    rw [if_pos ((anyMissing_iff sch st).2 h), hd]
  · intro h
    exact (urlFinish_missing h).imp id (urlPairsAll_missing env false sch.params st)

/-- **C11.**  `to_urlencoded` raises `MissingRequiredAttribute` exactly when a required declared
parameter is absent, and the message can be formatted for the exception; for messages whose lists hold no message that is
incomplete itself. -/
theorem C11_to_urlencoded_missing (env : SerEnv) (sch : Schema) (st : Dict) (hl : ¬ ListedLacks env st) :
    toUrlencoded env sch st = .error .missingRequiredAttribute ↔
      RequiredMissing sch st ∧ ∃ d, toDict env sch.cls st = .ok d := by
  refine ⟨fun h => ?_, fun h => (C11_only_missing env sch st).1 h.1 h.2⟩
  have hm := ((C11_only_missing env sch st).2 h).resolve_right hl
  refine ⟨hm, ?_⟩
  unfold toUrlencoded urlFinish raiseMissing at h
  rw [if_pos ((anyMissing_iff sch st).2 hm)] at h
  split at h
  · rename_i e he
    cases h
    exact absurd he (toDict_notMissing env sch.cls st)
  · rename_i d hd
    exact ⟨d, hd⟩

/-- **C11.**  Whatever else the message holds, nothing is written when a required parameter is absent. -/
theorem C11_refused (env : SerEnv) (sch : Schema) (st : Dict) (h : RequiredMissing sch st) :
    (∃ e, toUrlencoded env sch st = .error e) ∧
      ∀ loc frag, ∃ e, request env sch st loc frag = .error e := by
  have h1 : ∃ e, toUrlencoded env sch st = .error e := by
    unfold toUrlencoded urlFinish raiseMissing
    rw [if_pos ((anyMissing_iff sch st).2 h)]
    split
    · exact ⟨_, rfl⟩
    · exact ⟨_, rfl⟩
  refine ⟨h1, fun loc frag => ?_⟩
  obtain ⟨e, he⟩ := h1
  exact ⟨e, by unfold request; rw [he]; rfl⟩

/-- The same for `request()`, in both modes. -/
theorem C11_request_missing (env : SerEnv) (sch : Schema) (st : Dict) (loc : String) (frag : Bool)
    (hl : ¬ ListedLacks env st) :
    request env sch st loc frag = .error .missingRequiredAttribute ↔
      RequiredMissing sch st ∧ ∃ d, toDict env sch.cls st = .ok d := by
  rw [← C11_to_urlencoded_missing env sch st hl]
  unfold request
  cases h : toUrlencoded env sch st with
  | error e => simp [bind, Except.bind]
  | ok q =>
    simp only [bind, Except.bind, reduceCtorEq, iff_false]
    repeat' split
    all_goals simp

/-! ## C12 -/

theorem splitC_append_sep (c : Char) (a b : List Char) :
    splitC c (a ++ c :: b) = splitC c a ++ splitC c b := by
  induction a with
  | nil => simp [splitC]
  | cons x a ih =>
    simp only [List.cons_append, splitC]
    split
    · rw [ih]; rfl
    · rw [ih]
      cases h : splitC c a with
      | nil => exact absurd h (splitC_ne_nil c a)
      | cons p ps => rfl

theorem parseQsl_append (a b : String) : parseQsl (a ++ "&" ++ b) = parseQsl a ++ parseQsl b := by
  unfold parseQsl parseQslC
  have : (a ++ "&" ++ b).toList = a.toList ++ '&' :: b.toList := by simp
  rw [this, splitC_append_sep, List.filterMap_append, List.map_append]

theorem urlencode_chars (ps : List (String × String)) (c : Char) (hc : c ∈ (urlencode ps).toList) :
    c ∈ safeAlphabet ∨ c = '=' ∨ c = '&' := by
  unfold urlencode urlencodeC at hc
  rw [String.toList_ofList] at hc
  have hj : ∀ (l : List (List Char)), c ∈ joinC '&' l → c = '&' ∨ ∃ p ∈ l, c ∈ p := by
    intro l
    induction l with
    | nil => intro h; simp [joinC] at h
    | cons p l ih =>
      intro h
      by_cases hl : l = []
      · subst hl; simp [joinC] at h; exact Or.inr ⟨p, by simp, h⟩
      · rw [joinC_cons hl] at h
        simp only [List.mem_append, List.mem_cons] at h
        rcases h with h | h | h
        · exact Or.inr ⟨p, by simp, h⟩
        · exact Or.inl h
        · rcases ih h with h | ⟨q, hq, h⟩
          · exact Or.inl h
          · exact Or.inr ⟨q, List.mem_cons_of_mem _ hq, h⟩
  rcases hj _ hc with h | ⟨p, hp, h⟩
  · exact Or.inr (Or.inr h)
  · simp only [List.mem_map] at hp
    obtain ⟨q, _, rfl⟩ := hp
    simp only [List.mem_append, List.mem_cons] at h
    rcases h with h | h | h
    · exact Or.inl (isQuoted_safe (quotePlusC_quoted _ c h))
    · exact Or.inr (Or.inl h)
    · exact Or.inl (isQuoted_safe (quotePlusC_quoted _ c h))

/-- The location itself up to its query, and the query if there is one. -/
def splitUrl (u : String) : String × Option String :=
  let r := splitFirst '?' u.toList
  (String.ofList r.1, r.2.map String.ofList)

theorem splitFirst_none {c : Char} {s : List Char} (h : c ∉ s) : splitFirst c s = (s, none) := by
  induction s with
  | nil => rfl
  | cons x s ih =>
    simp only [List.mem_cons, not_or] at h
    have : ¬ x = c := fun e => h.1 e.symm
    simp [splitFirst, this, ih h.2]

theorem splitFirst_append_sep {c : Char} {s : List Char} (h : c ∉ s) (r : List Char) :
    splitFirst c (s ++ c :: r) = (s, some r) := by
  induction s with
  | nil => simp [splitFirst]
  | cons x s ih =>
    simp only [List.mem_cons, not_or] at h
    have : ¬ x = c := fun e => h.1 e.symm
    simp [splitFirst, this, ih h.2]

theorem splitFirst_append {c : Char} {s t : List Char} (h : c ∈ s) :
    splitFirst c (s ++ t) = ((splitFirst c s).1, (splitFirst c s).2.map (· ++ t)) ∧
      (splitFirst c s).2.isSome = true := by
  induction s with
  | nil => simp at h
  | cons x s ih =>
    by_cases e : x = c
    · subst e; simp [splitFirst]
    · have h' : c ∈ s := by
        simp only [List.mem_cons] at h
        exact h.resolve_left (fun e' => e e'.symm)
      simp [splitFirst, e, ih h']

/-- **C12, query mode.**  The URL produced by `request(location)` splits at its first `?` into the
location's own part before its query and a query whose pairs are the location's own pairs followed by
exactly the message's pairs with non-empty value; the message adds no `#`, so a location without fragment
gives a URL without fragment. -/
theorem C12_request_query (env : SerEnv) (sch : Schema) (st : Dict) (loc url : String)
    (pairs : List (String × String)) (hp : urlPairsAll env false sch.params st = .ok pairs)
    (h : request env sch st loc false = .ok url) :
    (splitUrl url).1 = (splitUrl loc).1 ∧
    (∃ q, (splitUrl url).2 = some q ∧
      parseQsl q = (match (splitUrl loc).2 with | some q0 => parseQsl q0 | none => []) ++
        pairs.filter (fun p => !decide (p.2 = ""))) ∧
    ('#' ∉ loc.toList → '#' ∉ url.toList) := by
  unfold request toUrlencoded urlFinish at h
  split at h
  · unfold raiseMissing at h
    split at h <;> simp [bind, Except.bind] at h
  · rw [hp] at h
    simp only [Except.map, bind, Except.bind, Bool.false_eq_true, if_false] at h
    have hhash : '#' ∉ (urlencode pairs).toList := by
      intro hc
      rcases urlencode_chars pairs '#' hc with h | h | h
      · revert h; decide +kernel
      · cases h
      · cases h
    split at h
    · rename_i hq
      cases h
      have hq' : '?' ∈ loc.toList := by simpa using hq
      have e : (loc ++ "&" ++ urlencode pairs).toList = loc.toList ++ ('&' :: (urlencode pairs).toList) := by
        simp
      obtain ⟨h1, h2⟩ := splitFirst_append (t := '&' :: (urlencode pairs).toList) hq'
      unfold splitUrl
      simp only [e, h1]
      refine ⟨trivial, ?_, ?_⟩
      · obtain ⟨q0, hq0⟩ := Option.isSome_iff_exists.1 h2
        rw [hq0]
        refine ⟨_, rfl, ?_⟩
        have : String.ofList (q0 ++ '&' :: (urlencode pairs).toList) =
            String.ofList q0 ++ "&" ++ urlencode pairs := by
          apply String.toList_injective; simp
        simp only [Option.map_some]
        rw [this, parseQsl_append, parseQsl_urlencode]
      · intro hl
        simp only [List.mem_append, List.mem_cons, not_or]
        exact ⟨hl, by decide, hhash⟩
    · rename_i hq
      cases h
      have hq' : '?' ∉ loc.toList := by simpa using hq
      have e : (loc ++ "?" ++ urlencode pairs).toList = loc.toList ++ ('?' :: (urlencode pairs).toList) := by
        simp
      unfold splitUrl
      simp only [e, splitFirst_append_sep hq', splitFirst_none hq']
      refine ⟨trivial, ⟨_, rfl, ?_⟩, ?_⟩
      · rw [String.ofList_toList, parseQsl_urlencode]; rfl
      · intro hl
        simp only [List.mem_append, List.mem_cons, not_or]
        exact ⟨hl, by decide, hhash⟩

/-- **C12, fragment mode.**  For a location without fragment, everything after the first `#` of the
URL is the encoded message, and parses back to its pairs. -/
theorem C12_request_fragment (env : SerEnv) (sch : Schema) (st : Dict) (loc url : String)
    (pairs : List (String × String)) (hp : urlPairsAll env false sch.params st = .ok pairs)
    (hl : '#' ∉ loc.toList) (h : request env sch st loc true = .ok url) :
    ∃ f, splitFirst '#' url.toList = (loc.toList, some f) ∧
      parseQsl (String.ofList f) = pairs.filter (fun p => !decide (p.2 = "")) := by
  unfold request toUrlencoded urlFinish at h
  split at h
  · unfold raiseMissing at h
    split at h <;> simp [bind, Except.bind] at h
  · rw [hp] at h
    simp only [Except.map, bind, Except.bind, if_true] at h
    cases h
    refine ⟨(urlencode pairs).toList, ?_, ?_⟩
    · have e : (loc ++ "#" ++ urlencode pairs).toList = loc.toList ++ ('#' :: (urlencode pairs).toList) := by
        simp
      rw [e, splitFirst_append_sep hl]
    · rw [String.ofList_toList, parseQsl_urlencode]

example : let sch : Schema := { cls := ⟨"t", "T"⟩, params := [] }
    urlPairsAll ⟨fun _ => []⟩ false sch.params [("a", .str "x y"), ("b", .int 3)] =
      .ok [("a", "x y"), ("b", "3")] ∧
    request ⟨fun _ => []⟩ sch [("a", .str "x y"), ("b", .int 3)] "https://h/?q=1" false =
      .ok "https://h/?q=1&a=x+y&b=3" := by decide +kernel

/-! ## C17 -/

/-- **C17.**  Joining with spaces and splitting again gives the list back iff it is non-empty and no
item contains a space; splitting and joining always gives the string back. -/
theorem C17_split_join_iff (l : List String) :
    pySplit ' ' (pyJoin ' ' l) = l ↔ l ≠ [] ∧ ∀ p ∈ l, ' ' ∉ p.toList :=
  pySplit_pyJoin_iff ' ' l

theorem C17_join_split (s : String) : pyJoin ' ' (pySplit ' ' s) = s := pyJoin_pySplit ' ' s

/-- For the (de)serialisers of the list parameters themselves. -/
theorem C17_serializer_iff (l : List String) :
    (serUrlList false .spSep (l.map .str) >>= fun t => spSepDeser (.str t) .urlencoded) = .ok (.list (l.map .str)) ↔
      l ≠ [] ∧ ∀ p ∈ l, ' ' ∉ p.toList := by
  have hj : joinStrs (l.map .str) = some l := by
    induction l with
    | nil => rfl
    | cons x l ih => simp [joinStrs, ih]
  simp only [serUrlList, hj, bind, Except.bind, spSepDeser]
  rw [← C17_split_join_iff]
  constructor
  · intro h
    simp only [Except.ok.injEq, Val.list.injEq] at h
    exact (List.map_inj_right (by intro a b e; cases e; rfl)).1 h
  · intro h; rw [h]

example : pySplit ' ' (pyJoin ' ' ["openid", "", "é"]) = ["openid", "", "é"] ∧
    pySplit ' ' (pyJoin ' ' ["a b"]) = ["a", "b"] := by decide +kernel

end Verif
