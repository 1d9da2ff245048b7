import Verif.Props.JsonText
import Verif.Model.JsonIndent
import Verif.Props.NestedForm
import Verif.Props.Refusals

/-!
# C145: documents of other writers; C146: the indentation of a document does not matter
-/

namespace Verif

/-! ## C145 -/

/-- **C145, refusals.**  A text that is no document is refused with a `JSONDecodeError`, unless it holds what CPython adds to
JSON (not modelled). -/
theorem C145_refused (s : List Char) (h : ∀ v, ¬ DocText v s) :
    loads (String.ofList s) = .error .jsonDecodeError ∨ loads (String.ofList s) = .error .unmodelled := by
  cases hl : loads (String.ofList s) with
  | ok v => exact absurd ((C145_grammar s v).1 hl) (h v)
  | error e => rcases loads_error hl with rfl | rfl <;> simp

/-- **C145, messages.**  `from_json` succeeds exactly when the text is a document of an object which `from_dict` accepts,
with what `from_dict` gives. -/
theorem C145_from_json (sch : Schema) (st r : Dict) (s : List Char) :
    fromJson sch st (String.ofList s) = .ok r ↔ ∃ d, DocText (.dict d) s ∧ fromDictR sch st d = .ok r := by
  unfold fromJson
  constructor
  · intro h
    cases hl : loads (String.ofList s) with
    | error e => rw [hl] at h; cases h
    | ok v =>
      rw [hl] at h
      cases v with
      | dict d => exact ⟨d, (C145_grammar s _).1 hl, h⟩
      | msg c d => exact absurd hl (loads_no_msg _ _ _)
      | _ => cases h
  · rintro ⟨d, hd, h⟩
    rw [(C145_grammar s _).2 hd]
    exact h

/-- **C145, one value.**  Documents of one value are read alike by every class, whoever wrote them. -/
theorem C145_alike (sch : Schema) (st : Dict) (s s' : List Char) (v : Val) (h : DocText v s) (h' : DocText v s') :
    fromJson sch st (String.ofList s) = fromJson sch st (String.ofList s') := by
  unfold fromJson
  rw [(C145_grammar s v).2 h, (C145_grammar s' v).2 h']

example : DocText (.dict [("a", .list [.int 1])]) "\t{\"a\" : [1 ] }\n".toList :=
  (C145_grammar _ _).1 (by decide +kernel)

example : ∀ v, ¬ DocText v ['[', '0', '1', ']'] := by
  intro v h
  have h1 := (C145_grammar _ _).2 h
  have h2 : loads (String.ofList ['[', '0', '1', ']']) = .error .jsonDecodeError := by decide +kernel
  rw [h1] at h2
  cases h2

/-! ## C146 -/

/-- An indentation that a reader skips: none, a number of spaces, or a text of blanks. -/
def Skipped : Val → Prop
  | .none => True
  | .int _ => True
  | .bool _ => True
  | .str s => Blank s.toList
  | _ => False

theorem blank_nil : Blank [] := by intro c hc; cases hc

theorem blank_space : Blank [' '] := by intro c hc; simp at hc; simp [hc]

theorem blank_append {a b : List Char} (ha : Blank a) (hb : Blank b) : Blank (a ++ b) := by
  intro c hc
  rcases List.mem_append.1 hc with h | h
  · exact ha c h
  · exact hb c h

theorem blank_newline {ind : List Char} (h : Blank ind) (lev : Nat) : Blank (newlineIndent ind lev) := by
  intro c hc
  simp only [newlineIndent, List.mem_cons, List.mem_flatten, List.mem_replicate] at hc
  rcases hc with rfl | ⟨l, ⟨_, rfl⟩, hl⟩
  · simp
  · exact h c hl

theorem blank_spaces (n : Nat) : Blank (List.replicate n ' ') := by
  intro c hc
  simp only [List.mem_replicate] at hc
  simp [hc.2]

theorem skipped_indent {i : Val} (h : Skipped i) : ∃ o, indentOf i = .ok o ∧ ∀ ind, o = some ind → Blank ind := by
  cases i with
  | none => exact ⟨_, rfl, by simp⟩
  | int i => exact ⟨_, rfl, by intro ind h; cases h; exact blank_spaces _⟩
  | bool b => exact ⟨_, rfl, by intro ind h; cases h; exact blank_spaces _⟩
  | str s => exact ⟨_, rfl, by intro ind h'; cases h'; exact h⟩
  | _ => cases h

theorem key_text (k : String) : ∃ t, StrText k.toList t ∧ jsonStr k = '"' :: (t ++ ['"']) := by
  have h := jstr_esc k.toList []
  obtain ⟨t, ht, he⟩ := jstr_spec _ _ _ _ (Nat.le_refl _) h
  refine ⟨t, ht, ?_⟩
  rw [jsonStr, he]

/-- what the two writers have in common: they fail alike, and otherwise both texts are documents of one value -/
def Agree (P : List Char → List Char → Prop) (a b : Res (List Char)) : Prop :=
  match a, b with
  | .ok s, .ok s' => P s s'
  | .error e, .error e' => e = e'
  | _, _ => False

theorem Agree.bind {P Q : List Char → List Char → Prop} {a b : Res (List Char)} {f g : List Char → Res (List Char)}
    (h : Agree P a b) (hf : ∀ s s', P s s' → Agree Q (f s) (g s')) : Agree Q (a >>= f) (b >>= g) := by
  match a, b, h with
  | .ok s, .ok s', h => exact hf s s' h
  | .error e, .error e', h => exact h

/-- two texts of one value -/
def SameValue (s s' : List Char) : Prop := ∃ u, ValueText u s ∧ ValueText u s'

/-- two texts of the same further elements: after a value and a comma, or the closing bracket -/
def SameElems (s s' : List Char) : Prop :=
  ∃ l, ∀ v t t', ValueText v t → ValueText v t' → ElemsText (v :: l) (t ++ s) ∧ ElemsText (v :: l) (t' ++ s')

/-- two texts of the same further members -/
def SameMembers (s s' : List Char) : Prop :=
  ∃ l, ∀ (k : String) v t t', ValueText v t → ValueText v t' →
    MembersText ((k, v) :: l) (jsonStr k ++ ':' :: ' ' :: (t ++ s)) ∧
    MembersText ((k, v) :: l) (jsonStr k ++ ':' :: ' ' :: (t' ++ s'))

theorem same_atom {v : Val} (h : ∀ s, dumpsC v = .ok s → ValueText v s) : Agree SameValue (dumpsC v) (dumpsC v) := by
  cases hd : dumpsC v with
  | ok s => exact ⟨v, h s hd, h s hd⟩
  | error e => exact (rfl : e = e)

theorem atom_text {v : Val} (hj : ∀ s, dumpsC v = .ok s → v.isJson = true) (s : List Char) (h : dumpsC v = .ok s) :
    ValueText v s := by
  obtain ⟨s', h1, h2⟩ := jval_dumps v (hj s h)
  rw [h] at h1
  cases h1
  have := h2 [] (s.length + 1) (by intro c hc; cases hc) (Nat.le_refl _)
  obtain ⟨t, ht, he⟩ := jval_spec _ _ _ _ this
  simp only [List.append_nil] at he
  rw [he]
  exact ht

/-- a member with the rest of the members -/
theorem member_more {k : String} {v : Val} {t s w3 w4 u : List Char} {l : List (String × Val)} (hv : ValueText v t)
    (h3 : Blank w3) (h4 : Blank w4) (hu : MembersText l u) (hs : s = w3 ++ ',' :: (w4 ++ u)) :
    MembersText ((k, v) :: l) (jsonStr k ++ ':' :: ' ' :: (t ++ s)) := by
  obtain ⟨kt, hk, he⟩ := key_text k
  have := MembersText.more hk blank_nil blank_space hv h3 h4 hu
  rw [String.ofList_toList] at this
  rw [he, hs]
  simpa using this

theorem member_last {k : String} {v : Val} {t s w3 : List Char} (hv : ValueText v t)
    (h3 : Blank w3) (hs : s = w3 ++ ['}']) : MembersText [(k, v)] (jsonStr k ++ ':' :: ' ' :: (t ++ s)) := by
  obtain ⟨kt, hk, he⟩ := key_text k
  have := MembersText.last hk blank_nil blank_space hv h3
  rw [String.ofList_toList] at this
  rw [he, hs]
  simpa using this

mutual
theorem dumpsI_same {ind : List Char} (hi : Blank ind) : (v : Val) → (lev : Nat) →
    Agree SameValue (dumpsC v) (dumpsI ind lev v)
  | .none, lev => by rw [dumpsI]; exact same_atom (atom_text (by simp [Val.isJson]))
  | .bool b, lev => by rw [dumpsI]; exact same_atom (atom_text (by simp [Val.isJson]))
  | .int i, lev => by rw [dumpsI]; exact same_atom (atom_text (by simp [Val.isJson]))
  | .flt q, lev => by
    rw [dumpsI]
    refine same_atom (atom_text ?_)
    intro s hs
    rw [dumpsC] at hs
    simpa [Val.isJson] using (floatText_ok hs).1
  | .str s, lev => by rw [dumpsI]; exact same_atom (atom_text (by simp [Val.isJson]))
  | .list [], lev => by rw [dumpsI]; exact same_atom (atom_text (by simp [Val.isJson, Val.isJsonList]))
  | .list (v :: vs), lev => by
    rw [dumpsC, dumpsI]
    refine (dumpsI_same hi v (lev + 1)).bind (fun s s' h => ?_)
    refine (dumpsIList_same hi vs lev).bind (fun t t' h' => ?_)
    obtain ⟨u, h1, h2⟩ := h
    obtain ⟨l, hl⟩ := h'
    obtain ⟨e1, e2⟩ := hl u s s' h1 h2
    exact ⟨.list (u :: l), .array (w := []) blank_nil e1, .array (blank_newline hi _) e2⟩
  | .dict [], lev => by
    rw [dumpsI]; exact same_atom (atom_text (by simp [Val.isJson, Val.isJsonDict, dkeys]))
  | .dict ((k, v) :: d), lev => by
    rw [dumpsC, dumpsI]
    refine (dumpsI_same hi v (lev + 1)).bind (fun s s' h => ?_)
    refine (dumpsIDict_same hi d lev).bind (fun t t' h' => ?_)
    obtain ⟨u, h1, h2⟩ := h
    obtain ⟨l, hl⟩ := h'
    obtain ⟨e1, e2⟩ := hl k u s s' h1 h2
    exact ⟨_, .object (w := []) blank_nil e1, .object (blank_newline hi _) e2⟩
  | .msg c d, lev => by rw [dumpsI]; exact same_atom (by intro s hs; rw [dumpsC] at hs; cases hs)
theorem dumpsIList_same {ind : List Char} (hi : Blank ind) : (l : List Val) → (lev : Nat) →
    Agree SameElems (dumpsList l) (dumpsIList ind lev l)
  | [], lev => by
    rw [dumpsList, dumpsIList]
    refine ⟨[], fun v t t' h h' => ⟨?_, ?_⟩⟩
    · exact .last h blank_nil
    · exact .last h' (blank_newline hi lev)
  | v :: vs, lev => by
    rw [dumpsList, dumpsIList]
    refine (dumpsI_same hi v (lev + 1)).bind (fun s s' h => ?_)
    refine (dumpsIList_same hi vs lev).bind (fun t t' h' => ?_)
    obtain ⟨u, h1, h2⟩ := h
    obtain ⟨l, hl⟩ := h'
    obtain ⟨e1, e2⟩ := hl u s s' h1 h2
    exact ⟨u :: l, fun x y y' hy hy' => ⟨.more hy blank_nil blank_space e1, .more hy' blank_nil (blank_newline hi _) e2⟩⟩
theorem dumpsIDict_same {ind : List Char} (hi : Blank ind) : (d : List (String × Val)) → (lev : Nat) →
    Agree SameMembers (dumpsDict d) (dumpsIDict ind lev d)
  | [], lev => by
    rw [dumpsDict, dumpsIDict]
    exact ⟨[], fun k v t t' h h' => ⟨member_last h blank_nil rfl, member_last h' (blank_newline hi lev) rfl⟩⟩
  | (k, v) :: d, lev => by
    rw [dumpsDict, dumpsIDict]
    refine (dumpsI_same hi v (lev + 1)).bind (fun s s' h => ?_)
    refine (dumpsIDict_same hi d lev).bind (fun t t' h' => ?_)
    obtain ⟨u, h1, h2⟩ := h
    obtain ⟨l, hl⟩ := h'
    obtain ⟨e1, e2⟩ := hl k u s s' h1 h2
    exact ⟨(k, u) :: l, fun x w y y' hy hy' => ⟨member_more hy blank_nil blank_space e1 rfl,
      member_more hy' blank_nil (blank_newline hi _) e2 rfl⟩⟩
end

theorem docText_value {v : Val} {s : List Char} (h : ValueText v s) : DocText v s :=
  ⟨[], s, [], blank_nil, h, blank_nil, by simp⟩

/-- **C146, documents.**  With an indentation that is skipped, a value is written exactly when it is written without one, it
fails with the same exception otherwise, and the text is read as the same value. -/
theorem C146_indent (v indent : Val) (h : Skipped indent) :
    (∀ e, dumpsIndent v indent = .error e ↔ dumps v = .error e) ∧
    ∀ t, dumpsIndent v indent = .ok t → ∃ t0 w, dumps v = .ok t0 ∧ loads t0 = .ok w ∧ loads t = .ok w := by
  obtain ⟨o, ho, hb⟩ := skipped_indent h
  unfold dumpsIndent
  rw [ho]
  cases o with
  | none =>
    refine ⟨fun e => Iff.rfl, fun t ht => ?_⟩
    change dumps v = .ok t at ht
    have := dumpsI_same blank_nil v 0
    unfold dumps at ht
    cases hd : dumpsC v with
    | error e => rw [hd] at ht; cases ht
    | ok s =>
      rw [hd] at ht this
      cases ht
      cases hd' : dumpsI [] 0 v with
      | error e => rw [hd'] at this; cases this
      | ok s' =>
        rw [hd'] at this
        obtain ⟨u, h1, _⟩ := this
        have := (C145_grammar s u).2 (docText_value h1)
        exact ⟨_, u, by rw [dumps, hd]; rfl, this, this⟩
  | some ind =>
    have := dumpsI_same (hb ind rfl) v 0
    change (∀ e, (dumpsI ind 0 v).map String.ofList = .error e ↔ (dumpsC v).map String.ofList = .error e) ∧
      ∀ t, (dumpsI ind 0 v).map String.ofList = .ok t → _
    unfold dumps
    cases hd : dumpsC v with
    | error e =>
      cases hd' : dumpsI ind 0 v with
      | error e' =>
        rw [hd, hd'] at this
        cases this
        exact ⟨fun e => Iff.rfl, fun t ht => by cases ht⟩
      | ok s' => rw [hd, hd'] at this; cases this
    | ok s =>
      cases hd' : dumpsI ind 0 v with
      | error e => rw [hd, hd'] at this; cases this
      | ok s' =>
        rw [hd, hd'] at this
        obtain ⟨u, h1, h2⟩ := this
        refine ⟨fun e => ⟨fun h => (nomatch h), fun h => (nomatch h)⟩, fun t ht => ?_⟩
        cases ht
        exact ⟨_, u, rfl, (C145_grammar s u).2 (docText_value h1), (C145_grammar s' u).2 (docText_value h2)⟩

/-- **C146, messages.**  The indented document of a message is read by every class as the document without indentation. -/
theorem C146_message (env : SerEnv) (c : Cls) (st : Dict) (indent : Val) (h : Skipped indent) :
    (∀ e, toJsonIndent env c st indent = .error e ↔ toJson env c st = .error e) ∧
    ∀ t, toJsonIndent env c st indent = .ok t → ∃ t0, toJson env c st = .ok t0 ∧
      ∀ sch st0, fromJson sch st0 t = fromJson sch st0 t0 := by
  unfold toJsonIndent toJson
  cases hd : toDict env c st with
  | error e => exact ⟨fun e => Iff.rfl, fun t ht => by cases ht⟩
  | ok d =>
    obtain ⟨h1, h2⟩ := C146_indent (.dict d) indent h
    refine ⟨h1, fun t ht => ?_⟩
    obtain ⟨t0, w, e1, e2, e3⟩ := h2 t ht
    refine ⟨t0, e1, fun sch st0 => ?_⟩
    unfold fromJson
    rw [e2, e3]

example : toJsonIndent libEnv oidc_AddressClaim.cls [("locality", .str "Umea")] (.int 2)
    = .ok "{\n  \"locality\": \"Umea\"\n}" := by decide +kernel

example : dumpsIndent (.dict [("a", .list [.int 1, .dict []]), ("b", .none)]) (.str "\t")
    = .ok "{\n\t\"a\": [\n\t\t1,\n\t\t{}\n\t],\n\t\"b\": null\n}" := by decide +kernel

/-- An indentation of other characters gives a text that is not read. -/
theorem C146_counterexample :
    ∃ t, toJsonIndent libEnv oidc_AddressClaim.cls [("locality", .str "Umea")] (.str "--") = .ok t ∧
      loads t = .error .jsonDecodeError :=
  ⟨"{\n--\"locality\": \"Umea\"\n}", by decide +kernel, by decide +kernel⟩

/-- a document of another writer: no blanks, an escape in upper case, a surrogate pair, a name that comes again -/
example : loads "{\"a\":1e2,\"b\":\"\\u00E5\\/\\uD834\\uDD1E\",\"a\":[ -0 ,\ttrue]}"
    = .ok (.dict [("a", .list [.int 0, .bool true]), ("b", .str "å/𝄞")]) := by decide +kernel

/-- texts that are no documents: a leading zero, a bare fraction, a trailing comma, a control character in a string -/
example : loads "[01]" = .error .jsonDecodeError ∧ loads "[1.]" = .error .jsonDecodeError ∧
    loads "[1,]" = .error .jsonDecodeError ∧ loads "[\"\n\"]" = .error .jsonDecodeError ∧
    loads "{'a': 1}" = .error .jsonDecodeError := by decide +kernel

/-- what cannot be an indentation -/
inductive NoIndent : Val → Prop
  | fraction (q : Rat) : NoIndent (.flt q)
  | list (l : List Val) : NoIndent (.list l)
  | dict (d : Dict) : NoIndent (.dict d)
  | msg (c : Cls) (d : Dict) : NoIndent (.msg c d)

/-- **C146, refusals.**  An indentation that is a number with a fraction, a list, a dictionary or a message is refused with a
`TypeError`, whatever the message holds. -/
theorem C146_refused (env : SerEnv) (c : Cls) (st d : Dict) (indent : Val) (hd : toDict env c st = .ok d)
    (h : NoIndent indent) :
    toJsonIndent env c st indent = .error .typeError := by
  unfold toJsonIndent
  rw [hd]
  cases h <;> rfl

end Verif
