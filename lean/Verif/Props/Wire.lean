import Verif.Props.StoreReopen
import Verif.Props.Encoding

/-!
# C138: what is put on the wire is harmless text
-/

namespace Verif

/-- what may occur in a form: letters, digits, a few signs, and the two delimiters -/
def formAlphabet : List Char :=
  "ABCDEFGHIJKLMNOPQRSTUVWXYZabcdefghijklmnopqrstuvwxyz0123456789_.-~+%&=".toList

theorem mem_joinC {c : Char} : ∀ {ps : List (List Char)} {x : Char}, x ∈ joinC c ps → x = c ∨ ∃ p ∈ ps, x ∈ p
  | [], x, h => by simp [joinC] at h
  | [p], x, h => .inr ⟨p, List.mem_cons_self .., by simpa [joinC] using h⟩
  | p :: q :: ps, x, h => by
    simp only [joinC, List.mem_append, List.mem_cons] at h
    rcases h with h | h | h
    · exact .inr ⟨p, List.mem_cons_self .., h⟩
    · exact .inl h
    · rcases mem_joinC (ps := q :: ps) h with h | ⟨p', hp, h⟩
      · exact .inl h
      · exact .inr ⟨p', List.mem_cons_of_mem _ hp, h⟩

theorem quoted_form {s : List Char} {c : Char} (h : c ∈ quotePlusC s) : c ∈ formAlphabet := by
  have h1 := isQuoted_safe (quotePlusC_quoted _ c h)
  have : ∀ c ∈ safeAlphabet, c ∈ formAlphabet := by decide +kernel
  exact this c h1

theorem urlencode_form (ps : List (String × String)) : ∀ c ∈ (urlencode ps).toList, c ∈ formAlphabet := by
  intro c hc
  unfold urlencode at hc
  rw [String.toList_ofList] at hc
  unfold urlencodeC at hc
  rcases mem_joinC hc with rfl | ⟨p, hp, h⟩
  · decide
  · obtain ⟨q, _, rfl⟩ := List.mem_map.1 hp
    simp only [List.mem_append, List.mem_cons] at h
    rcases h with h | rfl | h
    · exact quoted_form h
    · decide
    · exact quoted_form h

/-- **C138**, forms: whatever is in the message, of whatever class, the form is made of letters, digits, `_.-~+%` and the
delimiters `&` and `=`. -/
theorem C138_form (env : SerEnv) (sch : Schema) (st : Dict) {t : String} (h : toUrlencoded env sch st = .ok t) :
    ∀ c ∈ t.toList, c ∈ formAlphabet := by
  unfold toUrlencoded urlFinish at h
  split at h
  · unfold raiseMissing at h
    split at h <;> cases h
  · cases hp : urlPairsAll env false sch.params st with
    | error e => rw [hp] at h; cases h
    | ok ps => rw [hp] at h; cases h; exact urlencode_form ps

/-- **C138**, addresses: the address of a request is the given location, one delimiter, and such a text.  In particular
nothing in the message can start a fragment, leave the query, or break the line. -/
theorem C138_request (env : SerEnv) (sch : Schema) (st : Dict) (loc : String) (frag : Bool) {u : String}
    (h : request env sch st loc frag = .ok u) :
    ∃ (d : Char) (t : List Char), u.toList = loc.toList ++ d :: t ∧ (∀ c ∈ t, c ∈ formAlphabet) ∧
      (frag = true → d = '#') ∧ (frag = false → d ≠ '#') ∧ (frag = false → '?' ∈ loc.toList → d = '&') ∧
      (frag = false → '?' ∉ loc.toList → d = '?') := by
  unfold request at h
  cases hq : toUrlencoded env sch st with
  | error e => rw [hq] at h; cases h
  | ok qp =>
    rw [hq] at h
    have hf := C138_form env sch st hq
    simp only [bind, Except.bind] at h
    cases frag with
    | true =>
      cases h
      exact ⟨'#', qp.toList, by simp, hf, by simp, by simp, by simp, by simp⟩
    | false =>
      simp only [Bool.false_eq_true, if_false] at h
      split at h
      · rename_i hc
        cases h
        exact ⟨'&', qp.toList, by simp, hf, by simp, by simp, by simp, fun _ hn => absurd (by simpa using hc) hn⟩
      · rename_i hc
        cases h
        exact ⟨'?', qp.toList, by simp, hf, by simp, by simp, fun _ hn => absurd hn (by simpa using hc), by simp⟩

/-- **C138**, the target of an address: up to the first `?` or `#` the address is what the caller gave, for every message. -/
theorem C138_target (env : SerEnv) (sch : Schema) (st : Dict) (loc : String) (frag : Bool) {u : String}
    (h : request env sch st loc frag = .ok u) :
    u.toList.takeWhile (fun c => c != '?' && c != '#') = loc.toList.takeWhile (fun c => c != '?' && c != '#') := by
  obtain ⟨d, t, hu, _, h1, _, h3, h4⟩ := C138_request env sch st loc frag h
  rw [hu]
  by_cases hall : ∀ c ∈ loc.toList, (c != '?' && c != '#') = true
  · rw [List.takeWhile_append_of_pos hall]
    have hd : d = '#' ∨ d = '?' := by
      cases frag with
      | true => exact .inl (h1 rfl)
      | false => exact .inr (h4 rfl (fun hm => by simpa using hall _ hm))
    have h5 : List.takeWhile (fun c => c != '?' && c != '#') loc.toList = loc.toList := by
      have := List.takeWhile_append_of_pos (l₂ := []) hall
      simpa using this
    rw [h5]
    rcases hd with rfl | rfl <;> simp
  · generalize loc.toList = l at hall
    induction l with
    | nil => exact absurd (by simp) hall
    | cons c l ih =>
      rw [List.cons_append, List.takeWhile_cons, List.takeWhile_cons]
      split
      · rename_i hc
        rw [ih (fun hl => hall (fun x hx => by
          rcases List.mem_cons.1 hx with rfl | hx
          · exact hc
          · exact hl x hx))]
      · rfl

/-- **C138**, no fragment appears unless the location has one or the caller asks for one. -/
theorem C138_no_fragment (env : SerEnv) (sch : Schema) (st : Dict) (loc : String) {u : String}
    (h : request env sch st loc false = .ok u) (hl : '#' ∉ loc.toList) : '#' ∉ u.toList := by
  obtain ⟨d, t, hu, ht, _, h2, _, _⟩ := C138_request env sch st loc false h
  rw [hu]
  intro hm
  rcases List.mem_append.1 hm with hm | hm
  · exact hl hm
  rcases List.mem_cons.1 hm with hm | hm
  · exact h2 rfl hm.symm
  · exact absurd (ht _ hm) (by decide)

/-- **C138**, documents: a message written as JSON is printable ASCII on one line. -/
theorem C138_json (env : SerEnv) (c : Cls) (st : Dict) {t : String} (h : toJson env c st = .ok t) :
    ∀ x ∈ t.toList, 32 ≤ x.toNat ∧ x.toNat ≤ 126 := by
  unfold toJson at h
  cases hd : toDict env c st with
  | error e => rw [hd] at h; cases h
  | ok d =>
    rw [hd] at h
    simp only [bind, Except.bind] at h
    unfold dumps at h
    cases hs : dumpsC (.dict d) with
    | error e => rw [hs] at h; cases h
    | ok s =>
      rw [hs] at h
      cases h
      rw [String.toList_ofList]
      exact (dumpsC_solid _ _ hs).print

/-! A message whose content tries to get out: line breaks, delimiters, a fragment and non-ASCII letters -/

def nastyCls : Schema := { cls := ⟨"t", "T"⟩, params := [] }
def nasty : Dict := [("a", .str "x\r\nLocation: /#é&b=1?"), ("b&", .list [.str "\x00", .int (-3)])]

example : request ⟨fun _ => []⟩ nastyCls nasty "https://h/p" false =
    .ok "https://h/p?a=x%0D%0ALocation%3A+%2F%23%C3%A9%26b%3D1%3F&b%26=%00&b%26=-3" := by decide +kernel
example : request ⟨fun _ => []⟩ nastyCls nasty "https://h/p?q" true =
    .ok "https://h/p?q#a=x%0D%0ALocation%3A+%2F%23%C3%A9%26b%3D1%3F&b%26=%00&b%26=-3" := by decide +kernel
example : toJson ⟨fun _ => []⟩ nastyCls.cls nasty =
    .ok "{\"a\": \"x\\r\\nLocation: /#\\u00e9&b=1?\", \"b&\": [\"\\u0000\", -3]}" := by decide +kernel

end Verif
