import Verif.Model.SqlList
import Verif.Props.SqlStore
import Verif.Props.JsonIndent

/-!
# C147: listing a SQL store
-/

namespace Verif.Sql

/-- `rows` lists what `get` answers: every key that is there once, with its value, and nothing else. -/
structure Lists (db : Db) (rows : List (String × String)) : Prop where
  once : (rows.map (·.1)).Nodup
  exact : ∀ k v, (k, v) ∈ rows ↔ get db k = some v

theorem look_some {rows : List Row} (h : Uniq rows) (k v : String) :
    (k, v) ∈ rows.map (fun r => (r.owner, r.data)) ↔ look rows k = some v := by
  induction rows with
  | nil => simp [look]
  | cons r rows ih =>
    have hu : Uniq rows := (List.nodup_cons.1 h).2
    have hn : r.owner ∉ rows.map (·.owner) := (List.nodup_cons.1 h).1
    rw [look_cons, List.map_cons, List.mem_cons, ih hu]
    by_cases hk : r.owner = k
    · rw [if_pos hk]
      constructor
      · rintro (h | h)
        · cases h; rfl
        · have : look rows k = none := look_none.2 (fun x hx e => hn (List.mem_map.2 ⟨x, hx, by rw [e, hk]⟩))
          rw [this] at h; cases h
      · intro h
        cases h
        exact .inl (by rw [hk])
    · rw [if_neg hk]
      constructor
      · rintro (h | h)
        · cases h; exact absurd rfl hk
        · exact h
      · exact .inr

/-- **C147, `store()`.**  After every history the rows are the entries, each once. -/
theorem C147_call (es : List Event) : Lists (run empty es) ((call (run empty es)).map (fun r => (r.owner, r.data))) where
  once := by
    have := (C57_map es).2.1
    unfold Uniq at this
    rw [List.map_map]
    exact this
  exact := fun k v => look_some (C57_map es).2.1 k v

/-- owner and data of a row of the document -/
def entryOf : Val → Option (String × String)
  | .list [_, .str k, .str v, _] => some (k, v)
  | _ => none

theorem rowList_json (created : Row → Option String) (r : Row) : (rowList created r).isJson = true := by
  unfold rowList
  cases created r <;> simp [Val.isJson, Val.isJsonList]

theorem rows_json (created : Row → Option String) (l : List Row) : (Val.list (l.map (rowList created))).isJson = true := by
  simp only [Val.isJson]
  induction l with
  | nil => rfl
  | cons r l ih => simp [Val.isJsonList, rowList_json, ih]

theorem entries_rows (created : Row → Option String) (l : List Row) :
    (l.map (rowList created)).map entryOf = (l.map (fun r => (r.owner, r.data))).map some := by
  induction l with
  | nil => rfl
  | cons r l ih => simp only [List.map_cons, ih]; rfl

/-- **C147, `str(store)`.**  After every history the text is a JSON document of a list with one element for every entry, and
each shows key and value of its entry. -/
theorem C147_text (es : List Event) (created : Row → Option String) :
    ∃ t l rows, show' created (run empty es) = .ok t ∧ loads t = .ok (.list l) ∧ l.map entryOf = rows.map some ∧
      Lists (run empty es) rows := by
  have hj := rows_json created (call (run empty es))
  obtain ⟨t0, h0, h0'⟩ := loads_dumps _ hj
  obtain ⟨he, ht⟩ := C146_indent (.list ((call (run empty es)).map (rowList created))) (.int 2) trivial
  cases hs : show' created (run empty es) with
  | error e =>
    have := (he e).1 hs
    rw [h0] at this
    cases this
  | ok t =>
    obtain ⟨t1, w, e1, e2, e3⟩ := ht t hs
    rw [h0] at e1
    cases e1
    rw [h0'] at e2
    cases e2
    exact ⟨t, _, _, rfl, e3, entries_rows created _, C147_call es⟩

/-- Violated by iteration: `for entry in store` raises `TypeError`, whatever is in the table. -/
theorem C147_counterexample_iter (db : Db) : iterate (dunderIter db) = .error .typeError := rfl

example : show' (fun _ => none) (run empty [.op (.set "a" "1"), .op (.set "b" "2"), .op (.set "a" "3")])
    = .ok "[\n  [\n    1,\n    \"b\",\n    \"2\",\n    null\n  ],\n  [\n    2,\n    \"a\",\n    \"3\",\n    null\n  ]\n]" := by
  decide +kernel

end Verif.Sql
