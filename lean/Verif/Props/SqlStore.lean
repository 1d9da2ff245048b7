import Verif.Model.SqlStore

/-!
# SQL storage: C57, C58, C83
-/

namespace Verif.Sql

/-! ## the specification: two dictionaries -/

/-- what is durable and what the program sees -/
structure Spec where
  durable : String → Option String
  seen : String → Option String

def put (f : String → Option String) (k : String) (v : Option String) : String → Option String :=
  fun k' => if k' = k then v else f k'

/-- every method that commits makes everything seen durable -/
def Spec.apply (s : Spec) : Op → Spec
  | .set k v => ⟨put s.seen k (some v), put s.seen k (some v)⟩
  | .update k v =>
    let f := if (s.seen k).isSome then put s.seen k (some v) else s.seen
    ⟨f, f⟩
  | .delete k => ⟨s.durable, put s.seen k none⟩
  | .flush => ⟨s.seen, s.seen⟩

/-- An operation that is cut off is either complete or without effect, and what was not durable is lost.  Only an
operation cut off after its last statement is complete. -/
def Spec.step (s : Spec) : Event → Spec
  | .op o => s.apply o
  | .cut o n =>
    if o.stmts.length ≤ n then ⟨(s.apply o).durable, (s.apply o).durable⟩ else ⟨s.durable, s.durable⟩

def Spec.run (s : Spec) (es : List Event) : Spec := es.foldl Spec.step s

/-! ## refinement -/

def Uniq (rows : List Row) : Prop := (rows.map (·.owner)).Nodup

/-- the value of a key in a table -/
def look (rows : List Row) (k : String) : Option String := (rows.find? (fun r => r.owner = k)).map (·.data)

structure Rep (db : Db) (s : Spec) : Prop where
  uc : Uniq db.committed
  us : Uniq db.cur
  dur : ∀ k, look db.committed k = s.durable k
  cur : ∀ k, look db.cur k = s.seen k

theorem look_none {rows : List Row} {k : String} : look rows k = none ↔ ∀ r ∈ rows, r.owner ≠ k := by
  simp [look]

theorem look_cons (r : Row) (rows : List Row) (k : String) :
    look (r :: rows) k = if r.owner = k then some r.data else look rows k := by
  unfold look
  by_cases h : r.owner = k <;> simp [h]

theorem look_filter (rows : List Row) (k k' : String) :
    look (rows.filter (fun r => r.owner != k)) k' = if k' = k then none else look rows k' := by
  induction rows with
  | nil => simp [look]
  | cons r rows ih =>
    unfold look at ih ⊢
    by_cases h : r.owner = k
    · rw [List.filter_cons_of_neg (by simp [h]), ih]
      split
      · rfl
      · rename_i hk; rw [List.find?_cons_of_neg (by simp [h]; exact fun e => hk e.symm)]
    · rw [List.filter_cons_of_pos (by simp [h])]
      by_cases h' : r.owner = k'
      · have : k' ≠ k := by rintro rfl; exact h h'
        rw [List.find?_cons_of_pos (by simp [h']), List.find?_cons_of_pos (by simp [h']), if_neg this]
      · rw [List.find?_cons_of_neg (by simp [h']), List.find?_cons_of_neg (by simp [h']), ih]

theorem look_append (rows : List Row) (r : Row) (k : String) :
    look (rows ++ [r]) k = match look rows k with
      | some v => some v
      | none => if r.owner = k then some r.data else none := by
  unfold look
  rw [List.find?_append]
  cases h : rows.find? (fun r => r.owner = k) with
  | some a => simp
  | none => by_cases hr : r.owner = k <;> simp [hr]

theorem look_map (rows : List Row) (k v k' : String) :
    look (rows.map (fun r => if r.owner = k then { r with data := v } else r)) k' =
      if k' = k ∧ (look rows k).isSome then some v else look rows k' := by
  induction rows with
  | nil => simp [look]
  | cons r rows ih =>
    rw [List.map_cons]
    simp only [look_cons, ih]
    by_cases h : r.owner = k
    · by_cases hk : k' = k
      · simp [h, hk]
      · have hk' : ¬ k = k' := fun e => hk e.symm
        simp [h, hk, hk']
    · by_cases hk' : r.owner = k'
      · have hne : ¬ k' = k := by rintro rfl; exact h hk'
        simp [h, hk', hne]
      · simp [h, hk']

theorem uniq_filter {rows : List Row} (h : Uniq rows) (k : String) : Uniq (rows.filter (fun r => r.owner != k)) := by
  unfold Uniq at *
  exact h.sublist ((List.filter_sublist).map _)

theorem uniq_append {rows : List Row} (h : Uniq rows) (r : Row) (hn : ∀ x ∈ rows, x.owner ≠ r.owner) :
    Uniq (rows ++ [r]) := by
  unfold Uniq at *
  rw [List.map_append, List.nodup_append]
  refine ⟨h, by simp, ?_⟩
  intro a ha b hb
  simp at hb
  obtain ⟨x, hx, rfl⟩ := List.mem_map.mp ha
  rw [hb]; exact hn x hx

theorem uniq_map {rows : List Row} (h : Uniq rows) (k v : String) :
    Uniq (rows.map (fun r => if r.owner = k then { r with data := v } else r)) := by
  unfold Uniq at *
  rw [List.map_map]
  have : ((fun r : Row => r.owner) ∘ fun r => if r.owner = k then { r with data := v } else r) = (·.owner) := by
    funext r; simp only [Function.comp]; split <;> rfl
  rw [this]; exact h

/-- the table after the two statements of `set` -/
theorem set_table {rows : List Row} (h : Uniq rows) (n : Nat) (k v : String) :
    Uniq (rows.filter (fun r => r.owner != k) ++ [⟨n, k, v⟩]) ∧
      ∀ k', look (rows.filter (fun r => r.owner != k) ++ [⟨n, k, v⟩]) k' = put (look rows) k (some v) k' := by
  refine ⟨uniq_append (uniq_filter h k) _ ?_, ?_⟩
  · intro x hx; simpa using (List.mem_filter.mp hx).2
  · intro k'
    rw [look_append, look_filter]
    unfold put
    by_cases hk : k' = k
    · simp [hk]
    · simp only [if_neg hk]
      cases look rows k' with
      | some a => rfl
      | none => simp only; rw [if_neg (fun e => hk e.symm)]

theorem apply_rep {db : Db} {s : Spec} (h : Rep db s) (o : Op) : Rep (apply db o) (s.apply o) := by
  cases o with
  | set k v =>
    obtain ⟨h1, h2⟩ := set_table h.us db.next k v
    have h3 : ∀ k', look (db.cur.filter (fun r => r.owner != k) ++ [⟨db.next, k, v⟩]) k' = put s.seen k (some v) k' := by
      intro k'; rw [h2]; simp only [put]; split
      · rfl
      · exact h.cur k'
    exact ⟨h1, h1, h3, h3⟩
  | update k v =>
    have h1 := uniq_map h.us k v
    have h3 : ∀ k', look (db.cur.map (fun r => if r.owner = k then { r with data := v } else r)) k' =
        (if (s.seen k).isSome then put s.seen k (some v) else s.seen) k' := by
      intro k'
      rw [look_map, h.cur, h.cur]
      by_cases hs : (s.seen k).isSome
      · simp [hs, put]
      · simp [hs]
    exact ⟨h1, h1, h3, h3⟩
  | delete k =>
    refine ⟨h.uc, uniq_filter h.us k, h.dur, ?_⟩
    intro k'
    show look (db.cur.filter (fun r => r.owner != k)) k' = put s.seen k none k'
    rw [look_filter]
    simp only [put]
    split
    · rfl
    · exact h.cur k'
  | flush => exact ⟨h.us, h.us, h.cur, h.cur⟩

theorem crash_rep {db : Db} {s : Spec} (h : Rep db s) : Rep (crash db) ⟨s.durable, s.durable⟩ :=
  ⟨h.uc, h.uc, h.dur, h.dur⟩

/-- only the last statement commits -/
theorem early_committed (db : Db) (o : Op) (n : Nat) (hn : n < o.stmts.length) :
    (execAll db (o.stmts.take n)).committed = db.committed := by
  cases o with
  | set k v =>
    rcases n with _ | _ | _ | n
    · rfl
    · rfl
    · rfl
    · simp [Op.stmts] at hn <;> omega
  | update k v =>
    rcases n with _ | _ | n
    · rfl
    · rfl
    · simp [Op.stmts] at hn <;> omega
  | delete k =>
    rcases n with _ | n
    · rfl
    · simp [Op.stmts] at hn <;> omega
  | flush =>
    rcases n with _ | n
    · rfl
    · simp [Op.stmts] at hn <;> omega

theorem step_rep {db : Db} {s : Spec} (h : Rep db s) (e : Event) : Rep (step db e) (s.step e) := by
  cases e with
  | op o => exact apply_rep h o
  | cut o n =>
    simp only [step, Spec.step]
    split
    · rename_i hn
      rw [List.take_of_length_le hn]
      exact crash_rep (apply_rep h o)
    · rename_i hn
      have hc := early_committed db o n (by omega)
      refine ⟨?_, ?_, ?_, ?_⟩
      · show Uniq (execAll db (o.stmts.take n)).committed; rw [hc]; exact h.uc
      · show Uniq (execAll db (o.stmts.take n)).committed; rw [hc]; exact h.uc
      · intro k; show look (execAll db (o.stmts.take n)).committed k = _; rw [hc]; exact h.dur k
      · intro k; show look (execAll db (o.stmts.take n)).committed k = _; rw [hc]; exact h.dur k

def empty : Db := ⟨[], [], 0⟩
def Spec.empty : Spec := ⟨fun _ => none, fun _ => none⟩

theorem run_rep {db : Db} {s : Spec} (h : Rep db s) (es : List Event) : Rep (run db es) (s.run es) := by
  induction es generalizing db s with
  | nil => exact h
  | cons e es ih => exact ih (step_rep h e)

theorem rep_empty : Rep empty Spec.empty := ⟨by simp [Uniq, empty], by simp [Uniq, empty], fun _ => rfl, fun _ => rfl⟩

/-- C57: in every history, with crashes at any statement of any operation, `get` answers as the dictionary of the
specification does, and there is never more than one row for a key. -/
theorem C57_map (es : List Event) :
    (∀ k, get (run empty es) k = (Spec.empty.run es).seen k) ∧ Uniq (run empty es).cur ∧ Uniq (run empty es).committed :=
  ⟨(run_rep rep_empty es).cur, (run_rep rep_empty es).us, (run_rep rep_empty es).uc⟩

/-- C57, read after write: after `set(k, v)`, other keys being as before, `get(k)` is `v` until `k` is set, updated or
deleted (without crashes). -/
theorem C57_last_set (es : List Event) (k v : String) (after : List Op)
    (h : ∀ o ∈ after, (∀ w, o ≠ .set k w) ∧ (∀ w, o ≠ .update k w) ∧ o ≠ .delete k) :
    get (run empty (es ++ .op (.set k v) :: after.map .op)) k = some v := by
  rw [(C57_map _).1]
  unfold Spec.run
  rw [List.foldl_append, List.foldl_cons]
  generalize es.foldl Spec.step Spec.empty = s
  have : (s.step (.op (.set k v))).seen k = some v := by simp [Spec.step, Spec.apply, put]
  generalize s.step (.op (.set k v)) = s at this ⊢
  induction after generalizing s with
  | nil => exact this
  | cons o after ih =>
    refine ih (fun o' ho => h o' (by simp [ho])) _ ?_
    obtain ⟨h1, h2, h3⟩ := h o (by simp)
    cases o with
    | set k' w =>
      have : k ≠ k' := by rintro rfl; exact h1 w rfl
      simpa [Spec.step, Spec.apply, put, this]
    | update k' w =>
      have : k ≠ k' := by rintro rfl; exact h2 w rfl
      simp only [Spec.step, Spec.apply]
      split
      · simpa [put, this]
      · assumption
    | delete k' =>
      have : k ≠ k' := by rintro rfl; exact h3 rfl
      simpa [Spec.step, Spec.apply, put, this]
    | flush => exact this

/-- never set, or deleted: `None` -/
theorem C57_never (es : List Event) (k : String)
    (h : ∀ e ∈ es, ∀ v, (e ≠ .op (.set k v)) ∧ ∀ n, e ≠ .cut (.set k v) n) : get (run empty es) k = none := by
  rw [(C57_map _).1]
  have : ∀ s : Spec, s.durable k = none → s.seen k = none →
      (s.run es).durable k = none ∧ (s.run es).seen k = none := by
    induction es with
    | nil => exact fun s h1 h2 => ⟨h1, h2⟩
    | cons e es ih =>
      intro s h1 h2
      have ha : ∀ o : Op, (∀ v, o ≠ .set k v) → (s.apply o).durable k = none ∧ (s.apply o).seen k = none := by
        intro o ho
        cases o with
        | set k' w =>
          have : k ≠ k' := by rintro rfl; exact ho w rfl
          simp [Spec.apply, put, this, h2]
        | update k' w =>
          simp only [Spec.apply]
          by_cases hk : k = k'
          · subst hk; simp [h2]
          · split
            · simp [put, hk, h2]
            · exact ⟨h2, h2⟩
        | delete k' => simp [Spec.apply, put, h1, h2]
        | flush => exact ⟨h2, h2⟩
      refine ih (fun e' he => h e' (by simp [he])) _ ?_ ?_
      · cases e with
        | op o => exact (ha o (fun v e => (h (.op o) (List.mem_cons_self) v).1 (by rw [e]))).1
        | cut o n =>
          have := (ha o (fun v e => (h (.cut o n) (List.mem_cons_self) v).2 n (by rw [e]))).1
          simp only [Spec.step]; split
          · exact this
          · exact h1
      · cases e with
        | op o => exact (ha o (fun v e => (h (.op o) (List.mem_cons_self) v).1 (by rw [e]))).2
        | cut o n =>
          have := (ha o (fun v e => (h (.cut o n) (List.mem_cons_self) v).2 n (by rw [e]))).1
          simp only [Spec.step]; split
          · exact this
          · exact h1
  exact (this Spec.empty rfl rfl).2

/-- C57, atomicity: a `set` cut off at any point leaves the durable value of the key or the new one; exactly one row in
the latter case. -/
theorem C57_atomic (es : List Event) (k v : String) (n : Nat) :
    (get (run empty (es ++ [.cut (.set k v) n])) k = (Spec.empty.run es).durable k ∨
      get (run empty (es ++ [.cut (.set k v) n])) k = some v) ∧
    ((run empty (es ++ [.cut (.set k v) n])).cur.filter (fun r => r.owner = k)).length ≤ 1 := by
  constructor
  · rw [(C57_map _).1]
    unfold Spec.run
    rw [List.foldl_append, List.foldl_cons, List.foldl_nil]
    simp only [Spec.step]
    split
    · right; simp [Spec.apply, put]
    · left; rfl
  · have hu := (C57_map (es ++ [.cut (.set k v) n])).2.1
    generalize (run empty (es ++ [.cut (.set k v) n])).cur = rows at hu
    induction rows with
    | nil => simp
    | cons r rows ih =>
      have hu' : r.owner ∉ rows.map (·.owner) ∧ Uniq rows := by simpa [Uniq] using hu
      by_cases hr : r.owner = k
      · rw [List.filter_cons_of_pos (by simp [hr])]
        have : rows.filter (fun r => r.owner = k) = [] := by
          rw [List.filter_eq_nil_iff]
          intro x hx he
          exact hu'.1 (by rw [hr, ← of_decide_eq_true he]; exact List.mem_map_of_mem hx)
        simp [this]
      · rw [List.filter_cons_of_neg (by simp [hr])]
        exact ih hu'.2

/-- a `set` that has returned is durable, also through a crash right after it -/
theorem C57_durable (es : List Event) (k v : String) (o : Op) :
    get (run empty (es ++ [.op (.set k v), .cut o 0])) k = some v := by
  rw [(C57_map _).1]
  unfold Spec.run
  rw [List.foldl_append, List.foldl_cons, List.foldl_cons, List.foldl_nil]
  have : ¬ o.stmts.length ≤ 0 := by cases o <;> simp [Op.stmts]
  simp [Spec.step, this, Spec.apply, put]

/-! ## C58 -/

/-- C58 fails: an entry that is durable when `delete` is called comes back after a crash. -/
theorem C58_counterexample (es : List Event) (k v : String) (o : Op) (hd : (Spec.empty.run es).durable k = some v) :
    get (run empty (es ++ [.op (.delete k)])) k = none ∧
      get (run empty (es ++ [.op (.delete k), .cut o 0])) k = some v := by
  have : ¬ o.stmts.length ≤ 0 := by cases o <;> simp [Op.stmts]
  constructor
  · rw [(C57_map _).1]
    simp [Spec.run, Spec.step, Spec.apply, put]
  · rw [(C57_map _).1]
    unfold Spec.run at hd ⊢
    rw [List.foldl_append, List.foldl_cons, List.foldl_cons, List.foldl_nil]
    simpa [Spec.step, this, Spec.apply] using hd

example : get (run empty [.op (.set "k" "v"), .op (.delete "k"), .cut .flush 0]) "k" = some "v" := by decide +kernel

theorem update_absent (s : Spec) (k k' v : String) (h : s.seen k = none) : (s.apply (.update k' v)).durable k = none := by
  by_cases hs : (s.seen k').isSome
  · have hk : ¬ k = k' := by rintro rfl; simp [h] at hs
    simp [Spec.apply, hs, put, hk, h]
  · simp [Spec.apply, hs, h]

/-- C58, what holds: after a commit by any later operation (`flush`, a `set` or `update` of another key) the deletion
survives a crash. -/
theorem C58_partial (es : List Event) (k : String) (c o : Op)
    (hc : c = .flush ∨ (∃ k' v, k' ≠ k ∧ c = .set k' v) ∨ ∃ k' v, c = .update k' v) :
    get (run empty (es ++ [.op (.delete k), .op c, .cut o 0])) k = none := by
  have : ¬ o.stmts.length ≤ 0 := by cases o <;> simp [Op.stmts]
  rw [(C57_map _).1]
  unfold Spec.run
  rw [List.foldl_append]
  simp only [List.foldl_cons, List.foldl_nil, Spec.step, if_neg this]
  rcases hc with rfl | ⟨k', v, hk, rfl⟩ | ⟨k', v, rfl⟩
  · simp [Spec.apply, put]
  · have hk' : ¬ k = k' := fun e => hk e.symm
    simp [Spec.apply, put, hk']
  · exact update_absent _ k k' v (by simp [Spec.apply, put])

example : Spec.durable (Spec.empty.run [.op (.set "k" "v")]) "k" = some "v" := by decide +kernel

/-- `delete` tells whether there was an entry -/
theorem delete_count (es : List Event) (k : String) :
    deleteCount (run empty es) k = if (get (run empty es) k).isSome then 1 else 0 := by
  have hu := (C57_map es).2.1
  unfold deleteCount get
  generalize (run empty es).cur = rows at hu
  induction rows with
  | nil => simp
  | cons r rows ih =>
    have hu' : r.owner ∉ rows.map (·.owner) ∧ Uniq rows := by simpa [Uniq] using hu
    by_cases hr : r.owner = k
    · rw [List.filter_cons_of_pos (by simp [hr]), List.find?_cons_of_pos (by simp [hr])]
      have : rows.filter (fun r => r.owner = k) = [] := by
        rw [List.filter_eq_nil_iff]
        intro x hx he
        exact hu'.1 (by rw [hr, ← of_decide_eq_true he]; exact List.mem_map_of_mem hx)
      simp [this]
    · rw [List.filter_cons_of_neg (by simp [hr]), List.find?_cons_of_neg (by simp [hr])]
      exact ih hu'.2

/-! ## C83: containment -/

/-- C83, what holds: a stored key is found. -/
theorem C83_stored (es : List Event) (k : String) (h : (get (run empty es) k).isSome) :
    contains (run empty es) k = true := by
  unfold get at h
  unfold contains
  cases hf : (run empty es).cur.find? (fun r => r.owner = k) with
  | none => simp [hf] at h
  | some r =>
    rw [List.any_eq_true]
    exact ⟨r, List.mem_of_find?_eq_some hf, by
      have := List.find?_some hf
      simp at this; simp [this]⟩

/-- C83, what holds: what is found is a key or the value of one. -/
theorem C83_partial (es : List Event) (k : String) :
    contains (run empty es) k = true ↔
      (get (run empty es) k).isSome ∨ ∃ k', get (run empty es) k' = some k := by
  constructor
  · intro h
    obtain ⟨r, hr, he⟩ := List.any_eq_true.mp h
    rcases (Bool.or_eq_true_iff.mp he) with he | he
    · left
      have := of_decide_eq_true he
      unfold get
      rw [Option.isSome_map, List.find?_isSome]
      exact ⟨r, hr, by simp [this]⟩
    · right
      have he := of_decide_eq_true he
      refine ⟨r.owner, ?_⟩
      have hu := (C57_map es).2.1
      unfold get
      generalize (run empty es).cur = rows at hu hr
      induction rows with
      | nil => simp at hr
      | cons x rows ih =>
        have hu' : x.owner ∉ rows.map (·.owner) ∧ Uniq rows := by simpa [Uniq] using hu
        rcases List.mem_cons.mp hr with rfl | hr
        · simp [he]
        · have : x.owner ≠ r.owner := by
            intro e; exact hu'.1 (by rw [e]; exact List.mem_map_of_mem hr)
          rw [List.find?_cons_of_neg (by simpa using this)]
          exact ih hu'.2 hr
  · rintro (h | ⟨k', h⟩)
    · exact C83_stored es k h
    · unfold get at h
      cases hf : (run empty es).cur.find? (fun r => r.owner = k') with
      | none => simp [hf] at h
      | some r =>
        rw [hf] at h
        unfold contains
        rw [List.any_eq_true]
        exact ⟨r, List.mem_of_find?_eq_some hf, by simp at h; simp [h]⟩

/-- C83 fails: a value is taken for a key. -/
theorem C83_counterexample (k v : String) (h : k ≠ v) :
    contains (run empty [.op (.set k v)]) v = true ∧ get (run empty [.op (.set k v)]) v = none := by
  simp [run, step, apply, execAll, Op.stmts, exec, empty, contains, get, h]

end Verif.Sql
