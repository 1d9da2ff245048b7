import Verif.Model.ContextStores
import Verif.Props.Context
import Verif.Props.LabeledStores
import Verif.Props.SqlStore

/-!
# A context over any of the storages: C144
-/

namespace Verif

/-- C144 with labelled files: what was set is what is got, and the other items are untouched. -/
theorem C144_labelled {conv : Conv} {l : String} (hl : l ≠ "") (hs : SafeText l) {i : Inst} {dir : Dir} {m : Assoc Val}
    (hi : Inv conv i dir (labelled (labelOf l) m)) (env : SerEnv) (now now' : Nat) (item : String) (v : Val)
    (hr : ¬ Reserved item) (hw : ∀ w, Kept env v w → ∃ t, conv.ser w = .ok t) (s' : Inst × Dir)
    (h : ctxSet (labStore conv (labelOf l) now) env item v (i, dir) = (.ok (), s')) :
    ∃ w, Kept env v w ∧
      (item ≠ "seed" → (ctxGet (labStore conv (labelOf l) now') item s').1 = .ok (.val w)) ∧
      (item = "seed" → (ctxGet (labStore conv (labelOf l) now') item s').1 = pyBytes w) ∧
      ∀ other, other ≠ item → ¬ Reserved other →
        (ctxGet (labStore conv (labelOf l) now') other s').1 = (ctxGet (labStore conv (labelOf l) now') other (i, dir)).1 := by
  rcases ctxSet_kept (labStore conv (labelOf l) now) env item v (i, dir) with ⟨w, hk, e⟩ | ⟨e, he⟩
  · rw [e] at h
    obtain ⟨h1, h2⟩ := labStep_map hl hs hi now (op := .set item w) ⟨hr, hw w hk⟩
    simp only [labStore, Prod.mk.injEq] at h
    obtain ⟨h3, h4⟩ := h
    subst h4
    simp only [labStep, h3, labMapStep] at h1 h2
    by_cases hu : Usable (labelOf l ++ item)
    · rw [if_pos hu] at h2
      have g : ∀ k, ¬ Reserved k → (labGet conv (labelOf l) now' k (labSet conv (labelOf l) now item w i dir).inst
          (labSet conv (labelOf l) now item w i dir).dir).res = .ok ((dget (dset m item w) k).getD .none) := by
        intro k hk
        have := (labStep_map hl hs h2 now' (op := .get k) hk).1
        simpa only [labStep, labMapStep, FsAns.val.injEq] using this
      have g0 : ∀ k, ¬ Reserved k → (labGet conv (labelOf l) now' k i dir).res = .ok ((dget m k).getD .none) := by
        intro k hk
        have := (labStep_map hl hs hi now' (op := .get k) hk).1
        simpa only [labStep, labMapStep, FsAns.val.injEq] using this
      refine ⟨w, hk, fun hsd => ?_, fun hsd => ?_, fun o ho hro => ?_⟩
      · simp [ctxGet, labStore, g item hr, dget_dset_same, hsd]
      · subst hsd; simp [ctxGet, labStore, g _ hr, dget_dset_same]
      · simp only [ctxGet, labStore, g o hro, g0 o hro, dget_dset_ne _ _ (Ne.symm ho)]
        by_cases hsd : o = "seed" <;> simp [hsd]
    · rw [if_neg hu] at h1; cases h1
  · rw [he] at h; simp at h

/-- a seed and a dictionary, with the label `ctx` -/
example : (let S := labStore jsonConv (labelOf "ctx")
    let s1 := (ctxSet (S 1) libEnv "seed" (.str "abc") (⟨[], []⟩, [])).2
    let s2 := (ctxSet (S 2) libEnv "a/b" (.dict [("x", .int 1)]) s1).2
    (ctxSet (S 1) libEnv "seed" (.str "abc") (⟨[], []⟩, [])).1 = .ok () ∧
    ((S 3).item "seed" s2).1 = .ok (.str "abc") ∧ ((S 3).item "a/b" s2).1 = .ok (.dict [("x", .int 1)]) ∧
    ((S 3).item "other" s2).1 = .ok .none) := by decide +kernel

/-- C144 fails with an SQL table, for every item and whatever is in the table: nothing can be taken out of the context, -/
theorem C144_counterexample_sql (item : String) (db : Sql.Db) : (ctxGet sqlStore item db).1 = .error .typeError := rfl

/-- although what was set is in the table. -/
theorem C144_sql_kept (env : SerEnv) (es : List Sql.Event) (item t : String) (db' : Sql.Db)
    (h : ctxSet sqlStore env item (.str t) (Sql.run Sql.empty es) = (.ok (), db')) :
    Sql.get db' item = some t ∧ Sql.get (Sql.crash db') item = some t ∧
    ∀ other, other ≠ item → Sql.get db' other = Sql.get (Sql.run Sql.empty es) other := by
  have e : Sql.apply (Sql.run Sql.empty es) (.set item t) = db' := by
    simpa [ctxSet, sqlStore, sqlSetItem] using h
  subst e
  have r0 := Sql.run_rep Sql.rep_empty es
  have r := Sql.apply_rep r0 (.set item t)
  refine ⟨(r.cur item).trans (by simp [Sql.Spec.apply, Sql.put]), (r.dur item).trans (by simp [Sql.Spec.apply, Sql.put]),
    fun o ho => ?_⟩
  exact (r.cur o).trans ((by simp [Sql.Spec.apply, Sql.put, ho] : _ = _).trans (r0.cur o).symm)

example : (ctxSet sqlStore libEnv "client" (.str "x") Sql.empty).1 = .ok () ∧
    Sql.get (ctxSet sqlStore libEnv "client" (.str "x") Sql.empty).2 "client" = some "x" := by decide +kernel

end Verif
