import Verif.Props.Context
import Verif.Props.NestedRoundTrip
import Verif.Props.StoreReopen

/-!
# C169: a message kept in a context can be made again from what is read
-/

namespace Verif

/-- The dictionary `w` stands for the message: `Cls(**w)` and `from_dict(w)` give it back, over what the defaults or the old
content are. -/
structure Represents (sch : Schema) (st w : Dict) : Prop where
  exact : fromDictR sch [] w = .ok st
  over : ∀ st0, ∃ r, fromDictR sch st0 w = .ok r ∧ ∀ k, dget r k = (dget st k).or (dget st0 k)
  made : dhas st "self" = false → dhas st "set_defaults" = false →
    ∃ r, construct sch w = .ok r ∧ ∀ k, dget r k = (dget st k).or (dget sch.default k)

theorem dhas_of_dkeys {d d' : Dict} (h : dkeys d = dkeys d') (k : String) : dhas d k = dhas d' k := by
  have : ∀ e : Dict, dhas e k = decide (k ∈ dkeys e) := by
    intro e
    by_cases hk : k ∈ dkeys e
    · have : dget e k ≠ none := fun hn => (dget_eq_none_iff e k).1 hn hk
      cases hg : dget e k with
      | none => exact absurd hg this
      | some v => simp [dhas, hg, hk]
    · simp [dhas, (dget_eq_none_iff e k).2 hk, hk]
  rw [this, this, h]

theorem represents_toDict {env : SerEnv} {sch : Schema} (henv : ∀ k, env sch.cls k = serFor sch.params k) {st : Dict}
    (hn : DNodup st) (h : ∀ k v, (k, v) ∈ st → Faithful env false sch k v) :
    ∃ w, toDict env sch.cls st = .ok w ∧ (Val.dict w).isJson = true ∧ Represents sch st w := by
  obtain ⟨w, h1, h2, h3, h4⟩ := dict_roundtrip henv (fun k v hm => (faithful_ok (h k v hm)).1)
  have hj : (Val.dict w).isJson = true := by
    have : (dkeys w).Nodup := by rw [h3]; exact hn
    simp [Val.isJson, h2, this]
  refine ⟨w, h1, hj, ⟨by rw [h4, dupdate_nil_left hn], fun st0 => ⟨_, h4 st0, fun k => dget_dupdate st0 hn k⟩, ?_⟩⟩
  intro hself hdef
  rw [← dhas_of_dkeys h3] at hself hdef
  have hnone : dget w "set_defaults" = none := by
    cases hg : dget w "set_defaults" with
    | none => rfl
    | some v => simp [dhas, hg] at hdef
  refine ⟨dupdate sch.default st, ?_, fun k => dget_dupdate _ hn k⟩
  simp only [construct, hself, Bool.false_eq_true, if_false, initialDict, hnone, ddel_fresh hnone, h4]

/-- C169 in memory: a message whose values survive, messages inside it included, can be put into the context, and what is
read stands for it. -/
theorem C169_memory (env : SerEnv) (sch : Schema) (henv : ∀ k, env sch.cls k = serFor sch.params k) (st : Dict)
    (hn : DNodup st) (h : ∀ k v, (k, v) ∈ st → Faithful env false sch k v) (item : String) (hs : item ≠ "seed") (d : LDict) :
    ∃ d' w, ctxSet memStore env item (.msg sch.cls st) d = (.ok (), d') ∧
      (ctxGet memStore item d').1 = .ok (.val (.dict w)) ∧ Represents sch st w := by
  obtain ⟨w, h1, -, h3⟩ := represents_toDict henv hn h
  have hset : ctxSet memStore env item (.msg sch.cls st) d = (.ok (), ldSet item (.dict w) d) := by
    simp only [ctxSet, h1]; rfl
  refine ⟨_, w, hset, ?_, h3⟩
  simp [ctxGet, memStore, ldItem, ldGet, ldSet, dget_dset_same, hs]

/-- C169 with files of JSON text: the message can be put into the context under every usable item; what is read stands for
it, both in the same process and in one started later, which sees the files only. -/
theorem C169_files {i : Inst} {dir : Dir} {m : Assoc Val} (hi : Inv jsonConv i dir m)
    (hm : ∀ k v, dget m k = some v → v.isJson = true) (env : SerEnv) (sch : Schema)
    (henv : ∀ k, env sch.cls k = serFor sch.params k) (st : Dict) (hn : DNodup st)
    (h : ∀ k v, (k, v) ∈ st → Faithful env false sch k v) (item : String) (hs : item ≠ "seed") (hr : ¬ Reserved item)
    (hu : Usable item) (now now' now'' : Nat) :
    ∃ s' w, ctxSet (fileStore jsonConv now) env item (.msg sch.cls st) (i, dir) = (.ok (), s') ∧ Represents sch st w ∧
      (ctxGet (fileStore jsonConv now') item s').1 = .ok (.val (.dict w)) ∧
      (fsOpen jsonConv now' s'.2).res = .ok () ∧
      (ctxGet (fileStore jsonConv now'') item ((fsOpen jsonConv now' s'.2).inst, (fsOpen jsonConv now' s'.2).dir)).1 =
        .ok (.val (.dict w)) := by
  obtain ⟨w, h1, hj, h3⟩ := represents_toDict henv hn h
  obtain ⟨txt, ht, -⟩ := loads_dumps _ hj
  obtain ⟨e1, e2⟩ := fsSet_map hi now item (.dict w) hr ⟨txt, by simpa [jsonConv] using ht⟩
  unfold mapSet at e1 e2
  rw [if_pos hu] at e1 e2
  have hset : ctxSet (fileStore jsonConv now) env item (.msg sch.cls st) (i, dir) =
      (.ok (), (fsSet jsonConv now item (.dict w) i dir).inst, (fsSet jsonConv now item (.dict w) i dir).dir) := by
    simp only [ctxSet, h1, fileStore, e1]
  obtain ⟨m', o1, o2, o3⟩ := C49_reopen e2 (fun k v hk => by
    by_cases e : item = k
    · subst e; rw [dget_dset_same] at hk; cases hk; exact C49_json _ hj
    · rw [dget_dset_ne _ _ e] at hk; exact C49_json _ (hm k v hk)) now'
  refine ⟨_, w, hset, h3, ?_, o1, ?_⟩
  · simp [ctxGet, fileStore, fsGet_map e2 now' item hr, dget_dset_same, hs]
  · have := o3 item
    rw [dget_dset_same] at this
    simp [ctxGet, fileStore, fsGet_map o2 now'' item hr, this, hs]

/-- With the converter a file storage has when none is configured, no message can be put into the context: `TypeError`, and
the file of the item is left empty. -/
theorem C169_counterexample_default (env : SerEnv) (c : Cls) (st w : Dict) (h : toDict env c st = .ok w) (item : String)
    (i : Inst) (dir : Dir) (now : Nat) (hu : Usable item) :
    ∃ s', ctxSet (fileStore passThru now) env item (.msg c st) (i, dir) = (.error .typeError, s') ∧
      dget s'.2 (quotePlus item) = some ⟨"", now⟩ := by
  have h1 : acquire now dir (quotePlus item) = .ok (dset dir (lockName (quotePlus item)) ⟨"", now⟩) := by
    refine if_pos ?_
    have := size_lockName (quotePlus item)
    have := hu.2.2.2
    omega
  have h2 : isDirName (quotePlus item) = false := by
    cases hd : isDirName (quotePlus item) with
    | false => rfl
    | true =>
      rcases (C46_single_component item).2.2.1.1 hd with e | e | e
      · exact absurd e hu.1
      · exact absurd e hu.2.1
      · exact absurd e hu.2.2.1
  refine ⟨(i, dset (dset dir (lockName (quotePlus item)) ⟨"", now⟩) (quotePlus item) ⟨"", now⟩), ?_, dget_dset_same _ _ _⟩
  simp [ctxSet, h, fileStore, fsSet, h1, h2, passThru]

/-- the request with messages in it of C89 meets the conditions -/
example : ∃ s' w, ctxSet (fileStore jsonConv 1) libEnv "req" (.msg oidc_AuthorizationRequest.cls nestedRequest) (⟨[], []⟩, []) =
      (.ok (), s') ∧ Represents oidc_AuthorizationRequest nestedRequest w ∧
      (ctxGet (fileStore jsonConv 2) "req" s').1 = .ok (.val (.dict w)) ∧ (fsOpen jsonConv 2 s'.2).res = .ok () ∧
      (ctxGet (fileStore jsonConv 3) "req" ((fsOpen jsonConv 2 s'.2).inst, (fsOpen jsonConv 2 s'.2).dir)).1 =
        .ok (.val (.dict w)) :=
  C169_files (inv_empty jsonConv) (by intro k v h; cases h) libEnv oidc_AuthorizationRequest (fun _ => rfl) nestedRequest
    (by unfold DNodup; decide) nestedRequest_faithful "req" (by decide) (by decide) (by decide) 1 2 3

end Verif
