import Verif.Props.StoreShared

/-!
# Asking whether a key is in a file store: C143

`key in store` and `store()` answer from the cache of the instance, `store[key]` looks at the directory.
-/

namespace Verif

/-! ## one instance -/

/-- C143 for a single user: after any history of one instance on a directory of its own, `in`, `store()`, `keys()` and
reading tell the same. -/
theorem C143_partial (conv : Conv) (t0 : Nat) (ops : List (Nat × FsOp)) (hl : ∀ o ∈ ops, o.2.Legal conv) (k : String)
    (hr : ¬ Reserved k) (now : Nat) (i : Inst) (dir : Dir)
    (hs : (fsRun conv ops (fsOpen conv t0 []).inst (fsOpen conv t0 []).dir).2 = (i, dir)) :
    (fsContains k i = true ↔ ∃ v, (fsGet conv now k i dir).res = .ok v) ∧
    (fsContains k i = true ↔ k ∈ fsCall i) ∧
    ∃ ks, (fsKeys conv now i dir).res = .ok ks ∧ ks = fsCall i := by
  have h := (C47_map conv ops _ _ _ (inv_empty conv) hl).2
  have e1 : (fsRun conv ops ⟨[], []⟩ []).2 = (i, dir) := hs
  rw [e1] at h
  have hcache : i.cache = cacheOf (mapRun (ops.map (·.2)) []).2 := h.cache
  refine ⟨?_, ?_, ?_⟩
  · rw [fsGet_map h now k hr]
    simp only [fsContains, hcache, dhas, dget_cacheOf]
    cases dget (mapRun (ops.map (·.2)) []).2 k with
    | none => simp
    | some v => simp
  · have e2 : fsCall i = dkeys (mapRun (ops.map (·.2)) []).2 := by
      simp [fsCall, hcache, cacheOf, dkeys, Function.comp_def, unquotePlus_quotePlus]
    rw [e2, ← dhas_iff]
    simp only [fsContains, hcache, dhas, dget_cacheOf]
  · have h1 := (C47_map conv [(now, .keys)] _ _ _ h (by simp [FsOp.Legal])).1
    simp only [fsRun, fsStep, List.map_cons, List.map_nil, mapRun, mapStep, List.cons.injEq, FsAns.keys.injEq, and_true] at h1
    refine ⟨_, h1, ?_⟩
    simp [fsCall, hcache, cacheOf, dkeys, Function.comp_def, unquotePlus_quotePlus]

/-! ## several instances -/

/-- the operations with which an instance can forget a key -/
def WOp.forgets : WOp → Prop
  | .op (.del _) => True
  | .clear => True
  | .reopen => True
  | _ => False

/-- what is in the cache -/
def Cached (i : Inst) (n : String) : Prop := dhas i.cache n = true

theorem cached_set {i : Inst} {n : String} (h : Cached i n) (n' : String) (v : Val) (fm : Assoc Nat) :
    Cached ⟨dset i.cache n' v, fm⟩ n := by
  simp only [Cached, dhas] at h ⊢
  rw [dget_dset]
  split
  · rfl
  · exact h

theorem cached_cache {i i' : Inst} {n : String} (h : Cached i n) (e : i'.cache = i.cache) : Cached i' n := by
  simpa only [Cached, e] using h

theorem cached_refreshChanged (conv : Conv) (now : Nat) (n' : String) {i : Inst} (dir : Dir) {n : String} (h : Cached i n) :
    Cached (refreshChanged conv now n' i dir).inst n := by
  have hc := isChanged_cache i dir n'
  unfold refreshChanged
  revert hc
  generalize isChanged i dir n' = r
  obtain ⟨r, i'⟩ := r
  intro hc
  have h' : Cached i' n := cached_cache h hc
  match r with
  | .error e => exact h'
  | .ok false => exact h'
  | .ok true =>
    simp only [refresh]
    generalize readInfo conv now dir n' = q
    obtain ⟨q, d⟩ := q
    cases q with
    | error e => exact h'
    | ok v => exact cached_set h' _ _ _

theorem cached_synchOne (conv : Conv) (now : Nat) (n' : String) {i : Inst} (dir : Dir) {n : String} (h : Cached i n) :
    Cached (synchOne conv now n' i dir).inst n := by
  unfold synchOne
  cases dget dir n' with
  | none => exact h
  | some f =>
    simp only
    split
    · exact h
    · split
      · exact cached_refreshChanged conv now n' dir h
      · simp only [firstSeen]
        generalize readInfo conv now dir n' = q
        obtain ⟨q, d⟩ := q
        cases q with
        | error e => exact h
        | ok v => exact cached_set h _ _ _

theorem cached_synchAll (conv : Conv) (now : Nat) (n : String) : ∀ (ns : List String) {i : Inst} (dir : Dir), Cached i n →
    Cached (synchAll conv now ns i dir).inst n
  | [], _, _, h => h
  | n' :: ns, i, dir, h => by
    have h1 := cached_synchOne conv now n' dir h
    simp only [synchAll]
    revert h1
    generalize synchOne conv now n' i dir = o
    obtain ⟨r, i', d'⟩ := o
    intro h1
    cases r with
    | error e => exact h1
    | ok u => exact cached_synchAll conv now n ns d' h1

theorem cached_fsSet (conv : Conv) (now : Nat) (k : String) (v : Val) {i : Inst} (dir : Dir) {n : String} (h : Cached i n) :
    Cached (fsSet conv now k v i dir).inst n := by
  unfold fsSet
  cases acquire now dir (quotePlus k) with
  | error e => exact h
  | ok d =>
    simp only
    split
    · exact h
    · cases conv.ser v with
      | error e => exact h
      | ok t => exact cached_set h _ _ _

theorem cached_update (conv : Conv) (now : Nat) (n : String) : ∀ (ava : List (String × Val)) {i : Inst} (dir : Dir), Cached i n →
    Cached (fsUpdate conv now ava i dir).inst n
  | [], _, _, h => h
  | (k, v) :: rest, i, dir, h => by
    have h1 := cached_fsSet conv now k v dir h
    simp only [fsUpdate]
    revert h1
    generalize fsSet conv now k v i dir = o
    obtain ⟨r, i', d'⟩ := o
    intro h1
    cases r with
    | error e => exact h1
    | ok u => exact cached_update conv now n rest d' h1

theorem cached_effect (conv : Conv) (now : Nat) (op : WOp) (hf : ¬ op.forgets) {i : Inst} (dir : Dir) {n : String}
    (h : Cached i n) : Cached (wEffect conv now op i dir).1 n := by
  cases op with
  | clear => exact absurd trivial hf
  | reopen => exact absurd trivial hf
  | op o =>
    cases o with
    | del k => exact absurd trivial hf
    | set k v => exact cached_fsSet conv now k v dir h
    | update ava => exact cached_update conv now n ava dir h
    | has k => exact h
    | len => exact h
    | get k =>
      simp only [wEffect, fsStep, fsGet]
      have h1 := cached_refreshChanged conv now (quotePlus k) dir h
      revert h1
      generalize refreshChanged conv now (quotePlus k) i dir = o
      obtain ⟨r, i', d'⟩ := o
      cases r <;> exact fun h => h
    | keys =>
      simp only [wEffect, fsStep, fsKeys]
      have h1 : Cached (synch conv now i dir).inst n := cached_synchAll conv now n _ dir h
      revert h1
      generalize synch conv now i dir = o
      obtain ⟨r, i', d'⟩ := o
      cases r <;> exact fun h => h
    | items =>
      simp only [wEffect, fsStep, fsItems]
      have h1 : Cached (synch conv now i dir).inst n := cached_synchAll conv now n _ dir h
      revert h1
      generalize synch conv now i dir = o
      obtain ⟨r, i', d'⟩ := o
      cases r <;> exact fun h => h

/-- A key that an instance has once seen is in it for ever, as far as `in` and `store()` are concerned: whatever the other
instances do (deleting the key, clearing the directory), and whatever it does itself, short of deleting, clearing and
being made anew. -/
theorem C143_stays (conv : Conv) (j : Nat) (k : String) (es : List WEvent) :
    ∀ (w : World), fsContains k (w.inst j) = true → (∀ e ∈ es, e.who = j → ¬ e.op.forgets) →
    fsContains k ((wRun conv es w).inst j) = true ∧ k ∈ fsCall ((wRun conv es w).inst j) := by
  induction es with
  | nil =>
    intro w h _
    refine ⟨h, List.mem_map.2 ⟨quotePlus k, (dhas_iff _ _).1 h, unquotePlus_quotePlus k⟩⟩
  | cons e rest ih =>
    intro w h hf
    refine ih _ ?_ (fun x hx => hf x (by simp [hx]))
    by_cases hj : j = e.who
    · subst hj
      simpa [wStep, fsContains, Cached] using cached_effect conv e.now e.op (hf e (by simp) rfl) w.dir (n := quotePlus k) h
    · simp only [wStep, if_neg hj]
      exact h

/-- a key whose file is gone cannot be read -/
theorem fsGet_gone (conv : Conv) (now : Nat) (k : String) (i : Inst) (dir : Dir) (h : dget dir (quotePlus k) = none) :
    (fsGet conv now k i dir).res = .error .keyError := by
  simp only [fsGet, refreshChanged, isChanged, h]

/-- C143 fails after a deletion by another instance: the key cannot be read, and the instance says that it is there, now
and after anything it does except deleting, clearing or being made anew, as long as nobody writes the key again. -/
theorem C143_counterexample_deleted (conv : Conv) (w : World) (j now : Nat) (k : String) (es : List WEvent)
    (h : fsContains k (w.inst j) = true) (hf : ∀ e ∈ es, e.who = j → ¬ e.op.forgets)
    (hgone : dget (wRun conv es w).dir (quotePlus k) = none) :
    fsContains k ((wRun conv es w).inst j) = true ∧
    (fsGet conv now k ((wRun conv es w).inst j) (wRun conv es w).dir).res = .error .keyError :=
  ⟨(C143_stays conv j k es w h hf).1, fsGet_gone _ _ _ _ _ hgone⟩

/-- the other instance deletes the key, this one lists its keys and writes another one -/
example : let w := wRun jsonConv [⟨0, 1, .op (.set "k" (.int 1))⟩] emptyWorld
    let es : List WEvent := [⟨1, 2, .op (.del "k")⟩, ⟨0, 3, .op .keys⟩, ⟨0, 4, .op (.set "l" (.int 2))⟩, ⟨0, 5, .op .items⟩]
    fsContains "k" (w.inst 0) = true ∧ (∀ e ∈ es, e.who = 0 → ¬ e.op.forgets) ∧
    dget (wRun jsonConv es w).dir (quotePlus "k") = none ∧
    fsContains "k" ((wRun jsonConv es w).inst 0) = true ∧ fsLen (wRun jsonConv es w).dir = 1 := by
  refine ⟨by decide +kernel, by simp [WOp.forgets], by decide +kernel, by decide +kernel, by decide +kernel⟩

/-- C143 fails after a write by another instance, always: an instance that has not seen the key says that it is not there,
and reads it. -/
theorem C143_counterexample_written {conv : Conv} (w : World) (k : String) (v : Val) (T writer reader now : Nat)
    (hr : ¬ Reserved k) (hu : Usable k) (hv : RoundTrips conv v) (hne : reader ≠ writer)
    (hT : ∀ t, dget (w.inst reader).fmtime (quotePlus k) = some t → t < T) (hc : fsContains k (w.inst reader) = false) :
    let w' := wStep conv writer T (.op (.set k v)) w
    fsContains k (w'.inst reader) = false ∧ (fsGet conv now k (w'.inst reader) w'.dir).res = .ok v := by
  intro w'
  refine ⟨?_, C50_sees w k v T writer reader now [] hr hu hv hne hT (by simp)⟩
  simp only [w', wStep, if_neg hne]
  exact hc

/-- Reading puts that right: a key that has been read is there. -/
theorem C143_after_reading (conv : Conv) (now : Nat) (k : String) (i : Inst) (dir : Dir) (v : Val)
    (h : (fsGet conv now k i dir).res = .ok v) : fsContains k (fsGet conv now k i dir).inst = true := by
  unfold fsGet at h ⊢
  revert h
  generalize refreshChanged conv now (quotePlus k) i dir = o
  obtain ⟨r, i', d'⟩ := o
  cases r with
  | error e => intro h; cases h
  | ok u =>
    intro h
    simp only [fromCache] at h
    simp only [fsContains, dhas]
    cases hd : dget i'.cache (quotePlus k) with
    | none => rw [hd] at h; cases h
    | some x => rfl

example : let w := wRun jsonConv [⟨0, 1, .op (.set "k" (.int 1))⟩] emptyWorld
    fsContains "k" (w.inst 1) = false ∧ (fsGet jsonConv 2 "k" (w.inst 1) w.dir).res = .ok (.int 1) ∧
    fsContains "k" (fsGet jsonConv 2 "k" (w.inst 1) w.dir).inst = true := by decide +kernel

end Verif
