import Verif.Model.FileStore

/-!
# C106: an entry that cannot be read is an error, not an absent or an old entry
-/

namespace Verif

/-- The file of the key is new to the instance, or newer than what it has seen. -/
def Unseen (i : Inst) (n : String) (f : File) : Prop := ∀ t, dget i.fmtime n = some t → f.mtime > t

theorem isChanged_unseen {i : Inst} {dir : Dir} {n : String} {f : File} (hf : dget dir n = some f) (hu : Unseen i n f) :
    isChanged i dir n = (.ok true, { i with fmtime := dset i.fmtime n f.mtime }) := by
  unfold isChanged
  rw [hf]
  cases ht : dget i.fmtime n with
  | none => rfl
  | some t => simp [hu t ht]

theorem readInfo_bad {conv : Conv} {now : Nat} {dir : Dir} {n : String} {f : File} (hf : dget dir n = some f) {e : Exc}
    (hn : (lockName n).utf8ByteSize ≤ 255) (hd : conv.deser (readText f.content) = .error e) :
    readInfo conv now dir n = (.error e, dset dir (lockName n) ⟨"", now⟩) := by
  simp [readInfo, hf, acquire, hn, hd]

/-- The first read (C106): the exception of the converter is raised, by `store[key]` and by `store.get(key)`. -/
theorem C106_first_partial (conv : Conv) (now : Nat) (k : String) (i : Inst) (dir : Dir) (f : File) (e : Exc)
    (hf : dget dir (quotePlus k) = some f) (hu : Unseen i (quotePlus k) f)
    (hn : (lockName (quotePlus k)).utf8ByteSize ≤ 255) (hd : conv.deser (readText f.content) = .error e)
    (he : e ≠ .keyError) :
    (fsGet conv now k i dir).res = .error e ∧ (fsGetD conv now k i dir).res = .error e := by
  have : fsGet conv now k i dir = ⟨.error e, { i with fmtime := dset i.fmtime (quotePlus k) f.mtime },
      dset dir (lockName (quotePlus k)) ⟨"", now⟩⟩ := by
    simp [fsGet, refreshChanged, isChanged_unseen hf hu, refresh, readInfo_bad hf hn hd]
  refine ⟨by rw [this], ?_⟩
  unfold fsGetD
  rw [this]
  split
  · rename_i h; cases h; exact absurd rfl he
  · rfl

/-- `get` (C106): it differs from `store[key]` only for a `KeyError`, in whose place it returns `None`. -/
theorem C106_get (conv : Conv) (now : Nat) (k : String) (i : Inst) (dir : Dir) :
    (∀ v, (fsGet conv now k i dir).res = .ok v → (fsGetD conv now k i dir).res = .ok v) ∧
    ((fsGet conv now k i dir).res = .error .keyError → (fsGetD conv now k i dir).res = .ok .none) ∧
    (∀ e, e ≠ .keyError → (fsGet conv now k i dir).res = .error e → (fsGetD conv now k i dir).res = .error e) ∧
    (fsGetD conv now k i dir).inst = (fsGet conv now k i dir).inst ∧
    (fsGetD conv now k i dir).dir = (fsGet conv now k i dir).dir := by
  unfold fsGetD
  rcases fsGet conv now k i dir with ⟨_ | v, i', dir'⟩
  · rename_i e
    refine ⟨by simp, fun h => by cases h; rfl, fun e' he h => ?_, ?_⟩
    · cases h
      cases e <;> first | rfl | exact absurd rfl he
    · cases e <;> exact ⟨rfl, rfl⟩
  · exact ⟨fun _ h => h, fun h => (by cases h), fun _ _ h => h, rfl, rfl⟩

/-- A key without a file (C106): `KeyError`, and `None` from `get`; nothing changes. -/
theorem C106_absent (conv : Conv) (now : Nat) (k : String) (i : Inst) (dir : Dir) (hf : dget dir (quotePlus k) = none) :
    fsGet conv now k i dir = ⟨.error .keyError, i, dir⟩ ∧ fsGetD conv now k i dir = ⟨.ok .none, i, dir⟩ := by
  have : fsGet conv now k i dir = ⟨.error .keyError, i, dir⟩ := by
    simp [fsGet, refreshChanged, isChanged, hf]
  exact ⟨this, by simp [fsGetD, this]⟩

/-- C106 fails at the second read, for every store and every key: the time of the unreadable file is already noted, so
it is not read again, and the answer is what is cached: the old value if there is one, else a `KeyError` as for an
absent entry. -/
theorem C106_counterexample (conv : Conv) (now now' : Nat) (k : String) (i : Inst) (dir : Dir) (f : File) (e : Exc)
    (hf : dget dir (quotePlus k) = some f) (hu : Unseen i (quotePlus k) f)
    (hn : (lockName (quotePlus k)).utf8ByteSize ≤ 255) (hd : conv.deser (readText f.content) = .error e) :
    ∃ i' dir', fsGet conv now k i dir = ⟨.error e, i', dir'⟩ ∧
      (∀ v, dget i.cache (quotePlus k) = some v →
        (fsGet conv now' k i' dir').res = .ok v ∧ (fsGetD conv now' k i' dir').res = .ok v) ∧
      (dget i.cache (quotePlus k) = none →
        (fsGet conv now' k i' dir').res = .error .keyError ∧ (fsGetD conv now' k i' dir').res = .ok .none) := by
  refine ⟨{ i with fmtime := dset i.fmtime (quotePlus k) f.mtime }, dset dir (lockName (quotePlus k)) ⟨"", now⟩, ?_, ?_⟩
  · simp [fsGet, refreshChanged, isChanged_unseen hf hu, refresh, readInfo_bad hf hn hd]
  · have hne : lockName (quotePlus k) ≠ quotePlus k := by
      intro h
      have := congrArg (fun s => s.toList.length) h
      simp [lockName] at this
    have hget : ∀ r, fromCache { i with fmtime := dset i.fmtime (quotePlus k) f.mtime } (quotePlus k) = r →
        (fsGet conv now' k { i with fmtime := dset i.fmtime (quotePlus k) f.mtime }
          (dset dir (lockName (quotePlus k)) ⟨"", now⟩)).res = r := by
      intro r hr
      simp only [fsGet, refreshChanged, isChanged, dget_dset_ne _ _ hne, hf, dget_dset_same, gt_iff_lt, Nat.lt_irrefl,
        if_false]
      exact hr
    refine ⟨fun v hv => ?_, fun hv => ?_⟩
    · have := hget (.ok v) (by simp [fromCache, hv])
      exact ⟨this, (C106_get ..).1 v this⟩
    · have := hget (.error .keyError) (by simp [fromCache, hv])
      exact ⟨this, (C106_get ..).2.1 this⟩

/-- A JSON store: another process has put something that is not JSON into the file.  The first read raises, the second
one returns the old value. -/
example :
    let i : Inst := ⟨[("k", .int 1)], [("k", 5)]⟩
    let dir : Dir := [("k", ⟨"oops", 7⟩)]
    Unseen i "k" ⟨"oops", 7⟩ ∧ (lockName "k").utf8ByteSize ≤ 255 ∧ quotePlus "k" = "k" ∧
    jsonConv.deser (readText "oops") = .error .jsonDecodeError ∧
    (fsGet jsonConv 8 "k" i dir).res = .error .jsonDecodeError ∧
    (fsGet jsonConv 9 "k" (fsGet jsonConv 8 "k" i dir).inst (fsGet jsonConv 8 "k" i dir).dir).res = .ok (.int 1) := by
  refine ⟨fun t h => ?_, by decide, by decide +kernel, by decide +kernel, by decide +kernel, by decide +kernel⟩
  have : t = 5 := by simpa [dget] using h.symm
  subst this
  decide

end Verif
