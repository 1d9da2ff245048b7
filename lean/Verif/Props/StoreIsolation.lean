import Verif.Props.FileStore

/-!
# C127: what happens to other keys does not matter

An entry of the file storage answers like a variable of its own, whatever is done at other keys meanwhile: by the same
instance, with values that cannot be serialised and names that are those of lock files, or by other processes.
-/

namespace Verif

/-! ## histories with other processes -/

/-- what happens: an operation of the instance, with the time the operating system gives to the files it changes, or
a change of the directory by others -/
inductive StoreEvent where
  | mine (now : Nat) (op : FsOp)
  | others (g : Dir → Dir)

/-- the operations of the instance with their answers, and the state afterwards -/
def eventRun (conv : Conv) : List StoreEvent → Inst → Dir → List (FsOp × FsAns) × Inst × Dir
  | [], i, dir => ([], i, dir)
  | .others g :: rest, i, dir => eventRun conv rest i (g dir)
  | .mine now op :: rest, i, dir =>
    let s := fsStep conv now op i dir
    let r := eventRun conv rest s.2.1 s.2.2
    ((op, s.1) :: r.1, r.2)

/-- the operations at the key `k` -/
def FsOp.at (k : String) : FsOp → Bool
  | .set j _ => j == k
  | .get j => j == k
  | .has j => j == k
  | .del j => j == k
  | _ => false

/-- The events the claim is about.  At the key: values that can be serialised, and deletion if the key is its own file
name.  Elsewhere: anything, but deletion is not given the name of the file of `k` as its key, nor a path to it, and
`update` does not include the key.  The others leave the file of `k` alone. -/
def Undisturbed (conv : Conv) (k : String) : StoreEvent → Prop
  | .others g => ∀ d, dget (g d) (quotePlus k) = dget d (quotePlus k)
  | .mine _ (.set j v) => j = k → ∃ t, conv.ser v = .ok t
  | .mine _ (.update ava) => ∀ p ∈ ava, p.1 ≠ k
  | .mine _ (.del j) =>
    if j = k then quotePlus k = k else j ≠ quotePlus k ∧ resolveRaw j ≠ .inside (quotePlus k)
  | .mine _ _ => True

/-! ## the specification: a variable -/

/-- reading a variable that may be unset -/
def cellGet : Option Val → Res Val
  | some v => .ok v
  | none => .error .keyError

/-- an operation at the key on a variable that may be unset -/
def cellStep (k : String) (op : FsOp) (o : Option Val) : FsAns × Option Val :=
  match op with
  | .set _ v => if Usable k then (.unit (.ok ()), some v) else (.unit (.error .osError), o)
  | .get _ => (.val (cellGet o), o)
  | .has _ => (.has o.isSome, o)
  | _ => (.unit (.ok ()), none)

/-- the history of the variable -/
def cellRun (k : String) : List FsOp → Option Val → List (FsOp × FsAns) × Option Val
  | [], o => ([], o)
  | op :: rest, o =>
    ((op, (cellStep k op o).1) :: (cellRun k rest (cellStep k op o).2).1, (cellRun k rest (cellStep k op o).2).2)

/-- the operations at `k` in a history -/
def opsAt (k : String) : List StoreEvent → List FsOp
  | [] => []
  | .others _ :: rest => opsAt k rest
  | .mine _ op :: rest => if op.at k then op :: opsAt k rest else opsAt k rest

/-- The entry at `k` is `o`: without a file, unknown to the instance; or with a file that holds the value and that the
instance has seen. -/
def EntryIs (conv : Conv) (k : String) (o : Option Val) (i : Inst) (dir : Dir) : Prop :=
  match o with
  | none => dget dir (quotePlus k) = none ∧ dget i.cache (quotePlus k) = none
  | some v => Usable k ∧ ∃ f, dget dir (quotePlus k) = some f ∧ dget i.fmtime (quotePlus k) = some f.mtime ∧
      dget i.cache (quotePlus k) = some v ∧ conv.ser v = .ok f.content

/-! ## what other names do -/

/-- the same at the name `n` -/
structure SameAt (n : String) (i : Inst) (dir : Dir) (i' : Inst) (dir' : Dir) : Prop where
  file : dget dir' n = dget dir n
  time : dget i'.fmtime n = dget i.fmtime n
  cache : dget i'.cache n = dget i.cache n

theorem SameAt.refl (n : String) (i : Inst) (dir : Dir) : SameAt n i dir i dir := ⟨rfl, rfl, rfl⟩

theorem SameAt.trans {n : String} {i i' i'' : Inst} {dir dir' dir'' : Dir} (h : SameAt n i dir i' dir')
    (h' : SameAt n i' dir' i'' dir'') : SameAt n i dir i'' dir'' :=
  ⟨h'.file.trans h.file, h'.time.trans h.time, h'.cache.trans h.cache⟩

theorem SameAt.entry {conv : Conv} {k : String} {o : Option Val} {i i' : Inst} {dir dir' : Dir}
    (h : SameAt (quotePlus k) i dir i' dir') (he : EntryIs conv k o i dir) : EntryIs conv k o i' dir' := by
  cases o with
  | none => exact ⟨h.file.trans he.1, h.cache.trans he.2⟩
  | some v =>
    obtain ⟨hu, f, h1, h2, h3, h4⟩ := he
    exact ⟨hu, f, h.file.trans h1, h.time.trans h2, h.cache.trans h3, h4⟩

theorem acquire_sameAt {now : Nat} {dir dir' : Dir} {m n : String} (hn : isLock n = false)
    (h : acquire now dir m = .ok dir') : dget dir' n = dget dir n := by
  rcases acquire_cases now dir m with ha | ⟨ha, _⟩
  · rw [ha] at h
    cases h
    exact dget_dset_ne _ _ (lock_ne hn)
  · rw [ha] at h; cases h

theorem fsSet_sameAt {conv : Conv} (now : Nat) (j : String) (v : Val) (i : Inst) (dir : Dir) {n : String}
    (hn : isLock n = false) (hj : quotePlus j ≠ n) :
    SameAt n i dir (fsSet conv now j v i dir).inst (fsSet conv now j v i dir).dir := by
  unfold fsSet
  cases ha : acquire now dir (quotePlus j) with
  | error e => exact .refl ..
  | ok dir1 =>
    have h1 := acquire_sameAt hn ha
    simp only
    split
    · exact ⟨h1, rfl, rfl⟩
    · cases conv.ser v with
      | error e => exact ⟨(dget_dset_ne _ _ hj).trans h1, rfl, rfl⟩
      | ok t => exact ⟨(dget_dset_ne _ _ hj).trans h1, dget_dset_ne _ _ hj, dget_dset_ne _ _ hj⟩

theorem fsUpdate_sameAt {conv : Conv} (now : Nat) {n : String} (hn : isLock n = false) (ava : List (String × Val)) :
    ∀ (i : Inst) (dir : Dir), (∀ p ∈ ava, quotePlus p.1 ≠ n) →
    SameAt n i dir (fsUpdate conv now ava i dir).inst (fsUpdate conv now ava i dir).dir := by
  induction ava with
  | nil => intro i dir _; exact .refl ..
  | cons p rest ih =>
    obtain ⟨k, v⟩ := p
    intro i dir h
    have hs := fsSet_sameAt (conv := conv) now k v i dir hn (h (k, v) (by simp))
    simp only [fsUpdate]
    revert hs
    generalize fsSet conv now k v i dir = o
    obtain ⟨_ | _, i', dir'⟩ := o
    · intro hs; exact hs
    · intro hs; exact hs.trans (ih i' dir' (fun q hq => h q (by simp [hq])))

theorem isChanged_sameAt (i : Inst) (dir : Dir) {m n : String} (h : m ≠ n) :
    dget (isChanged i dir m).2.fmtime n = dget i.fmtime n ∧ (isChanged i dir m).2.cache = i.cache := by
  unfold isChanged
  cases dget dir m with
  | none => exact ⟨rfl, rfl⟩
  | some f =>
    simp only
    cases dget i.fmtime m with
    | none => exact ⟨dget_dset_ne _ _ h, rfl⟩
    | some t =>
      simp only
      split
      · exact ⟨dget_dset_ne _ _ h, rfl⟩
      · exact ⟨rfl, rfl⟩

theorem readInfo_sameAt {conv : Conv} (now : Nat) (dir : Dir) (m : String) {n : String} (hn : isLock n = false) :
    dget (readInfo conv now dir m).2 n = dget dir n := by
  unfold readInfo
  cases dget dir m with
  | none => rfl
  | some f =>
    simp only
    cases ha : acquire now dir m with
    | error e => rfl
    | ok dir' => exact acquire_sameAt hn ha

theorem refresh_sameAt {conv : Conv} (now : Nat) (i : Inst) (dir : Dir) {m n : String} (hn : isLock n = false)
    (h : m ≠ n) : SameAt n i dir (refresh conv now m i dir).inst (refresh conv now m i dir).dir := by
  unfold refresh
  have h1 := readInfo_sameAt (conv := conv) now dir m hn
  revert h1
  generalize readInfo conv now dir m = r
  obtain ⟨_ | v, dir'⟩ := r
  · intro h1; exact ⟨h1, rfl, rfl⟩
  · intro h1; exact ⟨h1, rfl, dget_dset_ne _ _ h⟩

theorem refreshChanged_sameAt {conv : Conv} (now : Nat) (i : Inst) (dir : Dir) {m n : String} (hn : isLock n = false)
    (h : m ≠ n) : SameAt n i dir (refreshChanged conv now m i dir).inst (refreshChanged conv now m i dir).dir := by
  unfold refreshChanged
  have h1 := isChanged_sameAt i dir h
  revert h1
  generalize isChanged i dir m = r
  obtain ⟨_ | b, i'⟩ := r
  · intro h1; exact ⟨rfl, h1.1, congrArg (dget · n) h1.2⟩
  · intro h1
    have h0 : SameAt n i dir i' dir := ⟨rfl, h1.1, congrArg (dget · n) h1.2⟩
    cases b
    · exact h0
    · exact h0.trans (refresh_sameAt now i' dir hn h)

theorem fsGet_sameAt {conv : Conv} (now : Nat) (j : String) (i : Inst) (dir : Dir) {n : String}
    (hn : isLock n = false) (hj : quotePlus j ≠ n) :
    SameAt n i dir (fsGet conv now j i dir).inst (fsGet conv now j i dir).dir := by
  unfold fsGet
  have h1 := refreshChanged_sameAt (conv := conv) now i dir hn hj
  revert h1
  generalize refreshChanged conv now (quotePlus j) i dir = r
  obtain ⟨_ | _, i', dir'⟩ := r <;> exact id

/-- the entry is not looked at again: there is no file, or it has been seen -/
def Settled (n : String) (i : Inst) (dir : Dir) : Prop :=
  ∀ f, dget dir n = some f → dget i.fmtime n = some f.mtime

theorem synchOne_sameAt {conv : Conv} (now : Nat) (m : String) (i : Inst) (dir : Dir) {n : String}
    (hn : isLock n = false) (hs : Settled n i dir) :
    SameAt n i dir (synchOne conv now m i dir).inst (synchOne conv now m i dir).dir := by
  unfold synchOne
  cases hd : dget dir m with
  | none => exact .refl ..
  | some f =>
    simp only
    split
    · exact .refl ..
    · by_cases e : m = n
      · subst e
        have ht := hs f hd
        have hh : dhas i.fmtime m = true := by simp [dhas, ht]
        rw [if_pos hh]
        simp only [refreshChanged, isChanged, hd, ht, gt_iff_lt, Nat.lt_irrefl, if_false]
        exact .refl ..
      · split
        · exact refreshChanged_sameAt now i dir hn e
        · unfold firstSeen
          have h1 := readInfo_sameAt (conv := conv) now dir m hn
          revert h1
          generalize readInfo conv now dir m = r
          obtain ⟨_ | v, dir'⟩ := r
          · intro h1; exact ⟨h1, rfl, rfl⟩
          · intro h1; exact ⟨h1, dget_dset_ne _ _ e, dget_dset_ne _ _ e⟩

theorem synchAll_sameAt {conv : Conv} (now : Nat) {n : String} (hn : isLock n = false) (ms : List String) :
    ∀ (i : Inst) (dir : Dir), Settled n i dir →
    SameAt n i dir (synchAll conv now ms i dir).inst (synchAll conv now ms i dir).dir := by
  induction ms with
  | nil => intro i dir _; exact .refl ..
  | cons m ms ih =>
    intro i dir hs
    have h1 := synchOne_sameAt (conv := conv) now m i dir hn hs
    unfold synchAll
    revert h1
    generalize synchOne conv now m i dir = r
    obtain ⟨_ | _, i', dir'⟩ := r
    · exact id
    · intro h1
      refine h1.trans (ih i' dir' (fun f hf => ?_))
      rw [h1.time]
      exact hs f (h1.file ▸ hf)

theorem EntryIs.settled {conv : Conv} {k : String} {o : Option Val} {i : Inst} {dir : Dir}
    (h : EntryIs conv k o i dir) : Settled (quotePlus k) i dir := by
  intro f hf
  cases o with
  | none => rw [h.1] at hf; cases hf
  | some v =>
    obtain ⟨_, f', h1, h2, _⟩ := h
    rw [h1] at hf; cases hf; exact h2

theorem fsKeys_sameAt {conv : Conv} (now : Nat) (i : Inst) (dir : Dir) {n : String} (hn : isLock n = false)
    (hs : Settled n i dir) : SameAt n i dir (fsKeys conv now i dir).inst (fsKeys conv now i dir).dir := by
  have h1 := synchAll_sameAt (conv := conv) now hn (dkeys dir) i dir hs
  unfold fsKeys synch
  revert h1
  generalize synchAll conv now (dkeys dir) i dir = r
  obtain ⟨_ | _, i', dir'⟩ := r <;> exact id

theorem fsItems_sameAt {conv : Conv} (now : Nat) (i : Inst) (dir : Dir) {n : String} (hn : isLock n = false)
    (hs : Settled n i dir) : SameAt n i dir (fsItems conv now i dir).inst (fsItems conv now i dir).dir := by
  have h1 := synchAll_sameAt (conv := conv) now hn (dkeys dir) i dir hs
  unfold fsItems synch
  revert h1
  generalize synchAll conv now (dkeys dir) i dir = r
  obtain ⟨_ | _, i', dir'⟩ := r <;> exact id

theorem fsDel_sameAt (now : Nat) (j : String) (i : Inst) (dir : Dir) {n : String} (hn : isLock n = false)
    (hj : j ≠ n) (hr : resolveRaw j ≠ .inside n) : SameAt n i dir (fsDel now j i dir).inst (fsDel now j i dir).dir := by
  have hc : dget (dropCache j i).cache n = dget i.cache n := dget_ddel_ne _ hj
  unfold fsDel
  cases ht : resolveRaw j with
  | outside p => exact .refl ..
  | notFile => exact ⟨rfl, rfl, hc⟩
  | inside m =>
    have hm : m ≠ n := fun e => hr (e ▸ ht)
    simp only
    split
    · cases ha : acquire now dir m with
      | error e => exact .refl ..
      | ok dir' => exact ⟨(dget_ddel_ne _ hm).trans (acquire_sameAt hn ha), rfl, hc⟩
    · exact ⟨rfl, rfl, hc⟩

/-! ## operations at the key -/

theorem fsSet_entry {conv : Conv} {k : String} {o : Option Val} {i : Inst} {dir : Dir} (hr : ¬ Reserved k)
    (he : EntryIs conv k o i dir) (now : Nat) (v : Val) (hs : ∃ t, conv.ser v = .ok t) :
    FsAns.unit (fsSet conv now k v i dir).res = (cellStep k (.set k v) o).1 ∧
    EntryIs conv k (cellStep k (.set k v) o).2 (fsSet conv now k v i dir).inst (fsSet conv now k v i dir).dir := by
  obtain ⟨t, hs⟩ := hs
  simp only [cellStep]
  by_cases hu : Usable k
  · rw [if_pos hu]
    unfold fsSet
    rw [acquire_ok hu.2.2.2]
    simp only [usable_not_dirName hu, Bool.false_eq_true, if_false, hs]
    exact ⟨trivial, hu, _, dget_dset_same _ _ _, dget_dset_same _ _ _, dget_dset_same _ _ _, hs⟩
  · rw [if_neg hu]
    unfold fsSet
    rcases acquire_cases now dir (quotePlus k) with ha | ⟨ha, hsz⟩
    · have h1 := acquire_sameAt (not_lock hr) ha
      rw [ha]
      rcases dirName_usable k hu with hd | hd
      · simp only [hd, if_true]
        exact ⟨trivial, SameAt.entry ⟨h1, rfl, rfl⟩ he⟩
      · unfold acquire at ha; rw [size_lockName, if_neg (by omega)] at ha; simp at ha
    · rw [ha]; exact ⟨rfl, he⟩

theorem fsGet_entry {conv : Conv} {k : String} {o : Option Val} {i : Inst} {dir : Dir}
    (he : EntryIs conv k o i dir) (now : Nat) :
    fsGet conv now k i dir = ⟨cellGet o, i, dir⟩ := by
  cases o with
  | none => simp only [fsGet, refreshChanged, isChanged, he.1, cellGet]
  | some v =>
    obtain ⟨_, f, h1, h2, h3, _⟩ := he
    simp [fsGet, refreshChanged, isChanged, h1, h2, fromCache, h3, cellGet]

theorem fsDel_entry {conv : Conv} {k : String} {o : Option Val} {i : Inst} {dir : Dir} (hr : ¬ Reserved k)
    (he : EntryIs conv k o i dir) (now : Nat) (hk : quotePlus k = k) :
    (fsDel now k i dir).res = .ok () ∧ EntryIs conv k none (fsDel now k i dir).inst (fsDel now k i dir).dir := by
  have hl : isLock k = false := hk ▸ not_lock hr
  have hc : dget (dropCache k i).cache (quotePlus k) = none := by rw [hk]; exact dget_ddel_same _ _
  unfold fsDel
  rw [resolveRaw_plain (noSlash_of_self hk)]
  cases o with
  | none =>
    have hd := he.1
    rw [hk] at hd
    cases isDirName k with
    | true => exact ⟨rfl, he.1, hc⟩
    | false =>
      simp only [Bool.false_eq_true, if_false, dhas, hd, Option.isSome_none]
      exact ⟨trivial, he.1, hc⟩
  | some v =>
    obtain ⟨hu, f, h1, _⟩ := he
    have hdn := usable_not_dirName hu
    have hsz : k.utf8ByteSize ≤ 250 := by have := hu.2.2.2; rwa [hk] at this
    rw [hk] at hdn h1
    simp only [hdn, Bool.false_eq_true, if_false, dhas, h1, Option.isSome_some, if_true, acquire_ok hsz]
    exact ⟨trivial, by rw [hk]; exact dget_ddel_same _ _, hc⟩

/-! ## C127 -/

theorem step_at {conv : Conv} {k : String} {o : Option Val} {i : Inst} {dir : Dir} (hr : ¬ Reserved k)
    (he : EntryIs conv k o i dir) (now : Nat) (op : FsOp) (hat : op.at k = true) (hl : Undisturbed conv k (.mine now op)) :
    (fsStep conv now op i dir).1 = (cellStep k op o).1 ∧
    EntryIs conv k (cellStep k op o).2 (fsStep conv now op i dir).2.1 (fsStep conv now op i dir).2.2 := by
  cases op with
  | set j v =>
    have : j = k := by simpa [FsOp.at] using hat
    subst this
    have h := fsSet_entry hr he now v (hl rfl)
    simp only [fsStep]
    exact h
  | get j =>
    have : j = k := by simpa [FsOp.at] using hat
    subst this
    simp only [fsStep, fsGet_entry he now, cellStep]
    exact ⟨trivial, he⟩
  | has j =>
    have : j = k := by simpa [FsOp.at] using hat
    subst this
    simp only [fsStep, cellStep, fsContains, dhas]
    refine ⟨?_, he⟩
    cases o with
    | none => rw [he.2]
    | some v => obtain ⟨_, f, _, _, h3, _⟩ := he; rw [h3]
  | del j =>
    have : j = k := by simpa [FsOp.at] using hat
    subst this
    obtain ⟨h1, h2⟩ := fsDel_entry hr he now (by simpa [Undisturbed] using hl)
    exact ⟨congrArg FsAns.unit h1, h2⟩
  | keys => cases hat
  | items => cases hat
  | len => cases hat
  | update _ => cases hat

theorem step_elsewhere {conv : Conv} {k : String} {o : Option Val} {i : Inst} {dir : Dir} (hr : ¬ Reserved k)
    (he : EntryIs conv k o i dir) (now : Nat) (op : FsOp) (hat : op.at k = false) (hl : Undisturbed conv k (.mine now op)) :
    EntryIs conv k o (fsStep conv now op i dir).2.1 (fsStep conv now op i dir).2.2 := by
  have hn := not_lock hr
  cases op with
  | set j v =>
    have : j ≠ k := by simpa [FsOp.at] using hat
    have h := (fsSet_sameAt (conv := conv) now j v i dir hn (fun e => this (quotePlus_inj e))).entry he
    simp only [fsStep]
    exact h
  | get j =>
    have : j ≠ k := by simpa [FsOp.at] using hat
    exact (fsGet_sameAt now j i dir hn (fun e => this (quotePlus_inj e))).entry he
  | has j => exact he
  | del j =>
    have : j ≠ k := by simpa [FsOp.at] using hat
    have hl' : j ≠ quotePlus k ∧ resolveRaw j ≠ .inside (quotePlus k) := by simpa [Undisturbed, this] using hl
    exact (fsDel_sameAt now j i dir hn hl'.1 hl'.2).entry he
  | keys => exact (fsKeys_sameAt now i dir hn he.settled).entry he
  | items => exact (fsItems_sameAt now i dir hn he.settled).entry he
  | len => exact he
  | update ava => exact (fsUpdate_sameAt now hn ava i dir (fun p hp e => hl p hp (quotePlus_inj e))).entry he

/-- C127: in any history, the answers to the operations at `k` are those of a variable that sees only these operations,
and the file of `k` holds the value of the variable at the end. -/
theorem C127_isolated (conv : Conv) (k : String) (hr : ¬ Reserved k) (es : List StoreEvent) :
    ∀ (o : Option Val) (i : Inst) (dir : Dir), EntryIs conv k o i dir → (∀ e ∈ es, Undisturbed conv k e) →
    (eventRun conv es i dir).1.filter (fun p => p.1.at k) = (cellRun k (opsAt k es) o).1 ∧
    EntryIs conv k (cellRun k (opsAt k es) o).2 (eventRun conv es i dir).2.1 (eventRun conv es i dir).2.2 := by
  induction es with
  | nil => intro o i dir he _; exact ⟨rfl, he⟩
  | cons e es ih =>
    intro o i dir he hl
    have hl' := fun e he => hl e (List.mem_cons_of_mem _ he)
    have h0 := hl e List.mem_cons_self
    cases e with
    | others g =>
      have : SameAt (quotePlus k) i dir i (g dir) := ⟨h0 dir, rfl, rfl⟩
      exact ih o i (g dir) (this.entry he) hl'
    | mine now op =>
      cases hat : op.at k with
      | true =>
        obtain ⟨h1, h2⟩ := step_at hr he now op hat h0
        obtain ⟨h3, h4⟩ := ih _ _ _ h2 hl'
        simp only [eventRun, opsAt, hat, if_true, cellRun, List.filter_cons]
        exact ⟨by rw [h1, h3], h4⟩
      | false =>
        obtain ⟨h3, h4⟩ := ih _ _ _ (step_elsewhere hr he now op hat h0) hl'
        simp only [eventRun, opsAt, hat, Bool.false_eq_true, if_false, List.filter_cons]
        exact ⟨h3, h4⟩

/-- C127, the file: after any such history it has the serialisation of the last value stored, or it is absent if
nothing was stored or the value was deleted. -/
theorem C127_file (conv : Conv) (k : String) (hr : ¬ Reserved k) (es : List StoreEvent) (o : Option Val) (i : Inst)
    (dir : Dir) (he : EntryIs conv k o i dir) (hl : ∀ e ∈ es, Undisturbed conv k e) :
    (∀ v, (cellRun k (opsAt k es) o).2 = some v → ∃ f, dget (eventRun conv es i dir).2.2 (quotePlus k) = some f ∧
      conv.ser v = .ok f.content) ∧
    ((cellRun k (opsAt k es) o).2 = none → dget (eventRun conv es i dir).2.2 (quotePlus k) = none) := by
  have h := (C127_isolated conv k hr es o i dir he hl).2
  refine ⟨fun v hv => ?_, fun hv => ?_⟩
  · rw [hv] at h
    obtain ⟨_, f, h1, _, _, h4⟩ := h
    exact ⟨f, h1, h4⟩
  · rw [hv] at h; exact h.1

/-- A JSON store: at other keys a write fails, which leaves an empty file that `keys` cannot read, a key is the name of
the lock file, and another process writes nonsense. -/
def isolationExample : List StoreEvent :=
  [.mine 1 (.set "k" (.int 1)), .mine 2 (.set "j" (.int 5)), .mine 3 (.set "j" (.msg ⟨"message", "Message"⟩ [])),
   .mine 4 .keys, .mine 5 (.set "k.lock" (.str "x")), .others (fun d => dset d "z" ⟨"{", 9⟩), .mine 10 (.get "z"),
   .mine 11 (.get "k"), .mine 12 (.del "j"), .mine 13 (.has "k"), .mine 14 (.del "k"), .mine 15 (.get "k")]

example : ¬ Reserved "k" ∧ EntryIs jsonConv "k" none ⟨[], []⟩ [] ∧ (∀ e ∈ isolationExample, Undisturbed jsonConv "k" e) := by
  refine ⟨by decide +kernel, ⟨rfl, rfl⟩, fun e he => ?_⟩
  have hq : quotePlus "k" = "k" := by decide +kernel
  simp only [isolationExample, List.mem_cons, List.not_mem_nil, or_false] at he
  rcases he with rfl | rfl | rfl | rfl | rfl | rfl | rfl | rfl | rfl | rfl | rfl | rfl
  · exact fun _ => ⟨"1", by decide +kernel⟩
  · exact fun h => absurd h (by decide)
  · exact fun h => absurd h (by decide)
  · trivial
  · exact fun h => absurd h (by decide)
  · intro d
    rw [hq]
    exact dget_dset_ne _ _ (by decide)
  · trivial
  · trivial
  · simp only [Undisturbed, hq]
    decide +kernel
  · trivial
  · simp only [Undisturbed, hq, if_true]
  · trivial

example : ((eventRun jsonConv isolationExample ⟨[], []⟩ []).1.map (·.2)) =
    [.unit (.ok ()), .unit (.ok ()), .unit (.error .typeError), .keys (.error .jsonDecodeError), .unit (.ok ()),
     .val (.error .jsonDecodeError), .val (.ok (.int 1)), .unit (.ok ()), .has true, .unit (.ok ()),
     .val (.error .keyError)] := by decide +kernel

/-- C127: the restriction on deletion is needed: deleting `a+b`, or `./a+b`, takes the entry of `a b` away. -/
theorem C127_counterexample_del :
    ((eventRun passThru [.mine 1 (.set "a b" (.str "x")), .mine 2 (.del "./a+b"), .mine 3 (.get "a b")] ⟨[], []⟩ []).1.map
      (·.2)) = [.unit (.ok ()), .unit (.ok ()), .val (.error .keyError)] := by decide +kernel

/-- C127: so is that on the key: the entry `k.lock` is emptied by every operation at `k` that opens its file. -/
theorem C127_counterexample_lock :
    ((eventRun passThru [.mine 1 (.set "k.lock" (.str "x")), .mine 2 (.set "k" (.str "y")), .mine 3 (.get "k.lock")]
      ⟨[], []⟩ []).1.map (·.2)) = [.unit (.ok ()), .unit (.ok ()), .val (.ok (.str ""))] := by decide +kernel

end Verif
