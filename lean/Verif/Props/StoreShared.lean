import Verif.Props.StoreClear

/-!
# Several instances over one directory, complete operations: C50
-/

namespace Verif

/-! ## histories of several instances -/

/-- an operation of some instance: those of `FsOp`, `clear`, and starting anew -/
inductive WOp where
  | op (o : FsOp)
  | clear
  | reopen

/-- the directory and all the instances over it -/
structure World where
  dir : Dir
  inst : Nat → Inst

/-- instance and directory after one operation -/
def wEffect (conv : Conv) (now : Nat) (op : WOp) (i : Inst) (dir : Dir) : Inst × Dir :=
  match op with
  | .op o => (fsStep conv now o i dir).2
  | .clear => ((fsClear now i dir).inst, (fsClear now i dir).dir)
  | .reopen => ((fsOpen conv now dir).inst, (fsOpen conv now dir).dir)

/-- instance `who` does `op` -/
def wStep (conv : Conv) (who now : Nat) (op : WOp) (w : World) : World where
  dir := (wEffect conv now op (w.inst who) w.dir).2
  inst j := if j = who then (wEffect conv now op (w.inst who) w.dir).1 else w.inst j

structure WEvent where
  who : Nat
  now : Nat
  op : WOp

def wRun (conv : Conv) : List WEvent → World → World
  | [], w => w
  | e :: rest, w => wRun conv rest (wStep conv e.who e.now e.op w)

/-- the writes an operation asks for -/
def WOp.writes : WOp → List (String × Val)
  | .op (.set k v) => [(k, v)]
  | .op (.update ava) => ava
  | _ => []

def writesOf (es : List WEvent) : List (String × Val) := es.flatMap (·.op.writes)

/-! ## nobody reads what nobody wrote -/

/-- the value is one written under the key with this file name, or what its text is read as -/
def Origin (conv : Conv) (W : List (String × Val)) (n : String) (v : Val) : Prop :=
  ∃ k v', (k, v') ∈ W ∧ quotePlus k = n ∧ (v = v' ∨ ∃ t, conv.ser v' = .ok t ∧ conv.deser (readText t) = .ok v)

def GoodDir (conv : Conv) (W : List (String × Val)) (dir : Dir) : Prop :=
  ∀ n f, isLock n = false → dget dir n = some f → ∃ k v, (k, v) ∈ W ∧ quotePlus k = n ∧ conv.ser v = .ok f.content

def GoodInst (conv : Conv) (W : List (String × Val)) (i : Inst) : Prop :=
  ∀ n v, isLock n = false → dget i.cache n = some v → Origin conv W n v

def Good (conv : Conv) (W : List (String × Val)) (i : Inst) (dir : Dir) : Prop := GoodInst conv W i ∧ GoodDir conv W dir

theorem Origin.mono {conv : Conv} {W W' : List (String × Val)} (hW : ∀ p ∈ W, p ∈ W') {n : String} {v : Val}
    (h : Origin conv W n v) : Origin conv W' n v := by
  obtain ⟨k, v', h1, h2⟩ := h
  exact ⟨k, v', hW _ h1, h2⟩

theorem GoodDir.mono {conv : Conv} {W W' : List (String × Val)} (hW : ∀ p ∈ W, p ∈ W') {dir : Dir}
    (h : GoodDir conv W dir) : GoodDir conv W' dir := by
  intro n f hl hd
  obtain ⟨k, v, h1, h2⟩ := h n f hl hd
  exact ⟨k, v, hW _ h1, h2⟩

theorem GoodInst.mono {conv : Conv} {W W' : List (String × Val)} (hW : ∀ p ∈ W, p ∈ W') {i : Inst}
    (h : GoodInst conv W i) : GoodInst conv W' i := fun n v hl hd => (h n v hl hd).mono hW

theorem GoodDir.lock {conv : Conv} {W : List (String × Val)} {dir : Dir} (h : GoodDir conv W dir) (n : String) (f : File) :
    GoodDir conv W (dset dir (lockName n) f) := by
  intro n' f' hl hd
  rw [dget_dset_ne _ _ (lock_ne hl)] at hd
  exact h n' f' hl hd

theorem GoodDir.del {conv : Conv} {W : List (String × Val)} {dir : Dir} (h : GoodDir conv W dir) (n : String) :
    GoodDir conv W (ddel dir n) := by
  intro n' f' hl hd
  rw [dget_ddel] at hd
  split at hd
  · simp at hd
  · exact h n' f' hl hd

theorem GoodInst.drop {conv : Conv} {W : List (String × Val)} {i : Inst} (h : GoodInst conv W i) (n : String) :
    GoodInst conv W (dropCache n i) := by
  intro n' v hl hd
  simp only [dropCache] at hd
  rw [dget_ddel] at hd
  split at hd
  · simp at hd
  · exact h n' v hl hd

theorem GoodInst.put {conv : Conv} {W : List (String × Val)} {i : Inst} (h : GoodInst conv W i) {n : String} {v : Val}
    (fm : Assoc Nat) (ho : isLock n = false → Origin conv W n v) : GoodInst conv W ⟨dset i.cache n v, fm⟩ := by
  intro n' v' hl hd
  simp only at hd
  rw [dget_dset] at hd
  split at hd
  · rename_i e
    subst e
    cases hd
    exact ho hl
  · exact h n' v' hl hd

theorem GoodDir.put {conv : Conv} {W : List (String × Val)} {dir : Dir} (h : GoodDir conv W dir) {k : String} {v : Val}
    {t : String} (now : Nat) (hin : (k, v) ∈ W) (hs : conv.ser v = .ok t) :
    GoodDir conv W (dset dir (quotePlus k) ⟨t, now⟩) := by
  intro n' f hl hd
  rw [dget_dset] at hd
  split at hd
  · rename_i e
    cases hd
    exact ⟨k, v, hin, e, hs⟩
  · exact h n' f hl hd

theorem good_set {conv : Conv} {W : List (String × Val)} {i : Inst} {dir : Dir} (h : Good conv W i dir) (now : Nat)
    {k : String} {v : Val} (hin : (k, v) ∈ W) (hs : ∃ t, conv.ser v = .ok t) :
    Good conv W (fsSet conv now k v i dir).inst (fsSet conv now k v i dir).dir := by
  obtain ⟨t, hs⟩ := hs
  unfold fsSet
  rcases acquire_cases now dir (quotePlus k) with ha | ⟨ha, _⟩
  · rw [ha]
    simp only
    split
    · exact ⟨h.1, h.2.lock _ _⟩
    · rw [hs]
      exact ⟨h.1.put _ (fun _ => ⟨k, v, hin, rfl, .inl rfl⟩), (h.2.lock _ _).put now hin hs⟩
  · rw [ha]; exact h

theorem good_update {conv : Conv} {W : List (String × Val)} (now : Nat) (ava : List (String × Val)) :
    ∀ {i : Inst} {dir : Dir}, Good conv W i dir → (∀ p ∈ ava, p ∈ W ∧ ∃ t, conv.ser p.2 = .ok t) →
    Good conv W (fsUpdate conv now ava i dir).inst (fsUpdate conv now ava i dir).dir := by
  induction ava with
  | nil => intro i dir h _; exact h
  | cons p rest ih =>
    obtain ⟨k, v⟩ := p
    intro i dir h hp
    have h1 := good_set h now (hp (k, v) (by simp)).1 (hp (k, v) (by simp)).2
    simp only [fsUpdate]
    revert h1
    generalize fsSet conv now k v i dir = o
    obtain ⟨r, i', dir'⟩ := o
    intro h1
    cases r with
    | error e => exact h1
    | ok u => exact ih h1 (fun q hq => hp q (by simp [hq]))

/-- reading the file of a name -/
theorem good_readInfo {conv : Conv} {W : List (String × Val)} {dir : Dir} (h : GoodDir conv W dir) (now : Nat) (n : String)
    {f : File} (hf : dget dir n = some f) :
    GoodDir conv W (readInfo conv now dir n).2 ∧
    ∀ v, (readInfo conv now dir n).1 = .ok v → isLock n = false → Origin conv W n v := by
  unfold readInfo
  rw [hf]
  rcases acquire_cases now dir n with ha | ⟨ha, _⟩
  · simp only [ha]
    refine ⟨h.lock _ _, fun v hv hl => ?_⟩
    obtain ⟨k, v', h1, h2, h3⟩ := h n f hl hf
    exact ⟨k, v', h1, h2, .inr ⟨_, h3, hv⟩⟩
  · simp only [ha]
    exact ⟨h, fun v hv => by simp at hv⟩

theorem good_refresh {conv : Conv} {W : List (String × Val)} {i : Inst} {dir : Dir} (h : Good conv W i dir) (now : Nat)
    (n : String) {f : File} (hf : dget dir n = some f) :
    Good conv W (refresh conv now n i dir).inst (refresh conv now n i dir).dir := by
  obtain ⟨h1, h2⟩ := good_readInfo h.2 now n hf
  unfold refresh
  revert h1 h2
  generalize readInfo conv now dir n = r
  obtain ⟨r, dir'⟩ := r
  intro h1 h2
  cases r with
  | error e => exact ⟨h.1, h1⟩
  | ok v => exact ⟨h.1.put _ (h2 v rfl), h1⟩

theorem isChanged_cache (i : Inst) (dir : Dir) (n : String) : (isChanged i dir n).2.cache = i.cache := by
  unfold isChanged
  cases dget dir n with
  | none => rfl
  | some f =>
    cases dget i.fmtime n with
    | none => rfl
    | some t => simp only; split <;> rfl

theorem good_refreshChanged {conv : Conv} {W : List (String × Val)} {i : Inst} {dir : Dir} (h : Good conv W i dir)
    (now : Nat) (n : String) :
    Good conv W (refreshChanged conv now n i dir).inst (refreshChanged conv now n i dir).dir := by
  have hc := isChanged_cache i dir n
  cases hf : dget dir n with
  | none => simp only [refreshChanged, isChanged, hf]; exact h
  | some f =>
    unfold refreshChanged
    revert hc
    generalize isChanged i dir n = r
    obtain ⟨r, i'⟩ := r
    intro hc
    simp only at hc
    have h' : Good conv W i' dir := ⟨fun n v hl hd => h.1 n v hl (by rw [← hc]; exact hd), h.2⟩
    cases r with
    | error e => exact h'
    | ok b =>
      cases b with
      | false => exact h'
      | true => exact good_refresh h' now n hf

theorem good_get {conv : Conv} {W : List (String × Val)} {i : Inst} {dir : Dir} (h : Good conv W i dir)
    (now : Nat) (k : String) :
    Good conv W (fsGet conv now k i dir).inst (fsGet conv now k i dir).dir ∧
    ∀ v, (fsGet conv now k i dir).res = .ok v → ¬ Reserved k → Origin conv W (quotePlus k) v := by
  have h1 := good_refreshChanged h now (quotePlus k)
  unfold fsGet
  revert h1
  generalize refreshChanged conv now (quotePlus k) i dir = o
  obtain ⟨r, i', dir'⟩ := o
  intro h1
  cases r with
  | error e => exact ⟨h1, fun v hv => by simp at hv⟩
  | ok u =>
    refine ⟨h1, fun v hv hr => ?_⟩
    simp only [fromCache] at hv
    cases hc : dget i'.cache (quotePlus k) with
    | none => rw [hc] at hv; simp at hv
    | some v' =>
      rw [hc] at hv
      cases hv
      exact h1.1 _ _ (not_lock hr) hc

theorem good_synchAll {conv : Conv} {W : List (String × Val)} (now : Nat) (ns : List String) :
    ∀ {i : Inst} {dir : Dir}, Good conv W i dir →
    Good conv W (synchAll conv now ns i dir).inst (synchAll conv now ns i dir).dir := by
  induction ns with
  | nil => intro i dir h; exact h
  | cons n ns ih =>
    intro i dir h
    have h1 : Good conv W (synchOne conv now n i dir).inst (synchOne conv now n i dir).dir := by
      unfold synchOne
      cases hf : dget dir n with
      | none => exact h
      | some f =>
        simp only
        split
        · exact h
        · split
          · exact good_refreshChanged h now n
          · obtain ⟨h1, h2⟩ := good_readInfo h.2 now n hf
            unfold firstSeen
            revert h1 h2
            generalize readInfo conv now dir n = r
            obtain ⟨r, dir'⟩ := r
            intro h1 h2
            cases r with
            | error e => exact ⟨h.1, h1⟩
            | ok v => exact ⟨h.1.put _ (h2 v rfl), h1⟩
    rw [synchAll]
    revert h1
    generalize synchOne conv now n i dir = o
    obtain ⟨r, i', dir'⟩ := o
    intro h1
    cases r with
    | error e => exact h1
    | ok u => exact ih h1

theorem good_synch {conv : Conv} {W : List (String × Val)} (now : Nat) {i : Inst} {dir : Dir} (h : Good conv W i dir) :
    Good conv W (synch conv now i dir).inst (synch conv now i dir).dir := good_synchAll now _ h

theorem good_del {conv : Conv} {W : List (String × Val)} (now : Nat) (k : String) {i : Inst} {dir : Dir}
    (h : Good conv W i dir) : Good conv W (fsDel now k i dir).inst (fsDel now k i dir).dir := by
  unfold fsDel
  cases resolveRaw k with
  | outside p => exact h
  | notFile => exact ⟨h.1.drop _, h.2⟩
  | inside n =>
    simp only
    split
    · rcases acquire_cases now dir n with ha | ⟨ha, _⟩
      · rw [ha]; exact ⟨h.1.drop _, (h.2.lock _ _).del _⟩
      · rw [ha]; exact h
    · exact ⟨h.1.drop _, h.2⟩

theorem good_delEach {conv : Conv} {W : List (String × Val)} (now : Nat) (ns : List String) :
    ∀ {i : Inst} {dir : Dir}, Good conv W i dir →
    Good conv W (delEach now ns i dir).inst (delEach now ns i dir).dir := by
  induction ns with
  | nil => intro i dir h; exact h
  | cons n ns ih =>
    intro i dir h
    have h1 := good_del now n h
    rw [delEach]
    revert h1
    generalize fsDel now n i dir = o
    obtain ⟨r, i', dir'⟩ := o
    intro h1
    cases r with
    | error e => exact h1
    | ok u => exact ih h1

theorem good_keys {conv : Conv} {W : List (String × Val)} (now : Nat) {i : Inst} {dir : Dir} (h : Good conv W i dir) :
    Good conv W (fsKeys conv now i dir).inst (fsKeys conv now i dir).dir := by
  have h1 := good_synch now h
  unfold fsKeys
  revert h1
  generalize synch conv now i dir = o
  obtain ⟨r, i', dir'⟩ := o
  intro h1
  cases r <;> exact h1

theorem good_items {conv : Conv} {W : List (String × Val)} (now : Nat) {i : Inst} {dir : Dir} (h : Good conv W i dir) :
    Good conv W (fsItems conv now i dir).inst (fsItems conv now i dir).dir := by
  have h1 := good_synch now h
  unfold fsItems
  revert h1
  generalize synch conv now i dir = o
  obtain ⟨r, i', dir'⟩ := o
  intro h1
  cases r <;> exact h1

theorem good_effect {conv : Conv} {W : List (String × Val)} {i : Inst} {dir : Dir} (h : Good conv W i dir) (now : Nat)
    (op : WOp) (hw : ∀ p ∈ op.writes, p ∈ W ∧ ∃ t, conv.ser p.2 = .ok t) :
    Good conv W (wEffect conv now op i dir).1 (wEffect conv now op i dir).2 := by
  cases op with
  | clear => exact good_delEach now _ h
  | reopen => exact good_synch now ⟨fun n v _ hd => by simp at hd, h.2⟩
  | op o =>
    cases o with
    | set k v =>
      have := hw (k, v) (by simp [WOp.writes])
      simp only [wEffect, fsStep]
      exact good_set h now this.1 this.2
    | get k => simp only [wEffect, fsStep]; exact (good_get h now k).1
    | has k => exact h
    | keys => simp only [wEffect, fsStep]; exact good_keys now h
    | items => simp only [wEffect, fsStep]; exact good_items now h
    | len => exact h
    | update ava => simp only [wEffect, fsStep]; exact good_update now ava h hw
    | del k => simp only [wEffect, fsStep]; exact good_del now k h

theorem good_run {conv : Conv} {W : List (String × Val)} (es : List WEvent) :
    ∀ (w : World), (∀ j, Good conv W (w.inst j) w.dir) → (∀ p ∈ writesOf es, p ∈ W ∧ ∃ t, conv.ser p.2 = .ok t) →
    ∀ j, Good conv W ((wRun conv es w).inst j) (wRun conv es w).dir := by
  induction es with
  | nil => intro w h _; exact h
  | cons e rest ih =>
    intro w h hw
    have h1 := good_effect (h e.who) e.now e.op (fun p hp => hw p (by simp [writesOf]; exact .inl hp))
    refine ih _ (fun j => ?_) (fun p hp => hw p (by
      simp only [writesOf, List.flatMap_cons, List.mem_append]; exact .inr hp))
    refine ⟨?_, h1.2⟩
    simp only [wStep]
    split
    · exact h1.1
    · exact (h j).1

/-- the start: an empty directory, nothing cached -/
def emptyWorld : World := ⟨[], fun _ => ⟨[], []⟩⟩

/-- C50, second half: after any interleaving of complete operations (writes, reads, listings, deletions of any keys, clear,
restarts) of any number of instances, at any times, whatever a read of a key returns was written under that very key, or
is what the text of such a value is read as. -/
theorem C50_origin {conv : Conv} (es : List WEvent) (hs : ∀ p ∈ writesOf es, ∃ t, conv.ser p.2 = .ok t) (who now : Nat)
    (k : String) (v : Val) (hr : ¬ Reserved k)
    (h : (fsGet conv now k ((wRun conv es emptyWorld).inst who) (wRun conv es emptyWorld).dir).res = .ok v) :
    ∃ v', (k, v') ∈ writesOf es ∧ (v = v' ∨ ∃ t, conv.ser v' = .ok t ∧ conv.deser (readText t) = .ok v) := by
  have hg := good_run (conv := conv) (W := writesOf es) es emptyWorld
    (fun j => ⟨fun n v _ hd => by simp [emptyWorld] at hd, fun n f _ hd => by simp [emptyWorld] at hd⟩)
    (fun p hp => ⟨hp, hs p hp⟩) who
  obtain ⟨k', v', h1, h2, h3⟩ := (good_get hg now k).2 v h hr
  rw [quotePlus_inj h2] at h1
  exact ⟨v', h1, h3⟩

/-- C50, second half, for values that survive writing: the value read was written under the key. -/
theorem C50_written {conv : Conv} (es : List WEvent) (hs : ∀ p ∈ writesOf es, RoundTrips conv p.2) (who now : Nat)
    (k : String) (v : Val) (hr : ¬ Reserved k)
    (h : (fsGet conv now k ((wRun conv es emptyWorld).inst who) (wRun conv es emptyWorld).dir).res = .ok v) :
    (k, v) ∈ writesOf es := by
  obtain ⟨v', h1, h2⟩ := C50_origin es (fun p hp => by obtain ⟨t, ht, _⟩ := hs p hp; exact ⟨t, ht⟩) who now k v hr h
  rcases h2 with rfl | ⟨t, ht, hd⟩
  · exact h1
  · obtain ⟨t', ht', hd'⟩ := hs _ h1
    simp only at ht' hd'
    rw [ht] at ht'; cases ht'
    rw [hd] at hd'; cases hd'
    exact h1

/-- two instances; the read returns the value of the other one -/
example : let es := [WEvent.mk 0 1 (.op (.set "k" (.int 1))), ⟨1, 2, .op (.set "k" (.int 2))⟩, ⟨0, 3, .op .keys⟩]
    (fsGet jsonConv 4 "k" ((wRun jsonConv es emptyWorld).inst 0) (wRun jsonConv es emptyWorld).dir).res = .ok (.int 2) ∧
    (∀ p ∈ writesOf es, p.2.isJson = true) := by decide +kernel

/-- C50, second half, fails for values that cannot be serialised: the write is refused with a `TypeError`, and then a
read returns the empty text, which nobody wrote. -/
theorem C50_counterexample :
    (fsRun passThru [(1, .set "k" (.int 1)), (2, .get "k")] ⟨[], []⟩ []).1 =
      [.unit (.error .typeError), .val (.ok (.str ""))] := by decide +kernel

/-! ## later writes are seen -/

/-- C50, first half: if the file is newer than what the instance has recorded (or nothing is recorded), reading
returns what is in the file now. -/
theorem C50_newer {conv : Conv} (i : Inst) (dir : Dir) (k : String) (now : Nat) (f : File) (v : Val)
    (hf : dget dir (quotePlus k) = some f) (hn : ∀ t, dget i.fmtime (quotePlus k) = some t → t < f.mtime)
    (hsz : (quotePlus k).utf8ByteSize ≤ 250) (hd : conv.deser (readText f.content) = .ok v) :
    (fsGet conv now k i dir).res = .ok v := by
  have hc : isChanged i dir (quotePlus k) = (.ok true, { i with fmtime := dset i.fmtime (quotePlus k) f.mtime }) := by
    unfold isChanged
    rw [hf]
    cases ht : dget i.fmtime (quotePlus k) with
    | none => rfl
    | some t => simp only; rw [if_pos (hn t ht)]
  simp only [fsGet, refreshChanged, hc, refresh, readInfo, hf, acquire_ok hsz, hd, fromCache, dget_dset_same]

/-- the file of `k` holds `v` since time `T`, and (if it is an instance of concern, `c`) the instance is either older or
has exactly that -/
structure Fresh (conv : Conv) (c : Prop) (k : String) (v : Val) (T : Nat) (i : Inst) (dir : Dir) : Prop where
  file : ∃ t, conv.ser v = .ok t ∧ dget dir (quotePlus k) = some ⟨t, T⟩
  inst : c → (∀ t, dget i.fmtime (quotePlus k) = some t → t < T) ∨
    (dget i.fmtime (quotePlus k) = some T ∧ dget i.cache (quotePlus k) = some v)

/-- operations that do not write or delete `k` -/
def WOp.spares (k : String) : WOp → Prop
  | .op (.set k' _) => k' ≠ k
  | .op (.update ava) => ∀ p ∈ ava, p.1 ≠ k
  | .op (.del k') => k' ≠ quotePlus k ∧ resolveRaw k' ≠ .inside (quotePlus k)
  | .clear => False
  | _ => True

/-- the file is still the same -/
def SameFile (k : String) (dir dir' : Dir) : Prop := dget dir' (quotePlus k) = dget dir (quotePlus k)

theorem sameFile_lock {k : String} (hr : ¬ Reserved k) (dir : Dir) (n : String) (f : File) :
    SameFile k dir (dset dir (lockName n) f) := dget_dset_ne _ _ (lock_ne (not_lock hr))

theorem sameFile_acquire {k : String} (hr : ¬ Reserved k) {now : Nat} {dir dir' : Dir} {n : String}
    (h : acquire now dir n = .ok dir') : SameFile k dir dir' := by
  rcases acquire_cases now dir n with ha | ⟨ha, _⟩
  · rw [ha] at h; cases h; exact sameFile_lock hr _ _ _
  · rw [ha] at h; simp at h

theorem sameFile_readInfo {conv : Conv} {k : String} (hr : ¬ Reserved k) (now : Nat) (dir : Dir) (n : String) :
    SameFile k dir (readInfo conv now dir n).2 := by
  unfold readInfo
  cases dget dir n with
  | none => exact rfl
  | some f =>
    simp only
    cases ha : acquire now dir n with
    | error e => exact rfl
    | ok dir' => exact sameFile_acquire hr ha

theorem fresh_refreshChanged {conv : Conv} {c : Prop} {k : String} {v : Val} {T : Nat} {i : Inst} {dir : Dir}
    (hr : ¬ Reserved k) (hu : Usable k) (hv : RoundTrips conv v) (h : Fresh conv c k v T i dir) (now : Nat) (n : String) :
    Fresh conv c k v T (refreshChanged conv now n i dir).inst (refreshChanged conv now n i dir).dir := by
  obtain ⟨t, ht, hf⟩ := h.file
  obtain ⟨t', ht', hd⟩ := hv
  rw [ht] at ht'; cases ht'
  have hsame : SameFile k dir (refreshChanged conv now n i dir).dir := by
    unfold refreshChanged
    generalize isChanged i dir n = r
    obtain ⟨r, i'⟩ := r
    cases r with
    | error e => exact rfl
    | ok b =>
      cases b with
      | false => exact rfl
      | true =>
        simp only [refresh]
        have := sameFile_readInfo (conv := conv) hr now dir n
        revert this
        generalize readInfo conv now dir n = q
        obtain ⟨q, dir'⟩ := q
        cases q <;> exact fun h => h
  refine ⟨⟨t, ht, by rw [hsame]; exact hf⟩, ?_⟩
  by_cases e : n = quotePlus k
  · subst e
    intro hc
    right
    rcases h.inst hc with hi | hi
    · have hc : isChanged i dir (quotePlus k) = (.ok true, { i with fmtime := dset i.fmtime (quotePlus k) T }) := by
        unfold isChanged
        rw [hf]
        cases hm : dget i.fmtime (quotePlus k) with
        | none => rfl
        | some s => simp only; rw [if_pos (hi s hm)]
      simp only [refreshChanged, hc, refresh, readInfo, hf, acquire_ok hu.2.2.2, hd, dget_dset_same]
      exact ⟨trivial, trivial⟩
    · have hc : isChanged i dir (quotePlus k) = (.ok false, i) := by
        unfold isChanged
        rw [hf, hi.1]
        simp
      simp only [refreshChanged, hc]
      exact hi
  · have hfm : dget (refreshChanged conv now n i dir).inst.fmtime (quotePlus k) = dget i.fmtime (quotePlus k) ∧
        dget (refreshChanged conv now n i dir).inst.cache (quotePlus k) = dget i.cache (quotePlus k) := by
      have hic : dget (isChanged i dir n).2.fmtime (quotePlus k) = dget i.fmtime (quotePlus k) ∧
          (isChanged i dir n).2.cache = i.cache := by
        refine ⟨?_, isChanged_cache i dir n⟩
        unfold isChanged
        cases dget dir n with
        | none => rfl
        | some g =>
          simp only
          cases dget i.fmtime n with
          | none => exact dget_dset_ne _ _ e
          | some s =>
            simp only
            split
            · exact dget_dset_ne _ _ e
            · rfl
      unfold refreshChanged
      revert hic
      generalize isChanged i dir n = r
      obtain ⟨r, i'⟩ := r
      rintro ⟨h1, h2⟩
      simp only at h1 h2
      cases r with
      | error e => exact ⟨h1, by rw [h2]⟩
      | ok b =>
        cases b with
        | false => exact ⟨h1, by rw [h2]⟩
        | true =>
          simp only [refresh]
          generalize readInfo conv now dir n = q
          obtain ⟨q, dir'⟩ := q
          cases q with
          | error e => exact ⟨h1, by rw [h2]⟩
          | ok x =>
            simp only
            rw [dget_dset_ne _ _ e]
            exact ⟨h1, by rw [h2]⟩
    rw [hfm.1, hfm.2]
    exact h.inst

theorem fresh_synchAll {conv : Conv} {c : Prop} {k : String} {v : Val} {T : Nat}
    (hr : ¬ Reserved k) (hu : Usable k) (hv : RoundTrips conv v) (now : Nat) (ns : List String) :
    ∀ {i : Inst} {dir : Dir}, Fresh conv c k v T i dir →
    Fresh conv c k v T (synchAll conv now ns i dir).inst (synchAll conv now ns i dir).dir := by
  induction ns with
  | nil => intro i dir h; exact h
  | cons n ns ih =>
    intro i dir h
    have h1 : Fresh conv c k v T (synchOne conv now n i dir).inst (synchOne conv now n i dir).dir := by
      unfold synchOne
      cases hf : dget dir n with
      | none => exact h
      | some f =>
        simp only
        split
        · exact h
        · split
          · exact fresh_refreshChanged hr hu hv h now n
          · obtain ⟨t, ht, hfile⟩ := h.file
            obtain ⟨t', ht', hd⟩ := hv
            rw [ht] at ht'; cases ht'
            by_cases e : n = quotePlus k
            · subst e
              rw [hfile] at hf; cases hf
              simp only [firstSeen, readInfo, hfile, acquire_ok hu.2.2.2, hd]
              refine ⟨⟨t, ht, ?_⟩, fun _ => .inr ⟨by simp [dget_dset_same], by simp [dget_dset_same]⟩⟩
              rw [sameFile_lock hr]; exact hfile
            · have hs := sameFile_readInfo (conv := conv) hr now dir n
              unfold firstSeen
              revert hs
              generalize readInfo conv now dir n = q
              obtain ⟨q, dir'⟩ := q
              intro hs
              simp only at hs
              cases q with
              | error e => exact ⟨⟨t, ht, by rw [hs]; exact hfile⟩, h.inst⟩
              | ok x =>
                refine ⟨⟨t, ht, by simp only; rw [hs]; exact hfile⟩, ?_⟩
                simp only
                rw [dget_dset_ne _ _ e, dget_dset_ne _ _ e]
                exact h.inst
    rw [synchAll]
    revert h1
    generalize synchOne conv now n i dir = o
    obtain ⟨r, i', dir'⟩ := o
    intro h1
    cases r with
    | error e => exact h1
    | ok u => exact ih h1

theorem fresh_set {conv : Conv} {c : Prop} {k : String} {v : Val} {T : Nat} {i : Inst} {dir : Dir}
    (hr : ¬ Reserved k) (h : Fresh conv c k v T i dir) (now : Nat) (k' : String) (v' : Val) (hne : k' ≠ k) :
    Fresh conv c k v T (fsSet conv now k' v' i dir).inst (fsSet conv now k' v' i dir).dir := by
  obtain ⟨t, ht, hf⟩ := h.file
  have hq : quotePlus k' ≠ quotePlus k := fun e => hne (quotePlus_inj e)
  unfold fsSet
  cases ha : acquire now dir (quotePlus k') with
  | error e => exact h
  | ok dir1 =>
    have hs := sameFile_acquire hr ha
    simp only
    split
    · exact ⟨⟨t, ht, by simp only; rw [hs]; exact hf⟩, h.inst⟩
    · cases conv.ser v' with
      | error e =>
        refine ⟨⟨t, ht, ?_⟩, h.inst⟩
        simp only
        rw [dget_dset_ne _ _ hq, hs]; exact hf
      | ok s =>
        refine ⟨⟨t, ht, ?_⟩, ?_⟩
        · simp only
          rw [dget_dset_ne _ _ hq, hs]; exact hf
        · simp only
          rw [dget_dset_ne _ _ hq, dget_dset_ne _ _ hq]
          exact h.inst

theorem fresh_update {conv : Conv} {c : Prop} {k : String} {v : Val} {T : Nat} (hr : ¬ Reserved k) (now : Nat)
    (ava : List (String × Val)) : ∀ {i : Inst} {dir : Dir}, Fresh conv c k v T i dir → (∀ p ∈ ava, p.1 ≠ k) →
    Fresh conv c k v T (fsUpdate conv now ava i dir).inst (fsUpdate conv now ava i dir).dir := by
  induction ava with
  | nil => intro i dir h _; exact h
  | cons p rest ih =>
    obtain ⟨k', v'⟩ := p
    intro i dir h hp
    have h1 := fresh_set hr h now k' v' (hp (k', v') (by simp))
    simp only [fsUpdate]
    revert h1
    generalize fsSet conv now k' v' i dir = o
    obtain ⟨r, i', dir'⟩ := o
    intro h1
    cases r with
    | error e => exact h1
    | ok u => exact ih h1 (fun q hq => hp q (by simp [hq]))

theorem fresh_del {conv : Conv} {c : Prop} {k : String} {v : Val} {T : Nat} {i : Inst} {dir : Dir} (hr : ¬ Reserved k)
    (h : Fresh conv c k v T i dir) (now : Nat) (k' : String) (hne : k' ≠ quotePlus k)
    (hn : resolveRaw k' ≠ .inside (quotePlus k)) :
    Fresh conv c k v T (fsDel now k' i dir).inst (fsDel now k' i dir).dir := by
  obtain ⟨t, ht, hf⟩ := h.file
  have hdrop : ∀ dir', dget dir' (quotePlus k) = some ⟨t, T⟩ → Fresh conv c k v T (dropCache k' i) dir' := by
    intro dir' hd
    refine ⟨⟨t, ht, hd⟩, ?_⟩
    simp only [dropCache]
    rw [dget_ddel_ne _ hne]
    exact h.inst
  unfold fsDel
  cases hres : resolveRaw k' with
  | outside p => exact h
  | notFile => exact hdrop _ hf
  | inside n =>
    simp only
    split
    · cases ha : acquire now dir n with
      | error e => exact h
      | ok dir1 =>
        have hs := sameFile_acquire hr ha
        refine hdrop _ ?_
        rw [dget_ddel_ne _ (by rintro rfl; exact hn hres), hs]
        exact hf
    · exact hdrop _ hf

/-- the instance that acts -/
theorem fresh_effect {conv : Conv} {c : Prop} {k : String} {v : Val} {T : Nat} {i : Inst} {dir : Dir}
    (hr : ¬ Reserved k) (hu : Usable k) (hv : RoundTrips conv v) (h : Fresh conv c k v T i dir) (now : Nat) (op : WOp)
    (ho : op.spares k) : Fresh conv c k v T (wEffect conv now op i dir).1 (wEffect conv now op i dir).2 := by
  have hsynch : ∀ {j : Inst}, Fresh conv c k v T j dir →
      Fresh conv c k v T (synch conv now j dir).inst (synch conv now j dir).dir :=
    fun h => fresh_synchAll hr hu hv now _ h
  cases op with
  | clear => exact absurd ho (by simp [WOp.spares])
  | reopen => exact hsynch ⟨h.file, fun _ => .inl (fun t ht => by simp at ht)⟩
  | op o =>
    cases o with
    | set k' v' => simp only [wEffect, fsStep]; exact fresh_set hr h now k' v' ho
    | get k' =>
      have h1 := fresh_refreshChanged hr hu hv h now (quotePlus k')
      simp only [wEffect, fsStep, fsGet]
      revert h1
      generalize refreshChanged conv now (quotePlus k') i dir = o
      obtain ⟨r, i', dir'⟩ := o
      cases r <;> exact fun h => h
    | has k' => exact h
    | keys =>
      have h1 := hsynch h
      simp only [wEffect, fsStep, fsKeys]
      revert h1
      generalize synch conv now i dir = o
      obtain ⟨r, i', dir'⟩ := o
      cases r <;> exact fun h => h
    | items =>
      have h1 := hsynch h
      simp only [wEffect, fsStep, fsItems]
      revert h1
      generalize synch conv now i dir = o
      obtain ⟨r, i', dir'⟩ := o
      cases r <;> exact fun h => h
    | len => exact h
    | update ava => simp only [wEffect, fsStep]; exact fresh_update hr now ava h ho
    | del k' => simp only [wEffect, fsStep]; exact fresh_del hr h now k' ho.1 ho.2

/-- a run in which nobody writes or deletes `k` -/
theorem fresh_run {conv : Conv} {c : Prop} {k : String} {v : Val} {T : Nat} (hr : ¬ Reserved k) (hu : Usable k)
    (hv : RoundTrips conv v) (es : List WEvent) (j : Nat) :
    ∀ (w : World), Fresh conv c k v T (w.inst j) w.dir → (∀ e ∈ es, e.op.spares k) →
    Fresh conv c k v T ((wRun conv es w).inst j) (wRun conv es w).dir := by
  induction es with
  | nil => intro w h _; exact h
  | cons e rest ih =>
    intro w h hs
    refine ih _ ?_ (fun x hx => hs x (by simp [hx]))
    have hse := hs e (by simp)
    by_cases hw : j = e.who
    · subst hw
      have := fresh_effect hr hu hv h e.now e.op hse
      simpa [wStep] using this
    · have hfile := (fresh_effect (c := False) (i := w.inst e.who) hr hu hv ⟨h.file, fun x => x.elim⟩ e.now e.op hse).file
      refine ⟨hfile, fun hc => ?_⟩
      simp only [wStep, if_neg hw]
      exact h.inst hc

/-- C50, first half, over histories: another instance writes `k` at a time later than this instance has recorded for it;
then, after any operations of any instances except writing or deleting `k` and `clear`, this instance reads the new
value. -/
theorem C50_sees {conv : Conv} (w : World) (k : String) (v : Val) (T writer reader now : Nat) (es : List WEvent)
    (hr : ¬ Reserved k) (hu : Usable k) (hv : RoundTrips conv v) (hne : reader ≠ writer)
    (hT : ∀ t, dget (w.inst reader).fmtime (quotePlus k) = some t → t < T) (hs : ∀ e ∈ es, e.op.spares k) :
    let w' := wRun conv es (wStep conv writer T (.op (.set k v)) w)
    (fsGet conv now k (w'.inst reader) w'.dir).res = .ok v := by
  intro w'
  obtain ⟨t, ht, hd⟩ := hv
  have hset : (fsSet conv T k v (w.inst writer) w.dir) = ⟨.ok (),
      ⟨dset (w.inst writer).cache (quotePlus k) v, dset (w.inst writer).fmtime (quotePlus k) T⟩,
      dset (dset w.dir (lockName (quotePlus k)) ⟨"", T⟩) (quotePlus k) ⟨t, T⟩⟩ := by
    simp only [fsSet, acquire_ok hu.2.2.2, usable_not_dirName hu, Bool.false_eq_true, if_false, ht]
  have hf : Fresh conv True k v T (w'.inst reader) w'.dir := by
    refine fresh_run hr hu ⟨t, ht, hd⟩ es reader _ ?_ hs
    refine ⟨⟨t, ht, ?_⟩, fun _ => .inl ?_⟩
    · simp only [wStep, wEffect, fsStep, hset, dget_dset_same]
    · simp only [wStep, if_neg hne]
      exact hT
  obtain ⟨t', ht', hfile⟩ := hf.file
  rw [ht] at ht'; cases ht'
  rcases hf.inst trivial with h | ⟨h1, h2⟩
  · exact C50_newer _ _ k now ⟨t, T⟩ v hfile h hu.2.2.2 hd
  · simp only [fsGet, refreshChanged, isChanged, hfile, h1, gt_iff_lt, Nat.lt_irrefl, if_false, fromCache, h2]

example : let w := wRun jsonConv [⟨0, 1, .op (.set "k" (.int 1))⟩] emptyWorld
    dget (w.inst 0).fmtime "k" = some 1 ∧ (WOp.op (.set "l" (.int 3))).spares "k" ∧
    (let w' := wRun jsonConv [⟨1, 5, .op (.set "l" (.int 3))⟩, ⟨0, 6, .op .keys⟩]
        (wStep jsonConv 1 2 (.op (.set "k" (.int 2))) w)
     (fsGet jsonConv 9 "k" (w'.inst 0) w'.dir).res = .ok (.int 2)) := by
  refine ⟨by decide +kernel, by simp [WOp.spares], by decide +kernel⟩

/-- The condition on the times is needed: two writes with the same modification time, and the first writer goes on
reading its own value for ever, whatever others do as long as they do not write `k` again. -/
theorem C50_stale {conv : Conv} (i : Inst) (dir : Dir) (k : String) (now : Nat) (f : File) (t : Nat) (v : Val)
    (hf : dget dir (quotePlus k) = some f) (ht : dget i.fmtime (quotePlus k) = some t) (hle : f.mtime ≤ t)
    (hc : dget i.cache (quotePlus k) = some v) : fsGet conv now k i dir = ⟨.ok v, i, dir⟩ := by
  have : ¬ f.mtime > t := by omega
  simp only [fsGet, refreshChanged, isChanged, hf, ht, if_neg this, fromCache, hc]

example : let w := wRun jsonConv [⟨0, 1, .op (.set "k" (.int 1))⟩, ⟨1, 1, .op (.set "k" (.int 2))⟩] emptyWorld
    (fsGet jsonConv 9 "k" (w.inst 0) w.dir).res = .ok (.int 1) ∧
    (fsGet jsonConv 9 "k" (w.inst 1) w.dir).res = .ok (.int 2) := by decide +kernel

/-- A deletion by another instance is only half seen: reading raises, but containment and the listing still have the
key. -/
theorem C50_deleted_counterexample :
    let w := wRun jsonConv [⟨0, 1, .op (.set "k" (.int 1))⟩, ⟨1, 2, .op (.del "k")⟩] emptyWorld
    (fsGet jsonConv 9 "k" (w.inst 0) w.dir).res = .error .keyError ∧ fsContains "k" (w.inst 0) = true ∧
    (fsKeys jsonConv 9 (w.inst 0) w.dir).res = .ok ["k"] ∧ fsLen w.dir = 0 := by decide +kernel

end Verif
