import Verif.Props.Labeled

/-!
# Several labelled file storages over one directory, and their histories: C60, C85
-/

namespace Verif

/-- the operations of a labelled storage; `reopen` is a new object for the same directory and label -/
inductive LabOp where
  | op (o : FsOp)
  | reopen

/-- one operation; `lab` is the attribute `label` of the object -/
def labStep (conv : Conv) (lab : String) (now : Nat) (op : LabOp) (i : Inst) (dir : Dir) : FsAns × Inst × Dir :=
  match op with
  | .op (.set k v) => let o := labSet conv lab now k v i dir; (.unit o.res, o.inst, o.dir)
  | .op (.get k) => let o := labGet conv lab now k i dir; (.val o.res, o.inst, o.dir)
  | .op (.has k) => (.has (labContains lab k i), i, dir)
  | .op .keys => let o := labKeys conv lab now i dir; (.keys o.res, o.inst, o.dir)
  | .op .items => let o := labItems conv lab now i dir; (.items o.res, o.inst, o.dir)
  | .op .len => (.len (labLen lab dir), i, dir)
  | .op (.update _) => let o := labUpdate "" i dir; (.unit o.res, o.inst, o.dir)
  | .op (.del k) => let o := labDel lab now k i dir; (.unit o.res, o.inst, o.dir)
  | .reopen => let o := fsOpen conv now dir; (.unit o.res, o.inst, o.dir)

/-- one labelled storage alone: the answers -/
def labRun (conv : Conv) (lab : String) : List (Nat × LabOp) → Inst → Dir → List FsAns
  | [], _, _ => []
  | (now, op) :: rest, i, dir =>
    let s := labStep conv lab now op i dir
    s.1 :: labRun conv lab rest s.2.1 s.2.2

structure LabEvent where
  who : Nat
  now : Nat
  op : LabOp

/-- Storage number `e.who`, with the label `L e.who`, does an operation. -/
def lwStep (conv : Conv) (L : Nat → String) (e : LabEvent) (w : World) : FsAns × World :=
  let s := labStep conv (labelOf (L e.who)) e.now e.op (w.inst e.who) w.dir
  (s.1, ⟨s.2.2, fun j => if j = e.who then s.2.1 else w.inst j⟩)

/-- the answers, with the number of the storage -/
def lwRun (conv : Conv) (L : Nat → String) : List LabEvent → World → List (Nat × FsAns)
  | [], _ => []
  | e :: rest, w =>
    let s := lwStep conv L e w
    (e.who, s.1) :: lwRun conv L rest s.2

/-- the answers storage `j` gets -/
def answersOf (j : Nat) (as : List (Nat × FsAns)) : List FsAns := (as.filter (fun a => a.1 = j)).map (·.2)

/-- the operations of storage `j` -/
def eventsOf (j : Nat) (es : List LabEvent) : List (Nat × LabOp) :=
  (es.filter (fun e => e.who = j)).map (fun e => (e.now, e.op))

/-- the keys are not reserved for lock files -/
def LabOp.Plain : LabOp → Prop
  | .op (.set k _) => ¬ Reserved k
  | .op (.get k) => ¬ Reserved k
  | .op (.has k) => ¬ Reserved k
  | .op (.del k) => ¬ Reserved k
  | _ => True

/-- what is stored can be read -/
def LabOp.Readable (conv : Conv) : LabOp → Prop
  | .op (.set _ v) => ∃ t v', conv.ser v = .ok t ∧ conv.deser (readText t) = .ok v'
  | _ => True

/-! ## the names of a label -/

/-- the data files of a label -/
def owned (l : String) (n : String) : Bool := startsWith (labelOf l) n && !isLock n

theorem owned_lock (l n : String) : owned l (lockName n) = false := by simp [owned, isLock_lockName]

theorem owned_key {l : String} (hl : l ≠ "") (hs : SafeText l) {k : String} (hk : ¬ Reserved k) :
    owned l (quotePlus (labelOf l ++ k)) = true := by
  rw [owned, startsWith_quote (safe_labelOf hs), startsWith_append,
    not_lock (mt (reserved_label hl k).1 hk)]
  rfl

theorem owned_raw {l : String} (hl : l ≠ "") {k : String} (hk : ¬ Reserved k) : owned l (labelOf l ++ k) = true := by
  have : isLock (labelOf l ++ k) = false := by
    rw [Bool.eq_false_iff, Ne, isLock_iff]
    exact mt (reserved_label hl k).1 hk
  rw [owned, startsWith_append, this]
  rfl

theorem not_owned_key {l l' : String} (h : Apart l l') (hs : SafeText l) (k : String) :
    owned l (quotePlus (labelOf l' ++ k)) = false := by
  rw [owned, startsWith_quote (safe_labelOf hs), h.starts]; rfl

theorem not_owned_raw {l l' : String} (h : Apart l l') (k : String) : owned l (labelOf l' ++ k) = false := by
  rw [owned, h.starts]; rfl

/-! ## all names are encoded keys -/

def QName (n : String) : Prop := ∃ k, n = quotePlus k

theorem QName.lock {n : String} (h : QName n) : QName (lockName n) := by
  obtain ⟨k, rfl⟩ := h
  exact ⟨k ++ ".lock", (C54_counterexample k).1.symm⟩

def DirQ (dir : Dir) : Prop := ∀ n ∈ dkeys dir, QName n

def CacheQ (i : Inst) : Prop := ∀ n ∈ dkeys i.cache, isLock n = false ∧ QName n

theorem DirQ.set {dir : Dir} (h : DirQ dir) {n : String} (hn : QName n) (f : File) : DirQ (dset dir n f) := by
  intro n' hn'
  rcases (mem_dkeys_dset ..).1 hn' with rfl | h'
  · exact hn
  · exact h n' h'

theorem DirQ.del {dir : Dir} (h : DirQ dir) (n : String) : DirQ (ddel dir n) := by
  intro n' hn'
  rw [dkeys_ddel] at hn'
  exact h n' (List.mem_filter.1 hn').1

theorem DirQ.get {dir : Dir} (h : DirQ dir) {n : String} {f : File} (hd : dget dir n = some f) : QName n :=
  h n (by rw [← dhas_iff, dhas, hd]; rfl)

theorem CacheQ.set {i : Inst} (h : CacheQ i) {n : String} (hl : isLock n = false) (hn : QName n) (v : Val)
    (fm : Assoc Nat) : CacheQ ⟨dset i.cache n v, fm⟩ := by
  intro n' hn'
  rcases (mem_dkeys_dset ..).1 hn' with rfl | h'
  · exact ⟨hl, hn⟩
  · exact h n' h'

theorem CacheQ.drop {i : Inst} (h : CacheQ i) (n : String) : CacheQ (dropCache n i) := by
  intro n' hn'
  simp only [dropCache] at hn'
  rw [dkeys_ddel] at hn'
  exact h n' (List.mem_filter.1 hn').1

theorem refreshChanged_q (conv : Conv) (now : Nat) {n : String} {i : Inst} {dir : Dir} (hl : isLock n = false)
    (hn : QName n) (hi : CacheQ i) : CacheQ (refreshChanged conv now n i dir).inst := by
  unfold refreshChanged isChanged
  cases dget dir n with
  | none => exact hi
  | some f =>
    have key : ∀ fm, CacheQ (refresh conv now n ⟨i.cache, fm⟩ dir).inst := by
      intro fm
      unfold refresh
      generalize readInfo conv now dir n = r
      obtain ⟨r, d⟩ := r
      cases r with
      | error e => exact hi
      | ok v => exact hi.set hl hn v _
    simp only
    cases dget i.fmtime n with
    | none => exact key _
    | some t =>
      simp only
      by_cases ht : f.mtime > t
      · simp only [if_pos ht]; exact key _
      · simp only [if_neg ht]; exact hi

theorem fsGetD_q (conv : Conv) (now : Nat) {k : String} {i : Inst} {dir : Dir} (hk : ¬ Reserved k) (hi : CacheQ i) :
    CacheQ (fsGetD conv now k i dir).inst := by
  have := refreshChanged_q conv now (dir := dir) (not_lock hk) ⟨k, rfl⟩ hi
  unfold fsGetD fsGet
  generalize refreshChanged conv now (quotePlus k) i dir = o at *
  obtain ⟨r, j, d⟩ := o
  cases r with
  | error e => cases e <;> exact this
  | ok u =>
    simp only [fromCache]
    cases dget j.cache (quotePlus k) <;> exact this

theorem synchOne_q (conv : Conv) (now : Nat) {n : String} {i : Inst} {dir : Dir} (hd : DirQ dir) (hi : CacheQ i) :
    DirQ (synchOne conv now n i dir).dir ∧ CacheQ (synchOne conv now n i dir).inst := by
  cases hg : dget dir n with
  | none => simp only [synchOne, hg]; exact ⟨hd, hi⟩
  | some f =>
    have hn := hd.get hg
    constructor
    · rcases synchOne_dir conv now n i dir with e | e <;> rw [e]
      · exact hd
      · exact hd.set hn.lock _
    · simp only [synchOne, hg]
      cases hl : isLock n with
      | true => exact hi
      | false =>
        simp only [Bool.false_eq_true, if_false]
        split
        · exact refreshChanged_q conv now hl hn hi
        · unfold firstSeen
          generalize readInfo conv now dir n = r
          obtain ⟨r, d⟩ := r
          cases r with
          | error e => exact hi
          | ok v => exact hi.set hl hn v _

theorem synchAll_q (conv : Conv) (now : Nat) : ∀ (ns : List String) (i : Inst) (dir : Dir), DirQ dir → CacheQ i →
    DirQ (synchAll conv now ns i dir).dir ∧ CacheQ (synchAll conv now ns i dir).inst := by
  intro ns
  induction ns with
  | nil => intro i dir h1 h2; exact ⟨h1, h2⟩
  | cons n ns ih =>
    intro i dir h1 h2
    have := synchOne_q conv now (n := n) h1 h2
    unfold synchAll
    generalize synchOne conv now n i dir = o at *
    obtain ⟨r, j, d⟩ := o
    cases r with
    | error e => exact this
    | ok u => exact ih j d this.1 this.2

/-- The directory keeps encoded names, whatever any labelled storage does: the instance need not be of this kind. -/
theorem synchAll_qd (conv : Conv) (now : Nat) : ∀ (ns : List String) (i : Inst) (dir : Dir), DirQ dir →
    DirQ (synchAll conv now ns i dir).dir := by
  intro ns
  induction ns with
  | nil => intro i dir h; exact h
  | cons n ns ih =>
    intro i dir h
    have h1 : DirQ (synchOne conv now n i dir).dir := by
      cases hg : dget dir n with
      | none => simp only [synchOne, hg]; exact h
      | some f =>
        rcases synchOne_dir conv now n i dir with e | e <;> rw [e]
        · exact h
        · exact h.set (h.get hg).lock _
    unfold synchAll
    generalize synchOne conv now n i dir = o at *
    obtain ⟨r, j, d⟩ := o
    cases r with
    | error e => exact h1
    | ok u => exact ih j d h1

/-! ## what a labelled storage lists -/

theorem keys_owned {l : String} (hs : SafeText l) {i : Inst} (hi : CacheQ i) :
    ((dkeys i.cache).map unquotePlus).filter (startsWith (labelOf l)) =
    (dkeys (restrict (owned l) i.cache)).map unquotePlus := by
  rw [dkeys_restrict, List.filter_map]
  congr 1
  apply List.filter_congr
  intro n hn
  obtain ⟨h1, k, rfl⟩ := hi n hn
  simp only [Function.comp, unquotePlus_quotePlus, owned, startsWith_quote (safe_labelOf hs), h1]
  simp

theorem items_owned {l : String} (hs : SafeText l) {i : Inst} (hi : CacheQ i) :
    (i.cache.map (fun p => (unquotePlus p.1, p.2))).filter (fun p => startsWith (labelOf l) p.1) =
    (restrict (owned l) i.cache).map (fun p => (unquotePlus p.1, p.2)) := by
  rw [restrict, List.filter_map]
  congr 1
  apply List.filter_congr
  intro q hq
  obtain ⟨h1, k, e⟩ := hi q.1 (List.mem_map_of_mem hq)
  simp only [Function.comp, e, unquotePlus_quotePlus, owned, startsWith_quote (safe_labelOf hs)]
  rw [← e, h1]
  simp

theorem labKeys_eq {conv : Conv} {l : String} (hs : SafeText l) (now : Nat) {i : Inst} {dir : Dir}
    (hd : DirQ dir) (hi : CacheQ i) :
    labKeys conv (labelOf l) now i dir =
      ⟨(synch conv now i dir).res.map (fun _ =>
        ((dkeys (restrict (owned l) (synch conv now i dir).inst.cache)).map unquotePlus).map (dropLabel (labelOf l))),
       (synch conv now i dir).inst, (synch conv now i dir).dir⟩ := by
  have := (synchAll_q conv now (dkeys dir) i dir hd hi).2
  unfold labKeys fsKeys
  have e : synch conv now i dir = synchAll conv now (dkeys dir) i dir := rfl
  rw [← e] at this
  generalize synch conv now i dir = o at *
  obtain ⟨r, j, d⟩ := o
  cases r with
  | error e => rfl
  | ok u => simp only [keys_owned hs this]; rfl

theorem labItems_eq {conv : Conv} {l : String} (hs : SafeText l) (now : Nat) {i : Inst} {dir : Dir}
    (hd : DirQ dir) (hi : CacheQ i) :
    labItems conv (labelOf l) now i dir =
      ⟨(synch conv now i dir).res.map (fun _ =>
        ((restrict (owned l) (synch conv now i dir).inst.cache).map (fun p => (unquotePlus p.1, p.2))).map
          (fun p => (dropLabel (labelOf l) p.1, p.2))),
       (synch conv now i dir).inst, (synch conv now i dir).dir⟩ := by
  have := (synchAll_q conv now (dkeys dir) i dir hd hi).2
  unfold labItems fsItems
  have e : synch conv now i dir = synchAll conv now (dkeys dir) i dir := rfl
  rw [← e] at this
  generalize synch conv now i dir = o at *
  obtain ⟨r, j, d⟩ := o
  cases r with
  | error e => rfl
  | ok u => simp only [items_owned hs this]; rfl

/-! ## an operation sees only the own names -/

theorem labStep_same {conv : Conv} {l : String} (hl : l ≠ "") (hs : SafeText l) {now : Nat} {op : LabOp}
    (hop : op.Plain) {i i' : Inst} {dir dir' : Dir} (h : Same (owned l) i dir i' dir')
    (hf : Fine conv (owned l) dir) (hf' : Fine conv (owned l) dir')
    (hi : CacheQ i) (hi' : CacheQ i') (hd : DirQ dir) (hd' : DirQ dir') :
    (labStep conv (labelOf l) now op i dir).1 = (labStep conv (labelOf l) now op i' dir').1 ∧
    Same (owned l) (labStep conv (labelOf l) now op i dir).2.1 (labStep conv (labelOf l) now op i dir).2.2
      (labStep conv (labelOf l) now op i' dir').2.1 (labStep conv (labelOf l) now op i' dir').2.2 := by
  have hsyn := synch_same (owned_lock l) now h hf hf'
  cases op with
  | reopen =>
    have := synch_same (owned_lock l) now (i := ⟨[], []⟩) (i' := ⟨[], []⟩) ⟨rfl, rfl, h.dir⟩ hf hf'
    exact ⟨congrArg FsAns.unit this.res, this.st⟩
  | op o =>
    cases o with
    | set k v =>
      have := fsSet_same (owned_lock l) conv now (labelOf l ++ k) v h (owned_key hl hs hop)
      simp only [labStep, labSet]
      exact ⟨congrArg FsAns.unit this.res, this.st⟩
    | get k =>
      have := fsGetD_same (owned_lock l) conv now (labelOf l ++ k) h (owned_key hl hs hop)
      simp only [labStep, labGet]
      exact ⟨congrArg FsAns.val this.res, this.st⟩
    | has k =>
      refine ⟨?_, h⟩
      simp only [labStep, labContains, fsContains, dhas, h.getC (owned_key hl hs hop)]
    | keys =>
      simp only [labStep, labKeys_eq hs now hd hi, labKeys_eq hs now hd' hi', hsyn.res, hsyn.st.cache]
      exact ⟨trivial, hsyn.st⟩
    | items =>
      simp only [labStep, labItems_eq hs now hd hi, labItems_eq hs now hd' hi', hsyn.res, hsyn.st.cache]
      exact ⟨trivial, hsyn.st⟩
    | len =>
      refine ⟨?_, h⟩
      have : ∀ d : Dir, labLen (labelOf l) d = (dkeys (restrict (owned l) d)).length := by
        intro d; rw [dkeys_restrict]; rfl
      simp only [labStep, this, h.dir]
    | update ava => exact ⟨rfl, h⟩
    | del k =>
      have := fsDel_same (owned_lock l) now (labelOf l ++ k) h
        (fun n hn => by rw [resolveRaw_label hl k n hn]; exact owned_raw hl hop)
      simp only [labStep, labDel]
      exact ⟨congrArg FsAns.unit this.res, this.st⟩

/-! ## what every operation keeps -/

theorem fsSet_dirq (conv : Conv) (now : Nat) (k : String) (v : Val) (i : Inst) {dir : Dir} (hd : DirQ dir) :
    DirQ (fsSet conv now k v i dir).dir := by
  have hq : QName (quotePlus k) := ⟨k, rfl⟩
  unfold fsSet
  rcases acquire_cases now dir (quotePlus k) with ha | ⟨ha, _⟩ <;> rw [ha]
  · simp only
    split
    · exact hd.set hq.lock _
    · split
      · exact (hd.set hq.lock _).set hq _
      · exact (hd.set hq.lock _).set hq _
  · exact hd

theorem fsDel_dirq (now : Nat) (k : String) (i : Inst) {dir : Dir} (hd : DirQ dir) : DirQ (fsDel now k i dir).dir := by
  unfold fsDel
  cases resolveRaw k with
  | outside s => exact hd
  | notFile => exact hd
  | inside n =>
    simp only
    split
    · rename_i hn
      rw [dhas_iff] at hn
      rcases acquire_cases now dir n with ha | ⟨ha, _⟩ <;> rw [ha]
      · exact (hd.set (hd n hn).lock _).del n
      · exact hd
    · exact hd

theorem labStep_dirq (conv : Conv) (lab : String) (now : Nat) (op : LabOp) (i : Inst) {dir : Dir} (hd : DirQ dir) :
    DirQ (labStep conv lab now op i dir).2.2 := by
  have hsyn : ∀ i, DirQ (synch conv now i dir).dir := fun i => synchAll_qd conv now (dkeys dir) i dir hd
  cases op with
  | reopen => exact hsyn _
  | op o =>
    cases o with
    | set k v =>
      simp only [labStep, labSet]
      exact fsSet_dirq conv now _ v i hd
    | get k =>
      have hq : QName (quotePlus (lab ++ k)) := ⟨_, rfl⟩
      simp only [labStep, labGet]
      rcases fsGetD_dir conv now (lab ++ k) i dir with e | e <;> rw [e]
      · exact hd
      · exact hd.set hq.lock _
    | has k => exact hd
    | keys =>
      have := hsyn i
      simp only [labStep, labKeys, fsKeys]
      generalize synch conv now i dir = o at *
      obtain ⟨r, j, d⟩ := o
      cases r <;> exact this
    | items =>
      have := hsyn i
      simp only [labStep, labItems, fsItems]
      generalize synch conv now i dir = o at *
      obtain ⟨r, j, d⟩ := o
      cases r <;> exact this
    | len => exact hd
    | update ava => exact hd
    | del k => exact fsDel_dirq now _ i hd

theorem labStep_cacheq (conv : Conv) {l : String} (hl : l ≠ "") (now : Nat) {op : LabOp} (hop : op.Plain) {i : Inst}
    {dir : Dir} (hd : DirQ dir) (hi : CacheQ i) : CacheQ (labStep conv (labelOf l) now op i dir).2.1 := by
  have hsyn : ∀ i, CacheQ i → CacheQ (synch conv now i dir).inst := fun i h => (synchAll_q conv now (dkeys dir) i dir hd h).2
  cases op with
  | reopen => exact hsyn ⟨[], []⟩ (fun n hn => by cases hn)
  | op o =>
    cases o with
    | set k v =>
      have hk := mt (reserved_label hl k).1 hop
      simp only [labStep, labSet, fsSet]
      cases acquire now dir (quotePlus (labelOf l ++ k)) with
      | error e => exact hi
      | ok d =>
        simp only
        split
        · exact hi
        · split
          · exact hi
          · exact hi.set (not_lock hk) ⟨_, rfl⟩ v _
    | get k =>
      simp only [labStep, labGet]
      exact fsGetD_q conv now (mt (reserved_label hl k).1 hop) hi
    | has k => exact hi
    | keys =>
      have := hsyn i hi
      simp only [labStep, labKeys, fsKeys]
      generalize synch conv now i dir = o at *
      obtain ⟨r, j, d⟩ := o
      cases r <;> exact this
    | items =>
      have := hsyn i hi
      simp only [labStep, labItems, fsItems]
      generalize synch conv now i dir = o at *
      obtain ⟨r, j, d⟩ := o
      cases r <;> exact this
    | len => exact hi
    | update ava => exact hi
    | del k =>
      simp only [labStep, labDel, fsDel]
      cases resolveRaw (labelOf l ++ k) with
      | outside s => exact hi
      | notFile => exact hi.drop _
      | inside n =>
        simp only
        split
        · cases acquire now dir n with
          | error e => exact hi
          | ok d => exact hi.drop _
        · exact hi.drop _

/-- a property of directories that neither lock files nor deletions matter for is kept by everything but `set` -/
theorem labStep_dir (P : Dir → Prop) (hP : ∀ dir n f, P dir → P (dset dir (lockName n) f)) (conv : Conv) {l : String}
    (hl : l ≠ "") (now : Nat) (op : LabOp)
    (hdel : ∀ k, op = .op (.del k) → ∀ dir, P dir → P (ddel dir (labelOf l ++ k)))
    (i : Inst) {dir : Dir} (hset : ∀ k v, op = .op (.set k v) → P (fsSet conv now (labelOf l ++ k) v i dir).dir)
    (hd : P dir) : P (labStep conv (labelOf l) now op i dir).2.2 := by
  have hsyn : ∀ i, P (synch conv now i dir).dir := fun i => synchAll_dir P hP conv now (dkeys dir) i dir hd
  cases op with
  | reopen => exact hsyn _
  | op o =>
    cases o with
    | set k v =>
      have := hset k v rfl
      simp only [labStep, labSet]
      exact this
    | get k =>
      simp only [labStep, labGet]
      rcases fsGetD_dir conv now (labelOf l ++ k) i dir with e | e <;> rw [e]
      · exact hd
      · exact hP _ _ _ hd
    | has k => exact hd
    | keys =>
      have := hsyn i
      simp only [labStep, labKeys, fsKeys]
      generalize synch conv now i dir = o at *
      obtain ⟨r, j, d⟩ := o
      cases r <;> exact this
    | items =>
      have := hsyn i
      simp only [labStep, labItems, fsItems]
      generalize synch conv now i dir = o at *
      obtain ⟨r, j, d⟩ := o
      cases r <;> exact this
    | len => exact hd
    | update ava => exact hd
    | del k =>
      simp only [labStep, labDel, fsDel]
      cases hr : resolveRaw (labelOf l ++ k) with
      | outside s => exact hd
      | notFile => exact hd
      | inside n =>
        have hn := resolveRaw_label hl k n hr
        subst hn
        simp only
        split
        · rcases acquire_cases now dir (labelOf l ++ k) with ha | ⟨ha, _⟩ <;> rw [ha]
          · exact hdel k rfl _ (hP _ _ _ hd)
          · exact hd
        · exact hd

/-- what the storage itself does keeps the other files readable -/
theorem labStep_fine_own {conv : Conv} {l : String} (hl : l ≠ "") (hs : SafeText l) (now : Nat) {op : LabOp}
    (hop : op.Plain) (i : Inst) {dir : Dir} (hf : Fine conv (owned l) dir) :
    Fine conv (owned l) (labStep conv (labelOf l) now op i dir).2.2 := by
  refine labStep_dir _ (fun _ n f h => h.lock n f) conv hl now op (fun k _ d h => h.del _) i ?_ hf
  rintro k v rfl
  have hk := owned_key hl hs hop
  unfold fsSet
  rcases acquire_cases now dir (quotePlus (labelOf l ++ k)) with ha | ⟨ha, _⟩ <;> rw [ha]
  · simp only
    split
    · exact hf.lock _ _
    · split
      · exact (hf.lock _ _).own hk _
      · exact (hf.lock _ _).own hk _
  · exact hf

/-- what another storage does -/
theorem labStep_fine_other {conv : Conv} {l l' : String} (ha : Apart l l') (now : Nat)
    {op : LabOp} (hop : op.Readable conv) (i : Inst) {dir : Dir} (hf : Fine conv (owned l) dir) :
    Fine conv (owned l) (labStep conv (labelOf l') now op i dir).2.2 := by
  refine labStep_dir _ (fun _ n f h => h.lock n f) conv ha.ne_empty.2 now op (fun k _ d h => h.del _) i ?_ hf
  rintro k v rfl
  obtain ⟨t, v', h1, h2⟩ := hop
  unfold fsSet
  rcases acquire_cases now dir (quotePlus (labelOf l' ++ k)) with ha | ⟨ha, _⟩
  · have h250 : (quotePlus (labelOf l' ++ k)).utf8ByteSize ≤ 250 := by
      unfold acquire at ha
      rw [size_lockName] at ha
      split at ha
      · omega
      · cases ha
    rw [ha]
    simp only
    split
    · exact hf.lock _ _
    · rw [h1]
      intro n f hn hl hg
      simp only at hg
      rw [dget_dset] at hg
      split at hg
      · rename_i e
        cases hg
        subst e
        exact ⟨h250, v', h2⟩
      · exact hf.lock _ _ n f hn hl hg
  · rw [ha]; exact hf

/-- another storage does not touch the files of this label -/
theorem labStep_other {conv : Conv} {l l' : String} (ha : Apart l l') (hs : SafeText l) (now : Nat) (op : LabOp)
    (i : Inst) (dir : Dir) :
    restrict (owned l) (labStep conv (labelOf l') now op i dir).2.2 = restrict (owned l) dir := by
  refine labStep_dir (fun d => restrict (owned l) d = restrict (owned l) dir) ?_ conv ha.ne_empty.2 now op ?_ i ?_ rfl
  · intro d n f h; rw [restrict_dset_out _ _ (owned_lock l n), h]
  · intro k _ d h; rw [restrict_ddel_out _ (not_owned_raw ha k), h]
  · intro k v _
    have hk := not_owned_key ha hs k
    unfold fsSet
    rcases acquire_cases now dir (quotePlus (labelOf l' ++ k)) with he | ⟨he, _⟩ <;> rw [he]
    · simp only
      split
      · rw [restrict_dset_out _ _ (owned_lock l _)]
      · split
        · rw [restrict_dset_out _ _ hk, restrict_dset_out _ _ (owned_lock l _)]
        · rw [restrict_dset_out _ _ hk, restrict_dset_out _ _ (owned_lock l _)]

/-! ## C60 -/

/-- C60, one operation: whatever another storage does — storing, deleting, listing, with any key and value, and also
when it fails — the data files of a label that is apart from its own keep their content and time stamp, and none is
added. -/
theorem C60_untouched_partial {conv : Conv} {l l' : String} (ha : Apart l l') (hs : SafeText l) (now : Nat) (op : LabOp)
    (i : Inst) (dir : Dir) (n : String) (hn : startsWith (labelOf l) n = true) (hk : isLock n = false) :
    dget (labStep conv (labelOf l') now op i dir).2.2 n = dget dir n := by
  have ho : owned l n = true := by simp [owned, hn, hk]
  rw [← dget_restrict _ ho, labStep_other ha hs, dget_restrict _ ho]

example : Apart "client" "session" ∧ SafeText "client" := by decide +kernel

theorem lwRun_alone {conv : Conv} {L : Nat → String} {j : Nat} (hl : L j ≠ "") (hs : SafeText (L j)) :
    ∀ (es : List LabEvent) (w : World) (i' : Inst) (dir' : Dir),
    (∀ e ∈ es, e.who = j → e.op.Plain) →
    (∀ e ∈ es, e.who ≠ j → Apart (L j) (L e.who) ∧ e.op.Readable conv) →
    Same (owned (L j)) (w.inst j) w.dir i' dir' → Fine conv (owned (L j)) w.dir → Fine conv (owned (L j)) dir' →
    CacheQ (w.inst j) → CacheQ i' → DirQ w.dir → DirQ dir' →
    answersOf j (lwRun conv L es w) = labRun conv (labelOf (L j)) (eventsOf j es) i' dir' := by
  intro es
  induction es with
  | nil => intros; rfl
  | cons e es ih =>
    intro w i' dir' h1 h2 h hf hf' hi hi' hd hd'
    have r1 := fun x hx => h1 x (List.mem_cons_of_mem e hx)
    have r2 := fun x hx => h2 x (List.mem_cons_of_mem e hx)
    by_cases he : e.who = j
    · subst he
      have hop := h1 e List.mem_cons_self rfl
      obtain ⟨a, st⟩ := labStep_same (now := e.now) hl hs hop h hf hf' hi hi' hd hd'
      have := ih (lwStep conv L e w).2 _ _ r1 r2 (by simpa [lwStep] using st)
        (labStep_fine_own hl hs e.now hop _ hf) (labStep_fine_own hl hs e.now hop i' hf')
        (by simpa [lwStep] using labStep_cacheq conv hl e.now hop hd hi) (labStep_cacheq conv hl e.now hop hd' hi')
        (labStep_dirq conv _ e.now e.op _ hd) (labStep_dirq conv _ e.now e.op _ hd')
      simp only [lwRun, answersOf, eventsOf, List.filter_cons, decide_true, if_true, List.map_cons, labRun] at this ⊢
      rw [this]
      simp only [lwStep, a]
    · obtain ⟨ha, hop⟩ := h2 e List.mem_cons_self he
      have hinst : (lwStep conv L e w).2.inst j = w.inst j := by simp [lwStep, Ne.symm he]
      have := ih (lwStep conv L e w).2 i' dir' r1 r2
        ⟨by rw [hinst]; exact h.cache, by rw [hinst]; exact h.fmtime,
          (labStep_other ha hs e.now e.op _ _).trans h.dir⟩
        (labStep_fine_other ha e.now hop _ hf) hf' (by rw [hinst]; exact hi) hi'
        (labStep_dirq conv _ e.now e.op _ hd) hd'
      simp only [lwRun, answersOf, eventsOf, List.filter_cons, he, decide_false, Bool.false_eq_true, if_false] at this ⊢
      exact this

/-- nothing in the directory, nothing cached -/
def World.fresh : World := ⟨[], fun _ => ⟨[], []⟩⟩

/-- C60, for labels that are apart: in every history of any number of labelled storages over one directory, each storage
gets the answers it would get alone.  Its label has safe characters only, its keys are not reserved for lock files, and
the others store only what can be read again. -/
theorem C60_partial {conv : Conv} {L : Nat → String} {j : Nat} (hl : L j ≠ "") (hs : SafeText (L j))
    (es : List LabEvent) (h1 : ∀ e ∈ es, e.who = j → e.op.Plain)
    (h2 : ∀ e ∈ es, e.who ≠ j → Apart (L j) (L e.who) ∧ e.op.Readable conv) :
    answersOf j (lwRun conv L es .fresh) = labRun conv (labelOf (L j)) (eventsOf j es) ⟨[], []⟩ [] :=
  lwRun_alone hl hs es .fresh _ _ h1 h2 (.refl ..) (fun _ _ _ _ h => by cases h) (fun _ _ _ _ h => by cases h)
    (fun _ h => by cases h) (fun _ h => by cases h) (fun _ h => by cases h) (fun _ h => by cases h)

/-- three storages, with a key of the first that looks like a key of the second -/
example : answersOf 0 (lwRun passThru (fun j => ["client", "session", "x"].getD j "")
      [⟨0, 1, .op (.set "a" (.str "1"))⟩, ⟨1, 2, .op (.set "a" (.str "2"))⟩, ⟨0, 3, .op (.set "__session__a" (.str "3"))⟩,
       ⟨1, 4, .op (.del "a")⟩, ⟨2, 5, .op .keys⟩, ⟨0, 6, .op (.get "a")⟩, ⟨0, 7, .op .keys⟩, ⟨0, 8, .reopen⟩,
       ⟨0, 9, .op .len⟩] .fresh) =
    [.unit (.ok ()), .unit (.ok ()), .val (.ok (.str "1")), .keys (.ok ["a", "__session__a"]), .unit (.ok ()), .len 2] := by
  decide +kernel

/-! ## a labelled storage is a dictionary -/

/-- one operation on a dictionary whose absent keys read as `None`; a key that cannot have a file is refused, and `update`
always fails -/
def labMapStep (lab : String) (op : FsOp) (m : Assoc Val) : FsAns × Assoc Val :=
  match op with
  | .set k v => if Usable (lab ++ k) then (.unit (.ok ()), dset m k v) else (.unit (.error .osError), m)
  | .get k => (.val (.ok ((dget m k).getD .none)), m)
  | .has k => (.has (dhas m k), m)
  | .keys => (.keys (.ok (dkeys m)), m)
  | .items => (.items (.ok m), m)
  | .len => (.len m.length, m)
  | .update _ => (.unit (.error .attributeError), m)
  | .del k => (.unit (.ok ()), ddel m k)

def labMapRun (lab : String) : List FsOp → Assoc Val → List FsAns
  | [], _ => []
  | op :: rest, m => (labMapStep lab op m).1 :: labMapRun lab rest (labMapStep lab op m).2

/-- keys not reserved, values that can be serialised, deletion of keys with safe characters -/
def FsOp.LabLegal (conv : Conv) : FsOp → Prop
  | .set k v => ¬ Reserved k ∧ ∃ t, conv.ser v = .ok t
  | .get k => ¬ Reserved k
  | .has k => ¬ Reserved k
  | .del k => ¬ Reserved k ∧ SafeText k
  | _ => True

theorem quotePlus_safe {s : String} (h : SafeText s) : quotePlus s = s := by
  have : ∀ t : List Char, (∀ c ∈ t, isSafeByte c.toNat = true) → quotePlusC t = t := by
    intro t
    induction t with
    | nil => intro _; rfl
    | cons c cs ih =>
      intro h
      rw [quotePlusC_cons, quote_safe (h c List.mem_cons_self), ih (fun x hx => h x (List.mem_cons_of_mem _ hx))]
      rfl
  rw [quotePlus, this _ h, String.ofList_toList]

theorem safe_append {a b : String} (ha : SafeText a) (hb : SafeText b) : SafeText (a ++ b) := by
  intro c hc
  rw [String.toList_append] at hc
  rcases List.mem_append.1 hc with h | h
  · exact ha c h
  · exact hb c h

theorem items_labelled (lab : String) (m : Assoc Val) :
    ((labelled lab m).filter (fun p => startsWith lab p.1)).map (fun p => (dropLabel lab p.1, p.2)) = m := by
  induction m with
  | nil => rfl
  | cons p t ih =>
    have ih' : ((List.map (fun p => (lab ++ p.1, p.2)) t).filter (fun p => startsWith lab p.1)).map
      (fun p => (dropLabel lab p.1, p.2)) = t := ih
    simp only [labelled, List.map_cons, List.filter_cons, startsWith_append, if_true, dropLabel_append, ih']

theorem cacheOf_items (m : Assoc Val) : (cacheOf m).map (fun p => (unquotePlus p.1, p.2)) = m := by
  simp [cacheOf, Function.comp_def, unquotePlus_quotePlus]

theorem labLen_map {conv : Conv} {l : String} (hs : SafeText l) {i : Inst} {dir : Dir} {m : Assoc Val}
    (h : Inv conv i dir (labelled (labelOf l) m)) : labLen (labelOf l) dir = m.length := by
  have e : labLen (labelOf l) dir = fsLen dir := by
    unfold labLen fsLen
    congr 1
    apply List.filter_congr
    intro n hn
    cases hl : isLock n with
    | true => simp
    | false =>
      obtain ⟨k, hk, rfl⟩ := h.only n hl ((dhas_iff ..).2 hn)
      rw [dhas_iff] at hk
      simp only [labelled, dkeys, List.map_map, List.mem_map, Function.comp] at hk
      obtain ⟨q, _, rfl⟩ := hk
      rw [startsWith_quote (safe_labelOf hs), startsWith_append]
      rfl
  rw [e, h.fsLen]
  simp [labelled]

theorem labStep_map {conv : Conv} {l : String} (hl : l ≠ "") (hs : SafeText l) {i : Inst} {dir : Dir} {m : Assoc Val}
    (h : Inv conv i dir (labelled (labelOf l) m)) (now : Nat) {op : FsOp} (hop : op.LabLegal conv) :
    (labStep conv (labelOf l) now (.op op) i dir).1 = (labMapStep (labelOf l) op m).1 ∧
    Inv conv (labStep conv (labelOf l) now (.op op) i dir).2.1 (labStep conv (labelOf l) now (.op op) i dir).2.2
      (labelled (labelOf l) (labMapStep (labelOf l) op m).2) := by
  have hres : ∀ k, ¬ Reserved k → ¬ Reserved (labelOf l ++ k) := fun k => mt (reserved_label hl k).1
  have hsyn : synch conv now i dir = ⟨.ok (), i, dir⟩ := synch_map h now _
  cases op with
  | set k v =>
    obtain ⟨h1, h2⟩ := fsSet_map h now (labelOf l ++ k) v (hres k hop.1) hop.2
    simp only [labStep, labSet, labMapStep]
    rw [h1]
    unfold mapSet at h2 ⊢
    by_cases hu : Usable (labelOf l ++ k)
    · simp only [if_pos hu] at h2 ⊢
      rw [← dset_labelled]; exact ⟨trivial, h2⟩
    · simp only [if_neg hu] at h2 ⊢
      exact ⟨trivial, h2⟩
  | get k =>
    simp only [labStep, labGet, fsGetD, labMapStep, fsGet_map h now _ (hres k hop), dget_labelled]
    cases dget m k with
    | none => exact ⟨rfl, h⟩
    | some v => exact ⟨rfl, h⟩
  | has k =>
    refine ⟨?_, h⟩
    simp only [labStep, labContains, fsContains, labMapStep, h.cache, dhas, dget_cacheOf, dget_labelled]
  | keys =>
    simp only [labStep, labKeys, fsKeys, hsyn, labMapStep]
    refine ⟨?_, h⟩
    rw [h.cache, dkeys_cacheOf, keys_labelled]
  | items =>
    simp only [labStep, labItems, fsItems, hsyn, labMapStep]
    refine ⟨?_, h⟩
    rw [h.cache, cacheOf_items, items_labelled]
  | len => exact ⟨congrArg FsAns.len (labLen_map hs h), h⟩
  | update ava => exact ⟨rfl, h⟩
  | del k =>
    obtain ⟨h1, h2⟩ := fsDel_map h now (labelOf l ++ k) (hres k hop.1)
      (quotePlus_safe (safe_append (safe_labelOf hs) hop.2))
    simp only [labStep, labDel, labMapStep]
    rw [h1, ← ddel_labelled]
    exact ⟨rfl, h2⟩

theorem labRun_map {conv : Conv} {l : String} (hl : l ≠ "") (hs : SafeText l) (ops : List (Nat × FsOp)) :
    ∀ (i : Inst) (dir : Dir) (m : Assoc Val), Inv conv i dir (labelled (labelOf l) m) →
    (∀ o ∈ ops, o.2.LabLegal conv) →
    labRun conv (labelOf l) (ops.map (fun o => (o.1, .op o.2))) i dir = labMapRun (labelOf l) (ops.map (·.2)) m := by
  induction ops with
  | nil => intros; rfl
  | cons o rest ih =>
    obtain ⟨now, op⟩ := o
    intro i dir m h hlg
    obtain ⟨h1, h2⟩ := labStep_map hl hs h now (hlg (now, op) List.mem_cons_self)
    simp only [List.map_cons, labRun, labMapRun]
    rw [h1, ih _ _ _ h2 (fun o ho => hlg o (List.mem_cons_of_mem _ ho))]

/-- the operations of storage `j`, none of which opens it anew -/
def opsOf (j : Nat) (es : List LabEvent) : List FsOp :=
  (es.filter (fun e => e.who = j)).filterMap (fun e => match e.op with | .op o => some o | .reopen => none)

/-- C60: in every history of any number of labelled storages over one directory, each storage whose label is apart from
the others is a dictionary of its own. -/
theorem C60_map_partial {conv : Conv} {L : Nat → String} {j : Nat} (hl : L j ≠ "") (hs : SafeText (L j))
    (es : List LabEvent) (h1 : ∀ e ∈ es, e.who = j → ∃ o : FsOp, e.op = .op o ∧ o.LabLegal conv)
    (h2 : ∀ e ∈ es, e.who ≠ j → Apart (L j) (L e.who) ∧ e.op.Readable conv) :
    answersOf j (lwRun conv L es .fresh) = labMapRun (labelOf (L j)) (opsOf j es) [] := by
  rw [C60_partial hl hs es ?_ h2]
  · have key : ∃ ops : List (Nat × FsOp), eventsOf j es = ops.map (fun o => (o.1, .op o.2)) ∧
        opsOf j es = ops.map (·.2) ∧ ∀ o ∈ ops, o.2.LabLegal conv := by
      clear h2
      induction es with
      | nil => exact ⟨[], rfl, rfl, fun _ h => by cases h⟩
      | cons e es ih =>
        obtain ⟨ops, e1, e2, e3⟩ := ih (fun x hx => h1 x (List.mem_cons_of_mem _ hx))
        by_cases he : e.who = j
        · obtain ⟨o, ho, hlg⟩ := h1 e List.mem_cons_self he
          refine ⟨(e.now, o) :: ops, ?_, ?_, ?_⟩
          · simp only [eventsOf] at e1 ⊢
            simp only [List.filter_cons, he, decide_true, if_true, List.map_cons, e1, ho]
          · simp only [opsOf] at e2 ⊢
            simp only [List.filter_cons, he, decide_true, if_true, List.map_cons, List.filterMap_cons, e2, ho]
          · intro x hx
            rcases List.mem_cons.1 hx with rfl | hx
            · exact hlg
            · exact e3 x hx
        · refine ⟨ops, ?_, ?_, e3⟩
          · simp only [eventsOf] at e1 ⊢
            simp only [List.filter_cons, he, decide_false, Bool.false_eq_true, if_false, e1]
          · simp only [opsOf] at e2 ⊢
            simp only [List.filter_cons, he, decide_false, Bool.false_eq_true, if_false, e2]
    obtain ⟨ops, e1, e2, e3⟩ := key
    rw [e1, e2]
    exact labRun_map hl hs ops _ _ [] (inv_empty conv) e3
  · intro e he hw
    obtain ⟨o, ho, hlg⟩ := h1 e he hw
    rw [ho]
    cases o with
    | set k v => exact hlg.1
    | get k => exact hlg
    | has k => exact hlg
    | del k => exact hlg.1
    | _ => trivial

/-- both hypotheses about the values hold for texts with `PassThru` -/
example (t k : String) : LabOp.Readable passThru (.op (.set k (.str t))) :=
  ⟨t, .str (readText t), rfl, rfl⟩

/-- C60 fails: the label `a` is seen from the label `""`, from no label at all, and from labels it is the beginning of:
`__a__` and `_y` make the same name as `__a___` and `y`. -/
theorem C60_counterexample :
    answersOf 1 (lwRun passThru (fun j => ["a", ""].getD j "")
      [⟨0, 1, .op (.set "k" (.str "x"))⟩, ⟨1, 2, .op .keys⟩, ⟨1, 3, .op (.get "__a__k")⟩] .fresh) =
      [.keys (.ok ["__a__k"]), .val (.ok (.str "x"))] ∧
    labelOf "a" ++ "_y__z" = labelOf "a_" ++ "y__z" ∧ labelOf "x" ++ "y__z" = labelOf "x__y" ++ "z" ∧
    answersOf 1 (lwRun passThru (fun j => ["x", "x__y"].getD j "")
      [⟨1, 1, .op (.set "z" (.str "mine"))⟩, ⟨0, 2, .op (.set "y__z" (.str "yours"))⟩, ⟨1, 3, .op (.get "z")⟩] .fresh) =
      [.unit (.ok ()), .val (.ok (.str "yours"))] := by decide +kernel

/-- C60 fails for labels with other characters: the key is not encoded when deleting, so that the label `%C3%A9` deletes
files of the label `é`, though neither begins with the other. -/
theorem C60_counterexample_encoding :
    Apart "é" "%C3%A9" ∧
    answersOf 0 (lwRun passThru (fun j => ["é", "%C3%A9"].getD j "")
      [⟨0, 1, .op (.set "k" (.str "x"))⟩, ⟨1, 2, .op (.del "k")⟩, ⟨0, 3, .op (.get "k")⟩] .fresh) =
      [.unit (.ok ()), .val (.ok .none)] := by decide +kernel

/-- C60 fails when another storage stores a value that cannot be serialised: the empty file it leaves makes the listing
of this storage fail, once it has been seen. -/
theorem C60_counterexample_unserialisable :
    answersOf 0 (lwRun jsonConv (fun j => ["a", "b"].getD j "")
      [⟨1, 1, .op (.set "k" (.int 1))⟩, ⟨0, 2, .op .keys⟩, ⟨1, 3, .op (.set "k" (.msg ⟨"message", "Message"⟩ []))⟩,
       ⟨0, 4, .op .keys⟩] .fresh) =
      [.keys (.ok []), .keys (.error .jsonDecodeError)] := by decide +kernel

/-! ## C85 -/

/-- C85, for safe labels: the length is the number of keys listed. -/
theorem C85_partial {conv : Conv} {l : String} (hs : SafeText l) {i : Inst} {dir : Dir} {m : Assoc Val}
    (h : Inv conv i dir (labelled (labelOf l) m)) (now : Nat) :
    ∃ ks, (labKeys conv (labelOf l) now i dir).res = .ok ks ∧ labLen (labelOf l) dir = ks.length := by
  have hsyn : synch conv now i dir = ⟨.ok (), i, dir⟩ := synch_map h now _
  refine ⟨dkeys m, ?_, by rw [labLen_map hs h]; simp [dkeys]⟩
  simp only [labKeys, fsKeys, hsyn]
  rw [h.cache, dkeys_cacheOf, keys_labelled]

/-- C85 fails: the names are compared with the label as it is, though they are encoded.  For the label `é` the length is
0 whatever is stored. -/
theorem C85_counterexample (dir : Dir) (hd : DirQ dir) : labLen (labelOf "é") dir = 0 := by
  unfold labLen
  rw [List.length_eq_zero_iff, List.filter_eq_nil_iff]
  intro n hn
  obtain ⟨k, rfl⟩ := hd n hn
  have : startsWith (labelOf "é") (quotePlus k) = false := by
    rw [Bool.eq_false_iff, Ne, startsWith_iff]
    rintro ⟨t, e⟩
    have hm : 'é' ∈ (quotePlus k).toList := by
      rw [← e]; exact List.mem_append_left _ (by decide)
    rw [quotePlus, String.toList_ofList] at hm
    exact not_mem_quotePlusC (by decide) hm
  simp [this]

example : answersOf 0 (lwRun passThru (fun _ => "é")
      [⟨0, 1, .op (.set "k" (.str "x"))⟩, ⟨0, 2, .op .keys⟩, ⟨0, 3, .op .len⟩] .fresh) =
    [.unit (.ok ()), .keys (.ok ["k"]), .len 0] := by decide +kernel

end Verif
