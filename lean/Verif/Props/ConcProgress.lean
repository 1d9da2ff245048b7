import Verif.Props.Concurrent

/-!
# Progress of interleaved operations on one key: C95
-/

namespace Verif.Conc

/-- waiting in a `with lock:` -/
def waits : PC → Bool
  | .wLock _ | .rLock | .dLock => true
  | _ => false

/-- inside an operation -/
def busy : PC → Bool
  | .idle | .dead => false
  | _ => true

theorem step_isSome (s : Sys) (e : Ev) :
    (step s e).isSome = (act (later s.g e.dt) e.who (s.proc e.who) e.act).isSome := by
  unfold step
  cases act (later s.g e.dt) e.who (s.proc e.who) e.act <;> rfl

/-- who holds the lock can always take its next step -/
theorem holder_steps {s : Sys} (hi : SInv s) (h n dt : Nat) (hh : holds (s.proc h).pc = true) :
    (step s ⟨h, dt, .go n⟩).isSome = true := by
  have hloc := (hi.procs h).loc
  rw [step_isSome]
  simp only [act, cont]
  cases hpc : (s.proc h).pc with
  | rRead q =>
    rw [hpc] at hloc
    obtain ⟨c, m, hf, -⟩ := hloc
    simp only [later, hf, reading]
    split <;> rfl
  | wWrite t q => simp only [writing]; split <;> rfl
  | rOpen => cases hf : s.g.file <;> simp [later, hf]
  | dUnlink => cases hf : s.g.file <;> simp [later, hf]
  | wOpen t => rfl
  | wRel t => rfl
  | rRel q v => rfl
  | lockedErr => rfl
  | dRel => rfl
  | _ => rw [hpc] at hh; simp [holds] at hh

/-- C95: whatever has happened, a process in the middle of an operation can take its next step, unless it waits for the
lock; then the lock is held by a living process inside a `with lock:` which itself can take its next step, whatever the
time and however much is transferred at a time.  So there is never a deadlock, also when processes have died. -/
theorem C95_no_deadlock (es : List Ev) (j : Nat) (hb : busy ((run start es).proc j).pc = true) :
    (∀ n dt, (step (run start es) ⟨j, dt, .go n⟩).isSome = true) ∨
    (waits ((run start es).proc j).pc = true ∧ ∃ h, h ≠ j ∧ (run start es).g.lock = some h ∧
      ((run start es).proc h).pc ≠ .dead ∧ ∀ n dt, (step (run start es) ⟨h, dt, .go n⟩).isSome = true) := by
  have hi := run_inv es _ start_inv
  revert hi hb
  generalize run start es = s
  intro hb hi
  by_cases hh : holds (s.proc j).pc = true
  · exact Or.inl fun n dt => holder_steps hi j n dt hh
  by_cases hw : waits (s.proc j).pc = true
  · cases hl : s.g.lock with
    | none =>
      refine Or.inl fun n dt => ?_
      rw [step_isSome]
      simp only [act, cont]
      cases hpc : (s.proc j).pc <;> rw [hpc] at hw <;> simp [waits] at hw <;> simp [locking, later, hl]
    | some h =>
      have hhold : holds (s.proc h).pc = true := (hi.procs h).mutex.2 hl
      refine Or.inr ⟨hw, h, fun e => hh (e ▸ hhold), rfl, fun hd => ?_, fun n dt => holder_steps hi h n dt hhold⟩
      rw [hd] at hhold
      simp [holds] at hhold
  · refine Or.inl fun n dt => ?_
    rw [step_isSome]
    simp only [act, cont]
    cases hpc : (s.proc j).pc <;> rw [hpc] at hb hw hh <;> simp [waits, busy, holds] at hb hw hh
    · cases hf : s.g.file with
      | none => simp only [later, hf]; split <;> rfl
      | some x => simp [later, hf]
    · cases hf : s.g.file with
      | none => simp only [later, hf]; split <;> rfl
      | some x =>
        obtain ⟨c, m⟩ := x
        simp only [later, hf, compared]
        cases hfm : (s.proc j).fmtime with
        | none => rfl
        | some m0 =>
          simp only
          split
          · rfl
          · cases hc : (s.proc j).cache <;> rfl
    · cases hf : s.g.file <;> simp [later, hf]

/-! ## every operation takes a bounded number of its own steps -/

/-- how many steps of its own a process needs at most to the end of its operation, if no text is longer than `L` -/
def togo (L : Nat) : PC → Nat
  | .idle | .dead => 0
  | .wStat again => if again then 1 else 2
  | .wRel _ => 3
  | .wWrite t q => 4 + (t.length - q.length)
  | .wOpen t => 5 + t.length
  | .wLock t => 6 + t.length
  | .rRel _ _ | .lockedErr | .dRel => 1
  | .rRead q => 2 + (L - q.length)
  | .rOpen => 3 + L
  | .rLock => 4 + L
  | .rFile => 5 + L
  | .rStat again => if again then 6 + L else 7 + L
  | .dUnlink => 2
  | .dLock => 3

theorem cont_togo {g g' : Shared} {me : Nat} {p p' : Proc} {n L : Nat} {r : Option Ret} (hl : Loc g p p.pc)
    (hL : ∀ c m, g.file = some (c, m) → c.length ≤ L) (h : cont g me p n = some (g', p', r)) :
    togo L p'.pc < togo L p.pc := by
  simp only [cont] at h
  split at h
  case h_5 t q hpc =>
    rw [hpc] at hl
    have hq := hl.2.1.length_le
    simp only [writing] at h
    split at h
    · simp only [Option.some.injEq, Prod.mk.injEq] at h
      obtain ⟨rfl, rfl, -⟩ := h
      rw [hpc]; simp only [togo]; omega
    · simp only [Option.some.injEq, Prod.mk.injEq] at h
      obtain ⟨rfl, rfl, -⟩ := h
      rw [hpc]; simp only [togo, List.length_take]; omega
  case h_12 q hpc =>
    rw [hpc] at hl
    obtain ⟨c, m, hf, hq⟩ := hl
    have hq := hq.length_le
    have hc := hL c m hf
    rw [hf] at h
    simp only [reading] at h
    split at h
    · simp only [Option.some.injEq, Prod.mk.injEq] at h
      obtain ⟨rfl, rfl, -⟩ := h
      rw [hpc]; simp only [togo]; omega
    · simp only [Option.some.injEq, Prod.mk.injEq] at h
      obtain ⟨rfl, rfl, -⟩ := h
      rw [hpc]; simp only [togo, List.length_take]; omega
  all_goals
    rename_i hpc
    try simp only [locking, compared] at h
    repeat' split at h
    all_goals first
      | (simp at h; done)
      | (simp only [Option.some.injEq, Prod.mk.injEq] at h
         obtain ⟨rfl, rfl, -⟩ := h
         rw [hpc]
         simp only [togo]
         first
           | omega
           | (split <;> omega)
           | (simp_all <;> omega))

/-- the number of steps of process `j` in a run (what is not possible is skipped and not counted) -/
def stepsOf (j : Nat) (s : Sys) : List Ev → Nat
  | [] => 0
  | e :: es =>
    match step s e with
    | none => stepsOf j s es
    | some (s', _) => (if e.who = j then 1 else 0) + stepsOf j s' es

theorem file_len {W : List Text} {L : Nat} {s : Sys} (hi : SInv s) (hw : WInv W s) (hL : ∀ t ∈ W, t.length ≤ L) :
    ∀ c m, s.g.file = some (c, m) → c.length ≤ L := by
  intro c m hf
  obtain ⟨t, h1, h2, -⟩ := hi.file c m hf
  exact Nat.le_trans h2.length_le (hL t (hw.hist t (List.mem_of_getLast? h1)))

theorem step_winv {W : List Text} {s s' : Sys} {e : Ev} {r : Option Ret} (hw : WInv W s)
    (he : ∀ t, e.act = .write t → t ∈ W) (hs : step s e = some (s', r)) : WInv W s' := by
  have := run_winv [e] s hw (by
    intro t ht
    simp only [writesIn, List.filterMap_cons, List.filterMap_nil] at ht
    cases ha : e.act with
    | write t' =>
      rw [ha] at ht
      simp only [List.mem_singleton] at ht
      exact he t (ht ▸ ha)
    | _ => rw [ha] at ht; simp at ht)
  simpa [run, hs] using this

/-- C95: however the others interleave, an operation of `j` that has been started takes at most `togo` steps of `j`
itself, wherever it is -/
theorem steps_togo {W : List Text} {L j : Nat} (hL : ∀ t ∈ W, t.length ≤ L) (es : List Ev) :
    ∀ s, SInv s → WInv W s → (∀ t ∈ writesIn es, t ∈ W) → (∀ e ∈ es, e.who = j → ∃ n, e.act = .go n) →
      stepsOf j s es ≤ togo L (s.proc j).pc := by
  induction es with
  | nil => intro s _ _ _ _; exact Nat.zero_le _
  | cons e es ih =>
    intro s hi hw hes hgo
    have hrest : ∀ t ∈ writesIn es, t ∈ W := by
      intro t ht
      refine hes t ?_
      simp only [writesIn, List.filterMap_cons] at ht ⊢
      split
      · exact ht
      · exact List.mem_cons_of_mem _ ht
    have hgo' : ∀ e ∈ es, e.who = j → ∃ n, e.act = .go n := fun x hx => hgo x (List.mem_cons_of_mem _ hx)
    rw [stepsOf]
    cases hs : step s e with
    | none => exact ih s hi hw hrest hgo'
    | some x =>
      obtain ⟨s', r⟩ := x
      have hw' : WInv W s' := step_winv hw (fun t ht => hes t (by
        simp only [writesIn, List.filterMap_cons, ht, List.mem_cons, true_or])) hs
      have hstep := ih s' (step_inv hi hs) hw' hrest hgo'
      simp only
      unfold step at hs
      cases ha : act (later s.g e.dt) e.who (s.proc e.who) e.act with
      | none => rw [ha] at hs; simp at hs
      | some y =>
        obtain ⟨g', p', r'⟩ := y
        rw [ha] at hs
        simp only [Option.some.injEq, Prod.mk.injEq] at hs
        obtain ⟨rfl, -⟩ := hs
        by_cases hj : e.who = j
        · obtain ⟨n, hn⟩ := hgo e (by simp) hj
          rw [hn] at ha
          simp only [act] at ha
          have hdec := cont_togo (L := L) (later_pinv e.dt (hi.procs e.who)).loc (fun c m hf => file_len hi hw hL c m hf) ha
          rw [if_pos hj]
          have hsame : togo L ((if j = e.who then p' else s.proc j) : Proc).pc = togo L p'.pc := by rw [if_pos hj.symm]
          simp only [hsame] at hstep
          rw [hj] at hdec
          omega
        · rw [if_neg hj]
          simp only [if_neg (fun h => hj (Eq.symm h))] at hstep
          omega

/-- C95: if no text ever written is longer than `L`, then whatever happened before and however the steps of all the
others (also their deaths) interleave, once `j` has begun an operation it takes at most `L + 7` further steps of its own
to end it. -/
theorem C95_bounded (es1 es2 : List Ev) (j L : Nat) (hL : ∀ t ∈ writesIn (es1 ++ es2), t.length ≤ L)
    (hgo : ∀ e ∈ es2, e.who = j → ∃ n, e.act = .go n) : stepsOf j (run start es1) es2 ≤ L + 7 := by
  have hsplit : writesIn (es1 ++ es2) = writesIn es1 ++ writesIn es2 := List.filterMap_append
  have hw := run_winv (W := writesIn (es1 ++ es2)) es1 start (start_winv _) (by
    intro t ht; rw [hsplit]; exact List.mem_append_left _ ht)
  have hi := run_inv es1 _ start_inv
  have := steps_togo hL es2 (run start es1) hi hw (by
    intro t ht; rw [hsplit]; exact List.mem_append_right _ ht) hgo
  refine Nat.le_trans this ?_
  have hloc := (hi.procs j).loc
  have hp : ∀ t, pending ((run start es1).proc j).pc = some t → t.length ≤ L := fun t ht => hL t (hw.pend j t ht)
  have hh : ∀ t, (run start es1).g.hist.getLast? = some t → t.length ≤ L := fun t ht =>
    hL t (hw.hist t (List.mem_of_getLast? ht))
  revert hloc hp
  cases ((run start es1).proc j).pc with
  | wLock t => intro _ hp; have := hp t rfl; simp only [togo]; omega
  | wOpen t => intro _ hp; have := hp t rfl; simp only [togo]; omega
  | wWrite t q => intro hl _; have := hh t hl.1; simp only [togo]; omega
  | wStat a => intro _ _; cases a <;> simp only [togo] <;> simp <;> omega
  | rStat a => intro _ _; cases a <;> simp only [togo] <;> simp <;> omega
  | _ => intro _ _; simp only [togo]; omega

/-! ## waiting may be without end -/

/-- one whole `__setitem__` by process `w` -/
def writeOnce (w : Nat) (t : Text) : List Ev :=
  [⟨w, 1, .write t⟩, ⟨w, 1, .go 0⟩, ⟨w, 1, .go 0⟩, ⟨w, 1, .go t.length⟩, ⟨w, 1, .go 0⟩, ⟨w, 1, .go 0⟩, ⟨w, 1, .go 0⟩]

theorem run_app (es es' : List Ev) : ∀ s, run s (es ++ es') = run (run s es) es' := by
  induction es with
  | nil => intro s; rfl
  | cons e es ih =>
    intro s
    rw [List.cons_append, run, run]
    cases step s e with
    | none => exact ih s
    | some x => obtain ⟨s', r⟩ := x; exact ih s'

theorem writeOnce_turn (s : Sys) (w : Nat) (c : Char) (hp : (s.proc w).pc = .idle) (hl : s.g.lock = none) :
    ((run s (writeOnce w [c])).proc w).pc = .idle ∧ (run s (writeOnce w [c])).g.lock = none ∧
    (run s (writeOnce w [c])).g.hist = s.g.hist ++ [[c]] ∧ (∀ j, j ≠ w → (run s (writeOnce w [c])).proc j = s.proc j) := by
  have hr : run s (writeOnce w [c]) =
      ⟨{ s.g with file := some ([c], s.g.now + 4), now := s.g.now + 7, hist := s.g.hist ++ [[c]], lock := none,
                  done := (s.g.hist ++ [[c]]).length },
        fun j => if j = w then ⟨.idle, some (some [c], (s.g.hist ++ [[c]]).length), some (s.g.now + 4),
          (s.g.hist ++ [[c]]).length, (s.proc w).start⟩ else s.proc j⟩ := by
    simp only [writeOnce, run, step, act, begin_, cont, locking, writing, hp, hl, later, if_true]
    simp [hl]
    funext j
    split <;> rfl
  rw [hr]
  refine ⟨by simp, rfl, rfl, fun j hj => by simp [hj]⟩

/-- C95 (what does not hold): the lock is not fair.  While one process waits for it, another one may complete any number
of writes. -/
theorem C95_starvation (k : Nat) : ∃ es : List Ev, NoCrash es ∧ ((run start es).proc 0).pc = .wLock ['a'] ∧
    (run start es).g.hist = List.replicate k ['b'] ∧ ((run start es).proc 1).pc = .idle ∧ (run start es).g.lock = none := by
  induction k with
  | zero =>
    refine ⟨[⟨0, 1, .write ['a']⟩], ?_, rfl, rfl, rfl, rfl⟩
    intro e he; simp only [List.mem_singleton] at he; rw [he]; simp
  | succ k ih =>
    obtain ⟨es, hn, h0, hh, h1, hl⟩ := ih
    obtain ⟨a, b, c, d⟩ := writeOnce_turn (run start es) 1 'b' h1 hl
    refine ⟨es ++ writeOnce 1 ['b'], ?_, ?_, ?_, ?_, ?_⟩
    · intro e he
      rcases List.mem_append.1 he with he | he
      · exact hn e he
      · simp only [writeOnce, List.mem_cons, List.not_mem_nil, or_false] at he
        rcases he with rfl | rfl | rfl | rfl | rfl | rfl | rfl <;> simp
    · rw [run_app, d 0 (by omega)]; exact h0
    · rw [run_app, c, hh, List.replicate_succ']
    · rw [run_app]; exact a
    · rw [run_app]; exact b

/-- the hypotheses are met: a reader waits while a writer has died with the lock, and one while a writer is writing -/
example : busy ((run start [⟨0, 1, .write ['a']⟩, ⟨0, 1, .go 0⟩, ⟨0, 1, .go 0⟩, ⟨1, 1, .read⟩, ⟨1, 1, .go 0⟩,
    ⟨1, 1, .go 0⟩, ⟨1, 1, .go 0⟩]).proc 1).pc = true ∧
    waits ((run start [⟨0, 1, .write ['a']⟩, ⟨0, 1, .go 0⟩, ⟨0, 1, .go 0⟩, ⟨1, 1, .read⟩, ⟨1, 1, .go 0⟩,
      ⟨1, 1, .go 0⟩, ⟨1, 1, .go 0⟩]).proc 1).pc = true := by decide +kernel
example : stepsOf 0 (run start [⟨0, 1, .write ['a']⟩]) [⟨0, 1, .go 0⟩, ⟨1, 1, .read⟩, ⟨0, 1, .go 0⟩, ⟨1, 1, .read⟩,
    ⟨0, 1, .go 0⟩, ⟨1, 1, .go 0⟩, ⟨0, 1, .go 0⟩, ⟨0, 1, .go 0⟩, ⟨0, 1, .go 0⟩, ⟨0, 1, .go 0⟩] = 6 := by decide +kernel

end Verif.Conc
