import Verif.Model.Config

/-!
# Paths, names and storage configuration: C62, C63, C64, C74
-/

namespace Verif

/-! ## C62: `proper_path` -/

theorem startsWith_iff (p s : String) : startsWith p s = true ↔ p.toList <+: s.toList := by
  simp [startsWith, startsWithC]

theorem endsWithSlash_iff (s : String) : endsWithSlash s = true ↔ ∃ p, s = p ++ "/" := by
  simp only [endsWithSlash, beq_iff_eq, List.getLast?_eq_some_iff]
  constructor
  · rintro ⟨ys, h⟩
    exact ⟨String.ofList ys, by rw [← String.toList_inj, h]; simp⟩
  · rintro ⟨p, rfl⟩
    exact ⟨p.toList, by simp⟩

/-- the paths that `proper_path` does not bring into the form `./<path>/`: they begin with a dot but, after the
leading dots, go on with something else than a slash (or end) -/
def DotName (s : String) : Prop :=
  ∃ n rest, s.toList = List.replicate (n + 1) '.' ++ rest ∧ rest.head? ≠ some '.' ∧ rest.head? ≠ some '/'

theorem dots_split (l : List Char) : ∃ n rest, l = List.replicate n '.' ++ rest ∧ rest.head? ≠ some '.' ∧
    l.dropWhile (· == '.') = rest := by
  induction l with
  | nil => exact ⟨0, [], rfl, by simp, rfl⟩
  | cons c l ih =>
    by_cases hc : c = '.'
    · obtain ⟨n, rest, h1, h2, h3⟩ := ih
      refine ⟨n + 1, rest, ?_, h2, ?_⟩
      · rw [h1, List.replicate_succ, hc]; rfl
      · rw [List.dropWhile_cons, hc]; simpa using h3
    · exact ⟨0, c :: l, rfl, by simpa using hc, by simp [hc]⟩

theorem dots_unique {n m : Nat} {r q : List Char} (h : List.replicate n '.' ++ r = List.replicate m '.' ++ q)
    (hr : r.head? ≠ some '.') (hq : q.head? ≠ some '.') : n = m ∧ r = q := by
  induction n generalizing m with
  | zero =>
    cases m with
    | zero => simpa using h
    | succ m => simp [List.replicate_succ] at h; subst h; simp at hr
  | succ n ih =>
    cases m with
    | zero => simp [List.replicate_succ] at h; subst h; simp at hq
    | succ m =>
      simp only [List.replicate_succ, List.cons_append, List.cons.injEq, true_and] at h
      obtain ⟨e, e'⟩ := ih h
      exact ⟨by omega, e'⟩

theorem pre1 (c : Char) (l : List Char) : [c] <+: l ↔ l.head? = some c := by
  cases l <;> simp [List.cons_prefix_cons, eq_comm]

theorem pre2 (l : List Char) : ['.', '/'] <+: l ↔ ∃ r, l = '.' :: '/' :: r := by
  constructor
  · rintro ⟨t, rfl⟩; exact ⟨t, rfl⟩
  · rintro ⟨r, rfl⟩; exact ⟨r, rfl⟩

theorem dotName_iff (s : String) :
    DotName s ↔ s.toList.head? = some '.' ∧ (s.toList.dropWhile (· == '.')).head? ≠ some '/' := by
  obtain ⟨n, rest, h1, h2, h3⟩ := dots_split s.toList
  constructor
  · rintro ⟨m, r, e, hr, hs⟩
    rw [h1] at e
    obtain ⟨e1, e2⟩ := dots_unique e h2 hr
    subst e1 e2
    exact ⟨by rw [h1, List.replicate_succ]; rfl, by rw [h3]; exact hs⟩
  · rintro ⟨a, b⟩
    cases n with
    | zero => rw [h1] at a; simp at a; exact absurd a h2
    | succ n => exact ⟨n, rest, h1, h2, by rw [← h3]; exact b⟩

theorem properPrefix_of_dotName {s : String} (h : DotName s) : properPrefix s = stripDots s := by
  obtain ⟨h1, h2⟩ := (dotName_iff s).mp h
  obtain ⟨n, rest, e, hr, hs⟩ := h
  have a : startsWith "./" s = false := by
    rw [Bool.eq_false_iff, Ne, startsWith_iff]
    show ¬ ['.', '/'] <+: s.toList
    rw [pre2]
    rintro ⟨r, e'⟩
    rw [e'] at e
    have := (dots_unique (n := 1) (r := '/' :: r) (m := n + 1) (q := rest) (by simpa using e) (by simp) hr).2
    subst this; simp at hs
  have b : startsWith "/" s = false := by
    rw [Bool.eq_false_iff, Ne, startsWith_iff]
    show ¬ ['/'] <+: s.toList
    rw [pre1, h1]; simp
  have c : startsWith "." s = true := by
    rw [startsWith_iff]; show ['.'] <+: s.toList; rw [pre1, h1]
  have d : startsWith "/" (stripDots s) = false := by
    rw [Bool.eq_false_iff, Ne, startsWith_iff]
    show ¬ ['/'] <+: (stripDots s).toList
    rw [pre1, stripDots, String.toList_ofList]; exact h2
  simp [properPrefix, a, b, c, d]

theorem properPrefix_of_not {s : String} (h : ¬ DotName s) : startsWith "./" (properPrefix s) = true := by
  rw [dotName_iff] at h
  unfold properPrefix
  split
  · assumption
  · split
    · rename_i h2
      rw [startsWith_iff] at h2 ⊢
      simp only [String.toList_append]
      exact (List.cons_prefix_cons (l₁ := ['/'])).mpr ⟨rfl, h2⟩
    · split
      · rename_i h3
        rw [startsWith_iff] at h3
        have h3' : s.toList.head? = some '.' := (pre1 _ _).mp h3
        have h4 : (s.toList.dropWhile (· == '.')).head? = some '/' := by
          apply Classical.byContradiction; intro hc; exact h ⟨h3', hc⟩
        have h5 : startsWith "/" (stripDots s) = true := by
          rw [startsWith_iff]
          show ['/'] <+: (stripDots s).toList
          rw [pre1, stripDots, String.toList_ofList, h4]
        rw [if_pos h5]
        rw [startsWith_iff] at h5 ⊢
        simp only [String.toList_append]
        exact (List.cons_prefix_cons (l₁ := ['/'])).mpr ⟨rfl, h5⟩
      · rw [startsWith_iff, String.toList_append]
        exact ⟨s.toList, rfl⟩

/-- C62: the result always ends with a slash. -/
theorem C62_ends (s : String) : ∃ p, properPath s = p ++ "/" := by
  unfold properPath
  split
  · rename_i h; exact (endsWithSlash_iff _).mp h
  · exact ⟨_, rfl⟩

theorem properPath_prefix (s : String) : (properPrefix s).toList <+: (properPath s).toList := by
  unfold properPath
  split
  · exact List.prefix_refl _
  · rw [String.toList_append]; exact ⟨_, rfl⟩

theorem properPath_fix {s : String} (h1 : startsWith "./" s = true) (h2 : endsWithSlash s = true) :
    properPath s = s := by
  have : properPrefix s = s := by simp [properPrefix, h1]
  simp [properPath, this, h2]

/-- C62: the result begins with `./` exactly when the path is not a name behind dots. -/
theorem C62_begins (s : String) : (∃ p, properPath s = "./" ++ p) ↔ ¬ DotName s := by
  constructor
  · rintro ⟨p, hp⟩ hd
    have e := properPrefix_of_dotName hd
    have h := (dotName_iff s).mp hd
    obtain ⟨n, rest, h1, h2, h3⟩ := dots_split s.toList
    have hr : (stripDots s).toList = rest := by rw [stripDots, String.toList_ofList, h3]
    have hpre := properPath_prefix s
    rw [hp, e, hr] at hpre
    cases hrest : rest with
    | nil =>
      have : properPath s = "/" := by
        have : stripDots s = "" := by rw [← String.toList_inj, hr, hrest]; rfl
        rw [properPath, e, this]; rfl
      rw [this] at hp
      have := congrArg String.toList hp
      simp [String.toList_append] at this
    | cons c r =>
      rw [hrest, String.toList_append] at hpre
      have : c = '.' := (List.cons_prefix_cons.mp hpre).1
      rw [hrest] at h2
      exact h2 (by simp [this])
  · intro h
    have h1 := properPrefix_of_not h
    rw [startsWith_iff] at h1
    obtain ⟨t, ht⟩ := h1.trans (properPath_prefix s)
    exact ⟨String.ofList t, by rw [← String.toList_inj, ← ht]; simp⟩

/-- C62: it is idempotent exactly on the same paths. -/
theorem C62_idempotent (s : String) : properPath (properPath s) = properPath s ↔ ¬ DotName s := by
  constructor
  · intro h hd
    have hn : ¬ DotName (properPath s) := by
      intro hd'
      obtain ⟨n, rest, h1, h2, h3⟩ := dots_split s.toList
      have hr : (stripDots s).toList = rest := by rw [stripDots, String.toList_ofList, h3]
      have hpre := properPath_prefix s
      rw [properPrefix_of_dotName hd, hr] at hpre
      have h4 := ((dotName_iff _).mp hd').1
      cases hrest : rest with
      | nil =>
        have : properPath s = "/" := by
          have : stripDots s = "" := by rw [← String.toList_inj, hr, hrest]; rfl
          rw [properPath, properPrefix_of_dotName hd, this]; rfl
        rw [this] at h4; simp at h4
      | cons c r =>
        rw [hrest] at hpre h2
        obtain ⟨t, ht⟩ := hpre
        rw [← ht] at h4
        simp at h4 h2
        exact h2 h4
    exact (C62_begins s).mp ⟨_, (h.symm.trans ((C62_begins _).mpr hn).choose_spec)⟩ hd
  · intro h
    apply properPath_fix
    · rw [startsWith_iff]
      obtain ⟨p, hp⟩ := (C62_begins s).mpr h
      rw [hp, String.toList_append]; exact ⟨_, rfl⟩
    · exact (endsWithSlash_iff _).mpr (C62_ends s)

/-- C62, what holds: the path in between is kept, up to leading dots before a slash. -/
theorem C62_partial (s : String) (h : ¬ DotName s) :
    (∃ p, properPath s = "./" ++ p) ∧ (∃ p, properPath s = p ++ "/") ∧ properPath (properPath s) = properPath s :=
  ⟨(C62_begins s).mpr h, C62_ends s, (C62_idempotent s).mpr h⟩

example : ¬ DotName "../keys" := by rw [← C62_idempotent]; decide +kernel
example : properPath "../keys" = "./keys/" ∧ properPath "/etc" = "./etc/" ∧ properPath "a" = "./a/" ∧
    properPath "" = "./" := by decide +kernel

/-- C62 fails: a hidden directory loses its dot and its prefix, and the current directory becomes the root of the
file system. -/
theorem C62_counterexample :
    properPath ".keys" = "keys/" ∧ properPath "." = "/" ∧ properPath ".." = "/" ∧
      properPath (properPath ".keys") ≠ properPath ".keys" ∧ ¬ ∃ p, properPath "." = "./" ++ p := by
  refine ⟨by decide +kernel, by decide +kernel, by decide +kernel, by decide +kernel, ?_⟩
  rw [C62_begins]
  exact fun h => h ⟨0, [], by decide +kernel, by simp, by simp⟩

/-! ## C64: `modsplit` -/

theorem splitC_length (c : Char) (l : List Char) : (splitC c l).length = l.count c + 1 := by
  induction l with
  | nil => rfl
  | cons a l ih =>
    unfold splitC
    split
    · rename_i h; subst h; simp [ih]
    · rename_i h
      cases hs : splitC c l with
      | nil => exact absurd hs (splitC_ne_nil c l)
      | cons p ps => rw [hs] at ih; simp at ih ⊢; rw [List.count_cons_of_ne (by simpa using h)]; exact ih

theorem pySplit_length (c : Char) (s : String) : (pySplit c s).length = s.toList.count c + 1 := by
  simp [pySplit, splitC_length]

/-- `m:c` -/
theorem C64_colon (m c : String) (hm : ':' ∉ m.toList) (hc : ':' ∉ c.toList) :
    modsplit (m ++ ":" ++ c) = .ok (m, c) := by
  have hs : pySplit ':' (m ++ ":" ++ c) = [m, c] := by
    have : m ++ ":" ++ c = pyJoin ':' [m, c] := by
      rw [← String.toList_inj]; simp [pyJoin, joinC]
    rw [this, pySplit_pyJoin (by simp)]
    simpa using ⟨hm, hc⟩
  unfold modsplit
  rw [if_pos (by simp), hs]

/-- `m.c` -/
theorem C64_dot (m c : String) (hm : ':' ∉ m.toList) (hc : ':' ∉ c.toList) (hd : '.' ∉ c.toList) :
    modsplit (m ++ "." ++ c) = .ok (m, c) := by
  have hs : pySplit '.' (m ++ "." ++ c) = pySplit '.' m ++ [c] := by
    have : m ++ "." ++ c = pyJoin '.' (pySplit '.' m ++ [c]) := by
      rw [← String.toList_inj]
      have : ∀ ps : List (List Char), ps ≠ [] → ∀ q, joinC '.' (ps ++ [q]) = joinC '.' ps ++ '.' :: q := by
        intro ps
        induction ps with
        | nil => simp
        | cons p ps ih =>
          intro _ q
          cases hps : ps with
          | nil => simp [joinC]
          | cons p' ps' =>
            rw [← hps, List.cons_append, joinC_cons (by simp), joinC_cons (by simp [hps]), ih (by simp [hps])]
            simp
      have h2 := this ((pySplit '.' m).map String.toList) (by simp [pySplit_ne_nil]) c.toList
      have h3 := congrArg String.toList (pyJoin_pySplit '.' m)
      simp only [pyJoin, String.toList_ofList] at h3
      simp only [pyJoin, List.map_append, List.map_cons, List.map_nil, String.toList_ofList, String.toList_append]
      rw [h2, h3]; simp
    rw [this, pySplit_pyJoin (by simp)]
    intro p hp
    rcases List.mem_append.mp hp with h | h
    · obtain ⟨q, hq, rfl⟩ := List.mem_map.mp h
      rw [String.toList_ofList]; exact splitC_not_mem _ _ _ hq
    · simp at h; subst h; exact hd
  have hl : ¬ (pySplit '.' (m ++ "." ++ c)).length < 2 := by
    rw [hs]; have := pySplit_ne_nil '.' m
    have := List.length_pos_iff.mpr this
    simp; omega
  unfold modsplit
  rw [if_neg (by simp [hm, hc]), if_neg hl, hs]
  simp [pyJoin_pySplit]

/-- a `ValueError` exactly for several colons, or no separator at all; nothing else is raised -/
theorem C64_errors (s : String) :
    (modsplit s = .error .valueError ↔
      2 ≤ s.toList.count ':' ∨ (s.toList.count ':' = 0 ∧ s.toList.count '.' = 0)) ∧
    (∀ e, modsplit s = .error e → e = .valueError) := by
  have hl := pySplit_length ':' s
  have hd := pySplit_length '.' s
  unfold modsplit
  split
  · rename_i h
    have h1 : 0 < s.toList.count ':' := List.count_pos_iff.mpr h
    split
    · rename_i m c e
      rw [e] at hl; simp at hl
      refine ⟨?_, by simp⟩
      constructor
      · intro h; cases h
      · intro h; omega
    · rename_i hne
      refine ⟨⟨fun _ => ?_, fun _ => rfl⟩, by simp⟩
      left
      rcases hp : pySplit ':' s with _ | ⟨a, _ | ⟨b, _ | ⟨c, r⟩⟩⟩
      · rw [hp] at hl; simp at hl
      · rw [hp] at hl; simp at hl; omega
      · exact absurd hp (hne a b)
      · rw [hp] at hl; simp at hl; omega
  · rename_i h
    have h1 : s.toList.count ':' = 0 := List.count_eq_zero.mpr h
    split
    · refine ⟨⟨fun _ => ?_, fun _ => rfl⟩, by simp⟩
      right; omega
    · refine ⟨⟨fun h => by simp at h, fun h => ?_⟩, by simp⟩
      omega

/-- every successful split is one of the two -/
theorem C64_unique (s m c : String) (h : modsplit s = .ok (m, c)) :
    (s = m ++ ":" ++ c ∧ ':' ∉ m.toList ∧ ':' ∉ c.toList) ∨
      (s = m ++ "." ++ c ∧ ':' ∉ s.toList ∧ '.' ∉ c.toList) := by
  unfold modsplit at h
  split at h
  · split at h
    · rename_i m' c' e
      simp only [Except.ok.injEq, Prod.mk.injEq] at h
      obtain ⟨rfl, rfl⟩ := h
      left
      have hj := pyJoin_pySplit ':' s
      rw [e] at hj
      have hm : ∀ p ∈ pySplit ':' s, ':' ∉ p.toList := by
        intro p hp
        obtain ⟨q, hq, rfl⟩ := List.mem_map.mp hp
        rw [String.toList_ofList]; exact splitC_not_mem _ _ _ hq
      rw [e] at hm
      exact ⟨by rw [← hj, ← String.toList_inj]; simp [pyJoin, joinC], hm m' (by simp), hm c' (by simp)⟩
    · cases h
  · rename_i hc
    split at h
    · cases h
    · rename_i hl
      simp only [Except.ok.injEq, Prod.mk.injEq] at h
      obtain ⟨rfl, rfl⟩ := h
      right
      have hm : ∀ p ∈ pySplit '.' s, '.' ∉ p.toList := by
        intro p hp
        obtain ⟨q, hq, rfl⟩ := List.mem_map.mp hp
        rw [String.toList_ofList]; exact splitC_not_mem _ _ _ hq
      have hj := pyJoin_pySplit '.' s
      rcases List.eq_nil_or_concat (pySplit '.' s) with e | ⟨ps, q, e⟩
      · exact absurd e (pySplit_ne_nil _ _)
      · rw [List.concat_eq_append] at e
        rw [e] at hj hm hl ⊢
        have hps : ps ≠ [] := by rintro rfl; simp at hl
        refine ⟨?_, hc, by simpa using hm q (by simp)⟩
        conv => lhs; rw [← hj]
        have : ∀ ps : List (List Char), ps ≠ [] → ∀ q, joinC '.' (ps ++ [q]) = joinC '.' ps ++ '.' :: q := by
          intro ps
          induction ps with
          | nil => simp
          | cons p ps ih =>
            intro _ q
            cases hps : ps with
            | nil => simp [joinC]
            | cons p' ps' =>
              rw [← hps, List.cons_append, joinC_cons (by simp), joinC_cons (by simp [hps]), ih (by simp [hps])]
              simp
        rw [← String.toList_inj]
        simp only [pyJoin, List.map_append, List.map_cons, List.map_nil, String.toList_ofList, String.toList_append,
          List.dropLast_concat, List.getLastD_concat]
        rw [this _ (by simpa using hps)]
        simp

example : modsplit "oidcmsg.storage.abfile.AbstractFileSystem" = .ok ("oidcmsg.storage.abfile", "AbstractFileSystem") ∧
    modsplit "a.b:C" = .ok ("a.b", "C") ∧ modsplit "a:b:c" = .error .valueError ∧
    modsplit "abc" = .error .valueError := by decide +kernel

/-! ## C63: choosing the storage configuration -/

/-- a section is configured: present and not empty -/
def Configured (db : Dict) (typ : String) (c : Val) : Prop := dget db typ = some c ∧ c.truthy = true

theorem getD_truthy {o : Option Val} (h : (o.getD .none).truthy = true) : ∃ c, o = some c ∧ c.truthy = true := by
  cases o with
  | none => simp [Val.truthy] at h
  | some c => exact ⟨c, rfl, h⟩

/-- the requested section, if configured -/
theorem C63_section (db : Dict) (typ : String) (c : Val) (h : Configured db typ c) : getStorageConf db typ = .ok c := by
  obtain ⟨h1, h2⟩ := h
  have hne : db.isEmpty = false := by cases db <;> simp_all [dget]
  simp [getStorageConf, hne, h1, h2]

/-- otherwise the default section -/
theorem C63_default (db : Dict) (typ : String) (c : Val) (h : ¬ ∃ c', Configured db typ c')
    (hd : Configured db "default" c) : getStorageConf db typ = .ok c := by
  have ht : typ ≠ "default" := by rintro rfl; exact h ⟨c, hd⟩
  obtain ⟨h1, h2⟩ := hd
  have hne : db.isEmpty = false := by cases db <;> simp_all [dget]
  have hf : ((dget db typ).getD .none).truthy = false := by
    rw [Bool.eq_false_iff]; intro ht'; exact h (getD_truthy ht')
  simp [getStorageConf, hne, hf, ht, h1]

/-- C63, what holds: for a non-empty configuration the error is raised exactly when the default section is requested
and not configured; no other error occurs. -/
theorem C63_errors_partial (db : Dict) (typ : String) (hne : db ≠ []) :
    (getStorageConf db typ = .error .configurationError ↔ typ = "default" ∧ ¬ ∃ c, Configured db "default" c) ∧
      (∀ e, getStorageConf db typ = .error e → e = .configurationError) := by
  have hne' : db.isEmpty = false := by cases db <;> simp_all
  unfold getStorageConf
  rw [hne', if_neg (by simp)]
  split
  · rename_i h
    obtain ⟨c, hc⟩ := getD_truthy h
    refine ⟨⟨fun h => (by cases h), ?_⟩, by simp⟩
    rintro ⟨rfl, hn⟩; exact absurd ⟨c, hc⟩ hn
  · rename_i h
    split
    · rename_i ht
      exact ⟨⟨fun h => (by cases h), fun hh => absurd hh.1 ht⟩, by simp⟩
    · rename_i ht
      have ht : typ = "default" := by simpa using ht
      subst ht
      refine ⟨⟨fun _ => ⟨rfl, ?_⟩, fun _ => rfl⟩, by simp⟩
      rintro ⟨c, hc, hc'⟩
      rw [hc] at h; exact h hc'

/-- C63 fails for an empty (or no) configuration: the default section is requested and missing, and the result is
`None` instead of an error. -/
theorem C63_counterexample (typ : String) : getStorageConf [] typ = .ok .none := rfl

/-- and a request for another section of a configuration without a default gives `None`, not an error -/
theorem C63_missing (db : Dict) (typ : String) (ht : typ ≠ "default") (h : dget db typ = none)
    (hd : dget db "default" = none) : getStorageConf db typ = .ok .none := by
  unfold getStorageConf
  split
  · rfl
  · simp [h, hd, ht, Val.truthy]

/-- C63: `storage_factory` gives the class the configuration without the handler, with every other entry. -/
theorem C63_factory {α : Type} (imp : Val → Res (Dict → Res α)) (conf : Dict) (a : α)
    (h : storageFactory imp conf = .ok a) :
    ∃ hd cls passed, dget conf "handler" = some hd ∧ hd.truthy = true ∧ imp hd = .ok cls ∧ cls passed = .ok a ∧
      dget passed "handler" = none ∧ ∀ k, k ≠ "handler" → dget passed k = dget conf k := by
  unfold storageFactory at h
  split at h
  · rename_i ht
    obtain ⟨hd, h1, h2⟩ := getD_truthy ht
    rw [h1] at h
    simp only [Option.getD_some] at h
    split at h
    · cases h
    · rename_i cls hc
      refine ⟨hd, cls, _, h1, h2, hc, h, ?_, ?_⟩
      · rw [dget_filter_key (f := fun k => k != "handler")]; simp
      · intro k hk
        rw [dget_filter_key (f := fun k => k != "handler")]; simp [hk]
  · cases h

/-- the class never sees the handler, whatever it does: two classes that agree on configurations without a handler
give the same result -/
theorem C63_factory_blind {α : Type} (imp imp' : Val → Res (Dict → Res α)) (conf : Dict)
    (h : ∀ v, (∃ e, imp v = .error e ∧ imp' v = .error e) ∨
      ∃ c c', imp v = .ok c ∧ imp' v = .ok c' ∧ ∀ d, dget d "handler" = none → c d = c' d) :
    storageFactory imp conf = storageFactory imp' conf := by
  unfold storageFactory
  split
  · rcases h ((dget conf "handler").getD .none) with ⟨e, h1, h2⟩ | ⟨c, c', h1, h2, h3⟩
    · rw [h1, h2]
    · rw [h1, h2]
      refine h3 _ ?_
      rw [dget_filter_key (f := fun k => k != "handler")]; simp
  · rfl

/-- C63: the in-memory storage is used exactly when the configuration selects nothing -/
theorem C63_init {α : Type} (imp : Val → Res (Dict → Res α)) (mem : String → α) (db : Dict) (key : String) :
    (∀ d, getStorageConf db key = .ok (.dict d) → d ≠ [] → initStorage imp mem db key = storageFactory imp d) ∧
    (∀ c, getStorageConf db key = .ok c → c.truthy = false → initStorage imp mem db key = .ok (mem key)) ∧
    (∀ e, getStorageConf db key = .error e → initStorage imp mem db key = .error e) := by
  have he : db.isEmpty = true → getStorageConf db key = .ok .none := by intro h; simp [getStorageConf, h]
  unfold initStorage
  refine ⟨fun d h hd => ?_, fun c h hc => ?_, fun e h => ?_⟩
  · by_cases hb : db.isEmpty
    · rw [he hb] at h; simp at h
    · simp [hb, h, Val.truthy, hd]
  · split
    · rfl
    · simp [h, hc]
  · by_cases hb : db.isEmpty
    · rw [he hb] at h; simp at h
    · simp [hb, h]

example : Configured [("keyjar", .dict [("handler", .str "m.C")])] "keyjar" (.dict [("handler", .str "m.C")]) :=
  ⟨rfl, rfl⟩
example : getStorageConf [("default", .dict [("a", .int 1)]), ("keyjar", .dict [])] "keyjar"
    = .ok (.dict [("a", .int 1)]) := rfl

end Verif
