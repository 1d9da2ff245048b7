import Verif.Model.FileTree
import Verif.Props.StoreClear

/-!
# C81: what a deletion removes, in the whole file system
-/

namespace Verif

/-- every place that holds something is in a directory, and the root is one -/
structure GoodTree (t : Tree) : Prop where
  root : t [] = some .dir
  parent : ∀ p c, t (p ++ [c]) ≠ none → t p = some .dir

/-- a name of a file or directory as it can stand in a path -/
def NameText (c : String) : Prop := isDirName c = false ∧ '/' ∉ c.toList

theorem nameText_ne {c : String} (h : isDirName c = false) : ¬ (c = "" ∨ c = ".") ∧ c ≠ ".." := by
  simp only [isDirName, Bool.or_eq_false_iff, beq_eq_false_iff_ne] at h
  exact ⟨fun e => e.elim h.1.1 h.1.2, h.2⟩

theorem walk_append (t : Tree) (a b : List String) (cur : List String) :
    walk t cur (a ++ b) = (walk t cur a).bind fun d => walk t d b := by
  induction a generalizing cur with
  | nil => rfl
  | cons c cs ih =>
    simp only [List.cons_append, walk]
    split
    · split
      · exact ih cur
      · split
        · exact ih _
        · split
          · exact ih _
          · rfl
    · rfl

/-- a step to an ordinary name -/
theorem walk_name {t : Tree} {cur : List String} {c : String} (hc : isDirName c = false) (hd : t cur = some .dir) :
    walk t cur [c] = if (t (cur ++ [c])).isSome then some (cur ++ [c]) else none := by
  obtain ⟨h₁, h₂⟩ := nameText_ne hc
  simp [walk, hd, h₁, h₂]

/-- what ends at a file ends with its name -/
theorem walk_file {t : Tree} (ht : GoodTree t) {s cs q : List String} {c : String} {f : File}
    (h : walk t s (cs ++ [c]) = some q) (hf : t q = some (.file f)) :
    ∃ d, walk t s cs = some d ∧ t d = some .dir ∧ isDirName c = false ∧ q = d ++ [c] := by
  rw [walk_append] at h
  cases hw : walk t s cs with
  | none => rw [hw] at h; cases h
  | some d =>
    rw [hw] at h
    replace h : walk t d [c] = some q := h
    simp only [walk] at h
    split at h
    · rename_i hd
      split at h
      · cases h; rw [hd] at hf; cases hf
      · rename_i h₁
        split at h
        · cases h
          exfalso
          rcases List.eq_nil_or_concat d with rfl | ⟨p, x, rfl⟩
          · rw [show ([] : List String).dropLast = [] from rfl, ht.root] at hf; cases hf
          · rw [List.concat_eq_append] at hd hf
            rw [List.dropLast_concat, ht.parent p x (by rw [hd]; simp)] at hf; cases hf
        · rename_i h₂
          split at h
          · cases h
            refine ⟨d, rfl, hd, ?_, rfl⟩
            simp only [isDirName, Bool.or_eq_false_iff, beq_eq_false_iff_ne]
            exact ⟨⟨fun e => h₁ (.inl e), fun e => h₁ (.inr e)⟩, h₂⟩
          · cases h
    · cases h

theorem joinC_snoc_append (c : Char) (ds : List (List Char)) (n x : List Char) :
    joinC c (ds ++ [n]) ++ x = joinC c (ds ++ [n ++ x]) := by
  induction ds with
  | nil => simp [joinC]
  | cons d ds ih =>
    cases ds with
    | nil => simp [joinC]
    | cons e es =>
      simp only [List.cons_append, joinC] at ih ⊢
      rw [List.append_assoc, List.cons_append, ih]

/-- a text without the separator behind another one belongs to its last part -/
theorem pySplit_append_text {c : Char} {s x : String} {ds : List String} {n : String} (hx : c ∉ x.toList)
    (h : pySplit c s = ds ++ [n]) : pySplit c (s ++ x) = ds ++ [n ++ x] := by
  have hall : ∀ p ∈ ds ++ [n], c ∉ p.toList := by
    rw [← h]; exact ((pySplit_pyJoin_iff c (pySplit c s)).1 (by rw [pyJoin_pySplit])).2
  have hs : s ++ x = pyJoin c (ds ++ [n ++ x]) := by
    rw [← pyJoin_pySplit c s, h]
    apply String.toList_inj.1
    simp only [pyJoin, String.toList_append, String.toList_ofList, List.map_append, List.map_cons, List.map_nil]
    exact joinC_snoc_append _ _ _ _
  rw [hs, pySplit_pyJoin (by simp)]
  intro p hp
  rcases List.mem_append.1 hp with hp | hp
  · exact hall p (by simp [hp])
  · rw [List.mem_singleton.1 hp, String.toList_append]
    exact fun hm => (List.mem_append.1 hm).elim (hall n (by simp)) hx

/-- the name of a lock file is never that of a directory -/
theorem isDirName_lockName (n : String) : isDirName (lockName n) = false := by
  have hlen : 5 ≤ (lockName n).toList.length := by
    have e : (".lock".toList).length = 5 := by decide
    rw [lockName, String.toList_append, List.length_append, e]; omega
  simp only [isDirName, Bool.or_eq_false_iff, beq_eq_false_iff_ne]
  refine ⟨⟨?_, ?_⟩, ?_⟩ <;> (intro e; rw [e] at hlen; revert hlen; decide)

/-- the outcome for a key that leads to a file: the file goes and the empty lock file stays; nothing happens if the lock
cannot be taken -/
theorem C81_file (now : Nat) (fdir : List String) (key : String) {t : Tree} (ht : GoodTree t) {q : List String} {f : File}
    (hw : walk t (startOf fdir key) (pySplit '/' key) = some q) (hf : t q = some (.file f)) :
    ∃ d n, q = d ++ [n] ∧ t d = some .dir ∧ isDirName n = false ∧ (pySplit '/' key).getLast? = some n ∧
      treeDel now fdir key t =
        if (lockName n).utf8ByteSize ≤ 255 ∧ t (d ++ [lockName n]) ≠ some .dir then
          (.ok (), (t.set (d ++ [lockName n]) (some (.file ⟨"", now⟩))).set (d ++ [n]) none)
        else (.error .osError, t) := by
  rcases List.eq_nil_or_concat (pySplit '/' key) with h0 | ⟨cs, n, hs⟩
  · exact absurd h0 (pySplit_ne_nil _ _)
  · rw [List.concat_eq_append] at hs
    have hw' := hw
    rw [hs] at hw
    obtain ⟨d, hd, hdir, hn, rfl⟩ := walk_file ht hw hf
    refine ⟨d, n, rfl, hdir, hn, by simp [hs], ?_⟩
    have hl : pySplit '/' (key ++ ".lock") = cs ++ [lockName n] := pySplit_append_text (by decide) hs
    have hlk : isDirName (lockName n) = false := isDirName_lockName n
    simp only [treeDel, hw', hf, openWrite, hl, List.dropLast_concat, hd, hdir, List.getLastD_concat, true_and, hlk]
    split
    · rename_i h; split at h
      · cases h
      · cases h; rename_i h'; rw [if_neg h']
    · rename_i h; split at h
      · cases h; rename_i h'; rw [if_pos h']
      · cases h

/-- C81, every key and every file system: a deletion changes nothing but the file that the key leads to, which is gone
afterwards, and the lock file beside it. -/
theorem C81_touches (now : Nat) (fdir : List String) (key : String) {t : Tree} (ht : GoodTree t) (p : List String)
    (h : (treeDel now fdir key t).2 p ≠ t p) :
    ∃ d n f, walk t (startOf fdir key) (pySplit '/' key) = some (d ++ [n]) ∧ t (d ++ [n]) = some (.file f) ∧
      (p = d ++ [n] ∧ (treeDel now fdir key t).2 p = none ∨
        p = d ++ [lockName n] ∧ (treeDel now fdir key t).2 p = some (.file ⟨"", now⟩)) := by
  cases hw : walk t (startOf fdir key) (pySplit '/' key) with
  | none => exact absurd (by simp [treeDel, hw]) h
  | some q =>
    cases hq : t q with
    | none => exact absurd (by simp [treeDel, hw, hq]) h
    | some nd =>
      cases nd with
      | dir => exact absurd (by simp [treeDel, hw, hq]) h
      | file f =>
        obtain ⟨d, n, rfl, -, -, -, hdel⟩ := C81_file now fdir key ht hw hq
        refine ⟨d, n, f, rfl, hq, ?_⟩
        rw [hdel] at h ⊢
        split at h
        · rename_i hc
          rw [if_pos hc]
          simp only [Tree.set] at h ⊢
          by_cases h₁ : p = d ++ [n]
          · left; simp [h₁]
          · by_cases h₂ : p = d ++ [lockName n]
            · right; subst h₂; simp [h₁]
            · simp [h₁, h₂] at h
        · exact absurd rfl h

/-- C81 for keys without a slash, in the whole file system: nothing but the file with that very name in the storage directory
and its lock file can change. -/
theorem C81_inside (now : Nat) (fdir : List String) (key : String) {t : Tree} (ht : GoodTree t) (hk : '/' ∉ key.toList)
    (p : List String) (h : (treeDel now fdir key t).2 p ≠ t p) : p = fdir ++ [key] ∨ p = fdir ++ [lockName key] := by
  obtain ⟨d, n, f, hw, hf, hp⟩ := C81_touches now fdir key ht p h
  have hs : pySplit '/' key = [] ++ [key] := by simp [pySplit, splitC_of_not_mem hk]
  have hst : startOf fdir key = fdir := by
    refine if_neg fun e => hk ?_
    cases hl : key.toList with
    | nil => rw [hl] at e; cases e
    | cons a as => rw [hl] at e; cases e; simp
  rw [hs, hst] at hw
  obtain ⟨d', hd', -, -, hq⟩ := walk_file ht hw hf
  cases hd'
  obtain ⟨rfl, hn⟩ := List.append_inj' hq rfl
  cases hn
  exact hp.imp And.left And.left

/-- from a directory down through directories -/
theorem walk_down {t : Tree} (cs : List String) (cur : List String) (hn : ∀ c ∈ cs, isDirName c = false)
    (hd : ∀ p, p <+: cs → t (cur ++ p) = some .dir) : walk t cur cs = some (cur ++ cs) := by
  induction cs generalizing cur with
  | nil => simp [walk]
  | cons c cs ih =>
    have h₀ := hd [] List.nil_prefix
    rw [List.append_nil] at h₀
    have h₁ := hd [c] (by simp)
    rw [show c :: cs = [c] ++ cs from rfl, walk_append, walk_name (hn c (by simp)) h₀, h₁]
    simp only [Option.isSome_some, if_true, Option.bind_some]
    rw [ih (cur ++ [c]) (fun x hx => hn x (by simp [hx])), List.append_assoc]
    intro p hp
    rw [List.append_assoc]
    exact hd ([c] ++ p) (by simpa using hp)

/-- all the places above something are directories -/
theorem GoodTree.above {t : Tree} (ht : GoodTree t) {q : List String} (hq : t q ≠ none) {p : List String} (hp : p <+: q)
    (hne : p ≠ q) : t p = some .dir := by
  obtain ⟨r, rfl⟩ := hp
  suffices h : ∀ k, ∀ r : List String, r.length = k + 1 → t (p ++ r) ≠ none → t p = some .dir by
    cases r with
    | nil => simp at hne
    | cons a r => exact h r.length _ rfl hq
  intro k
  induction k with
  | zero =>
    intro r hr hq
    match r, hr with
    | [x], _ => exact ht.parent p x hq
  | succ k ih =>
    intro r hr hq
    rcases List.eq_nil_or_concat r with rfl | ⟨r', x, rfl⟩
    · simp at hr
    · rw [List.concat_eq_append] at hr hq
      rw [← List.append_assoc] at hq
      have h := ht.parent _ _ hq
      refine ih r' (by simpa using hr) (by rw [h]; simp)

/-- C81 fails for every file of the system: the key that is its absolute path removes it, wherever the storage directory
is.  (The lock file has to fit beside it.) -/
theorem C81_any_file (now : Nat) (fdir ds : List String) (n : String) {t : Tree} (ht : GoodTree t) {f : File}
    (hnames : ∀ c ∈ ds ++ [n], NameText c) (hf : t (ds ++ [n]) = some (.file f))
    (hlen : (lockName n).utf8ByteSize ≤ 255) (hlock : t (ds ++ [lockName n]) ≠ some .dir) :
    treeDel now fdir ("/" ++ pyJoin '/' (ds ++ [n])) t =
      (.ok (), (t.set (ds ++ [lockName n]) (some (.file ⟨"", now⟩))).set (ds ++ [n]) none) := by
  have hs : pySplit '/' ("/" ++ pyJoin '/' (ds ++ [n])) = "" :: (ds ++ [n]) := by
    have : "/" ++ pyJoin '/' (ds ++ [n]) = pyJoin '/' ("" :: (ds ++ [n])) := by
      apply String.toList_inj.1
      cases ds <;> simp [pyJoin, joinC]
    rw [this, pySplit_pyJoin (by simp)]
    intro p hp
    rcases List.mem_cons.1 hp with rfl | hp
    · simp
    · exact (hnames p hp).2
  have hst : startOf fdir ("/" ++ pyJoin '/' (ds ++ [n])) = [] := by simp [startOf]
  have habove : ∀ p, p <+: ds → t p = some .dir := by
    intro p hp
    refine ht.above (q := ds ++ [n]) (by rw [hf]; simp) (hp.trans (List.prefix_append _ _)) ?_
    rintro rfl
    have := hp.length_le
    simp at this
    omega
  have hw : walk t [] ("" :: (ds ++ [n])) = some (ds ++ [n]) := by
    have h1 : walk t [] ("" :: (ds ++ [n])) = walk t [] (ds ++ [n]) := by simp [walk, ht.root]
    rw [h1, walk_append, walk_down ds [] (fun c hc => (hnames c (by simp [hc])).1) (by simpa using habove)]
    simp only [List.nil_append, Option.bind_some]
    rw [walk_name (hnames n (by simp)).1 (habove ds (List.prefix_refl _)), hf]
    simp
  obtain ⟨d', n', hq, -, -, -, hdel⟩ := C81_file now fdir _ ht (by rw [hs, hst]; exact hw) hf
  obtain ⟨rfl, hn⟩ := List.append_inj' hq rfl
  cases hn
  rw [hdel, if_pos ⟨hlen, hlock⟩]

/-- C81 fails for every file beside the storage directory: `../` and its name remove it. -/
theorem C81_beside (now : Nat) (ds : List String) (e n : String) {t : Tree} (ht : GoodTree t) {f : File} (hn : NameText n)
    (he : t (ds ++ [e]) = some .dir) (hf : t (ds ++ [n]) = some (.file f))
    (hlen : (lockName n).utf8ByteSize ≤ 255) (hlock : t (ds ++ [lockName n]) ≠ some .dir) :
    treeDel now (ds ++ [e]) ("../" ++ n) t =
      (.ok (), (t.set (ds ++ [lockName n]) (some (.file ⟨"", now⟩))).set (ds ++ [n]) none) := by
  have hs : pySplit '/' ("../" ++ n) = ["..", n] := by
    have : "../" ++ n = pyJoin '/' ["..", n] := by
      apply String.toList_inj.1; simp [pyJoin, joinC]
    rw [this, pySplit_pyJoin (by simp)]
    intro p hp
    rcases List.mem_cons.1 hp with rfl | hp
    · decide
    · rw [List.mem_singleton.1 hp]; exact hn.2
  have hst : startOf (ds ++ [e]) ("../" ++ n) = ds ++ [e] := by simp [startOf]
  have hd : t ds = some .dir := ht.parent ds n (by rw [hf]; simp)
  have hw : walk t (ds ++ [e]) ["..", n] = some (ds ++ [n]) := by
    have h1 : walk t (ds ++ [e]) ["..", n] = walk t ds [n] := by
      rw [walk]; simp [he]
    rw [h1, walk_name hn.1 hd, hf]; simp
  obtain ⟨d', n', hq, -, -, -, hdel⟩ := C81_file now _ _ ht (by rw [hs, hst]; exact hw) hf
  obtain ⟨rfl, hn'⟩ := List.append_inj' hq rfl
  cases hn'
  rw [hdel, if_pos ⟨hlen, hlock⟩]

/-- a small file system: `/etc/key`, `/etc/store/a` and `/etc/store` as storage directory -/
def sampleTree : Tree := fun p =>
  if p = [] ∨ p = ["etc"] ∨ p = ["etc", "store"] then some .dir
  else if p = ["etc", "key"] then some (.file ⟨"secret", 3⟩)
  else if p = ["etc", "store", "a"] then some (.file ⟨"1", 4⟩)
  else none

theorem sampleTree_good : GoodTree sampleTree := by
  refine ⟨rfl, ?_⟩
  intro p c h
  match p with
  | [] => rfl
  | [a] =>
    by_cases ha : a = "etc"
    · subst ha; rfl
    · simp [sampleTree, ha] at h
  | [a, b] =>
    by_cases ha : a = "etc" ∧ b = "store"
    · obtain ⟨rfl, rfl⟩ := ha; rfl
    · exfalso; apply ha; simp [sampleTree] at h; exact ⟨h.1, h.2.1⟩
  | a :: b :: d :: r => simp [sampleTree] at h

/-- both ways out of the storage directory remove `/etc/key`; a key of the directory leaves it alone -/
example : ((treeDel 9 ["etc", "store"] "../key" sampleTree).2 ["etc", "key"],
    (treeDel 9 ["etc", "store"] "/etc/key" sampleTree).2 ["etc", "key"],
    (treeDel 9 ["etc", "store"] "a" sampleTree).2 ["etc", "key"],
    (treeDel 9 ["etc", "store"] "a" sampleTree).2 ["etc", "store", "a"],
    (treeDel 9 ["etc", "store"] "a" sampleTree).2 ["etc", "store", "a.lock"]) =
    (none, none, some (.file ⟨"secret", 3⟩), none, some (.file ⟨"", 9⟩)) := by decide +kernel

example : treeDel 9 ["etc", "store"] "../key" sampleTree =
    (.ok (), (sampleTree.set (["etc"] ++ ["key.lock"]) (some (.file ⟨"", 9⟩))).set (["etc"] ++ ["key"]) none) :=
  C81_beside 9 ["etc"] "store" "key" sampleTree_good ⟨by decide, by decide⟩ rfl rfl (by decide) (by decide)

example : treeDel 9 ["etc", "store"] ("/" ++ pyJoin '/' (["etc"] ++ ["key"])) sampleTree =
    (.ok (), (sampleTree.set (["etc"] ++ ["key.lock"]) (some (.file ⟨"", 9⟩))).set (["etc"] ++ ["key"]) none) :=
  C81_any_file 9 ["etc", "store"] ["etc"] "key" sampleTree_good
    (by intro c hc; simp only [List.cons_append, List.nil_append, List.mem_cons, List.not_mem_nil, or_false] at hc
        rcases hc with rfl | rfl <;> exact ⟨by decide, by decide⟩) rfl (by decide) (by decide)

/-! ## The directory of `Model/FileStore.lean` is the storage directory of the tree -/

/-- the storage directory holds these files and no directories -/
def HoldsDir (t : Tree) (fdir : List String) (dir : Dir) : Prop :=
  t fdir = some .dir ∧ ∀ n, NameText n → t (fdir ++ [n]) = (dget dir n).map .file

/-- following a key that stays in the directory -/
theorem walk_resolve {t : Tree} {fdir : List String} {dir : Dir} (ht : GoodTree t) (hh : HoldsDir t fdir dir) (key : String)
    (cs : List String) (hcs : ∀ c ∈ cs, '/' ∉ c.toList) (ho : ∀ k, resolveComps key cs ≠ .outside k) :
    (∀ n, resolveComps key cs = .inside n →
        NameText n ∧ walk t fdir cs = if dhas dir n then some (fdir ++ [n]) else none) ∧
      (resolveComps key cs = .notFile → ∀ q, walk t fdir cs = some q → ∀ f, t q ≠ some (.file f)) := by
  induction cs with
  | nil =>
    refine ⟨fun n h => (by cases h), ?_⟩
    intro _ q hq f
    cases hq
    rw [hh.1]; simp
  | cons c cs ih =>
    cases cs with
    | nil =>
      by_cases hc : isDirName c = true
      · refine ⟨by intro n h; simp [resolveComps, hc] at h, ?_⟩
        intro _ q hq f hf
        obtain ⟨-, -, -, hc', -⟩ := walk_file (cs := []) ht hq hf
        rw [hc] at hc'; cases hc'
      · replace hc : isDirName c = false := by simpa using hc
        refine ⟨?_, by intro h; simp [resolveComps, hc] at h⟩
        intro n h
        simp only [resolveComps, hc, Bool.false_eq_true, if_false, Target.inside.injEq] at h
        subst h
        have hn : NameText c := ⟨hc, hcs c (by simp)⟩
        refine ⟨hn, ?_⟩
        rw [walk_name hc hh.1, hh.2 c hn]
        cases hg : dget dir c <;> simp [dhas, hg]
    | cons c' cs' =>
      have hr : resolveComps key (c :: c' :: cs') =
          if (c == "" || c == ".") = true then resolveComps key (c' :: cs')
          else if (c == "..") = true then .outside key else .notFile := rfl
      by_cases h₁ : c = "" ∨ c = "."
      · have hb : (c == "" || c == ".") = true := by simpa using h₁
        rw [if_pos hb] at hr
        have hwk : walk t fdir (c :: c' :: cs') = walk t fdir (c' :: cs') := by
          rw [walk, if_pos hh.1, if_pos h₁]
        rw [hr] at ho ⊢
        rw [hwk]
        exact ih (fun x hx => hcs x (by simp [hx])) ho
      · have hb : ¬ (c == "" || c == ".") = true := by simpa using h₁
        rw [if_neg hb] at hr
        by_cases h₂ : c = ".."
        · rw [if_pos (by simpa using h₂)] at hr
          exact absurd hr (ho key)
        · rw [if_neg (by simpa using h₂)] at hr
          refine ⟨fun n h => (by rw [hr] at h; cases h), ?_⟩
          intro _ q hq f hf
          have hn : NameText c := by
            refine ⟨?_, hcs c (by simp)⟩
            simp only [isDirName, Bool.or_eq_false_iff, beq_eq_false_iff_ne]
            exact ⟨⟨fun e => h₁ (.inl e), fun e => h₁ (.inr e)⟩, h₂⟩
          rw [show c :: c' :: cs' = [c] ++ (c' :: cs') from rfl, walk_append, walk_name hn.1 hh.1, hh.2 c hn] at hq
          cases hg : dget dir c with
          | none => rw [hg] at hq; cases hq
          | some g =>
            rw [hg] at hq
            replace hq : walk t (fdir ++ [c]) (c' :: cs') = some q := hq
            rw [walk, hh.2 c hn, hg] at hq
            simp at hq

theorem lockName_nameText {n : String} (h : '/' ∉ n.toList) : NameText (lockName n) := by
  refine ⟨isDirName_lockName n, ?_⟩
  rw [lockName, String.toList_append]
  exact fun hm => (List.mem_append.1 hm).elim h (by decide)

/-- The deletion on the directory and the deletion on the whole file system agree for every key that does not leave the
directory: the same outcome, the directory afterwards is what the tree holds, and nothing else has changed. -/
theorem C81_refines (now : Nat) (fdir : List String) (key : String) (i : Inst) (dir : Dir) {t : Tree} (ht : GoodTree t)
    (hh : HoldsDir t fdir dir) (ho : ∀ k, resolveRaw key ≠ .outside k) :
    (treeDel now fdir key t).1 = (fsDel now key i dir).res ∧
      HoldsDir (treeDel now fdir key t).2 fdir (fsDel now key i dir).dir ∧
      ∀ p, (∀ n, p ≠ fdir ++ [n]) → (treeDel now fdir key t).2 p = t p := by
  have habs : ¬ key.toList.head? = some '/' := fun e => ho key (by simp [resolveRaw, e])
  have hst : startOf fdir key = fdir := if_neg habs
  have hraw : resolveRaw key = resolveComps key (pySplit '/' key) := if_neg habs
  have hcs : ∀ c ∈ pySplit '/' key, '/' ∉ c.toList :=
    ((pySplit_pyJoin_iff '/' (pySplit '/' key)).1 (by rw [pyJoin_pySplit])).2
  rw [hraw] at ho
  obtain ⟨hin, hnot⟩ := walk_resolve ht hh key _ hcs ho
  cases hr : resolveComps key (pySplit '/' key) with
  | outside k => exact absurd hr (ho k)
  | notFile =>
    have htd : treeDel now fdir key t = (.ok (), t) := by
      rw [treeDel, hst]
      cases hw : walk t fdir (pySplit '/' key) with
      | none => rfl
      | some q =>
        have := hnot hr q hw
        cases hq : t q with
        | none => simp [hq]
        | some nd =>
          cases nd with
          | dir => simp [hq]
          | file f => exact absurd hq (this f)
    rw [htd]
    simp only [fsDel, hraw, hr]
    exact ⟨trivial, hh, fun _ _ => trivial⟩
  | inside n =>
    obtain ⟨hn, hw⟩ := hin n hr
    cases hg : dget dir n with
    | none =>
      have hb : dhas dir n = false := by simp [dhas, hg]
      rw [hb] at hw
      have htd : treeDel now fdir key t = (.ok (), t) := by
        rw [treeDel, hst, hw]; rfl
      rw [htd]
      simp only [fsDel, hraw, hr, hb, Bool.false_eq_true, if_false]
      exact ⟨trivial, hh, fun _ _ => trivial⟩
    | some f =>
      have hb : dhas dir n = true := by simp [dhas, hg]
      rw [hb, if_pos rfl] at hw
      have hf : t (fdir ++ [n]) = some (.file f) := by rw [hh.2 n hn, hg]; rfl
      obtain ⟨d, n', hq, -, -, -, hdel⟩ := C81_file now fdir key ht (by rw [hst]; exact hw) hf
      obtain ⟨rfl, e⟩ := List.append_inj' hq rfl
      cases e
      have hlk : t (fdir ++ [lockName n]) ≠ some .dir := by
        rw [hh.2 _ (lockName_nameText hn.2)]
        cases dget dir (lockName n) <;> simp
      rw [hdel]
      simp only [fsDel, hraw, hr, hb, acquire]
      by_cases hl : (lockName n).utf8ByteSize ≤ 255
      · rw [if_pos ⟨hl, hlk⟩]
        simp only [if_true, hl]
        refine ⟨trivial, ⟨?_, ?_⟩, ?_⟩
        · simp [Tree.set, hh.1]
        · intro m hm
          simp only [Tree.set, List.append_cancel_left_eq, List.cons.injEq, and_true]
          by_cases h₁ : m = n
          · subst h₁; rw [if_pos rfl, dget_ddel_same]; rfl
          · rw [if_neg h₁, dget_ddel_ne _ (Ne.symm h₁)]
            by_cases h₂ : m = lockName n
            · subst h₂; rw [if_pos rfl, dget_dset_same]; rfl
            · rw [if_neg h₂, dget_dset_ne _ _ (Ne.symm h₂), hh.2 m hm]
        · intro p hp
          simp [Tree.set, hp]
      · rw [if_neg fun h => hl h.1]
        simp only [if_true, hl, if_false]
        exact ⟨trivial, hh, fun _ _ => trivial⟩

example : HoldsDir sampleTree ["etc", "store"] [("a", ⟨"1", 4⟩)] := by
  refine ⟨rfl, fun n _ => ?_⟩
  by_cases h : n = "a"
  · subst h; rfl
  · have h' : ¬ "a" = n := fun e => h e.symm
    simp [sampleTree, dget, h, h']

/-! ## C46: what writing touches, in the whole file system -/

theorem startOf_plain {name : String} (fdir : List String) (h : '/' ∉ name.toList) : startOf fdir name = fdir := by
  refine if_neg fun e => h ?_
  cases hl : name.toList with
  | nil => rw [hl] at e; cases e
  | cons a as => rw [hl] at e; cases e; simp

theorem pySplit_plain {name : String} (h : '/' ∉ name.toList) : pySplit '/' name = [name] := by
  simp [pySplit, splitC_of_not_mem h]

/-- opening a file by its name in a directory -/
theorem openWrite_name (f : File) (t : Tree) (fdir : List String) (name : String) :
    openWrite f t fdir [name] =
      if t fdir = some .dir ∧ isDirName name = false ∧ name.utf8ByteSize ≤ 255 ∧ t (fdir ++ [name]) ≠ some .dir then
        .ok (t.set (fdir ++ [name]) (some (.file f)))
      else .error .osError := rfl

/-- the directories that are made are on the way -/
theorem makeDirs_touches {cs : List String} {cur : List String} {t t' : Tree} (h : makeDirs t cur cs = .ok t')
    (p : List String) (hp : t' p ≠ t p) : p <+: cur ++ cs ∧ t p = none ∧ t' p = some .dir := by
  induction cs generalizing cur t with
  | nil => cases h; exact absurd rfl hp
  | cons c cs ih =>
    have e : cur ++ [c] ++ cs = cur ++ c :: cs := by simp
    simp only [makeDirs] at h
    split at h
    · have := ih h hp
      rwa [e] at this
    · cases h
    · rename_i hnone
      by_cases hpc : p = cur ++ [c]
      · refine ⟨⟨cs, by rw [hpc, e]⟩, by rw [hpc]; exact hnone, ?_⟩
        by_cases hq : t' p = (t.set (cur ++ [c]) (some .dir)) p
        · rw [hq, hpc]; simp [Tree.set]
        · exact (ih h hq).2.2
      · have hq : t' p ≠ (t.set (cur ++ [c]) (some .dir)) p := by simpa [Tree.set, hpc] using hp
        have := ih h hq
        rw [e] at this
        simpa [Tree.set, hpc] using this

/-- nothing is made where everything is there -/
theorem makeDirs_there {cs : List String} {cur : List String} {t : Tree} (h : ∀ p, p <+: cs → t (cur ++ p) = some .dir) :
    makeDirs t cur cs = .ok t := by
  induction cs generalizing cur with
  | nil => rfl
  | cons c cs ih =>
    have h1 := h [c] (by simp)
    simp only [makeDirs, h1]
    exact ih fun p hp => by simpa using h ([c] ++ p) (by simpa using hp)

/-- C46 in the whole file system: whatever the key and the value, and whatever is in the file system, writing makes the
missing directories of the storage directory, and otherwise changes nothing but the file with the converted key as its name,
in that directory, and its lock file. -/
theorem C46_touches (conv : Conv) (now : Nat) (fdir : List String) (key : String) (v : Val) (t : Tree) (p : List String)
    (h : (treeSet conv now fdir key v t).2 p ≠ t p) :
    (p <+: fdir ∧ t p = none ∧ (treeSet conv now fdir key v t).2 p = some .dir) ∨ p = fdir ++ [quotePlus key] ∨
      p = fdir ++ [lockName (quotePlus key)] := by
  by_cases h₁ : p = fdir ++ [quotePlus key]
  · exact .inr (.inl h₁)
  by_cases h₂ : p = fdir ++ [lockName (quotePlus key)]
  · exact .inr (.inr h₂)
  left
  have hsl : '/' ∉ (quotePlus key).toList := (C46_single_component key).1
  have hsl' : '/' ∉ (lockName (quotePlus key)).toList := (C46_lock_file key).1
  have hs := pySplit_plain hsl
  have hs' : pySplit '/' (quotePlus key ++ ".lock") = [lockName (quotePlus key)] := pySplit_plain hsl'
  have hst := startOf_plain fdir hsl
  have hset : ∀ (t : Tree) (name : String) (x : Option Node), p ≠ fdir ++ [name] → (t.set (fdir ++ [name]) x) p = t p := by
    intro t name x hne; simp [Tree.set, hne]
  have hopen : ∀ (f : File) (t t' : Tree) (name : String), p ≠ fdir ++ [name] → openWrite f t fdir [name] = .ok t' →
      t' p = t p := by
    intro f t t' name hne hok
    rw [openWrite_name] at hok
    split at hok
    · cases hok; exact hset _ _ _ hne
    · cases hok
  suffices hsuf : ∀ t0, makeDirs t [] fdir = .ok t0 → (treeSet conv now fdir key v t).2 p = t0 p by
    cases hm : makeDirs t [] fdir with
    | error e => exact absurd (by simp [treeSet, hm]) h
    | ok t0 =>
      rw [hsuf t0 hm] at h ⊢
      simpa using makeDirs_touches hm p h
  intro t0 hm
  simp only [treeSet, hm, hst, hs']
  cases hl : openWrite ⟨"", now⟩ t0 fdir [lockName (quotePlus key)] with
  | error e => rfl
  | ok t1 =>
    rw [← hopen _ _ _ _ h₂ hl]
    simp only [treeWrite, hst, hs]
    cases hw : openWrite ⟨"", now⟩ t1 fdir [quotePlus key] with
    | error e => rfl
    | ok t2 =>
      cases conv.ser v with
      | error e => exact hopen _ _ _ _ h₁ hw
      | ok txt =>
        simp only []
        cases hw' : openWrite ⟨txt, now⟩ t1 fdir [quotePlus key] with
        | error e => exact hopen _ _ _ _ h₁ hw
        | ok t3 => exact hopen _ _ _ _ h₁ hw'

/-- Writing on the directory alone and writing on the whole file system agree, for every key and value: the same outcome,
and the tree holds the directory as it is afterwards. -/
theorem C46_refines (conv : Conv) (now : Nat) (fdir : List String) (key : String) (v : Val) (i : Inst) (dir : Dir)
    {t : Tree} (ht : GoodTree t) (hh : HoldsDir t fdir dir) :
    (treeSet conv now fdir key v t).1 = (fsSet conv now key v i dir).res ∧
      HoldsDir (treeSet conv now fdir key v t).2 fdir (fsSet conv now key v i dir).dir := by
  have hsl : '/' ∉ (quotePlus key).toList := (C46_single_component key).1
  have hsl' : '/' ∉ (lockName (quotePlus key)).toList := (C46_lock_file key).1
  have hs := pySplit_plain hsl
  have hs' : pySplit '/' (quotePlus key ++ ".lock") = [lockName (quotePlus key)] := pySplit_plain hsl'
  have hst := startOf_plain fdir hsl
  have hln : NameText (lockName (quotePlus key)) := lockName_nameText hsl
  have hm : makeDirs t [] fdir = .ok t := by
    refine makeDirs_there fun p hp => ?_
    by_cases e : p = fdir
    · subst e; simpa using hh.1
    · simpa using ht.above (by rw [hh.1]; simp) hp e
  have hnd : ∀ {t : Tree} {dir : Dir}, HoldsDir t fdir dir → ∀ n, NameText n → t (fdir ++ [n]) ≠ some .dir := by
    intro t dir hh n hn
    rw [hh.2 n hn]
    cases dget dir n <;> simp
  have hput : ∀ {t : Tree} {dir : Dir}, HoldsDir t fdir dir → ∀ (n : String) (f : File),
      HoldsDir (t.set (fdir ++ [n]) (some (.file f))) fdir (dset dir n f) := by
    intro t dir hh n f
    refine ⟨by simp [Tree.set, hh.1], fun m hm => ?_⟩
    simp only [Tree.set, List.append_cancel_left_eq, List.cons.injEq, and_true, dget_dset]
    by_cases e : m = n
    · subst e; simp
    · rw [if_neg e, if_neg (Ne.symm e), hh.2 m hm]
  simp only [treeSet, hm, hst, hs', openWrite_name, hh.1, hln.1, hnd hh _ hln, fsSet, acquire, true_and, and_true,
    ne_eq, not_false_eq_true]
  by_cases hl : (lockName (quotePlus key)).utf8ByteSize ≤ 255
  · simp only [hl, if_true]
    have hh1 := hput hh (lockName (quotePlus key)) ⟨"", now⟩
    simp only [treeWrite, hst, hs, openWrite_name, hh1.1, true_and]
    by_cases hd : isDirName (quotePlus key) = true
    · simp only [hd, if_true, Bool.true_eq_false, false_and, if_false]
      exact ⟨trivial, hh1⟩
    · replace hd : isDirName (quotePlus key) = false := by simpa using hd
      have hsz : (quotePlus key).utf8ByteSize ≤ 255 := by
        have := size_lockName (quotePlus key)
        omega
      have hnn := hnd hh1 _ ⟨hd, hsl⟩
      simp only [hd, Bool.false_eq_true, if_false, true_and, hsz, ne_eq, hnn, not_false_eq_true, if_true]
      cases conv.ser v with
      | error e => exact ⟨rfl, hput hh1 _ _⟩
      | ok txt => exact ⟨rfl, hput hh1 _ _⟩
  · simp only [hl, if_false]
    exact ⟨trivial, hh⟩

/-- a key that looks like a path out of the directory makes a file in it; the key `..` is refused -/
example : ((treeSet passThru 9 ["etc", "store"] "../key" (.str "x") sampleTree).2 ["etc", "store", "..%2Fkey"],
    (treeSet passThru 9 ["etc", "store"] "../key" (.str "x") sampleTree).2 ["etc", "key"],
    (treeSet passThru 9 ["etc", "store"] ".." (.str "x") sampleTree).1,
    (treeSet passThru 9 ["etc", "new", "er"] "k" (.str "x") sampleTree).2 ["etc", "new"]) =
    (some (.file ⟨"x", 9⟩), some (.file ⟨"secret", 3⟩), .error .osError, some .dir) := by decide +kernel

end Verif
