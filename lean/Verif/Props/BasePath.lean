import Verif.Props.Config

/-!
# Base paths: C74
-/

namespace Verif

/-- the value at a location of a configuration -/
def look : Val → List String → Option Val
  | v, [] => some v
  | .dict d, k :: ks =>
    match dget d k with
    | some v => look v ks
    | none => none
  | _, _ :: _ => none

/-- the location of a section: `""` is the configuration itself -/
def secLoc (s : String) : List String := if s = "" then [] else [s]

/-- the locations that `item_paths` names -/
inductive Sel : List (String × Items) → List String → Prop
  | attr {ps s l a} : (s, .attrs l) ∈ ps → a ∈ l → Sel ps (secLoc s ++ [a])
  | path {ps s} : (s, .path) ∈ ps → Sel ps (secLoc s)
  | sub {ps s l loc} : (s, .sub l) ∈ ps → Sel l loc → Sel ps (secLoc s ++ loc)

theorem Sel.mono {ps qs loc} (h : Sel ps loc) (hs : ps ⊆ qs) : Sel qs loc := by
  cases h with
  | attr h ha => exact .attr (hs h) ha
  | path h => exact .path (hs h)
  | sub h hl => exact .sub (hs h) hl

/-- a non-empty path that does not begin with a slash -/
def Relative (p : String) : Prop := p ≠ "" ∧ startsWith "/" p = false

def Leaf (v : Val) : Prop := ∀ d, v ≠ .dict d

/-- `c'` is `c` with some of the relative paths at the locations `Q` joined to the base -/
def Changed (join : String → String → Res String) (base : String) (Q : List String → Prop) (c c' : Val) : Prop :=
  ∀ loc v, Leaf v → look c loc = some v → look c' loc = some v ∨
    (Q loc ∧ ∃ p r, v = .str p ∧ Relative p ∧ join base p = .ok r ∧ look c' loc = some (.str r))

/-- `os.path.join` with an absolute base gives an absolute path; the unbound name gives none at all -/
def JoinsAbs (join : String → String → Res String) (base : String) : Prop :=
  ∀ p r, join base p = .ok r → startsWith "/" r = true

theorem Changed.refl {join base Q} (c : Val) : Changed join base Q c c := fun _ _ _ h => .inl h

theorem Changed.mono {join base c c'} {Q Q' : List String → Prop} (h : ∀ l, Q l → Q' l)
    (hc : Changed join base Q c c') : Changed join base Q' c c' := by
  intro loc v hl he
  rcases hc loc v hl he with h1 | ⟨h1, h2⟩
  · exact .inl h1
  · exact .inr ⟨h _ h1, h2⟩

theorem Changed.trans {join base Q a b c} (hj : JoinsAbs join base) (h1 : Changed join base Q a b)
    (h2 : Changed join base Q b c) : Changed join base Q a c := by
  intro loc v hl he
  rcases h1 loc v hl he with h | ⟨hq, p, r, rfl, hp, hr, h⟩
  · exact h2 loc v hl h
  · rcases h2 loc (.str r) (by intro d hd; cases hd) h with h' | ⟨_, p', r', e, hp', _⟩
    · exact .inr ⟨hq, p, r, rfl, hp, hr, h'⟩
    · cases e
      exact absurd (hj _ _ hr) (by simp [hp'.2])

theorem look_leaf {v w : Val} {ks : List String} (hv : Leaf v) (h : look v ks = some w) : ks = [] ∧ v = w := by
  cases ks with
  | nil => exact ⟨rfl, by simpa [look] using h⟩
  | cons k ks =>
    cases v <;> simp [look] at h
    exact absurd rfl (hv _)

theorem leaf_str (p : String) : Leaf (.str p) := by intro d h; cases h

/-- replacing the value at one key by one that is changed at `Q` -/
theorem Changed.dset {join base} {Q Q' : List String → Prop} {d : Dict} {k : String} {v v' : Val}
    (hd : dget d k = some v) (h : Changed join base Q v v') (hq : ∀ l, Q l → Q' (k :: l)) :
    Changed join base Q' (.dict d) (.dict (dset d k v')) := by
  intro loc w hl he
  cases loc with
  | nil => simp [look] at he; exact absurd he.symm (hl d)
  | cons k' ks =>
    simp only [look] at he ⊢
    by_cases hk : k' = k
    · subst hk
      rw [hd] at he
      rw [dget_dset_same]
      rcases h ks w hl he with h1 | ⟨h1, h2⟩
      · exact .inl h1
      · exact .inr ⟨hq _ h1, h2⟩
    · rw [dget_dset_ne _ _ (fun e => hk e.symm)]
      exact .inl he

theorem changed_str {join base} {Q : List String → Prop} {p r : String} (hp : Relative p) (hr : join base p = .ok r)
    (hq : Q []) : Changed join base Q (.str p) (.str r) := by
  intro loc w _ he
  obtain ⟨rfl, rfl⟩ := look_leaf (leaf_str p) he
  exact .inr ⟨hq, p, r, rfl, hp, hr, rfl⟩

theorem baseAttr_changed (join base) (part : Val) (a : String) :
    Changed join base (fun l => l = [a]) part (baseAttr join base part a).1 := by
  unfold baseAttr
  split
  · rename_i d
    split
    · exact .refl _
    · rename_i p hp
      split
      · exact .refl _
      · split
        · exact .refl _
        · split
          · rename_i h1 h2 _ r hr
            exact Changed.dset (Q := fun l => l = []) hp (changed_str ⟨h1, by simpa using h2⟩ hr rfl) (by simp)
          · exact .refl _
    · split <;> exact .refl _
  · exact .refl _

theorem baseAttrs_changed {join base} (hj : JoinsAbs join base) (l : List String) :
    ∀ part, Changed join base (fun loc => ∃ a ∈ l, loc = [a]) part (baseAttrs join base l part).1 := by
  induction l with
  | nil => exact fun part => .refl _
  | cons a as ih =>
    intro part
    have h1 := baseAttr_changed join base part a
    have h1' := h1.mono (Q' := fun loc => ∃ b ∈ a :: as, loc = [b]) (fun l h => ⟨a, by simp, h⟩)
    unfold baseAttrs
    split
    · rename_i e; rw [e] at h1'; exact h1'
    · rename_i e; rw [e] at h1'
      refine h1'.trans hj ((ih _).mono ?_)
      rintro l ⟨b, hb, e⟩; exact ⟨b, by simp [hb], e⟩

theorem confPart_ok {conf : Val} {s : String} {part : Val} (h : confPart conf s = .ok part) (ht : part.truthy = true) :
    (s = "" ∧ part = conf) ∨ (s ≠ "" ∧ ∃ d, conf = .dict d ∧ dget d s = some part) := by
  unfold confPart at h
  split at h
  · rename_i hs; cases h; exact .inl ⟨hs, rfl⟩
  · rename_i hs
    split at h
    · rename_i d
      cases h
      obtain ⟨c, hc, _⟩ := getD_truthy ht
      exact .inr ⟨hs, d, rfl, by rw [hc]; rfl⟩
    · cases h

theorem putPart_changed {join base conf s part r} {Q : List String → Prop} (h : confPart conf s = .ok part)
    (ht : part.truthy = true) (hc : Changed join base Q part r.1) :
    Changed join base (fun l => ∃ l', l = secLoc s ++ l' ∧ Q l') conf (putPart conf s r).1 := by
  rcases confPart_ok h ht with ⟨hs, rfl⟩ | ⟨hs, d, rfl, hd⟩
  · simp only [putPart, if_pos hs]
    exact hc.mono (fun l hl => ⟨l, by simp [secLoc, hs], hl⟩)
  · simp only [putPart, if_neg hs]
    exact Changed.dset hd hc (fun l hl => ⟨l, by simp [secLoc, hs], hl⟩)

theorem basePathItem_changed {join base conf s part} (h : confPart conf s = .ok part)
    (ht : part.truthy = true) :
    Changed join base (fun l => l = secLoc s) conf (basePathItem join base conf s part).1 := by
  unfold basePathItem
  split
  · rename_i p
    split
    · exact .refl _
    · rename_i hp
      split
      · rename_i r hr
        rcases confPart_ok h ht with ⟨hs, e⟩ | ⟨hs, d, rfl, hd⟩
        · rw [← e]; exact .refl _
        · refine Changed.dset (Q := fun l => l = []) hd (changed_str ⟨?_, by simpa using hp⟩ hr rfl) ?_
          · rintro rfl; simp [Val.truthy] at ht
          · intro l hl; simp [hl, hs, secLoc]
      · exact .refl _
  · exact .refl _

mutual

theorem baseSection_changed {join base} (hj : JoinsAbs join base) (s : String) :
    (items : Items) → (conf : Val) →
      Changed join base (Sel [(s, items)]) conf (baseSection join base s items conf).1
  | .attrs l, conf => by
    unfold baseSection
    split
    · exact .refl _
    · rename_i part hp
      split
      · rename_i ht
        refine (putPart_changed hp ht (baseAttrs_changed hj l part)).mono ?_
        rintro loc ⟨l', rfl, a, ha, rfl⟩
        exact Sel.attr (by simp) ha
      · exact .refl _
  | .path, conf => by
    unfold baseSection
    split
    · exact .refl _
    · rename_i part hp
      split
      · rename_i ht
        refine (basePathItem_changed hp ht).mono ?_
        rintro loc rfl
        exact Sel.path (by simp)
      · exact .refl _
  | .sub l, conf => by
    unfold baseSection
    split
    · exact .refl _
    · rename_i part hp
      split
      · rename_i ht
        refine (putPart_changed hp ht (baseSections_changed hj l part)).mono ?_
        rintro loc ⟨l', rfl, hl⟩
        exact Sel.sub (by simp) hl
      · exact .refl _

theorem baseSections_changed {join base} (hj : JoinsAbs join base) :
    (l : List (String × Items)) → (conf : Val) →
      Changed join base (Sel l) conf (baseSections join base l conf).1
  | [], conf => by unfold baseSections; exact .refl _
  | (s, items) :: rest, conf => by
    have h1 := (baseSection_changed hj s items conf).mono (Q' := Sel ((s, items) :: rest)) (by
      exact fun l hl => hl.mono (by simp))
    unfold baseSections
    split
    · rename_i e; rw [e] at h1; exact h1
    · rename_i conf' e
      rw [e] at h1
      refine h1.trans hj ((baseSections_changed hj rest conf').mono ?_)
      exact fun l hl => hl.mono (by simp)

end

/-- every relative path at the locations `Q` has been joined -/
def Done (join : String → String → Res String) (base : String) (Q : List String → Prop) (c c' : Val) : Prop :=
  ∀ loc p, Q loc → look c loc = some (.str p) → Relative p →
    ∃ r, join base p = .ok r ∧ look c' loc = some (.str r)

theorem Done.after {join base Q Q' a b c} (hj : JoinsAbs join base) (h1 : Done join base Q a b)
    (h2 : Changed join base Q' b c) : Done join base Q a c := by
  intro loc p hq he hp
  obtain ⟨r, hr, h⟩ := h1 loc p hq he hp
  refine ⟨r, hr, ?_⟩
  rcases h2 loc _ (leaf_str r) h with h' | ⟨_, p', r', e, hp', _⟩
  · exact h'
  · cases e; exact absurd (hj _ _ hr) (by simp [hp'.2])

theorem Done.before {join base Q Q' a b c} (hj : JoinsAbs join base) (h1 : Changed join base Q' a b)
    (h2 : Done join base Q b c) (h3 : Changed join base Q b c) : Done join base Q a c := by
  intro loc p hq he hp
  rcases h1 loc _ (leaf_str p) he with h' | ⟨_, p', r', e, hp', hr', h'⟩
  · exact h2 loc p hq h' hp
  · cases e
    refine ⟨r', hr', ?_⟩
    rcases h3 loc _ (leaf_str r') h' with h'' | ⟨_, p', r'', e, hp'', _⟩
    · exact h''
    · cases e; exact absurd (hj _ _ hr') (by simp [hp''.2])

theorem baseAttr_done {join base part a part'} (h : baseAttr join base part a = (part', none)) :
    Done join base (fun l => l = [a]) part part' := by
  rintro loc p rfl he hp
  cases part <;> simp only [look] at he <;> try (cases he)
  rename_i d
  cases hd : dget d a with
  | none => rw [hd] at he; cases he
  | some v =>
    rw [hd] at he
    simp only [look, Option.some.injEq] at he
    subst he
    simp only [baseAttr, hd, if_neg hp.1, hp.2] at h
    cases hr : join base p with
    | error e => rw [hr] at h; simp at h
    | ok r =>
      rw [hr] at h
      simp at h
      subst h
      exact ⟨r, rfl, by simp [look, dget_dset_same]⟩

theorem baseAttrs_done {join base} (hj : JoinsAbs join base) (l : List String) :
    ∀ part part', baseAttrs join base l part = (part', none) →
      Done join base (fun loc => ∃ a ∈ l, loc = [a]) part part' := by
  induction l with
  | nil => rintro part part' h loc p ⟨a, ha, _⟩; simp at ha
  | cons a as ih =>
    intro part part' h
    unfold baseAttrs at h
    split at h
    · simp at h
    · rename_i part1 e
      have h1 := baseAttr_done e
      have c1 := baseAttr_changed join base part a
      rw [e] at c1
      have h2 := ih _ _ h
      have c2 := baseAttrs_changed hj as part1
      rw [h] at c2
      rintro loc p ⟨b, hb, rfl⟩ he hp
      rcases List.mem_cons.mp hb with rfl | hb
      · exact (h1.after hj c2) _ p rfl he hp
      · exact (Done.before hj c1 h2 c2) _ p ⟨b, hb, rfl⟩ he hp

theorem confPart_look {conf : Val} {s : String} {part w : Val} {ks : List String} (h : confPart conf s = .ok part)
    (hl : look conf (secLoc s ++ ks) = some w) : look part ks = some w := by
  unfold confPart at h
  split at h
  · rename_i hs; cases h; simpa [secLoc, hs] using hl
  · rename_i hs
    split at h
    · rename_i d
      cases h
      simp only [secLoc, if_neg hs, List.cons_append, List.nil_append, look] at hl
      cases hd : dget d s with
      | none => rw [hd] at hl; cases hl
      | some v => rw [hd] at hl; simpa using hl
    · cases h

theorem putPart_look {conf : Val} {s : String} {part w : Val} {ks : List String} {r : Rewrite}
    (h : confPart conf s = .ok part) (ht : part.truthy = true)
    (hl : look r.1 ks = some w) : look (putPart conf s r).1 (secLoc s ++ ks) = some w := by
  rcases confPart_ok h ht with ⟨hs, rfl⟩ | ⟨hs, d, rfl, hd⟩
  · simpa [putPart, secLoc, hs] using hl
  · simp [putPart, secLoc, hs, look, dget_dset_same, hl]

theorem putPart_err {conf s r} : (putPart conf s r).2 = r.2 := by
  unfold putPart; split
  · rfl
  · split <;> rfl

theorem look_truthy {part : Val} {ks : List String} {p : String} (h : look part ks = some (.str p)) (hp : Relative p) :
    part.truthy = true := by
  cases ks with
  | nil => simp only [look, Option.some.injEq] at h; subst h; simp [Val.truthy, hp.1]
  | cons k ks =>
    cases part <;> simp [look] at h
    rename_i d
    cases d <;> simp_all [dget, Val.truthy]

theorem Sel.attrs {s l loc} (h : Sel [(s, .attrs l)] loc) : ∃ a ∈ l, loc = secLoc s ++ [a] := by
  cases h with
  | attr h ha => simp at h; obtain ⟨rfl, rfl⟩ := h; exact ⟨_, ha, rfl⟩
  | path h => simp at h
  | sub h => simp at h

theorem Sel.pathOnly {s loc} (h : Sel [(s, .path)] loc) : loc = secLoc s := by
  cases h with
  | attr h ha => simp at h
  | path h => simp at h; subst h; rfl
  | sub h => simp at h

theorem Sel.subOnly {s l loc} (h : Sel [(s, .sub l)] loc) : ∃ l', loc = secLoc s ++ l' ∧ Sel l l' := by
  cases h with
  | attr h ha => simp at h
  | path h => simp at h
  | sub h hl => simp at h; obtain ⟨rfl, rfl⟩ := h; exact ⟨_, rfl, hl⟩

theorem Sel.cons {x ps loc} (h : Sel (x :: ps) loc) : Sel [x] loc ∨ Sel ps loc := by
  cases h with
  | attr h ha =>
    rcases List.mem_cons.mp h with e | h
    · exact .inl (.attr (by simp [e]) ha)
    · exact .inr (.attr h ha)
  | path h =>
    rcases List.mem_cons.mp h with e | h
    · exact .inl (.path (by simp [e]))
    · exact .inr (.path h)
  | sub h hl =>
    rcases List.mem_cons.mp h with e | h
    · exact .inl (.sub (by simp [e]) hl)
    · exact .inr (.sub h hl)

mutual

theorem baseSection_done {join base} (hj : JoinsAbs join base) (s : String) :
    (items : Items) → (conf conf' : Val) → baseSection join base s items conf = (conf', none) →
      Done join base (Sel [(s, items)]) conf conf'
  | .attrs l, conf, conf' => by
    intro h loc p hs he hp
    obtain ⟨a, ha, rfl⟩ := hs.attrs
    unfold baseSection at h
    split at h
    · simp at h
    · rename_i part hpt
      have hl := confPart_look hpt he
      have ht := look_truthy hl hp
      rw [if_pos ht] at h
      have h2 : (baseAttrs join base l part).2 = none := by
        have := putPart_err (conf := conf) (s := s) (r := baseAttrs join base l part)
        simp only [h] at this; exact this.symm
      obtain ⟨r, hr, hx⟩ := baseAttrs_done hj l part _ (Prod.ext rfl h2) [a] p ⟨a, ha, rfl⟩ hl hp
      refine ⟨r, hr, ?_⟩
      have := putPart_look hpt ht hx
      simp only [h] at this; exact this
  | .path, conf, conf' => by
    intro h loc p hsel he hp
    obtain rfl := hsel.pathOnly
    unfold baseSection at h
    split at h
    · simp at h
    · rename_i part hpt
      have hl := confPart_look (ks := []) hpt (by simpa using he)
      simp only [look, Option.some.injEq] at hl
      subst hl
      have ht : (Val.str p).truthy = true := by simp [Val.truthy, hp.1]
      rw [if_pos ht] at h
      simp only [basePathItem, hp.2] at h
      rcases confPart_ok hpt ht with ⟨_, e⟩ | ⟨hs, d, rfl, hd⟩
      · subst e
        cases hr : join base p with
        | error e => rw [hr] at h; simp at h
        | ok r => rw [hr] at h; simp [confSet] at h
      · cases hr : join base p with
        | error e => rw [hr] at h; simp at h
        | ok r =>
          rw [hr] at h
          simp [confSet] at h
          subst h
          exact ⟨r, rfl, by simp [look, dget_dset_same, secLoc, hs]⟩
  | .sub l, conf, conf' => by
    intro h loc p hsel he hp
    obtain ⟨l', rfl, hs⟩ := hsel.subOnly
    unfold baseSection at h
    split at h
    · simp at h
    · rename_i part hpt
      have hl := confPart_look hpt he
      have ht := look_truthy hl hp
      rw [if_pos ht] at h
      have h2 : (baseSections join base l part).2 = none := by
        have := putPart_err (conf := conf) (s := s) (r := baseSections join base l part)
        simp only [h] at this; exact this.symm
      obtain ⟨r, hr, hx⟩ := baseSections_done hj l part _ (Prod.ext rfl h2) l' p hs hl hp
      refine ⟨r, hr, ?_⟩
      have := putPart_look hpt ht hx
      simp only [h] at this; exact this

theorem baseSections_done {join base} (hj : JoinsAbs join base) :
    (l : List (String × Items)) → (conf conf' : Val) → baseSections join base l conf = (conf', none) →
      Done join base (Sel l) conf conf'
  | [], conf, conf' => by
    intro _ loc p hs
    cases hs with
    | attr h => simp at h
    | path h => simp at h
    | sub h => simp at h
  | (s, items) :: rest, conf, conf' => by
    intro h loc p hs he hp
    unfold baseSections at h
    split at h
    · simp at h
    · rename_i conf1 e
      have d1 := baseSection_done hj s items conf conf1 e
      have c1 := baseSection_changed hj s items conf
      rw [e] at c1
      have d2 := baseSections_done hj rest conf1 conf' h
      have c2 := baseSections_changed hj rest conf1
      rw [h] at c2
      rcases hs.cons with hs | hs
      · exact (d1.after hj c2) loc p hs he hp
      · exact (Done.before hj c1 d2 c2) loc p hs he hp

end

/-- C74, absolute paths, and everything that is not a relative path at one of the named locations, are left alone,
whatever `os.path.join` does and whether or not an exception is raised. -/
theorem C74_absolute {join base} (hj : JoinsAbs join base) (conf : Val) (ps : List (String × Items)) (loc : List String)
    (v : Val) (hv : look conf loc = some v) (hl : Leaf v)
    (h : ¬ Sel ps loc ∨ ∀ p, v = .str p → p = "" ∨ startsWith "/" p = true) :
    look (baseSections join base ps conf).1 loc = some v := by
  rcases baseSections_changed hj ps conf loc v hl hv with h1 | ⟨hs, p, r, rfl, hp, _⟩
  · exact h1
  · rcases h with h | h
    · exact absurd hs h
    · rcases h p rfl with h | h
      · exact absurd h hp.1
      · rw [hp.2] at h; cases h

/-- C74, the loop is right: with a working `os.path.join` and an absolute base, every non-empty relative path at a named
location is replaced by the joined path. -/
theorem C74_relative_partial {join base} (hj : JoinsAbs join base) (conf conf' : Val) (ps : List (String × Items))
    (h : baseSections join base ps conf = (conf', none)) (loc : List String) (p : String) (hs : Sel ps loc)
    (hl : look conf loc = some (.str p)) (hp : Relative p) :
    ∃ r, join base p = .ok r ∧ look conf' loc = some (.str r) :=
  baseSections_done hj ps conf conf' h loc p hs hl hp

theorem unbound_abs (base : String) : JoinsAbs unboundJoin base := by intro p r h; cases h

theorem dset_self {d : Dict} {k : String} {v : Val} (h : dget d k = some v) : dset d k v = d := by
  induction d with
  | nil => simp [dget] at h
  | cons a d ih =>
    obtain ⟨k', v'⟩ := a
    unfold dget at h
    split at h
    · rename_i hk; cases h; subst hk; simp [dset]
    · rename_i hk; unfold dset; rw [if_neg hk, ih h]

theorem baseAttrs_same (base : String) (l : List String) (part : Val) :
    (baseAttrs unboundJoin base l part).1 = part := by
  induction l with
  | nil => rfl
  | cons a as ih =>
    have h : (baseAttr unboundJoin base part a).1 = part := by
      unfold baseAttr
      split
      · split
        · rfl
        · split
          · rfl
          · split
            · rfl
            · rfl
        · split <;> rfl
      · rfl
    unfold baseAttrs
    split
    · rename_i e; rw [e] at h; exact h
    · rename_i e; rw [e] at h; simp at h; subst h; exact ih

theorem putPart_same {conf s part r} (h : confPart conf s = .ok part) (ht : part.truthy = true) (hr : r.1 = part) :
    (putPart conf s r).1 = conf := by
  rcases confPart_ok h ht with ⟨hs, rfl⟩ | ⟨hs, d, rfl, hd⟩
  · simpa [putPart, hs] using hr
  · simp [putPart, hs, hr, dset_self hd]

mutual

theorem baseSection_same (base s : String) : (items : Items) → (conf : Val) →
    (baseSection unboundJoin base s items conf).1 = conf
  | .attrs l, conf => by
    unfold baseSection
    split
    · rfl
    · rename_i part hp
      split
      · rename_i ht; exact putPart_same hp ht (baseAttrs_same base l part)
      · rfl
  | .path, conf => by
    unfold baseSection
    split
    · rfl
    · split
      · show (basePathItem unboundJoin base conf s _).1 = conf
        unfold basePathItem
        split
        · split <;> rfl
        · rfl
      · rfl
  | .sub l, conf => by
    unfold baseSection
    split
    · rfl
    · rename_i part hp
      split
      · rename_i ht; exact putPart_same hp ht (baseSections_same base l part)
      · rfl

theorem baseSections_same (base : String) : (l : List (String × Items)) → (conf : Val) →
    (baseSections unboundJoin base l conf).1 = conf
  | [], conf => by unfold baseSections; rfl
  | (s, items) :: rest, conf => by
    have h := baseSection_same base s items conf
    unfold baseSections
    split
    · rename_i e; rw [e] at h; exact h
    · rename_i e; rw [e] at h; simp at h; subst h; exact baseSections_same base rest _

end

/-- C74 fails for the code as it is: `add_base_path` never changes a configuration ... -/
theorem C74_unchanged (conf : Val) (ps : List (String × Items)) (base : String) :
    (addBasePath conf ps base).1 = conf := baseSections_same base ps conf

/-- ... and ends in an exception whenever there is a relative path to rewrite. -/
theorem C74_counterexample (conf : Val) (ps : List (String × Items)) (base : String) (loc : List String) (p : String)
    (hs : Sel ps loc) (hl : look conf loc = some (.str p)) (hp : Relative p) :
    (addBasePath conf ps base).2 ≠ none := by
  intro h
  obtain ⟨r, hr, _⟩ := baseSections_done (unbound_abs base) ps conf _ (Prod.ext rfl h) loc p hs hl hp
  cases hr

theorem baseAttr_nameError {base part a} (h : (baseAttr unboundJoin base part a).2 = some .nameError) :
    ∃ p, look part [a] = some (.str p) ∧ Relative p := by
  unfold baseAttr at h
  split at h
  · rename_i d
    split at h
    · simp at h
    · rename_i p hp
      split at h
      · simp at h
      · split at h
        · simp at h
        · rename_i h1 h2; exact ⟨p, by simp [look, hp], h1, by simpa using h2⟩
    · split at h <;> simp at h
  · simp at h

theorem baseAttrs_nameError {base} (l : List String) {part} :
    (baseAttrs unboundJoin base l part).2 = some .nameError → ∃ a ∈ l, ∃ p, look part [a] = some (.str p) ∧ Relative p := by
  induction l with
  | nil => intro h; simp [baseAttrs] at h
  | cons a as ih =>
    intro h
    unfold baseAttrs at h
    split at h
    · rename_i e
      obtain ⟨p, hp⟩ := baseAttr_nameError (base := base) (part := part) (a := a) (by rw [e]; exact h)
      exact ⟨a, by simp, p, hp⟩
    · rename_i part1 e
      have h2 := baseAttrs_same base [a] part
      simp only [baseAttrs, e] at h2
      subst h2
      obtain ⟨b, hb, hx⟩ := ih h
      exact ⟨b, by simp [hb], hx⟩

theorem confPart_put {conf s part w ks} (h : confPart conf s = .ok part) (ht : part.truthy = true)
    (hl : look part ks = some w) : look conf (secLoc s ++ ks) = some w := by
  rcases confPart_ok h ht with ⟨hs, rfl⟩ | ⟨hs, d, rfl, hd⟩
  · simpa [secLoc, hs] using hl
  · simp [secLoc, hs, look, hd, hl]

theorem confPart_nameError {conf s} : confPart conf s ≠ .error .nameError := by
  unfold confPart
  split
  · simp
  · split <;> simp

/-- a relative path at a named location -/
def Pending (ps : List (String × Items)) (conf : Val) : Prop :=
  ∃ loc p, Sel ps loc ∧ look conf loc = some (.str p) ∧ Relative p

mutual

theorem baseSection_nameError (base s : String) : (items : Items) → (conf : Val) →
    (baseSection unboundJoin base s items conf).2 = some .nameError → Pending [(s, items)] conf
  | .attrs l, conf => by
    intro h
    unfold baseSection at h
    split at h
    · rename_i e
      simp at h; subst h; exact absurd e confPart_nameError
    · rename_i part hp
      split at h
      · rename_i ht
        have h : (putPart conf s (baseAttrs unboundJoin base l part)).2 = some .nameError := h
        rw [putPart_err] at h
        obtain ⟨a, ha, p, hl, hr⟩ := baseAttrs_nameError l h
        exact ⟨_, p, Sel.attr (by simp) ha, confPart_put hp ht hl, hr⟩
      · simp at h
  | .path, conf => by
    intro h
    unfold baseSection at h
    split at h
    · rename_i e
      simp at h; subst h; exact absurd e confPart_nameError
    · rename_i part hp
      split at h
      · rename_i ht
        replace h : (basePathItem unboundJoin base conf s part).2 = some .nameError := h
        unfold basePathItem at h
        split at h
        · rename_i _ p
          split at h
          · simp at h
          · rename_i hx
            refine ⟨secLoc s, p, Sel.path (by simp), ?_, ?_, by simpa using hx⟩
            · have := confPart_put (ks := []) hp ht (w := .str p) rfl
              simpa using this
            · rintro rfl; simp [Val.truthy] at ht
        · simp at h
      · simp at h
  | .sub l, conf => by
    intro h
    unfold baseSection at h
    split at h
    · rename_i e
      simp at h; subst h; exact absurd e confPart_nameError
    · rename_i part hp
      split at h
      · rename_i ht
        have h : (putPart conf s (baseSections unboundJoin base l part)).2 = some .nameError := h
        rw [putPart_err] at h
        obtain ⟨loc, p, hs, hl, hr⟩ := baseSections_nameError base l part h
        exact ⟨_, p, Sel.sub (by simp) hs, confPart_put hp ht hl, hr⟩
      · simp at h

theorem baseSections_nameError (base : String) : (l : List (String × Items)) → (conf : Val) →
    (baseSections unboundJoin base l conf).2 = some .nameError → Pending l conf
  | [], conf => by intro h; simp [baseSections] at h
  | (s, items) :: rest, conf => by
    intro h
    have hs := baseSection_same base s items conf
    have h1 := baseSection_nameError base s items conf
    unfold baseSections at h
    split at h
    · rename_i e
      rw [e] at h1
      simp only at h
      obtain ⟨loc, p, hs, hl, hr⟩ := h1 h
      exact ⟨loc, p, hs.mono (by simp), hl, hr⟩
    · rename_i conf' e
      rw [e] at hs; simp only at hs; subst hs
      obtain ⟨loc, p, hs, hl, hr⟩ := baseSections_nameError base rest conf' h
      exact ⟨loc, p, hs.mono (by simp), hl, hr⟩

end

/-- C74: the `NameError` comes from a relative path only. -/
theorem C74_nameError (conf : Val) (ps : List (String × Items)) (base : String)
    (h : (addBasePath conf ps base).2 = some .nameError) :
    ∃ loc p, Sel ps loc ∧ look conf loc = some (.str p) ∧ Relative p := baseSections_nameError base ps conf h

/-! a configuration in which one path is absolute and one relative -/

def toyConf : Val := .dict [("keys", .dict [("private_path", .str "/abs"), ("public_path", .str "rel")]),
  ("logo", .str "logo.png")]
def toyItems : List (String × Items) := [("keys", .attrs ["private_path", "public_path"]), ("logo", .path)]

/-- `os.path.join` for a base that does not end with a slash and a relative path -/
def slashJoin (b p : String) : Res String := .ok (b ++ "/" ++ p)

example : JoinsAbs slashJoin "/base" := by
  intro p r h
  cases h
  rw [startsWith_iff]
  simp only [String.toList_append]
  exact ⟨"base/".toList ++ p.toList, by simp⟩

example : Sel toyItems ["keys", "public_path"] := Sel.attr (s := "keys") (l := ["private_path", "public_path"]) (by simp [toyItems]) (by simp)
example : look toyConf ["keys", "public_path"] = some (.str "rel") := by decide +kernel
example : baseSections slashJoin "/base" toyItems toyConf =
    (.dict [("keys", .dict [("private_path", .str "/abs"), ("public_path", .str "/base/rel")]),
      ("logo", .str "/base/logo.png")], none) := by decide +kernel
example : addBasePath toyConf toyItems "/base" = (toyConf, some .nameError) := by decide +kernel

end Verif
