import Verif.Model.Context
import Verif.Props.FileStore
import Verif.Props.LabeledDict
import Verif.Model.Schemas

/-!
# C93: `OidcContext.set` and `get`; C94: the storages of contexts
-/

namespace Verif

/-! ## C93 -/

/-- what is kept of a value: of a message the dictionary `to_dict` makes -/
def Kept (env : SerEnv) (v w : Val) : Prop :=
  (∃ c d d', v = .msg c d ∧ toDict env c d = .ok d' ∧ w = .dict d') ∨ ((∀ c d, v ≠ .msg c d) ∧ w = v)

theorem ctxSet_kept {σ : Type} (S : Store σ) (env : SerEnv) (item : String) (v : Val) (s : σ) :
    (∃ w, Kept env v w ∧ ctxSet S env item v s = S.setItem item w s) ∨ (∃ e, ctxSet S env item v s = (.error e, s)) := by
  cases v with
  | msg c d =>
    unfold ctxSet
    cases h : toDict env c d with
    | ok d' => exact .inl ⟨.dict d', .inl ⟨c, d, d', rfl, h, rfl⟩, by simp [h]⟩
    | error e => exact .inr ⟨e, by simp [h]⟩
  | _ => exact .inl ⟨_, .inr ⟨by simp, rfl⟩, rfl⟩

/-- C93 in memory: what was set is what is got, and the other items are untouched. -/
theorem C93_memory (env : SerEnv) (item : String) (v : Val) (d d' : LDict)
    (h : ctxSet memStore env item v d = (.ok (), d')) :
    ∃ w, Kept env v w ∧
      (item ≠ "seed" → (ctxGet memStore item d').1 = .ok (.val w)) ∧
      (item = "seed" → (ctxGet memStore item d').1 = pyBytes w) ∧
      ∀ other, other ≠ item → (ctxGet memStore other d').1 = (ctxGet memStore other d).1 := by
  rcases ctxSet_kept memStore env item v d with ⟨w, hw, e⟩ | ⟨e, he⟩
  · rw [e] at h
    simp only [memStore, Prod.mk.injEq, true_and] at h
    subst h
    have g : ldItem item (ldSet item w d) = w := by simp [ldItem, ldGet, ldSet, dget_dset]
    refine ⟨w, hw, fun hs => by simp [ctxGet, memStore, g, hs], fun hs => ?_, fun o ho => ?_⟩
    · subst hs; simp [ctxGet, memStore, g]
    · have : ldItem o (ldSet item w d) = ldItem o d := by
        have hne : d.label ++ item ≠ d.label ++ o := fun e => ho (append_key_inj.1 e).symm
        simp [ldItem, ldGet, ldSet, dget_dset, hne]
      simp only [ctxGet, memStore, this]
      by_cases hs : o = "seed" <;> simp only [hs, if_true, if_false]
  · rw [he] at h; simp at h

/-- C93 with files: the same, for the keys and values of C47. -/
theorem C93_file {conv : Conv} {i : Inst} {dir : Dir} {m : Assoc Val} (hi : Inv conv i dir m) (env : SerEnv)
    (now now' : Nat) (item : String) (v : Val) (hr : ¬ Reserved item) (hw : ∀ w, Kept env v w → ∃ t, conv.ser w = .ok t)
    (s' : Inst × Dir) (h : ctxSet (fileStore conv now) env item v (i, dir) = (.ok (), s')) :
    ∃ w, Kept env v w ∧
      (item ≠ "seed" → (ctxGet (fileStore conv now') item s').1 = .ok (.val w)) ∧
      (item = "seed" → (ctxGet (fileStore conv now') item s').1 = pyBytes w) ∧
      ∀ other, other ≠ item → ¬ Reserved other →
        (ctxGet (fileStore conv now') other s').1 = (ctxGet (fileStore conv now') other (i, dir)).1 := by
  rcases ctxSet_kept (fileStore conv now) env item v (i, dir) with ⟨w, hk, e⟩ | ⟨e, he⟩
  · rw [e] at h
    obtain ⟨h1, h2⟩ := fsSet_map hi now item w hr (hw w hk)
    simp only [fileStore, Prod.mk.injEq] at h
    obtain ⟨h3, h4⟩ := h
    subst h4
    rw [h3] at h1
    unfold mapSet at h1 h2
    by_cases hu : Usable item
    · rw [if_pos hu] at h2
      have g : ∀ k, ¬ Reserved k → _ := fun k hk => fsGet_map h2 now' k hk
      have g0 : ∀ k, ¬ Reserved k → _ := fun k hk => fsGet_map hi now' k hk
      refine ⟨w, hk, fun hs => ?_, fun hs => ?_, fun o ho hro => ?_⟩
      · simp [ctxGet, fileStore, g item hr, dget_dset_same, hs]
      · subst hs; simp [ctxGet, fileStore, g _ hr, dget_dset_same]
      · simp only [ctxGet, fileStore, g o hro, g0 o hro, dget_dset_ne _ _ (Ne.symm ho)]
        cases dget m o with
        | none => simp
        | some x => by_cases hs : o = "seed" <;> simp [hs]
    · rw [if_neg hu] at h1; simp at h1
  · rw [he] at h; simp at h

/-- A seed comes back as its UTF-8 bytes, which determine it; what is not a text cannot be got back. -/
theorem C93_seed (t : String) : ∃ b, pyBytes (.str t) = .ok (.bytes b) ∧ ∀ t', pyBytes (.str t') = .ok (.bytes b) → t' = t := by
  refine ⟨t.toUTF8, rfl, fun t' h => ?_⟩
  simp only [pyBytes, Except.ok.injEq, CtxVal.bytes.injEq] at h
  exact String.toByteArray_inj.1 h

theorem C93_seed_other (v : Val) (h : ∀ t, v ≠ .str t) : ∃ e, pyBytes v = .error e := by
  cases v with
  | str t => exact absurd rfl (h t)
  | _ => exact ⟨_, rfl⟩

/-- An item never set is `None` in memory and a `KeyError` with files; an unset seed is a `TypeError` in memory. -/
theorem C93_unset (item : String) (hs : item ≠ "seed") (lab : String) (conv : Conv) (now : Nat) (hr : ¬ Reserved item) :
    (ctxGet memStore item (ldNew lab)).1 = .ok (.val .none) ∧
    (ctxGet memStore "seed" (ldNew lab)).1 = .error .typeError ∧
    (ctxGet (fileStore conv now) item (⟨[], []⟩, [])).1 = .error .keyError := by
  refine ⟨?_, ?_, ?_⟩
  · simp [ctxGet, memStore, ldItem, ldGet, ldNew, hs]
  · simp [ctxGet, memStore, ldItem, ldGet, ldNew, pyBytes]
  · simp [ctxGet, fileStore, fsGet_map (inv_empty conv) now item hr]

/-- a message put into a context -/
example : ∃ d', ctxSet memStore libEnv "client" (.msg ⟨"oidc", "RegistrationRequest"⟩ [("redirect_uris", .list [.str "a"])])
    (ldNew "x") = (.ok (), d') ∧ (ctxGet memStore "client" d').1 = .ok (.val (.dict [("redirect_uris", .list [.str "a"])])) :=
  ⟨ldSet "client" (.dict [("redirect_uris", .list [.str "a"])]) (ldNew "x"), by
    have : toDict libEnv ⟨"oidc", "RegistrationRequest"⟩ [("redirect_uris", .list [.str "a"])] =
        .ok [("redirect_uris", .list [.str "a"])] := by decide +kernel
    simp only [ctxSet, this, memStore], rfl⟩

/-! ## C94 -/

theorem addIssuerTo_get (iss : String) (db : List (String × Val)) :
    ∀ res r k, k ≠ "abstract_storage_cls" → addIssuerTo (.str iss) db res = .ok r →
      (∀ d, dget db k = some (.dict d) → DNodup db → dget r k = some (.dict (dset d "issuer" (.str (quotePlus iss))))) ∧
      (dget db k = none → dget r k = dget res k) := by
  induction db with
  | nil =>
    intro res r k hk h
    simp only [addIssuerTo, Except.ok.injEq] at h
    subst h
    simp
  | cons p rest ih =>
    intro res r k hk h
    obtain ⟨key, val⟩ := p
    unfold addIssuerTo at h
    by_cases ha : key = "abstract_storage_cls"
    · rw [if_pos ha] at h
      have hne : key ≠ k := fun e => hk (e ▸ ha)
      obtain ⟨i1, i2⟩ := ih _ _ k hk h
      constructor
      · intro d hd hn
        rw [dget_cons, if_neg (by simpa using hne)] at hd
        exact i1 d hd (List.nodup_cons.1 hn).2
      · intro hd
        rw [dget_cons, if_neg (by simpa using hne)] at hd
        rw [i2 hd, dget_dset_ne _ _ hne]
    · rw [if_neg ha] at h
      cases val with
      | dict d0 =>
        simp only [issuerSection] at h
        obtain ⟨i1, i2⟩ := ih _ _ k hk h
        by_cases hkk : key = k
        · subst hkk
          constructor
          · intro d hd hn
            rw [dget_cons, if_pos (by simp)] at hd
            cases hd
            have : dget rest key = none := (dget_eq_none_iff _ _).2 (List.nodup_cons.1 hn).1
            rw [i2 this, dget_dset_same]
          · intro hd
            rw [dget_cons, if_pos (by simp)] at hd
            cases hd
        · constructor
          · intro d hd hn
            rw [dget_cons, if_neg (by simpa using hkk)] at hd
            exact i1 d hd (List.nodup_cons.1 hn).2
          · intro hd
            rw [dget_cons, if_neg (by simpa using hkk)] at hd
            rw [i2 hd, dget_dset_ne _ _ hkk]
      | _ => simp [issuerSection] at h

/-- The storage of a context with an issuer is made from the default section without the handler, with the issuer. -/
theorem contextDb_issuer {α : Type} (imp : Val → Res (Dict → Res α)) (mem : String → α) (config db d : Dict) (hv : Val)
    (cls : Dict → Res α) (iss : String) (hi : iss ≠ "") (hc : dget config "db_conf" = some (.dict db)) (hn : DNodup db)
    (hiss : dget config "issuer" = some (.str iss)) (hd : dget db "default" = some (.dict d))
    (hh : dget d "handler" = some hv) (ht : hv.truthy = true) (him : imp hv = .ok cls) (r : α)
    (h : contextDb imp mem config = .ok r) :
    cls ((dset d "issuer" (.str (quotePlus iss))).filter (fun p => p.1 != "handler")) = .ok r := by
  have hdb : (Val.dict db).truthy = true := by
    cases db with
    | nil => simp at hd
    | cons p q => simp [Val.truthy]
  have hist : (Val.str iss).truthy = true := by simp [Val.truthy, hi]
  simp only [contextDb, hc, Option.getD_some, hdb, if_true, withIssuer, hiss, hist, Val.itemsOf] at h
  cases ha : addIssuerTo (.str iss) db [] with
  | error e => rw [ha] at h; simp at h
  | ok db' =>
    rw [ha] at h
    obtain ⟨g, _⟩ := addIssuerTo_get iss db [] db' "default" (by decide) ha
    have g := g d hd hn
    have gt : (Val.dict (dset d "issuer" (.str (quotePlus iss)))).truthy = true := by
      cases hx : dset d "issuer" (.str (quotePlus iss)) with
      | nil => have := dget_dset_same d "issuer" (.str (quotePlus iss)); rw [hx] at this; simp at this
      | cons p q => simp [Val.truthy]
    have ge : db'.isEmpty = false := by
      cases db' with
      | nil => simp at g
      | cons p q => rfl
    have gh : dget (dset d "issuer" (.str (quotePlus iss))) "handler" = some hv := by
      rw [dget_dset_ne _ _ (by decide), hh]
    simp only [defaultStorage, initStorage, getStorageConf, g, Option.getD_some, gt, if_true, ge, storageFactory, gh, ht, him,
      Bool.false_eq_true, if_false] at h
    exact h

theorem fillParts_none (q : List Char) (r : List (Option Char)) : fillParts q (none :: r) = q ++ fillParts q r := by
  simp [fillParts]

theorem fillParts_some (q : List Char) (c : Char) (r : List (Option Char)) : fillParts q (some c :: r) = c :: fillParts q r := by
  simp [fillParts]

theorem fillParts_length (q : List Char) (ps : List (Option Char)) :
    (fillParts q ps).length + ps.count none = ps.length + ps.count none * q.length := by
  induction ps with
  | nil => simp [fillParts]
  | cons p r ih =>
    cases p with
    | none =>
      simp only [fillParts_none, List.length_append, List.count_cons_self, List.length_cons, Nat.add_mul, Nat.one_mul]
      omega
    | some c =>
      rw [fillParts_some, List.count_cons_of_ne (by simp)]
      simp only [List.length_cons]
      omega

theorem fillParts_inj {q q' : List Char} {ps : List (Option Char)} (hm : none ∈ ps) (h : fillParts q ps = fillParts q' ps) :
    q = q' := by
  have hc : 0 < ps.count none := List.count_pos_iff.2 hm
  have hlen : q.length = q'.length := by
    have h1 := fillParts_length q ps
    have h2 := fillParts_length q' ps
    rw [h] at h1
    have : ps.count none * q.length = ps.count none * q'.length := by omega
    exact Nat.eq_of_mul_eq_mul_left hc this
  clear hc
  induction ps with
  | nil => simp at hm
  | cons p r ih =>
    cases p with
    | none =>
      simp only [fillParts_none] at h
      exact (List.append_inj h hlen).1
    | some c =>
      simp only [fillParts_some, List.cons.injEq, true_and] at h
      exact ih (by simpa using hm) h

/-- The path of the directory of a section with the issuer. -/
theorem fdirOf_issuer (d : Dict) (q t : String) (ps : List (Option Char)) (hq : q ≠ "")
    (hf : dget d "fdir" = some (.str t)) (hs : isSubstrC "{issuer}".toList t.toList = true)
    (hp : fmtParts t.toList = .ok ps) :
    fdirOf ((dset d "issuer" (.str q)).filter (fun p => p.1 != "handler")) = .ok (String.ofList (fillParts q.toList ps)) := by
  have e1 : dget ((dset d "issuer" (.str q)).filter (fun p => p.1 != "handler")) "fdir" = some (.str t) := by
    rw [dget_filter_key _ (fun k => k != "handler"), if_pos (by decide), dget_dset_ne _ _ (by decide), hf]
  have e2 : dget ((dset d "issuer" (.str q)).filter (fun p => p.1 != "handler")) "issuer" = some (.str q) := by
    rw [dget_filter_key _ (fun k => k != "handler"), if_pos (by decide), dget_dset_same]
  have ht : (Val.str q).truthy = true := by simp [Val.truthy, hq]
  simp only [fdirOf, e1, e2, Option.getD_some, hs, if_true, fillIssuer, ht, hp, Except.map]

theorem quotePlus_ne_empty {s : String} (h : s ≠ "") : quotePlus s ≠ "" := by
  intro e
  have : quotePlus s = quotePlus "" := by rw [e]; decide
  exact h (quotePlus_inj this)

/-- how a piece of a template is written: braces are doubled, `{issuer}` stands for the issuer -/
def templatePart : Option Char → List Char
  | some '{' => ['{', '{']
  | some '}' => ['}', '}']
  | some c => [c]
  | none => ['{', 'i', 's', 's', 'u', 'e', 'r', '}']

/-- how a template is written -/
def templateOf (ps : List (Option Char)) : List Char := ps.flatMap templatePart

/-- `str.format` takes a template apart into what it was written from. -/
theorem C94_template (t : List Char) (ps : List (Option Char)) : fmtParts t = .ok ps ↔ t = templateOf ps := by
  constructor
  · intro h
    induction t using fmtParts.induct generalizing ps with
    | case1 => cases h; rfl
    | case2 rest ih =>
      rw [fmtParts] at h
      cases h' : fmtParts rest with
      | error e => rw [h'] at h; cases h
      | ok qs => rw [h'] at h; cases h; rw [ih _ h']; rfl
    | case3 rest ih =>
      rw [fmtParts] at h
      cases h' : fmtParts rest with
      | error e => rw [h'] at h; cases h
      | ok qs => rw [h'] at h; cases h; rw [ih _ h']; rfl
    | case4 rest ih =>
      rw [fmtParts] at h
      cases h' : fmtParts rest with
      | error e => rw [h'] at h; cases h
      | ok qs => rw [h'] at h; cases h; rw [ih _ h']; rfl
    | case5 c rest h1 h2 h3 hc =>
      rw [fmtParts, if_pos hc] at h
      · cases h
      all_goals assumption
    | case6 c rest h1 h2 h3 hc ih =>
      rw [fmtParts, if_neg hc] at h
      · cases h' : fmtParts rest with
        | error e => rw [h'] at h; cases h
        | ok qs =>
          rw [h'] at h
          cases h
          rw [ih _ h']
          simp only [Bool.or_eq_true, decide_eq_true_eq, not_or] at hc
          unfold templateOf
          rw [List.flatMap_cons]
          unfold templatePart
          split
          · next e => cases e; exact absurd rfl hc.1
          · next e => cases e; exact absurd rfl hc.2
          · next e => cases e; rfl
          · next e => cases e
      all_goals assumption
  · rintro rfl
    induction ps with
    | nil => rfl
    | cons p ps ih =>
      unfold templateOf at ih ⊢
      rw [List.flatMap_cons]
      generalize ps.flatMap templatePart = l at ih
      unfold templatePart
      split
      · simp only [List.cons_append, List.nil_append]
        rw [fmtParts, ih]; rfl
      · simp only [List.cons_append, List.nil_append]
        rw [fmtParts, ih]; rfl
      · next c h1 h2 =>
        have h1' : c ≠ '{' := fun e => h1 (by rw [e])
        have h2' : c ≠ '}' := fun e => h2 (by rw [e])
        simp only [List.cons_append, List.nil_append]
        rw [fmtParts, if_neg (by simp [h1', h2']), ih]
        · rfl
        · intro r e; cases e; exact fun _ => h1' rfl
        · intro r e; cases e; exact fun _ => h2' rfl
        · intro r e; cases e; exact fun _ => h1' rfl
      · simp only [List.cons_append, List.nil_append]
        rw [fmtParts, ih]; rfl

/-- C94: contexts whose configurations differ only in the issuer use different directories, when the directory of the
default storage names the issuer. -/
theorem C94_separate (imp : Val → Res (Dict → Res String)) (mem : String → String) (c1 c2 db d : Dict) (hv : Val)
    (i1 i2 t : String) (ps : List (Option Char)) (r1 r2 : String)
    (hne : i1 ≠ i2) (he1 : i1 ≠ "") (he2 : i2 ≠ "") (hn : DNodup db)
    (hc1 : dget c1 "db_conf" = some (.dict db)) (hi1 : dget c1 "issuer" = some (.str i1))
    (hc2 : dget c2 "db_conf" = some (.dict db)) (hi2 : dget c2 "issuer" = some (.str i2))
    (hd : dget db "default" = some (.dict d)) (hh : dget d "handler" = some hv) (ht : hv.truthy = true)
    (him : imp hv = .ok fdirOf) (hf : dget d "fdir" = some (.str t))
    (hs : isSubstrC "{issuer}".toList t.toList = true) (hp : t.toList = templateOf ps) (hm : none ∈ ps)
    (h1 : contextDb imp mem c1 = .ok r1) (h2 : contextDb imp mem c2 = .ok r2) : r1 ≠ r2 := by
  have g1 := contextDb_issuer imp mem c1 db d hv fdirOf i1 he1 hc1 hn hi1 hd hh ht him r1 h1
  have g2 := contextDb_issuer imp mem c2 db d hv fdirOf i2 he2 hc2 hn hi2 hd hh ht him r2 h2
  rw [fdirOf_issuer d _ t ps (quotePlus_ne_empty he1) hf hs ((C94_template _ _).2 hp)] at g1
  rw [fdirOf_issuer d _ t ps (quotePlus_ne_empty he2) hf hs ((C94_template _ _).2 hp)] at g2
  cases g1
  cases g2
  intro e
  have e := String.ofList_inj.1 e
  have := fillParts_inj hm e
  exact hne (quotePlus_inj (String.toList_inj.1 this))

/-- The directory is the template with the quoted issuer in the places of `{issuer}`, and everything else as it stands. -/
theorem C94_directory (imp : Val → Res (Dict → Res String)) (mem : String → String) (config db d : Dict) (hv : Val)
    (iss t r : String) (ps : List (Option Char)) (he : iss ≠ "") (hn : DNodup db)
    (hc : dget config "db_conf" = some (.dict db)) (hi : dget config "issuer" = some (.str iss))
    (hd : dget db "default" = some (.dict d)) (hh : dget d "handler" = some hv) (ht : hv.truthy = true)
    (him : imp hv = .ok fdirOf) (hf : dget d "fdir" = some (.str t)) (hp : t.toList = templateOf ps)
    (hs : isSubstrC "{issuer}".toList t.toList = true) (h : contextDb imp mem config = .ok r) :
    r.toList = ps.flatMap (fun p => match p with | some c => [c] | none => (quotePlus iss).toList) := by
  have g := contextDb_issuer imp mem config db d hv fdirOf iss he hc hn hi hd hh ht him r h
  rw [fdirOf_issuer d _ t ps (quotePlus_ne_empty he) hf hs ((C94_template _ _).2 hp)] at g
  cases g
  rw [String.toList_ofList]
  rfl

example : templateOf [some '{', none, some '}'] = "{{{issuer}}}".toList := by decide +kernel

/-- A storage whose directory asks for an issuer is refused when none is given: it never shares a directory by accident. -/
theorem C94_no_issuer (conf : Dict) (t : String) (hf : dget conf "fdir" = some (.str t))
    (hs : isSubstrC "{issuer}".toList t.toList = true) (hi : ∀ v, dget conf "issuer" = some v → v.truthy = false) :
    fdirOf conf = .error .valueError := by
  unfold fdirOf fillIssuer
  rw [hf]
  simp only [Option.getD_some, hs, if_true]
  cases h : dget conf "issuer" with
  | none => rfl
  | some v => simp [hi v h]

example : ∀ conf ∈ ([[("fdir", .str "db/{issuer}")], [("fdir", .str "db/{issuer}"), ("issuer", .str "")]] : List Dict),
    dget conf "fdir" = some (.str "db/{issuer}") ∧ isSubstrC "{issuer}".toList "db/{issuer}".toList = true ∧
    fdirOf conf = .error .valueError := by decide +kernel

/-- Without `{issuer}` the directory is the same for every issuer. -/
theorem C94_shared (imp : Val → Res (Dict → Res String)) (mem : String → String) (config db d : Dict) (hv : Val)
    (iss t r : String) (he : iss ≠ "") (hn : DNodup db)
    (hc : dget config "db_conf" = some (.dict db)) (hi : dget config "issuer" = some (.str iss))
    (hd : dget db "default" = some (.dict d)) (hh : dget d "handler" = some hv) (ht : hv.truthy = true)
    (him : imp hv = .ok fdirOf) (hf : dget d "fdir" = some (.str t))
    (hs : isSubstrC "{issuer}".toList t.toList = false) (h : contextDb imp mem config = .ok r) : r = t := by
  have g := contextDb_issuer imp mem config db d hv fdirOf iss he hc hn hi hd hh ht him r h
  have e1 : dget ((dset d "issuer" (.str (quotePlus iss))).filter (fun p => p.1 != "handler")) "fdir" = some (.str t) := by
    rw [dget_filter_key _ (fun k => k != "handler"), if_pos (by decide), dget_dset_ne _ _ (by decide), hf]
  simp only [fdirOf, e1, Option.getD_some, hs, Bool.false_eq_true, if_false, Except.ok.injEq] at g
  exact g.symm

/-- the importer of the examples -/
def fileImp (_ : Val) : Res (Dict → Res String) := .ok fdirOf

def exConf (iss fdir : String) : Dict :=
  [("issuer", .str iss), ("db_conf", .dict [("default", .dict [("handler", .str "f.F"), ("fdir", .str fdir)])])]

example : contextDb fileImp id (exConf "https://a.org/x" "db/{issuer}") = .ok "db/https%3A%2F%2Fa.org%2Fx" := by decide +kernel

/-- the hypotheses of `C94_separate` can be met -/
example (r1 r2 : String) (h1 : contextDb fileImp id (exConf "https://a.org" "db/{issuer}/x") = .ok r1)
    (h2 : contextDb fileImp id (exConf "https://b.org" "db/{issuer}/x") = .ok r2) : r1 ≠ r2 :=
  C94_separate fileImp id _ _ _ _ _ "https://a.org" "https://b.org" "db/{issuer}/x"
    [some 'd', some 'b', some '/', none, some '/', some 'x'] r1 r2 (by decide) (by decide) (by decide) (by decide) rfl rfl rfl rfl
    rfl rfl (by decide) rfl rfl (by decide +kernel) (by decide +kernel) (by decide) h1 h2

/-- The name of an issuer can lead out of the directory: `..` is not quoted. -/
theorem C94_dots : contextDb fileImp id (exConf ".." "db/{issuer}") = .ok "db/.." := by decide +kernel

end Verif
