import Verif.Model.ContextKeys
import Verif.Props.Config
import Verif.Props.Context
import Verif.Props.Tokens

/-!
# C118: the key jar of a context; C119: separate storages; C120: boxes
-/

namespace Verif

/-! ## C118 -/

/-- what is assumed of the key library; `keysOf` are the keys filed under a name -/
structure KeyLaws {α Key : Type} (L : KeyLib α) (keysOf : L.Jar → String → List Key) : Prop where
  /-- a jar that knows no such name has no keys under it -/
  absent : ∀ j o, L.has j o = .ok false → keysOf j o = []
  /-- exported keys come back under the name they are imported for -/
  exported : ∀ j o t e j', L.exportJson j o = .ok t → L.importJson j t e = .ok j' →
    ∀ k ∈ keysOf j o, k ∈ keysOf j' e
  /-- importing touches no other name -/
  others : ∀ j t e j' o, L.importJson j t e = .ok j' → o ≠ e → keysOf j' o = keysOf j o
  httpc : ∀ j p o, keysOf (L.setHttpc j p) o = keysOf j o

/-- a key jar that is given is used as it is, whatever the configuration says -/
theorem C118_given {α : Type} {imp : Val → Res (Dict → Res α)} {mem : String → α} {L : KeyLib α} {config : Dict}
    {jar : L.Jar} {entity : String} {r : α × L.Jar} (h : contextInit imp mem L config (some jar) entity = .ok r) :
    r.2 = jar ∧ contextDb imp mem config = .ok r.1 := by
  unfold contextInit at h
  simp only [bind_ok] at h
  obtain ⟨db, h1, conf, _, jar', h3, h⟩ := h
  cases h
  cases h3
  exact ⟨rfl, h1⟩

theorem keys_httpc {α Key : Type} {L : KeyLib α} {keysOf : L.Jar → String → List Key} (hL : KeyLaws L keysOf) (p : Val)
    (j : L.Jar) (o : String) : keysOf (withHttpc L p j) o = keysOf j o := by
  unfold withHttpc
  split
  · exact hL.httpc ..
  · rfl

/-- The keys of a context without a name are also filed under its name; they are the ones that were configured. -/
theorem C118_own_name {α Key : Type} {imp : Val → Res (Dict → Res α)} {L : KeyLib α}
    {keysOf : L.Jar → String → List Key} (hL : KeyLaws L keysOf) {db conf : Dict} {entity : String} (he : entity ≠ "")
    {jar : L.Jar} (h : contextKeyjar imp L none db conf entity = .ok jar) :
    (∀ k ∈ keysOf jar "", k ∈ keysOf jar entity) ∧
    ∃ storage first, keyStorage imp db = .ok storage ∧ firstKeys L conf storage = .ok first ∧
      keysOf jar "" = keysOf first "" ∧ ∀ o, o ≠ entity → keysOf jar o = keysOf first o := by
  unfold contextKeyjar at h
  simp only [bind_ok] at h
  obtain ⟨storage, h1, first, h2, jar', h3, h⟩ := h
  cases h
  simp only [keys_httpc hL]
  unfold ownName at h3
  simp only [bind_ok] at h3
  obtain ⟨own, ho, h3⟩ := h3
  cases own with
  | false =>
    simp only [Bool.false_and, Bool.false_eq_true, if_false, ok_ok] at h3
    subst h3
    have := hL.absent _ _ ho
    exact ⟨by simp [this], storage, first, h1, h2, rfl, fun _ _ => rfl⟩
  | true =>
    rw [if_pos (by simpa using he)] at h3
    simp only [bind_ok] at h3
    obtain ⟨t, ht, h3⟩ := h3
    have hs : ∀ o, o ≠ entity → keysOf jar' o = keysOf first o := fun o => hL.others _ _ _ _ _ h3
    have h0 := hs "" (Ne.symm he)
    refine ⟨fun k hk => ?_, storage, first, h1, h2, h0, hs⟩
    rw [h0] at hk
    exact hL.exported _ _ _ _ _ ht h3 k hk

/-- With `keys` in the configuration, nothing else decides which keys there are: not `jwks`, not an argument `storage`,
not `uri_path`. -/
theorem C118_keys_decide {α : Type} (imp : Val → Res (Dict → Res α)) (L : KeyLib α) (db c₁ c₂ k₁ k₂ : Dict) (entity : String)
    (h₁ : dget c₁ "keys" = some (.dict k₁)) (h₂ : dget c₂ "keys" = some (.dict k₂))
    (hk : k₁.filter (fun p => p.1 != "uri_path" && p.1 != "storage") = k₂.filter (fun p => p.1 != "uri_path" && p.1 != "storage"))
    (hh : dget c₁ "httpc_params" = dget c₂ "httpc_params") :
    contextKeyjar imp L none db c₁ entity = contextKeyjar imp L none db c₂ entity := by
  have e : initKeys L (.dict k₁) = initKeys L (.dict k₂) := by
    funext s
    simp only [initKeys, Val.itemsOf, bind, Except.bind]
    rw [hk]
  simp only [contextKeyjar, firstKeys, h₁, h₂, e, hh]

/-- without `keys`, the keys of `jwks` are imported under the empty name -/
theorem C118_jwks {α : Type} {L : KeyLib α} {conf : Dict} {storage : Option α} {jar : L.Jar}
    (hk : dget conf "keys" = none) (h : firstKeys L conf storage = .ok jar) :
    (dget conf "jwks" = none → L.new storage = .ok jar) ∧
    (∀ v, dget conf "jwks" = some v → ∃ j₀, L.new storage = .ok j₀ ∧ L.importJwks j₀ v "" = .ok jar) := by
  simp only [firstKeys, hk, newKeys, bind_ok] at h
  obtain ⟨j₀, h0, h⟩ := h
  refine ⟨fun e => ?_, fun v e => ?_⟩
  · rw [e] at h; cases h; exact h0
  · rw [e] at h; exact ⟨j₀, h0, h⟩

/-- The HTTP parameters that are configured are those of the key jar; if none are configured, or only an empty value, the jar
keeps the ones the library gave it. -/
theorem C118_httpc {α : Type} {imp : Val → Res (Dict → Res α)} {L : KeyLib α} (httpcOf : L.Jar → Val)
    (hset : ∀ j p, httpcOf (L.setHttpc j p) = p) (hi : ∀ j t e j', L.importJson j t e = .ok j' → httpcOf j' = httpcOf j)
    {db conf : Dict} {entity : String} {jar : L.Jar} (h : contextKeyjar imp L none db conf entity = .ok jar) :
    (∀ p, dget conf "httpc_params" = some p → p.truthy = true → httpcOf jar = p) ∧
    ((∀ p, dget conf "httpc_params" = some p → p.truthy = false) →
      ∃ storage first, keyStorage imp db = .ok storage ∧ firstKeys L conf storage = .ok first ∧
        httpcOf jar = httpcOf first) := by
  unfold contextKeyjar at h
  simp only [bind_ok] at h
  obtain ⟨storage, h1, first, h2, jar', h3, h⟩ := h
  cases h
  refine ⟨fun p hp ht => ?_, fun hf => ⟨storage, first, h1, h2, ?_⟩⟩
  · rw [hp, Option.getD_some, withHttpc, if_pos ht, hset]
  · have ht : ((dget conf "httpc_params").getD .none).truthy = false := by
      cases e : dget conf "httpc_params" with
      | none => rfl
      | some p => exact hf p e
    rw [withHttpc, if_neg (by simp [ht])]
    unfold ownName at h3
    simp only [bind_ok] at h3
    obtain ⟨own, _, h3⟩ := h3
    split at h3
    · simp only [bind_ok] at h3
      obtain ⟨t, _, h3⟩ := h3
      exact hi _ _ _ _ h3
    · cases h3; rfl

/-- a library whose jars are nothing but their HTTP parameters -/
def httpcLib : KeyLib String where
  Jar := Val
  init := fun _ _ => .ok (.dict [("timeout", .int 5)])
  new := fun _ => .ok (.dict [("timeout", .int 5)])
  importJwks := fun j _ _ => .ok j
  has := fun _ _ => .ok true
  exportJson := fun _ _ => .ok ""
  importJson := fun j _ _ => .ok j
  setHttpc := fun _ p => p

example : (contextKeyjar fileImp httpcLib none [] [("httpc_params", .dict [("verify", .bool false)])] "me" =
      .ok (.dict [("verify", .bool false)])) ∧
    contextKeyjar fileImp httpcLib none [] [("httpc_params", .dict [])] "me" = .ok (.dict [("timeout", .int 5)]) ∧
    (∀ j p, id (httpcLib.setHttpc j p) = p) ∧
    ∀ j t e j', httpcLib.importJson j t e = .ok j' → id j' = id j := by
  refine ⟨rfl, rfl, fun _ _ => rfl, fun j t e j' h => ?_⟩
  cases h; rfl

/-- a key library for the examples: a jar is a dictionary of key names -/
abbrev toyKeyLib : KeyLib String where
  Jar := Assoc (List String)
  init := fun d _ => .ok [("", dkeys d)]
  new := fun _ => .ok []
  importJwks := fun j _ o => .ok (dset j o ["imported"])
  has := fun j o => .ok (dhas j o)
  exportJson := fun j o => .ok (String.intercalate " " ((dget j o).getD []))
  importJson := fun j t o => .ok (dset j o ((pySplit ' ' t) ++ (dget j o).getD []))
  setHttpc := fun j _ => j

example : (contextInit fileImp id toyKeyLib [("keys", .dict [("RSA", .int 1), ("uri_path", .str "p")]),
    ("jwks", .dict [])] none "https://me").map (fun r => (r.2 : Assoc (List String))) = .ok [("", ["RSA"]), ("https://me", ["RSA"])] := by decide +kernel
example : (contextInit fileImp id toyKeyLib [("jwks", .dict [])] none "https://me").map (fun r => (r.2 : Assoc (List String)))
    = .ok [("", ["imported"]), ("https://me", ["imported"])] := by decide +kernel

/-- the assumptions on the library can be met: here a jar has the number of keys under each name -/
def countLib : KeyLib String where
  Jar := String → Nat
  init := fun d _ => .ok (fun o => if o = "" then d.length else 0)
  new := fun _ => .ok (fun _ => 0)
  importJwks := fun j _ o => .ok (fun o' => if o' = o then j o + 1 else j o')
  has := fun j o => .ok (j o != 0)
  exportJson := fun j o => .ok (String.ofList (List.replicate (j o) 'k'))
  importJson := fun j t o => .ok (fun o' => if o' = o then max (j o) t.toList.length else j o')
  setHttpc := fun j _ => j

theorem countLib_laws : KeyLaws countLib (fun j o => List.range (j o)) where
  absent := by
    intro j o h
    simp only [countLib, Except.ok.injEq, bne_eq_false_iff_eq] at h
    simp [h]
  exported := by
    intro j o t e j' h h' k hk
    cases h; cases h'
    simp only [List.mem_range, if_true, String.toList_ofList, List.length_replicate] at hk ⊢
    exact Nat.lt_of_lt_of_le hk (Nat.le_max_right ..)
  others := by
    intro j t e j' o h hne
    cases h
    simp [hne]
  httpc := by intro j p o; rfl

/-! ## C119 -/

theorem contextDb_conf {α : Type} {imp : Val → Res (Dict → Res α)} {mem : String → α} {config db : Dict}
    (h : contextConf config = .ok db) (hne : db ≠ []) : contextDb imp mem config = defaultStorage imp mem db := by
  unfold contextConf at h
  unfold contextDb
  split at h
  · next ht =>
    rw [if_pos ht]
    split at h
    · next e => simp only [e, h]
    · cases h
  · cases h; exact absurd rfl hne

theorem configured_ne {db : Dict} {k : String} {c : Val} (h : Configured db k c) : db ≠ [] := by
  rintro rfl
  simp [Configured, dget] at h

theorem initStorage_of {α : Type} {imp : Val → Res (Dict → Res α)} {mem : String → α} {db d : Dict} {key : String}
    (hne : db ≠ []) (h : getStorageConf db key = .ok (.dict d)) (ht : (Val.dict d).truthy = true) :
    initStorage imp mem db key = storageFactory imp d := by
  have : db.isEmpty = false := by cases db <;> simp_all
  simp only [initStorage, this, Bool.false_eq_true, if_false, h, ht, if_true]

theorem keyStorage_of {α : Type} {imp : Val → Res (Dict → Res α)} {db d : Dict}
    (hne : db ≠ []) (h : getStorageConf db "keyjar" = .ok (.dict d)) (ht : (Val.dict d).truthy = true) :
    keyStorage imp db = (storageFactory imp d).map some := by
  have : db.isEmpty = false := by cases db <;> simp_all
  simp only [keyStorage, this, Bool.false_eq_true, if_false, h, ht, if_true]

/-- C119 fails: if there is a section `default` but none for the key jar, the key jar is stored where the context keeps
its own items, always. -/
theorem C119_counterexample_keyjar {α : Type} (imp : Val → Res (Dict → Res α)) (mem : String → α) (config db d : Dict)
    (hc : contextConf config = .ok db) (hk : ¬ ∃ c, Configured db "keyjar" c) (hd : Configured db "default" (.dict d)) :
    keyStorage imp db = (contextDb imp mem config).map some := by
  rw [contextDb_conf hc (configured_ne hd), keyStorage_of (configured_ne hd) (C63_default _ _ _ hk hd) hd.2]
  unfold defaultStorage
  rw [hd.1, Option.getD_some, if_pos hd.2, initStorage_of (configured_ne hd) (C63_section _ _ _ hd) hd.2]

/-- ... and boxes without sections of their own all share the storage of the section `default`. -/
theorem C119_counterexample_boxes {α : Type} (imp : Val → Res (Dict → Res α)) (mem : String → α) (db d : Dict)
    (k₁ k₂ : String) (h₁ : ¬ ∃ c, Configured db k₁ c) (h₂ : ¬ ∃ c, Configured db k₂ c)
    (hd : Configured db "default" (.dict d)) :
    initStorage imp mem db k₁ = initStorage imp mem db k₂ ∧
    initStorage imp mem db k₁ = initStorage imp mem db "default" := by
  rw [initStorage_of (configured_ne hd) (C63_default _ _ _ h₁ hd) hd.2,
    initStorage_of (configured_ne hd) (C63_default _ _ _ h₂ hd) hd.2,
    initStorage_of (configured_ne hd) (C63_section _ _ _ hd) hd.2]
  exact ⟨rfl, rfl⟩

/-- C119, what holds: file storages with sections of their own, which name different directories, are separate; a key
jar uses the section `keyjar`. -/
theorem C119_sections_partial (imp : Val → Res (Dict → Res String)) (mem : String → String) (db d₁ d₂ : Dict) (v₁ v₂ : Val)
    (k₁ k₂ t₁ t₂ r₁ r₂ : String) (h₁ : Configured db k₁ (.dict d₁)) (h₂ : Configured db k₂ (.dict d₂))
    (hv₁ : Configured d₁ "handler" v₁) (hv₂ : Configured d₂ "handler" v₂) (hi₁ : imp v₁ = .ok fdirOf) (hi₂ : imp v₂ = .ok fdirOf)
    (hf₁ : dget d₁ "fdir" = some (.str t₁)) (hf₂ : dget d₂ "fdir" = some (.str t₂))
    (hs₁ : isSubstrC "{issuer}".toList t₁.toList = false) (hs₂ : isSubstrC "{issuer}".toList t₂.toList = false)
    (hne : t₁ ≠ t₂) (hr₁ : initStorage imp mem db k₁ = .ok r₁) (hr₂ : initStorage imp mem db k₂ = .ok r₂) :
    r₁ ≠ r₂ ∧ (k₁ = "keyjar" → keyStorage imp db = .ok (some r₁)) := by
  have key : ∀ (d : Dict) (v : Val) (t : String), Configured d "handler" v → imp v = .ok fdirOf →
      dget d "fdir" = some (.str t) → isSubstrC "{issuer}".toList t.toList = false → storageFactory imp d = .ok t := by
    intro d v t hv hi hf hs
    have e1 : dget (d.filter (fun p => p.1 != "handler")) "fdir" = some (.str t) := by
      rw [dget_filter_key _ (fun k => k != "handler"), if_pos (by decide), hf]
    simp only [storageFactory, hv.1, Option.getD_some, hv.2, if_true, hi, fdirOf, e1, hs, Bool.false_eq_true, if_false]
  have e₁ := key _ _ _ hv₁ hi₁ hf₁ hs₁
  have e₂ := key _ _ _ hv₂ hi₂ hf₂ hs₂
  rw [initStorage_of (configured_ne h₁) (C63_section _ _ _ h₁) h₁.2, e₁] at hr₁
  rw [initStorage_of (configured_ne h₂) (C63_section _ _ _ h₂) h₂.2, e₂] at hr₂
  cases hr₁; cases hr₂
  refine ⟨hne, ?_⟩
  rintro rfl
  rw [keyStorage_of (configured_ne h₁) (C63_section _ _ _ h₁) h₁.2, e₁]; rfl

/-- Without any configuration the storages are in memory, labelled with their names, and the key jar has none. -/
theorem C119_memory {α : Type} (imp : Val → Res (Dict → Res α)) (mem : String → α) (key : String) :
    initStorage imp mem [] key = .ok (mem key) ∧ keyStorage imp [] = .ok none := ⟨rfl, rfl⟩

/-- Neither does a configuration without a section `default` and without one of the name change that. -/
theorem C119_unselected {α : Type} (imp : Val → Res (Dict → Res α)) (mem : String → α) (db : Dict) (key : String)
    (hk : ∀ c, ¬ Configured db key c) (hd : ∀ c, ¬ Configured db "default" c) :
    (key ≠ "default" → initStorage imp mem db key = .ok (mem key)) ∧ (key = "keyjar" → keyStorage imp db = .ok none) := by
  have hf : ∀ k, (∀ c, ¬ Configured db k c) → ((dget db k).getD .none).truthy = false := by
    intro k h
    cases hg : dget db k with
    | none => rfl
    | some v =>
      cases ht : v.truthy with
      | false => simpa using ht
      | true => exact absurd ⟨hg, ht⟩ (h v)
  by_cases he : db.isEmpty = true
  · simp [initStorage, keyStorage, he]
  · have e : key ≠ "default" → getStorageConf db key = .ok ((dget db "default").getD .none) := by
      intro hn
      simp [getStorageConf, he, hf key hk, hn]
    refine ⟨fun hn => ?_, ?_⟩
    · simp [initStorage, he, e hn, hf _ hd]
    · rintro rfl
      simp [keyStorage, he, e (by decide), hf _ hd]

example : (∀ c, ¬ Configured [("state", .str "x"), ("default", .dict [])] "keyjar" c) ∧
    (∀ c, ¬ Configured [("state", .str "x"), ("default", .dict [])] "default" c) :=
  ⟨fun c h => by simp [Configured, dget] at h, fun c h => by obtain ⟨h1, h2⟩ := h; cases h1; cases h2⟩

/-- the configuration of the documentation without the section `keyjar`: one directory for keys and items -/
example : let config : Dict := [("db_conf", .dict [("default", .dict [("handler", .str "h"), ("fdir", .str "db")])])]
    contextConf config = .ok [("default", .dict [("handler", .str "h"), ("fdir", .str "db")])] ∧
    contextDb fileImp id config = .ok "db" ∧
    keyStorage fileImp [("default", .dict [("handler", .str "h"), ("fdir", .str "db")])] = .ok (some "db") := by
  decide +kernel
/-- and with it -/
example : let db : Dict := [("keyjar", .dict [("handler", .str "h"), ("fdir", .str "db/keyjar")]),
      ("default", .dict [("handler", .str "h"), ("fdir", .str "db")])]
    initStorage fileImp id db "default" = .ok "db" ∧ keyStorage fileImp db = .ok (some "db/keyjar") := by
  decide +kernel

/-! ## C120 -/

theorem addBoxes_other {α : Type} {imp : Val → Res (Dict → Res α)} {mem : String → α} {db : Dict} {a : String} :
    ∀ {boxes : List (String × String)} {attrs attrs' : Assoc α} {e : Option Exc},
      addBoxes imp mem db boxes attrs = (attrs', e) → (∀ b ∈ boxes, b.2 ≠ a) → dget attrs' a = dget attrs a
  | [], _, _, _, h, _ => by cases h; rfl
  | (key, attr) :: rest, attrs, attrs', e, h, hb => by
    unfold addBoxes at h
    split at h
    · cases h; rfl
    · rw [addBoxes_other h (fun b hm => hb b (List.mem_cons_of_mem _ hm)),
        dget_dset_ne _ _ (hb (key, attr) (List.mem_cons_self ..))]

/-- **C120**: after `add_boxes` every attribute that was asked for holds the storage of its section, every other attribute
is as before.  If two boxes ask for the same attribute, the later one has it. -/
theorem C120_boxes {α : Type} {imp : Val → Res (Dict → Res α)} {mem : String → α} {db : Dict}
    {boxes : List (String × String)} {attrs attrs' : Assoc α} (h : addBoxes imp mem db boxes attrs = (attrs', none)) :
    (∀ pre key attr post, boxes = pre ++ (key, attr) :: post → (∀ b ∈ post, b.2 ≠ attr) →
      ∃ s, initStorage imp mem db key = .ok s ∧ dget attrs' attr = some s) ∧
    (∀ a, (∀ b ∈ boxes, b.2 ≠ a) → dget attrs' a = dget attrs a) := by
  refine ⟨?_, fun a ha => addBoxes_other h ha⟩
  intro pre
  induction pre generalizing boxes attrs with
  | nil =>
    rintro key attr post rfl hp
    rw [List.nil_append, addBoxes] at h
    split at h
    · cases h
    · next s hs => exact ⟨s, hs, by rw [addBoxes_other h hp, dget_dset_same]⟩
  | cons b pre ih =>
    rintro key attr post rfl hp
    obtain ⟨k, a⟩ := b
    rw [List.cons_append, addBoxes] at h
    split at h
    · cases h
    · exact ih h key attr post rfl hp

/-- If a section cannot be used, the error is raised and the boxes before it are there. -/
theorem C120_error {α : Type} {imp : Val → Res (Dict → Res α)} {mem : String → α} {db : Dict}
    {boxes : List (String × String)} {attrs attrs' : Assoc α} {e : Exc}
    (h : addBoxes imp mem db boxes attrs = (attrs', some e)) :
    ∃ pre key attr post, boxes = pre ++ (key, attr) :: post ∧ initStorage imp mem db key = .error e ∧
      addBoxes imp mem db pre attrs = (attrs', none) := by
  induction boxes generalizing attrs with
  | nil => cases h
  | cons b rest ih =>
    obtain ⟨k, a⟩ := b
    rw [addBoxes] at h
    split at h
    · next e' he =>
      cases h
      exact ⟨[], k, a, rest, rfl, he, rfl⟩
    · next s hs =>
      obtain ⟨pre, key, attr, post, h1, h2, h3⟩ := ih h
      exact ⟨(k, a) :: pre, key, attr, post, by rw [h1]; rfl, h2, by rw [addBoxes, hs]; exact h3⟩

example : addBoxes fileImp id [("a", .dict [("handler", .str "h"), ("fdir", .str "da")]),
      ("default", .dict [("handler", .str "h"), ("fdir", .str "db")])] [("a", "x"), ("b", "y"), ("default", "z")] []
    = ([("x", "da"), ("y", "db"), ("z", "db")], none) := by decide +kernel
example : addBoxes fileImp id [("a", .dict [("handler", .str "h"), ("fdir", .str "da")])] [("a", "x"), ("default", "y")] []
    = ([("x", "da")], some .configurationError) := by decide +kernel

end Verif
