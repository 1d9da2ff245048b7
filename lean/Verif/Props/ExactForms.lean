import Verif.Props.ExactReading
import Verif.Props.FormIn

/-!
# Exactly which forms are read as a message, and what the message then holds: C174
-/

namespace Verif

/-- The parameter of this kind takes the values a form has for it, and then holds the other one. -/
inductive ParamKind.TakesForm : ParamKind → List String → Val → Prop
  | text (v : String) : ParamKind.text.TakesForm [v] (.str v)
  /-- numbers and truth values stay texts -/
  | number (v : String) : ParamKind.number.TakesForm [v] (.str v)
  | truth (v : String) : ParamKind.truth.TakesForm [v] (.str v)
  | token (v : String) : ParamKind.token.TakesForm [v] (.str v)
  /-- only the first value counts -/
  | words (v : String) (vs : List String) : ParamKind.words.TakesForm (v :: vs) (.list ((pySplit ' ' v).map .str))
  | spaced (v : String) (vs : List String) : ParamKind.spaced.TakesForm (v :: vs) (.list ((pySplit ' ' v).map .str))
  | read {t : Ty} {f : Val → Fmt → Res Val} {v : String} {w : Val} : f (.str v) .urlencoded = .ok w →
      (ParamKind.read t f).TakesForm [v] w

/-- The message of the class takes the values the form has under the name, and then holds the other one there. -/
def FormTaken (sch : Schema) (k : String) (vs : List String) (w : Val) : Prop :=
  ((∀ sp, ¬ DeclaredSpec sch k sp) ∧ ((∃ v, vs = [v] ∧ w = .str v) ∨ 2 ≤ vs.length ∧ w = .list (vs.map .str))) ∨
  ∃ sp kd, DeclaredSpec sch k sp ∧ SpecKind sp kd ∧ kd.TakesForm vs w

theorem addUrl_kind {sch : Schema} {sp : Spec} {kd : ParamKind} (hk : SpecKind sp kd) {b : Bool} (st : Dict) (k : String)
    (hl : lookupSpec sch.params k = some (b, sp)) (vs : List String) (hne : vs ≠ []) (st' : Dict) :
    addUrl sch st k vs = .ok st' ↔ ∃ w, kd.TakesForm vs w ∧ st' = dset st k w := by
  constructor
  · intro h
    unfold addUrl at h
    simp only [hl] at h
    cases kd with
    | words =>
      obtain ⟨h1, h2, -⟩ := hk
      cases vs with
      | nil => exact absurd rfl hne
      | cons v vs =>
        simp [h1, h2, listDeser, bind, Except.bind] at h
        exact ⟨_, .words v vs, h.symm⟩
    | spaced =>
      obtain ⟨h1, h2, -⟩ := hk
      cases vs with
      | nil => exact absurd rfl hne
      | cons v vs =>
        simp [h1, h2, spSepDeser, bind, Except.bind] at h
        exact ⟨_, .spaced v vs, h.symm⟩
    | read t f =>
      obtain ⟨⟨h1, -⟩, h2, -⟩ := hk
      match vs, hne, h with
      | [v], _, h =>
        simp only [h1, h2, bind_ok] at h
        obtain ⟨w, hw, h⟩ := h
        cases h
        exact ⟨w, .read hw, rfl⟩
      | _ :: _ :: _, _, h => simp [h1] at h
    | _ =>
      obtain ⟨h1, h2, -⟩ := hk
      match vs, hne, h with
      | [v], _, h =>
        simp [h1, h2] at h
        exact ⟨_, by constructor, h.symm⟩
      | _ :: _ :: _, _, h => simp [h1] at h
  · rintro ⟨w, h, rfl⟩
    unfold addUrl
    simp only [hl]
    cases h with
    | words => obtain ⟨h1, h2, -⟩ := hk; simp [h1, h2, listDeser, bind, Except.bind]
    | spaced => obtain ⟨h1, h2, -⟩ := hk; simp [h1, h2, spSepDeser, bind, Except.bind]
    | read hw => obtain ⟨⟨h1, -⟩, h2, -⟩ := hk; simp [h1, h2, hw, bind, Except.bind]
    | _ => obtain ⟨h1, h2, -⟩ := hk; simp [h1, h2]

theorem addUrl_exact {sch : Schema} (hs : SimpleClass sch) (st : Dict) (k : String) (vs : List String) (hne : vs ≠ []) (st' : Dict) :
    addUrl sch st k vs = .ok st' ↔ ∃ w, FormTaken sch k vs w ∧ st' = dset st k w := by
  have declared : ∀ sp, lookupSpec sch.params k = some (false, sp) → DeclaredSpec sch k sp → (k' : String) → (k', sp) ∈ sch.params →
      (∀ sp', DeclaredSpec sch k sp' → sp' = sp) →
      (addUrl sch st k vs = .ok st' ↔ ∃ w, FormTaken sch k vs w ∧ st' = dset st k w) := by
    intro sp hl hd k' hm huniq
    obtain ⟨kd, hkd⟩ := hs.2 k' sp hm
    constructor
    · intro h
      obtain ⟨w, ht, rfl⟩ := (addUrl_kind hkd st k hl vs hne st').1 h
      exact ⟨w, .inr ⟨sp, kd, hd, hkd, ht⟩, rfl⟩
    · rintro ⟨w, ⟨h, -⟩ | ⟨sp', kd', h1, h2, h3⟩, rfl⟩
      · exact absurd hd (h sp)
      · rw [huniq sp' h1] at h2
        exact (addUrl_kind h2 st k hl vs hne _).2 ⟨w, h3, rfl⟩
  cases h1 : dget sch.params k with
  | some sp =>
    refine declared sp (by simp [lookupSpec, h1]) (.inl h1) k (dget_mem h1) ?_
    rintro sp' (h | ⟨h, -⟩)
    · rw [h1] at h; cases h; rfl
    · rw [h1] at h; cases h
  | none =>
    cases h2 : dget sch.params (langBase k) with
    | some sp =>
      refine declared sp (by simp [lookupSpec, h1, h2]) (.inr ⟨h1, h2⟩) _ (dget_mem h2) ?_
      rintro sp' (h | ⟨-, h⟩)
      · rw [h1] at h; cases h
      · rw [h2] at h; cases h; rfl
    | none =>
      have hl : lookupSpec sch.params k = none := by simp [lookupSpec, h1, h2, hs.1]
      have hno : ∀ sp, ¬ DeclaredSpec sch k sp := by
        rintro sp (h | ⟨-, h⟩)
        · rw [h1] at h; cases h
        · rw [h2] at h; cases h
      unfold addUrl
      simp only [hl]
      match vs, hne with
      | [v], _ =>
        simp only [ok_ok]
        constructor
        · rintro rfl; exact ⟨_, .inl ⟨hno, .inl ⟨v, rfl, rfl⟩⟩, rfl⟩
        · rintro ⟨w, ⟨-, ⟨v', e, rfl⟩ | ⟨h, -⟩⟩ | ⟨sp, kd, h, -⟩, rfl⟩
          · cases e; rfl
          · simp at h
          · exact absurd h (hno sp)
      | v :: v' :: vs, _ =>
        simp only [ok_ok]
        constructor
        · rintro rfl; exact ⟨_, .inl ⟨hno, .inr ⟨by simp, rfl⟩⟩, rfl⟩
        · rintro ⟨w, ⟨-, ⟨v'', e, -⟩ | ⟨-, rfl⟩⟩ | ⟨sp, kd, h, -⟩, rfl⟩
          · cases e
          · rfl
          · exact absurd h (hno sp)

/-- **C174, forms.**  A form is read as a message of such a class exactly when it is empty or has a pair with a value, and the values
it has under each name are taken. -/
theorem C174_form {sch : Schema} (hs : SimpleClass sch) (st : Dict) (txt : String) :
    (∃ st', fromUrlencoded sch st txt = .ok st') ↔
      (txt = "" ∨ parseQsl txt ≠ []) ∧
      ∀ k ∈ (parseQsl txt).map Prod.fst, ∃ w, FormTaken sch k (valuesOf k (parseQsl txt)) w := by
  have vals : ∀ k ∈ (parseQsl txt).map Prod.fst, valuesOf k (parseQsl txt) ≠ [] := fun k hk he => (valuesOf_nil_iff k _).1 he hk
  constructor
  · rintro ⟨st', h⟩
    refine ⟨?_, fun k hk => ?_⟩
    · apply Classical.byContradiction
      intro hc
      have hc1 : txt ≠ "" := fun e => hc (.inl e)
      have hc2 : parseQsl txt = [] := Classical.byContradiction fun e => hc (.inr e)
      have : parseQs txt = [] := by simp [parseQs, hc2]
      simp [fromUrlencoded, hc1, this] at h
    · obtain ⟨x, -, ha⟩ := (form_get h k).2 (vals k hk)
      obtain ⟨w, hw, -⟩ := (addUrl_exact hs _ k _ (vals k hk) _).1 (ha [])
      exact ⟨w, hw⟩
  · rintro ⟨h1, h2⟩
    cases hr : fromUrlencoded sch st txt with
    | ok st' => exact ⟨st', rfl⟩
    | error e =>
      exfalso
      rcases C100_errors hr with ⟨-, h3, h4⟩ | ⟨k, sp, b, hl, hk, hbad⟩
      · rcases h1 with h1 | h1
        · exact h3 h1
        · exact h1 h4
      · obtain ⟨w, hw⟩ := h2 k hk
        have ha := (addUrl_exact hs [] k _ (vals k hk) _).2 ⟨w, hw, rfl⟩
        unfold addUrl at ha
        simp only [hl] at ha
        rcases hbad with ⟨-, hlen, t, ht⟩ | ⟨f, v, hf, hv, he⟩
        · simp only [ht] at ha
          generalize valuesOf k (parseQsl txt) = vs at ha hlen
          match vs, hlen, ha with
          | _ :: _ :: _, _, ha => cases ha
        · -- the readers of lists take every text
          obtain ⟨kd, hkd⟩ : ∃ kd, SpecKind sp kd := by
            have : ∃ k', dget sch.params k' = some sp := by
              unfold lookupSpec at hl
              split at hl
              · next h => cases hl; exact ⟨_, h⟩
              · split at hl
                · next h => cases hl; exact ⟨_, h⟩
                · rw [hs.1] at hl; cases hl
            obtain ⟨k', hk'⟩ := this
            exact hs.2 k' sp (dget_mem hk')
          cases kd with
          | words => obtain ⟨-, h, -⟩ := hkd; rw [hf] at h; cases h; simp [listDeser] at he
          | spaced => obtain ⟨-, h, -⟩ := hkd; rw [hf] at h; cases h; simp [spSepDeser] at he
          | read t g =>
            obtain ⟨⟨h, -⟩, hd, -⟩ := hkd
            rw [hf] at hd; cases hd
            simp only [h, hf] at ha
            generalize valuesOf k (parseQsl txt) = vs at ha hv
            match vs, hv, ha with
            | [x], hv, ha =>
              simp at hv; subst hv
              simp [he, bind, Except.bind] at ha
            | _ :: _ :: _, _, ha => cases ha
          | _ => obtain ⟨-, h, -⟩ := hkd; rw [hf] at h; cases h

/-- **C174, forms, the content.**  What the message then holds: what the parameters made of the values of the form, and otherwise what
it held before. -/
theorem C174_form_content {sch : Schema} (hs : SimpleClass sch) {st st' : Dict} {txt : String}
    (h : fromUrlencoded sch st txt = .ok st') (k : String) :
    (k ∈ (parseQsl txt).map Prod.fst → ∀ w, FormTaken sch k (valuesOf k (parseQsl txt)) w → dget st' k = some w) ∧
    (k ∉ (parseQsl txt).map Prod.fst → dget st' k = dget st k) := by
  constructor
  · intro hk w hw
    have hne : valuesOf k (parseQsl txt) ≠ [] := fun he => (valuesOf_nil_iff k _).1 he hk
    obtain ⟨x, hx, ha⟩ := (form_get h k).2 hne
    have h1 := ha []
    rw [(addUrl_exact hs [] k _ hne _).2 ⟨w, hw, rfl⟩] at h1
    have e : dset [] k w = dset [] k x := Except.ok.inj h1
    have := congrArg (dget · k) e
    simp only [dget_dset_same] at this
    rw [hx, this]
  · exact fun hk => (form_get h k).1 ((valuesOf_nil_iff k _).2 hk)

/-- a number stays a text, the second scope is lost, a repeated unknown name becomes a list; a repeated text is refused -/
example : SimpleClass oauth2_AccessTokenResponse ∧
    fromUrlencoded oauth2_AccessTokenResponse [] "access_token=a&expires_in=36&scope=x+y&scope=z&q=1&q=2" =
      .ok [("access_token", .str "a"), ("expires_in", .str "36"), ("scope", .list [.str "x", .str "y"]),
        ("q", .list [.str "1", .str "2"])] ∧
    fromUrlencoded oauth2_AccessTokenResponse [] "access_token=a&access_token=b" = .error .tooManyValues ∧
    fromUrlencoded oauth2_AccessTokenResponse [] "access_token=" = .error .formatError :=
  ⟨C174_classes (by simp [allSchemas]) (by decide), by decide +kernel, by decide +kernel, by decide +kernel⟩

end Verif
