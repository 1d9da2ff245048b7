import Verif.Props.FormText
import Verif.Props.StoreReopen

/-!
# C141: a message shown as text stays on one line
-/

namespace Verif

/-- a character that stays on the line: printable ASCII, or printable according to the Unicode database -/
def Shown (c : Char) : Prop := (32 ≤ c.toNat ∧ c.toNat ≤ 126) ∨ (127 < c.toNat ∧ uniPrintable c = true)

theorem hexDigitL_shown (n : Nat) (h : n < 16) : Shown (hexDigitL n) := by
  have : ∀ n, n < 16 → 32 ≤ (hexDigitL n).toNat ∧ (hexDigitL n).toNat ≤ 126 := by decide +kernel
  exact .inl (this n h)

theorem hex2_shown (n : Nat) : ∀ c ∈ hex2 n, Shown c := by
  intro c hc
  simp only [hex2, List.mem_cons, List.not_mem_nil, or_false] at hc
  rcases hc with rfl | rfl <;> exact hexDigitL_shown _ (Nat.mod_lt _ (by decide))

theorem hex4_shown (n : Nat) : ∀ c ∈ hex4 n, Shown c := by
  intro c hc
  rcases List.mem_append.1 hc with h | h <;> exact hex2_shown _ c h

theorem shown_lit {c : Char} (h : 32 ≤ c.toNat ∧ c.toNat ≤ 126 := by decide) : Shown c := .inl h

theorem reprChar_shown {q : Char} (hq : q = '\'' ∨ q = '"') (c : Char) : ∀ x ∈ reprChar q c, Shown x := by
  intro x hx
  unfold reprChar at hx
  repeat' split at hx
  all_goals simp only [List.mem_cons, List.mem_append, List.not_mem_nil, or_false] at hx
  · rename_i h
    rcases hx with rfl | rfl
    · exact shown_lit
    · rcases h with rfl | rfl
      · rcases hq with rfl | rfl <;> exact shown_lit
      · exact shown_lit
  iterate 3
    rcases hx with rfl | rfl <;> exact shown_lit
  · rename_i h; subst hx; exact .inl h
  · rename_i h; subst hx; exact .inr h
  · rcases hx with rfl | rfl | hx
    · exact shown_lit
    · exact shown_lit
    · exact hex2_shown _ _ hx
  · rcases hx with rfl | rfl | hx
    · exact shown_lit
    · exact shown_lit
    · exact hex4_shown _ _ hx
  · rcases hx with rfl | rfl | hx | hx
    · exact shown_lit
    · exact shown_lit
    · exact hex4_shown _ _ hx
    · exact hex4_shown _ _ hx

theorem reprQuote_quote (s : List Char) : reprQuote s = '\'' ∨ reprQuote s = '"' := by
  unfold reprQuote; split <;> simp

theorem strRepr_shown (s : String) : ∀ x ∈ strRepr s, Shown x := by
  intro x hx
  have hq := reprQuote_quote s.toList
  have hs : Shown (reprQuote s.toList) := by rcases hq with h | h <;> rw [h] <;> exact shown_lit
  unfold strRepr at hx
  simp only [List.mem_cons, List.mem_append, List.mem_flatMap, List.not_mem_nil, or_false] at hx
  rcases hx with rfl | ⟨c, _, hx⟩ | rfl
  · exact hs
  · exact reprChar_shown hq c x hx
  · exact hs

theorem printable_shown {s : List Char} (h : printable s) : ∀ x ∈ s, Shown x := fun x hx => .inl (h x hx)

mutual
theorem reprC_shown : (v : Val) → (s : List Char) → reprC v = .ok s → ∀ x ∈ s, Shown x
  | .none, s, h => by cases h; exact printable_shown (by unfold printable; decide)
  | .bool true, s, h => by cases h; exact printable_shown (by unfold printable; decide)
  | .bool false, s, h => by cases h; exact printable_shown (by unfold printable; decide)
  | .int i, s, h => by
    cases h
    exact printable_shown (dumpsC_solid (.int i) (intRepr i) (by simp only [dumpsC, intRepr])).print
  | .flt q, s, h => by
    rw [reprC] at h
    exact printable_shown (dumpsC_solid (.flt q) s (by rw [dumpsC]; exact h)).print
  | .str t, s, h => by cases h; exact strRepr_shown t
  | .list [], s, h => by cases h; exact printable_shown (by unfold printable; decide)
  | .list (v :: vs), s, h => by
    rw [reprC] at h
    cases ha : reprC v with
    | error e => rw [ha] at h; cases h
    | ok a =>
      cases hb : reprList vs with
      | error e => rw [ha, hb] at h; cases h
      | ok b =>
        rw [ha, hb] at h
        cases h
        intro x hx
        simp only [List.mem_cons, List.mem_append] at hx
        rcases hx with rfl | hx | hx
        · exact shown_lit
        · exact reprC_shown v a ha x hx
        · exact reprList_shown vs b hb x hx
  | .dict [], s, h => by cases h; exact printable_shown (by unfold printable; decide)
  | .dict ((k, v) :: d), s, h => by
    rw [reprC] at h
    cases ha : reprC v with
    | error e => rw [ha] at h; cases h
    | ok a =>
      cases hb : reprDict d with
      | error e => rw [ha, hb] at h; cases h
      | ok b =>
        rw [ha, hb] at h
        cases h
        intro x hx
        simp only [List.mem_cons, List.mem_append] at hx
        rcases hx with rfl | hx | rfl | rfl | hx | hx
        · exact shown_lit
        · exact strRepr_shown k x hx
        · exact shown_lit
        · exact shown_lit
        · exact reprC_shown v a ha x hx
        · exact reprDict_shown d b hb x hx
  | .msg _ _, s, h => by cases h
theorem reprList_shown : (l : List Val) → (s : List Char) → reprList l = .ok s → ∀ x ∈ s, Shown x
  | [], s, h => by cases h; exact printable_shown (by unfold printable; decide)
  | v :: vs, s, h => by
    rw [reprList] at h
    cases ha : reprC v with
    | error e => rw [ha] at h; cases h
    | ok a =>
      cases hb : reprList vs with
      | error e => rw [ha, hb] at h; cases h
      | ok b =>
        rw [ha, hb] at h
        cases h
        intro x hx
        simp only [List.mem_cons, List.mem_append] at hx
        rcases hx with rfl | rfl | hx | hx
        · exact shown_lit
        · exact shown_lit
        · exact reprC_shown v a ha x hx
        · exact reprList_shown vs b hb x hx
theorem reprDict_shown : (d : List (String × Val)) → (s : List Char) → reprDict d = .ok s → ∀ x ∈ s, Shown x
  | [], s, h => by cases h; exact printable_shown (by unfold printable; decide)
  | (k, v) :: d, s, h => by
    rw [reprDict] at h
    cases ha : reprC v with
    | error e => rw [ha] at h; cases h
    | ok a =>
      cases hb : reprDict d with
      | error e => rw [ha, hb] at h; cases h
      | ok b =>
        rw [ha, hb] at h
        cases h
        intro x hx
        simp only [List.mem_cons, List.mem_append] at hx
        rcases hx with rfl | rfl | hx | rfl | rfl | hx | hx
        · exact shown_lit
        · exact shown_lit
        · exact strRepr_shown k x hx
        · exact shown_lit
        · exact shown_lit
        · exact reprC_shown v a ha x hx
        · exact reprDict_shown d b hb x hx
end

/-- **C141**: `str(msg)` has no line break, no other control character and nothing the Unicode database calls unprintable, whatever
the message holds and of whatever class it is. -/
theorem C141_one_line (env : SerEnv) (c : Cls) (d : Dict) {t : String} (h : pyStrOf env (.msg c d) = .ok t) :
    ∀ x ∈ t.toList, (32 ≤ x.toNat ∧ x.toNat ≤ 126) ∨ (127 < x.toNat ∧ uniPrintable x = true) := by
  simp only [pyStrOf] at h
  cases hd : toDict env c d with
  | error e => rw [hd] at h; cases h
  | ok y =>
    rw [hd] at h
    simp only [bind, Except.bind, pyStr] at h
    cases hs : reprC (.dict y) with
    | error e => rw [hs] at h; cases h
    | ok s =>
      rw [hs] at h
      cases h
      rw [String.toList_ofList]
      exact reprC_shown _ _ hs

/-- a text that is shown as it is: printable ASCII without quotes and backslashes -/
def Literal (s : List Char) : Prop := ∀ c ∈ s, 32 ≤ c.toNat ∧ c.toNat ≤ 126 ∧ c ≠ '\'' ∧ c ≠ '\\'

theorem strRepr_literal {s : String} (h : Literal s.toList) : strRepr s = '\'' :: (s.toList ++ ['\'']) := by
  have hq : reprQuote s.toList = '\'' := by
    unfold reprQuote
    have : s.toList.contains '\'' = false := by
      rw [← Bool.not_eq_true, List.contains_iff_mem]
      intro hm
      exact (h _ hm).2.2.1 rfl
    rw [this]
    rfl
  unfold strRepr
  rw [hq]
  suffices hs : ∀ l : List Char, Literal l → l.flatMap (reprChar '\'') = l by rw [hs _ h]
  intro l
  induction l with
  | nil => intro _; rfl
  | cons c l ih =>
    intro hl
    rw [List.flatMap_cons, ih (fun x hx => hl x (List.mem_cons_of_mem _ hx))]
    obtain ⟨h1, h2, h3, h4⟩ := hl c (List.mem_cons_self ..)
    have h5 : c ≠ '\t' ∧ c ≠ '\n' ∧ c ≠ '\r' := by
      refine ⟨?_, ?_, ?_⟩ <;> rintro rfl <;> exact absurd h1 (by decide)
    simp [reprChar, h1, h2, h3, h4, h5]

/-- a member as it is shown -/
def memberText (p : String × String) : List Char := '\'' :: (p.1.toList ++ '\'' :: ':' :: ' ' :: '\'' :: (p.2.toList ++ ['\'']))

theorem toDict_texts {env : SerEnv} {c : Cls} : ∀ {ps : List (String × String)}, (∀ p ∈ ps, env c p.1 = none) →
    toDict env c (ps.map (fun p => (p.1, Val.str p.2))) = .ok (ps.map (fun p => (p.1, Val.str p.2)))
  | [], _ => by simp [toDict]
  | p :: ps, h => by
    simp only [List.map_cons, toDict, h p (List.mem_cons_self ..), toDict_texts (fun q hq => h q (List.mem_cons_of_mem _ hq)), serDict,
      serPlain, bind, Except.bind]

theorem reprDict_texts : ∀ {ps : List (String × String)}, (∀ p ∈ ps, Literal p.1.toList ∧ Literal p.2.toList) →
    reprDict (ps.map (fun p => (p.1, Val.str p.2))) = .ok ((ps.map (fun p => ',' :: ' ' :: memberText p)).flatten ++ ['}'])
  | [], _ => by simp [reprDict]
  | p :: ps, h => by
    obtain ⟨h1, h2⟩ := h p (List.mem_cons_self ..)
    simp only [List.map_cons, reprDict, reprC, reprDict_texts (fun q hq => h q (List.mem_cons_of_mem _ hq)), bind, Except.bind,
      strRepr_literal h1, strRepr_literal h2, memberText, List.flatten_cons]
    simp

/-- **C141**, and what is harmless is shown as it is: a message of text parameters is shown with its names and values in order. -/
theorem C141_literal (env : SerEnv) (c : Cls) {p : String × String} {ps : List (String × String)}
    (h : ∀ q ∈ p :: ps, Literal q.1.toList ∧ Literal q.2.toList ∧ env c q.1 = none) :
    ∃ t, pyStrOf env (.msg c ((p :: ps).map (fun q => (q.1, .str q.2)))) = .ok t ∧
      t.toList = '{' :: (memberText p ++ (ps.map (fun q => ',' :: ' ' :: memberText q)).flatten ++ ['}']) := by
  obtain ⟨h1, h2, _⟩ := h p (List.mem_cons_self ..)
  have ht := toDict_texts (fun q hq => (h q hq).2.2)
  have hr : reprC (.dict ((p :: ps).map (fun q => (q.1, Val.str q.2)))) =
      .ok ('{' :: (memberText p ++ (ps.map (fun q => ',' :: ' ' :: memberText q)).flatten ++ ['}'])) := by
    simp only [List.map_cons, reprC, bind, Except.bind,
      reprDict_texts (fun q hq => ⟨(h q (List.mem_cons_of_mem _ hq)).1, (h q (List.mem_cons_of_mem _ hq)).2.1⟩),
      strRepr_literal h1, strRepr_literal h2, memberText]
    simp
  refine ⟨_, ?_, String.toList_ofList⟩
  simp only [pyStrOf, ht, bind, Except.bind, pyStr, hr, Except.map]

/-! A message whose values hold line breaks and an escape sequence, and one that is shown as it is -/

def loudMsg : Dict := [("state", .str "ok\nINFO forged \x1b[2J"), ("n", .list [.int (-1), .none, .str "it's"])]

example : pyStrOf ⟨fun _ => []⟩ (.msg ⟨"t", "T"⟩ loudMsg) =
    .ok "{'state': 'ok\\nINFO forged \\x1b[2J', 'n': [-1, None, \"it's\"]}" := by decide +kernel

example : (∀ q ∈ [("state", "a b"), ("code", "~{}")], Literal q.1.toList ∧ Literal q.2.toList) ∧
    pyStrOf ⟨fun _ => []⟩ (.msg ⟨"t", "T"⟩ [("state", .str "a b"), ("code", .str "~{}")]) =
      .ok "{'state': 'a b', 'code': '~{}'}" := by
  refine ⟨?_, by decide +kernel⟩
  unfold Literal; decide +kernel

end Verif
