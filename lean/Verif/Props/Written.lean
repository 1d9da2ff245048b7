import Verif.Props.Vocabulary
import Verif.Props.ReadWrite
import Verif.Props.Logout

/-!
# C160: in JSON every value is written in the kind its name stands for
-/

namespace Verif

/-- The values a parameter of a kind is meant to hold, and how they are to stand in a JSON document. -/
inductive StandsFor : Registered → Val → Val → Prop
  | number {i} : StandsFor .number (.int i) (.int i)
  | truth {b} : StandsFor .truth (.bool b) (.bool b)
  | text {s} : StandsFor .text (.str s) (.str s)
  | words {ss : List String} : StandsFor .words (.list (ss.map .str)) (.str (pyJoin ' ' ss))
  | array {ss : List String} : StandsFor .array (.list (ss.map .str)) (.list (ss.map .str))
  | moment {i t} : StandsFor .moment (.int i) (.str t)
  | object {d} : StandsFor .object (.dict d) (.dict d)
  | message {c m d} : toDict libEnv c m = .ok d → StandsFor .message (.msg c m) (.dict d)
  | messages {c} {ms ds : List Dict} : ms.map (toDict libEnv c) = ds.map .ok →
      StandsFor .messages (.list (ms.map (.msg c))) (.list (ds.map .dict))

/-- a value that a parameter of the kind is meant to hold -/
inductive Suits : Registered → Val → Prop
  | number {i} : Suits .number (.int i)
  | truth {b} : Suits .truth (.bool b)
  | text {s} : Suits .text (.str s)
  | words {ss : List String} : Suits .words (.list (ss.map .str))
  | array {ss : List String} : Suits .array (.list (ss.map .str))
  | moment {i} : Suits .moment (.int i)
  | object {d} : Suits .object (.dict d)
  | message {c m} : Suits .message (.msg c m)
  | messages {c} {ms : List Dict} : Suits .messages (.list (ms.map (.msg c)))

/-- what is written for one parameter -/
theorem toDict_entry {env : SerEnv} {c : Cls} : ∀ {st d : Dict} {k : String} {v : Val}, toDict env c st = .ok d →
    dget st k = some v → ∃ w, serDict env (env c k) v = .ok w ∧ dget d k = some w
  | [], d, k, v, h, hk => by simp at hk
  | (k0, v0) :: r, d, k, v, h, hk => by
    simp only [toDict] at h
    obtain ⟨x, hx, h⟩ := res_bind_ok h
    obtain ⟨xs, hxs, h⟩ := res_bind_ok h
    cases h
    rw [dget_cons] at hk ⊢
    split at hk
    · next e =>
      cases hk
      subst e
      exact ⟨x, hx, by simp⟩
    · next e =>
      rw [if_neg e]
      exact toDict_entry hxs hk

theorem kind_ser {sp : Spec} {r : Registered} (h : sp.kind = some r) :
    (r ∈ [.number, .truth, .text] → sp.ser = none) ∧ (r = .moment → sp.ser = some .timeStamp) ∧
    (r = .words → sp.ser = some .spSep) ∧ (r = .array → sp.ser = some .list) ∧
    (r = .object → sp.ser = some .json ∨ sp.ser = some .msgJson) := by
  unfold Spec.kind at h
  split at h <;> first | (cases h; done) | skip
  all_goals first | (split at h <;> cases h) | cases h
  all_goals simp_all

/-- how messages are written in the classes of the library -/
theorem message_sers : ∀ sch ∈ allSchemas, ∀ q ∈ sch.params,
    (meaning sch.cls q.1 = some .message → q.2.ser = some .msg ∨ q.2.ser = some .msgJson ∨ q.2.ser = some .claims) ∧
    (meaning sch.cls q.1 = some .messages → q.2.ser = some .msgList ∨ q.2.ser = some .linkList) := by decide +kernel

/-- the objects that are written as objects -/
theorem object_sers : ∀ sch ∈ allSchemas, ∀ q ∈ sch.params, meaning sch.cls q.1 = some .object →
    (q.1 ∈ ["events", "place_of_birth", "registration"] ∧ q.2.ser = some .json ∨
      q.1 ∈ ["jwks", "properties", "titles"] ∧ q.2.ser = some .msgJson) := by decide +kernel

theorem msgSerEach_msgs {env : SerEnv} {c : Cls} : ∀ {ms : List Dict} {ws : List Val},
    msgSerEach env (ms.map (.msg c)) = .ok ws → ∃ ds : List Dict, ws = ds.map .dict ∧ ms.map (toDict env c) = ds.map .ok
  | [], ws, h => by simp [msgSerEach] at h; subst h; exact ⟨[], rfl, rfl⟩
  | m :: ms, ws, h => by
    simp only [List.map_cons, msgSerEach] at h
    obtain ⟨x, hx, h⟩ := res_bind_ok h
    obtain ⟨xs, hxs, h⟩ := res_bind_ok h
    cases h
    obtain ⟨ds, rfl, hd⟩ := msgSerEach_msgs hxs
    exact ⟨x :: ds, rfl, by simp [hx, hd]⟩

theorem linkSerEach_msgs {env : SerEnv} {c : Cls} : ∀ {ms : List Dict} {ws : List Val},
    linkSerEach env (ms.map (.msg c)) = .ok ws → ∃ ds : List Dict, ws = ds.map .dict ∧ ms.map (toDict env c) = ds.map .ok
  | [], ws, h => by simp [linkSerEach] at h; subst h; exact ⟨[], rfl, rfl⟩
  | m :: ms, ws, h => by
    simp only [List.map_cons, linkSerEach] at h
    split at h
    · obtain ⟨x, hx, h⟩ := res_bind_ok h
      obtain ⟨xs, hxs, h⟩ := res_bind_ok h
      cases h
      obtain ⟨ds, rfl, hd⟩ := linkSerEach_msgs hxs
      exact ⟨x :: ds, rfl, by simp [hx, hd]⟩
    · cases h

theorem timeStampSer_text {v w : Val} (h : timeStampSer v = .ok w) : ∃ t, w = .str t := by
  unfold timeStampSer at h
  split at h
  · cases h
  · unfold isoSer at h
    repeat' split at h
    all_goals first | (cases h; done) | (cases h; exact ⟨_, rfl⟩)

/-- **C160** where it holds: in every class, for every declared parameter and every message that can be written, a value of
the kind the name stands for is written in that kind, unless the name is `events`, `place_of_birth` or `registration`. -/
theorem C160_partial : ∀ sch ∈ allSchemas, ∀ k r, dhas sch.params k = true → meaning sch.cls k = some r →
    k ∉ ["events", "place_of_birth", "registration"] → ∀ st d v, toDict libEnv sch.cls st = .ok d →
    dget st k = some v → Suits r v → ∃ w, dget d k = some w ∧ StandsFor r v w := by
  intro sch hs k r hk hm hex st d v hw hv hh
  obtain ⟨sp, hd⟩ := dhas_elim hk
  obtain ⟨w, h1, h2⟩ := toDict_entry hw hv
  rw [libEnv_declared hs hd] at h1
  obtain ⟨s1, s2, s3, s4, s5⟩ := kind_ser (kind_of hs hd hm).1
  refine ⟨w, h2, ?_⟩
  cases hh with
  | number => rw [s1 (by simp)] at h1; simp [serDict, serPlain] at h1; subst h1; exact .number
  | truth => rw [s1 (by simp)] at h1; simp [serDict, serPlain] at h1; subst h1; exact .truth
  | text => rw [s1 (by simp)] at h1; simp [serDict, serPlain] at h1; subst h1; exact .text
  | words =>
    rw [s3 rfl] at h1
    simp only [serDict_spSep, spaceJoin, joinStrs_map] at h1
    cases h1
    exact .words
  | @array ss =>
    rw [s4 rfl, serDict_list_strs] at h1
    cases h1
    exact .array
  | moment =>
    rw [s2 rfl] at h1
    simp only [serDict, serPlain] at h1
    obtain ⟨t, rfl⟩ := timeStampSer_text h1
    exact .moment
  | object =>
    rcases object_sers sch hs _ (dget_mem hd) hm with ⟨e, _⟩ | ⟨_, e⟩
    · exact absurd e hex
    · simp only at e
      rw [e] at h1
      simp [serDict, serPlain] at h1
      subst h1
      exact .object
  | @message c m =>
    have he := (message_sers sch hs _ (dget_mem hd)).1 hm
    simp only at he
    rcases he with e | e | e <;>
    · rw [e] at h1
      simp only [serDict] at h1
      obtain ⟨x, hx, rfl⟩ := res_map_ok h1
      exact .message hx
  | @messages c ms =>
    have he := (message_sers sch hs _ (dget_mem hd)).2 hm
    simp only at he
    rcases he with e | e
    · rw [e] at h1
      simp only [serDict] at h1
      obtain ⟨x, hx, rfl⟩ := res_map_ok h1
      obtain ⟨ds, rfl, hds⟩ := msgSerEach_msgs hx
      exact .messages hds
    · rw [e] at h1
      simp only [serDict] at h1
      obtain ⟨x, hx, rfl⟩ := res_map_ok h1
      obtain ⟨ds, rfl, hds⟩ := linkSerEach_msgs hx
      exact .messages hds

/-- The other three are objects, and never written as objects: in their place stands a text, the JSON text of the object. -/
theorem C160_objects_as_text : ∀ sch ∈ allSchemas, ∀ k ∈ ["events", "place_of_birth", "registration"],
    dhas sch.params k = true → meaning sch.cls k = some .object ∧ ∀ st d o, toDict libEnv sch.cls st = .ok d →
    dget st k = some (.dict o) → ∃ t, dget d k = some (.str t) ∧ dumps (.dict o) = .ok t ∧
      ((Val.dict o).isJson = true → loads t = .ok (.dict o)) := by
  intro sch hs k hkm hk
  obtain ⟨sp, hd⟩ := dhas_elim hk
  have hm : meaning sch.cls k = some .object := by
    have : ∀ sch ∈ allSchemas, ∀ q ∈ sch.params, q.1 ∈ ["events", "place_of_birth", "registration"] →
        meaning sch.cls q.1 = some .object := by decide +kernel
    exact this sch hs _ (dget_mem hd) hkm
  refine ⟨hm, fun st d o hw hv => ?_⟩
  obtain ⟨w, h1, h2⟩ := toDict_entry hw hv
  rw [libEnv_declared hs hd] at h1
  rcases object_sers sch hs _ (dget_mem hd) hm with ⟨_, e⟩ | ⟨e, _⟩
  · simp only at e
    rw [e] at h1
    simp only [serDict, serPlain] at h1
    obtain ⟨t, ht, rfl⟩ := res_map_ok h1
    refine ⟨t, h2, ht, fun hj => ?_⟩
    obtain ⟨t', h3, h4⟩ := loads_dumps _ hj
    rw [ht] at h3
    cases h3
    exact h4
  · simp only [List.mem_cons, List.not_mem_nil, or_false] at hkm e
    exfalso
    rcases hkm with rfl | rfl | rfl <;> simp at e

/-- **C160** as stated is false: the payload of a logout token has a text where OpenID Connect Back-Channel Logout
section 2.4 wants an object. -/
theorem C160_counterexample_events :
    toJson libEnv session_LogoutToken.cls [("iss", .str "https://op.example.org"), ("jti", .str "1"), ("iat", .int 5),
      ("events", .dict [("http://schemas.openid.net/event/backchannel-logout", .dict [])])] =
      .ok "{\"iss\": \"https://op.example.org\", \"jti\": \"1\", \"iat\": 5, \"events\": \"{\\\"http://schemas.openid.net/event/backchannel-logout\\\": {}}\"}" := by
  decide +kernel

/-- a message with values of several kinds that can be written -/
example : toDict libEnv oidc_AuthorizationRequest.cls [("scope", .list [.str "openid", .str "email"]), ("max_age", .int 5),
      ("nonce", .str "n"), ("claims", .msg oidc_ClaimsRequest.cls [("userinfo", .msg oidc_Claims.cls [("email", .none)])])] =
    .ok [("scope", .str "openid email"), ("max_age", .int 5), ("nonce", .str "n"),
      ("claims", .dict [("userinfo", .dict [("email", .none)])])] := by decide +kernel

example : Suits .words (.list [.str "openid", .str "email"]) ∧ meaning oidc_AuthorizationRequest.cls "scope" = some .words ∧
    meaning oidc_AuthorizationRequest.cls "claims" = some .message ∧
    Suits .message (.msg oidc_ClaimsRequest.cls [("userinfo", .msg oidc_Claims.cls [("email", .none)])]) :=
  ⟨.words (ss := ["openid", "email"]), by decide +kernel, by decide +kernel, .message⟩

end Verif
