# Formal model of oidcmsg in Lean 4

## Trusted base

* Lean 4.33.0 kernel (every module is replayed by the gate). Axioms: at most
  `propext`, `Classical.choice`, `Quot.sound`. No axioms of our own, no
  `sorry`, no `native_decide`, no `bv_decide`. Concrete runs use
  `decide +kernel`, which is evaluated by the kernel and adds no axiom.
* The reading of the Python source (`/repo` is never executed). Every Lean
  definition that models code cites file and lines; simplifications are stated
  in that comment. The standard library is that of Python 3.11.
* The external world enters as *parameters* over which theorems quantify (see
  the next section). Nothing about them is assumed unless a theorem says so.

### What is a parameter

| parameter | used by | meaning |
|---|---|---|
| `Crypto` | `Model/Jwt`, `Model/Oidc` | JWE/JWS factories, decryption, signature verification, key jar, `left_hash`; each may return anything or raise, and a key jar may change when asked for keys |
| `Writer`, `Packer` | `Model/JwtOut` | signing, encryption and `JWT.pack` of `cryptojwt`; C86, C87 and C99 assume that verification accepts what was signed and that the payload is the given one |
| `now` | verify methods, time functions, file storage | the clock |
| deserialisers of a schema | `Model/Message` | arbitrary functions in the generic theorems; the library's own ones in `Model/Schemas` |
| `netlocOk` | `providerConfigVerify` | validity checks of `urlsplit` on hosts in brackets and on hosts that are not ASCII |
| `SerEnv` | `toDict`, `toUrlencoded` | the declared parameters of the classes of messages inside a message |
| float parser | `Model/TimeUtil` | the value of a fraction in a duration string |
| `Conv` | `Model/FileStore` | the value converter (`PassThru` and `JSON` are instances) |
| `uniPrintable` | `Py/Repr` | which characters above `~` are printable (an opaque constant, not an argument) |
| `str(ava)` | `ldUpdate` | the text of a dictionary |
| `z`, `ltz`, `now` | `Model/IsoTime` | the offset of the local zone at an instant, the offset `tzlocal` found, the clock |
| `theZone`, `theOffset` | `Model/IsoTime` | the same for time stamps inside messages, as opaque constants; offsets are less than a day, and the current one is taken not to change between calls |

### What is modelled of which file

| file | modelled | not modelled |
|---|---|---|
| `message.py` | construction, `_add_value`, assignment, `verify`, `to_dict`, JSON, urlencoded, `request`, equality, the mapping methods, `from_jwt`, `to_jwt`, `to_jwe`, `from_jwe`, (de)serialisers, specification tuples, `__str__` | bytes arguments |
| `oauth2/__init__.py`, `device_authorization.py` | class tables, all `verify` methods, `merge`, `is_error_message`, the factory | |
| `oidc/__init__.py`, `session.py` | class tables, all `verify` methods, `verify_id_token`, hash binding, packing, `claims_match`, deserialisers, the factory, `make_openid_request` | `msg_ser_json` beyond dict format and what forms use of it |
| `identity_assurance.py` | claims requests, evidence, claim construction and assignment, time stamps (`Model/IsoTime`) | the time stamp 0 (current time) inside a message |
| `time_util.py` | all functions, with the default formats | other formats |
| `storage/abfile.py`, `extension.py`, `converter.py` | everything but `__str__`, logging | |
| `storage/absqlalchemy.py` | everything | SQL engine beyond transactions over rows |
| `storage/init.py`, `utils.py`, `context.py` | configuration choice, `modsplit`, `add_issuer`, the storage, key jar and boxes of a context, `get` and `set` | importing, the key library (a parameter) |
| `__init__.py` | `proper_path`, `add_base_path` | |

## Modelling decisions

* Python values are `Verif.Val`: none, bool, int (unbounded), float (finite, as
  `Rat`, exact arithmetic; reading and writing of decimals rounds as CPython does, `Py/Float`), str (Lean `String`: sequences of unicode scalar
  values, no lone surrogates), list, dict with string keys (association list in
  insertion order), message instance (class reference + `_dict`).
* Exceptions are values: `Except Exc α`. In `Message`, the storages and the
  identity assurance classes the state after an exception is part of the model;
  for the verify methods of `Model/Oidc` that store tokens it is in `Model/VerifyState`, proved to agree with `Model/Oidc`.
* `Exc.unmodelled` marks inputs whose behaviour is outside the model
  (infinities, messages inside containers without a serialiser for them, ...). No positive theorem concludes anything
  from it.
* Keyword arguments of verify methods: `keyjar` is separate, `msg`,
  `check_hash` and `claim` are not allowed among the others.
* Schemas (`c_param`, `c_default`, `c_allowed_values`) are data; the generic
  `Message` functions are modelled once for *every* schema; the concrete class
  tables of the library instantiate them. The aliasing of list defaults and of
  the lists of allowed values between classes is in `Model/Heap`, with object
  identities; sections of a configuration that are messages are not.
* JSON parser: the nesting bound depends on the length of the text; any larger
  bound gives the same (`loads_any_bound` in `Py/JsonFuel`). A
  `RecursionError` is not modelled.
* Numbers: `int(text)` has no limit of 4300 digits. Digits are those of Unicode 14.
* Time: `gmtime` is the proleptic
  Gregorian calendar without bounds, the local zone of `add_duration` is a
  fixed offset, `%Y` is padded as glibc does; the division of microseconds in
  `total_seconds` is rounded to a binary double (`doubleDiv`), other float
  arithmetic is exact.
* File system: regular files and directories, no links, no permissions, no limit on the length of a
  path; names over 255 bytes are refused. The storage directory holds no directories (`Model/FileStore`);
  `Model/FileTree` has the rest of the file system for `__delitem__` and `__setitem__`.
* Identity assurance: recursion depth is bounded by an explicit number of stack
  frames; theorems hold for all of them.
* File storage: one directory without subdirectories or symbolic links, NAME_MAX
  255 bytes, file contents as text (UTF-8, universal newlines), `FileLock`
  creates and truncates `<name>.lock` and leaves it behind. Time stamps are the
  clock at the moment of the write; equal stamps are possible.
* Concurrent file storage (`Model/Concurrent`): one key, any number of
  instances, each file-system call is one step, the lock is exclusive and freed
  when its holder dies. Version numbers and histories are ghost state. Removal
  of lock files by `clear` is not part of it.
* SQL storage: one process, one session, committed and pending rows; column
  lengths are not enforced. `Model/SqlShared` has any number of sessions,
  statement by statement; what the database does with overlapping transactions
  is an assumption, made for one writer at a time and for row locks at the
  isolation level read committed.
* Copies of messages (`Model/HeapCopy`): list objects directly in a message have
  an identity; what is inside a list does not.
* Labelled storages: labels and keys are texts.
* `add_base_path`: the configuration is a tree; `os` is unbound as in the code.

## Properties

How each property of `properties.jsonl` is modelled and proved (model file →
theorem file). Where the code violates the property the negation is proved
with a witness and the part that holds is proved under a `_partial` name.
`MANIFEST.json` lists the theorems and what is missing.

| id | model | proof idea |
|---|---|---|
| C01,C02,C03 | `Model/Message`: `addValue`, `fromDict`, `setItem` | case analysis of the branches, induction over the dictionary and over histories; C02 false for dict values → negation + partial |
| C04,C05 | `Model/Message.verify` | induction over the schema against an independent spec |
| C06 | `Py/Json` dumps/loads | structural printer, parser proved inverse |
| C07 | `toJson`/`fromJson` | C06 + per-parameter round-trip |
| C08,C10,C11,C12 | `toUrlencoded`/`fromUrlencoded`/`request` + `Py/Url` | round-trip lemmas |
| C09 | `Py/Utf8`, `Py/Url` | UTF-8 round trip by arithmetic, percent coding by induction |
| C13,C14,C15 | dict operations | refinement to a finite map over histories |
| C16 | `Val.eq` | nested structural induction |
| C17 | split/join | induction |
| C18 | `merge` | map extensionality |
| C19–C23, C75, C76 | `Model/Jwt`, crypto as parameters | inversion of the control flow |
| C24,C25 | `idTokenVerify` | iff by inversion |
| C26–C28, C77 | `verify` methods as state transformers | inversion |
| C29–C32, C78 | `jsonWebTokenVerify`, session classes | inversion / iff |
| C33–C37 | registration, provider config, response message, OpenIDSchema | inversion / iff; C36 negation |
| C38,C39,C70,C71,C80 | `claimsMatch`, `Model/IdentityAssurance` | iff, induction on depth, negations + partials |
| C40–C45, C79 | `Model/TimeUtil`, `Py/Calendar`, `Py/Time` | parsing lemmas, civil-calendar arithmetic by `omega`, negations for C41/C42/C45 |
| C46–C49, C51, C54–C56, C81 | `Model/FileStore` (directory, locks, time stamps, cache) | invariant relating cache, time stamps and directory to a map; induction over histories |
| C46, C81 | `Model/FileTree` (the file system around the directory) | path resolution followed part by part, exact effect of a deletion and of writing, negations for every file, refinement of `fsDel` and `fsSet` |
| C50 | `Model/FileStore`, several instances | invariant per instance (`Props/StoreShared`) |
| C52, C53, C82 | `Model/Concurrent` small-step interleavings | inductive invariant over all schedules with deaths |
| C57,C58,C83 | `Model/SqlStore` (committed + pending state) | invariant over histories with crashes; C58, C83 negations |
| C59,C84 | `Model/Labeled` (`LDict`) | refinement to a map; C84 negation |
| C60,C85 | `Model/Labeled` over `Model/FileStore` | the restriction of directory and cache to one label evolves by itself; then refinement to a map; negations |
| C61,C63,C64,C62,C74 | `Model/Config` | map laws, string induction; C62, C63, C74 negations + partial |
| C65,C66 | `Model/Heap` (object identities) | separation invariant, negation witnesses |
| C67,C72,C73 | concrete verify methods | inversion |
| C68 | `toDict` | nested structural induction |
| C69 | `deserializeFromOneOf` | reading JSON never raises `FormatError`, by induction over parser and `from_dict` |
| C86,C87 | `Model/JwtOut`, crypto as parameters with the assumption that verification accepts what signing made | composition of C07 with the control flow of `from_jwt` and `verify_id_token` |
| C88 | `authzResponseVerify` | inversion; negation for string audiences |
| C89 | `toJson`, `fromJson` with messages inside messages | inductive predicate for values that survive, mutual induction; negations |
| C90 | `Model/IsoTime` | calendar arithmetic of C39 composed with the text parsers; negations |
| C91 | `fromJson`, `toJson` | invariant of the state built by `from_dict`, induction on nesting; negations |
| C92 | `Model/Factory` | the constructor never raises `AttributeError`; names are unique |
| C100,C101,C102 | `Model/Message` | induction over the parsed form, grouping of `parse_qs` (C10) |
| C103 | `Model/Message`, `Model/Deser` | C08 entry by entry, C89 inside, C69 for the order of formats |
| C104,C105 | `Model/Message` | cases of the two list kinds; induction over the defaults |
| C106 | `Model/FileStore` | two reads in sequence |
| C107 | `Model/VerifyState`, `Model/Oidc` | case analysis with the state after exceptions; agreement with C26's model |
| C108 | `Model/IdentityAssurance` | loading keeps the entries (induction), then C80; counterexamples for other places and forms |
| C109 | `Model/Message`, `Model/Schemas` | induction over the declared parameters; all classes of the library |
| C110 | `Model/HeapCopy` | invariant: the list objects of the copy are held by nobody else |
| C111 | `Model/SqlShared` | invariants over all interleavings; the isolation of the database is an assumption |
| C112 | `idTokenVerify`, `logoutTokenVerify`, `backChannelVerify` | from C24 and C30; negation for a family of payloads |
| C113 | `idTokenVerify` | relation between two runs, from C24 |
| C114 | `idTokenVerify`, `logoutTokenVerify`, `jsonWebTokenVerify` | monotonicity in the clock, from C24, C29 and C30; negations |
| C115 | `idTokenVerify`, `openIdSchemaVerify` | from C24 and C37; negation for all accepted tokens |
| C116 | `fromJwt`, `verifyIdToken` and its callers | composition of C19, C24, C26 under stated guarantees of the signature library |
| C117 | `verifyIdToken` (hash checks) | from C23 under a collision-free hash; negation for token responses |
| C118 | `contextKeyjar` | from laws of the key library |
| C119 | `keyStorage`, `initStorage` | negation for all configurations without sections; C63 for the rest |
| C120 | `addBoxes` | induction over the boxes |
| C121 | all `verify` models that change the message | case analysis; states equal up to the slots; negation for request objects |
| C122 | `request`, `toJson`, `idTokenToJwt`, `toJwt`, and the `verify` models of the five messages | composition of the round trips (C07, C86, C87) with the acceptance conditions |
| C123 | `strRepr`, `reprC` (`Py/Repr`), `urlPairs` | induction on values; every escape is decoded by a reader |
| C124 | `unquotePlusC`, `parseQsl`, `fromUrlencoded` | an inductive relation for all percent encodings; strong induction on bytes for the ASCII part |
| C125 | `verifyBase`, all class methods, `allSchemas` | tables of the standards; generic acceptance condition (C04) |
| C126 | the same | the same; replacing one value keeps the acceptance condition |
| C127 | file store, histories with changes by others | frame lemmas: every operation leaves other names alone; simulation by one variable |
| C128 | `Py/Float`, `Py/Json` | rounding in integer arithmetic, nearest among all floats; the printed decimal is checked to read back; the search finds the fewest digits because rounding is monotone, and 17 suffice because floats are at least 2^-53 of their size apart |
| C129 | `Schemas`, `Message` | tables of names from the registries, checked against all declarations; effects on assignment and writing |
| C130 | `IsoTime`, `Message` | the entries of a message one by one: text written, value read; composition with C07 and C08 |
| C131 | all `verify` models | two runs side by side: the same exception or related results (`Alike`), composed along the binds |
| C132 | `Model/Message` | the list's pair followed through `urlencode`, `parse_qs` and the deserialisers; the text begins with a bracket |
| C133 | all `verify` models, embedded ID tokens (`verifyIdToken`, crypto library under `Polite`), `fromDictR`, `fromJson`, `fromUrlencoded` | every exception of every step classified; what a received message can hold follows from `addValue`; tables over all classes (`list_kinds`, `canon_eq`) |
| C134 | `ccSet`, `ccToDict`, `ccToJson`, `verifyClaimsRequest`, `idaClaimsRequestVerify` | induction over the assignments (`Made`); accepted values characterised by C71, accepted requests by C80 and C108; table over the message types of all classes (`exactMsgs`) |
| C135 | `verifyBase`, `toUrlencoded`, `fromUrlencoded`, `toJson`, `fromJson` | acceptance condition (C04) carried through the round trips C07 and C08; reading on top of defaults (`form_start`); table over all classes (`plainTables`); counterexamples by evaluation |
| C136 | `lookupSpec`, `addItem`, `addUrl`, `toDict`, `urlPairs`, `setItem`, `weed`, `bySchema` | what is stored does not depend on the name or the earlier content (`addValue_stored`, `addUrl_stored`, `urlPairs_rename`); no class declares a tagged name (`untagged_names`) |
| C137 | `fromDict`, `fromJsonState`, `fromUrlencodedState` (content after an exception) | induction over the members; the state models agree with the result models (`fromUrlencodedState_eq`, `fromJsonState_eq`) |
| C138 | `toUrlencoded`, `request`, `toJson` | the percent-encoding alphabet (`isQuoted_safe`) through `joinC`; the printable text of `dumpsC` (`dumpsC_solid`) |
| C139 | all verify functions with `kw` | congruence: every use of `kw` goes through `dget` or `pick`; for necessity, a key jar that reads one argument (`probeWith`) |
| C140 | the same, `fromJwt` | congruence with the default filled in (`given_num`, `fromJwt_args`); counterexamples by evaluation |
| C141 | `pyStrOf`, `reprC` | induction over values |
| C142 | `authzRequestVerify`, `requestObject` | arguments are looked up by name (`fromJwt_byName`); counterexamples with a key jar that knows one client |
| C143 | `fsContains`, `fsCall`, `fsGet`, `fsKeys` | single user: the invariant of C47; several users: an instance forgets a key only by an operation of its own (induction over the history) |
| C144 | `labStore`, `sqlStore`, `ctxSet`, `ctxGet` | one step of the labelled map (C46) and of the table (C42) |
| C145 | `loads`, `fromJson` | the grammar of RFC 8259 as an inductive relation; completeness by recursion over the derivation, soundness by recursion over the reader's bound |
| C146 | `dumpsIndent`, `toJsonIndent` | both writers give texts of one value (mutual induction), then C145 |
| C147 | `Sql.call`, `Sql.show'`, `Sql.iterate` | one row per key (C57), then C146 |
| C148 | `authzResponseVerify`, `accessTokenResponseVerify` | runs as an inductive predicate, C116 at each acceptance, counting of partners |
| C149 | `detectEncoding`, `decodeAs`, `loadsBytes`, `fromJsonBytes` | inverse codecs; the first bytes of a document (induction over its grammar), then C145 |
| C150 | `backChannelVerify`, `fromJwt`, `logoutTokenVerify` | composition of C19, C30, C31, C112; runs as for C148 |
| C151 | `fromDictR`, `fromJson`, `fromUrlencoded`, the `verify` methods | induction on permutations; items commute; C131 |
| C152 | `fromJwt`, `decryptStep`, `jwtSecuredVerify`, `pushedVerify`, `authzRequestVerify`, `backChannelVerify` | equality of decoding, carried through each `verify` as in C131 |
| C153 | `isErrorMessage`, `fromJson`, `fromUrlencoded`, `accessTokenResponseVerify`, `authzResponseVerify` | what is stored under one name, by the frame lemmas of `fromDict` and `addUrls`; `Sent.same`; relational proof that `verify` does not look at `error` |
| C154 | all `…Verify` functions with keyword arguments | relational: `Permits` is preserved by sequencing, each check by an order on argument sets (`Milder`) |
| C155 | `Val.eq`, `verifyBase`, `responseVerify`, `idTokenVerify`, … | congruence of every check under `==`, using that it is an equivalence (C16) |
| C156 | `verifyBase` and every method built on it | removal of one parameter, pointwise relation on states; concrete messages for the exceptions |
| C157 | `verifyBase`, schemas, every `verify` of a derived class | executable refinement relation on schemas, sound by `refines_base`, decided for the table of pairs |
| C158 | `registrationRequestVerify`, `registrationResponseVerify` | the refinement relation of C157 and idempotence (C121) |
| C159 | `fromJson`, `toJson`, `fromUrlencoded`, `toUrlencoded` | induction over a relation of tidy values: what reading stores is one of the values that survive (C89, C08) |
| C160 | `toDict`, `toJson`, `serDict` | the tables of C129 against the serialisers, case analysis on the kind |
| C161 | `registrationRequestVerifyS`, `accessTokenResponseVerifyS`, … (Model/VerifyState) | induction over the loop of parameter pairs; case analysis on the stateful model, idempotence from C121 |
| C162 | `idTokenVerify`, `verifyIdToken`, …, `jsonWebTokenVerify`, `logoutTokenVerify`, `backChannelVerify` | relational: a relation on outcomes at two times, closed under sequencing |
| C163 | `addDuration` | exact result (C41) as month number, day and seconds; first days of months increase by month lengths, induction on months |
| C164 | `fromUrlencoded`, `fromJson`, `addUrl`, `addItem` | kinds of parameters as an inductive predicate; one step alike, induction over the members; class lists by unfolding |
| C165 | `msgPop`, `msgPopItem`, `msgClear`, `msgSetDefault` | laws of an ordered map, termination of `clear` by length |
| C166 | `addAny`, `anySer`, `anyDeser` | case analysis over all values, induction over lists |
| C167 | `toUrlencodedWith`, `requestWith` (Model/Lax) | case split on the flag; the round trip of C08 without the required parameters |
| C168 | `strpOffsetUs`, `fromIsoTime`, `isoDeser` (Model/IsoTime) | an equivalence with a grammar for each part of the format, from the digits up |
| C169 | `ctxSet`, `ctxGet` over `memStore` and `fileStore jsonConv`, `toDict`, `fromDict`, `construct` | composition of C89, C47, C49 |
| C170 | `idTokenVerify`, `jsonWebTokenVerify`, `logoutTokenVerify`, `accessTokenResponseVerify`, `authzResponseVerify`, `messageWithIdTokenVerify` | every failing step traced through the sequence (`bind_err`), keeping what succeeded before; for responses, everything but the checks of the token raises other exceptions (`Dull`, mutual induction over the serialisers for the formatting); assumed: the crypto library raises none of the library's six exceptions for ID tokens (`OwnErrors`) |
| C171 | `addValue`, `addItem`, `setItem`, `urlPairs`, `nullAllowed` of every specification | the table of all classes is evaluated by the kernel; the rest follows from the branches |
| C172 | `accessTokenResponseVerify`, `authzResponseVerify`, `messageWithIdTokenVerify`, `endSessionVerify`, `backChannelVerify`, `jwtSecuredVerify`, `pushedVerify`, `authzRequestVerify` | each step of the sequence replaced by its exact condition (`TokenFine`, `CountingParams`, `OpenIdRules`), both directions |
| C173 | `fromJwt`, `decryptStep`, `openStep`, `checkSig`, `retryVerify` | case analysis of each step, both directions (`Decrypted`, `HoldsObject`, `SignedByJar`); rotation of keys and switched-off verification as consequences |
| C174 | `addItem`, `addValue`, `fromDictR`, `fromJson`, `fromUrlencoded`, `setItem` | the kinds of parameters as an inductive relation (`ParamKind.Takes`), case analysis of each kind, induction over the members; all classes by comparing their declarations |
| C175 | `parseDuration` | each step of the loop as a relation between what is left, the number and what is left then; composed from the end |
| C176 | `toDict`, `serDict`, `serPlain`, `toJson` | mutual inductive relations for messages, values and lists, mutual induction over values |
| C177 | `toUrlencoded`, `urlPairs`, `serUrlOther`, `serUrlList` | the texts for a value as an inductive relation, case analysis of serializer and value, induction over the parameters |
| C97,C98,C99 | `Model/Oidc`, `Model/JwtOut` | case analysis, composition with C28, C05, C07 |
| C95,C96 | `Model/Concurrent`, `Model/ConcKeys` | progress from the invariant of C52, a decreasing bound on the remaining steps, projection on a key |
| C93,C94 | `Model/Context` over `Model/Labeled`, `Model/FileStore` | composition with C47, C59; injectivity of quoting and of filling templates |

## Mutation tests

`seeded/LOG.jsonl` records edits of model definitions that imitate realistic
bugs, the theorems that then failed, and the theorems that were tightened
because they did not.
