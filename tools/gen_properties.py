#!/usr/bin/env python3
"""Writes ../properties.jsonl (one JSON object per line)."""
import json, os

P = []


def p(id, title, statement, quantifier, why, *anchors):
    P.append(dict(id=id, title=title, statement=statement, quantifier=quantifier,
                  why_tests_cant=why, anchors=list(anchors)))


M = "src/oidcmsg/message.py"
O2 = "src/oidcmsg/oauth2/__init__.py"
OI = "src/oidcmsg/oidc/__init__.py"
SE = "src/oidcmsg/oidc/session.py"
IA = "src/oidcmsg/oidc/identity_assurance.py"
TU = "src/oidcmsg/time_util.py"
AF = "src/oidcmsg/storage/abfile.py"
SQ = "src/oidcmsg/storage/absqlalchemy.py"
EX = "src/oidcmsg/storage/extension.py"
IN = "src/oidcmsg/storage/init.py"
CT = "src/oidcmsg/context.py"
PK = "src/oidcmsg/__init__.py"

p("C01", "Single-valued parameters are type safe after construction",
  "After building a message from any dictionary (constructor keywords, from_dict, or item assignment) every declared single-valued string/int/boolean parameter that is present holds a value of its declared type or None; a bool is never stored for a non-bool parameter; otherwise the operation raises.",
  "every message class schema whose deserializers are the library's, every dictionary of Python values, every sequence of item assignments",
  "the space of dictionaries and of value shapes per parameter is infinite; tests sample a few wrong types",
  M + ": Message.from_dict, Message._add_value, Message.__setitem__")
p("C02", "Declared list-of-strings parameters hold lists of strings",
  "Every declared list-of-strings parameter (e.g. aud, scope, response_type, redirect_uris) that is present after construction from a dictionary holds a list whose items are all strings.",
  "every dictionary given to a constructor / from_dict, every value shape for the parameter",
  "needs all value shapes (nested dicts, mixed lists, ints); tests only try [10]",
  M + ": Message._add_value, list_deserializer, sp_sep_list_deserializer")
p("C03", "Unknown parameters pass through unchanged, blanks are dropped",
  "from_dict stores every parameter that is neither declared, nor a language-tagged declared one, nor covered by a '*' entry, with its exact value; parameters whose value is '' or [''] never enter the message; parameters not mentioned keep their previous value.",
  "every schema, every starting content, every input dictionary",
  "universal over parameter names and values",
  M + ": Message.from_dict")
p("C04", "verify() of a plain message accepts exactly the messages with all required values and only allowed values",
  "Message.verify returns True iff every required declared parameter is present with a truthy value (or is boolean) and every truthy declared parameter with a list of allowed values respects it; otherwise it raises MissingRequiredAttribute or NotAllowedValue and never changes the message.",
  "every schema (declared parameters, allowed values) and every message content",
  "an iff over all schemas and contents",
  M + ": Message.verify, Message._type_check")
p("C05", "verify() depends only on declared parameters",
  "The outcome of the base verification is the same for any two messages that agree on the declared parameters: extra parameters and insertion order are irrelevant.",
  "all pairs of messages of the same class",
  "relational property over all pairs of messages",
  M + ": Message.verify")
p("C06", "JSON text round-trip of arbitrary JSON data",
  "Serialising JSON data (null, booleans, integers, finite floats, any unicode strings, nested lists/objects with distinct keys) with the JSON converter and loading it back yields the same data.",
  "all JSON values, all floats, all unicode strings, all nesting depths",
  "structural recursion over unbounded data; escapes for every code point",
  "src/oidcmsg/storage/converter.py: JSON", M + ": Message.to_json, Message.from_json, json_serializer, json_deserializer")
p("C07", "JSON round-trip of messages",
  "For a message whose parameters are plain JSON data and strings/ints/booleans/lists of space-free strings of the declared types, from_json(to_json(m)) on a fresh instance of the same class (without defaults) yields an equal message.",
  "all schemas built from the library's scalar and string-list parameter kinds, all well-typed contents",
  "universal over schemas and contents",
  M + ": Message.to_json, Message.from_json, Message.to_dict, Message.from_dict")
p("C08", "Form-urlencoded round-trip of messages",
  "For every message whose parameters are non-empty strings, or non-empty lists of non-empty space-free strings in a space-separated-list parameter, from_urlencoded(to_urlencoded(m)) gives an equal message; integers and booleans come back as strings and empty strings are lost.",
  "all schemas, all parameter names and unicode string values",
  "universal over unicode content and parameter sets",
  M + ": Message.to_urlencoded, Message.from_urlencoded")
p("C09", "Percent-encoding is lossless, injective and stays in the safe alphabet",
  "quote_plus'ing any string yields only characters A-Z a-z 0-9 _ . - ~ + %, unquote_plus gives the original back, hence two different strings never get the same encoding; in particular '/', '&', '=', '#', '?' never appear.",
  "all unicode strings",
  "all strings of all lengths, all code points",
  "src/oidcmsg/storage/converter.py: QPKey", M + ": Message.to_urlencoded")
p("C10", "Query-string encoding and decoding are inverse",
  "parse_qs(urlencode(params)) returns, for every name, exactly the list of its non-empty values in order of appearance, and nothing else.",
  "all finite sequences of (name, value) pairs of unicode strings with non-empty values",
  "unbounded sequences with repeated names",
  M + ": Message.to_urlencoded, Message.from_urlencoded")
p("C11", "A message is never form-encoded with a required parameter missing",
  "to_urlencoded (and request()) raises MissingRequiredAttribute whenever a required declared parameter is absent, unless the message is lax; conversely it never raises that error when they are all present.",
  "all schemas and all message contents",
  "universal over schemas and contents",
  M + ": Message.to_urlencoded, Message.request")
p("C12", "request() embeds the message so the receiver reads it back",
  "For a location without fragment, request(location) is the location with the encoded message appended as (or to) the query, so splitting the URL at '?' returns the location's own parameters followed by the message's; with fragment_enc the encoded message is everything after the first '#'.",
  "all locations, all messages",
  "universal over location strings",
  M + ": Message.request")
p("C13", "A message behaves as a mapping",
  "Item read/write/delete, containment, len, keys, items obey the laws of an insertion-ordered map: a read after writing an undeclared parameter returns the written value, other parameters are unaffected, deleted parameters are absent and reading them raises KeyError, len counts distinct parameters.",
  "all histories of mapping operations",
  "refinement to an abstract map over unbounded operation sequences",
  M + ": Message.__getitem__, __setitem__, __delitem__, __contains__, __len__, keys, items, get")
p("C14", "weed / extra / only_extras / by_schema / add_non_standard partition by schema",
  "weed() leaves exactly the declared parameters, extra() returns exactly the undeclared ones, together they partition the message; weed is idempotent; by_schema keeps exactly the declared keywords; add_non_standard never changes a parameter declared by either message.",
  "all messages and schemas",
  "universal set-partition laws",
  M + ": Message.weed, Message.extra, Message.only_extras, by_schema, add_non_standard")
p("C15", "rm_blanks removes exactly the falsy parameters",
  "After rm_blanks no parameter has a falsy value, truthy parameters are unchanged, and the operation is idempotent; note that 0 and False are removed too.",
  "all messages",
  "universal over contents",
  M + ": Message.rm_blanks")
p("C16", "Message equality is an equivalence that ignores parameter order",
  "== between messages is reflexive, symmetric and transitive, is insensitive to parameter order at every depth, and holds only for messages with the same class name and equal parameters.",
  "all pairs/triples of messages with nested data",
  "relational laws over unbounded nested data",
  M + ": Message.__eq__")
p("C17", "Space-separated list encoding is lossless exactly for space-free items",
  "Joining a list with spaces and splitting again returns the list iff it is non-empty and no item contains a space; splitting and re-joining any string always returns the string.",
  "all lists of strings / all strings",
  "iff over all lists",
  M + ": list_serializer, list_deserializer, sp_sep_list_serializer, sp_sep_list_deserializer")
p("C18", "Request-object merging follows the announced policy",
  "merge(strict) leaves exactly the request object's parameters; merge(lax) leaves the union with the request object taking precedence; merge(whitelist) keeps only whitelisted own parameters plus the request object's.",
  "all requests, request objects, whitelists and treatments",
  "universal over parameter sets",
  O2 + ": AuthorizationRequest.merge")
p("C19", "A JWT message is only accepted with a verified signature",
  "from_jwt with verification on and a token whose header algorithm is not 'none' returns a message only if some non-empty key set obtained from the key jar verified that very token; in every other case it raises.",
  "every token, key jar, and behaviour of the cryptographic library",
  "must hold for every token and every crypto/keyjar behaviour including key refresh",
  M + ": Message.from_jwt")
p("C20", "Unsigned ID tokens are rejected unless explicitly allowed",
  "An ID token with header algorithm 'none' makes ID-token verification raise unless the caller asked for sigalg 'none' or passed a non-False allow_sign_alg_none.",
  "every response message, token, keyword combination and crypto behaviour",
  "attacker-controlled input space",
  OI + ": verify_id_token")
p("C21", "The allowed signing algorithm is enforced on signed ID tokens",
  "If verification of an ID token succeeds and the caller supplied allowed_sign_alg, then the token's header algorithm equals it or the token is unsigned and unsigned tokens were explicitly allowed.",
  "every response message, token, keyword combination and crypto behaviour",
  "attacker-controlled input space",
  OI + ": verify_id_token")
p("C22", "Signed ID tokens must come from an issuer known to the key jar",
  "If verification of a signed ID token succeeds and a key jar was given, then the issuer claim of the token payload is present and among the issuers of the key jar.",
  "every token, key jar and crypto behaviour",
  "attacker-controlled input space",
  OI + ": verify_id_token")
p("C23", "Hybrid-flow hash binding",
  "If verification of an OIDC authorization response with a signed ID token succeeds, then access_token (if present) matches at_hash and code (if present) matches c_hash, both of which are then present in the ID token.",
  "every response and token",
  "attacker-controlled input space",
  OI + ": verify_id_token, AuthorizationResponse.verify")
p("C24", "ID token acceptance conditions",
  "IdToken.verify returns True only if issuer (when expected), audience, azp, expiry and issue-time-window conditions hold: the client is in aud, azp is present and in aud when there are several audiences, azp equals the client, now - skew <= exp, and now - skew <= iat + storage time; and it does so for every token satisfying them and the claim-level checks.",
  "every ID token content, every keyword combination, every clock value",
  "exact boundaries for all clock/skew values",
  OI + ": IdToken.verify")
p("C25", "Nonce mismatch is always rejected",
  "If an ID token carries a nonce and the caller expects one, verification succeeds only when they are equal; a token without nonce is accepted even when a nonce is expected.",
  "every token and expected nonce",
  "universal over tokens",
  OI + ": IdToken.verify")
p("C26", "Verified-claim slots cannot be forged by the sender",
  "After a successful verify() of the OIDC authorization response, token response, authorization request and end-session request, each '__verified_*' parameter (id_token, id_token_hint, request) present in the message is the product of this verification, never a value the sender put in the message.",
  "every incoming message, including ones that already carry such parameters",
  "attacker-controlled input space",
  OI + ": clear_verified_claims, verify_id_token, AuthorizationResponse.verify, AccessTokenResponse.verify, AuthorizationRequest.verify", SE + ": EndSessionRequest.verify")
p("C27", "OIDC authorization request acceptance conditions",
  "A successfully verified OIDC authorization request contains response_type; a nonce when response_type includes id_token (equal to the expected nonce if given); 'openid' in scope; prompt including 'consent' when scope includes offline_access; and never prompt none combined with other values.",
  "every request, keyword combination and request object",
  "universal over requests and embedded request objects",
  OI + ": AuthorizationRequest.verify")
p("C28", "The request object supersedes the plain request parameters",
  "After successful verification of an OIDC authorization request carrying a request object by value, every parameter outside the '__verified_*'/'verified_*' additions has exactly the value given by the request object.",
  "every request and request object",
  "universal over parameter sets",
  OI + ": AuthorizationRequest.verify", O2 + ": JWTSecuredAuthorizationRequest.verify, PushedAuthorizationRequest.verify")
p("C29", "JSON Web Token time-window acceptance",
  "JsonWebToken.verify accepts exactly tokens with exp >= now - skew, iat <= now + skew, nbf <= now - skew (when present), the expected audience and issuer; a positive skew widens the window.",
  "every token content, clock and skew value",
  "boundaries for all clock values",
  OI + ": JsonWebToken.verify")
p("C30", "Logout token acceptance conditions",
  "LogoutToken.verify returns True exactly when: required claims present, no nonce, events is the single back-channel logout event with an empty object, sub or sid present, audience and issuer match the expectations, iat is not in the future beyond the skew, and the header algorithm matches the expected one.",
  "every logout token content, keyword combination and clock value",
  "iff over all contents",
  SE + ": LogoutToken.verify")
p("C31", "Back-channel logout request only succeeds with a verified logout token",
  "BackChannelLogoutRequest.verify returns True only if its logout_token decoded to a logout token that itself verifies, and the result is stored in the message; a pre-existing verified slot is overwritten.",
  "every request and crypto behaviour",
  "attacker-controlled input space",
  SE + ": BackChannelLogoutRequest.verify")
p("C32", "End-session request with redirect needs a verified ID token hint",
  "EndSessionRequest.verify returns True with a post_logout_redirect_uri only if an id_token_hint is present and verified.",
  "every request and crypto behaviour",
  "attacker-controlled input space",
  SE + ": EndSessionRequest.verify")
p("C33", "Registration requests pair encryption algorithms",
  "After successful RegistrationRequest.verify, for each of request object / ID token / userinfo: alg present iff enc present; enc defaults to A128CBC-HS256 when only alg was given; token_endpoint_auth_signing_alg is not 'none'; initiate_login_uri starts with https:; and nothing else in the message changed.",
  "every registration request",
  "universal over parameter combinations",
  OI + ": RegistrationRequest.verify")
p("C34", "Registration responses give both or neither of the configuration endpoint and token",
  "RegistrationResponse.verify returns True only if registration_client_uri and registration_access_token are both present or both absent.",
  "every registration response",
  "universal over contents",
  OI + ": RegistrationResponse.verify")
p("C35", "Provider configuration acceptance conditions",
  "ProviderConfigurationResponse.verify returns True only if: openid is in scopes_supported (when present) and all scopes use the allowed characters, the issuer is https (unless allow_http) with neither query nor fragment, RS256 is among the ID-token signing algorithms, and token_endpoint is present when a response type mentions code.",
  "every provider configuration",
  "universal over URL strings and lists",
  OI + ": ProviderConfigurationResponse.verify, check_char_set")
p("C36", "Error descriptions only use the allowed characters",
  "A response message verifies only if error_description consists of characters of the accepted set, and every description made only of printable ASCII other than '\"' and '\\' (RFC 6749) is accepted.",
  "all strings",
  "all characters and lengths",
  O2 + ": ResponseMessage.verify, error_chars")
p("C37", "User info claims: no null values, sane birthdate",
  "OpenIDSchema.verify returns True only if no claim is null and birthdate (when present) is YYYY, YYYY-MM-DD or 0000-MM-DD; returns False (does not raise) when only null claims are wrong.",
  "every claim set",
  "universal over strings and contents",
  OI + ": OpenIDSchema.verify")
p("C38", "claims_match implements the value/values/essential matching rule",
  "claims_match(value, spec) is True iff spec is None, or spec requests a value equal to it, or values containing it, or only 'essential'; order of keys is irrelevant.",
  "all values and claim specifications",
  "iff over all specs",
  OI + ": claims_match")
p("C39", "Claims request values are validated",
  "_verify_claims_request_value accepts exactly: null, non-dict values, and dicts whose essential is null/true/false, value and values are of the claim's type, and whose purpose is 3..300 allowed characters.",
  "all values",
  "boundaries for all lengths and nested shapes",
  IA + ": _verify_claims_request_value, verify_claims_request")
p("C40", "Duration strings parse to their components",
  "For all numbers of years, months, days, hours, minutes and seconds, parse_duration of the canonical ISO-8601 string returns exactly those numbers and the sign; parsing never loops.",
  "all natural numbers for each component",
  "unbounded component values",
  TU + ": parse_duration")
p("C41", "Adding a duration yields the calendar sum",
  "add_duration(t, duration) returns the instant obtained by adding the duration to t; in particular adding only seconds/minutes adds exactly that many seconds, and adding zero is the identity.",
  "all times and durations",
  "all calendar dates and component values",
  TU + ": add_duration")
p("C42", "add_duration terminates for every duration it accepts",
  "For every duration accepted by parse_duration, add_duration terminates.",
  "all durations and times",
  "termination cannot be tested",
  TU + ": add_duration, parse_duration")
p("C43", "before/after/later_than agree with the order of epoch seconds",
  "For integer time points, before(p) is True iff p is strictly later than now, after(p) is its negation, later_than(a,b) iff a >= b; i.e. the broken-down-time comparison is order-isomorphic to epoch seconds. The point 0 is treated as absent.",
  "all integer epoch values (including negative) and all clock values",
  "order isomorphism over all integers",
  TU + ": before, after, later_than")
p("C44", "Time string round-trip",
  "str_to_time of the canonical UTC rendering of an epoch value denotes the same instant, with or without fractional seconds. A text is read exactly when it is an existing day and time of day in the format YYYY-MM-DDTHH:MM:SSZ (as strptime reads it) or that with a fraction of digits before the Z, and then as the second it stands for; an empty text gives 0, a fraction on a non-existing time raises ValueError, every other text AttributeError.",
  "all instants with 4-digit years; all texts",
  "all dates incl. leap years",
  TU + ": str_to_time, instant")
p("C45", "Relative times add exactly",
  "epoch_in_a_while / in_a_while add days, hours, minutes, seconds, weeks, milliseconds and microseconds linearly to the current time, truncated toward zero to seconds; all arguments zero gives the current time; offsets into the past and future cancel.",
  "all integer arguments",
  "unbounded arguments",
  TU + ": epoch_in_a_while, time_in_a_while, time_a_while_ago, shift_time")
p("C46", "File storage keys never escape the storage directory",
  "Writing under any key only creates files directly inside the storage directory: the file name contains no '/' and, except for the keys '', '.' and '..', is a proper single path component.",
  "all unicode keys",
  "all strings; path traversal",
  AF + ": AbstractFileSystem.__setitem__, __getitem__", "src/oidcmsg/storage/converter.py: QPKey")
p("C47", "File storage behaves as a map for one user",
  "With one instance over the directory, any sequence of writes, reads, updates and key listings behaves as a dictionary from keys to values (keys whose encoded name is not reserved for lock files): a read returns the last value written, other keys are unaffected, keys() lists exactly the written keys.",
  "all operation histories over all keys",
  "refinement over unbounded histories",
  AF + ": AbstractFileSystem.__setitem__, __getitem__, __contains__, keys, items, update")
p("C48", "Deleting from file storage removes the key",
  "After `del store[k]`, k is absent: reading raises KeyError, containment is False, and other keys and files are unaffected.",
  "all keys and histories",
  "all keys, including ones that need quoting or are path-like",
  AF + ": AbstractFileSystem.__delitem__")
p("C49", "Values survive reopening the file storage",
  "A new instance over the same directory sees exactly the keys and values written by earlier instances.",
  "all histories and values",
  "crash/reopen over unbounded histories; whitespace handling",
  AF + ": AbstractFileSystem.synch, _read_info, __init__")
p("C50", "Other instances see updates with a later modification time",
  "If another instance writes a key with a strictly larger file modification time than this instance has recorded, this instance's next read returns the new value; a read never returns a value nobody wrote.",
  "all interleavings of complete operations of several instances",
  "all schedules",
  AF + ": AbstractFileSystem.is_changed, __getitem__, synch")
p("C51", "A failed write leaves the previous value in place",
  "If writing a value fails because it cannot be serialised, or the process crashes during the write, the previously stored value for the key is still readable afterwards.",
  "all values, all crash points",
  "crash points",
  AF + ": AbstractFileSystem.__setitem__")
p("C52", "Concurrent readers never see torn writes",
  "With readers and writers in different processes, every value returned by a read that takes the file lock is a complete value written by some writer; the content of the file changes only while the writer holds the lock.",
  "all interleavings of the individual file-system steps of any number of readers and writers",
  "all schedules",
  AF + ": AbstractFileSystem.__setitem__, _read_info")
p("C53", "A write is durable in the writer's own view under concurrency",
  "After a writer has completed its own write, its next read returns its own value or a value written by somebody else later; never an older one.",
  "all interleavings",
  "race windows between lock release and mtime recording",
  AF + ": AbstractFileSystem.__setitem__, is_changed")
p("C54", "Lock files never collide with data files",
  "No two distinct keys interfere: the lock file of a key is never the data file of another key, and no stored key is hidden from listing.",
  "all pairs of keys",
  "all strings",
  AF + ": AbstractFileSystem.__setitem__, synch, __len__")
p("C55", "len() and keys() of file storage agree",
  "For any directory produced by writes of non-reserved keys through the storage, len() equals the number of keys listed.",
  "all histories",
  "unbounded histories",
  AF + ": AbstractFileSystem.__len__, keys")
p("C56", "clear() empties the file storage",
  "After clear(), len() is 0, keys() is empty, and reading any key raises KeyError.",
  "all histories",
  "unbounded histories",
  AF + ": AbstractFileSystem.clear")
p("C57", "SQL storage set/get is a map and set is atomic",
  "get(k) returns the value of the last set(k, .) (or None if never set or deleted); set is atomic with respect to crashes: afterwards the database holds the old or the new value for the key, never none or both.",
  "all operation histories and crash points",
  "crash points and unbounded histories",
  SQ + ": AbstractStorageSQLAlchemy.set, get, update, delete")
p("C58", "SQL deletes are durable",
  "After delete(k) has returned, a crash does not bring the entry back.",
  "all histories and crash points",
  "crash points",
  SQ + ": AbstractStorageSQLAlchemy.delete")
p("C59", "Labelled in-memory storage is a map per label",
  "For a fixed label the labelled dictionary behaves as a map on user keys (read after write, deletion, containment, key listing with the label stripped); reading an absent key gives None.",
  "all histories, labels and keys",
  "refinement over unbounded histories",
  EX + ": LabeledDict, key_label")
p("C60", "Different labels do not see each other's entries",
  "Two labelled file storages over the same directory with different labels never read, list or overwrite each other's entries.",
  "all pairs of labels and keys",
  "all strings",
  AF + ": LabeledAbstractFileSystem", EX + ": key_label")
p("C61", "add_issuer qualifies every storage configuration without touching the original",
  "add_issuer returns a configuration with the same sections, where each section other than the class name has the percent-encoded issuer added and all other settings unchanged; the input is not modified.",
  "all configurations and issuers",
  "universal over configurations",
  CT + ": add_issuer")
p("C62", "proper_path normalises to ./<path>/",
  "proper_path always returns a string that ends with '/', begins with './', and is idempotent.",
  "all path strings",
  "all strings",
  PK + ": proper_path")
p("C63", "Storage configuration selection",
  "get_storage_conf returns the section of the requested type if configured and non-empty, else the default section; it raises ConfigurationError exactly when the default section is requested and missing; storage_factory never passes the handler entry to the storage class.",
  "all configurations",
  "universal over configurations",
  IN + ": get_storage_conf, storage_factory, init_storage")
p("C64", "Importable names split uniquely",
  "modsplit('m:c') and modsplit('m.c') return (m, c) for every module path m and class name c without separators; it raises ValueError exactly for names with several colons or without any separator.",
  "all names",
  "all strings",
  "src/oidcmsg/storage/utils.py: modsplit")
p("C65", "Message instances do not share state through defaults",
  "Mutating a default list value obtained from one message never changes another message of the class or the class default.",
  "all classes with defaults, all sequences of in-place mutations",
  "aliasing across arbitrary histories",
  M + ": Message.__init__, Message.set_defaults")
p("C66", "OAuth2 authorization errors are limited to the OAuth2 error codes",
  "oauth2.AuthorizationErrorResponse.verify accepts only the seven RFC 6749 error codes, independently of which other modules are imported.",
  "all error strings and import orders",
  "import history",
  O2 + ": AuthorizationErrorResponse", OI + ": AuthorizationErrorResponse")
p("C67", "OAuth2 authorization response mix-up protection",
  "oauth2.AuthorizationResponse.verify succeeds only if client_id / iss in the response (when present) equal the expected values (when given).",
  "every response and expectation",
  "attacker-controlled input",
  O2 + ": AuthorizationResponse.verify")
p("C68", "Nested messages serialise to plain JSON data",
  "to_dict of any message whose values are JSON data or (lists of) messages of declared message parameters contains no message objects, at any depth, so to_json never fails on them.",
  "all nested messages",
  "unbounded nesting",
  M + ": Message.to_dict, msg_ser, msg_list_ser")
p("C69", "Deserialising from one of several formats",
  "deserialize_from_one_of raises FormatError only if no format applies and otherwise returns the message of the first format that does not raise FormatError.",
  "all inputs and message classes",
  "universal over inputs",
  OI + ": deserialize_from_one_of")
p("C70", "Evidence types are resolved and validated against their own schema",
  "Evidence.verify raises for unknown types; for a declared or guessed type it raises unless the corresponding schema's requirements hold, and a guessed type is recorded in the message.",
  "all evidence contents",
  "universal over contents",
  IA + ": Evidence.verify")
p("C71", "Claim construction enforces claim types",
  "ClaimsConstructor only ever holds, for each claim with a declared scalar or message type, null, a value of that type, or a constructor for that type; otherwise the assignment raises and leaves the content unchanged.",
  "all assignment histories",
  "unbounded histories",
  IA + ": ClaimsConstructor.__setitem__, ClaimsConstructor.to_dict")
p("C72", "Token requests for the device flow carry grant_type and client_id",
  "device_authorization.AccessTokenRequest.verify raises unless grant_type and client_id are present whenever device_code is.",
  "all requests",
  "universal over contents",
  "src/oidcmsg/oauth2/device_authorization.py: AccessTokenRequest.verify")
p("C73", "Packing an ID token binds and removes the hashed secrets",
  "After IdToken.pack, at_hash/c_hash equal the left hash of the former access_token/code values, those values themselves are no longer in the token, iat is the current time and exp = iat + lifetime when a lifetime is given.",
  "all tokens, algorithms, lifetimes, clock values",
  "universal over contents",
  OI + ": IdToken.val_hash, IdToken.pack_init, IdToken.pack")
p("C74", "Base-path rewriting leaves absolute paths alone and prefixes relative ones",
  "add_base_path leaves every absolute path unchanged and replaces every non-empty relative path by base_path/path.",
  "all configurations and path strings",
  "universal over configurations",
  PK + ": add_base_path")
p("C75", "Text that is not a JWT is read as plain JSON by from_jwt",
  "from_jwt of a text that is neither an encrypted nor a signed JWT gives the same message as from_json, with any key jar or none: no signature is required.",
  "all texts, schemas, key jars and crypto libraries",
  "a security-relevant fall-through that holds for every text",
  M + ": Message.from_jwt")
p("C76", "from_jwt accepts every unsigned token",
  "from_jwt of a token whose header algorithm is 'none' succeeds whenever its payload deserialises, whatever the key jar and the verify argument.",
  "all unsigned tokens, schemas, key jars",
  "universal over tokens and key jars",
  M + ": Message.from_jwt")
p("C77", "JWT-secured and pushed authorization requests rest on a verified request object",
  "JWTSecuredAuthorizationRequest and PushedAuthorizationRequest, when a request parameter is present, take their content from a request object whose signature was verified; without it verification must not report verified claims.",
  "all messages, key jars, crypto libraries",
  "universal over messages; the forged-slot case only shows with a crafted member name",
  O2 + ": JWTSecuredAuthorizationRequest.verify, PushedAuthorizationRequest.verify")
p("C78", "A back-channel logout token is signed",
  "BackChannelLogoutRequest.verify succeeds only if the logout token is a JWT whose signature was verified.",
  "all messages, key jars, arguments, crypto libraries",
  "universal over tokens and arguments; the unsigned path is only reachable with a crafted token",
  SE + ": BackChannelLogoutRequest.verify, LogoutToken.verify")
p("C79", "Duration strings may leave out components",
  "parse_duration of an ISO-8601 duration from which zero components are left out returns zero for those and the given numbers for the others.",
  "all subsets of components, all natural numbers",
  "2^6 shapes times unbounded numbers; one letter is shared by two components",
  TU + ": parse_duration")
p("C80", "Claims requests are validated at every depth",
  "verify_claims_request accepts a request exactly when at every level each present parameter of the class carries an acceptable value: scalar claims an acceptable request value, message claims null or an acceptable object, list claims null or acceptable items.",
  "all requests of any depth, all message classes",
  "nesting depth is unbounded",
  IA + ": verify_claims_request 443-470")
p("C81", "Deleting a key never touches files outside the storage directory",
  "del store[k] removes at most the file of k inside the storage directory, for every key.",
  "all keys", "Needs keys with path separators or dot components; tests delete simple keys.",
  AF + ": AbstractFileSystem.__delitem__ 128-138")
p("C82", "A read is never older than a write completed before it began",
  "With several processes, if a write has completed before a read begins, the read returns that value or one written later "
  "(with file modification times that always increase).",
  "all interleavings of the individual file-system steps of any number of readers, writers and deleters",
  "Needs a second writer exactly between releasing the lock and asking for the modification time.",
  AF + ": AbstractFileSystem.__setitem__ 119-126, is_changed 166-190")
p("C83", "SQL containment is about keys",
  "k in storage holds exactly when get(k) returns a value.",
  "all histories and keys",
  "the tests store few values and no value that equals a key that is asked for",
  SQ + ": AbstractStorageSQLAlchemy.__contains__ 55-58")
p("C84", "Updating and iterating a labelled dictionary",
  "update(d) of a labelled dictionary stores every entry of d under the label, and iterating yields exactly the stored entries with the label stripped.",
  "all labels, contents and arguments",
  "Needs update or iteration of a labelled dictionary; the code that exists fails for every non-empty argument and content, which tests that never call them do not see.",
  EX + ": LabeledDict.update, __iter__, key_label 1-6")
p("C85", "The length of a labelled file storage is the number of its keys",
  "len() of a labelled file storage equals the number of keys that keys() lists.",
  "all labels, histories and directories",
  "Depends on the characters of the label: names in the directory are encoded, the label is not.",
  AF + ": LabeledAbstractFileSystem.__len__ 342-357, keys 334-335")

p("C86", "Tokens that were written are read back",
  "A message whose values survive JSON, written with to_jwt (or to_jwe) and read by a receiver with the right keys using "
  "from_jwt (or from_jwe), comes back with every parameter unchanged, plus the defaults of the class for parameters not sent.",
  "all message classes, messages, algorithms and keys, for every crypto library whose verification accepts what its signing made",
  "Tests round-trip single messages with one library; the claim is about every message and every honest library.",
  M + ": Message.to_jwt 468-480, from_jwt 482-578, to_jwe 777-792, from_jwe 794-807")
p("C87", "An honest ID token is accepted",
  "An ID token packed and signed with IdToken.to_jwt is accepted by verify_id_token in the response that carries it, and the "
  "verified token found there is exactly the packed one, whenever the issuer is known, the algorithm allowed, the time and "
  "audience conditions hold and the code and access token are those that were hashed.",
  "all ID tokens, clocks, responses, arguments, honest crypto libraries",
  "Needs every combination of claims, hashes and arguments; the tests use a few fixed tokens.",
  OI + ": IdToken.to_jwt 762-764, pack 741-760, verify_id_token 267-333")
p("C88", "An authorization response for another client is not accepted",
  "When an OIDC authorization response names its audience and the caller gives its client_id, verify() returns True only if "
  "client_id is a member of the audience.",
  "all responses, audiences and client ids",
  "Depends on how the audience is represented: a list is searched for a member, a string for a part.",
  OI + ": AuthorizationResponse.verify 373-387")
p("C89", "Messages inside messages survive JSON",
  "Writing a message whose parameters hold messages, or lists of messages, at any depth as JSON and reading the text with the same class gives back the same parameters, every inner message with its own class.",
  "all classes, all contents, any depth of nesting",
  "Nesting is unbounded and each parameter has its own pair of serialiser and deserialiser; the type changes only show for particular classes.",
  M+": to_dict 236-271", M+": _add_value 322-441", M+": msg_deser, msg_list_deser 906-960", IA+": deserialisers 174-400")
p("C90", "ISO 8601 time stamps and dates survive writing and reading",
  "A time stamp written by the ISO 8601 time serialiser and read by the matching deserialiser denotes the same instant; a date the beginning of the same local day.",
  "all instants with a year of four digits, all local time zones, all current times",
  "Depends on the offset of the local zone at the instant and at the time of writing; a test runs in one zone in one season.",
  IA+": to_iso8601_2004, from_iso8601_2004, time_stamp_ser, date_ser 54-144")
p("C91", "What was read from JSON can be written as JSON again",
  "A message that was read from a JSON text without exception can be written as JSON without exception.",
  "all classes and JSON objects",
  "Requires every value a deserialiser lets through to be one the serialiser accepts, for all values.",
  M+": from_dict 273-320", M+": _add_value 322-441", M+": to_dict 236-271")
p("C92", "The factories make the class they are asked for",
  "oidc.factory(name, **kwargs) does what the constructor of the OIDC class of that name does, else that of the OAuth2 class, exceptions included; it returns None only when neither module has a class of the name.",
  "all names and keyword arguments",
  "The factories drop AttributeErrors and fall back to another class; that no constructor raises one is a statement about all arguments.",
  O2+": factory 395-410", OI+": factory 1147-1157")
p("C93", "What is put into a context can be taken out of it",
  "After OidcContext.set(item, value) has succeeded, get(item) gives the value (of a message its dictionary, of a seed its UTF-8 bytes), and get of any other item gives what it gave before.",
  "all items, values and contents of the storage, in memory and in files",
  "Depends on labels, encodings of keys and conversion of values for all keys and contents.",
  CT+": set, get 78-88", EX+": LabeledDict 23-68", AF+": __getitem__, __setitem__ 82-126")
p("C94", "Contexts of different issuers use different directories",
  "When the directory of the default storage contains {issuer}, contexts whose configurations differ only in the issuer use different paths for it; without an issuer the storage is refused.",
  "all configurations, templates and pairs of issuers",
  "Two issuers could be quoted to the same text or be merged with the surrounding text; ruled out only by injectivity over all texts.",
  CT+": OidcContext.__init__ 26-41", CT+": add_issuer 13-22", AF+": __init__ 45-54")
p("C95", "Operations on a stored key never deadlock",
  "At any time a process in the middle of reading, writing or deleting a key either can take its next step, or waits for the lock of "
  "the key, which is then held by a living process that can take its next step. Every operation ends after a number of its own steps that is "
  "bounded by the length of the longest text written, however the others interleave and die.",
  "all interleavings of the individual steps of any number of processes, with deaths at any point",
  "all schedules, absence of deadlock",
  AF + ": AbstractFileSystem.__setitem__, __getitem__, __delitem__, _read_info, get_mtime")
p("C96", "Interleaved operations on different keys do not affect each other",
  "With any number of processes working on any number of keys (no key being another one followed by .lock), the file, lock, cached value and recorded time of a "
  "key are what the steps on that key alone produce; reads of a key return complete texts written to that key; only one process at a "
  "time is inside the lock of a key; no deadlock arises.",
  "all interleavings of the individual steps on all keys",
  "all schedules",
  AF + ": AbstractFileSystem.__setitem__, __getitem__, __delitem__, _read_info")
p("C97", "A request and its request object must agree",
  "As the documentation of AuthorizationRequest.verify says: the plain request always has scope (and the other required parameters), and all parameter "
  "values present both in the plain request and in the request object must match exactly; otherwise verification raises.",
  "all requests, request objects, key jars and crypto libraries",
  "universal over requests and tokens",
  OI + ": AuthorizationRequest.verify")
p("C98", "A verified authorization request has what its class requires",
  "After successful verification of an OIDC, JWT-secured or pushed authorization request, every required parameter of the class is "
  "present and every parameter with allowed values respects them.",
  "all requests, with and without request objects",
  "universal over requests and tokens",
  OI + ": AuthorizationRequest.verify", O2 + ": JWTSecuredAuthorizationRequest.verify, PushedAuthorizationRequest.verify")
p("C99", "An honest request object is accepted and gives back the request",
  "A request object made by make_openid_request from an authorization request, sent in a request, is accepted whenever the original meets the "
  "acceptance conditions, and the verified request has exactly the parameters of the original plus those the JWT library adds.",
  "all authorization requests whose values survive JSON, all honest crypto libraries",
  "composition of writing and verification for all inputs",
  OI + ": make_openid_request, AuthorizationRequest.verify")
p("C100", "Reading a form loses no value",
  "When a form is read, a parameter given more than once is either refused or all its values are kept: a form with a repeated single-valued parameter is never read, repeated unknown parameters and repeated list parameters give all their values in order, parameters not in the form keep their value; and a form is refused only because nothing can be parsed, a single-valued parameter is repeated, or a deserialiser raises.",
  "all schemas, states and texts", "unbounded texts and schemas; repetition of parameters is rarely tested",
  M+": Message.from_urlencoded")
p("C101", "update overwrites exactly the given parameters",
  "update with a dictionary or message gives every parameter of the argument the argument's value and leaves every other one alone, keeping the declared types; any other argument raises ValueError.",
  "all messages and arguments", "the value space is unbounded; type safety is an invariant of all operations",
  M+": Message.update")
p("C102", "What is read from a form has its declared type",
  "After reading a form every declared parameter in it holds a value of its declared type, as after reading the same data from JSON.",
  "all schemas, states and texts", "needs every declared type and every text",
  M+": Message.from_urlencoded")
p("C103", "Messages inside messages survive form encoding",
  "A message with messages inside it (the claims parameter of an authorization request, the address of a user) that is "
  "turned into a form with to_urlencoded and read with from_urlencoded comes back with the same content, every message "
  "inside with its own class and content.",
  "for all classes with parameters declared for messages, all nesting depths and all values that survive JSON",
  "The values inside are JSON text inside a percent-encoded form; which characters in them matter depends on the order in "
  "which a deserialiser tries formats.",
  M + ":80-146", M + ":177-234", OI + ":67-80", OI + ":173-186")
p("C104", "Assigning a list of strings stores that list",
  "Assigning a list of strings to a list-of-strings parameter (or building a message from a dictionary with one) stores "
  "exactly that list, assigning a text stores its space-separated pieces, and no other parameter changes.",
  "for all classes, all list-of-strings parameters, all lists of strings and all previous contents",
  "The outcome depends on the number of items and on spaces in them; the lists in tests have one or two plain items.",
  M + ":322-390", M + ":872-895")
p("C105", "Defaults fill in exactly what is absent",
  "set_defaults leaves every parameter that is present, adds the default of the class for every parameter with a default that "
  "is absent, adds nothing else, and a second call changes nothing; a new message has the defaults for what is not given, "
  "unless set_defaults=False.",
  "for all classes and all contents",
  "Quantifies over all classes, contents and sets of present parameters.",
  M + ":37-47", M + ":73-78")
p("C106", "An unreadable file is an error, not an absent or an old entry",
  "Reading an entry of a file store whose file cannot be decoded raises the exception of the converter, each time; it never "
  "returns an older value and is never reported as an absent entry. get returns the default exactly for absent entries.",
  "for all converters, keys, contents of the directory and states of the instance",
  "Needs a damaged file and two reads; the outcome depends on the order of two statements.",
  AF + ":76-97", AF + ":166-204")
p("C107", "After every outcome of a verification the verified slots are genuine",
  "After verify() of an OIDC token response, authorization response, end session request, authorization request, back-channel "
  "logout request or message with an ID token -- whether it returned True or False or raised -- each of the slots "
  "__verified_id_token, __verified_id_token_hint, __verified_request and __verified_logout_token of the message is absent or holds "
  "the token that this call decoded and verified; the other parameters are those that were received.",
  "all messages, key jars, keyword arguments, times and behaviours of the crypto library",
  "the tests look at a message after a success, or only at the exception; a handler that logs or reuses a rejected message sees the rest",
  OI + ":246-256", OI + ":331-387", OI + ":433-513", OI + ":835-844", SE + ":56-78", SE + ":170-186")
p("C108", "Identity assurance claims requests are validated as they arrive",
  "IDAClaimsRequest.verify accepts a claims request whose verified_claims is a JSON object exactly when its verification and claims parts are null or objects whose entries each are null, or a request (essential, value, values, max_age) of the declared type of the claim, at every depth; an accepted request holds verified_claims as a VerifiedClaimsRequest with the sent entries; and this is so wherever in the claims request the verified_claims object stands.",
  "for every claims request and every verified_claims object in it, of any depth and size",
  "Tests send two or three literal requests; the statement is about every nesting of the claims schemas, and the violated clauses (requests in userinfo and id_token, the form with an array) are not in any test.",
  IA + ":443-512")
p("C109", "required_parameters names exactly what is insisted on",
  "verify() (as all classes share it) and to_urlencoded() insist on exactly the parameters named by required_parameters(): without one of them both refuse, they complain of a missing parameter only because of one of them, and for every class of the library a message with just these passes; what to_urlencoded() writes has each of them.",
  "all classes, all message contents",
  "Universal over contents; that no name could be left out is a statement about every class of the library.",
  M + ":829-833", M + ":588-625", M + ":80-135")
p("C110", "A copy of a message is equal to it and independent of it",
  "Message.copy() gives a message of the same class with the same values, changes nothing itself, and from then on no operation on any other message or class (in-place changes of lists included) changes the copy, and no operation on the copy changes another message or a class default, as long as the program does not itself put a list of one into the other or call set_defaults on the copy.",
  "all programs (histories of constructions, assignments, deletions, in-place changes, defaults, copies and shared assignments), all classes",
  "A test changes one list once; independence is about every later history.",
  M + ":810-811", M + ":37-47", M + ":701-706")
p("C111", "Several sessions on one SQL table keep it a map",
  "With any number of sessions on the same table, interleaved statement by statement and possibly dying at any point: a key has at most one row, what is read for a key was given to set or update for it, a key that nobody deletes never vanishes although set deletes before it inserts, after a commit every session reads what was committed last, and a finished operation of one session does not keep the others from writing.",
  "all executions of any number of sessions, for databases with one writer at a time and for databases that lock rows",
  "The interleavings of statements of concurrent transactions are unbounded and not under the control of a test.",
  SQ + ":10-61")

p("C112", "A token is accepted in one role only",
  "No token is accepted both as an ID token (in a token response) and as a logout token (in a back-channel logout request).",
  "all payloads, expected issuers, clients, nonces, algorithms and clock values",
  "Tests verify each kind of token with tokens made for it; the confusion needs one token that has the claims of both.",
  OI + ":766-832", SE + ":86-186")
p("C113", "An ID token is accepted for at most one client",
  "If the same claims are accepted by IdToken.verify for two client identifiers, at whatever times and with whatever other arguments, the two identifiers are equal.",
  "all claims of any shape, all pairs of non-empty client identifiers, all clock values and argument combinations",
  "It relates two runs, over all shapes of aud and azp; a test can only try some pairs.",
  OI + ":775-801")
p("C114", "Tokens are accepted only during their lifetime",
  "A token is refused before it was issued and after it expired, up to the accepted skew; the times at which it is accepted form one interval.",
  "all claims, arguments, skews and pairs of clock values",
  "Tests look at single clock values; the property compares acceptance at all of them.",
  OI + ":803-828", SE + ":100-158", OI + ":955-1004")
p("C115", "A null claim is not accepted in an ID token",
  "An ID token in which a claim is null is refused, as OpenIDSchema.verify demands.",
  "all accepted ID tokens and all claim names",
  "Whether the result of the inherited verify is used shows only when every claim is tried with null.",
  OI + ":568-588", OI + ":766-767")
p("C116", "An accepted ID token was signed by the expected issuer for this client",
  "Assume a signature library that accepts a token only if its payload was signed by the issuer it names, and a caller that gives `iss` and `client_id`, leaves verification on and does not allow unsigned tokens. Then whenever the verification of a token response, an authorization response, another message with an ID token, or an end-session request with a hint succeeds, the claims put into the `__verified_` slot are read from a payload which was signed by the expected issuer, names the client as audience, has not expired and carries no nonce other than the expected one.",
  "all crypto libraries with the stated guarantees, messages, key jars, keyword arguments, times",
  "Tests use a handful of tokens made with real keys; the statement is about everything an attacker could send.",
  OI + ":267-334", OI + ":337-387", OI + ":835-844", SE + ":56-78", M + ":484-594")
p("C117", "Code and access token belong to the ID token they arrive with",
  "With a collision-free hash function, two responses that are accepted with the same signed ID token have the same access token and the same code if they have them at all.",
  "all crypto libraries with the stated guarantees, pairs of messages, key jars, keyword arguments, times",
  "A test shows that one altered code is refused; that no other code is accepted needs a proof over all of them.",
  OI + ":311-329", OI + ":341-350", OI + ":373-387")
p("C118", "The key jar of a context holds the configured keys, also under its own name",
  "A key jar given to a context is used as it is. Otherwise the configured `keys` decide alone which keys there are, whatever `jwks`, `storage` or `uri_path` say; without `keys` those of `jwks` are imported under the empty name. Every key under the empty name is also filed under the entity id, if there is one, and no other name is touched. The configured HTTP parameters, if any, are those of the key jar.",
  "all key libraries with the stated laws, configurations, entity ids, storages",
  "A test builds one context; the claim is about all combinations of configuration items.",
  CT + ":48-76", CT + ":26-43")
p("C119", "The storages of a context are separate",
  "The items of a context, its key jar and each of its boxes are kept in different places.",
  "all storage configurations, section names and importers",
  "Whether storages coincide depends on which sections a configuration leaves out, which tests do not enumerate.",
  CT + ":26-62", IN + ":28-66")
p("C120", "Boxes get the storages of their sections",
  "After `add_boxes` every named attribute holds the storage initialised from the section of its key (the later one, if two keys name the same attribute) and all other attributes are as before. If a storage cannot be made, the error is raised and exactly the boxes before it are there.",
  "all configurations, boxes and contexts",
  "Tests add a few boxes with one configuration.",
  CT + ":45-47", IN + ":52-66")
p("C121", "Verifying a verified message again",
  "If the verification of a message succeeds, then verifying the message it leaves behind, with the same keys and arguments at the same time, succeeds with the same result and leaves the message as it is.",
  "for all messages, keys, arguments and points in time",
  "Verification changes the message (slots are cleared and filled, encryption methods are filled in, request objects are merged), and a test would have to repeat every verification for every message.",
  OI + ":311-387", OI + ":433-513", OI + ":641-665", OI + ":838-844", O2 + ":331-378", SE + ":56-78", SE + ":170-185")
p("C122", "Sign-in and logout between honest parties go through",
  "For any issuer, subject, client, nonce, state, code, token and keys (non-empty names, working crypto, a location without a "
  "query): the authorization request a relying party writes as a URL is read and accepted by the provider with exactly its "
  "values; the authorization response (query or fragment) and the token response (JSON) carrying the provider's signed ID "
  "token are read and accepted by the relying party within the token's lifetime, with exactly the signed claims; the "
  "end-session request with that token as a hint is accepted by the provider; and the logout token the provider signs is "
  "accepted by the relying party from its time of issue on.",
  "all names, keys, clocks, lifetimes, scopes, response types and locations",
  "The completeness direction over all values and clocks; tests pick single examples.",
  OI + ":762-779", OI + ":267-340", SE + ":56-78", SE + ":170-185", M + ":681-702")
p("C123", "Containers without a serialiser are written in forms as their Python text",
  "A dict under a name the class does not declare is written by to_urlencoded as str(dict) and read back as that text, never as "
  "a dict, while texts come back unchanged. Different values (nulls, truth values, integers, floats, lists, dicts, nested to any depth, "
  "with any characters in their strings) have different texts, so the text determines the value. The reader cannot tell the "
  "text of a container from a text that was sent. A list of words with anything but strings in it is refused.",
  "all messages, schemas, values and nesting depths",
  "Injectivity of repr over all nested values and all characters, printable or not, is beyond sampling.",
  M + ":80-146", M + ":562-568")
p("C124","Forms of other senders are read alike",
"However a sender percent-encodes the UTF-8 bytes of names and values - needless escapes, lower-case hexadecimal digits, `+` or `%20` for a space - from_urlencoded reads the same message as from the library's own form of the same pairs. Text without `%` and `+` is read as it stands. Ill-formed byte sequences never swallow or produce an ASCII character.",
"all sequences of pairs of unicode strings, all percent encodings of them, all byte sequences",
"every choice of escapes for every character of every name and value, and all ill-formed byte sequences",
M + ":177-234")
p("C125","What the standards require is insisted on",
"A message that verify() accepts has a non-empty value for every parameter that the standard defining it (RFC 6749, 7662, 8414, 8417, 8628, 8693, OpenID Connect Core, Discovery, Registration, Back-Channel Logout) marks REQUIRED without a condition, and to_urlencoded() never writes it without one.",
"all messages of 29 classes, all contents",
"each requirement is about all messages of a class, whatever else they contain",
M + ":436-470", O2 + ":34-380", OI + ":263-1060", SE + ":27-186")
p("C126","Enumerated values are accepted, and only those",
"For a parameter whose values the standard enumerates (grant_type, error, display, prompt, client_assertion_type, application_type, subject_type) verify() refuses every other non-empty text, and replacing the value in an accepted message by any of the enumerated ones gives an accepted message.",
"all messages of the classes with such parameters, all texts",
"all texts as values, in all otherwise acceptable messages",
M + ":436-470", O2 + ":54-95", OI + ":390-513", OI + ":589-664")
p("C127", "The entries of a file store do not affect each other", "An entry of the file storage behaves like a variable of its own: the answers to reading, testing, storing and deleting one key are determined by the operations at this key alone, and its file holds the last value stored there, whatever is done at other keys meanwhile: by the same instance (including failing writes, listings that raise, and strange names) or by other processes in the same directory.", "for all keys, all converters, all histories of operations and of changes by others to other files, and all time stamps", "tests use a few keys in a fixed order, with values that can be stored", AF + ":76-291")
p("C128", "Floating point numbers in JSON documents",
  "A number with a fraction or an exponent in a JSON document (from_json, the JSON converter, the payload of a token) is read as the "
  "float nearest to its value: no other float is closer. A float written by to_json is a number with a fraction or an exponent, and is read "
  "back as the same float; its text has at most 17 significant digits, no other text of that float has fewer, and none with as few is closer. A float and an integer "
  "never have the same text, so neither turns into the other on the way.",
  "all number texts of any length and exponent, all finite floats, all integers",
  "There are 2^64 floats and infinitely many decimals around each; rounding errors show at isolated values.",
  M + ":443-472", M + ": Message.to_json, Message.from_json", CT + ":21-27", TU + ":338", TU + ":362")
p("C129", "A parameter name stands for one kind of value in every class",
  "A parameter holds the kind of value that its name stands for in the registries and standards, whichever message class it occurs in: moments and durations in seconds hold integers (a text is accepted if it spells an integer, and becomes that integer), truth values hold True or False, identifiers, tokens and URLs hold texts, scope, prompt, acr_values and the like are lists taken apart at spaces and written with spaces, the lists of metadata are arrays that are kept as they are, and objects are dicts. Nothing else can be assigned.",
  "all message classes, all their declared parameters, all values assigned, all messages",
  "The library declares 561 parameters in 74 classes; tests assign a handful of values to a few of them, and a wrong type in one declaration shows up only with a peer that sends that parameter.",
  M + ":322-441", M + ":965-1019", O2 + ":34-410", OI + ":92-217", OI + ":529-1144", SE + ":27-186")
p("C130","Time stamps in messages survive",
"A message with a time stamp in seconds since the epoch is written with that instant in ISO 8601 form; reading what was written, from JSON or from a form, gives a message with the same instant, which can be written again.",
"all classes with time stamps, all instants from 2 January 1000 to 30 December 9999 other than 0, all local zones, all further parameters that survive",
"The tests write a time stamp and read it with the functions for texts, not through messages, and only in the zone and season of the machine.",
IA + ":101-123", M + ":80-146", M + ":177-271")
p("C131", "Parameters a class does not know do not influence its verification",
  "Whether verify() accepts a message, what it answers, which exception it raises, and what it leaves at the known parameters and in the "
  "verified slots depends only on the parameters of the class: two messages that differ only in other parameters are treated alike. So "
  "unrecognised parameters are ignored, as RFC 6749 (3.1, 3.2) and OpenID Connect require. A parameter that the request object of an "
  "authorization request holds counts as known; a logout token knows nonce as what it must not hold.",
  "all pairs of messages with the same values at the parameters of the class, all tokens, key jars, keyword arguments and times",
  "Tests add one or two unknown parameters to a message; a check that happens to look at some other name is found only when the test "
  "uses this very name.",
  O2 + ":44-51", O2 + ":154-173", O2 + ":331-378", OI + ":267-387", OI + ":433-513", OI + ":568-587", OI + ":639-699",
  OI + ":766-844", OI + ":913-1004", SE + ":27-186", IA + ":443-512", "src/oidcmsg/oauth2/device_authorization.py:29-36")
p("C132", "Lists of messages survive the trip through a form",
  "A list of messages under a parameter declared for that (evidence, links) is written by to_urlencoded as one parameter, the Python text of the list of the forms that to_urlencoded gives for the messages by themselves, and fails exactly when one of these fails; reading the form gives the list back.",
  "all classes with such a parameter, all lists, all other contents of the message",
  "The tests write such messages as JSON only; that no list at all survives a form is a statement about all lists.",
  M + ":80-146", OI + ":135-136", OI + ":1068-1108", IA + ":260-272")
p("C133", "Received messages are refused only with the exceptions a caller expects",
"Whatever data a message of any class is made from, and whatever the peer put into it, reading it raises only DecodeError or ValueError (JSONDecodeError for a text that is no JSON; for a form also FormatError or TooManyValues), and verifying it raises only an OidcMsgError, a ValueError or an exception of the JWT library. No TypeError, AttributeError or KeyError reaches the caller because of what the peer sent.",
"for every class of the library, all received members (any JSON values, declared or not), all forms, all keyword arguments of the documented types, all embedded ID tokens and all times",
"a fuzzer tries some values at some parameters; the claim is about every value of every parameter, and the failures sit at single combinations (null at one optional parameter, a foreign name in one class)",
M + ":284-441", M + ":456-466", M + ":588-625", O2 + ":44-51", OI + ":568-587", OI + ":639-699", OI + ":766-832", OI + ":913-1004", SE + ":101-154", EX + ":4-157")
p("C134", "Claims requests made with the constructor are accepted",
"Whatever sequence of assignments a ClaimsConstructor accepts, of JSON values and of other constructors made in the same way, to any depth: to_json() gives a text, the receiver reads the same data from it, and verify_claims_request for the class of the constructor accepts that data. An identity assurance claims request carrying the content of a constructor for VerifiedClaims, no blank values in it, is accepted.",
"for every class of the library, all sequences of assignments, all values, all depths of nesting",
"the tests build two or three constructors and compare the text; that what the constructor lets through is what the verifier lets through is a statement about all values and depths",
IA + ":406-470", IA + ":515-555")
p("C135", "Sender and receiver come to the same verdict",
"If the sender of a message verifies it and sends it as JSON or as a form, the receiver, who reads it into a fresh instance of the class, verifies it too; and a message that the sender's verify() refuses is refused by the receiver's.",
"for every class of the library (the checks of Message.verify), all messages whose values survive the encoding or come back as texts, all further parameters",
"tests verify either what they build or what they parse; the disagreement needs a value that changes its truth value on the wire",
M + ":80-146", M + ":177-271", M + ":284-441", M + ":588-625")
p("C136", "Versions of a parameter in a language are treated like the parameter",
"A parameter name with a language tag (client_name#ja, OpenID Connect Core 5.2, Dynamic Registration 2.1) stands for a version of the parameter without the tag: a value for it is checked, converted, ignored or refused exactly as for the parameter itself when it is read from data, from JSON or from a form or assigned, written to JSON and forms in the same way, and kept by weed() and by_schema().",
"for every class of the library, every declared parameter, all tags and values",
"the tests use one or two tagged names with values that need no conversion",
M + ":96-135", M + ":201-232", M + ":247-269", M + ":291-319", M + ":701-706", M + ":738-748", M + ":813-819", M + ":850-852")
p("C137", "A reading that fails leaves the message as it was",
"If from_dict, from_json or from_urlencoded of an existing message raises, the message holds what it held before.",
"for every class, all earlier contents, all data, texts and forms",
"tests of refused input look at the exception, not at the message afterwards",
M + ":177-234", M + ":273-320", M + ":456-466")
p("C138", "What is put on the wire is harmless text",
  "to_urlencoded returns only letters, digits, the signs _.-~+% and the delimiters & and =; the address made by request is the given location, one delimiter and such a text, so nothing in a message can change the target of an address, start a fragment or break the line; to_json returns printable ASCII on one line.",
  "every message class, every content and every location",
  "Tests encode a few known special characters; the claim is about every character of every parameter name and value.",
  M+":78-138", M+":443-454", M+":681-699")
p("C139", "Only the documented keyword arguments decide",
  "The outcome of a verify method depends on the message, the clock, the key jar and a fixed list of keyword arguments: two calls that agree on those give the same result or the same exception, whatever else is passed. Every argument in the list matters: some call gives another outcome without it.",
  "every message, clock, key jar and pair of argument sets",
  "Tests cannot pass every other argument; that an argument is never looked at is a statement about all calls.",
  O2+":154-173", O2+":331-378", OI+":241-334", OI+":433-513", OI+":766-832", OI+":913-1004", SE+":56-78", SE+":101-186")
p("C140", "An option given its default value is as if left out",
  "Passing an option of verify its default value, or None, has the same effect as leaving it out: skew=0, nonce_storage_time=4*3600, allow_sign_alg_none=False, verify=True, allow_http=False, allowed_sign_alg=None.",
  "every message, clock, key jar and set of other arguments",
  "Tests pass an option or leave it out; they do not compare both calls over all messages.",
  OI+":280-297", OI+":800-826", OI+":923-926", OI+":955-987", SE+":140-152")
p("C141", "A message shown as text stays on one line",
  "str(msg) contains no line break, no control character and nothing unprintable, whatever the message holds; names and values of printable ASCII without quotes and backslashes are shown as they are, in order.",
  "every message class and content",
  "Log injection depends on arbitrary values, nested at any depth; tests print a few messages.",
  M+":562-568", M+":245-290")
p("C142", "A request object is opened in the name of the client",
  "When no opponent_id is passed, verify of an authorization request with a request object looks for keys in the name of the client_id of the request: it does exactly what it does when that is passed.",
  "every request, key jar, token library and set of other arguments",
  "The two calls must agree on every request and every key jar.",
  OI+":446-483", O2+":331-378")
p("C143", "Asking whether a key is there agrees with reading it",
  "For a file store, k in store, k in store(), k in keys() and 'reading store[k] succeeds' all say the same, whoever else uses the directory.",
  "every key, every history of any number of instances on one directory, every value converter",
  "The questions are answered from two places, the cache of the instance and the directory; whether they agree depends on the whole history.",
  AF + ":58-83", AF + ":265-271")
p("C144", "A context gives back what was put into it, whichever storage of the package is configured",
  "After context.set(item, value) has succeeded, context.get(item) is the value (its dict if it was a message, its bytes for the seed), and every other item is what it was before, "
  "with AbstractFileSystem, LabeledAbstractFileSystem and AbstractStorageSQLAlchemy alike.",
  "every item, value, storage content, label and table",
  "The context is written against an interface which the storages implement differently; whether it holds is a matter of all contents and item names.",
  CT + ":79-88", AF + ":288-345", SQ + ":9-89")
p("C145","JSON documents of any writer are read as the value they denote, and nothing else is read",
 "Message.from_json succeeds exactly when the text is, by the grammar of RFC 8259, a document of an object that from_dict accepts, and then gives what from_dict gives: whitespace, the choice of escapes, upper and lower case hexadecimal digits and the spelling of numbers do not matter, a repeated name counts with its last value. Any other text is refused with a JSONDecodeError (if it is no document).",
 "every text, every message class and every previous content",
 "The texts of other implementations are unbounded in length and nesting; a test tries a few.", M+":456-466")
p("C146","The indentation of a JSON document does not matter",
 "Message.to_json(indent=n) succeeds exactly when Message.to_json() does and fails with the same exception otherwise, and both texts are read alike by from_json of every class, for every number n of spaces and for every string of blanks.",
 "every message, class and indentation",
 "Nesting and content are unbounded.", M+":443-466")
p("C147","Listing a SQL store shows every entry once",
 "After every history of operations and crashes on a table that was empty at first, store(), str(store) (read as a JSON document) and iteration over the store show exactly the pairs of a key and the value get(key) returns, every key once.",
 "every history of set, update, delete, flush and crashes, every key and value",
 "Histories are unbounded; a row too many shows only after particular histories.", SQ+":55-76")
p("C148", "Every accepted sign-in goes back to a token signed for it, and none is replayed",
  "Consider any number of issuers and of sessions at relying parties, where a session verifies the authorization or token "
  "responses it receives with the issuer, client id and nonce of its own request, and a network that delivers anything. "
  "Whenever a session accepts a response with an ID token, its issuer has signed before that a payload with the claims that "
  "are found, for the client of this session and with the nonce of this session; so no signed payload serves the "
  "sessions of two different nonces.",
  "all runs of any length, messages, sessions, issuers, times, signature libraries with the stated guarantees",
  "Tests verify single messages; replay concerns whole histories of signing and accepting.",
  OI+":267-334", OI+":337-387", OI+":835-844")
p("C149", "JSON documents given as bytes are read like their text",
  "from_json takes a JSON document as bytes in UTF-8, UTF-16 or UTF-32, either byte order, with or without a byte order mark. "
  "It reads it as it reads the text of the document, whichever of the encodings was used; bytes that are no document in "
  "one of these encodings are refused with a ValueError; no bytes are a document in two ways.",
  "all byte sequences, all documents, all encodings, all message classes",
  "The encoding is guessed from the first four bytes; tests try documents of one or two shapes in UTF-8.",
  M+":456-466")
p("C150", "Every accepted logout goes back to a logout token of the issuer, each used once",
  "Consider relying parties that verify back-channel logout requests with their issuer, client id and registered algorithm, "
  "among issuers that sign ID tokens and logout tokens, and a network that delivers anything. Whenever a request is "
  "accepted, the issuer has signed before that a logout token for this client: with the logout event, an identifier, a subject "
  "or session, and no nonce. An issuer that has signed only tokens with a nonce has logged nobody out. Each logout token is "
  "accepted once.",
  "all runs of any length, messages, issuers, clients, times, signature libraries with the stated guarantees",
  "Tests verify single requests; which token led to which logout concerns whole histories.",
  SE+":100-186", M+":484-594")
p("C151", "The order in which parameters arrive does not matter",
  "Two objects with the same members in different orders are both refused or both read, and what is read holds the same value "
  "under every name; likewise for any two JSON documents of them, in any of the encodings.  Two forms of any senders whose pairs are "
  "the same, those of one name in the same order, are both refused or both read, with the same content.  Messages with the same "
  "content are verified alike: the same answer or exception, and the same content afterwards.  When there are several reasons to refuse, "
  "the order may decide which exception it is.",
  "all classes, starting contents, objects, documents, encodings, forms, and arguments of the verification",
  "There are factorially many orders of the parameters; tests use one.",
  M + ":177-232", M + ":266-320", M + ":456-466", OI + ":329-560")
p("C152", "Encrypting a token only hides it",
  "An encrypted token is opened with the keys the key jar has for the receiver itself, and refused if these do not open it or there is no key "
  "jar. What is inside is then treated as if it had been sent as it is: from_jwt gives the same message or exception; requests with a "
  "request object (OpenID Connect, JWT-secured, pushed), back-channel logout requests with a logout token, and messages with an ID token are "
  "verified alike, and leave the same content but for the parameter itself. Where the caller states the algorithms of the encryption, a "
  "token that is not encrypted is refused.",
  "all signature and encryption libraries, key jars, texts, messages, classes and arguments",
  "The equivalence is between two verifications for every pair of texts; tests with keys try single tokens.",
  M + ":484-560", O2 + ":331-378", OI + ":267-334", OI + ":433-513", SE + ":170-186")
p("C153", "Error responses are recognised as such",
  "is_error_message(m) of a response m that was read from a JSON document is True if and only if the document has the member error, and its value is something other than an empty text or list, a list of one empty text, or a list that begins with null. Read from a form, it is True if and only if the form has a pair error=v with v not empty. So sender and receiver of a message agree on whether it is an error message. And a response for which is_error_message is True is not accepted by the verify() of the successful responses.",
  "all documents and all forms, of any sender; all response classes; all messages; all key jars and arguments",
  "What is taken for an error depends on how each kind of value is stored, and that a response that is accepted stays accepted with an error added has to be shown for every response.",
  O2+":24-28", O2+":34-51", O2+":154-173", OI+":341-387")
p("C154", "Expecting less refuses less",
  "A message that is accepted by verify() is accepted, with the same result, when fewer expectations are given (iss, client_id, nonce, aud, allowed_sign_alg), the tolerances are larger (skew, nonce_storage_time) or more is permitted (allow_sign_alg_none, allow_http), everything else being the same.",
  "all messages, clocks and pairs of argument sets; all token libraries and key jars that do not look at those arguments",
  "Two runs on the same message are compared for all pairs of argument sets; a check that is only made when another argument is missing would go unnoticed by tests of single arguments.",
  O2+":154-173", OI+":262-387", OI+":766-844", OI+":913-1004", SE+":56-186")
p("C155", "Equal messages get the same verdict",
  "If two messages compare equal (m == n), verify() accepts both or neither, with the same exception, and leaves equal messages behind; and both are written as the same form.",
  "all pairs of messages, key jars, clocks and arguments",
  "Python's equality identifies True, 1 and 1.0, ignores the order of parameters at every depth, and looks only at the name of the class; all combinations of these are compared.",
  M+":588-625", M+":708-724", O2+":44-51", OI+":341-387", OI+":568-587", OI+":639-699", OI+":766-832", OI+":955-1004", SE+":101-154")

p("C156", "What may be left out of a message",
  "If verify() accepts a message, it also accepts the message without any one parameter that its class does not require, with these exceptions: azp in ID tokens, sub and sid in logout tokens, the *_alg partners of *_enc in registration requests, registration_client_uri and registration_access_token in registration responses, token_endpoint in provider configurations, client_id in token requests of the device flow, nonce and prompt in authorization requests without a request object, request and request_uri in secured authorization requests, and id_token_hint in end-session requests. Each of these exceptions is real.",
  "all accepted messages, all optional parameters, key jars, clocks and arguments",
  "Every parameter of every class, on its own, has to be removed from every accepted message; tests remove a few from one message each.",
  M+":588-625", O2+":44-51", O2+":154-173", O2+":331-378", OI+":341-387", OI+":433-513", OI+":568-587", OI+":639-699", OI+":766-844", OI+":913-940", OI+":955-1004", SE+":56-186")

p("C157", "What a class accepts, the class it is derived from accepts",
  "If verify() of a message class accepts a set of parameters, verify() of every class it is derived from accepts them too when called with the same arguments.",
  "all classes of the package, all parameters, key jars, clocks and arguments",
  "Derived classes override specifications, allowed values and verify itself; the comparison is over all messages for every pair of classes.",
  M+":588-625", O2+":54-378", CT.replace("context.py","oauth2/device_authorization.py")+":28-36", OI+":259-1111", IA+":151-512", SE+":27-84")

p("C158", "An accepted registration can be confirmed",
  "If RegistrationRequest.verify() accepts a request, RegistrationResponse.verify() accepts the response that repeats its parameters as verify() left them and adds a non-empty client_id.",
  "all accepted registration requests and client ids",
  "The response class shares the specifications of the request but adds conditions of its own on parameters that a request may carry as extensions.",
  M+":588-625", O2+":44-51", OI+":590-699")
p("C159", "A message that was read can be passed on",
  "Let a new instance of a message class read a JSON object or a form (`from_json`, `from_urlencoded`). Writing the instance in the same format (`to_json`, `to_urlencoded`) and reading the result with another new instance of the class gives the same message: the same parameters in the same order with the same values, messages inside messages with their classes included. For JSON: undeclared parameters, plain single values, lists of strings and space separated strings, objects, messages and lists of messages at any depth. For forms: undeclared parameters, single values without conversion and lists of strings, when the required parameters are there.",
  "every message class, every JSON object and every form text, every nesting depth",
  "Round trip tests start from a message that was built in the test, in normal form; what reading does to odd but accepted input (numbers as text, one text for a list, texts with spaces inside lists, repeated form fields) and whether that is a fixed point is not visible from them.",
  f"{M}:177-234", f"{M}:273-441", f"{M}:447-466", f"{M}:872-895")
p("C160", "In JSON every value is written in the kind its name stands for",
  "In the result of to_dict(), and so in the JSON text of to_json() and in the payload of to_jwt(), the value of a declared parameter stands in the kind that its name has in the registries and standards: seconds as numbers, truth values as true and false, identifiers, tokens and URLs as strings, lists of words as one string with spaces, the lists of metadata as arrays of strings, objects as objects, messages inside messages as objects, lists of messages as arrays of objects, moments as strings.",
  "all message classes, all their declared parameters, all messages that can be written",
  "The library reads its own texts back, so that a round trip test does not show in which kind a value stood in between; other implementations see only that.",
  f"{M}:236-271", f"{M}:443-454", f"{M}:860-935", f"{OI}:83-84", f"{SE}:86-99")
p("C161", "A refused message stays as it was, and is refused again",
  "When verify() raises an exception or returns False, the message has the parameters and values it had before the call (apart from entries in the places kept for verified tokens that the sender had put there), and calling verify() once more with the same arguments has the same outcome.",
  "all messages of the classes whose verify() changes the message, all arguments, all outcomes of the token library",
  "Tests of refusals end with the exception that was expected; nobody looks at the message afterwards, or verifies it twice.",
  OI+":246-256", OI+":267-387", OI+":433-513", OI+":639-664", OI+":838-844", SE+":56-78", SE+":170-186")
p("C162", "The clock decides about expiry and about nothing else",
  "The same message verified with the same arguments at two moments has the same outcome - the same result and the same message afterwards, or the same exception - unless at one of the moments verify() says with EXPError or IATError that the token is not valid at that time.  For ID tokens, and the messages that carry them, this can only be the later of the two moments.",
  "all messages, arguments, key jars and pairs of clock values",
  "Tests run at one moment; that nothing but the expiry checks looks at the clock, and that no other check is skipped or added by the time, concerns pairs of runs.",
  OI+":341-387", OI+":766-844", OI+":955-1004", SE+":56-78", SE+":101-186")
p("C163","Durations respect the order of times","For a duration with a plus sign, add_duration never returns a time before the one it was given; a longer duration (component by component) never ends earlier than a shorter one from the same start; and the same duration never takes a later start to an earlier end.","all valid times and all durations with non-negative components","monotonicity over all pairs of dates and durations, with month lengths and leap years",TU+":126-171")
p("C164","Texts are read alike from a form and from a JSON object","For every message class, a form and a JSON object with the same non-empty texts under the same names (each once) are read by from_urlencoded and from_json into the same message, or are both refused; so every verification comes to the same verdict.","all message classes, instances, names and texts","all classes times all texts in two formats",M+":177-234",M+":273-320",M+":456-466")
p("C165", "Parameters can be taken out of a message, and set unless they are there",
 "pop(name) returns the value of the parameter and removes it and nothing else; for an absent one it returns the default, or raises KeyError, and changes nothing. popitem() takes the parameter set first, so repeated calls give every parameter once in order; clear() ends with an empty message. setdefault(name, value) leaves a parameter that is there alone, and otherwise is the assignment; what it returns is what the message has under the name afterwards.",
 "all messages, classes, names and values",
 "the methods are inherited from MutableMapping and interact with the conversion on assignment; that clear() terminates and that nothing else is removed is a claim about all contents",
 M+":29", M+":636-643", M+":701-706", M+":728-729")
p("C166", "Parameters declared to take any value take any value",
 "A parameter declared with SINGLE_OPTIONAL_ANY takes every value that can stand in a JSON document, and what any_ser writes for a value any_deser reads back.",
 "all values and formats",
 "the specification is exported but used by no class of the library, so no test touches it; the failure concerns all values",
 M+":400", M+":995-1017")
p("C167","What being lax changes","A message with lax set is form-encoded whatever required parameters it lacks; a complete message is encoded in the same text or refused with the same exception, lax or not; and what is written of an incomplete lax message is read back as it was, but refused by verify().","all schemas, all message contents","universal over schemas and contents; the two modes are compared on every message",M+":42, 80-146",M+":681-699",M+":588-625")
p("C168", "Exactly the ISO 8601 texts are read as instants",
  "The deserialisers of time stamps and dates accept exactly the texts of the documented grammar as strptime reads it: an existing day, T, a time of day below 24:00:00 and an offset below a day (hhmm, hh:mm, hhmmss, hh:mm:ss, the last two with up to six places of a fraction, or Z), or an existing day alone. The result is the float nearest to the seconds since 1970 the text stands for, exact when there is no fraction; for a date the beginning of the day in the local zone. Every other text raises ValueError.",
  "all texts, all local time zones",
  "The texts are infinitely many and include digits of other scripts, mixed separators and out-of-range fields.",
  IA+": from_iso8601_2004, time_stamp_deser, date_deser 76-144")
p("C169", "A message kept in a context can be made again from what is read",
  "After OidcContext.set(item, m) of a message m whose values survive JSON (messages inside it included), OidcContext.get(item) gives a dictionary w such that Cls().from_dict(w) gives the parameters of m over what was there, exactly those of m for an instance without content, and Cls(**w) gives m over the defaults. This holds in memory and with file storages that use the JSON converter, in the same process and in one started later that only has the files.",
  "all classes, all messages whose values survive, all items other than seed that can be a file name, all earlier contents of the storage",
  "Needs every class, nested messages and every earlier content of the storage, and a restart in between; tests store one plain value.",
  CT + ": OidcContext.set, get 78-88", M + ": Message.to_dict 235-271, from_dict 273-320", AF + ": AbstractFileSystem 82-126, 206-232")
p("C170","The exception tells why a token was refused",
"When the verification of an ID token, a JSON Web Token or a logout token raises, the exception class names what is wrong with the token: IssuerMismatch means the issuer differs from the expected one, NotForMe that it is for another client or audience, EXPError that it has expired, IATError that it was issued too long ago, MissingRequiredAttribute that a required claim is absent, UnsupportedAlgorithm that it was signed with another algorithm. Conversely a token that is right but for one of these is refused with that exception. The same fault gives the same exception whatever kind of token it is.",
"every token content, every combination of arguments and every clock value",
"Tests raise each exception once for one crafted token; that an exception never occurs for a different reason is a statement about all tokens and argument combinations.",
OI+":766-832", OI+":955-1004", SE+":101-154")
p("C171","Null is only taken where the class allows it",
"The last field of a parameter's specification says whether null is allowed; of all parameters of all classes only evidence of the identity assurance verification classes allows it. Reading an object or assigning with null under any other declared parameter raises ValueError; an empty list or a list that starts with null is ignored and leaves what was there, while evidence keeps both null and the empty list. In forms nulls are left out, under evidence null is written as None.",
"all classes, all their parameters, all previous contents, all other members of the object",
"There are 561 parameters in 74 classes; the outcome depends on the kind of the parameter, the value, and whether something is there already, and tests cover a few of the combinations.",
M+":322-441",M+":96-135",IA+":272-272",IA+":370-380")
p("C172","Exactly which messages with tokens are accepted, and what they hold afterwards",
"A token response, an authorization response, another message with an ID token, a logout request with a hint and a back-channel logout request are accepted if and only if the message itself is as its class declares, and the token in it, if there is one, is a JWT with an algorithm the caller allows, of an issuer the key jar knows when it is signed, that can be opened with the keys and is right for the caller; in authorization responses also the hashes of code and access token must be right when the token is signed. The verified message holds exactly what it held before, without what earlier verifications left, and the opened token. Nothing else is checked, and nothing else is stored. A JWT secured request is accepted if and only if its request object can be opened or it refers to one, a pushed one also without. An OpenID authentication request is accepted if and only if its parameters are as declared, its request object, if there is one, can be opened and the values it changes can be written to the log, and the parameters that count (those of the request object, or else those of the request) have a hint that can be opened if they have one, a nonce, the expected one, if an ID token is asked for, the scope openid, consent with offline access, and the prompt none only alone.",
"every crypto library, every message content, key jar, combination of arguments and clock value",
"That nothing else is checked and nothing else stored is a statement about all inputs; tests only show some accepted and some refused messages.",
OI+":267-334",OI+":341-387",OI+":835-844",SE+":56-78",SE+":170-186",O2+":331-378",OI+":433-513")
p("C173","Exactly which texts are read as tokens",
"from_jwt gives a message if and only if it was given a keyjar argument, the text is not encrypted or decrypts with the keys of the jar, what is inside holds an object, and the object can be read as a message of the class. A text holds an object if it is not a JWT but a JSON document of the object, or a JWT with that payload and with an alg in its header which is unsigned, or signed by the keys the jar gives for it, or need not be verified because the caller says so. Keys are looked for twice: if none of the keys suits, the jar is updated and asked again, so a token signed with a new key of its issuer is accepted exactly when the update brings the key. The message is what reading the object gives, with the header of the token; nothing else is checked.",
"every crypto library, text, class, key jar and combination of arguments",
"That nothing else is checked, for every behaviour of the crypto library and the key jar including jars that change when asked, cannot be enumerated by tests.",
M+":482-560")
p("C174","Exactly which data is read as a message, and what the message then holds",
"from_dict and from_json read an object if and only if each of its members is taken by the parameter of its name, and the message then holds what the parameters made of them. Empty texts, empty lists and lists that begin with null are passed over. A name the class does not declare, with or without its language tag, takes any other value as it is. A text parameter takes texts; a number integers, floats cut off at the point, and numerals; a truth value truth values; each of them also null. A token takes a text, a dict, a message or null. A list of words takes a text, cut at every space, a list of texts, and a dict as it is; a space separated list also cuts the text in a list with one text. A parameter with a reader of its own takes values of its type, null, and what the reader makes of other values, but no truth values. Nothing else is taken, and assigning to a parameter follows the same rules. A form is read if and only if it is empty or has a pair with a value, and the values under each name are taken: a single-valued parameter takes exactly one, as the text it is or as what its reader makes of it; a list takes the first one, cut at the spaces; an unknown name takes one as a text and several as a list.",
"all classes of the library except the three with lists of messages (JRD, VerificationElement, VerificationElementRequest), all contents, objects, JSON documents and forms",
"That all other values are refused, for all parameters of all classes, is a statement about infinitely many values; tests try a few wrong ones.",
M+":273-441",M+":456-466",M+":701-706",M+":872-895",M+":965-993",M+":177-234")
p("C175","Exactly which texts are taken for durations",
"parse_duration accepts a text exactly when it is P, after an optional minus, followed by at least one character, and the numbers before Y, M, D, then T, then those before H, M and S are found in turn: each number is what int() makes of everything up to the next such letter, a letter that does not occur counts as 0, no part begins with a minus, T is present unless the text ends before it and is followed by something, only the seconds may be a float, and what follows the seconds does not matter. Every other text is refused: with IndexError exactly for '', '-', 'P' and '-P', with ValueError exactly when P is missing, and with TimeUtilError otherwise.",
"all texts, all results of float()",
"Tests try a few durations; the claim is an equivalence over all texts.",
TU+":77-123")
p("C176","Exactly which messages can be written as a dict or as JSON, and what is written",
"to_dict() of a message succeeds exactly when every value can be written by the serializer declared for its name, and then gives a dict with the same names in the same order. Without a serializer values are written as they are, a message as its dict, and a list that begins with a message must hold messages only, which are written as their dicts. Space separated parameters take a text, a list of texts, which is joined, and of a dict or message the names. Object parameters written as JSON text take any value but a message for which there is a JSON text. Message parameters take a message, a dict, and (except claims and msg_ser_json) a text; lists of messages take lists of these, links only messages of class Link; moments are written by time_stamp_ser. Nothing else can be written. to_json() succeeds exactly when to_dict() does and there is a JSON text for the dict, in particular when the dict is JSON data, and then reading the text gives the dict.",
"all message classes, all values of all parameters, every nesting depth",
"Tests write a few messages; the claim is an equivalence over all values at every depth, failures included.",
M+":236-271", M+":443-454", M+":863-956", OI+":104-165", OI+":1075-1103")
p("C177","Exactly which messages can be written as a form, and what the form holds",
"to_urlencoded() of a message succeeds exactly when its required parameters are there and there is a text for each value, and gives the encoding of these under their names and in their order. Texts stand as they are; null is left out, or stands as None where the declaration allows it. Without a serializer a list stands as its items, the name repeated, each as its Python text. Lists of words are joined with spaces and must hold nothing but texts; a dict in a space separated parameter stands as its names. What is declared as JSON, and the objects of msg_ser_json, stand as JSON text; a claims request as its form; a list of messages as the Python text of the list of the forms, that of a message being the one it has by itself; a moment as its time stamp, if there is one. A message inside the message stands as the JSON text of what its serializer writes, or as its Python text if it has no serializer or one for JSON. All else stands as its Python text. With a positive level (to_urlencoded(lev)) an object of msg_ser_json stands as its Python text too, and a list in its place is refused. A message that is lax is written the same way, whether or not its required parameters are there.",
"all message classes, all values in which messages stand as values of parameters or as items of lists, not inside dicts or lists of lists",
"Tests write a few forms; the claim is an equivalence over all values, failures included.",
M+":80-146", M+":863-956", OI+":104-165", OI+":1075-1103", IA+":101-112")

with open(os.path.join(os.path.dirname(__file__), "..", "properties.jsonl"), "w") as f:
    for o in P:
        f.write(json.dumps(o) + "\n")
print(len(P))
