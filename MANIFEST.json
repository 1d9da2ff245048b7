{
 "claims": [
  {
   "property": "C01",
   "status": "partial",
   "theorems": [
    "C01_history_typed_partial",
    "C01_construct_typed_partial",
    "C01_assign_str",
    "C01_assign_int",
    "C01_assign_bool",
    "C01_timestamp_counterexample"
   ],
   "note": "Full statement is false: ISO-8601 time-stamp parameters are declared str but store ints (counterexample theorem). Proved for every schema whose scalar deserialisers respect the type, over all histories; exact assignment semantics per scalar type."
  },
  {
   "property": "C02",
   "status": "partial",
   "theorems": [
    "C02_history_strlists_partial",
    "C02_urlencoded_strlist",
    "C02_dict_counterexample"
   ],
   "note": "Full statement is false: a dict given for a list-of-strings parameter is stored as is (counterexample theorem). Proved for all histories in which no dict is offered for such a parameter, and for form decoding."
  },
  {
   "property": "C03",
   "status": "proved",
   "theorems": [
    "C03_from_dict",
    "C03_no_raise"
   ],
   "note": "All schemas, contents and dictionaries."
  },
  {
   "property": "C04",
   "status": "proved",
   "theorems": [
    "C04_verify_iff",
    "C04_verify_errors"
   ],
   "note": "Exact acceptance condition and exact meaning of both errors."
  },
  {
   "property": "C05",
   "status": "proved",
   "theorems": [
    "C05_verify_declared_only",
    "C05_extra_and_order"
   ],
   "note": "Same outcome including the exception."
  },
  {
   "property": "C06",
   "status": "proved",
   "theorems": [
    "C06_json_roundtrip",
    "C06_dumps_injective"
   ],
   "note": "All JSON values; infinities, NaN and the negative zero are not among the floats."
  },
  {
   "property": "C07",
   "status": "proved",
   "theorems": [
    "C07_json_roundtrip"
   ],
   "note": "All schemas and messages whose values are faithful for JSON."
  },
  {
   "property": "C08",
   "status": "proved",
   "theorems": [
    "C08_urlencoded",
    "C08_roundtrip",
    "C08_nothing_survives"
   ],
   "note": "All messages; also the finding that a message with only blank values encodes to text that is rejected."
  },
  {
   "property": "C09",
   "status": "proved",
   "theorems": [
    "C09_alphabet",
    "C09_no_delimiter",
    "C09_roundtrip",
    "C09_injective"
   ],
   "note": "All unicode strings."
  },
  {
   "property": "C10",
   "status": "proved",
   "theorems": [
    "C10_parse_urlencode",
    "C10_parse_qsl"
   ],
   "note": "All finite sequences of pairs."
  },
  {
   "property": "C100",
   "status": "partial",
   "theorems": [
    "C100_repeated",
    "C100_undeclared",
    "C100_absent",
    "C100_list_first",
    "C100_errors",
    "C100_counterexample_list"
   ],
   "note": "Holds for single-valued and unknown parameters. Violated for list parameters with a deserialiser: only the first value is read, the others are dropped without notice."
  },
  {
   "property": "C101",
   "status": "partial",
   "theorems": [
    "C101_content",
    "C101_refused",
    "C101_counterexample_types"
   ],
   "note": "The content is exactly that. Violated for types: update neither converts nor checks."
  },
  {
   "property": "C102",
   "status": "partial",
   "theorems": [
    "C102_texts_partial",
    "C102_never",
    "C102_counterexample"
   ],
   "note": "Holds for texts and lists of strings. Violated for every number, boolean and other single value without deserialiser, which stays a text."
  },
  {
   "property": "C103",
   "status": "partial",
   "theorems": [
    "C103_partial",
    "C103_misread",
    "C103_counterexample",
    "C103_counterexample_field"
   ],
   "note": "Holds for messages read with claims_request_deser, and for those read with deserialize_from_one_of whose JSON text has no equals sign. Violated for the latter otherwise: the JSON text is itself read as a form."
  },
  {
   "property": "C104",
   "status": "partial",
   "theorems": [
    "C104_assign_partial",
    "C104_load_partial",
    "C104_text",
    "C104_counterexample_empty",
    "C104_counterexample_space"
   ],
   "note": "Holds for non-empty lists, in space-separated parameters except for one string with a space in it. Violated for the empty list (ignored, the old value stays) and for that one string (its pieces are stored)."
  },
  {
   "property": "C105",
   "status": "proved",
   "theorems": [
    "C105_defaults",
    "C105_order",
    "C105_idempotent",
    "C105_construct"
   ],
   "note": "The defaults of a class are a dictionary (distinct names). Aliasing of default values is C61."
  },
  {
   "property": "C106",
   "status": "partial",
   "theorems": [
    "C106_first_partial",
    "C106_get",
    "C106_absent",
    "C106_counterexample"
   ],
   "note": "Holds for the first read after the file appeared or changed. Violated for every later one: is_changed notes the time of the file before it is read, so the file is not read again and the old value, or KeyError, comes back."
  },
  {
   "property": "C107",
   "status": "partial",
   "theorems": [
    "C107_token_response_partial",
    "C107_authz_response_partial",
    "C107_end_session_partial",
    "C107_authz_request_plain_partial",
    "C107_authz_request_object_partial",
    "C107_back_channel_partial",
    "C107_base_failure",
    "C107_counterexample_base",
    "C107_counterexample_back_channel",
    "C107_counterexample_with_id_token",
    "C107_counterexample_replaced",
    "agrees_tokenResponse",
    "agrees_authzResponse",
    "agrees_withIdToken",
    "agrees_authzRequest",
    "agrees_endSession",
    "agrees_backChannel"
   ],
   "note": "Holds for the four classes that clear the slots once the base verification has passed (authorization request: C26 limits what a request object can put in). Violated when the base verification fails (slots are cleared after it), by back-channel logout and messages with an ID token (never cleared), and by authorization requests rejected after the request object replaced the message."
  },
  {
   "property": "C108",
   "status": "partial",
   "theorems": [
    "C108_partial",
    "C108_stored",
    "C108_claims",
    "C108_counterexample_inside",
    "C108_counterexample_userinfo",
    "C108_counterexample_array",
    "C108_counterexample_dropped"
   ],
   "note": "Proved as an equivalence for verified_claims at the top level, without blank entries. Violated elsewhere: requests inside userinfo or id_token are never looked at, an array of requests is a TypeError, and blank entries are dropped before they are judged."
  },
  {
   "property": "C109",
   "status": "partial",
   "theorems": [
    "C109_verify_needs",
    "C109_verify_complains",
    "C109_form_complains",
    "C109_form_refused",
    "C109_suffice",
    "C109_form_carries_partial",
    "C109_ready_made",
    "C109_counterexample_null"
   ],
   "note": "Holds, except that a form is written without a required parameter whose value is None or an empty list, and that to_urlencoded() also complains about messages in lists that are incomplete themselves (excluded in C109_form_complains, see C11)."
  },
  {
   "property": "C11",
   "status": "partial",
   "theorems": [
    "C11_refused",
    "C11_to_urlencoded_missing",
    "C11_request_missing",
    "C11_only_missing",
    "C11_other_exception",
    "C11_counterexample_listed"
   ],
   "note": "Nothing is ever written without a required parameter, and the exact condition for MissingRequiredAttribute is proved, for messages that are not lax (the library never sets lax). The exception is another one when the message cannot be formatted for the text of MissingRequiredAttribute (C11_other_exception). The error is also raised by a complete message with an incomplete one in a list, such as a JRD with a link without rel (C11_counterexample_listed); the exact condition is for messages without those, and C11_only_missing names all causes."
  },
  {
   "property": "C110",
   "status": "proved",
   "theorems": [
    "C110_equal",
    "C110_copy_unaffected",
    "C110_others_unaffected",
    "C110_counterexample_share"
   ],
   "note": "For copy(). Lists are shared by the other ways of making a message from one: assignment, update and Cls(**m.to_dict()) (C110_counterexample_share)."
  },
  {
   "property": "C111",
   "status": "partial",
   "theorems": [
    "C111_values",
    "C111_present",
    "C111_read",
    "C111_one_row_partial",
    "C111_agree_partial",
    "C111_delete_blocks",
    "C111_delete_open",
    "C111_counterexample"
   ],
   "note": "Values and presence hold for both kinds of database. One row per key and agreement hold with one writer at a time; with row locks two concurrent sets of a new key leave two rows, of which the older is read. delete never ends its transaction and so locks everybody else out."
  },
  {
   "property": "C112",
   "status": "partial",
   "theorems": [
    "C112_partial",
    "C112_nonce",
    "C112_exp",
    "C112_events",
    "C112_confusion",
    "C112_counterexample"
   ],
   "note": "Violated: a logout token that has an exp and a sub is accepted as an ID token, also when a nonce is expected (C112_confusion, C112_counterexample). What holds: a payload accepted in both roles has no nonce and has exp, sub, events and jti."
  },
  {
   "property": "C113",
   "status": "proved",
   "theorems": [
    "C113_one_client",
    "sole_audience"
   ],
   "note": "For non-empty client identifiers; the claims may have any shape."
  },
  {
   "property": "C114",
   "status": "partial",
   "theorems": [
    "C114_expired",
    "C114_earlier",
    "C114_before_issue",
    "C114_logout_later",
    "C114_no_gap"
   ],
   "note": "ID tokens are refused after expiry but accepted at every earlier time, also before they were issued. Logout tokens are refused before they were issued but accepted for ever after, whatever exp they name. JsonWebToken.verify accepts during one interval."
  },
  {
   "property": "C115",
   "status": "partial",
   "theorems": [
    "C115_partial",
    "C115_null"
   ],
   "note": "Violated: IdToken.verify drops the False of OpenIDSchema.verify, so every claim it does not look at may be null. Holds for the required claims, error_description and birthdate, for azp with a client id given and for nonce with a nonce expected."
  },
  {
   "property": "C116",
   "status": "proved",
   "theorems": [
    "C116_token",
    "C116_token_response",
    "C116_authz_response",
    "C116_message",
    "C116_end_session",
    "C116_needs_strict",
    "C116_not_signed"
   ],
   "note": "End-to-end composition of C19, C24 and C26. The guarantees of the signature library are the hypothesis `Trustworthy` (satisfied by `toy_trustworthy`): only texts are tokens, the expected algorithm does not change how a token is taken apart, a signed token is not an encrypted one, and what verifies under the keys found for a token was signed by the issuer it names. `C116_needs_strict` shows that the hypothesis on the arguments is needed. The audience may be a list, a text of words, or an object with the client as a name. `C116_not_signed`: encrypted ID tokens are always refused, because the text is taken for a signed token before it is decrypted."
  },
  {
   "property": "C117",
   "status": "partial",
   "theorems": [
    "C117_authz_response",
    "C117_counterexample_token_response"
   ],
   "note": "Proved for authorization responses. Token responses are verified without the hash check, so another access token is accepted beside the same ID token even if this carries `at_hash` (`C117_counterexample_token_response`)."
  },
  {
   "property": "C118",
   "status": "proved",
   "theorems": [
    "C118_given",
    "C118_own_name",
    "C118_keys_decide",
    "C118_jwks",
    "C118_httpc"
   ],
   "note": "The key library is a parameter; what is assumed of it is the structure `KeyLaws` (met by `countLib_laws`)."
  },
  {
   "property": "C119",
   "status": "partial",
   "theorems": [
    "C119_counterexample_keyjar",
    "C119_counterexample_boxes",
    "C119_sections_partial",
    "C119_memory",
    "C119_unselected"
   ],
   "note": "False: with a section `default` but none named `keyjar`, the key jar is stored where the context keeps its items (for every configuration of that form), and boxes without sections share that place too. Proved for file storages with sections of their own that name different directories, and in memory."
  },
  {
   "property": "C12",
   "status": "proved",
   "theorems": [
    "C12_request_query",
    "C12_request_fragment"
   ],
   "note": "All locations and messages."
  },
  {
   "property": "C120",
   "status": "proved",
   "theorems": [
    "C120_boxes",
    "C120_error"
   ],
   "note": ""
  },
  {
   "property": "C121",
   "status": "partial",
   "theorems": [
    "C121_token_response",
    "C121_authz_response",
    "C121_message",
    "C121_end_session",
    "C121_back_channel",
    "C121_registration",
    "C121_authz_request_partial",
    "C121_object",
    "C121_jwt_secured",
    "C121_pushed_partial"
   ],
   "note": "Proved for token responses, authorization responses, messages with an ID token, end-session and back-channel logout requests, registration requests, OIDC authorization requests without a request object, and pushed requests whose object names neither `request` nor the slot. False for all OIDC authorization requests with an object lacking `request` (`C121_object`: the second verification drops the verified object) and for all JWT-secured requests with an object lacking `request` and `request_uri` (`C121_jwt_secured`: refused the second time)."
  },
  {
   "property": "C122",
   "status": "proved",
   "theorems": [
    "C122_request",
    "C122_response",
    "C122_tokens",
    "C122_end_session",
    "C122_back_channel"
   ],
   "note": "For scopes without `offline_access` (which needs a consent prompt) and positive clock and lifetime (`exp` or `iat` 0 counts as missing). The end-session step supposes that looking up keys leaves the jar as it is."
  },
  {
   "property": "C123",
   "status": "proved",
   "theorems": [
    "C123_form",
    "C123_injective",
    "C123_ambiguous",
    "C123_words",
    "C123_claims",
    "C123_dict_for_words",
    "C123_misfit_for_messages",
    "C123_objects"
   ],
   "note": "For values whose `repr` is modelled: no messages inside containers, no infinities. Which characters above `~` are printable is an unspecified function."
  },
  {
   "property": "C124",
   "status": "proved",
   "theorems": [
    "C124_any_encoder",
    "C124_plain",
    "C124_ascii",
    "C124_pairs",
    "C124_message"
   ],
   "note": "For all encodings as described by the relation `Encodes`, at the level of texts, of pairs and of messages."
  },
  {
   "property": "C125",
   "status": "partial",
   "theorems": [
    "C125_insisted",
    "C125_written",
    "C125_no_more",
    "C125_insisted_too",
    "C125_remaining",
    "C125_covered",
    "C125_methods",
    "C125_counterexample",
    "C125_counterexample_pushed"
   ],
   "note": "Proved for 29 messages (68 parameters) from a table taken from the standards, and for the other 45 classes from a table of what they insist on. Violated: `username` and `password` of the password grant, `error` of error responses, `id_token` of token responses, `events` of security event tokens are not insisted on; pushed and JWT-secured requests are not checked at all."
  },
  {
   "property": "C126",
   "status": "partial",
   "theorems": [
    "C126_only",
    "C126_all",
    "C126_lists",
    "C126_counterexample_error",
    "C126_errors",
    "C126_counterexample_unchecked"
   ],
   "note": "Proved for 11 parameters and 2 list parameters. Violated: `account_selection_required` is refused as error code (the library has `session_selection_required`), and the grant type of code, password and token exchange requests and the types in registration responses are not checked."
  },
  {
   "property": "C127",
   "status": "partial",
   "theorems": [
    "C127_isolated",
    "C127_file",
    "C127_counterexample_del",
    "C127_counterexample_lock"
   ],
   "note": "Proved for every key that is not the name of a lock file, every converter and every history: the answers at the key are those of a variable (C127_isolated) and its file has the last value (C127_file). The history may include failing writes at other keys, listings that raise, keys that are names of lock files, and arbitrary changes by other processes to other files. The full claim fails: deletion does not convert its key, so that deleting `./a+b` removes the entry `a b` (C127_counterexample_del), and the entry `k.lock` is emptied by every write at `k` (C127_counterexample_lock)."
  },
  {
   "property": "C128",
   "status": "proved",
   "theorems": [
    "C128_nearest",
    "C128_roundtrip",
    "C128_shortest",
    "C128_closest",
    "C128_kind",
    "doubleDiv_roundUnits"
   ],
   "note": "Infinities (from overflow) and the negative zero are not modelled: where one of them would be the result, nothing is claimed. The written text has at most 17 significant digits, no text of the same float has fewer, and of those with as few it is the closest."
  },
  {
   "property": "C129",
   "status": "partial",
   "theorems": [
    "C129_number",
    "C129_truth",
    "C129_text",
    "C129_words",
    "C129_array",
    "C129_moment_object",
    "C129_loaded",
    "C129_covered",
    "C129_counterexample_scope",
    "C129_counterexample_text"
   ],
   "note": "Proved for all 74 classes from tables of names; what messages inside messages hold is not part of it. Violated: the scope of a device authorization request is a text instead of a list, sub_jwk and nationalities are texts, so the values the standards prescribe are refused."
  },
  {
   "property": "C13",
   "status": "proved",
   "theorems": [
    "C13_history"
   ],
   "note": "All histories of map operations, against an independent ordered-map semantics."
  },
  {
   "property": "C130",
   "status": "partial",
   "theorems": [
    "C130_parameters",
    "C130_stored",
    "C130_text",
    "C130_counterexample_json",
    "C130_form",
    "C130_again",
    "C130_form_same"
   ],
   "note": "Holds in forms while the offset of the local zone is the one at the instant (otherwise the instant is shifted by the difference). Violated in JSON at every message with a time stamp: what is read is the text, and writing it again raises ValueError. The instant 0 is written as the current time (C90)."
  },
  {
   "property": "C131",
   "status": "partial",
   "theorems": [
    "C131_response",
    "C131_oauth2_authz_response",
    "C131_id_token",
    "C131_user_info_partial",
    "C131_counterexample_user_info",
    "C131_token_response",
    "C131_authz_response_partial",
    "C131_counterexample_authz_response",
    "C131_message_with_id_token",
    "C131_authz_request",
    "C131_jwt_secured",
    "C131_pushed",
    "C131_registration_request",
    "C131_registration_response",
    "C131_provider_config",
    "C131_json_web_token",
    "C131_logout_token",
    "C131_back_channel",
    "C131_end_session",
    "C131_device_token_request_partial",
    "C131_verified_claims_request",
    "C131_verification_request"
   ],
   "note": "Proved for every class with a verify method of its own (the others: C05), except evidence, which is never accepted (C70). Violated: an authorization response with an aud that lacks the client is answered with False although aud is none of its parameters; a null under an unknown name makes the answer for user info False; device_code of the device flow is looked at but not declared."
  },
  {
   "property": "C132",
   "status": "partial",
   "theorems": [
    "C132_written",
    "C132_counterexample_evidence",
    "C132_counterexample_links"
   ],
   "note": "What is written is proved as stated. The list never comes back: a form with evidence cannot be read at all, and the text of the links is taken for the form of one link, whatever the lists are."
  },
  {
   "property": "C133",
   "status": "partial",
   "theorems": [
    "C133_plain",
    "C133_responses_partial",
    "C133_authz_response_partial",
    "C133_user_info_partial",
    "C133_id_token_partial",
    "C133_registration_request_partial",
    "C133_registration_response_partial",
    "C133_provider_config_partial",
    "C133_json_web_token_partial",
    "C133_authn_token_partial",
    "C133_logout_token_partial",
    "C133_device",
    "C133_from_dict",
    "C133_from_json_partial",
    "C133_counterexample_document",
    "C133_counterexample_null",
    "C133_counterexamples",
    "C133_token_response_partial",
    "C133_oidc_authz_response_partial",
    "C133_message_with_id_token_partial",
    "C133_counterexamples_tokens",
    "C133_from_form_partial",
    "C133_counterexample_form",
    "C133_from_form_all",
    "C133_end_session_partial",
    "C133_back_channel_partial",
    "C133_refresh_session_partial",
    "C133_counterexamples_logout",
    "C133_jwt_secured_partial",
    "C133_pushed_partial",
    "C133_oidc_authz_request_partial",
    "C133_counterexamples_requests"
   ],
   "note": "Reading data is proved for all classes; reading JSON too unless the document is not an object (AttributeError). Verification is proved as long as certain members are not null and nbf of authentication tokens is a number. Violated: a null error description, birth date, or time raises TypeError, a null login URI AttributeError, undeclared nbf or error_description of the wrong type TypeError, events given as text AttributeError. Messages with ID tokens, hints, logout tokens and request objects are proved for crypto libraries that raise only their own exceptions, when a key jar is given and what is inside the token is an object (without nulls for ID tokens); tokens, hints and request objects with something else inside raise AttributeError or TypeError, and so does an unsigned logout token when a signing algorithm is demanded (counterexamples). Reading forms is proved for the 52 classes without messages among their parameters; for the others the only unexpected exception is the AttributeError of claims=5."
  },
  {
   "property": "C134",
   "status": "proved",
   "theorems": [
    "C134_constructed_accepted",
    "C134_request_accepted"
   ],
   "note": "Values are JSON values or constructors; assigning a message object makes to_json raise TypeError, which is not part of the claim. Blank values are the exception of C108."
  },
  {
   "property": "C135",
   "status": "partial",
   "theorems": [
    "C135_form_partial",
    "C135_form_back_partial",
    "C135_json",
    "C135_json_fewer",
    "C135_counterexample_zero",
    "C135_counterexample_blank",
    "C135_base",
    "C135_response",
    "C135_user_info",
    "C135_registration_request",
    "C135_registration_response",
    "C135_device_token_request",
    "C135_oauth2_authz_response",
    "C135_id_token",
    "C135_json_web_token",
    "C135_logout_token",
    "C135_provider_config",
    "C135_token_response",
    "C135_authz_response",
    "C135_message_with_id_token",
    "C135_end_session",
    "C135_back_channel",
    "C135_authz_request",
    "C135_jwt_secured",
    "C135_pushed"
   ],
   "note": "JSON: the verdicts agree, exception included, when the defaults of the class have not been deleted. Forms: what the sender accepts the receiver accepts (required booleans hold booleans, parameters with allowed values texts or lists). Violated in the other direction: an integer 0 counts as missing for the sender and comes back as the text '0', which does not; a blank parameter is lost and the receiver has the default of the class in its place. Apart from these the converse is proved. The classes with a verify method of their own are treated for messages that come back as they were (C135_response to C135_pushed), with the arguments of the receiver."
  },
  {
   "property": "C136",
   "status": "partial",
   "theorems": [
    "C136_from_dict",
    "C136_from_form",
    "C136_to_dict",
    "C136_to_form",
    "C136_assign",
    "C136_counterexample_assign",
    "C136_verify",
    "C136_counterexample_weed"
   ],
   "note": "Proved for reading and writing. Violated by assignment (any value is stored under a tagged name, unchecked) and by weed and by_schema, which drop every tagged parameter; verify does not look at tagged parameters."
  },
  {
   "property": "C137",
   "status": "partial",
   "theorems": [
    "C137_from_dict_partial",
    "C137_from_json_partial",
    "C137_from_form_partial",
    "C137_counterexample"
   ],
   "note": "Holds when the input is no JSON object or no form, or when the first member is refused. Otherwise violated: what stands before the refused member has been stored, exactly as if only that had been given."
  },
  {
   "property": "C138",
   "status": "proved",
   "theorems": [
    "C138_form",
    "C138_request",
    "C138_target",
    "C138_no_fragment",
    "C138_json"
   ],
   "note": "For every class, content, location and serializer environment in which writing succeeds.  The address theorem names the delimiter in each case; C138_target says that up to the first ? or # the address is what the caller gave."
  },
  {
   "property": "C139",
   "status": "proved",
   "theorems": [
    "C139_authz_response",
    "C139_id_token",
    "C139_json_web_token",
    "C139_logout_token",
    "C139_provider_config",
    "C139_verify_id_token",
    "C139_token_response",
    "C139_oidc_authz_response",
    "C139_message_with_id_token",
    "C139_end_session",
    "C139_back_channel",
    "C139_jwt_secured",
    "C139_pushed",
    "C139_oidc_authz_request",
    "C139_authz_response_matters",
    "C139_id_token_matters",
    "C139_json_web_token_matters",
    "C139_logout_token_matters",
    "C139_provider_config_matters",
    "C139_token_response_matters",
    "C139_oidc_authz_response_matters",
    "C139_message_with_id_token_matters",
    "C139_end_session_matters",
    "C139_back_channel_matters",
    "C139_jwt_secured_matters",
    "C139_oidc_authz_request_matters"
   ],
   "note": "For every method that takes arguments: equal outcomes (results, states and exceptions) when the listed arguments agree, for every implementation of the token library.  The _matters theorems show that no list is too long; for arguments that only the key jar reads, with a key jar that reads them.  A misspelled argument is ignored silently: verify(clientid=..) checks no audience."
  },
  {
   "property": "C14",
   "status": "proved",
   "theorems": [
    "C14_weed",
    "C14_extra",
    "C14_partition",
    "C14_weed_idempotent",
    "C14_only_extras",
    "C14_by_schema",
    "C14_add_non_standard"
   ],
   "note": "All schemas and messages."
  },
  {
   "property": "C140",
   "status": "partial",
   "theorems": [
    "C140_id_token",
    "C140_json_web_token",
    "C140_logout_token",
    "C140_verify_id_token",
    "C140_token_response",
    "C140_authz_response",
    "C140_message",
    "C140_end_session",
    "C140_back_channel",
    "C140_allow_http",
    "C140_counterexamples"
   ],
   "note": "Proved for skew=0, nonce_storage_time=14400, allow_sign_alg_none=False, verify=True, and allowed_sign_alg=None of logout tokens, for key jars that do not look at the argument.  Violated: allow_http=False permits http issuers (the value is never looked at, C140_allow_http), allowed_sign_alg=None makes every signed ID token unacceptable, skew=None is a TypeError, client_id=None refuses every audience, and verify=None turns the signature check off."
  },
  {
   "property": "C141",
   "status": "proved",
   "theorems": [
    "C141_one_line",
    "C141_literal"
   ],
   "note": "For every class and content for which str succeeds.  What counts as printable above ASCII is the table of the Unicode database, about which nothing is assumed.  A message inside a list or dict of a schemaless parameter is not modelled (its repr contains an address)."
  },
  {
   "property": "C142",
   "status": "partial",
   "theorems": [
    "C142_oidc_request_partial",
    "C142_named",
    "C142_counterexamples"
   ],
   "note": "Proved for oidc.AuthorizationRequest, for key jars that look their arguments up by name.  Violated by JWTSecuredAuthorizationRequest and PushedAuthorizationRequest, which do not hand the client_id on."
  },
  {
   "property": "C143",
   "status": "partial",
   "theorems": [
    "C143_partial",
    "C143_stays",
    "C143_counterexample_deleted",
    "C143_counterexample_written",
    "C143_after_reading"
   ],
   "note": "Holds for one instance on a directory of its own, for every history.  Violated when others use the directory: in and store() answer from the cache, so a key that someone else deleted stays present although reading it raises KeyError, and one that someone else wrote is absent although reading it succeeds.  Having read a key makes it present."
  },
  {
   "property": "C144",
   "status": "partial",
   "theorems": [
    "C144_labelled",
    "C144_counterexample_sql",
    "C144_sql_kept",
    "C93_file"
   ],
   "note": "Proved for the file store (C93_file) and for labelled files.  Violated by the SQL store: it has no __getitem__, so context.get raises TypeError for every item although the value is in the table (C144_sql_kept, for texts)."
  },
  {
   "property": "C145",
   "status": "proved",
   "theorems": [
    "C145_grammar",
    "C145_refused",
    "C145_refused_plain",
    "C145_from_json",
    "C145_from_json_plain",
    "C145_alike"
   ],
   "note": "Both directions, against a grammar stated apart from the reader.  C145_refused_plain: texts without these are always decided, and refused with exactly a JSONDecodeError.  Outside the model: NaN and infinities (which CPython accepts), floats that overflow, the negative zero, lone surrogates, the limits on nesting and on digits."
  },
  {
   "property": "C146",
   "status": "proved",
   "theorems": [
    "C146_indent",
    "C146_message",
    "C146_refused",
    "C146_counterexample"
   ],
   "note": "For numbers, booleans, None and strings of blanks; the counterexample shows that the restriction on strings is needed."
  },
  {
   "property": "C147",
   "status": "partial",
   "theorems": [
    "C147_call",
    "C147_text",
    "C147_counterexample_iter"
   ],
   "note": "Proved for store() and str(store).  Violated by iteration: __iter__ returns a Query, which is no iterator, so that a for loop over the store raises TypeError."
  },
  {
   "property": "C148",
   "status": "partial",
   "theorems": [
    "C148_agreement",
    "C148_own_nonce",
    "C148_no_replay",
    "C148_counterexample_replay"
   ],
   "note": "By induction over runs, with C116 at each acceptance.  C148_agreement holds for all runs (the nonce of the payload, if it is there, is that of the session).  C148_own_nonce and C148_no_replay need that issuers put a nonce into what they sign: the code accepts a token without nonce although one is expected, and C148_counterexample_replay is a run in which one signed token is accepted by two sessions."
  },
  {
   "property": "C149",
   "status": "proved",
   "theorems": [
    "C149_bytes",
    "C149_message",
    "C149_unambiguous",
    "C149_refused"
   ],
   "note": "On top of C145: the guess of the encoding is right because a document begins with an ASCII character and contains no NUL.  Bytes that decode to lone surrogates are outside the model, as in C145."
  },
  {
   "property": "C15",
   "status": "proved",
   "theorems": [
    "C15_rm_blanks",
    "C15_idempotent"
   ],
   "note": "All messages."
  },
  {
   "property": "C150",
   "status": "partial",
   "theorems": [
    "C150_request",
    "C150_run",
    "C150_no_logout",
    "C150_counterexample_replay"
   ],
   "note": "All but the last sentence is proved (composition of C19, C30, C31 and C112 under the guarantees of C116, along runs as in C148).  The last one is violated: neither the identifier nor the age of a logout token is looked at, so one token is accepted any number of times (C150_counterexample_replay)."
  },
  {
   "property": "C151",
   "status": "proved",
   "theorems": [
    "C151_from_dict",
    "C151_from_json",
    "C151_from_form",
    "C151_verify",
    "C151_exception_depends"
   ],
   "note": "By induction on the permutation: what becomes of an item does not depend on the message read so far (addItem_stored, addUrl_stored), and values stored under different names commute.  The order inside of values that are objects is kept as it arrives.  Verification by C131, whose hypotheses are met by messages with the same content."
  },
  {
   "property": "C152",
   "status": "partial",
   "theorems": [
    "C152_from_jwt",
    "C152_own_keys",
    "C152_jwt_secured",
    "C152_pushed",
    "C152_authz_request",
    "C152_back_channel",
    "C152_counterexample_id_token",
    "C152_counterexample_unencrypted"
   ],
   "note": "Proved for from_jwt, request objects and logout tokens.  Violated in two places.  ID tokens: verify_id_token calls jws_factory on the text before from_jwt decrypts it, so encrypted ID tokens are refused (C152_counterexample_id_token; C116_not_signed for every library).  Agreed encryption: encalg and encenc only reach jwe_factory, and a text which that does not take for an encrypted one is accepted without encryption (C152_counterexample_unencrypted)."
  },
  {
   "property": "C153",
   "status": "partial",
   "theorems": [
    "C153_json",
    "C153_classes",
    "C153_form",
    "C153_sent",
    "C153_counterexample_token",
    "C153_counterexample_authz",
    "C153_counterexample_denied"
   ],
   "note": "Proved: the characterisations for documents (the seventeen responses that declare error) and forms (all classes), and the agreement of sender and receiver. A member error that is null counts as an error. Violated: verify() never looks at error (oauth2/__init__.py:44-51, oidc/__init__.py:341-387), so that adding any error to a response changes nothing about its verdict or about what is stored otherwise; the response {error: access_denied} is accepted as an AuthorizationResponse whatever the arguments. A caller has to ask is_error_message first."
  },
  {
   "property": "C154",
   "status": "partial",
   "theorems": [
    "C154_oauth2_authz_response",
    "C154_id_token",
    "C154_json_web_token_partial",
    "C154_logout_token",
    "C154_provider_config",
    "C154_verify_id_token",
    "C154_token_response",
    "C154_message_with_id_token",
    "C154_authz_response",
    "C154_end_session",
    "C154_back_channel",
    "C154_counterexample_nbf"
   ],
   "note": "Proved for all verify methods with such arguments; of an AuthorizationResponse for the result True.  The one violation is that of C29: JsonWebToken.verify subtracts the skew for nbf, so that a larger skew refuses more; without nbf, or with the same skew, it holds."
  },
  {
   "property": "C155",
   "status": "partial",
   "theorems": [
    "C155_base",
    "C155_response",
    "C155_oauth2_authz_response",
    "C155_user_info",
    "C155_id_token",
    "C155_json_web_token",
    "C155_logout_token",
    "C155_registration_response",
    "C155_registration_request",
    "C155_device_token_request",
    "C155_token_response",
    "C155_authz_response",
    "C155_counterexample_class",
    "C155_counterexample_form"
   ],
   "note": "Proved for two messages of the same class (eqMsg_of_eq gives the hypothesis from m == n), for plain messages, responses, user info, ID tokens, JSON Web Tokens, logout tokens, registrations, the device flow, and token and authorization responses whose tokens are texts.  Violated: == compares only the name of the class, so that an OAuth2 request that is accepted equals an OpenID Connect request that is refused; and True and 1 are equal but written differently in forms."
  },
  {
   "property": "C156",
   "status": "proved",
   "theorems": [
    "C156_base",
    "C156_response",
    "C156_oauth2_authz_response",
    "C156_user_info",
    "C156_id_token",
    "C156_json_web_token",
    "C156_logout_token",
    "C156_registration_request",
    "C156_registration_response",
    "C156_provider_config",
    "C156_device_token_request",
    "C156_token_response",
    "C156_with_id_token",
    "C156_authz_response",
    "C156_end_session",
    "C156_back_channel",
    "C156_authz_request",
    "C156_algorithm_matters",
    "C156_conditional_matters",
    "C156_subject_matters",
    "C156_request_matters",
    "C156_jwt_secured",
    "C156_pushed",
    "C156_client_unasked"
   ],
   "note": "One theorem per verify method.  For the three methods that answer with a truth value, the answer True is kept (a response meant for somebody else is answered False before its ID token is looked at).  The ID token itself, and the nonce inside it, are among what can be left out unnoticed.  Secured and pushed requests do not look at what their classes require: there even required parameters can go."
  },
  {
   "property": "C157",
   "status": "partial",
   "theorems": [
    "C157_base",
    "C157_response",
    "C157_token_response",
    "C157_registration_response",
    "C157_provider_config",
    "C157_authz_request",
    "C157_device",
    "C157_authn_token",
    "C157_with_id_token",
    "C157_refresh_session",
    "C157_identity_assurance",
    "C157_claims_request",
    "C157_id_token_partial",
    "C157_counterexample_id_token",
    "C157_authz_response_partial",
    "C157_authz_response_token_partial",
    "C157_counterexample_authz_response",
    "C157_counterexample_requests"
   ],
   "note": "Proved for 31 pairs of classes.  Violated: an OIDC AuthorizationResponse needs neither the code nor the access token its two base classes require (it is accepted by them if it has them); secured and pushed requests check nothing; an ID token with a null claim is accepted although OpenIDSchema answers False.  Pieces of evidence are never accepted (C70)."
  },
  {
   "property": "C158",
   "status": "partial",
   "theorems": [
    "C158_confirmed_partial",
    "C158_echo_partial",
    "C158_secret",
    "C158_counterexample"
   ],
   "note": "Proved for requests without the undeclared extensions error_description and registration_client_uri/registration_access_token (or with both of the latter).  Violated with these: the response class has conditions on them that the request class does not have."
  },
  {
   "property": "C159",
   "status": "partial",
   "theorems": [
    "C159_json_partial",
    "C159_form",
    "C159_space_separated",
    "C159_counterexample_scope"
   ],
   "note": "JSON: proved for the listed kinds of parameters at any depth (the relation Tidy); forms: proved. Violated for space separated parameters given as a JSON list of several texts: such a list is kept as it is, and passed on unchanged exactly when none of its texts has a space (C159_space_separated); a token response with the scope [\"openid admin\", \"email\"] is read with two scopes and passed on with three (C159_counterexample_scope). Messages that were read but cannot be written at all are the violations of C91."
  },
  {
   "property": "C16",
   "status": "proved",
   "theorems": [
    "C16_refl",
    "C16_symm",
    "C16_trans",
    "C16_iff",
    "C16_order_insensitive",
    "C16_class_name_only"
   ],
   "note": "All messages with distinct keys at every depth."
  },
  {
   "property": "C160",
   "status": "partial",
   "theorems": [
    "C160_partial",
    "C160_objects_as_text",
    "C160_counterexample_events"
   ],
   "note": "Proved for all 74 classes and all declared parameters but three, from the tables of C129.  Violated: events, place_of_birth and registration are objects, and are written as a string that holds the JSON text of the object, in every class that declares them (C160_objects_as_text); so the logout tokens the library makes have a string for events where the standard wants an object (C160_counterexample_events)."
  },
  {
   "property": "C161",
   "status": "partial",
   "theorems": [
    "C161_registration_partial",
    "C161_counterexample_registration",
    "C161_token_response_partial",
    "C161_authz_response_partial",
    "C161_message_partial",
    "C161_end_session_partial",
    "C161_back_channel_partial",
    "C161_authz_request_partial",
    "C161_token_response_again",
    "C161_authz_response_again",
    "C161_end_session_again",
    "C161_counterexample_again"
   ],
   "note": "Proved for token responses, authorization responses, messages with an ID token, logout messages and plain authorization requests, with one exception each: a verified token that cannot be written to the log stays in its slot, and an ID token hint that was read is kept.  Violated: a registration request that is refused may have got encryption methods (nothing else; refused again with the same exception); an authorization request with a request object is replaced by the content of the object before that is checked, and if the object carries a further object the second verify() accepts what the first refused (C161_counterexample_again)."
  },
  {
   "property": "C162",
   "status": "partial",
   "theorems": [
    "C162_id_token",
    "C162_verify_id_token",
    "C162_token_response",
    "C162_message",
    "C162_authz_response",
    "C162_end_session",
    "C162_json_web_token",
    "C162_logout_token_partial",
    "C162_back_channel_partial",
    "C162_counterexample_logout"
   ],
   "note": "Proved for ID tokens, the messages that carry them and JsonWebToken.verify.  Violated for logout tokens: one that is too early is refused with the ValueError of tokens that are wrong for ever (C162_counterexample_logout); that nothing else depends on the clock is proved (at an earlier moment the outcome is the same, or ValueError)."
  },
  {
   "property": "C163",
   "status": "partial",
   "theorems": [
    "C163_later",
    "C163_longer_partial",
    "C163_start_partial",
    "C163_same_month_partial",
    "C163_counterexample_longer",
    "C163_counterexample_start"
   ],
   "note": "Never earlier, by at least a day, for all times and durations. Violated beyond 60 hours (PT60H ends before PT59H, as hours are reduced modulo 60 and carried into days) and for months (31 January plus one month is later than 1 February plus one month); proved below 60 hours for longer durations, for starts in the same month, and for durations of up to 28 days."
  },
  {
   "property": "C164",
   "status": "partial",
   "theorems": [
    "C164_alike_partial",
    "C164_classes",
    "C164_authz_request_partial",
    "C164_counterexample_number",
    "C164_counterexample_one_of"
   ],
   "note": "Proved for unknown parameters, texts, tokens, lists of texts, JSON objects and claims requests, so for 45 classes without restriction, and for OpenID Connect authorization requests apart from max_age. Violated for numbers and booleans (a form keeps the text, unchecked) and for messages given in one of several formats, where a JSON text with an equals sign is taken for a form."
  },
  {
   "property": "C165",
   "status": "partial",
   "theorems": [
    "C165_pop_present",
    "C165_pop_absent",
    "C165_popitem",
    "C165_popitem_empty",
    "C165_popitems",
    "C165_clear",
    "C165_setdefault_present",
    "C165_setdefault_absent",
    "C165_setdefault_returned_partial",
    "C165_counterexample_converted",
    "C165_counterexample_not_stored"
   ],
   "note": "All but the value setdefault returns: it is the given one, not the stored one, which differs when the value is converted or dropped on assignment (witnesses proved); equal for undeclared parameters and values of the declared kind."
  },
  {
   "property": "C166",
   "status": "partial",
   "theorems": [
    "C166_takes",
    "C166_refused",
    "C166_not_read",
    "C166_object_read_partial",
    "C166_message_partial",
    "C166_message_texts",
    "C166_listed_partial",
    "C166_counterexample_text",
    "C166_counterexample_object"
   ],
   "note": "False: only null is taken, every other value is refused (proved for all values), because the declared type is the function any. What any_ser writes for a value that is no list is refused by any_deser, except for messages written as dicts; lists of objects of texts are read back."
  },
  {
   "property": "C167",
   "status": "proved",
   "theorems": [
    "C167_not_lax",
    "C167_complete",
    "C167_same_text",
    "C167_not_missing",
    "C167_roundtrip",
    "C167_receiver"
   ],
   "note": "The messages inside a message have a lax attribute of their own, taken as not set. Reading back is for values that survive a form (C08)."
  },
  {
   "property": "C168",
   "status": "proved",
   "theorems": [
    "C168_time",
    "C168_date",
    "C168_seconds",
    "C168_sign"
   ],
   "note": "Both directions, against a grammar stated without the parser: every text read is of the grammar and stands for the value, and every text of the grammar is read."
  },
  {
   "property": "C169",
   "status": "proved",
   "theorems": [
    "C169_memory",
    "C169_files",
    "C169_counterexample_default"
   ],
   "note": "Composition of C89, C47, C49 and C93. Outside of the statement: a file storage without a configured converter takes no message at all, it raises TypeError and leaves the file empty (C169_counterexample_default)."
  },
  {
   "property": "C17",
   "status": "proved",
   "theorems": [
    "C17_split_join_iff",
    "C17_join_split",
    "C17_serializer_iff"
   ],
   "note": "All lists and strings."
  },
  {
   "property": "C170",
   "status": "partial",
   "theorems": [
    "C170_id_token",
    "C170_named",
    "C170_access_token_response",
    "C170_authz_response",
    "C170_message_with_id_token",
    "C170_algorithm",
    "C170_algorithm_responses",
    "C170_json_web_token",
    "C170_logout_token",
    "C170_counterexample_not_yet",
    "C170_counterexample_issuer"
   ],
   "note": "For ID tokens every exception but TypeError and NotAllowedValue is traced to its reason, in both directions, with what was found right before. For responses that carry one: the six exceptions for ID tokens (also the two for hashes) come from nothing else than the token in the response, for every crypto library that does not raise them itself. A forbidden algorithm is UnsupportedAlgorithm before anything else (the converse is not claimed: it is the crypto library's own exception class). Violated for JSON Web Tokens (EXPError for a token that is not valid yet) and across classes (a wrong issuer is IssuerMismatch, ValueError or NotForMe); both witnesses proved, the exact meanings for these classes too."
  },
  {
   "property": "C171",
   "status": "partial",
   "theorems": [
    "C171_declared",
    "C171_list_refused",
    "C171_empty_ignored",
    "C171_evidence",
    "C171_form",
    "C171_counterexample_single"
   ],
   "note": "Violated: null_allowed is not looked at for parameters that are not lists, so null is kept under each of them (proved for every class and parameter). For parameters that are lists, for empty lists, and for forms, it holds as stated."
  },
  {
   "property": "C172",
   "status": "proved",
   "theorems": [
    "C172_token_response",
    "C172_authz_response",
    "C172_message_with_id_token",
    "C172_end_session",
    "C172_back_channel",
    "C172_request_objects",
    "C172_authz_request"
   ],
   "note": "Equivalences without hypotheses, for every crypto library. What opening a token, verifying an opened ID token and an opened logout token accept is characterised by C173, C24 and C30."
  },
  {
   "property": "C173",
   "status": "proved",
   "theorems": [
    "C173_from_jwt",
    "C173_rotated_keys",
    "C173_switched_off"
   ],
   "note": "C173_from_jwt is an equivalence without hypotheses. It shows one more way to be accepted that needs a strange key jar: one that gives keys and is empty (false) afterwards is not asked again when the keys do not suit, and the token is taken without a verified signature; C19 and C173_rotated_keys exclude such jars by hypothesis (JarStable)."
  },
  {
   "property": "C174",
   "status": "proved",
   "theorems": [
    "C174_from_dict",
    "C174_readable",
    "C174_item",
    "C174_from_json",
    "C174_assign",
    "C174_form",
    "C174_form_content",
    "C174_classes"
   ],
   "note": "Equivalences. What the readers make of other values (JSON objects, messages, time stamps) is not repeated here. That a dict is taken for a list of words, and null for a single value, is what the code does; C02 and C171 say why it should not."
  },
  {
   "property": "C175",
   "status": "proved",
   "theorems": [
    "C175_exact",
    "C175_refused"
   ],
   "note": "All texts, and whatever float() gives. int() of a text is the model's pyIntOfChars."
  },
  {
   "property": "C176",
   "status": "proved",
   "theorems": [
    "C176_to_dict",
    "C176_to_json",
    "C176_json_data",
    "C176_writer"
   ],
   "note": "Equivalences without hypotheses, for every assignment of serializers to names. Findings inside: a dict or a message in the place of a list of words or of messages is written as its names, of a list of claims requests only the first is written, and a message after another value in a list is left in the dict as it is."
  },
  {
   "property": "C177",
   "status": "proved",
   "theorems": [
    "C177_form",
    "C177_level",
    "C177_lax",
    "C177_own",
    "C177_entry",
    "C177_message"
   ],
   "note": "Equivalences; the hypothesis is that messages are values of parameters or items of lists (the Python text of a dict or inner list with messages in it is not modelled). The form of an item that is a message is the one to_urlencoded gives for it by itself. Which values have a Python text is decided by pyStr: all but infinities."
  },
  {
   "property": "C18",
   "status": "proved",
   "theorems": [
    "C18_strict",
    "C18_lax",
    "C18_whitelist",
    "C18_fallthrough"
   ],
   "note": "All requests and request objects."
  },
  {
   "property": "C19",
   "status": "proved",
   "theorems": [
    "C19_signature",
    "C19_nonempty_keys",
    "C19_no_keys"
   ],
   "note": "For every crypto library whose key jar stays truthy after giving keys; C75 and C76 state the two paths without a signature."
  },
  {
   "property": "C20",
   "status": "proved",
   "theorems": [
    "C20_unsigned",
    "C20_error",
    "C20_none_permits"
   ],
   "note": "Also the finding that allow_sign_alg_none=None permits unsigned tokens."
  },
  {
   "property": "C21",
   "status": "proved",
   "theorems": [
    "C21_allowed_alg"
   ],
   "note": "All crypto libraries, messages and arguments."
  },
  {
   "property": "C22",
   "status": "proved",
   "theorems": [
    "C22_known_issuer"
   ],
   "note": "All crypto libraries, messages and arguments."
  },
  {
   "property": "C23",
   "status": "proved",
   "theorems": [
    "C23_hashes"
   ],
   "note": "All crypto libraries and responses."
  },
  {
   "property": "C24",
   "status": "proved",
   "theorems": [
    "C24_iff",
    "C24_typed"
   ],
   "note": "Exact acceptance condition of IdToken.verify."
  },
  {
   "property": "C25",
   "status": "proved",
   "theorems": [
    "C25_nonce",
    "C25_mismatch",
    "C25_no_nonce"
   ],
   "note": "All tokens and arguments."
  },
  {
   "property": "C26",
   "status": "partial",
   "theorems": [
    "C26_token_response",
    "C26_authz_response",
    "C26_authz_response_false",
    "C26_end_session",
    "C26_authz_request_plain_partial",
    "C26_authz_request_object_partial",
    "C26_counterexample_request_object",
    "C26_counterexample_hint_name"
   ],
   "note": "Holds for token, authorization and end-session messages. False for the OIDC authorization request: two witnesses are proved, and the partial theorems give the conditions under which it holds."
  },
  {
   "property": "C27",
   "status": "proved",
   "theorems": [
    "C27_conditions",
    "C27_lists",
    "C27_exact"
   ],
   "note": "All requests; for requests without request object and hint whose lists hold texts the conditions are also sufficient (C27_exact)."
  },
  {
   "property": "C28",
   "status": "proved",
   "theorems": [
    "C28_request_object"
   ],
   "note": "All requests, crypto libraries and key jars."
  },
  {
   "property": "C29",
   "status": "partial",
   "theorems": [
    "C29_iff",
    "C29_widens_partial",
    "C29_nbf_counterexample"
   ],
   "note": "Exact acceptance condition. Skew only widens acceptance for exp and iat; for nbf it narrows (witness proved)."
  },
  {
   "property": "C30",
   "status": "proved",
   "theorems": [
    "C30_iff"
   ],
   "note": "Exact acceptance condition of LogoutToken.verify."
  },
  {
   "property": "C31",
   "status": "proved",
   "theorems": [
    "C31_backchannel"
   ],
   "note": "All requests, arguments and crypto libraries."
  },
  {
   "property": "C32",
   "status": "proved",
   "theorems": [
    "C32_redirect",
    "C32_same_token",
    "C32_without_hint"
   ],
   "note": "All requests, arguments and crypto libraries."
  },
  {
   "property": "C33",
   "status": "proved",
   "theorems": [
    "C33_registration",
    "C33_enc_without_alg",
    "C33_exact"
   ],
   "note": "All requests; the state after verification is given exactly."
  },
  {
   "property": "C34",
   "status": "proved",
   "theorems": [
    "C34_iff"
   ],
   "note": "Exact acceptance condition."
  },
  {
   "property": "C35",
   "status": "proved",
   "theorems": [
    "C35_conditions",
    "C35_accepts",
    "C35_hosts",
    "C35_exact"
   ],
   "note": "All configurations; for a text issuer and lists of texts the conditions are also sufficient (C35_exact), in particular configurations of the documented form are accepted (C35_accepts). The issuer conditions are on the text after urlsplit's cleaning; a bare trailing '?' or '#' is not noticed."
  },
  {
   "property": "C36",
   "status": "partial",
   "theorems": [
    "C36_iff",
    "C36_string",
    "C36_methods",
    "C36_rfc6749_refused",
    "C36_refused_items",
    "C36_refused_number",
    "C36_counterexample"
   ],
   "note": "Exact acceptance condition; the methods of all response classes inherit it. Only ASCII letters, blank and '!' are accepted; the digits and the other punctuation of RFC 6749 are refused. How descriptions that are not texts are refused is proved too."
  },
  {
   "property": "C37",
   "status": "partial",
   "theorems": [
    "C37_exact",
    "C37_true_partial",
    "C37_dates_accepted",
    "C37_counterexample",
    "C37_counterexample_script"
   ],
   "note": "Exact set of accepted strings; it contains texts outside the three forms, also digits of other scripts (witnesses proved)."
  },
  {
   "property": "C38",
   "status": "proved",
   "theorems": [
    "C38_iff",
    "C38_order",
    "C38_not_null",
    "C38_untyped"
   ],
   "note": "All values and claim requests whose 'values' is a list; for other types the findings are proved."
  },
  {
   "property": "C39",
   "status": "partial",
   "theorems": [
    "C39_iff",
    "C39_partial",
    "C39_counterexample",
    "C39_typeError"
   ],
   "note": "Exact acceptance condition proved for all values. The claim holds for requests of the documented form; essential 0/1, empty values and purposes and lists as purposes are let through."
  },
  {
   "property": "C40",
   "status": "proved",
   "theorems": [
    "C40_parse",
    "C40_numbers",
    "C40_trailing",
    "C40_minutes_refused"
   ],
   "note": "All numbers, leading zeros, both signs. Findings: text after the seconds is ignored; PT5M is refused (C79)."
  },
  {
   "property": "C41",
   "status": "partial",
   "theorems": [
    "C41_exact",
    "C41_partial",
    "C41_counterexample",
    "C41_more_counterexamples"
   ],
   "note": "The exact result is proved for all times and durations; it is the sum only for one day up to a month and less than 60 hours. Durations without days always add one day."
  },
  {
   "property": "C42",
   "status": "partial",
   "theorems": [
    "C42_iff",
    "C42_partial",
    "C42_counterexample",
    "C42_negative"
   ],
   "note": "Exact condition. Terminates unless a time component is negative, which a blank before the sign lets through."
  },
  {
   "property": "C43",
   "status": "proved",
   "theorems": [
    "C43_order",
    "C43_zero",
    "C43_text",
    "C43_later_absent"
   ],
   "note": "All integers and clock values, and texts of instants."
  },
  {
   "property": "C44",
   "status": "proved",
   "theorems": [
    "C44_roundtrip",
    "C44_fraction",
    "C44_refused",
    "C44_read_exact",
    "C44_exact"
   ],
   "note": "Round trip for all instants with years 1000 to 9999. C44_exact gives every outcome of str_to_time for every text, against a grammar of its own: which texts are read, as which second, and which exception the others get."
  },
  {
   "property": "C45",
   "status": "partial",
   "theorems": [
    "C45_linear",
    "C45_total",
    "C45_epoch_partial",
    "C45_epoch_counterexample",
    "C45_cancel",
    "C45_zero",
    "C45_now_partial"
   ],
   "note": "Exact for all integers, except that the conversion to epoch seconds rounds in floating point from the year 2514 on (witness proved)."
  },
  {
   "property": "C46",
   "status": "proved",
   "theorems": [
    "C46_single_component",
    "C46_lock_file",
    "C46_delete_escapes",
    "C46_touches",
    "C46_refines"
   ],
   "note": "All keys, for reading and writing. C46_delete_escapes: deletion does not convert the key and does leave the directory. In a model of the whole file system writing touches only the file of the converted key in the storage directory, its lock file and missing directories on the way (C46_touches); the model of the directory alone agrees with it (C46_refines)."
  },
  {
   "property": "C47",
   "status": "partial",
   "theorems": [
    "C47_map",
    "C47_fresh",
    "C51_counterexample"
   ],
   "note": "All histories with serialisable values (refinement to a dictionary, order included). Missing: a write refused because the value cannot be serialised empties the file, so it is not a no-op (C51_counterexample)."
  },
  {
   "property": "C48",
   "status": "partial",
   "theorems": [
    "C48_partial",
    "C48_counterexample",
    "C48_wrong_key"
   ],
   "note": "Holds for keys that are their own file name. Deletion does not convert the key: other keys are not deleted, or the wrong one is."
  },
  {
   "property": "C49",
   "status": "partial",
   "theorems": [
    "C49_reopen",
    "C49_history",
    "C49_json",
    "C49_passThru",
    "C49_text_iff",
    "C49_counterexample"
   ],
   "note": "All histories, for values that survive their text. With the JSON converter that is all JSON data; with PassThru, texts with blank ends or carriage returns change."
  },
  {
   "property": "C50",
   "status": "partial",
   "theorems": [
    "C50_sees",
    "C50_newer",
    "C50_origin",
    "C50_written",
    "C50_counterexample",
    "C50_stale",
    "C50_deleted_counterexample"
   ],
   "note": "All interleavings of complete operations of any number of instances. Values nobody wrote can be read only after a write that failed to serialise. Equal modification times leave a stale value."
  },
  {
   "property": "C51",
   "status": "partial",
   "theorems": [
    "C51_failed_write_partial",
    "C51_refused_partial",
    "C51_counterexample",
    "C51_crash_counterexample",
    "C51_crash_early_partial",
    "C51_crash_json"
   ],
   "note": "Violated: the file is emptied before the value is serialised. Writes refused because of the key change nothing."
  },
  {
   "property": "C52",
   "status": "proved",
   "theorems": [
    "C52_complete",
    "C52_change",
    "C52_prefix",
    "C52_crash_counterexample",
    "C52_none_counterexample"
   ],
   "note": "All interleavings of the individual steps of any number of readers, writers and deleters without deaths; with deaths a read can return the beginning of a text. A read that meets a deletion returns None without taking the lock."
  },
  {
   "property": "C53",
   "status": "proved",
   "theorems": [
    "C53_own",
    "C53_value"
   ],
   "note": "All interleavings, with versions in the order in which files are opened for writing."
  },
  {
   "property": "C54",
   "status": "partial",
   "theorems": [
    "C54_partial",
    "C54_counterexample"
   ],
   "note": "Holds for keys that do not end in .lock; k and k.lock interfere, and keys ending in .lock are hidden."
  },
  {
   "property": "C55",
   "status": "partial",
   "theorems": [
    "C55_len",
    "C55_unserialisable"
   ],
   "note": "All histories with serialisable values; a write that fails to serialise leaves a file that is counted but not listed."
  },
  {
   "property": "C56",
   "status": "partial",
   "theorems": [
    "C56_partial",
    "C56_empty_partial",
    "C56_history_partial",
    "C56_counterexample",
    "C56_reserved_counterexample",
    "C56_wears_out"
   ],
   "note": "Holds as long as no file name exceeds 250 bytes. Lock files stay behind and grow by five bytes each time, so at the 52nd clear at the latest it raises."
  },
  {
   "property": "C57",
   "status": "proved",
   "theorems": [
    "C57_map",
    "C57_last_set",
    "C57_never",
    "C57_atomic",
    "C57_durable",
    "delete_count"
   ],
   "note": "All histories of complete operations and of operations cut off by a crash after any statement; one process, one session."
  },
  {
   "property": "C58",
   "status": "partial",
   "theorems": [
    "C58_counterexample",
    "C58_partial"
   ],
   "note": "Violated: delete does not commit. The deletion is durable once any later operation commits."
  },
  {
   "property": "C59",
   "status": "proved",
   "theorems": [
    "C59_map"
   ],
   "note": "All histories and labels, also the empty label."
  },
  {
   "property": "C60",
   "status": "partial",
   "theorems": [
    "C60_untouched_partial",
    "C60_partial",
    "C60_map_partial",
    "C60_counterexample",
    "C60_counterexample_encoding",
    "C60_counterexample_unserialisable"
   ],
   "note": "Holds for a label of unreserved characters when neither label's prefix begins with the other's, and the others store values that can be read again. Violated otherwise: the empty label sees everything, a and a_ share names, and deleting does not encode."
  },
  {
   "property": "C61",
   "status": "proved",
   "theorems": [
    "C61_input",
    "C61_sections",
    "C61_errors"
   ],
   "note": "Model of dictionary objects by address; a section that is not a dictionary is a TypeError."
  },
  {
   "property": "C62",
   "status": "partial",
   "theorems": [
    "C62_ends",
    "C62_begins",
    "C62_idempotent",
    "C62_partial",
    "C62_counterexample"
   ],
   "note": "Ends with a slash always; begins with ./ and is idempotent exactly for paths that are not a name (or nothing) behind leading dots: .keys becomes keys/ and . becomes /."
  },
  {
   "property": "C63",
   "status": "partial",
   "theorems": [
    "C63_section",
    "C63_default",
    "C63_errors_partial",
    "C63_counterexample",
    "C63_missing",
    "C63_factory",
    "C63_factory_blind",
    "C63_init"
   ],
   "note": "Violated for an empty configuration, where a missing default section gives None."
  },
  {
   "property": "C64",
   "status": "proved",
   "theorems": [
    "C64_colon",
    "C64_dot",
    "C64_errors",
    "C64_unique"
   ],
   "note": "All names."
  },
  {
   "property": "C65",
   "status": "partial",
   "theorems": [
    "C65_counterexample",
    "C65_registration",
    "C65_assigned_partial",
    "C65_scalar_partial"
   ],
   "note": "Violated for every class with a list default. Assigned lists and defaults that are not lists are not shared."
  },
  {
   "property": "C66",
   "status": "partial",
   "theorems": [
    "C66_partial",
    "C66_counterexample",
    "schema_after_both"
   ],
   "note": "Violated once oidc is imported: it extends the list object of the OAuth2 class."
  },
  {
   "property": "C67",
   "status": "proved",
   "theorems": [
    "C67_iff",
    "C67_mixup"
   ],
   "note": "All responses and arguments."
  },
  {
   "property": "C68",
   "status": "partial",
   "theorems": [
    "C68_plain",
    "C68_toJson",
    "C68_partial",
    "C68_counterexample",
    "C68_counterexample_declared",
    "C68_counterexample_list"
   ],
   "note": "No message is left at any depth when to_dict succeeds. Missing: to_dict raises when a declared message parameter holds None or a number, and a message inside a plain dictionary is not converted."
  },
  {
   "property": "C69",
   "status": "partial",
   "theorems": [
    "C69_json",
    "C69_json_value",
    "C69_urlencoded",
    "C69_never",
    "C69_partial",
    "C69_not_text",
    "C69_list",
    "C69_counterexample",
    "json_no_formatError"
   ],
   "note": "The outcome is determined for all inputs. Violated: a JSON error is not a FormatError, so with a JSON format urlencoded is never tried; FormatError is never raised at all."
  },
  {
   "property": "C70",
   "status": "partial",
   "theorems": [
    "C70_never_accepts",
    "C70_unknown_partial",
    "C70_unresolved_partial",
    "C70_guess",
    "C70_counterexample"
   ],
   "note": "Unknown types are refused. Resolved types are never accepted: verify of the subclasses is the same method, so it recurses until the stack is exhausted; a guessed type is never recorded."
  },
  {
   "property": "C71",
   "status": "proved",
   "theorems": [
    "C71_assign",
    "C71_history",
    "C71_refuses_requests",
    "C71_to_dict"
   ],
   "note": "All histories. Findings: request objects are refused for scalar claims, list-typed claims only accept null."
  },
  {
   "property": "C72",
   "status": "proved",
   "theorems": [
    "C72_iff"
   ],
   "note": "Exact acceptance condition."
  },
  {
   "property": "C73",
   "status": "proved",
   "theorems": [
    "C73_pack",
    "C73_lifetime"
   ],
   "note": "All tokens, algorithms, lifetimes, clocks and hash functions giving strings."
  },
  {
   "property": "C74",
   "status": "partial",
   "theorems": [
    "C74_absolute",
    "C74_relative_partial",
    "C74_unchanged",
    "C74_counterexample",
    "C74_nameError"
   ],
   "note": "Absolute paths are left alone. Violated for relative paths: os is not imported, so nothing is ever rewritten and a relative path ends in an exception; with the import the loop would be right for an absolute base."
  },
  {
   "property": "C75",
   "status": "proved",
   "theorems": [
    "C75_plain_json"
   ],
   "note": "All texts, schemas and key jars."
  },
  {
   "property": "C76",
   "status": "proved",
   "theorems": [
    "C76_alg_none"
   ],
   "note": "All unsigned tokens, schemas and key jars."
  },
  {
   "property": "C77",
   "status": "partial",
   "theorems": [
    "C77_request_partial",
    "C77_counterexample"
   ],
   "note": "Holds when request is present. Without it a forged verified slot survives (witness proved)."
  },
  {
   "property": "C78",
   "status": "partial",
   "theorems": [
    "C78_signed_partial",
    "C78_unsigned_counterexample",
    "C78_plain_json_counterexample",
    "C78_unsigned_accepted"
   ],
   "note": "Holds when the caller names the allowed algorithm. Otherwise unsigned and plain JSON tokens are accepted."
  },
  {
   "property": "C79",
   "status": "partial",
   "theorems": [
    "C79_partial",
    "C79_ending_T_refused",
    "C79_rest_ignored",
    "C79_counterexample",
    "C40_minutes_refused"
   ],
   "note": "Holds for every subset of components in which minutes come with months; PT5M is refused."
  },
  {
   "property": "C80",
   "status": "proved",
   "theorems": [
    "C80_iff",
    "C80_element",
    "C80_any_framework",
    "C80_no_request_objects"
   ],
   "note": "All requests; the number of stack frames is a parameter. Finding: a verification element request that asks for any trust framework (null) is refused."
  },
  {
   "property": "C81",
   "status": "partial",
   "theorems": [
    "C81_partial",
    "C81_counterexample",
    "C81_file",
    "C81_touches",
    "C81_inside",
    "C81_any_file",
    "C81_beside",
    "C81_refines",
    "C46_delete_escapes"
   ],
   "note": "Holds for keys without a slash (C81_inside). Violated: in a model of the whole file system, every file is removed by the key that is its absolute path (C81_any_file), and every file beside the storage directory by ../name (C81_beside). For every key the exact effect is proved (C81_file, C81_touches), and the model of the directory alone agrees with the model of the file system for keys that stay inside (C81_refines)."
  },
  {
   "property": "C82",
   "status": "partial",
   "theorems": [
    "C82_partial",
    "C82_counterexample"
   ],
   "note": "Holds for instances that do not write themselves. A writer can record the modification time of somebody else's write and is then stale for good."
  },
  {
   "property": "C83",
   "status": "partial",
   "theorems": [
    "C83_stored",
    "C83_partial",
    "C83_counterexample"
   ],
   "note": "Violated: the key is compared with every column, so a stored value counts as a key."
  },
  {
   "property": "C84",
   "status": "partial",
   "theorems": [
    "C84_update",
    "C84_update_empty",
    "C84_iter",
    "C84_iter_raises",
    "C84_iter_pairs"
   ],
   "note": "Violated for every label and content: update raises for every dictionary, and iteration takes the characters of the keys for pairs. Nothing positive holds."
  },
  {
   "property": "C85",
   "status": "partial",
   "theorems": [
    "C85_partial",
    "C85_counterexample"
   ],
   "note": "Holds for labels of unreserved characters; for other labels the length is 0."
  },
  {
   "property": "C86",
   "status": "proved",
   "theorems": [
    "C86_roundtrip",
    "C86_jwe"
   ],
   "note": "For values that survive JSON (C07) and libraries whose verification accepts what signing made."
  },
  {
   "property": "C87",
   "status": "proved",
   "theorems": [
    "C87_accepted"
   ],
   "note": "The hashes are texts; the acceptance conditions are those of C24."
  },
  {
   "property": "C88",
   "status": "partial",
   "theorems": [
    "C88_partial",
    "C88_refused",
    "C88_string",
    "C88_counterexample"
   ],
   "note": "Holds for list audiences. Violated for an audience given as a string (as every urlencoded response has it): the client id only needs to occur in it."
  },
  {
   "property": "C89",
   "status": "partial",
   "theorems": [
    "C89_partial",
    "C89_counterexample_claims",
    "C89_counterexample_evidence",
    "C89_counterexample_idtoken"
   ],
   "note": "Holds at any depth for parameters whose deserialiser builds the declared class. Violated for the claims of verified claims, for pieces of evidence and for ID token objects, which come back with another type."
  },
  {
   "property": "C90",
   "status": "partial",
   "theorems": [
    "C90_exact",
    "C90_partial",
    "C90_shifted",
    "C90_zero",
    "C90_counterexample_zero",
    "C90_counterexample_summer",
    "C90_documented_refused",
    "C90_short_year",
    "C90_date",
    "C90_colons",
    "C90_offset_range"
   ],
   "note": "An instant comes back shifted by the difference between the offsets of the zone then and now, so the statement holds exactly when they are equal; 0 is written as the current time. Dates hold away from changes of the offset."
  },
  {
   "property": "C91",
   "status": "partial",
   "theorems": [
    "C91_partial",
    "C91_time_stamp",
    "C91_counterexample_time",
    "C91_counterexample_null",
    "C91_counterexample_object",
    "C91_counterexample_text"
   ],
   "note": "Holds for undeclared parameters, plain single values, lists of strings not given as an object, objects, and nested messages and lists of messages of such parameters at any depth. Violated for time stamps, null, objects in place of lists and texts in place of objects."
  },
  {
   "property": "C92",
   "status": "proved",
   "theorems": [
    "C92_oidc",
    "C92_oauth2",
    "C92_fallback",
    "C92_unknown",
    "C92_class",
    "C92_other_modules",
    "ctor_no_attr"
   ],
   "note": "Classes of session.py and identity_assurance.py are not found by either factory."
  },
  {
   "property": "C93",
   "status": "proved",
   "theorems": [
    "C93_memory",
    "C93_file",
    "C93_seed",
    "C93_seed_other",
    "C93_unset"
   ],
   "note": "With files for the keys and values of C47. An unset item is None in memory and a KeyError with files."
  },
  {
   "property": "C94",
   "status": "proved",
   "theorems": [
    "C94_separate",
    "C94_shared",
    "C94_dots",
    "C94_template",
    "C94_directory",
    "C94_no_issuer"
   ],
   "note": "The paths differ as texts. The issuers . and .. are not quoted and lead to the directory itself or out of it."
  },
  {
   "property": "C95",
   "status": "proved",
   "theorems": [
    "C95_no_deadlock",
    "C95_bounded",
    "C95_starvation"
   ],
   "note": "The lock is not fair: C95_starvation shows that a waiting process may be overtaken any number of times."
  },
  {
   "property": "C96",
   "status": "proved",
   "theorems": [
    "C96_own",
    "C96_other",
    "C96_complete",
    "C96_mutex",
    "C96_no_deadlock"
   ],
   "note": "By projection on each key."
  },
  {
   "property": "C97",
   "status": "partial",
   "theorems": [
    "C97_required_partial",
    "C97_ignored",
    "C97_counterexample"
   ],
   "note": "The plain request has the required parameters. Violated otherwise: differences are only logged; the values of the plain request are ignored altogether, also client_id, although its keys verify the object."
  },
  {
   "property": "C98",
   "status": "partial",
   "theorems": [
    "C98_plain_partial",
    "C98_object_partial",
    "C98_counterexample_object",
    "C98_counterexample_pushed",
    "C98_counterexample_secured"
   ],
   "note": "Holds without a request object for the OIDC class. Violated with one (its content is never checked) and for the two OAuth2 classes, which check nothing."
  },
  {
   "property": "C99",
   "status": "proved",
   "theorems": [
    "C99_accepted"
   ],
   "note": "JWT.pack is a parameter: its token carries the given payload with some of iss, iat, exp, aud, jti, kid set. Requests without id_token_hint."
  }
 ]
}