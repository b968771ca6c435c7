{
 "C01": {
  "note": "Histories of insert/remove of arbitrary typed parameters on an arbitrary object, by induction."
 },
 "C10": {
  "note": "All byte strings and all pair lists."
 },
 "C45": {
  "note": "Exact condition: round trip iff no catch-all value spells a known name; C45_collision exhibits the failing values."
 },
 "C46": {
  "note": "Holds for parsed values and for values built through the API; the derived Default of NonEmptyVec is empty (C46_default_is_empty)."
 },
 "C47": {
  "note": ""
 },
 "C48": {
  "note": ""
 },
 "C51": {
  "note": "All documents up to serde_json's recursion limit; deeper ones are refused (C51_json_depth_limit)."
 },
 "C52": {
  "note": ""
 },
 "C02": {
  "note": "Exact set of surviving values (C02_params_roundtrip); C02_collision exhibits the non-surviving ones."
 },
 "C03": {
  "note": "All strings, for each of the four kinds of text."
 },
 "C04": {
  "note": "Exact iff over all parameter objects."
 },
 "C05": {
  "note": ""
 },
 "C06": {
  "status": "partial",
  "note": "False as stated: the mutable view does not update the cached accessors (C06_stale_after_edit). Proved for edits that leave the parameters behind the accessors alone; C06_accessors_report_old says what the accessors report in general. C06_agree_iff says exactly after which edits the accessors agree with the parameters."
 },
 "C07": {
  "note": "Exact iff."
 },
 "C08": {
  "note": ""
 },
 "C09": {
  "note": "All query strings."
 },
 "C11": {
  "note": "Also: even when lenient, the header must be a JSON object."
 },
 "C12": {
  "note": "Both directions: C12_accepted_iff characterises acceptance."
 },
 "C13": {
  "note": ""
 },
 "C14": {
  "status": "partial",
  "note": "False as stated: a JWT without client_id is accepted for any outer client_id and treated as pre-registered (C14_inner_absent_accepted). Proved: the inner client_id equals the outer one or is absent; full claim for direct requests."
 },
 "C15": {
  "note": "Stated over the raw JSON of client metadata and wallet metadata. Now exact: C15_fits_iff and C15_validation_iff."
 },
 "C16": {
  "status": "partial",
  "note": "False for validation: an absent response_mode is always refused (C16_missing_mode_refused, C16_validation_depends). Proved for parsing of request objects."
 },
 "C17": {
  "note": ""
 },
 "C18": {
  "note": ""
 },
 "C49": {
  "note": ""
 },
 "C50": {
  "note": "Editing formats through the mutable accessor leaves the parameters stale until conversion (C50_formats_edit_stale)."
 },
 "C19": {
  "status": "partial",
  "note": "False as stated: an alg whose name contains 'none' is accepted unsigned when the wallet lists it (C19_none_accepted). C19_accepted_iff is the exact condition; C19_did_sound_without_none the full claim for wallets listing no such name."
 },
 "C20": {
  "note": "Exact iff; anchors proved irrelevant; P-256 verifier covered."
 },
 "C21": {
  "note": "Exact iff."
 },
 "C22": {
  "note": "DID client: for verification methods with a single '#'; with two, what the client signs is refused (C22_did_two_hashes). Signature scheme, JOSE header parsing and DER are hypotheses."
 },
 "C23": {
  "note": "For build_with_session_id and build_dc_api, any store, parameters, wallet metadata and lock state; C23_succeeds_iff characterises when a build succeeds."
 },
 "C24": {
  "note": "Own values are in the stored request object, every other parameter is the caller's; C24_caller_values_ignored shows the caller's values for these keys have no influence."
 },
 "C25": {
  "note": "Includes the textual round trip of the URL and retrieval of the stored JWT."
 },
 "C26": {
  "note": "Addresses below a base are injective in the session id, as URLs and as text."
 },
 "C29": {
  "note": "Refinement of the store to an abstract map over all histories, with arbitrary lock contention; C29_last_session reads the contents off the history."
 },
 "C30": {
  "note": "Non-interference over all interleavings, including abandoned operations: executions that differ only in other sessions' operations and data are indistinguishable for a session."
 },
 "C31": {
  "status": "partial",
  "note": "Proved for sessions passed by value or already retrieved, under all interleavings, and for operations run one at a time. Missing: for a session passed by reference the claim is false; C31_lost_update gives the interleaving that sets a completed session back, C31_only_stale_retrieval shows it is the only way."
 },
 "C32": {
  "note": "All interleavings from the empty store; builds are assumed not to store a completed status, which C23 shows."
 },
 "C33": {
  "status": "partial",
  "note": "The claim is false (C33_replay_overwrites, C33_not_once). Proved: an outcome is kept as long as no further response is verified; and kept, under every interleaving with further responses, if the validators keep the outcome of completed sessions and no verification had read the session before (C33_careful_interleaved); the last proviso is needed (C33_careful_race)."
 },
 "C34": {
  "note": "All statuses and outcomes with any payload."
 },
 "C28": {
  "note": "Proved for every response, every return address and every enumeration order of the hash map. JWT responses always survive; unencoded responses survive exactly if no presentation nests deeper than 125 brackets (serde_json's recursion limit of 127 minus the two brackets around a presentation), otherwise the verifier refuses the body."
 },
 "C35": {
  "note": "uriOk stands for acceptance of the return address by the http crate."
 },
 "C36": {
  "note": "Characterises all three outcomes. That a blank body is never a JSON document is proved, so the cases do not overlap."
 },
 "C37": {
  "note": "TokenText is an independent description of the accepted JSON (object of arrays of strings/objects, last duplicate wins)."
 },
 "C38": {
  "note": "The JOSE library's acceptance of a key is a parameter. ProperKey (JSON value well formed, at most 127 brackets deep) holds of every key that came out of a JSON document. Finding: an unreadable first suitable key aborts the selection (C38_unreadable_key_aborts)."
 },
 "C39": {
  "note": "Exact characterisation (iff) of success and of the key, header and payload handed to the JOSE library; the payload read back is exactly the presentation and state. The encryption itself is a parameter."
 },
 "C40": {
  "status": "partial",
  "note": "False in general. Validation accepts if any announced enc is supported, the response uses the first announced one (C40_unsupported_enc_used); validation looks at keys with use=enc, encryption takes the first ECDH-ES/P-256 key even without use (C40_unconsidered_key_used, C40_usable_key_refused). Proved: true if the wallet lists all announced values or only one is announced, and if all keys state their use. C40_exactly_when says when exactly the used values are supported and considered."
 },
 "C41": {
  "status": "partial",
  "note": "False in general: the thumbprint is that of the first key for encryption with computable thumbprint (C41_thumbprint_of_first), the response is encrypted to the first ECDH-ES/P-256 key; C41_other_key_committed is an accepted request where they differ. Proved: they agree if the candidates for both coincide."
 },
 "C42": {
  "status": "partial",
  "note": "Injectivity is false for member texts with quotes, as they are not escaped (C42_collision). Proved: the thumbprint is defined exactly if the required members are there, depends only on them, is injective for quote-free texts (a key without quotes shares its thumbprint with no other key of whatever texts: C42_honest_key), and is the RFC 7638 canonical JSON for texts needing no escapes."
 },
 "C43": {
  "note": "Injectivity of the CBOR encodings, hence binding up to hash collisions; lengths below 2^64. The two flows are separated as well."
 },
 "C44": {
  "note": "All handovers with hash length below 2^64; byte-for-byte layout for 32-byte hashes; decoder covers definite lengths, tags refused by the model."
 },
 "C53": {
  "note": "Exact: selection is the first answering credential per query in order; failure iff some query has no answer. Formats outside the known ones compare case-insensitively, as in the code."
 },
 "C54": {
  "status": "partial",
  "note": "False as stated: claims are ignored when a type is given (C54_claims_ignored), nested paths are looked up at top level (C54_nested_claims_misread), dotted names are skipped (C54_dotted_claims_ignored). Proved for queries without type whose paths are single undotted names. C54_exactly_which_queries: these (and queries that nothing answers) are exactly the queries for which it holds."
 },
 "C55": {
  "note": "All texts; also the content of the key-binding JWT."
 },
 "C56": {
  "note": "All endpoint parameters, wallets and HTTP behaviours."
 },
 "C57": {
  "note": "The redirect returned by the verifier is then fetched with GET, which is not counted as a response."
 },
 "C58": {
  "note": "The second half is a defect of the example, stated as it is."
 },
 "C59": {
  "note": "A defect of the example, stated as it is: the endpoint resolves requests but never validates them."
 },
 "C27": {
  "note": "Three theorems, one per client, each by value and by reference and for the URL as text. The wallet must be at the endpoint, list prefix and algorithm, be able to use the client metadata (only for encrypted modes), and the parameters must be JSON within the nesting limit; hypotheses on signatures as in C22."
 },
 "C98": {
  "note": "Panics of dependencies, stack or memory exhaustion and poisoned locks are outside the model; the panic sites of the crate (indexing, unwrap, expect) are listed in the module's comments and each is an explicit error value."
 }
}