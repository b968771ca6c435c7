{
 "claims": [
  {
   "property": "C01",
   "status": "proved",
   "theorems": [
    "Oid4vp.C01_object_history",
    "Oid4vp.C01_object_history_default",
    "Oid4vp.C01_insert",
    "Oid4vp.C01_remove",
    "Oid4vp.C01_sorted"
   ],
   "note": "Histories of insert/remove of arbitrary typed parameters on an arbitrary object, by induction."
  },
  {
   "property": "C02",
   "status": "proved",
   "theorems": [
    "Oid4vp.C02_params_roundtrip",
    "Oid4vp.C02_collision"
   ],
   "note": "Exact set of surviving values (C02_params_roundtrip); C02_collision exhibits the non-surviving ones."
  },
  {
   "property": "C03",
   "status": "proved",
   "theorems": [
    "Oid4vp.C03_response_mode",
    "Oid4vp.C03_response_type",
    "Oid4vp.C03_format",
    "Oid4vp.C03_trusted_authority",
    "Oid4vp.C03_known_names"
   ],
   "note": "All strings, for each of the four kinds of text."
  },
  {
   "property": "C04",
   "status": "proved",
   "theorems": [
    "Oid4vp.C04_accepted_iff",
    "Oid4vp.C04_return_address"
   ],
   "note": "Exact iff over all parameter objects."
  },
  {
   "property": "C05",
   "status": "proved",
   "theorems": [
    "Oid4vp.C05_state_and_query",
    "Oid4vp.C05_client_metadata",
    "Oid4vp.C05_vp_formats",
    "Oid4vp.C05_no_vp_formats",
    "Oid4vp.C05_metadata_formats",
    "Oid4vp.C05_accessors_agree",
    "Oid4vp.C05_id_token",
    "Oid4vp.C05_reparse"
   ],
   "note": ""
  },
  {
   "property": "C06",
   "status": "partial",
   "theorems": [
    "Oid4vp.C06_accessors_after_edit_partial",
    "Oid4vp.C06_accessors_report_old",
    "Oid4vp.C06_agree_iff",
    "Oid4vp.C06_stale_after_edit"
   ],
   "note": "False as stated: the mutable view does not update the cached accessors (C06_stale_after_edit). Proved for edits that leave the parameters behind the accessors alone; C06_accessors_report_old says what the accessors report in general. C06_agree_iff says exactly after which edits the accessors agree with the parameters."
  },
  {
   "property": "C07",
   "status": "proved",
   "theorems": [
    "Oid4vp.C07_url_roundtrip",
    "Oid4vp.C07_url_elsewhere",
    "Oid4vp.C07_url_query",
    "Oid4vp.C07_url_fails",
    "Oid4vp.C07_url_text_roundtrip",
    "Oid4vp.C07_url_injective"
   ],
   "note": "Exact iff."
  },
  {
   "property": "C08",
   "status": "proved",
   "theorems": [
    "Oid4vp.C08_endpoint_check",
    "Oid4vp.C08_scheme_ignored"
   ],
   "note": ""
  },
  {
   "property": "C09",
   "status": "proved",
   "theorems": [
    "Oid4vp.C09_query_meaning",
    "Oid4vp.C09_refused_iff"
   ],
   "note": "All query strings."
  },
  {
   "property": "C10",
   "status": "proved",
   "theorems": [
    "Oid4vp.C10_utf8_standard",
    "Oid4vp.C10_form_roundtrip",
    "Oid4vp.C10_form_alphabet",
    "Oid4vp.C10_form_injective",
    "Oid4vp.C10_form_standard",
    "Oid4vp.C10_form_reading",
    "Oid4vp.C10_form_reading_exists",
    "Oid4vp.C10_form_body",
    "Oid4vp.C10_form_text",
    "Oid4vp.C10_form_stands"
   ],
   "note": "All byte strings and all pair lists."
  },
  {
   "property": "C11",
   "status": "proved",
   "theorems": [
    "Oid4vp.C11_untyped_clients",
    "Oid4vp.C11_typ_required"
   ],
   "note": "Also: even when lenient, the header must be a JSON object."
  },
  {
   "property": "C12",
   "status": "proved",
   "theorems": [
    "Oid4vp.C12_right_method_once",
    "Oid4vp.C12_accepted_iff",
    "Oid4vp.C12_method_unique"
   ],
   "note": "Both directions: C12_accepted_iff characterises acceptance."
  },
  {
   "property": "C13",
   "status": "proved",
   "theorems": [
    "Oid4vp.C13_unsupported_prefix",
    "Oid4vp.C13_origin_refused"
   ],
   "note": ""
  },
  {
   "property": "C14",
   "status": "partial",
   "theorems": [
    "Oid4vp.C14_client_id_matches_partial",
    "Oid4vp.C14_direct",
    "Oid4vp.C14_inner_absent_accepted"
   ],
   "note": "False as stated: a JWT without client_id is accepted for any outer client_id and treated as pre-registered (C14_inner_absent_accepted). Proved: the inner client_id equals the outer one or is absent; full claim for direct requests."
  },
  {
   "property": "C15",
   "status": "proved",
   "theorems": [
    "Oid4vp.C15_fits_iff",
    "Oid4vp.C15_validation_iff",
    "Oid4vp.C15_encryption_requirements"
   ],
   "note": "Stated over the raw JSON of client metadata and wallet metadata. Now exact: C15_fits_iff and C15_validation_iff."
  },
  {
   "property": "C16",
   "status": "partial",
   "theorems": [
    "Oid4vp.C16_default_mode_object_partial",
    "Oid4vp.C16_missing_mode_refused",
    "Oid4vp.C16_validation_depends"
   ],
   "note": "False for validation: an absent response_mode is always refused (C16_missing_mode_refused, C16_validation_depends). Proved for parsing of request objects."
  },
  {
   "property": "C17",
   "status": "proved",
   "theorems": [
    "Oid4vp.C17_one_get",
    "Oid4vp.C17_bad_answer_refused"
   ],
   "note": ""
  },
  {
   "property": "C18",
   "status": "proved",
   "theorems": [
    "Oid4vp.C18_default_rejects",
    "Oid4vp.C18_default_rejects_url"
   ],
   "note": ""
  },
  {
   "property": "C19",
   "status": "partial",
   "theorems": [
    "Oid4vp.C19_accepted_iff",
    "Oid4vp.C19_did_sound_partial",
    "Oid4vp.C19_did_sound_without_none",
    "Oid4vp.C19_none_accepted"
   ],
   "note": "False as stated: an alg whose name contains 'none' is accepted unsigned when the wallet lists it (C19_none_accepted). C19_accepted_iff is the exact condition; C19_did_sound_without_none the full claim for wallets listing no such name."
  },
  {
   "property": "C20",
   "status": "proved",
   "theorems": [
    "Oid4vp.C20_accepted_iff",
    "Oid4vp.C20_roots_ignored",
    "Oid4vp.C20_p256_only_es256"
   ],
   "note": "Exact iff; anchors proved irrelevant; P-256 verifier covered."
  },
  {
   "property": "C21",
   "status": "proved",
   "theorems": [
    "Oid4vp.C21_accepted_iff"
   ],
   "note": "Exact iff."
  },
  {
   "property": "C22",
   "status": "proved",
   "theorems": [
    "Oid4vp.C22_did_accepted",
    "Oid4vp.C22_did_two_hashes",
    "Oid4vp.C22_san_accepted",
    "Oid4vp.C22_hash_accepted",
    "Oid4vp.C22_empty_chain_panics"
   ],
   "note": "DID client: for verification methods with a single '#'; with two, what the client signs is refused (C22_did_two_hashes). Signature scheme, JOSE header parsing and DER are hypotheses."
  },
  {
   "property": "C23",
   "status": "proved",
   "theorems": [
    "Oid4vp.C23_build_stores_one",
    "Oid4vp.C23_failure_stores_nothing",
    "Oid4vp.C23_dc_api",
    "Oid4vp.C23_succeeds_iff"
   ],
   "note": "For build_with_session_id and build_dc_api, any store, parameters, wallet metadata and lock state; C23_succeeds_iff characterises when a build succeeds."
  },
  {
   "property": "C24",
   "status": "proved",
   "theorems": [
    "Oid4vp.C24_own_values_win",
    "Oid4vp.C24_own_values_win_dc_api",
    "Oid4vp.C24_caller_values_ignored"
   ],
   "note": "Own values are in the stored request object, every other parameter is the caller's; C24_caller_values_ignored shows the caller's values for these keys have no influence."
  },
  {
   "property": "C25",
   "status": "proved",
   "theorems": [
    "Oid4vp.C25_url_refers_to_session"
   ],
   "note": "Includes the textual round trip of the URL and retrieval of the stored JWT."
  },
  {
   "property": "C26",
   "status": "proved",
   "theorems": [
    "Oid4vp.C26_distinct_response_uri",
    "Oid4vp.C26_distinct_request_uri"
   ],
   "note": "Addresses below a base are injective in the session id, as URLs and as text."
  },
  {
   "property": "C27",
   "status": "proved",
   "theorems": [
    "Oid4vp.C27_did",
    "Oid4vp.C27_x509_san_dns",
    "Oid4vp.C27_x509_hash"
   ],
   "note": "Three theorems, one per client, each by value and by reference and for the URL as text. The wallet must be at the endpoint, list prefix and algorithm, be able to use the client metadata (only for encrypted modes), and the parameters must be JSON within the nesting limit; hypotheses on signatures as in C22."
  },
  {
   "property": "C28",
   "status": "proved",
   "theorems": [
    "Oid4vp.C28_jwt_read_back",
    "Oid4vp.C28_unencoded_read_back",
    "Oid4vp.C28_too_deep_refused",
    "Oid4vp.C28_state_posted"
   ],
   "note": "Proved for every response, every return address and every enumeration order of the hash map. JWT responses always survive; unencoded responses survive exactly if no presentation nests deeper than 125 brackets (serde_json's recursion limit of 127 minus the two brackets around a presentation), otherwise the verifier refuses the body."
  },
  {
   "property": "C29",
   "status": "proved",
   "theorems": [
    "Oid4vp.C29_store_is_map",
    "Oid4vp.C29_last_session",
    "Oid4vp.C29_unknown_fails"
   ],
   "note": "Refinement of the store to an abstract map over all histories, with arbitrary lock contention; C29_last_session reads the contents off the history."
  },
  {
   "property": "C30",
   "status": "proved",
   "theorems": [
    "Oid4vp.C30_step_isolated",
    "Oid4vp.C30_noninterference",
    "Oid4vp.C30_run_isolated",
    "Oid4vp.C30_only_build_changes_request"
   ],
   "note": "Non-interference over all interleavings, including abandoned operations: executions that differ only in other sessions' operations and data are indistinguishable for a session."
  },
  {
   "property": "C31",
   "status": "partial",
   "theorems": [
    "Oid4vp.C31_never_backwards_partial",
    "Oid4vp.C31_never_unsent",
    "Oid4vp.C31_only_stale_retrieval",
    "Oid4vp.C31_sequential",
    "Oid4vp.C31_lost_update"
   ],
   "note": "Proved for sessions passed by value or already retrieved, under all interleavings, and for operations run one at a time. Missing: for a session passed by reference the claim is false; C31_lost_update gives the interleaving that sets a completed session back, C31_only_stale_retrieval shows it is the only way."
  },
  {
   "property": "C32",
   "status": "proved",
   "theorems": [
    "Oid4vp.C32_outcome_from_validator",
    "Oid4vp.C32_validator_called_with_session",
    "Oid4vp.C32_validator_sees_stored_request"
   ],
   "note": "All interleavings from the empty store; builds are assumed not to store a completed status, which C23 shows."
  },
  {
   "property": "C33",
   "status": "partial",
   "theorems": [
    "Oid4vp.C33_outcome_kept_partial",
    "Oid4vp.C33_replay_overwrites",
    "Oid4vp.C33_careful_validator",
    "Oid4vp.C33_careful_interleaved",
    "Oid4vp.C33_not_once",
    "Oid4vp.C33_careful_race"
   ],
   "note": "The claim is false (C33_replay_overwrites, C33_not_once). Proved: an outcome is kept as long as no further response is verified; and kept, under every interleaving with further responses, if the validators keep the outcome of completed sessions and no verification had read the session before (C33_careful_interleaved); the last proviso is needed (C33_careful_race)."
  },
  {
   "property": "C34",
   "status": "proved",
   "theorems": [
    "Oid4vp.C34_order",
    "Oid4vp.C34_outcome_order",
    "Oid4vp.C34_total_order"
   ],
   "note": "All statuses and outcomes with any payload."
  },
  {
   "property": "C35",
   "status": "proved",
   "theorems": [
    "Oid4vp.C35_one_post",
    "Oid4vp.C35_dc_api",
    "Oid4vp.C35_otherwise_refused",
    "Oid4vp.C35_http_error"
   ],
   "note": "uriOk stands for acceptance of the return address by the http crate."
  },
  {
   "property": "C36",
   "status": "proved",
   "theorems": [
    "Oid4vp.C36_redirect_iff",
    "Oid4vp.C36_none_iff",
    "Oid4vp.C36_otherwise_error",
    "Oid4vp.C36_no_post_no_redirect"
   ],
   "note": "Characterises all three outcomes. That a blank body is never a JSON document is proved, so the cases do not overlap."
  },
  {
   "property": "C37",
   "status": "proved",
   "theorems": [
    "Oid4vp.C37_jwt_iff",
    "Oid4vp.C37_unencoded_iff",
    "Oid4vp.C37_otherwise_refused",
    "Oid4vp.C37_unencoded_never_jwt"
   ],
   "note": "TokenText is an independent description of the accepted JSON (object of arrays of strings/objects, last duplicate wins)."
  },
  {
   "property": "C38",
   "status": "proved",
   "theorems": [
    "Oid4vp.C38_first_suitable",
    "Oid4vp.C38_none_iff",
    "Oid4vp.C38_others_irrelevant",
    "Oid4vp.C38_later_irrelevant",
    "Oid4vp.C38_unreadable_key_aborts"
   ],
   "note": "The JOSE library's acceptance of a key is a parameter. ProperKey (JSON value well formed, at most 127 brackets deep) holds of every key that came out of a JSON document. Finding: an unreadable first suitable key aborts the selection (C38_unreadable_key_aborts)."
  },
  {
   "property": "C39",
   "status": "proved",
   "theorems": [
    "Oid4vp.C39_encrypted_response_iff",
    "Oid4vp.C39_payload_read_back"
   ],
   "note": "Exact characterisation (iff) of success and of the key, header and payload handed to the JOSE library; the payload read back is exactly the presentation and state. The encryption itself is a parameter."
  },
  {
   "property": "C40",
   "status": "partial",
   "theorems": [
    "Oid4vp.C40_supported_partial",
    "Oid4vp.C40_exactly_when",
    "Oid4vp.C40_unsupported_enc_used",
    "Oid4vp.C40_unconsidered_key_used",
    "Oid4vp.C40_usable_key_refused"
   ],
   "note": "False in general. Validation accepts if any announced enc is supported, the response uses the first announced one (C40_unsupported_enc_used); validation looks at keys with use=enc, encryption takes the first ECDH-ES/P-256 key even without use (C40_unconsidered_key_used, C40_usable_key_refused). Proved: true if the wallet lists all announced values or only one is announced, and if all keys state their use. C40_exactly_when says when exactly the used values are supported and considered."
  },
  {
   "property": "C41",
   "status": "partial",
   "theorems": [
    "Oid4vp.C41_thumbprint_of_first",
    "Oid4vp.C41_same_key_partial",
    "Oid4vp.C41_commits_iff",
    "Oid4vp.C41_other_key_committed"
   ],
   "note": "False in general: the thumbprint is that of the first key for encryption with computable thumbprint (C41_thumbprint_of_first), the response is encrypted to the first ECDH-ES/P-256 key; C41_other_key_committed is an accepted request where they differ. Proved: they agree if the candidates for both coincide."
  },
  {
   "property": "C42",
   "status": "partial",
   "theorems": [
    "Oid4vp.C42_defined_iff",
    "Oid4vp.C42_hashed",
    "Oid4vp.C42_depends_only_on_required",
    "Oid4vp.C42_injective_partial",
    "Oid4vp.C42_binds_partial",
    "Oid4vp.C42_honest_key",
    "Oid4vp.C42_honest_key_binds",
    "Oid4vp.C42_collision",
    "Oid4vp.C42_canonical_json"
   ],
   "note": "Injectivity is false for member texts with quotes, as they are not escaped (C42_collision). Proved: the thumbprint is defined exactly if the required members are there, depends only on them, is injective for quote-free texts (a key without quotes shares its thumbprint with no other key of whatever texts: C42_honest_key), and is the RFC 7638 canonical JSON for texts needing no escapes."
  },
  {
   "property": "C43",
   "status": "proved",
   "theorems": [
    "Oid4vp.C43_redirect_binds",
    "Oid4vp.C43_dc_api_binds",
    "Oid4vp.C43_flows_separated"
   ],
   "note": "Injectivity of the CBOR encodings, hence binding up to hash collisions; lengths below 2^64. The two flows are separated as well."
  },
  {
   "property": "C44",
   "status": "proved",
   "theorems": [
    "Oid4vp.C44_handover_roundtrip",
    "Oid4vp.C44_handover_read_iff",
    "Oid4vp.C44_never_confused",
    "Oid4vp.C44_other_kind_refused",
    "Oid4vp.C44_transcript_bytes",
    "Oid4vp.C44_transcript_roundtrip",
    "Oid4vp.C44_transcript_read_iff",
    "Oid4vp.C44_transcript_layout",
    "Oid4vp.C44_transcript_injective"
   ],
   "note": "All handovers with hash length below 2^64; byte-for-byte layout for 32-byte hashes; decoder covers definite lengths, tags refused by the model."
  },
  {
   "property": "C45",
   "status": "proved",
   "theorems": [
    "Oid4vp.C45_dcql_roundtrip",
    "Oid4vp.C45_collision",
    "Oid4vp.C45_dcql_injective",
    "Oid4vp.C45_parse_stable"
   ],
   "note": "Exact condition: round trip iff no catch-all value spells a known name; C45_collision exhibits the failing values."
  },
  {
   "property": "C46",
   "status": "proved",
   "theorems": [
    "Oid4vp.C46_parsed_nonempty",
    "Oid4vp.C46_api_nonempty",
    "Oid4vp.C46_default_is_empty",
    "Oid4vp.C46_empty_refused"
   ],
   "note": "Holds for parsed values and for values built through the API; the derived Default of NonEmptyVec is empty (C46_default_is_empty)."
  },
  {
   "property": "C47",
   "status": "proved",
   "theorems": [
    "Oid4vp.C47_credential_defaults",
    "Oid4vp.C47_set_defaults",
    "Oid4vp.C47_settings"
   ],
   "note": ""
  },
  {
   "property": "C48",
   "status": "proved",
   "theorems": [
    "Oid4vp.C48_claim_name",
    "Oid4vp.C48_claim_name_none",
    "Oid4vp.C48_namespace",
    "Oid4vp.C48_element_identifier"
   ],
   "note": ""
  },
  {
   "property": "C49",
   "status": "proved",
   "theorems": [
    "Oid4vp.C49_format_map_roundtrip",
    "Oid4vp.C49_format_json_roundtrip",
    "Oid4vp.C49_supports_security_method",
    "Oid4vp.C49_supports_security_method_json",
    "Oid4vp.C49_collision"
   ],
   "note": ""
  },
  {
   "property": "C50",
   "status": "proved",
   "theorems": [
    "Oid4vp.C50_new_reports",
    "Oid4vp.C50_parsed_reports",
    "Oid4vp.C50_additions",
    "Oid4vp.C50_addition_refused",
    "Oid4vp.C50_conversion",
    "Oid4vp.C50_formats_edit_stale",
    "Oid4vp.C50_parameters_edit",
    "Oid4vp.C50_static"
   ],
   "note": "Editing formats through the mutable accessor leaves the parameters stale until conversion (C50_formats_edit_stale)."
  },
  {
   "property": "C51",
   "status": "proved",
   "theorems": [
    "Oid4vp.C51_json_roundtrip",
    "Oid4vp.C51_json_depth_limit",
    "Oid4vp.C51_json_injective",
    "Oid4vp.C51_json_parse_stable"
   ],
   "note": "All documents up to serde_json's recursion limit; deeper ones are refused (C51_json_depth_limit)."
  },
  {
   "property": "C52",
   "status": "proved",
   "theorems": [
    "Oid4vp.C52_base64_rfc4648",
    "Oid4vp.C52_base64_roundtrip",
    "Oid4vp.C52_base64_canonical",
    "Oid4vp.C52_base64_unambiguous",
    "Oid4vp.C52_base64_no_dot",
    "Oid4vp.C52_base64_padded",
    "Oid4vp.C52_base64_padding"
   ],
   "note": ""
  },
  {
   "property": "C53",
   "status": "proved",
   "theorems": [
    "Oid4vp.C53_fails_iff",
    "Oid4vp.C53_selection",
    "Oid4vp.C53_every_query_answered"
   ],
   "note": "Exact: selection is the first answering credential per query in order; failure iff some query has no answer. Formats outside the known ones compare case-insensitively, as in the code."
  },
  {
   "property": "C54",
   "status": "partial",
   "theorems": [
    "Oid4vp.C54_claims_ignored",
    "Oid4vp.C54_nested_claims_misread",
    "Oid4vp.C54_dotted_claims_ignored",
    "Oid4vp.C54_flat_claims_partial",
    "Oid4vp.C54_exactly_which_queries",
    "Oid4vp.C54_not_looked_at"
   ],
   "note": "False as stated: claims are ignored when a type is given (C54_claims_ignored), nested paths are looked up at top level (C54_nested_claims_misread), dotted names are skipped (C54_dotted_claims_ignored). Proved for queries without type whose paths are single undotted names. C54_exactly_which_queries: these (and queries that nothing answers) are exactly the queries for which it holds."
  },
  {
   "property": "C55",
   "status": "proved",
   "theorems": [
    "Oid4vp.C55_fresh_binding",
    "Oid4vp.C55_all_texts",
    "Oid4vp.C55_old_binding_irrelevant",
    "Oid4vp.C55_token"
   ],
   "note": "All texts; also the content of the key-binding JWT."
  },
  {
   "property": "C56",
   "status": "proved",
   "theorems": [
    "Oid4vp.C56_own_address_only",
    "Oid4vp.C56_mismatch_refused"
   ],
   "note": "All endpoint parameters, wallets and HTTP behaviours."
  },
  {
   "property": "C57",
   "status": "proved",
   "theorems": [
    "Oid4vp.C57_one_response"
   ],
   "note": "The redirect returned by the verifier is then fetched with GET, which is not counted as a response."
  },
  {
   "property": "C58",
   "status": "proved",
   "theorems": [
    "Oid4vp.C58_request_of_params",
    "Oid4vp.C58_plain_parameters_never_answered"
   ],
   "note": "The second half is a defect of the example, stated as it is."
  },
  {
   "property": "C59",
   "status": "proved",
   "theorems": [
    "Oid4vp.C59_signature_ignored"
   ],
   "note": "A defect of the example, stated as it is: the endpoint resolves requests but never validates them."
  },
  {
   "property": "C60",
   "status": "proved",
   "theorems": [
    "Oid4vp.C60_session_id",
    "Oid4vp.C60_fetch_answer",
    "Oid4vp.C60_fetch_effect",
    "Oid4vp.C60_respond",
    "Oid4vp.C60_respond_refused",
    "Oid4vp.C60_status_answer",
    "Oid4vp.C60_sessions_kept",
    "Oid4vp.C60_sessions_not_invented",
    "Oid4vp.C60_last_response_decides",
    "Oid4vp.C60_no_response"
   ],
   "note": ""
  },
  {
   "property": "C61",
   "status": "proved",
   "theorems": [
    "Oid4vp.C61_status_documents_distinct",
    "Oid4vp.C61_waiting_reported",
    "Oid4vp.C61_plain_reported",
    "Oid4vp.C61_encrypted_reported",
    "Oid4vp.C61_empty_response_accepted"
   ],
   "note": ""
  },
  {
   "property": "C62",
   "status": "proved",
   "theorems": [
    "Oid4vp.C62_initiate_succeeds",
    "Oid4vp.C62_wallet_metadata",
    "Oid4vp.C62_initiate",
    "Oid4vp.C62_plain",
    "Oid4vp.C62_downgrade",
    "Oid4vp.C62_encrypted",
    "Oid4vp.C62_stored_query_differs",
    "Oid4vp.C62_status_address"
   ],
   "note": ""
  },
  {
   "property": "C63",
   "status": "proved",
   "theorems": [
    "Oid4vp.C63_succeeds_iff",
    "Oid4vp.C63_credentials",
    "Oid4vp.C63_description",
    "Oid4vp.C63_sets_mean_types",
    "Oid4vp.C63_claims",
    "Oid4vp.C63_ids_distinct_iff"
   ],
   "note": ""
  },
  {
   "property": "C64",
   "status": "proved",
   "theorems": [
    "Oid4vp.C64_formats_announced",
    "Oid4vp.C64_query_covered",
    "Oid4vp.C64_methods",
    "Oid4vp.C64_vcdm2_unreadable_before_sending",
    "Oid4vp.C64_wallet_fits",
    "Oid4vp.C64_wallet_metadata"
   ],
   "note": ""
  },
  {
   "property": "C67",
   "status": "proved",
   "theorems": [
    "Oid4vp.C67_build_succeeds_iff",
    "Oid4vp.C67_last_call_decides",
    "Oid4vp.C67_request_parameters"
   ],
   "note": ""
  },
  {
   "property": "C68",
   "status": "proved",
   "theorems": [
    "Oid4vp.C68_retrieved_was_stored",
    "Oid4vp.C68_one_request_per_id",
    "Oid4vp.C68_polled_was_stored",
    "Oid4vp.C68_built_was_stored"
   ],
   "note": ""
  },
  {
   "property": "C65",
   "status": "proved",
   "theorems": [
    "Oid4vp.C65_start_iff",
    "Oid4vp.C65_request",
    "Oid4vp.C65_validated",
    "Oid4vp.C65_client_id_is_not_the_return_address",
    "Oid4vp.C65_example_wallet_refuses",
    "Oid4vp.C65_no_response",
    "Oid4vp.C65_first_response_decides",
    "Oid4vp.C65_fetch_answer",
    "Oid4vp.C65_respond_answer",
    "Oid4vp.C65_outcome"
   ],
   "note": ""
  },
  {
   "property": "C66",
   "status": "proved",
   "theorems": [
    "Oid4vp.C66_file_iff",
    "Oid4vp.C66_file_written",
    "Oid4vp.C66_identity_of_own_domain",
    "Oid4vp.C66_identity_is_stable",
    "Oid4vp.C66_host_of_address",
    "Oid4vp.C66_shared_file_discards",
    "Oid4vp.C66_bad_files_ignored",
    "Oid4vp.C66_client_id"
   ],
   "note": ""
  },
  {
   "property": "C69",
   "status": "proved",
   "theorems": [
    "Oid4vp.C69_plain_iff",
    "Oid4vp.C69_jwt_iff",
    "Oid4vp.C69_roundtrip",
    "Oid4vp.C69_forms_differ",
    "Oid4vp.C69_both_kinds"
   ],
   "note": ""
  },
  {
   "property": "C70",
   "status": "proved",
   "theorems": [
    "Oid4vp.C70_url_iff",
    "Oid4vp.C70_url_unique",
    "Oid4vp.C70_print_denotes",
    "Oid4vp.C70_print_fixed"
   ],
   "note": ""
  },
  {
   "property": "C71",
   "status": "proved",
   "theorems": [
    "Oid4vp.C71_redirect_hash",
    "Oid4vp.C71_dc_api_hash",
    "Oid4vp.C71_transcript"
   ],
   "note": ""
  },
  {
   "property": "C72",
   "status": "proved",
   "theorems": [
    "Oid4vp.C72_san_client",
    "Oid4vp.C72_hash_client",
    "Oid4vp.C72_did_client",
    "Oid4vp.C72_cert_token",
    "Oid4vp.C72_did_token"
   ],
   "note": ""
  },
  {
   "property": "C73",
   "status": "proved",
   "theorems": [
    "Oid4vp.C73_json_text",
    "Oid4vp.C73_json_bytes",
    "Oid4vp.C73_json_unambiguous",
    "Oid4vp.C73_json_written",
    "Oid4vp.C73_any_order",
    "Oid4vp.C73_json_members",
    "Oid4vp.C73_json_settles"
   ],
   "note": ""
  },
  {
   "property": "C74",
   "status": "proved",
   "theorems": [
    "Oid4vp.C74_texts",
    "Oid4vp.C74_urls",
    "Oid4vp.C74_text_lists",
    "Oid4vp.C74_names",
    "Oid4vp.C74_encrypted_modes",
    "Oid4vp.C74_defaults",
    "Oid4vp.C74_objects",
    "Oid4vp.C74_formats",
    "Oid4vp.C74_formats_refused"
   ],
   "note": ""
  },
  {
   "property": "C75",
   "status": "proved",
   "theorems": [
    "Oid4vp.C75_query_read",
    "Oid4vp.C75_query_written"
   ],
   "note": ""
  },
  {
   "property": "C76",
   "status": "proved",
   "theorems": [
    "Oid4vp.C76_token_read",
    "Oid4vp.C76_token_written",
    "Oid4vp.C76_token_map",
    "Oid4vp.C76_token_single",
    "Oid4vp.C76_presentation_item"
   ],
   "note": ""
  },
  {
   "property": "C77",
   "status": "proved",
   "theorems": [
    "Oid4vp.C77_taken_for",
    "Oid4vp.C77_endpoint"
   ],
   "note": ""
  },
  {
   "property": "C78",
   "status": "proved",
   "theorems": [
    "Oid4vp.C78_parameters",
    "Oid4vp.C78_served",
    "Oid4vp.C78_url_taken",
    "Oid4vp.C78_url_direct",
    "Oid4vp.C78_head_acts",
    "Oid4vp.C78_endpoint_address",
    "Oid4vp.C78_endpoint_default"
   ],
   "note": ""
  },
  {
   "property": "C79",
   "status": "proved",
   "theorems": [
    "Oid4vp.C79_announcement_read",
    "Oid4vp.C79_own_value_differs",
    "Oid4vp.C79_fits",
    "Oid4vp.C79_announced_enc_unused",
    "Oid4vp.C79_no_library_client",
    "Oid4vp.C79_key_is_public"
   ],
   "note": ""
  },
  {
   "property": "C80",
   "status": "proved",
   "theorems": [
    "Oid4vp.C80_store_file",
    "Oid4vp.C80_embedded",
    "Oid4vp.C80_embedded_claims",
    "Oid4vp.C80_embedded_answers"
   ],
   "note": ""
  },
  {
   "property": "C81",
   "status": "proved",
   "theorems": [
    "Oid4vp.C81_value",
    "Oid4vp.C81_text",
    "Oid4vp.C81_round_trip",
    "Oid4vp.C81_wire",
    "Oid4vp.C81_text_round_trip",
    "Oid4vp.C81_equal_written_differently"
   ],
   "note": ""
  },
  {
   "property": "C82",
   "status": "proved",
   "theorems": [
    "Oid4vp.C82_routes",
    "Oid4vp.C82_served",
    "Oid4vp.C82_effect",
    "Oid4vp.C82_no_response",
    "Oid4vp.C82_last_response_decides",
    "Oid4vp.C82_not_invented",
    "Oid4vp.C82_head_counts_as_sent",
    "Oid4vp.C82_addresses",
    "Oid4vp.C82_status_address_not_found",
    "Oid4vp.C82_begin"
   ],
   "note": ""
  },
  {
   "property": "C83",
   "status": "proved",
   "theorems": [
    "Oid4vp.C83_credential",
    "Oid4vp.C83_history",
    "Oid4vp.C83_parts",
    "Oid4vp.C83_new",
    "Oid4vp.C83_lists"
   ],
   "note": ""
  },
  {
   "property": "C84",
   "status": "proved",
   "theorems": [
    "Oid4vp.C84_reading",
    "Oid4vp.C84_roundtrip",
    "Oid4vp.C84_rewritten",
    "Oid4vp.C84_designation_name",
    "Oid4vp.C84_designation",
    "Oid4vp.C84_two_formats",
    "Oid4vp.C84_parameters"
   ],
   "note": ""
  },
  {
   "property": "C85",
   "status": "proved",
   "theorems": [
    "Oid4vp.C85_served",
    "Oid4vp.C85_waits",
    "Oid4vp.C85_stops",
    "Oid4vp.C85_status_lines",
    "Oid4vp.C85_information",
    "Oid4vp.C85_program"
   ],
   "note": ""
  },
  {
   "property": "C86",
   "status": "proved",
   "theorems": [
    "Oid4vp.C86_run",
    "Oid4vp.C86_other_address",
    "Oid4vp.C86_body",
    "Oid4vp.C86_no_redirect",
    "Oid4vp.C86_version_mark",
    "Oid4vp.C86_secrets_stay",
    "Oid4vp.C86_referer",
    "Oid4vp.C86_relative_location",
    "Oid4vp.C86_presentation_goes",
    "Oid4vp.C86_presentation_forwarded",
    "Oid4vp.C86_fetched_from"
   ],
   "note": ""
  },
  {
   "property": "C87",
   "status": "proved",
   "theorems": [
    "Oid4vp.C87_accepted_iff",
    "Oid4vp.C87_reaches_unique",
    "Oid4vp.C87_effects",
    "Oid4vp.C87_compared_last",
    "Oid4vp.C87_direct_same_client"
   ],
   "note": ""
  },
  {
   "property": "C88",
   "status": "proved",
   "theorems": [
    "Oid4vp.C88_step_calls",
    "Oid4vp.C88_poll_calls",
    "Oid4vp.C88_retrieve_calls",
    "Oid4vp.C88_verify_calls",
    "Oid4vp.C88_build_calls",
    "Oid4vp.C88_build_dc_api_calls",
    "Oid4vp.C88_refines",
    "Oid4vp.C88_retrieved",
    "Oid4vp.C88_validated",
    "Oid4vp.C88_outcome",
    "Oid4vp.C88_isolated",
    "Oid4vp.C88_memory_lawful",
    "Oid4vp.C88_memory_run",
    "Oid4vp.C88_memory"
   ],
   "note": ""
  },
  {
   "property": "C89",
   "status": "proved",
   "theorems": [
    "Oid4vp.C89_initial",
    "Oid4vp.C89_initial_dc_api",
    "Oid4vp.C89_never_received"
   ],
   "note": ""
  },
  {
   "property": "C90",
   "status": "proved",
   "theorems": [
    "Oid4vp.C90_beside_ignored",
    "Oid4vp.C90_object_of_jwt",
    "Oid4vp.C90_outer_client_only_refuses",
    "Oid4vp.C90_only_get"
   ],
   "note": ""
  },
  {
   "property": "C91",
   "status": "proved",
   "theorems": [
    "Oid4vp.C91_network",
    "Oid4vp.C91_submitted",
    "Oid4vp.C91_exchange",
    "Oid4vp.C91_other_kind",
    "Oid4vp.C91_last_decides",
    "Oid4vp.C91_untouched",
    "Oid4vp.C91_only_trusted"
   ],
   "note": ""
  },
  {
   "property": "C92",
   "status": "proved",
   "theorems": [
    "Oid4vp.C92_drawn",
    "Oid4vp.C92_alphanumeric",
    "Oid4vp.C92_uniform",
    "Oid4vp.C92_every_nonce",
    "Oid4vp.C92_reachable",
    "Oid4vp.C92_enough",
    "Oid4vp.C92_unescaped"
   ],
   "note": ""
  },
  {
   "property": "C93",
   "status": "proved",
   "theorems": [
    "Oid4vp.C93_es256",
    "Oid4vp.C93_key_determined",
    "Oid4vp.C93_traits_agree",
    "Oid4vp.C93_as_the_key_says",
    "Oid4vp.C93_did_iff",
    "Oid4vp.C93_certificate_iff"
   ],
   "note": ""
  },
  {
   "property": "C94",
   "status": "proved",
   "theorems": [
    "Oid4vp.C94_is_sha256",
    "Oid4vp.C94_length",
    "Oid4vp.C94_padding",
    "Oid4vp.C94_padded",
    "Oid4vp.C94_transcript",
    "Oid4vp.C94_dc_api_transcript",
    "Oid4vp.C94_thumbprint",
    "Oid4vp.C94_hash_client",
    "Oid4vp.C94_hash_verified"
   ],
   "note": ""
  },
  {
   "property": "C95",
   "status": "proved",
   "theorems": [
    "Oid4vp.C95_calls_succeed_iff",
    "Oid4vp.C95_built_iff",
    "Oid4vp.C95_refused",
    "Oid4vp.C95_response_calls"
   ],
   "note": ""
  },
  {
   "property": "C96",
   "status": "proved",
   "theorems": [
    "Oid4vp.C96_three_parameters",
    "Oid4vp.C96_unencrypted",
    "Oid4vp.C96_preregistered_iff",
    "Oid4vp.C96_preregistered_any_prefixes",
    "Oid4vp.C96_written_out"
   ],
   "note": ""
  },
  {
   "property": "C97",
   "status": "proved",
   "theorems": [
    "Oid4vp.C97_did",
    "Oid4vp.C97_hash",
    "Oid4vp.C97_san",
    "Oid4vp.C97_san_any_certificate"
   ],
   "note": ""
  },
  {
   "property": "C98",
   "status": "proved",
   "theorems": [
    "Oid4vp.C98_wallet",
    "Oid4vp.C98_methods",
    "Oid4vp.C98_reading",
    "Oid4vp.C98_parameters",
    "Oid4vp.C98_verifier",
    "Oid4vp.C98_encrypted",
    "Oid4vp.C98_clients",
    "Oid4vp.C98_presentation",
    "Oid4vp.C98_static",
    "Oid4vp.Cli.C98_cli_query",
    "Oid4vp.Cli.C98_cli_start"
   ],
   "note": "Panics of dependencies, stack or memory exhaustion and poisoned locks are outside the model; the panic sites of the crate (indexing, unwrap, expect) are listed in the module's comments and each is an explicit error value."
  },
  {
   "property": "C99",
   "status": "proved",
   "theorems": [
    "Oid4vp.C99_reading",
    "Oid4vp.C99_decision",
    "Oid4vp.C99_methods",
    "Oid4vp.C99_direct",
    "Oid4vp.C99_other_member",
    "Oid4vp.C99_without_part",
    "Oid4vp.C99_all_needed"
   ],
   "note": ""
  },
  {
   "property": "C100",
   "status": "proved",
   "theorems": [
    "Oid4vp.C100_built",
    "Oid4vp.C100_did",
    "Oid4vp.C100_hash",
    "Oid4vp.C100_san"
   ],
   "note": ""
  },
  {
   "property": "C101",
   "status": "proved",
   "theorems": [
    "Oid4vp.C101_library",
    "Oid4vp.C101_report",
    "Oid4vp.C101_plain_report",
    "Oid4vp.C101_moved",
    "Oid4vp.C101_moved_encrypted"
   ],
   "note": ""
  },
  {
   "property": "C102",
   "status": "proved",
   "theorems": [
    "Oid4vp.C102_read_stable",
    "Oid4vp.C102_put_back",
    "Oid4vp.C102_shared_member",
    "Oid4vp.C102_text_differs"
   ],
   "note": ""
  },
  {
   "property": "C103",
   "status": "proved",
   "theorems": [
    "Oid4vp.C103_reported",
    "Oid4vp.C103_begin",
    "Oid4vp.C103_agrees",
    "Oid4vp.C103_read_iff",
    "Oid4vp.C103_edited_refuses"
   ],
   "note": ""
  },
  {
   "property": "C104",
   "status": "proved",
   "theorems": [
    "Oid4vp.C104_content",
    "Oid4vp.C104_answered",
    "Oid4vp.C104_diverted",
    "Oid4vp.C104_anyone",
    "Oid4vp.C104_bound",
    "Oid4vp.C104_relayed"
   ],
   "note": ""
  },
  {
   "property": "C105",
   "status": "proved",
   "theorems": [
    "Oid4vp.C105_library",
    "Oid4vp.C105_one",
    "Oid4vp.C105_binds",
    "Oid4vp.C105_flows",
    "Oid4vp.C105_sessions",
    "Oid4vp.C105_bound",
    "Oid4vp.C105_dc_api",
    "Oid4vp.C105_dc_api_sessions"
   ],
   "note": ""
  },
  {
   "property": "C106",
   "status": "proved",
   "theorems": [
    "Oid4vp.C106_alone",
    "Oid4vp.C106_serial",
    "Oid4vp.C106_result",
    "Oid4vp.C106_answers",
    "Oid4vp.C106_stored",
    "Oid4vp.C106_result_unseen",
    "Oid4vp.C106_result_twice",
    "Oid4vp.C106_result_refused",
    "Oid4vp.C106_progress"
   ],
   "note": ""
  },
  {
   "property": "C107",
   "status": "proved",
   "theorems": [
    "Oid4vp.C107_progress",
    "Oid4vp.C107_alone",
    "Oid4vp.C107_serial",
    "Oid4vp.C107_linear",
    "Oid4vp.C107_answers",
    "Oid4vp.C107_sessions",
    "Oid4vp.C107_stale",
    "Oid4vp.C107_locked"
   ],
   "note": ""
  },
  {
   "property": "C108",
   "status": "proved",
   "theorems": [
    "Oid4vp.C108_kept"
   ],
   "note": ""
  },
  {
   "property": "C109",
   "status": "proved",
   "theorems": [
    "Oid4vp.C109_plain",
    "Oid4vp.C109_encrypted"
   ],
   "note": ""
  },
  {
   "property": "C110",
   "status": "proved",
   "theorems": [
    "Oid4vp.C110_resolves",
    "Oid4vp.C110_unique",
    "Oid4vp.C110_wf",
    "Oid4vp.C110_absolute",
    "Oid4vp.C110_same_place",
    "Oid4vp.C110_fragment"
   ],
   "note": ""
  },
  {
   "property": "C111",
   "status": "proved",
   "theorems": [
    "Oid4vp.C111_what_leaves",
    "Oid4vp.C111_responds",
    "Oid4vp.C111_announced_enc_unused",
    "Oid4vp.C111_only_the_answers",
    "Oid4vp.C111_unasked"
   ],
   "note": ""
  },
  {
   "property": "C112",
   "status": "proved",
   "theorems": [
    "Oid4vp.C112_noninterference"
   ],
   "note": ""
  },
  {
   "property": "C113",
   "status": "proved",
   "theorems": [
    "Oid4vp.C113_wallet_supports_more",
    "Oid4vp.C113_adding_prefixes",
    "Oid4vp.C113_announcing_restricts",
    "Oid4vp.C113_verifier_offers_more",
    "Oid4vp.C113_credentials_after",
    "Oid4vp.C113_bigger_store"
   ],
   "note": ""
  },
  {
   "property": "C114",
   "status": "proved",
   "theorems": [
    "Oid4vp.C114_reference_as_value",
    "Oid4vp.C114_any_place",
    "Oid4vp.C114_token_as_direct",
    "Oid4vp.C114_outer_differs"
   ],
   "note": ""
  },
  {
   "property": "C115",
   "status": "proved",
   "theorems": [
    "Oid4vp.C115_all_ids",
    "Oid4vp.C115_selection_meets_iff",
    "Oid4vp.C115_disclosure_meets_iff",
    "Oid4vp.C115_only_if_possible",
    "Oid4vp.C115_without_sets",
    "Oid4vp.C115_refused_with_one_missing",
    "Oid4vp.C115_all_options_disclosed",
    "Oid4vp.C115_one_each",
    "Oid4vp.C115_alternative_refused",
    "Oid4vp.C115_both_alternatives",
    "Oid4vp.C115_references_unchecked"
   ],
   "note": ""
  },
  {
   "property": "C116",
   "status": "proved",
   "theorems": [
    "Oid4vp.C116_thumbprint",
    "Oid4vp.C116_same_key",
    "Oid4vp.C116_answer_key",
    "Oid4vp.C116_no_other_key",
    "Oid4vp.C116_substituted",
    "Oid4vp.C116_substituted_fits",
    "Oid4vp.C116_substituted_accepted"
   ],
   "note": ""
  },
  {
   "property": "C117",
   "status": "proved",
   "theorems": [
    "Oid4vp.C117_without_consent",
    "Oid4vp.C117_refusal_tells",
    "Oid4vp.C117_nothing_more",
    "Oid4vp.C117_not_values",
    "Oid4vp.C117_probe",
    "Oid4vp.C117_probe_type"
   ],
   "note": ""
  },
  {
   "property": "C118",
   "status": "proved",
   "theorems": [
    "Oid4vp.C118_ledger",
    "Oid4vp.C118_in_turn",
    "Oid4vp.C118_only_stale_retrievals",
    "Oid4vp.C118_by_value",
    "Oid4vp.C118_example_validator",
    "Oid4vp.C118_stale_retrieval_differs"
   ],
   "note": ""
  },
  {
   "property": "C119",
   "status": "proved",
   "theorems": [
    "Oid4vp.C119_kept_iff",
    "Oid4vp.C119_one_session",
    "Oid4vp.C119_endpoint_itself",
    "Oid4vp.C119_strict_wallets",
    "Oid4vp.C119_example_wallet"
   ],
   "note": ""
  },
  {
   "property": "C120",
   "status": "proved",
   "theorems": [
    "Oid4vp.C120_shown",
    "Oid4vp.C120_encrypted_read",
    "Oid4vp.C120_forged",
    "Oid4vp.C120_cli_shown",
    "Oid4vp.C120_cli_forged"
   ],
   "note": ""
  },
  {
   "property": "C121",
   "status": "proved",
   "theorems": [
    "Oid4vp.C121_config",
    "Oid4vp.C121_client",
    "Oid4vp.C121_mode",
    "Oid4vp.C121_endpoints",
    "Oid4vp.C121_never_both"
   ],
   "note": ""
  },
  {
   "property": "C122",
   "status": "proved",
   "theorems": [
    "Oid4vp.C122_denied",
    "Oid4vp.C122_sends_iff",
    "Oid4vp.C122_shipped_no_pid",
    "Oid4vp.C122_shipped",
    "Oid4vp.C122_shipped_cli"
   ],
   "note": ""
  },
  {
   "property": "C123",
   "status": "proved",
   "theorems": [
    "Oid4vp.C123_starts_iff",
    "Oid4vp.C123_started",
    "Oid4vp.C123_addresses",
    "Oid4vp.C123_program_denies"
   ],
   "note": ""
  },
  {
   "property": "C124",
   "status": "proved",
   "theorems": [
    "Oid4vp.C124_signs",
    "Oid4vp.C124_one_secret",
    "Oid4vp.C124_presents",
    "Oid4vp.C124_bound",
    "Oid4vp.C124_wallet",
    "Oid4vp.C124_issuer_unsigned"
   ],
   "note": ""
  },
  {
   "property": "C125",
   "status": "proved",
   "theorems": [
    "Oid4vp.C125_verify_iff",
    "Oid4vp.C125_key_iff",
    "Oid4vp.C125_certificate_iff",
    "Oid4vp.C125_signer",
    "Oid4vp.C125_can_sign",
    "Oid4vp.C125_bundled"
   ],
   "note": ""
  },
  {
   "property": "C126",
   "status": "proved",
   "theorems": [
    "Oid4vp.C126_shared",
    "Oid4vp.C126_kdf_iff",
    "Oid4vp.C126_decrypt_iff",
    "Oid4vp.C126_reads",
    "Oid4vp.C126_encrypts",
    "Oid4vp.C126_key_works",
    "Oid4vp.C126_answer",
    "Oid4vp.C126_flow"
   ],
   "note": ""
  },
  {
   "property": "C127",
   "status": "proved",
   "theorems": [
    "Oid4vp.C127_ghash_iff",
    "Oid4vp.C127_lock_iff",
    "Oid4vp.C127_unlock_iff",
    "Oid4vp.C127_opens",
    "Oid4vp.C127_locks",
    "Oid4vp.C127_key_works",
    "Oid4vp.C127_flow"
   ],
   "note": ""
  },
  {
   "property": "C128",
   "status": "proved",
   "theorems": [
    "Oid4vp.C128_encrypt_iff",
    "Oid4vp.C128_cipher",
    "Oid4vp.C128_gcm_iff",
    "Oid4vp.C128_aes_exists",
    "Oid4vp.C128_key_works"
   ],
   "note": ""
  }
 ]
}
