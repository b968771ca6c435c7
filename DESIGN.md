# Formal model of spruceid/openid4vp in Lean 4

`/verif/lean` is a Lake project. `Verif/Model/*` models the Rust code function by
function (each definition cites file and lines of `/repo`). `Verif/Spec/*` and the
statements in `Verif/Props/*` say what the properties of `properties.jsonl` mean,
without using the model's helpers wherever an independent formulation exists.
`Verif/Lemmas/*` holds auxiliary lemmas.

## Method

* Rust functions become total functions. `Result` is `Except Err`, `Option` stays
  `Option`, a panic is an explicit error value, `&mut self` returns the new value.
* Text is `List Char` (`Str`), bytes are `List UInt8`. Texts are turned into bytes by a
  model of UTF-8.
* `serde_json::Map` (a `BTreeMap`) is a strictly sorted association list; `HashMap`s are
  the same with an explicit, arbitrary enumeration order where iteration is observable.
* Calls to third parties are either modelled concretely (JSON text, base64, form
  encoding, URL splitting, CBOR subset, UUID text) or are parameters of the model over which
  the theorems quantify (SHA-256, signing and signature verification, DER and X.509,
  JWK/JWE libraries, DID resolvers, HTTP, wallet callbacks, validators).
* Observable effects (HTTP requests, calls of verification methods) are recorded in a
  trace returned next to the result; session-store effects are state changes.
* Concurrency of the verifier is an interleaving of atomic store operations (the store's
  lock is held only inside one operation), with abandonment at any point.

## Plan per property

| property | modelled | how proved |
|---|---|---|
| C01 | `UntypedObject` | refinement to a function `key → Option value`, induction over histories |
| C02, C03 | every `TypedParameter` | round-trip lemmas per type; counterexamples for catch-all variants |
| C04–C06 | `TryFrom<UntypedObject>` | case analysis to an independent acceptance predicate; witness for stale accessors |
| C07–C10 | form encoding, URL split/print, serde flatten/untagged | round trip by induction on text |
| C11–C18 | resolve/validate/verify_request with traces | decision logic over arbitrary environments |
| C19–C22 | did, x509_san, x509_hash validators and clients | soundness by inversion; completeness by composing codecs |
| C23–C28 | request builder, wallet, response codec | composition |
| C29–C34 | store, interleaving semantics | invariants by induction over executions; witnesses for lost update and replay |
| C35–C37 | `submit_response`, form classification | decision logic, iff characterisations |
| C38–C42 | JWE builder, key selection, thumbprint | decision logic; witnesses for disagreements |
| C43, C44 | CBOR encoder/decoder | injectivity, round trip, and equivalence with a grammar of items |
| C45–C50 | DCQL, formats, metadata | structural round trips |
| C51, C52 | JSON text, base64 | round trips by structural induction |
| C53–C59 | example wallet, its endpoint and answers | soundness by induction over queries/strings; traces |
| C60, C61 | routes of the example verifier | induction over call sequences; injectivity of the status document |
| C63, C64 | command-line verifier: query and metadata | induction over the list of types |
| C62 | example wallet and example verifier together | composition of the request, response and route theorems |
| C65 | command-line verifier from start to result | composition; induction over call sequences |
| C66 | certificate cache of the example verifier | invariant over sequences of starts |
| C67 | `VerifierBuilder`, `RequestBuilder` | induction over histories of calls |
| C68 | interleaving semantics | invariant by induction over executions |
| C69 | JSON form of responses | iff characterisations; round trip |
| C70 | URL texts: the whole URL standard except `file` and international domains | iff characterisation against a declarative grammar |
| C71 | layout of handovers and transcripts | refinement to an independent CBOR layout |
| C72 | tokens and identities of the bundled clients | iff characterisations against independent base64/JSON parts |
| C73 | which texts are JSON | parser = grammar of RFC 8259 (inductive, independent of the parser), both directions by induction on nesting |
| C74 | names, meanings and defaults of all typed parameters | iff against the standard's names and JSON kinds (Spec/Vocabulary, inductive relations) |
| C75 | JSON of DCQL queries | reading and writing against one relation between JSON and queries |
| C76 | JSON and map interface of vp_token | the same, and induction over insertions |
| C77 | the example wallet's endpoint as a whole | iff between the function and an inductive relation of its cases (Spec/EndpointAnswer) |
| C78 | the example wallet as an HTTP server | iff between the function and an inductive relation of its cases (Spec/WalletApp); C77 for the endpoint |
| C79 | announced metadata, request validation, request builder | evaluation of the document, then C15, C23 and C77 |
| C80 | credentials file of the example wallet | JSON texts with all their members (Spec/JsonRaw), then field by field; evaluation of the embedded file |
| C81 | status of a session as JSON | documents of a status (Spec/StatusJson), values and texts; round trip with the exact depth |
| C82 | the example verifier as an HTTP server | iff between the function and an inductive relation of its cases (Spec/VerifierHttp) via C60; effect of one request, then induction over histories |
| C83 | editing DCQL queries | members of the written document (Spec/DcqlEdit), one case per setter; induction over sequences of edits |
| C84 | claim formats with parameters | documents of a format (Spec/ClaimFormat), iff with reading; round trip and designation from it |
| C85 | HTTP server and console of the command-line verifier | relational specification of requests, induction over runs |
| C86 | bundled HTTP client | chain of redirects as a relation; induction on the number of redirects left; consequences for submission and fetching |
| C87 | whole decision of a wallet | declarative specification of acceptance and of the events (Spec/Decision), iff |
| C88 | verifier over any session store | call logs over arbitrary stores; simulation of any lawful store by the bundled one, transfer of C30/C32/C68 |
| C89 | statuses of sessions | case analysis of the builder; invariant over all interleavings |
| C90 | What stands beside a request object has no effect | `Props/Beside`: `C90_beside_ignored` (pairs of URLs), `C90_object_of_jwt`, `C90_outer_client_only_refuses`, `C90_only_get`; with `C11_untyped_clients` |
| C91 | A whole exchange between a verifier and a wallet | `Props/TestExchange`: `C91_network` (the test's HTTP client), `C91_submitted`, `C91_exchange` (the whole test), `C91_other_kind`, `C91_last_decides`, `C91_untouched`, `C91_only_trusted` |
| C92 | Random nonces | `Props/Nonce`: `C92_drawn` (exactly which nonce), `C92_alphanumeric`, `C92_uniform`, `C92_every_nonce`, `C92_reachable`, `C92_enough`, `C92_unescaped` |
| C93 | The bundled signer | `Props/BundledSigner`: `C93_es256`, `C93_key_determined`, `C93_traits_agree`, `C93_did_iff`, `C93_certificate_iff` |
| C94 | The hash is SHA-256 | `Props/Sha256`: `C94_is_sha256` (iff with the indexed definition of the standard, Spec/Sha256), `C94_length`, `C94_padding`, `C94_padded`, `C94_transcript`, `C94_dc_api_transcript`, `C94_thumbprint`, `C94_hash_client`, `C94_hash_verified`; the published vectors as examples |
| C95 | The builder of encrypted tokens | `Props/JweBuilder`: `C95_calls_succeed_iff`, `C95_built_iff`, `C95_refused`, `C95_response_calls` |
| C96 | What of its metadata a wallet's decision depends on | `Props/DecisionInputs`: `C96_three_parameters`, `C96_unencrypted`, `C96_preregistered_iff`, `C96_preregistered_any_prefixes`, `C96_written_out` |
| C97 | Requests that a wallet accepts come from the client they name | `Props/Authentic`: `C97_did`, `C97_hash`, `C97_san`, `C97_san_any_certificate` (the opposite of what a trust anchor should give) |
| C98 | Which inputs make the library panic | `Props/NoPanic`: `C98_wallet`, `C98_methods`, `C98_reading`, `C98_parameters`, `C98_verifier`, `C98_encrypted` (these never), `C98_clients`, `C98_presentation` (exactly when), `C98_static`, `C98_cli_query`, `C98_cli_start` (these never) |
| C99 | Which members of a request object decide | `Props/RequestInputs`: `C99_reading`, `C99_decision`, `C99_methods`, `C99_direct`, `C99_other_member`, `C99_without_part`, `C99_all_needed` |
| C100 | Where the answer to an accepted request goes | `Props/Delivery`: `C100_built`, `C100_did`, `C100_hash`, `C100_san` |
| C101 | What binds a response to its session | `Props/Moved`: `C101_library`, `C101_report`, `C101_plain_report`, `C101_moved`, `C101_moved_encrypted` |
| C102 | What is read from an object can be put back | `Spec/PutBack.lean` (`ReadIn`, `putIn`, `SameValue`), `Props/PutBack.lean`: `C102_read_stable` (a value read is proper, representable and survives), `C102_put_back`, `C102_shared_member`, `C102_text_differs` (witnesses that the member's text changes) |
| C103 | The endpoint a request is built for and the endpoint where the wallet takes it | `Spec/MetadataHistory` (`MetaOp`, `Becomes`, `EndpointAgrees`), `Props/MetadataHistory`: `C103_reported`, `C103_begin`, `C103_agrees`, `C103_read_iff`, `C103_edited_refuses` |
| C104 | Who can have the example wallet's answer | `Spec/Relay` (`AskAlike`, `Diverted`, `Takeable`, `Poses`), `Props/Relay`: `C104_content`, `C104_answered`, `C104_diverted`, `C104_anyone`, `C104_bound`, `C104_relayed` |
| C105 | A presentation that is bound to the session transcript is good for one session | `Spec/Bound` (`ThumbFor`, `RedirectText`, `RedirectTranscript`, `DcApiTranscript`, `SameBinding`, `HashesCollide`), `Props/Bound`: `C105_library`, `C105_one`, `C105_binds`, `C105_flows`, `C105_sessions`, `C105_bound`, `C105_dc_api`, `C105_dc_api_sessions` |
| C106 | The command-line verifier with several requests at once | `Model/CliTasks`, `Spec/CliTasks` (`Shows`, `Turns`, `ResultOf`, `Grants`, `Refuses`, `Orderly`, `OneByOne`), `Props/CliTasks`: `C106_alone`, `C106_serial`, `C106_result`, `C106_answers`, `C106_stored`, `C106_progress` (`Props/Progress`); findings `C106_result_unseen`, `C106_result_twice`, `C106_result_refused` |
| C107 | The example verifier with several requests at once | `Model/VerifierTasks`, `Spec/VerifierTasks` (`Arrives`, `InTurn`, `LockedOut`, `StaleMark`, `Origin`, `Comes`, `Undisturbed`, `Serially`), `Props/VerifierTasks`: `C107_alone`, `C107_serial`, `C107_linear`, `C107_answers`, `C107_sessions`, `C107_progress` (`Props/Progress`); findings `C107_stale`, `C107_locked` |
| C108 | A proper exchange with the example verifier is not undone by other requests | `Spec/VerifierTasks` (`DrawnOnce`, `Granted`), `Props/VerifierKept`: `C108_kept` |
| C109 | The example wallet and the example verifier amid other requests | `Spec/Amid` (`AsksAt`, `Given`, `Brings`, `NoneRetrieving`, `EndsWith`), `Props/Amid`: `C109_plain`, `C109_encrypted` |
| C110 | Resolving references (`Url::join`) | `Spec/UrlJoin` (`Resolves`, RFC 3986 style: directory of the base, reference, dots removed), `Props/UrlJoin`: `C110_resolves`, `C110_wf`, `C110_absolute`, `C110_same_place`, `C110_fragment` |
| C111 | What leaves the example wallet | `Spec/Disclosure` (`MereVisit`, `TheResponse`, `Disclosed`, `DisclosingBody`, `AskedBy`, `Wanted`), which, unlike `Spec/EndpointAnswer`, mentions no function of the wallet; `Props/Disclosure`: `C111_what_leaves`, `C111_responds`, `C111_only_the_answers`, `C111_unasked`; comparison of two runs by induction over the queries |
| C112 | Users of some sessions learn nothing of the others | `Spec/Observer` (`Concerns`, `Elsewhere`, `LikeMove`); `Props/Observer`: `C112_noninterference`; a relation between two running servers (equal handlers for sessions of the set, any handlers elsewhere), kept by every pair of like moves. The lock is part of the moves: that a handler finds it held (C107) is not hidden |
| C113 | Supporting, offering and holding more gets nothing refused | `Spec/Monotone` (`ListGrows`, `SupportsMore`, `OffersMore`); `Props/Monotone`: `C113_wallet_supports_more`, `C113_adding_prefixes`, `C113_announcing_restricts`, `C113_verifier_offers_more`, `C113_credentials_after`, `C113_bigger_store`; through the characterizations of C15, C87, C77 and C111 |
| C114 | How a request reaches the wallet makes no difference | `Props/Passing`: `C114_reference_as_value` (effects and result of a request by reference are those of the fetched token by value, after the one GET), `C114_any_place`, `C114_token_as_direct` (a typed token as the same parameters passed directly, for methods that do not ask for the token), `C114_outer_differs` (where the outer client identifier differs: the token refused, of direct parameters the outer one taken) |
| C115 | The example wallet and credential sets | `Spec/CredentialSets` (`MeetsSets` after OpenID4VP 6.4.2, `CanAnswer`, `SetsRefer`, `DistinctIds`); `Props/CredentialSets`: `C115_all_ids`, `C115_selection_meets_iff`, `C115_disclosure_meets_iff` (of the VP token, through C111), `C115_only_if_possible`, `C115_without_sets` (selects iff it can be answered), `C115_one_each`; the findings `C115_refused_with_one_missing`, `C115_alternative_refused`, `C115_all_options_disclosed`, `C115_both_alternatives`, `C115_references_unchecked` |
| C116 | The key in the transcript and the key of the answer | `Spec/BoundKey` (`TranscriptKey`, `AnswerKey`, `bareKey`, `withKeys`); `Props/BoundKey`: `C116_thumbprint`, `C116_same_key`, `C116_answer_key`, `C116_no_other_key`; the finding `C116_substituted`, `C116_substituted_fits`, `C116_substituted_accepted` (on C105, C41, C42, C15) |
| C117 | What refusals tell of the wallet's holdings | `Spec/Holdings` (`HoldsAll`, `Unanswerable`, `LooksLike`, `probe`); `Props/Holdings`: `C117_without_consent`, `C117_nothing_more`, `C117_not_values`; the finding `C117_refusal_tells`, `C117_probe`, `C117_probe_type` (on C77, C53, C75) |
| C118 | Interleaved operations and operations in turn | `Spec/Serial` (`alone`, `inTurn`, `Ledger`, `Overtaken`, `StaleRetrieval`, `FreshIds`, `StatusUnseen`); `Props/Serial`: `C118_ledger`, `C118_in_turn`, `C118_only_stale_retrievals`, `C118_by_value`; the finding `C118_stale_retrieval_differs` (on C30, C31) |
| C119 | Verifiers known by a redirect address | `Spec/RedirectRule` (`KeepsRedirectRule`, `KnownBy`, `ChecksRedirects`, `PostedSession`); `Props/RedirectRule`: `C119_kept_iff`; the finding `C119_one_session`, `C119_endpoint_itself`, `C119_strict_wallets`, `C119_example_wallet` (on C24, C56, C65) |
| C120 | What can be done with a request URL | `Spec/Shown` (`ShowsId`, `TextShowsId`, `emptyBody`); `Props/Shown`: `C120_shown`, `C120_cli_shown`; the findings `C120_encrypted_read`, `C120_forged`, `C120_cli_forged` (on C08, C09, C10, C61, C62, C65) |
| C121 | What the example verifier prints | `Spec/VerifierMain` (`Launched`, `BoxShows`, `Lists`, `BlockIs`, `PlainBase`); `Props/VerifierMain`: `C121_config`, `C121_client`, `C121_mode`, `C121_endpoints`, `C121_never_both` (on C62, C66, C72, C73) |
| C122 | The two examples with each other | `Spec/Shipped` (`OpensRequests`, `HoldsPid`, `Shipped`, `Denied`); `Props/Shipped`: `C122_denied`, `C122_sends_iff`, `C122_shipped_no_pid`, `C122_shipped`, `C122_shipped_cli` (on C45, C53, C61–C63, C65, C80) |
| C123 | The start of the example wallet | `Spec/WalletMain` (`PublicText`, `PlainAddress`, `WalletLaunched`, `ListsAddress`, `Visit`); `Props/WalletMain`: `C123_starts_iff`, `C123_started`, `C123_addresses`, `C123_program_denies` (on C70, C78, C80, C122) |
| C124 | The holder key of the example wallet | `Spec/P256` (the curve over `ZMod` of its prime with Mathlib's group, `IsSignature`), `Spec/HolderKey` (`JwkOf`, `Es256`, `SignedFor`, `BoundToKey`, `KeyPair`); `Lemmas/Pocklington` (both moduli are prime), `Lemmas/P256` (the computed addition is the group's); `Props/HolderKey`: `C124_signs`, `C124_one_secret`, `C124_presents`, `C124_bound`, `C124_wallet`, `C124_issuer_unsigned` (on C55, C80, C94, C123) |
| C125 | The bundled P-256 verifier and signer | `Spec/P256`, `Spec/HolderKey` (`Es256On`, `SpkiWith`, `SpkiOf`); `Props/P256Verifier`: `C125_verify_iff`, `C125_key_iff`, `C125_certificate_iff`, `C125_signer`, `C125_can_sign`, `C125_bundled` (on C20, C21, C93, C94, C124) |
| C126 | What is encrypted to the verifier's key is what the verifier reads | `Spec/EcdhEs` (`Shared`, `DerivedKey`, `ContentKey`, `SaysTo`, `Opens`), `Spec/P256`, `Spec/HolderKey` (`JwkOf`, `KeyPair`); `Props/EcdhEs`: `C126_shared`, `C126_kdf_iff`, `C126_decrypt_iff`, `C126_encrypts`, `C126_reads`, `C126_key_works`, `C126_answer`, `C126_flow` (on C39, C62, C94, C124, C125) |
| C127 | The content encryption of responses is GCM and opens exactly what it locks | `Spec/Gcm` (`element`, `modulus`, `IsGhash`, `IsGcm`), `Spec/EcdhEs` (`Opens`); `Props/Gcm`: `C127_ghash_iff`, `C127_lock_iff`, `C127_unlock_iff`, `C127_opens`, `C127_locks`, `C127_key_works`, `C127_flow` (on C62, C126) |
| C128 | The block cipher of encrypted responses is AES | `Spec/Aes` (`element`, `modulus`, `IsSub`, `SubShift`, `MixColumns`, `AddRoundKey`, `KeySchedule`, `Encrypts`), `Spec/Gcm`; `Props/Aes`: `C128_encrypt_iff`, `C128_cipher`, `C128_gcm_iff`, `C128_aes_exists`, `C128_key_works` (on C127) |
| C27 | request builder + wallet | composition of C22, C24, C25, C12 |

## Trusted base

* Lean's kernel (4.33.0), and the axioms Lean and Mathlib theorems use: `propext`,
  `Classical.choice`, `Quot.sound`. No theorem of this project depends on anything else. There is
  no `sorry`, `admit`, `axiom`, `native_decide`, `bv_decide`, `implemented_by` or `unsafe`.
  `#print axioms Oid4vp.<theorem>` after `import Verif` checks this for one theorem.
* That the definitions in `Verif/Model` say what the Rust code does. The code was read, not run;
  each definition cites its source so that a reader can compare. As a check of this reading, the unit and
  documentation tests of /repo are replayed on the model in `Props/RepoTests`, with the inputs and expected
  values of the project; these are tests, no claim rests on them.
* That the statements in `Verif/Props` (with the definitions in `Verif/Spec`) say what
  `properties.jsonl` says.

### What is modelled

| model file | source |
|---|---|
| `Basic`, `Utf8`, `Json`, `JsonText`, `JsonPretty`, `Base64`, `Form`, `Url`, `UrlText` | the behaviour of `std`, `serde_json`, `base64`, `serde_urlencoded`, `url`, `uuid` the library relies on |
| `Object` | src/core/object/mod.rs |
| `Params` | src/core/authorization_request/parameters.rs, src/core/metadata/**, src/core/response/parameters.rs |
| `Format` | src/core/credential_format/mod.rs |
| `Dcql` | src/core/dcql_query.rs, src/utils.rs |
| `AuthRequest` | src/core/authorization_request/mod.rs, src/core/authorization_request/verification/mod.rs, src/wallet.rs |
| `Verification` | src/core/authorization_request/verification/{did,x509_san,x509_hash,verifier}.rs, src/verifier/client.rs, src/verifier/request_signer.rs |
| `Iso` | src/core/iso_18013_7/mod.rs |
| `Jwe` | src/core/jwe.rs |
| `Response` | src/core/response/mod.rs, src/wallet.rs (`submit_response`) |
| `Session` | openid4vp-frontend/src/lib.rs, src/verifier/{mod,session,request_builder,by_reference}.rs |
| `AnyStore` | src/verifier/session.rs (`trait SessionStore`), src/verifier/{mod,request_builder}.rs over an arbitrary implementation of it |
| `Sha256` | `Sha256::digest` of crate `sha2`, from FIPS 180-4; the other model files take the hash as a parameter |
| `JweBuilder` | src/core/jwe.rs:44-143 (the setters of the builder, as histories of calls) |
| `TestExchange` | tests/jwt_vc.rs (`MockHttpClient`, `RequestVerifier`, the test wallet) |
| `Nonce` | src/core/authorization_request/parameters.rs (`Nonce::random`), with `Alphanumeric` of crate `rand` 0.8 as read from its documentation; the generator is any sequence of 32-bit words |
| `Example` | examples/wallet-conformance-adapter (store, matcher, presentations, authorization endpoint), examples/verifier-conformance-adapter/server/handlers.rs (routes) |
| `WalletApp` | examples/wallet-conformance-adapter (routes, documents, reading of parameters and of the credentials file) |
| `VerifierHttp` | examples/verifier-conformance-adapter/server/{mod,handlers}.rs (routes, extractors, answers) |
| `StatusJson` | openid4vp-frontend/src/lib.rs (JSON of statuses) |
| `VerifierApp` | examples/verifier-conformance-adapter/server/{state,handlers}.rs, crypto/jwe.rs |
| `VerifierMain` | examples/verifier-conformance-adapter/main.rs (`main` up to the socket, `print_startup_banner`), server/state.rs (`OidfConfig`, `build_oidf_config`); the numbers of a key are a parameter, command line reading and logging are not modelled |
| `WalletMain` | examples/wallet-conformance-adapter/main.rs (`main` up to the socket, `print_startup_banner`), config.rs, `HeadlessEngine::new`, `AppState::new`; which texts are socket addresses is a parameter; command line reading, logging and the delay are not modelled |
| `P256`, `HolderKey` | examples/wallet-conformance-adapter/crypto/keys.rs with the secret in place; the arithmetic of the crate `p256` is written out in affine coordinates (values only, not its formulas or timing); the one-time number, which the crate computes after RFC 6979, is a parameter; where the crate panics the signature is empty |
| `P256Verifier` | src/core/authorization_request/verification/verifier.rs (`P256Verifier`), src/verifier/request_signer.rs (`P256Signer`) with the arithmetic of the curve; what is made of compressed and compact points is a parameter |
| `EcdhEs` | the calls of `josekit` at src/core/jwe.rs:137-140 and examples/verifier-conformance-adapter/crypto/jwe.rs:12-17, and `generate_encryption_key` of examples/verifier-conformance-adapter/server/state.rs, with the arithmetic of the curve, the key derivation and the compact form after RFC 7516 and 7518; the content encryption (`Aead`) is a parameter, headers with `zip` or `crit` are refused |
| `Gcm` | the content encryptions A128GCM, A192GCM and A256GCM inside the same calls of `josekit`, after NIST SP 800-38D; the block cipher (AES) and the content encryptions other than GCM are parameters |
| `Aes` | the block cipher inside the same calls of `josekit`, after FIPS 197 (values only, not timing) |
| `Cli` | examples/cli-verifier/main.rs (queries, metadata, handlers, `main` up to the request) |
| `HttpClient` | src/core/util/mod.rs:18-68 (`ReqwestClient`) with the redirects of crate `reqwest` |
| `CliHttp` | examples/cli-verifier/main.rs (routes, extractors, answers, everything printed; the QR code is a parameter, log output, port binding and interruption are not modelled) |
| `CliTasks` | examples/cli-verifier/main.rs (handlers interleaving between accesses to what they share; the lines of one status are printed at once) |
| `VerifierTasks` | examples/verifier-conformance-adapter/server/handlers.rs, src/verifier/mod.rs (handlers interleaving between accesses to the session store; the end of the process is not modelled; that the store is found locked is a choice of the execution, whoever holds the lock) |

### What is not modelled

* TLS, the network, cookies and default headers of `reqwest`, `axum` routing except that of the
  example wallet and the example verifier, logging,
  command-line parsing, generation of keys and certificates.
* The cryptography other than SHA-256 (C94), ECDSA on P-256 (C124, C125), ECDH-ES on P-256 (C126), GCM (C127) and
  AES (C128), of which the computed values are modelled. Not modelled are the CBC content encryptions, other
  signatures, X.509 and DER parsing and the internals of `ssi`, `josekit` and `p256`. Nothing is proved about secrecy or unforgeability.
* Memory, time-outs and the scheduler, except that the interleaving of verifier operations is
  arbitrary and any of them may be abandoned at any point.
* Error texts. An error is an `Err` tag that says which branch failed.
* `Debug`/`Display` of values other than those that end up in data.

### Parameters of the model

The theorems quantify over these; where a theorem needs something of them it is a hypothesis.

* `sha256`, `SigVerifier`, `Ssi.verify alg msg key sig`, `SsiHeader` (typed JOSE header parsing of
  `ssi`), X.509 (leaf, SAN list, public key, DER), DID resolver, `Josekit` (`jwkOk`, `claimOk`,
  `encrypt`; in C126 the encryption is computed, with the content encryption, the one-time secret and the
  initialization vector as parameters; in C127 of the content encryption under GCM names only the block cipher, in C128 nothing), `Holder` (hash, signature, clock; in C124 the hash and the signature are computed, with the
  one-time number of each message as parameter), `str::to_lowercase`.
* HTTP: a function from request to response or failure; `Wallet.uriOk`: acceptance of an address by
  the `http` crate. A wallet's callbacks and a verifier's validator are arbitrary functions.
* `MapOrder`: the enumeration order of a `HashMap`.
* Example verifier: `Pki` (generation and reading of certificates), `Draw` (random values), `EncKey.decrypt`
  (decryption with the session key), the certificate cache directory (`Files`, whether it is writable).
* Example wallet's server: the crate version, the coordinates of the holder's key, error texts (`App`). The text of a
  verifier's answer, if its body does not break off (`Adapter.text`, `Response::text` of `reqwest`).
* Example verifier's server (`Server`): which content types are JSON (crate `mime`), whether what is wrong with a
  body is its JSON or its content (`serde_json`'s error category, 400 or 422), error texts.
* Bundled HTTP client (`HttpClient.Net`): the answers of the network, which addresses the `http`
  crate can use, the limit on redirects.
* Whether a `try_lock` of the store fails (`busy`); in `AnyStore` the whole session store.

### Assumptions on third-party code that is modelled concretely

* `josekit` (C126): a decrypter made from a JWK with `kid` wants the same `kid` in the header; ECDH-ES is direct
  key agreement, with an empty encrypted key; coordinates in JWKs have 32 bytes. GCM (C127) takes vectors of 12 bytes and
  tags of 16 bytes only.
* `serde_json`: `Map` is sorted (feature `preserve_order` off; /repo/Cargo.toml:59 turns it on for the
  examples and tests, where objects are then written in the order of insertion: what is read from them is
  the same by `C73_any_order`, the texts themselves are those of the sorted order), last duplicate member wins,
  recursion limit 127 for text and none for `from_value`; floats are kept as their literal text
  (`FltLit`); the program reads a float as the nearest `f64` and refuses one out of its range, which is not modelled.
  The feature `arbitrary_precision` is taken to be off (with it floats are kept as text as in the model, but numbers
  could not be written as form fields, nor read from text into an untagged enum);
  integers outside i64/u64 become floats. Derived structs also accept arrays
  positionally; `null` and absence give `None`.
* serde `untagged` tries the variants in order; `flatten` with `untagged` buffers all members.
* `serde_urlencoded`/`form_urlencoded`: as in the WHATWG URL standard; invalid UTF-8 is replaced
  as `String::from_utf8_lossy` does (one U+FFFD per maximal prefix of a sequence).
* `url`: reads texts as in the URL standard of the WHATWG, modelled state by state in `Model/UrlText` and
  `Model/Url` and characterised independently in `Spec/Url` (`C70_url_iff`); references (`Url::join`) likewise in
  `Model/UrlJoin` and `Spec/UrlJoin` (`C110_resolves`). Not modelled: the rules of the
  scheme `file` (read like an unknown scheme) and the processing of international domain names, which is an
  unknown function `idna` whose results are ASCII without capitals, which is the identity on its results with
  `xn--` labels, and which has no result for domains with forbidden ASCII characters. `set_query` leaves form output unchanged, `query_pairs_mut` appends,
  `path_segments_mut().push` percent-encodes the segment (only UUIDs are pushed).
* `uuid`: simple, hyphenated, braced and `urn:uuid:` forms, hexadecimal digits in either case.
* `ssi::split_jws` is `splitn(3, '.')`.
* `ciborium`: heads, tags, strings in pieces and indefinite lengths as in version 0.2; where a byte string is
  wanted, an array of numbers below 256 (integers or big numbers) is one too. As in the crate, an array of indefinite length can be read
  on after its break, so that `9F FF FF <handover>` is a transcript.
  Lengths are below 2^64.
* `axum` 0.7, `tower_http` (example wallet and verifier): unknown path 404, other method 405, HEAD is GET without the
  body, every OPTIONS request is answered by the CORS layer, body above the limit 413, `Query` refuses
  with 400, `Form` with 415 and 422, `Json` with 415, 400 and 422 and does not look at what follows the
  value; `:name` in a route is one segment that is not empty, percent-decoded by `Path`.
* `reqwest` 0.12 for GET and POST: redirects as its default policy follows them (301, 302 and 303 with a GET
  without body, 307 and 308 with the request repeated; first `location`; only to http and https).
* `base64`: rejects non-zero trailing bits and, without padding, any `=`.

## Where the code disagrees with a property

Each item is a theorem with a concrete witness. The property's claim is then `partial` (or stated
with the exact condition).

| property | disagreement | theorem |
|---|---|---|
| C02, C45, C49 | a catch-all value spelled like a known name does not come back as itself | `C02_collision`, `C45_collision`, … |
| C06 | accessors of a request object are cached and go stale after editing through `DerefMut` | `C06_stale_after_edit` |
| C08 | the scheme of the endpoint is not compared | in `Props/RequestUrl` |
| C14 | a request object without client_id is accepted for any outer client_id | `C14_inner_absent_accepted` |
| C16 | a request object without `response_mode` parses but is always refused by validation | `C16_missing_mode_refused` |
| C19 | an unsigned request is accepted if its `alg` contains "none" and the wallet lists it | `C19_none_accepted` |
| C20 | the trusted roots given to `x509_san_dns` are ignored | in `Props/Verify` |
| C22 | a DID URL with two `#`: what the client signs is refused; an empty certificate chain panics | `C22_did_two_hashes`, … |
| C98 | a client from an empty certificate chain, and an item of a `vp_token` from a presentation that is not an object, panic instead of returning an error | `C98_clients`, `C98_presentation` |
| C99 | no member outside seven plays a part in accepting a request: not `transaction_data` (a wallet must refuse what it does not support), `expected_origins`, `aud`, nor the query, which may be absent | `C99_other_member`, `C99_without_part` |
| C62 | a verifier that asks for encrypted responses reports success for plain ones | `C62_downgrade` |
| C101 | nothing binds a response to its session: what was posted for one session of the example verifier is reported as a success of any other one, whatever its nonce | `C101_moved`, `C101_moved_encrypted`, `C101_report` |
| C104 | the example wallet checks no signature, so anyone who saw a request can have its answer sent in plain to an address of their own, and hand it to the verifier for their own session | `C104_diverted`, `C104_anyone`, `C104_relayed` |
| C105 | over the Digital Credentials API the transcript does not depend on the session id: sessions with the same nonce, origin and key are told apart by nothing, and the builder takes any nonce it is given | `C105_dc_api_sessions` |
| C106 | the command-line verifier reads the shared status again before it prints it, so another request can make it stop without ever displaying the result, or display it twice; completion is notified and the result displayed before the verdict is stored, so a refused response can end the program | `C106_result_unseen`, `C106_result_twice`, `C106_result_refused` |
| C107 | `retrieve_authorization_request` reads the session and marks it in two steps, so a response stored in between is overwritten and the result lost; the session store is only tried, not awaited, so a request for a stored session can be answered 404 or 500 while another one is handled | `C107_stale`, `C107_locked` |
| C28 | a presentation nested deeper than 125 brackets is sent but refused on arrival | in `Props/Response` |
| C31 | a retrieval racing with a response sets a completed session back | `C31_lost_update` |
| C33 | a replayed response is verified again and overwrites the outcome | `C33_replay_overwrites` |
| C38 | an unreadable first suitable key aborts the selection | `C38_unreadable_key_aborts` |
| C40 | the `enc` used may be one the wallet does not support; the key used may be one validation did not look at | `C40_unsupported_enc_used`, `C40_unconsidered_key_used`, `C40_usable_key_refused` |
| C41 | the transcript may commit to another key than the one used | `C41_other_key_committed` |
| C42 | thumbprint members are not escaped, so texts with quotes collide (both keys have to have quotes: `C42_honest_key`) | `C42_collision` |
| C46 | the derived `Default` of `NonEmptyVec` is empty | `C46_default_is_empty` |
| C50 | editing formats through the mutable accessor leaves the parameters stale | `C50_formats_edit_stale` |
| C50 | editing the parameters (`DerefMut`) leaves endpoint and formats stale, and converting writes the old ones over the edit | `C50_parameters_edit` |
| C103 | after an edit of the endpoint in a wallet's parameters requests are built for the new endpoint, while the wallet takes them only at the old one | `C103_edited_refuses`, `C103_reported` |
| C54 | the example's matcher ignores claims when a type is given, misreads nested paths and skips dotted names; it never looks at demanded values, claim sets, trusted authorities, `multiple`, holder binding or `credential_sets` | `C54_claims_ignored`, `C54_nested_claims_misread`, `C54_dotted_claims_ignored`, `C54_exactly_which_queries`, `C54_not_looked_at` |
| C58 | the example endpoint never answers a request passed as direct parameters | in `Props/Endpoint` |
| C59 | the example wallet does not look at the request's signature | `C59_…` |
| C61 | an empty `vp_token` is reported as a successful presentation for every session | `C61_empty_response_accepted` |
| C63 | repeating a type, or asking for overlapping types, gives a query with duplicate credential ids | `C63_ids_distinct_iff` |
| C64 | the `vcdm2` formats of the metadata are a catch-all payload that only becomes algorithm values after a trip through JSON | `C64_vcdm2_unreadable_before_sending` |
| C62 | the query kept in a session of the example verifier (format `Other("dc+sd-jwt")`) is not equal to the query read from its own request object (`DcSdJwt`); the status address has an empty segment when the public address ends in `/` | `C62_stored_query_differs`, `C62_status_address` |
| C65 | the client identifier of the command-line verifier is never its return address, so the example wallet refuses every request of it | `C65_client_id_is_not_the_return_address`, `C65_example_wallet_refuses` |
| C66 | the cache file names of domains that differ only in `.` and `_` collide, and such domains discard each other's certificates | `C66_shared_file_discards` |
| C69 | parameters of both kinds are a JWT response in a form body and an unencoded response in JSON | `C69_both_kinds` |
| C78 | HEAD on the authorization endpoint submits a response; a public address with a path (even `/`) announces an endpoint the server answers with 404 | `C78_head_acts`, `C78_endpoint_address` |
| C111 | the example wallet encrypts with A128GCM, whatever content encryption algorithms the verifier announces | `C111_announced_enc_unused` |
| C79 | the wallet's own metadata value does not support the format it announces; it announces A256GCM and uses A128GCM; no client of the library has the announced prefix | `C79_own_value_differs`, `C79_announced_enc_unused`, `C79_no_library_client` |
| C81 | statuses that compare as equal are written differently | `C81_equal_written_differently` |
| C84 | a document with two formats, or an ill-formed one of a known format, is designated as an unknown format with the name of a known one | `C84_two_formats`, `C84_designation` |
| C82 | HEAD on a request address marks the session as sent though no request is delivered; the status address given out has a path with two slashes, which the server answers with 404; under a public address with a directory none of the addresses given out is found | `C82_head_counts_as_sent`, `C82_status_address_not_found`, `C82_addresses` |
| C86 | with the bundled HTTP client an answer 307 or 308 makes the wallet post its response to an address of the answerer's choice (C35 is about what the library hands to its HTTP client); a request object fetched by reference may come from another address | `C86_presentation_forwarded`, `C86_fetched_from` |
| C96 | the response types and formats a wallet announces play no part in its decision about a request; the prefix `pre-registered` written out goes to the catch-all method | `C96_three_parameters`, `C96_written_out` |
| C113 | a wallet that announces its first list of key agreement algorithms supports less than before: a list without an algorithm of the verifier gets requests for encrypted responses refused that were accepted | `C113_announcing_restricts` |
| C115 | the example wallet does not look at `credential_sets`: asked for one of two credentials it discloses both if it holds both, and refuses if it lacks one; nothing checks that ids are distinct or that sets refer to credential queries | `C115_alternative_refused`, `C115_both_alternatives`, `C115_references_unchecked`; in general `C115_refused_with_one_missing`, `C115_all_options_disclosed` |
| C116 | the transcript does not bind the key an answer is encrypted to: with the key of a verifier, stripped of its `alg`, put before another key, the transcript is the same and the answer is encrypted to the other key | `C116_substituted`, `C116_substituted_accepted` |
| C117 | a request that can never be answered still makes the wallet match its credentials and tell by its error code whether it has them; a token with any signature is enough | `C117_refusal_tells`, `C117_probe`, `C117_probe_type` |
| C118 | a retrieval during which a response is verified leaves the status `SentRequest`, which the two operations leave in neither order | `C118_stale_retrieval_differs` |
| C119 | the response address always ends in the session id, so a verifier known by a redirect address keeps the rule that it is answered at that address in one session at most; known by its submission endpoint, in none | `C119_one_session`, `C119_endpoint_itself`, `C119_strict_wallets`, `C119_example_wallet` |
| C120 | the session id in the request URL is all that is needed to read the decrypted response of the example verifier at its status route, and to have either example verifier report success with an empty response | `C120_encrypted_read`, `C120_forged`, `C120_cli_forged` |
| C121 | the example verifier prints its private key; it prints any text given as response mode while a text other than `direct_post.jwt` silently means `direct_post`; for http and https the request address and the status address it lists are never both right | `C121_config`, `C121_mode`, `C121_never_both` |
| C122 | the wallet as shipped answers neither of the two example verifiers: its credential has another type than the one asked for | `C122_shipped`, `C122_shipped_cli` |
| C123 | with a public address that ends in a slash the example wallet announces an endpoint (`//authorize`) at which it answers 404, while it lists the one at which it answers | `C123_addresses` |
| C124 | the secret of the holder key is in the source, so a key binding says nothing about who presents; the embedded credential is signed by no issuer key (`MOCK_SD_JWT_SIG` is not an ES256 signature) | `C124_bound`, `C124_issuer_unsigned` |
| C97 | for x509_san_dns clients authenticity needs all certificates that name the host to be honest: the trust anchors are not looked at, so a self-made certificate suffices | `C97_san_any_certificate`, `C97_san` |
| C90 | the parameter `request_uri_method` is never looked at: `post` is fetched with GET | `C90_only_get` |
| C89 | the status `ReceivedResponse` exists, but no operation of the verifier ever records it | `C89_never_received` |
| C87 | the client identifiers of the request and of its request object are compared after the verification method was called, so a method (which may fetch or ask) also runs for a request that is refused for their difference | `C87_compared_last` |
