{"id": "C01", "title": "A parameter object behaves as a typed key-value map over every history", "statement": "After any sequence of inserting and removing typed parameters in an untyped parameter object, reading a parameter returns exactly the conversion of the last value written under that parameter's key and not removed since; parameters with other keys are unaffected; inserting returns the previous value under the key; removing returns it and leaves the key absent.", "quantifier": "all initial objects, all finite sequences of insert/remove operations, all parameter kinds and values", "why_tests_cant": "The claim is about every history of operations and every pair of keys; a test fixes one history.", "anchors": ["src/core/object/mod.rs: UntypedObject::get, UntypedObject::insert, UntypedObject::remove, UntypedObject::get_or_default"]}
{"id": "C02", "title": "Typed parameters survive the trip through JSON", "statement": "For each typed request, response and metadata parameter, converting a value to JSON and back returns the same value. Where the type has a catch-all variant carrying text that collides with a known name, the value does not survive; the set of values that survive is characterised exactly.", "quantifier": "all values of all typed parameters of the library", "why_tests_cant": "Values range over unbounded strings, lists and nested JSON; collisions of catch-all variants with reserved names are exactly the cases a tester does not think of.", "anchors": ["src/core/authorization_request/parameters.rs: ResponseMode, ResponseType, ClientMetadata, Nonce, State, ExpectedOrigins, TransactionData, RequestUriMethod", "src/core/metadata/parameters/verifier.rs: JWKs, VpFormats, EncryptedResponseEncValuesSupported", "src/core/metadata/parameters/wallet.rs", "src/core/response/parameters.rs: VpToken, IdToken"]}
{"id": "C03", "title": "Reading a textual parameter never loses its text", "statement": "Parsing a response mode, response type, credential format name, or trusted-authority type from any string and printing it again gives back the same string, and two different strings never parse to the same value.", "quantifier": "all strings", "why_tests_cant": "The domain is every string, including strings equal or close to the reserved names.", "anchors": ["src/core/authorization_request/parameters.rs: ResponseMode, ResponseType", "src/core/credential_format/mod.rs: ClaimFormatDesignation", "src/core/dcql_query.rs: TrustedAuthorityType"]}
{"id": "C04", "title": "A request object is accepted exactly under the documented parameter rules", "statement": "Converting a parameter object to an authorization request object succeeds if and only if: client_id is absent or a string; response_mode is absent or a known mode; redirect_uri is absent; with direct_post (also the default) or direct_post.jwt there is a response_uri that is a valid URL; with dc_api or dc_api.jwt there is no response_uri; response_type and nonce are present strings. The resulting return address is the response_uri for direct_post modes and a fixed placeholder otherwise.", "quantifier": "all JSON parameter objects", "why_tests_cant": "The combination of presence, type and mode conditions is a product space over arbitrary JSON values; the equivalence needs every input.", "anchors": ["src/core/authorization_request/mod.rs: TryFrom<UntypedObject> for AuthorizationRequestObject"]}
{"id": "C05", "title": "The fields of a parsed request object agree with its parameters and survive re-serialisation", "statement": "For every request object obtained by parsing, client_id, response_mode, response_type, nonce and the return address reported by the accessors equal what its parameters say, and converting it back to parameters and parsing again yields the same object. The parameters it reads when asked (state, query, client metadata and the formats in these) are what the parameters say at that time, also after edits.", "quantifier": "all JSON parameter objects accepted as request objects", "why_tests_cant": "Needs agreement between cached fields and arbitrary parameter contents on every input.", "anchors": ["src/core/authorization_request/mod.rs: AuthorizationRequestObject accessors, From<AuthorizationRequestObject> for UntypedObject, TryFrom"]}
{"id": "C06", "title": "Accessors stay in agreement with the parameters after the object is edited", "statement": "After editing a parsed request object through its mutable parameter view, the accessors still report what the parameters say.", "quantifier": "all parsed request objects and all edits", "why_tests_cant": "The full claim fails only for particular edits; settling it needs all edits to be considered.", "anchors": ["src/core/authorization_request/mod.rs: DerefMut for AuthorizationRequestObject"]}
{"id": "C07", "title": "An authorization request URL carries the request losslessly", "statement": "Rendering an authorization request (by value, by reference or with direct text parameters) as a URL for an endpoint and parsing that URL against the same endpoint returns the same request, for arbitrary parameter text including reserved and non-ASCII characters. A direct request survives exactly if all its parameters are texts, none is called client_id or request, and request_uri, if present, is not an address.", "quantifier": "all authorization requests and all authorization endpoints", "why_tests_cant": "Escaping bugs show up only on particular characters; the claim ranges over all strings.", "anchors": ["src/core/authorization_request/mod.rs: AuthorizationRequest::to_url, from_url, from_query_params, RequestIndirection"]}
{"id": "C08", "title": "A request URL for another endpoint is refused", "statement": "Parsing a request URL succeeds only if the URL has a query and its authority and path equal those of the wallet's own endpoint; the scheme and fragment play no part in the decision.", "quantifier": "all URLs and endpoints", "why_tests_cant": "A universally quantified rejection claim.", "anchors": ["src/core/authorization_request/mod.rs: AuthorizationRequest::from_url"]}
{"id": "C09", "title": "`request` takes precedence over `request_uri`, which takes precedence over direct parameters", "statement": "For every query string, the parsed request is by value exactly when there is exactly one `request` parameter; otherwise by reference exactly when there is exactly one `request_uri` that is a valid URL; otherwise direct with all the remaining parameters, the last of duplicates winning. A duplicated client_id is refused.", "quantifier": "all query strings", "why_tests_cant": "Order of parameters, duplicates and malformed values form an unbounded input space.", "anchors": ["src/core/authorization_request/mod.rs: RequestIndirection, AuthorizationRequest::from_query_params"]}
{"id": "C10", "title": "Form encoding is lossless and URL-safe", "statement": "Encoding any list of key/value strings as application/x-www-form-urlencoded and decoding it returns the same list; the encoded text consists only of letters, digits and * - . _ + % & =.", "quantifier": "all lists of pairs of Unicode strings", "why_tests_cant": "All Unicode strings, all lengths.", "anchors": ["src/core/authorization_request/mod.rs: to_url", "src/core/response/mod.rs: into_x_www_form_urlencoded, from_x_www_form_urlencoded"]}
{"id": "C11", "title": "A request passed as a JWT is only accepted with the request-object type header", "statement": "Resolving a request that is passed by value or by reference as a JWT succeeds only if the JWT's protected header is a JSON object whose typ is oauth-authz-req+jwt, unless the client_id outside the JWT starts with redirect_uri:.", "quantifier": "all JWT strings, outer client ids and wallets", "why_tests_cant": "Quantifies over every byte string an attacker may send.", "anchors": ["src/core/authorization_request/mod.rs: resolve_request, validate_request_object_typ"]}
{"id": "C12", "title": "A wallet accepts a request only after the verification method of its client_id prefix accepted it", "statement": "If validation returns a request object, then exactly one verification method of the wallet was called, it is the one that the client_id prefix of that very object selects (none → pre-registered, unknown prefix → the catch-all), it was called with that object and with the JWT it came from, and it returned success.", "quantifier": "all requests, wallet configurations, verification-method behaviours and HTTP behaviours", "why_tests_cant": "Requires reasoning over all wallet implementations and all inputs at once.", "anchors": ["src/core/authorization_request/mod.rs: AuthorizationRequest::validate", "src/core/authorization_request/verification/mod.rs: verify_request, RequestVerifier"]}
{"id": "C13", "title": "A request whose client_id prefix the wallet does not support is refused before any verification method runs", "statement": "If the client_id prefix is not among the prefixes in the wallet metadata (default: only pre-registered), validation fails and no verification method is called. A client_id with the reserved prefix origin is always refused, whatever the metadata says.", "quantifier": "all requests and wallet configurations", "why_tests_cant": "Negative universally quantified claim over configurations.", "anchors": ["src/core/authorization_request/verification/mod.rs: verify_request, validate_request_against_metadata", "src/core/metadata/parameters/wallet.rs: ClientIdPrefixesSupported"]}
{"id": "C14", "title": "The client_id outside the request and inside the request object are the same", "statement": "If validation of a request that carries a client_id outside the request object succeeds, the returned object's client_id equals it.", "quantifier": "all requests with an outer client_id, all wallets", "why_tests_cant": "Attack inputs: inner object without client_id is the case tests miss.", "anchors": ["src/core/authorization_request/mod.rs: AuthorizationRequest::validate"]}
{"id": "C15", "title": "An encrypted response mode is accepted only with usable encryption keys and algorithms", "statement": "If validation accepts a request whose response_mode is direct_post.jwt or dc_api.jwt, the request's client metadata has a key set containing a key with use enc and an alg, and for each of the two wallet lists (encryption algorithms, content-encryption algorithms) that is present, at least one value offered by the verifier is in it; offered content-encryption values default to A128GCM.", "quantifier": "all requests and wallet metadata", "why_tests_cant": "All JSON metadata documents.", "anchors": ["src/core/authorization_request/verification/mod.rs: validate_request_against_metadata"]}
{"id": "C16", "title": "Every request object that parses can be validated", "statement": "Whether a request object is accepted does not depend on the response_mode being written explicitly when it equals the default.", "quantifier": "all request objects", "why_tests_cant": "The discrepancy between two functions' treatment of an absent parameter is a universally quantified equivalence.", "anchors": ["src/core/authorization_request/mod.rs: TryFrom<UntypedObject>", "src/core/authorization_request/verification/mod.rs: validate_request_against_metadata", "src/core/authorization_request/parameters.rs: ResponseMode::default"]}
{"id": "C17", "title": "A request by reference makes exactly one fetch, and its body is used only on success", "statement": "Resolving a request by reference issues exactly one GET to the request_uri with the protocol-version preference header; requests by value or direct issue none; a transport error, a non-2xx status or a non-UTF-8 body is refused and no verification method is called.", "quantifier": "all requests and all HTTP behaviours", "why_tests_cant": "All server behaviours.", "anchors": ["src/core/authorization_request/mod.rs: resolve_request", "src/core/util/mod.rs: base_request"]}
{"id": "C18", "title": "A wallet that implements no verification method accepts nothing", "statement": "With the default verification methods, validation of any request fails.", "quantifier": "all requests, metadata and HTTP behaviours", "why_tests_cant": "Universally quantified rejection.", "anchors": ["src/core/authorization_request/verification/mod.rs: RequestVerifier default methods"]}
{"id": "C19", "title": "DID-based verification accepts only requests signed by the client's DID key", "statement": "If DID verification accepts a request, then the JWT's signature verifies under the key resolved for its kid, the kid's DID equals the DID in the client_id, the DID is in the trusted list when one is given, and the alg is in the wallet's supported list.", "quantifier": "all request objects, JWTs, wallet metadata, DID resolvers, trusted lists", "why_tests_cant": "Security property over all attacker inputs; the unsigned-alg branch makes the full claim false for particular metadata.", "anchors": ["src/core/authorization_request/verification/did.rs: verify_with_resolver"]}
{"id": "C20", "title": "x509_san_dns verification accepts only requests signed by a certificate naming the client", "statement": "If x509_san_dns verification accepts, the leaf certificate in the JWT's x5c header decodes, one of its DNS subject alternative names equals the client_id without its prefix, the alg is supported by the wallet, and the signature over header.payload verifies with that certificate's key. The given trust anchors do not influence the decision.", "quantifier": "all request objects, JWTs, wallet metadata, trust anchors and signature verifiers", "why_tests_cant": "Security property over all attacker inputs.", "anchors": ["src/core/authorization_request/verification/x509_san.rs: validate", "src/core/authorization_request/verification/verifier.rs"]}
{"id": "C21", "title": "x509_hash verification accepts only requests signed by the certificate whose hash is the client_id", "statement": "If x509_hash verification accepts, the leaf certificate in x5c decodes, the base64url SHA-256 of its DER bytes equals the client_id without its prefix, the alg is supported, and the signature over header.payload verifies with that certificate's key.", "quantifier": "all request objects, JWTs, wallet metadata and signature verifiers", "why_tests_cant": "Security property over all attacker inputs.", "anchors": ["src/core/authorization_request/verification/x509_hash.rs: validate"]}
{"id": "C22", "title": "What the bundled clients sign, the bundled verification methods accept", "statement": "A request object signed by the library's DID client, x509_san_dns client or x509_hash client passes the corresponding verification method of a wallet that lists the algorithm, given that the signature scheme verifies what its signer signs.", "quantifier": "all request objects, keys, certificates, DIDs and wallets listing the algorithm", "why_tests_cant": "Interoperation of two halves for all inputs, across JSON, base64 and JWS encodings.", "anchors": ["src/verifier/client.rs: DIDClient, X509SanDnsClient, X509HashClient, make_jwt", "src/core/authorization_request/verification/did.rs", "src/core/authorization_request/verification/x509_san.rs", "src/core/authorization_request/verification/x509_hash.rs"]}
{"id": "C23", "title": "Building a request stores exactly one session, or nothing on failure", "statement": "If building an authorization request succeeds, the session store is the previous store plus one session under the request's id, holding the signed JWT, the request object, the query and the right initial status (sent for by-value, sent-by-reference otherwise). If it fails, at whatever step, the store is unchanged.", "quantifier": "all verifiers, request parameters, wallet metadata, ids, client behaviours and store states", "why_tests_cant": "All failure points and all store contents.", "anchors": ["src/verifier/request_builder.rs: build_with_session_id, build_dc_api"]}
{"id": "C24", "title": "The verifier's own identity, query and submission address always win", "statement": "In every request built, client_id is the client's id and dcql_query is the builder's query; for direct_post modes response_uri is the submission endpoint followed by the session id; values for these parameters given as defaults or by the caller are ignored.", "quantifier": "all default and caller-supplied parameters", "why_tests_cant": "All parameter histories.", "anchors": ["src/verifier/request_builder.rs: build_with_session_id, build_dc_api", "src/verifier/mod.rs: VerifierBuilder::with_default_request_parameter"]}
{"id": "C25", "title": "The URL handed to the wallet refers to the stored session", "statement": "Parsing the URL returned by building a request against the wallet's endpoint gives the client's id and, by value, the JWT stored in the session, or, by reference, the reference address followed by the session id, from which retrieval returns the JWT stored in the session.", "quantifier": "all successful builds", "why_tests_cant": "Composition of encoding, storing and decoding for all values.", "anchors": ["src/verifier/request_builder.rs: build_with_session_id", "src/core/authorization_request/mod.rs: to_url, from_url", "src/verifier/mod.rs: retrieve_authorization_request"]}
{"id": "C26", "title": "Distinct sessions have distinct addresses", "statement": "Two sessions with different ids of the same verifier have different response_uri values and different request_uri values.", "quantifier": "all pairs of ids, all endpoints", "why_tests_cant": "Injectivity over all pairs.", "anchors": ["src/verifier/request_builder.rs: build_with_session_id"]}
{"id": "C27", "title": "A request built by the verifier is validated by the wallet as the same request object", "statement": "If a DID, x509_san_dns or x509_hash verifier builds a request by value or by reference and the wallet receives the URL (and, by reference, fetches the stored JWT), validation with the matching verification method succeeds and returns exactly the request object stored in the session.", "quantifier": "all successful builds and all wallets listing the prefix and algorithm", "why_tests_cant": "End-to-end composition over all parameter contents.", "anchors": ["src/verifier/request_builder.rs", "src/core/authorization_request/mod.rs: validate", "src/verifier/client.rs", "src/wallet.rs: validate_request"]}
{"id": "C28", "title": "What the wallet posts is what the verifier parses", "statement": "The body the wallet posts to the return address for direct_post or direct_post.jwt parses on the verifier side to the same response the wallet submitted, whatever the enumeration order of the presentation map, as long as no presentation nests more than 125 brackets deep; deeper presentations are refused, never misread.", "quantifier": "all responses, return addresses and map iteration orders", "why_tests_cant": "All strings and nested JSON, all iteration orders.", "anchors": ["src/wallet.rs: submit_response", "src/core/response/mod.rs: from_x_www_form_urlencoded, into_x_www_form_urlencoded"]}
{"id": "C29", "title": "The in-memory session store is a map from ids to sessions", "statement": "For every history of operations, the in-memory store answers as an abstract finite map would: get returns the last initiated session with the last status set; operations on an unknown id fail and change nothing; other ids are unaffected.", "quantifier": "all histories of initiate/update/get/remove", "why_tests_cant": "All histories.", "anchors": ["src/verifier/session.rs: MemoryStore"]}
{"id": "C30", "title": "Sessions do not interfere under any interleaving", "statement": "Under every interleaving of any number of verifier operations, an operation for one session id never changes the stored session of another id, and no operation other than building changes a session's request, JWT or query.", "quantifier": "all interleavings of any number of concurrent operations, including ones that are abandoned midway", "why_tests_cant": "Schedules and crash points cannot be enumerated by tests.", "anchors": ["src/verifier/mod.rs: retrieve_authorization_request, verify_response, poll_status", "src/verifier/request_builder.rs", "src/verifier/session.rs"]}
{"id": "C31", "title": "A session's status never goes backwards", "statement": "The status of a session only advances in the order sent-by-reference < sent < received < complete.", "quantifier": "all interleavings of retrieval, verification and polling", "why_tests_cant": "A lost update needs one particular schedule.", "anchors": ["src/verifier/mod.rs: retrieve_authorization_request, verify_response", "openid4vp-frontend/src/lib.rs: Status"]}
{"id": "C32", "title": "A completed status always carries an outcome the validator returned for that session", "statement": "Whenever a session's status is complete, its outcome was returned by a validator that was called with that id's session; the validator is never called for an unknown id.", "quantifier": "all interleavings, validators and responses", "why_tests_cant": "All schedules.", "anchors": ["src/verifier/mod.rs: verify_response"]}
{"id": "C33", "title": "A response is processed at most once", "statement": "Once a session is complete, a further response for it does not change the recorded outcome.", "quantifier": "all sessions and responses", "why_tests_cant": "Replay histories.", "anchors": ["src/verifier/mod.rs: verify_response"]}
{"id": "C34", "title": "Statuses and outcomes are consistently ordered", "statement": "The comparison of statuses is a total order up to equality, is consistent with equality, puts sent-by-reference before sent before received before complete, and orders outcomes error < failure < success ignoring payloads.", "quantifier": "all statuses and outcomes", "why_tests_cant": "Algebraic laws over all triples including payloads.", "anchors": ["openid4vp-frontend/src/lib.rs: Status, Outcome"]}
{"id": "C35", "title": "Submitting a response sends exactly what the response mode allows", "statement": "submit_response posts exactly once, to the request's return address, only if the mode is direct_post with an unencoded response or direct_post.jwt with a JWT response; for dc_api modes it makes no HTTP request and returns nothing; any other combination fails without any HTTP request.", "quantifier": "all requests, responses and HTTP behaviours", "why_tests_cant": "All combinations with arbitrary HTTP behaviour.", "anchors": ["src/wallet.rs: submit_response"]}
{"id": "C36", "title": "The redirect returned after submission is exactly the one the verifier sent", "statement": "submit_response returns a URL if and only if the server answered 2xx with a UTF-8 JSON object whose redirect_uri is a string that is a valid URL, and then returns that URL; it returns none for an empty body or a JSON document without a string redirect_uri; everything else is an error.", "quantifier": "all HTTP responses", "why_tests_cant": "All byte strings as bodies.", "anchors": ["src/wallet.rs: submit_response"]}
{"id": "C37", "title": "A form body is classified unambiguously", "statement": "A form body with exactly one `response` parameter is a JWT response carrying that parameter; otherwise it is accepted only as an unencoded response with exactly one vp_token that is JSON of the right shape and at most one state. The encoding of an unencoded response is never read as a JWT response.", "quantifier": "all form bodies", "why_tests_cant": "All byte strings.", "anchors": ["src/core/response/mod.rs: AuthorizationResponse::from_x_www_form_urlencoded"]}
{"id": "C38", "title": "The encryption key chosen is the first suitable one", "statement": "Key selection returns the first key with alg ECDH-ES, curve P-256 and use enc or unspecified, together with its alg and kid; it fails if there is none; keys that are not suitable never influence the result.", "quantifier": "all key sets", "why_tests_cant": "All orders and contents of key sets.", "anchors": ["src/core/jwe.rs: find_encryption_jwk"]}
{"id": "C39", "title": "An encrypted response carries exactly the presentation and state, under the announced algorithms", "statement": "The encrypted response is an encryption, to the selected key, of a JSON object with exactly vp_token and, if given, state; the protected header has typ JWT, alg ECDH-ES, the first announced enc (default A128GCM) and the selected key's kid.", "quantifier": "all requests, presentations and states", "why_tests_cant": "All metadata and payload values.", "anchors": ["src/core/jwe.rs: build_encrypted_response, JweBuilder::build"]}
{"id": "C40", "title": "The encryption used is one the wallet supports", "statement": "If the wallet's metadata lists content-encryption algorithms and validation accepts a request with an encrypted response mode, the encrypted response uses a content-encryption algorithm in that list and a key that validation took into account.", "quantifier": "all accepted requests and wallet metadata", "why_tests_cant": "Two functions choose independently; disagreement needs particular key sets.", "anchors": ["src/core/jwe.rs: build_encrypted_response", "src/core/authorization_request/verification/mod.rs: validate_request_against_metadata"]}
{"id": "C41", "title": "The session transcript commits to the key used for encryption", "statement": "The thumbprint placed in the handover is that of the key the response is encrypted to.", "quantifier": "all key sets", "why_tests_cant": "Two functions choose independently; disagreement needs particular key sets.", "anchors": ["src/core/iso_18013_7/mod.rs: get_encryption_jwk_thumbprint", "src/core/jwe.rs: find_encryption_jwk"]}
{"id": "C42", "title": "A key thumbprint depends on, and only on, the required members", "statement": "Two keys have the same thumbprint input exactly when they have the same type and the same required members; extra members and member order are irrelevant.", "quantifier": "all pairs of EC and RSA keys", "why_tests_cant": "Injectivity over all strings; fails for text containing quotes.", "anchors": ["src/core/iso_18013_7/mod.rs: compute_jwk_thumbprint"]}
{"id": "C43", "title": "The handover binds client, nonce, key and return address", "statement": "If two redirect-flow handovers are equal, then client_id, nonce, response_uri and thumbprint are all equal, or the two texts that were hashed for them are a SHA-256 collision; likewise for the Digital Credentials API handover with origin, nonce and thumbprint.", "quantifier": "all pairs of inputs", "why_tests_cant": "Injectivity over all strings and byte strings.", "anchors": ["src/core/iso_18013_7/mod.rs: Handover::new, DcApiHandover::new"]}
{"id": "C44", "title": "Handovers and session transcripts are well-formed CBOR and decode to themselves", "statement": "Encoding a handover and decoding it gives the same handover; the two handover kinds are never confused; the session transcript bytes are the CBOR array [null, null, handover] and decode to the handover. Bytes are read as a handover of a kind exactly if they begin with an array, of at least two elements or of indefinite length, whose first elements are the identifier of the kind as text and a byte string, each possibly tagged, in pieces or with a longer head than needed, or instead of the byte string an array of numbers below 256; likewise for transcripts, whose first two elements are null or undefined, or, in an array of indefinite length, a break.", "quantifier": "all handovers and all byte strings", "why_tests_cant": "All byte strings of all lengths, all nestings of pieces and all numbers of tags.", "anchors": ["src/core/iso_18013_7/mod.rs: Handover, DcApiHandover, SessionTranscript"]}
{"id": "C45", "title": "A DCQL query survives the trip through JSON", "statement": "Converting a DCQL query to JSON and back gives the same query, provided catch-all names do not spell a known name and integers are in range.", "quantifier": "all DCQL queries", "why_tests_cant": "Deeply nested structure with optional fields, all values.", "anchors": ["src/core/dcql_query.rs: DcqlQuery and nested types"]}
{"id": "C46", "title": "A parsed DCQL query has no empty required lists", "statement": "Every list that must be non-empty (credentials, claims, claim sets, trusted authorities and their values, credential sets and their options, paths, values) is non-empty in any query obtained by parsing, and remains so under the mutating API; JSON with an empty one is refused.", "quantifier": "all JSON documents and all API histories", "why_tests_cant": "All JSON documents; Default is the case tests miss.", "anchors": ["src/utils.rs: NonEmptyVec", "src/core/dcql_query.rs"]}
{"id": "C47", "title": "DCQL defaults follow the specification", "statement": "A credential query without require_cryptographic_holder_binding requires binding, without multiple allows one presentation only, a credential set without required is required; explicit values are reported as given; this holds after a JSON round trip too.", "quantifier": "all queries", "why_tests_cant": "All queries.", "anchors": ["src/core/dcql_query.rs: require_cryptographic_holder_binding, multiple, required"]}
{"id": "C48", "title": "Claim path helpers read the path as specified", "statement": "The claim name is the last textual element of a path, the namespace is the first element if textual, the element identifier is the second element if textual; nothing otherwise.", "quantifier": "all paths", "why_tests_cant": "All paths of all lengths.", "anchors": ["src/core/dcql_query.rs: claim_name, namespace, element_identifier"]}
{"id": "C49", "title": "Credential format capabilities survive JSON and answer security-method queries exactly", "statement": "Converting a credential-format capability map to JSON and back gives the same map when names do not collide; a verifier supports a security method for a format exactly when the method is among the listed algorithms or proof types of that format.", "quantifier": "all format maps, formats and methods", "why_tests_cant": "All maps and iteration orders.", "anchors": ["src/core/credential_format/mod.rs: ClaimFormatPayload, ClaimFormatDesignation", "src/core/metadata/parameters/verifier.rs: VpFormats::supports_security_method"]}
{"id": "C50", "title": "Wallet metadata reports what was configured", "statement": "Wallet metadata built or parsed reports its endpoint and formats consistently with its parameters; adding signing algorithms or client-id prefixes keeps the earlier ones and adds exactly the new ones; converting to parameters and back preserves it.", "quantifier": "all metadata and all sequences of additions", "why_tests_cant": "All histories of additions.", "anchors": ["src/core/metadata/mod.rs: WalletMetadata"]}
{"id": "C51", "title": "JSON text is parsed back to the value it was printed from", "statement": "Printing any JSON value compactly and parsing it returns the same value as long as its nesting stays below the parser's recursion limit of 128; deeper values are refused.", "quantifier": "all JSON values", "why_tests_cant": "All strings incl. control characters, all depths.", "anchors": ["src/core/response/mod.rs: into_x_www_form_urlencoded (serde_json)", "src/verifier/client.rs: make_jwt"]}
{"id": "C52", "title": "Base64 coding is lossless and canonical", "statement": "Decoding the base64url (or standard) encoding of any byte string returns it, encoded text never contains a dot, and decoding accepts only canonical encodings, so that two different accepted texts never decode to the same bytes.", "quantifier": "all byte strings and all texts", "why_tests_cant": "All lengths modulo 3 and all trailing-bit patterns.", "anchors": ["src/verifier/client.rs: make_jwt", "src/core/authorization_request/mod.rs: validate_request_object_typ"]}
{"id": "C53", "title": "Every credential query is answered by a credential of the right format and type", "statement": "If the example wallet's matcher returns a selection for a query, every credential query id has at least one credential in it, and each selected credential is in the store, has the requested format and, where given, one of the requested vct values or the requested doctype; the matcher fails exactly if some credential query has no match.", "quantifier": "all stores and DCQL queries", "why_tests_cant": "All stores and queries.", "anchors": ["examples/wallet-conformance-adapter/dcql/matcher.rs: DcqlMatcher::match_query, match_credential_query", "examples/wallet-conformance-adapter/credentials/store.rs"]}
{"id": "C54", "title": "Selected credentials contain all requested claims", "statement": "Every credential the example wallet selects for a credential query contains every claim the query asks for.", "quantifier": "all stores and queries", "why_tests_cant": "Needs a store where type matches but claims do not.", "anchors": ["examples/wallet-conformance-adapter/dcql/matcher.rs: match_credential_query, extract_required_claims"]}
{"id": "C55", "title": "Selective-disclosure presentations get a fresh key-binding JWT and keep all else", "statement": "The presentation built from an SD-JWT keeps issuer JWT and disclosures byte for byte and in order, and ends with the new key-binding JWT instead of any previous one.", "quantifier": "all SD-JWT strings", "why_tests_cant": "All strings and disclosure counts.", "anchors": ["examples/wallet-conformance-adapter/engine/headless.rs: build_vp_token"]}
{"id": "C56", "title": "A redirect_uri client can only receive the response at its own address", "statement": "When the example wallet processes a request whose client_id has the redirect_uri prefix, it submits a response only if the return address equals the address in the client_id.", "quantifier": "all requests", "why_tests_cant": "Security property over all inputs.", "anchors": ["examples/wallet-conformance-adapter/server/handlers/authorization.rs: process, lines 190-214"]}
{"id": "C57", "title": "The example wallet sends at most one response, with consent, bound to the request", "statement": "Whatever the parameters of the authorization endpoint, the example wallet makes at most one POST request; it makes one only with consent, to the return address of the request object it obtained, and its body holds, plain or encrypted to the verifier's first suitable key as the response mode says, a token made from matching credentials of the store bound to nonce and client identifier of that request object, together with the state.", "quantifier": "all endpoint parameters, wallets, stores and HTTP behaviours", "why_tests_cant": "All requests, all stores and all verifier behaviours.", "anchors": ["examples/wallet-conformance-adapter/server/handlers/authorization.rs: process_authorization_request", "examples/wallet-conformance-adapter/engine/headless.rs"]}
{"id": "C58", "title": "The example wallet's endpoint passes its parameters on unchanged", "statement": "The request URL the endpoint rebuilds from its parameters parses to the request those parameters describe: a request parameter gives a request by value, else a request_uri gives one by reference, else all other parameters are the request; a request given as plain parameters is never answered with a response, because dcql_query is then a text and not an object.", "quantifier": "all endpoint parameters, endpoints without a query of their own", "why_tests_cant": "All parameter contents.", "anchors": ["examples/wallet-conformance-adapter/server/handlers/authorization.rs: build_request_url", "src/core/authorization_request/mod.rs: from_url"]}
{"id": "C59", "title": "The example wallet does not look at the request's signature", "statement": "Two requests by value that differ only in the (decodable) signature part of the JWT are processed identically by an example wallet whose endpoint address has no query: same HTTP requests, same answer. (A gap of the example, stated as it is.)", "quantifier": "all JWTs, endpoint parameters and wallets", "why_tests_cant": "A statement about all pairs of signatures.", "anchors": ["examples/wallet-conformance-adapter/server/handlers/authorization.rs: lines 100-148", "src/core/authorization_request/mod.rs: resolve_request"]}
{"id": "C60", "title": "The example verifier's routes keep its sessions consistent", "statement": "Over any sequence of calls of the three session routes: fetching a request answers with the stored JWT of the session named by the path (in any UUID text form), 404 for an unknown session and 400 for a malformed id; sessions are neither invented nor dropped; a session's status is decided by the last readable response delivered to it, and without one it is Sent or what it was; the status route reports the stored status.", "quantifier": "all request paths, bodies, stores and call sequences of any length", "why_tests_cant": "Tests drive a handful of calls in a fixed order; this covers all interleavings of calls to any number of sessions.", "anchors": ["examples/verifier-conformance-adapter/server/handlers.rs: get_request, post_response, get_status", "src/verifier/mod.rs: retrieve_authorization_request, poll_status, verify_response", "src/verifier/session.rs"]}
{"id": "C61", "title": "The example verifier's status document tells outcomes apart", "statement": "The JSON document reported for a session determines which status it has; a session with no response is reported as waiting; a plain response is reported with its presentations and an encrypted response only when it decrypts. (An empty vp_token is reported as success for every session: stated as it is.)", "quantifier": "all sessions, statuses, responses and decryption functions", "why_tests_cant": "The reported text depends on arbitrary response bodies.", "anchors": ["examples/verifier-conformance-adapter/server/handlers.rs: lines 126-296", "examples/verifier-conformance-adapter/crypto/jwe.rs"]}
{"id": "C62", "title": "A presentation from the example wallet to the example verifier", "statement": "Once started, the example verifier can always begin a session; this stores exactly one session, whose request asks for a PID with the given or drawn nonce, for the client identifier x509_san_dns: and the host of the public address, to be answered at the address of the session beside the public address, with the published key exactly if responses are to be encrypted; the URL answered refers to it and the request can be fetched. If the example wallet, with consent and a PID, is given that request, it sends exactly one response, to the address of the session, whose token is a presentation of its first PID bound to that nonce and client identifier; and whatever calls the verifier handled before, and whatever it handles after that is not another response for the session, its status document reports success, with one credential for a plain response and with exactly what the wallet encrypted for an encrypted one. (Findings: the query kept in the session differs from the one in its request object; the status address has an empty path segment.)", "quantifier": "all public addresses, earlier starts, stores, ids, nonces, wallets, credential stores, parameters and sequences of calls", "why_tests_cant": "Whole executions of two programs over all configurations, stores and interleaved calls.", "anchors": ["examples/verifier-conformance-adapter/server/state.rs: lines 71-152, 287-353", "examples/verifier-conformance-adapter/server/handlers.rs: lines 47-277", "examples/wallet-conformance-adapter/server/handlers/authorization.rs: lines 89-560", "examples/wallet-conformance-adapter/engine/headless.rs: lines 52-136"]}
{"id": "C63", "title": "The command-line verifier's query asks for exactly the given credential types", "statement": "A query is made iff at least one type is given and every type is known; it asks for one credential per listed variant of each type, with the claims of that type; the credential sets are satisfied by a set of credentials exactly when each asked type is satisfied by one of its variants. Credential query ids are distinct iff no type is repeated or overlaps another.", "quantifier": "all lists of type names", "why_tests_cant": "Lists of any length and with repetitions.", "anchors": ["examples/cli-verifier/main.rs: lines 318-458, 683-740"]}
{"id": "C64", "title": "The command-line verifier's metadata covers its query", "statement": "Every credential format its query can ask for is announced in the client metadata and in the assumed wallet metadata, with the accepted algorithms, for every list of types.", "quantifier": "all lists of type names", "why_tests_cant": "Lists of any length; the relation between two separately written tables.", "anchors": ["examples/cli-verifier/main.rs: lines 318-603"]}
{"id": "C67", "title": "The last builder call decides", "statement": "A verifier can be built iff every mandatory part was given at some point, and the verifier built has for each field the value of the last call that set it (defaults accumulated per key); the same for the parameters of a request builder.", "quantifier": "all sequences of builder calls of any length", "why_tests_cant": "Arbitrary sequences of calls with repeats and overwrites.", "anchors": ["src/verifier/mod.rs: lines 120-220 (VerifierBuilder)", "src/verifier/request_builder.rs: with_dcql_query, with_request_parameter"]}
{"id": "C68", "title": "What the verifier hands out was stored under the id asked for", "statement": "Under every interleaving of operations, with any lock contention and with operations abandoned anywhere, each JWT handed out for an id is the JWT of a session that was stored under that id, each status handed out was the status of such a session, and a build that reports success has stored its session. If ids are not reused, every retrieval for an id yields the one JWT built for it.", "quantifier": "all interleavings of any number of operations", "why_tests_cant": "All schedules.", "anchors": ["src/verifier/mod.rs: retrieve_authorization_request, poll_status", "src/verifier/session.rs: MemoryStore"]}
{"id": "C65", "title": "The command-line verifier from start to result", "statement": "The program shows a request iff its public address can have paths and at least one and only known types are given; the request is exactly the one for those types, nonce and session, served at the address the URL refers to, and a wallet that accepts unsigned redirect_uri requests validates it as the stored request object. Over any calls of its server the first response delivered for a stored session decides what is displayed and stored, and without one no result is displayed. A request object is answered with 200 and the stored JWT exactly for a stored session and with 500 otherwise; a posted body with 200 exactly if it delivers a response for a stored session, with 400 if it is not text and 500 otherwise. (Finding: the client identifier never equals the return address, so the example wallet refuses every such request.)", "quantifier": "all public addresses, type lists, ids, nonces, wallets and call sequences", "why_tests_cant": "All addresses and all call sequences.", "anchors": ["examples/cli-verifier/main.rs: lines 93-134, 194-271, 683-799", "examples/wallet-conformance-adapter/server/handlers/authorization.rs: lines 188-214"]}
{"id": "C66", "title": "The example verifier's certificate cache keeps one identity per domain", "statement": "Over any number of starts on one cache directory, for any domains and whether or not the directory can be written: the key and certificate a start uses were drawn for its own domain, in that start or an earlier one; after a start that could write, every later start for that domain uses the same identity and draws nothing, unless a domain with the same file name was started in between; unusable files never make a start fail; a file is used exactly when it is one JSON object naming domain, key and certificate once each, for this domain and with a readable certificate, and a start that could write leaves exactly the indented text of such an object, which the next start reads back; the client identifier of the verifier that starts is x509_san_dns: and the host of its public address. (Assumed of the certificate library: a certificate is drawn for the name asked for, and reading back its DER form gives it.) (Finding: names that differ only in '.' and '_' share a file and discard each other's identity.)", "quantifier": "all sequences of starts, domains, draws and directory contents", "why_tests_cant": "Unbounded sequences of starts for all domain names.", "anchors": ["examples/verifier-conformance-adapter/server/state.rs: lines 60-68, 71-133, 156-268"]}
{"id": "C69", "title": "The JSON form of an authorization response", "statement": "A JSON value is read as an unencoded response iff it is the document of one (vp_token of the right shape, state absent, null or a string; or the array of both values), and as a JWT response iff it is the document of one and not of an unencoded response; what is written for a response is read back as that response, and the two written forms never coincide. (Disagreement of the two readers: parameters of both kinds are a JWT response in a form and an unencoded response in JSON.)", "quantifier": "all JSON values and all responses", "why_tests_cant": "All JSON values.", "anchors": ["src/core/response/mod.rs: lines 18-23, 70-82, 132-136, 146-152"]}
{"id": "C70", "title": "Which texts are read as URLs", "statement": "A text is read as a URL exactly if it denotes it by the rules of the URL standard: control characters and spaces at the ends and tabs and line ends anywhere are dropped; then `scheme : [// [credentials @] host [: port]] path [? query] [# fragment]`, where capitals of the scheme count as small letters; a URL of http, https, ws, wss or ftp has a host after any slashes or backslashes and a path beginning with /; the host of such a URL is a domain (escapes replaced, in small letters), an IPv4 address in one to four numbers or an IPv6 address in brackets, that of other URLs may be any text without forbidden characters; the port of the scheme is left out; dot segments of a path are resolved; characters a component does not keep are escaped. A text denotes at most one URL, and what is printed for a URL that was read denotes it.", "quantifier": "all texts and all URLs", "why_tests_cant": "All texts.", "anchors": ["src/core/authorization_request/mod.rs: lines 176-221", "src/core/object/mod.rs: TypedParameter for Url-valued parameters", "examples/verifier-conformance-adapter/server/state.rs"]}
{"id": "C71", "title": "Handovers and transcripts have the layout of the standard", "statement": "What is hashed for a redirect handover is the CBOR array [client id, nonce, thumbprint or null, response URI] and for a DC API handover [origin, nonce, thumbprint or null], each item with the shortest head of RFC 8949; the session transcript is the array [null, null, [identifier, SHA-256 hash]] with the identifier of the flow.", "quantifier": "all client ids, nonces, thumbprints, response URIs, origins and hash functions", "why_tests_cant": "All texts of all lengths, including those whose heads take 1, 2, 3, 5 or 9 bytes.", "anchors": ["src/core/iso_18013_7/mod.rs: Handover::new, DcApiHandover::new, SessionTranscript"]}
{"id": "C72", "title": "What the bundled clients sign", "statement": "A bundled client signs a request exactly if its signer names an algorithm and (x509 clients) every certificate of its chain has a DER form. The token is base64url(header) . base64url(payload) . base64url(signature over the first two as UTF-8); the header has exactly alg, typ = oauth-authz-req+jwt and either kid = the verification method or x5c = all certificates in order in padded standard base64; header and payload parse back to it and to the parameters of the request. The client identifier is decentralized_identifier: and the text before the last # of a verification method whose key is the signer's; x509_san_dns: and the first DNS name among the readable alternative names of the leaf; x509_hash: and the unpadded base64url hash of the leaf's DER form; and construction fails otherwise.", "quantifier": "all requests, chains, signers, verification methods and resolvers", "why_tests_cant": "All chains and requests, for any certificate parser and signer.", "anchors": ["src/verifier/client.rs: lines 46-262"]}
{"id": "C73", "title": "Which texts are read as JSON", "statement": "A text is read as JSON exactly if it is a JSON text of RFC 8259 with at most 127 nested brackets, and it is read as the value the text denotes: escapes and surrogate pairs stand for their characters, lone surrogates and raw control characters are refused, of members with the same name the last one counts, integers of 64 bits are exact, and white space is allowed exactly around tokens. Bytes are read exactly if they are the UTF-8 form of such a text. A text has at most one value, and what is written for a value is a text of it. The order in which the members of objects are written (sorted, or as inserted when serde_json's preserve_order is on) does not change what is read.", "quantifier": "all texts, byte strings and JSON values", "why_tests_cant": "All texts of all lengths and depths.", "anchors": ["src/core/object/mod.rs: UntypedObject (serde_json)", "src/core/authorization_request/verification/mod.rs: verify_request (serde_json through ssi)", "src/core/response/mod.rs: AuthorizationResponse"]}
{"id": "C74", "title": "What each protocol parameter means", "statement": "Every typed parameter is the member of its object under the name the standard gives it: it is absent exactly if there is no such member, is read exactly if the member is JSON of the kind the standard prescribes, as the value that JSON denotes, and setting it writes JSON of that value under that name and leaves the other members. Response modes, response types, methods, prefixes and formats have the names of the standard; any other mode, type, prefix or format is kept as its text, and any other method is refused. Absent parameters count as direct_post, get, only pre-registered clients, A128GCM and no signing algorithm. A format is supported exactly if an object member has its name.", "quantifier": "all objects, all member values and all parameter values", "why_tests_cant": "All JSON values of all sizes for each of the parameters, and all other texts for the open enumerations.", "anchors": ["src/core/authorization_request/parameters.rs: lines 34-640", "src/core/metadata/parameters/verifier.rs: lines 1-110", "src/core/metadata/parameters/wallet.rs: lines 1-200", "src/core/response/parameters.rs: lines 1-40"]}
{"id": "C75", "title": "What a DCQL query means", "statement": "dcql_query is read exactly if its JSON is a query of the standard: credentials is a non-empty array of objects with id, format and the optional members under their names, claims, claim sets, trusted authorities and credential sets are non-empty arrays, path elements are texts, indices or null, values are texts, integers or booleans; and it is read as that query. What is written for a query is JSON of that query under dcql_query.", "quantifier": "all JSON values and all queries, with any number of credentials, claims and sets", "why_tests_cant": "All JSON values of all sizes, in both directions.", "anchors": ["src/core/dcql_query.rs: lines 1-490"]}
{"id": "C76", "title": "What a vp_token means", "statement": "vp_token is read exactly if its JSON maps ids to arrays of texts and objects, as that map, and is written as such JSON under vp_token. After any sequence of insertions the presentations of an id are those inserted last, the length is the number of different ids, and the token is empty only without insertions.", "quantifier": "all JSON values, all tokens and all sequences of insertions", "why_tests_cant": "All sequences of insertions and all JSON values.", "anchors": ["src/core/response/parameters.rs: lines 44-160"]}
{"id": "C77", "title": "Everything the example wallet's endpoint does", "statement": "For every call of the authorization endpoint, exactly which HTTP requests are made, in which order, and which answer is given. A call is taken for the request of the endpoint's own query fields followed by the parameters. Without a request, a request object, a readable query, consent or credentials, or with a return address other than the redirect_uri client identifier, nothing is sent but the fetch of the request object and the error code says so with the state of the call. Otherwise the response goes once to the return address, plain or encrypted to the first suitable key; a failed or refused submission is reported as 502 with the echoed state; and on success the redirect_uri of the verifier's JSON answer is visited and returned.", "quantifier": "all parameters, endpoints, wallets, stores, peers and cryptography", "why_tests_cant": "All parameter combinations and all behaviours of the peers.", "anchors": ["examples/wallet-conformance-adapter/server/handlers/authorization.rs: lines 89-580", "examples/wallet-conformance-adapter/engine/headless.rs: lines 52-90"]}
{"id": "C78", "title": "The HTTP surface of the example wallet", "statement": "For every HTTP request exactly which status and JSON document the example wallet answers and which requests it makes: parameters given twice are refused, other content types are refused, bodies above one mebibyte are refused, unknown paths are 404 and unknown methods 405. The metadata, key, health and debug documents have exactly the announced members. Every authorization request the library renders with a request object or address is taken for itself by the endpoint; one with direct parameters is taken for its known parameters only. HEAD acts like GET, including the submission. The announced endpoint is served exactly if the public address has no path.", "quantifier": "all HTTP requests, servers, requests and addresses", "why_tests_cant": "All requests and all combinations of fields.", "anchors": ["examples/wallet-conformance-adapter/server/routes.rs: lines 16-49", "examples/wallet-conformance-adapter/server/handlers/authorization.rs: lines 24-90", "examples/wallet-conformance-adapter/server/handlers/metadata.rs: lines 22-71", "examples/wallet-conformance-adapter/server/handlers/health.rs: lines 6-37", "examples/wallet-conformance-adapter/main.rs: lines 54-62"]}
{"id": "C79", "title": "What the example wallet announces", "statement": "The text of the wallet's metadata document is read by the library as metadata with the endpoint's address and the one format dc+sd-jwt, whereas the wallet's own value files that format under an unknown name. The requests that fit the announcement are exactly those whose client identifier has no prefix or the prefix redirect_uri, which give the response mode, and which for an encrypted response offer a key for ECDH-ES and explicitly A256GCM. The announced A256GCM is never used: every encrypted response uses A128GCM. None of the library's clients can build a request for a wallet with this metadata. The published key has no private member and is not one to encrypt to.", "quantifier": "all endpoints, request objects, adapters, verifiers and keys", "why_tests_cant": "All request objects and all verifiers.", "anchors": ["examples/wallet-conformance-adapter/server/handlers/metadata.rs: lines 22-71", "examples/wallet-conformance-adapter/crypto/keys.rs: lines 26-43", "src/core/authorization_request/verification/mod.rs", "src/verifier/request_builder.rs"]}
{"id": "C80", "title": "The credentials file of the example wallet", "statement": "Exactly the texts that are credentials files are loaded, each as its credentials: fields given twice or missing are refused, unknown ones ignored, formats are recognised by name, and of claims with the same name the last counts at every level. The embedded file is one, so that loading never panics; the disclosures of its SD-JWT are exactly the claims it is matched by; and the queries the shipped wallet answers are exactly described.", "quantifier": "all texts, credentials and queries", "why_tests_cant": "All texts.", "anchors": ["examples/wallet-conformance-adapter/credentials/store.rs: lines 24-67,150-171", "examples/wallet-conformance-adapter/credentials.json: lines 1-16"]}
{"id": "C81", "title": "The status of a session as JSON", "statement": "Exactly the JSON values, and exactly the JSON texts, that stand for a session status are read, each as that status; the status that is written stands for itself, has the documented text and is read back unless the recorded information is nested too deep.", "quantifier": "all statuses, JSON values and texts", "why_tests_cant": "All documents: repeated, missing and extra members, other spellings, arrays in place of objects, every nesting depth.", "anchors": ["openid4vp-frontend/src/lib.rs: lines 7-28"]}
{"id": "C82", "title": "HTTP surface of the example verifier", "statement": "For every HTTP request and all stored sessions the answer of the example verifier and the sessions afterwards are exactly those of its routes; over any history only the id drawn for a new session, a first retrieval and a delivered response change a session, and the last response delivered decides its outcome.", "quantifier": "all requests (method, path, content type, body), all stores, all histories of requests", "why_tests_cant": "All paths with escapes, all bodies up to and beyond the limit and all histories; tests call handlers on a few fixed requests.", "anchors": ["examples/verifier-conformance-adapter/server/mod.rs", "examples/verifier-conformance-adapter/server/handlers.rs"]}
{"id": "C83", "title": "Editing DCQL queries", "statement": "Each setter of a query and of its parts changes exactly the member of the written document that carries its name, to the written form of the value given or to its absence; after any sequence of edits every member is as the last edit of it says, and otherwise as before. New queries have exactly the members they were made of. A non-empty list is made of one element or of any list that is not empty, keeps its elements in order and grows at the end only.", "quantifier": "all queries, values, sequences of edits and lists", "why_tests_cant": "All queries and all histories of edits: a setter that writes the wrong field is only seen on a query whose two fields differ.", "anchors": ["src/core/dcql_query.rs: lines 17-48,116-234,253-279,312-349,373-429", "src/utils.rs: lines 10-40"]}
{"id": "C84", "title": "Claim formats with their parameters", "statement": "Every JSON value is read as a claim format, exactly as the known one it is a document of and otherwise as an unknown one holding the value. What is written is read as itself exactly unless an unknown format has the form of a known one, and a value is written again as read except for what accompanies the lists of jwt_vc_json and ldp_vc. The designation of a format that was read bears the name of the first member; it is the designation of that name exactly if the name is not known or the document is one of a known format. Adding an algorithm or proof type extends the list of that kind at its end and changes nothing else.", "quantifier": "all JSON values, formats, parameters and texts", "why_tests_cant": "All JSON values: repeated names, several members, arrays in place of objects, unknown members and wrong types.", "anchors": ["src/core/credential_format/mod.rs: lines 25-111"]}
{"id": "C85", "title": "The command-line verifier as a program: its HTTP server and its console", "statement": "For every request and all stored sessions, the answer of the command-line verifier (status and body), what it displays and the sessions afterwards are exactly those of a specification: GET and HEAD on /request/ and one segment, POST on /response/ and one segment, preflight, 404, 405, 413, 400 and the texts of errors. Over any sequence of requests, as long as no response is delivered for a stored session the program goes on, displays for each request that a request object was fetched, that a response came, or nothing, and no session gets an outcome; the first response delivered for a stored session stops it, with its outcome displayed last and stored. Everything printed is determined: the first lines, the lines with session id, description, QR code and URL, the lines for each status (the information of a success is JSON that reads back as that information), and the last words exactly if a response was delivered.", "quantifier": "all requests, stores, sequences of requests, command lines, map orders and QR code renderers", "why_tests_cant": "Unbounded sequences of arbitrary requests with arbitrary paths and bodies.", "anchors": ["examples/cli-verifier/main.rs: lines 59-81, 162-311, 609-676, 682-799"]}
{"id": "C86", "title": "The HTTP client that comes with the library", "statement": "A call of the bundled HTTP client with an http or https address makes a chain of requests, the first being the given one and each further one following from the answer before it by a redirect; the chain has at most as many redirects as the client's limit; the call ends with the last answer, whose status, headers and body are passed on unchanged, or with an error (failed exchange, too many redirects, redirect to another scheme, broken body). With any other address nothing is sent. The method and body given leave again only while every answer so far is 307 or 308; after another redirect only GET requests without body follow. The version mark of the protocol is on every request. A header with a secret of a host is on a request only if it was on the given one, and then this request and all before it go to the host and port of the first. A referer names the address of an earlier request, without credentials and fragment, and is not made for a step from https to http. A location that begins neither with a scheme nor with two separators leads to the same scheme and authority. Hence a wallet using it posts its response to the return address and, if that answers 307 or 308, also to the address named there; and the request object it fetches by reference may come from another address than request_uri.", "quantifier": "all requests, networks, redirect chains and limits", "why_tests_cant": "All answers of the network, all chains of redirects and all requests.", "anchors": ["src/core/util/mod.rs: ReqwestClient::new", "src/core/util/mod.rs: ReqwestClient::execute", "src/core/util/mod.rs: base_request", "src/wallet.rs: submit_response", "src/core/authorization_request/mod.rs: resolve_request"]}
{"id": "C87", "title": "The whole decision of a wallet about a request", "statement": "A wallet accepts a request, yielding a request object, exactly if the request is, carries or refers to that object (with a JWT that says it is a request object, unless the outer client identifier is a redirect address), the object fits the wallet's metadata, the verification method selected by the object's client identifier accepts it, and the client identifiers outside and inside are not different. The object, the JWT and the method are determined by the request. What the wallet does is: one GET request if the request is passed by reference, then at most one call of a verification method, of that method with that object and JWT, and the latter exactly if the request resolves and fits. The client identifiers are compared after the verification method was called.", "quantifier": "all wallets, all requests, all answers of the HTTP client and of the verification methods", "why_tests_cant": "All wallets, metadata documents, request objects and answers of the outside world, including every order of failures.", "anchors": ["src/core/authorization_request/mod.rs: validate", "src/core/authorization_request/mod.rs: resolve_request", "src/core/authorization_request/verification/mod.rs: verify_request"]}
{"id": "C88", "title": "The verifier over any session store", "statement": "Whatever the application's implementation of SessionStore does: polling looks the id up once; retrieval looks it up once and sets the status, to sent, exactly if the session it was shown was still to be sent by reference; verification looks the id up once and, if shown a session, sets the status of that id once, to what the validator makes of that session and the response; building hands over exactly one session, with the id given, after everything else has succeeded; no operation calls the store about another id. Over every store that does what the trait documents (a call that reports success has done what it says, a call that reports failure has done nothing, a lookup only reports what is there), under every interleaving and with the store failing at any time, the verifier behaves as over the bundled store, up to the reasons of failures; so what it hands out, validates and records belongs to the session asked for. The bundled store is such a store.", "quantifier": "all implementations of the store, all interleavings of any number of operations, all failures of the store", "why_tests_cant": "The store is supplied by the application; all implementations, schedules and failures.", "anchors": ["src/verifier/session.rs: SessionStore", "src/verifier/mod.rs: poll_status, retrieve_authorization_request, verify_response", "src/verifier/request_builder.rs: build_with_session_id, build_dc_api"]}
{"id": "C89", "title": "Which statuses the sessions of a verifier have", "statement": "A session starts as sent, or, exactly if requests are passed by reference, as to be sent by reference (sessions for the Digital Credentials API as sent). Under every interleaving, a session built by the library is to be sent by reference, sent, or complete: the status 'received' is never recorded and never reported.", "quantifier": "all verifiers, all interleavings of any number of operations", "why_tests_cant": "All schedules.", "anchors": ["src/verifier/request_builder.rs: build_with_session_id, build_dc_api", "src/verifier/mod.rs: verify_response", "openid4vp-frontend/src/lib.rs: Status"]}
{"id": "C90", "title": "What stands beside a request object has no effect", "statement": "Two request URLs for the same endpoint with the same client_id that name the same request (the same single JWT; otherwise the same address of one; otherwise the same last values of the parameters) are treated alike by a wallet, in what it does and in what it decides, whatever other parameters they have and in whatever order. The request object is determined by the JWT alone. A client_id outside a typed JWT can only have the request refused, exactly if the JWT has another one. No parameter makes the wallet fetch by anything but GET.", "quantifier": "all wallets, URLs, query strings, JWTs and HTTP behaviours", "why_tests_cant": "a statement about pairs of requests: any parameter added beside the signed object, in any position, must make no difference", "anchors": ["src/core/authorization_request/mod.rs", "src/wallet.rs"]}
{"id": "C91", "title": "A whole exchange between a verifier and a wallet", "statement": "The end-to-end test holds for all requests, responses and validators, given that wallet and verifier match as in C22, that the signature library verifies what the signer signs, and that the items of an unencoded vp_token are nested at most 125 deep: the request that a verifier with a DID client builds by value is validated by the wallet, without any HTTP request, as the request object of the stored session, whose status is 'sent'; a response of the kind the request asks for is then posted once, below the submission path of the verifier, is read back by the verifier as the response that was sent, and the status becomes what the validator says of that session and that response; no other session is affected. A response of another kind changes nothing. Over any number of HTTP requests the last one posted for a session decides its status, and a session for which nothing is posted keeps it.", "quantifier": "all verifiers with DID clients, builders, wallets, stores, responses, validators and sequences of HTTP requests", "why_tests_cant": "the test runs one request and one response; the claim is about every composition of builder, wallet and verifier", "anchors": ["tests/jwt_vc.rs", "src/wallet.rs", "src/verifier/mod.rs"]}
{"id": "C92", "title": "Random nonces", "statement": "A random nonce has exactly the length asked for and consists of ASCII letters and digits. It is spelled by the words of the random generator in order, each used for at most one character, those that stand for nothing left out, and nothing beyond the last one needed is consumed; it is drawn as soon as the generator has yielded enough usable words. Every letter and digit is equally likely (exactly 2^26 of the 2^32 words stand for it), and every text of letters and digits can be drawn. A nonce is written in a URL and in JSON as it is.", "quantifier": "all lengths and all sequences of random words", "why_tests_cant": "a statement about the whole distribution: a bias, a reused word or a character outside the set shows only over all random words", "anchors": ["src/core/authorization_request/parameters.rs: Nonce::random"]}
{"id": "C93", "title": "The bundled signer", "statement": "For all keys, the bundled P-256 signer announces ES256 under both signer traits, publishes the two coordinates of its public key and nothing else (different keys as different JWKs), and signs the same under both traits. What a DID client or a certificate client signs with it is accepted by the bundled verification exactly in the wallets that list ES256.", "quantifier": "all keys, signing functions, certificates, wallets and request objects", "why_tests_cant": "all wallets' algorithm lists and all keys", "anchors": ["src/verifier/request_signer.rs: P256Signer", "src/core/authorization_request/verification/verifier.rs: P256Verifier"]}
{"id": "C94", "title": "The hash is SHA-256", "statement": "For every message there is exactly one SHA-256 hash in the sense of FIPS 180-4 (constants from the roots of the primes, message schedule, padding), and it is the one computed; it has 32 bytes, and different messages of fewer than 2^61 bytes are different when padded. The transcripts of both flows end with the hash of what they commit to, key thumbprints are the hash of the required members, and the client identifier of an x509_hash client (both when made and when verified) is the base64url text, 43 characters, of the hash of the certificate.", "quantifier": "all byte strings; all client identifiers, nonces, thumbprints, addresses, origins, keys, certificates and requests", "why_tests_cant": "the published vectors are a handful of messages; padding differs for each length modulo 64", "anchors": ["src/core/iso_18013_7/mod.rs: Handover::new, DcApiHandover::new, compute_jwk_thumbprint", "src/core/authorization_request/verification/x509_hash.rs: validate", "src/verifier/client.rs: X509HashClient::new"]}
{"id": "C95", "title": "The builder of encrypted tokens", "statement": "For every chain of calls on the JWE builder: the chain goes through exactly if every key given as JSON is an object the JOSE library accepts as a key; and what is built is an encryption of the payload given last (an object of acceptable claims) to the key given last, if the algorithm given last is ECDH-ES, with a protected header that has that algorithm, the content encryption given last (A128GCM if none), the key id given last (that of the key if none) and the type JWT. Without a payload, a key or an algorithm, or with another algorithm, nothing is built.", "quantifier": "all finite chains of calls, all JOSE libraries", "why_tests_cant": "calls can be repeated and ordered in unboundedly many ways; a setter that loses an earlier call shows only in some orders", "anchors": ["src/core/jwe.rs: JweBuilder", "src/core/jwe.rs:44-143", "src/core/jwe.rs:305-318"]}
{"id": "C96", "title": "What of its metadata a wallet's decision depends on", "statement": "Validation of a request depends on the wallet's metadata only by the client identifier prefixes and the encryption algorithms it announces (beside what the wallet's own verification method looks at): with other metadata that agree on those three parameters it does the same things and returns the same. If the request does not ask for an encrypted response, only the prefixes matter; for a pre-registered client (no client identifier, or one without a colon) not even these. A client identifier with the prefix pre-registered written out goes to the catch-all method.", "quantifier": "all wallets, all metadata, all requests", "why_tests_cant": "independence from all other metadata is a statement about pairs of all metadata", "anchors": ["src/core/authorization_request/verification/mod.rs:122-259"]}
{"id": "C97", "title": "Requests that a wallet accepts come from the client they name", "statement": "Let a client make tokens for some request objects. A wallet that verifies requests for that kind of client (for DID clients, without an algorithm called none among those it lists) accepts, under the client's identifier, only these request objects: whoever sends the request, whether by value or by reference, whatever the network answers and however the texts are altered; unless the very token that the wallet received is a forgery, that is, has a signature which verifies under a key of the DID (for DID clients), of the client's certificate (for x509_hash clients, where it may also carry another certificate with the same hash) or of a certificate in it that names the host (for x509_san_dns clients), though the client made no token with that text. For x509_san_dns clients the exception takes no forgery: anyone with a certificate of their own making that names the host has any request accepted, whatever trust anchors the wallet gives.", "quantifier": "all wallets, clients, signers, senders, request objects and network answers", "why_tests_cant": "that no altered request is accepted is a statement about all texts an attacker could send", "anchors": ["src/core/authorization_request/verification/mod.rs:122-259", "src/core/authorization_request/verification/did.rs", "src/core/authorization_request/verification/x509_hash.rs", "src/core/authorization_request/verification/x509_san.rs", "src/verifier/client.rs"]}
{"id": "C98", "title": "Which inputs make the library panic", "statement": "No text, URL, request, response, metadata document, CBOR item or answer of the network makes the library panic: a wallet validating requests and submitting responses, the bundled verification methods, a verifier building requests, looking after sessions and taking responses, the readers of every typed parameter and the JWE builder end with a value or an error, as long as the callbacks the application supplies do. The calls that panic are these two: making a client with an empty certificate chain, and turning a presentation into an item of a vp_token when it does not serialise to a JSON object. The unwraps in the static wallet metadata and the expects in the command-line verifier never fail.", "quantifier": "all inputs of the functions named, all wallets, verifiers and stores", "why_tests_cant": "absence of panics is a claim about every input; a test that does not panic says nothing about the next one", "anchors": ["src/verifier/client.rs:86-155", "src/core/response/parameters.rs:142-224", "src/core/metadata/mod.rs:111-139", "src/wallet.rs", "src/verifier/mod.rs", "src/core/authorization_request/mod.rs", "examples/cli-verifier/main.rs:387-458"]}
{"id": "C99", "title": "Which members of a request object decide", "statement": "Whether an object is a request object, what its fields are, and whether a wallet accepts the request that carries it, depends on seven members only: client_id, client_metadata, nonce, redirect_uri, response_mode, response_type and response_uri. Two requests with the same client identifier outside whose objects have these members alike get the same verdict, with the same error if refused, unless the wallet's own verification method tells them apart; the bundled methods look at the object only by its client identifier. So setting or removing any other member, such as dcql_query, state, scope, aud, expected_origins, transaction_data or verifier_info, changes nothing. Each of the seven is needed: for each there are two requests that differ in nothing else of which one is accepted and the other refused.", "quantifier": "all wallets, requests, request objects, and member names and values outside the seven", "why_tests_cant": "that a member is never looked at is a claim about all its values and all contexts", "anchors": ["src/core/authorization_request/mod.rs:72-90", "src/core/authorization_request/mod.rs:99-159", "src/core/authorization_request/mod.rs:305-395", "src/core/authorization_request/verification/mod.rs:122-259"]}
{"id": "C100", "title": "Where the answer to an accepted request goes", "statement": "Whatever request a wallet accepts under a verifier's client identifier, whoever sent it and however it was passed, the wallet's answer belongs to one session of that verifier, unless the token that the wallet received is a forgery in the sense of C97: everything the wallet posts goes by POST to the address of that session below the verifier's submission endpoint; whatever it encrypts is encrypted to the first suitable key of the client metadata given to that builder; the query and the nonce are those given to that builder. This holds for DID, x509_hash and x509_san_dns clients.", "quantifier": "all verifiers, builders, sets of sessions, wallets, requests, network answers, signature schemes and encryption libraries", "why_tests_cant": "it is a claim about every request that anyone could send to the wallet", "anchors": ["src/verifier/request_builder.rs:57-218", "src/core/authorization_request/verification/mod.rs:122-259", "src/wallet.rs:31-107", "src/core/jwe.rs:249-322"]}
{"id": "C101", "title": "What binds a response to its session", "statement": "The library compares nothing of a response with the session for which it is delivered; that is left to the validator, and with a validator that does not look at its session every response has the same answer and outcome for every session. The example verifier's validator is of this kind: its report about a session depends on the last response delivered for it alone, and for a plain response on the number of query ids alone. So what the example wallet posts for one session, bound to that session's nonce, is reported as a success of another session with another nonce, plain or encrypted. (A finding.)", "quantifier": "all validators that do not look at the session, sessions, stores, responses, histories of calls, and pairs of sessions of a started verifier", "why_tests_cant": "that nothing of a session matters is a claim about all pairs of sessions, responses and histories", "anchors": ["src/verifier/mod.rs:112-129", "examples/verifier-conformance-adapter/server/handlers.rs:126-224"]}
{"id": "C102", "title": "What is read from an object can be put back", "statement": "For every object and every one of the 27 typed parameters of the library: a value that `get` reads from the object is one that survives printing and reading (its catch-all variants carry no known name, its URL is in normal form, its map has one entry per key). Writing the value back with `insert` leaves an object from which the same value is read (maps of formats up to the order of their entries), in which every other member is untouched, and from which readers of any type with another member name read what they read before. The verifier's and the wallet's map of formats share a member and are read and written alike. The text of the member itself may differ: URLs are normalised and unknown members of a query are dropped.", "quantifier": "all objects, all typed parameters and values, all readers of other members (any type with a TypedParameter instance)", "why_tests_cant": "The repository's tests read back values they constructed; they do not start from arbitrary JSON that some other party wrote, where the value read may be a catch-all, an unnormalised URL or a query with unknown members.", "anchors": ["src/core/object/mod.rs:23-56", "src/core/authorization_request/parameters.rs:14-642", "src/core/metadata/parameters/wallet.rs:11-208", "src/core/metadata/parameters/verifier.rs:9-116", "src/core/response/parameters.rs:14-134", "src/core/dcql_query.rs:9-14"]}
{"id": "C103", "title": "The endpoint a request is built for and the endpoint where the wallet takes it", "statement": "Wallet metadata holds its endpoint twice: in its parameters, from which a verifier builds the request's URL, and in a field of its own, with which the wallet compares the URL. Whatever is done with the metadata (replacing formats, adding algorithms or prefixes, editing the parameters, converting to parameters and back), the reported field never changes. New and parsed metadata has the same endpoint in both; so has metadata after any history without an edit of that member, and after any history that ends with a conversion. A wallet reads the URL of a built request exactly if the two endpoints have the same authority and path; when they agree it always does. After an edit that moves the endpoint in the parameters the wallet so described refuses every request built for it. (A finding.)", "quantifier": "all histories of wallet metadata, all verifiers, builders, sessions and wallets", "why_tests_cant": "that no history of calls makes the two copies differ, except through one member, is an invariant over unbounded histories", "anchors": ["src/core/metadata/mod.rs:20-173", "src/verifier/request_builder.rs:147-150", "src/wallet.rs:23-29", "src/core/authorization_request/mod.rs:205-221"]}
{"id": "C104", "title": "Who can have the example wallet's answer", "statement": "What the example wallet presents, for which audience, with which nonce and state, depends on four members of the request object only (client_id, dcql_query, nonce, state) and on the state beside it; where the answer goes and whether it is encrypted depends on others. Nothing ties the two together, as the wallet checks no signature: for every request that it would answer, for every address and every signature, there is a token, which can be made without any key from what the request says, that makes the wallet post the very same token and state in plain to that address. Handed on to the example verifier the answer is reported as a success of the session of whoever did so, also if the verifier asked for encryption. (A finding.) Only clients that are redirect addresses are safe from it: with the same client identifier an answer goes to that address or is not sent.", "quantifier": "all wallets, calls, request objects, addresses, signatures, sessions of the example verifier and calls before and after", "why_tests_cant": "it takes for every request another one that is answered alike, for all addresses and signatures", "anchors": ["examples/wallet-conformance-adapter/server/handlers/authorization.rs:89-280", "src/core/authorization_request/mod.rs:99-159", "examples/verifier-conformance-adapter/server/handlers.rs:126-224"]}
{"id": "C105", "title": "A presentation that is bound to the session transcript is good for one session", "statement": "A request that is answered by a post has exactly one session transcript, and it is what the library makes of the request's client identifier, nonce, return address and (if encryption is asked for) the thumbprint of the encryption key. Requests with the same transcript agree in all four, or else what was hashed for them is a collision; the transcripts of the two flows are never the same. Two sessions of a verifier have the same transcript only if they have the same session id and nonce. So if the validators of a verifier accept only what is signed over the transcript of the session, and devices sign only transcripts of requests that their wallet accepted, then however the calls are interleaved and whatever is delivered for whatever session, a session is completed with a success only if a wallet accepted a request with the verifier's client identifier, that session's nonce and that session's address, to which alone the answer is posted; or what was hashed is a collision. Over the Digital Credentials API the transcript is fixed by origin, nonce and thumbprint: sessions built from the same parameters have the same transcripts whatever their ids and whichever verifier built them, so that the nonce alone tells them apart.", "quantifier": "all hash functions with 32 bytes, request objects, verifiers, builders, sessions, origins, schedules of calls, validators and notions of signature", "why_tests_cant": "it is about all pairs of requests and all interleavings of all calls; equal transcripts cannot be found by testing", "anchors": ["src/core/iso_18013_7/mod.rs:24-240", "src/core/iso_18013_7/mod.rs:383-407", "src/verifier/mod.rs:75-140", "src/verifier/request_builder.rs:57-230"]}
{"id": "C106", "title": "The command-line verifier with several requests at once", "statement": "A request whose handler is not interrupted is handled as in C85, and requests handled one after the other give the run of C85. However the steps of any number of handlers are interleaved, with handlers dropped and the session store found locked at any time: every status displayed is accounted for by a request that came, and a result by a response delivered for a stored session, with the verdict of that response; the program stops only after such a response has come; no session appears, disappears or changes but in its status, which becomes that of a request that was asked for or of a response delivered for that session; what is sent for a request is a refusal, the answer to a preflight request, the stored request object of the session asked for, or the acceptance of a response for a stored session, whose verdict was stored in that session by then. No handler waits for another: it is done after ten steps of its own, as long as the process has not ended. But the displayed status is shared and read again before printing, and completion is notified before the verdict is stored: for every response for a stored session and every other text posted for any session id there are executions in which the program stops and the result is never displayed, and ones in which it is displayed twice; and it can be displayed although the response is refused and nothing stored.", "quantifier": "all stores, requests, map orders and interleavings of any length", "why_tests_cant": "Interleavings of unboundedly many handlers cannot be enumerated, and the races found need a particular order of steps on several threads.", "anchors": ["examples/cli-verifier/main.rs:151-272", "examples/cli-verifier/main.rs:782-799", "src/verifier/mod.rs:79-129", "src/verifier/session.rs:46-76"]}
{"id": "C107", "title": "The example verifier with several requests at once", "statement": "A request whose handler is not interrupted is handled as in C82, and requests handled one after the other give the run of C82. However the steps of any number of handlers are interleaved, with handlers dropped and the session store found locked at any time: as long as no retrieval of a request object writes its mark over a session that changed since it was read, everything happens as if the requests were handled one after the other in some order, except for refusals because the store was locked; what is sent for a request is always what the server alone sends for it with the sessions of some moment between its arrival and its answer, or such a refusal; no session is lost, every session was there at first or was made by a request that came, under the id drawn for it, and only its status changes, to that of a request object that was asked for or to the verdict on a response delivered for it. No handler waits for another: it is done after two steps of its own. But the retrieval reads the session and marks it in two separate steps: for every session not yet fetched, a retrieval, a response and a later poll have an execution in which all succeed and the poll is told that a response is still waited for, the verdict being overwritten, which no order of the three one after the other does; and because the store is only tried, every request for a stored session can be answered as if there were none while another request is handled.", "quantifier": "all servers, stores, requests and interleavings of any length", "why_tests_cant": "Interleavings of unboundedly many handlers cannot be enumerated, and the races found need a particular order of steps on several threads.", "anchors": ["examples/verifier-conformance-adapter/server/handlers.rs:47-277", "examples/verifier-conformance-adapter/main.rs:39-66", "src/verifier/mod.rs:50-129", "src/verifier/session.rs:46-76"]}
{"id": "C108", "title": "A proper exchange with the example verifier is not undone by other requests", "statement": "Let the request object of a session have been handed out, let no retrieval of it be under way when a response for the session comes, let that be the only response for the session, and let its id be drawn for no second session. Whatever else is requested before and afterwards, of this and other sessions (including further retrievals of the request object), in whatever order the steps of the handlers are interleaved, with handlers dropped and the session store found locked at any time: if the response is answered at all it is accepted, unless the store was found locked; from the moment it has been accepted the session holds the verdict on it and is otherwise as it was, and whoever asks for its status afterwards and is answered is shown that verdict, unless the store was found locked.", "quantifier": "all servers, stores, sessions, responses, requests and interleavings of any length", "why_tests_cant": "The claim is about every interleaving with any number of other requests; C107 shows that one misplaced retrieval does destroy the result, so it is the exact condition that matters.", "anchors": ["examples/verifier-conformance-adapter/server/handlers.rs:47-277", "src/verifier/mod.rs:50-129", "src/verifier/session.rs:46-76"]}
{"id": "C109", "title": "The example wallet and the example verifier amid other requests", "statement": "Let the example verifier, started under a public address without a directory, have answered a request for the request object of a session, and let the HTTP client of the example wallet, which has consent and a PID, get just that answer. Then the session was begun by a request that came, and the wallet sends exactly one response, to the address of the session, with a presentation of its first PID bound to the nonce of that request and the verifier's client identifier. When this response is delivered while nobody retrieves the request object of the session, no other response is delivered for it and its id is drawn for no second session, then it is accepted, unless the session store is found locked, and whoever asks for the status after that and is answered is shown success, with one credential for a plain response and with exactly what the wallet encrypted for an encrypted one, unless the session store is found locked; whatever other requests come before, in between and afterwards, however the steps of their handlers are interleaved, and with handlers dropped at any time.", "quantifier": "all servers, stores, wallets, credentials, parameters, requests and interleavings of any length", "why_tests_cant": "The claim combines two programs with any number of other clients in any interleaving.", "anchors": ["examples/verifier-conformance-adapter/server/handlers.rs:47-277", "examples/wallet-conformance-adapter/server/handlers/authorization.rs:66-576", "src/verifier/mod.rs:50-129", "src/verifier/session.rs:46-76", "src/wallet.rs:24-108"]}
{"id": "C110", "title": "Where a reference leads", "statement": "Resolving a text against a URL gives a URL exactly when the URL standard says so, and that URL: a text with a scheme is a URL of its own, unless the scheme is special, that of the base, and not followed by two slashes; a text without scheme keeps scheme and authority of the base unless it begins with two separators; a path that does not begin with a separator is put behind the directory of the base, dots being removed from both together; the query of the base is kept only by a text with neither path nor query; an opaque path can be a base only for a fragment. Each text leads to one URL at most, which is one that printing and reading give back; the printed text of a URL leads to it from everywhere; a fragment changes nothing else.", "quantifier": "all texts and all base URLs the crate can hold", "why_tests_cant": "All references against all bases, with any number of segments, escapes and dots.", "anchors": ["examples/verifier-conformance-adapter/server/state.rs:93,95", "src/core/util/mod.rs: ReqwestClient::execute"]}
{"id": "C111", "title": "What leaves the example wallet", "statement": "Whatever parameters the authorization endpoint of the example wallet is called with, every request it makes is either a GET request without a body or the response to the one request object of the call. The response is made only with the user's consent. It goes by POST to the response address of the request object, which for a client identified by a redirect address is that address. Its body, in the mode the request object asks for, holds the state and a VP token and nothing else; the encrypted one is encrypted to the first suitable key of the client metadata. The VP token has as its names exactly the ids of the credential queries, and under each id, query by query, a presentation of the first credential of the store that answers the query, an SD-JWT being bound by a fresh key-binding token to the nonce of the request object and the client. The response is made whenever the user consents, every credential query is answered by a credential of the store, the address is the client's own if it is identified by one, and the mode is a plain response or an encrypted one whose key and contents the encryption takes. Two stores in which each query of the request object is answered first by credentials of the same text are not told apart, by the verifier or by the caller; in particular, credentials that answer no query of the request object leave no trace in requests or answer.", "quantifier": "all wallets, stores, endpoint addresses, parameters, request objects, answers of the verifier and hash-map orders", "why_tests_cant": "That nothing else leaves, and that credentials not asked for have no influence, is about all stores and all calls; the second claim compares pairs of runs.", "anchors": ["examples/wallet-conformance-adapter/server/handlers/authorization.rs:89-549", "examples/wallet-conformance-adapter/dcql/matcher.rs:21-141", "examples/wallet-conformance-adapter/engine/headless.rs:52-90", "src/core/response/mod.rs:1-120"]}
{"id": "C112", "title": "Users of some sessions learn nothing of the others", "statement": "Take any set of sessions of the example verifier, and two executions of its server, in which handlers may overlap, be abandoned, and find the store locked, that begin with the same of these sessions and have the same moves except that requests about none of these sessions (for a request object, for a status, with a response, or for a new session) may differ in any way. Then, after both executions, the sessions of the set are the same, and every request about one of them is at the same point of its handler in both, so that it gets the same answer. In particular, other sessions, responses for them, and their number leave no trace in the answers to those who know only these. A request is about one session at most.", "quantifier": "all servers, session stores, sets of sessions and pairs of executions of any length with any interleaving of handlers", "why_tests_cant": "It compares pairs of executions with arbitrary interleavings; a leak between sessions shows only in the pair.", "anchors": ["examples/verifier-conformance-adapter/server/handlers.rs:47-277", "src/verifier/session.rs:46-77", "src/verifier/mod.rs:50-129"]}
{"id": "C113", "title": "Supporting, offering and holding more gets nothing refused that was accepted", "statement": "If a wallet accepts a request, a wallet that differs in supporting further client identifier prefixes and further (or unrestricted) encryption algorithms accepts it as the same request object and does the same on the way; in particular announcing further prefixes refuses nothing. If a verifier's request is accepted, the request that differs in offering further keys and content encryption algorithms is accepted too, if the verification method accepts it. If the example wallet responds to a call, credentials put at the end of its store change nothing, and with any larger store it responds once. The exception, a finding: announcing a list of key agreement algorithms where there was none restricts, and any such list without an algorithm of the verifier gets an accepted request for an encrypted response refused.", "quantifier": "for all wallets, metadata, requests, verification methods, client metadata, stores and calls", "why_tests_cant": "Monotonicity relates two runs for every pair of ordered configurations; tests compare a few pairs, and a check that depends on an order, on the last element of a list or on a default that gets lost passes them.", "anchors": ["src/core/authorization_request/verification/mod.rs:122-259", "src/core/metadata/mod.rs:1-202", "examples/wallet-conformance-adapter/dcql/matcher.rs:21-141", "examples/wallet-conformance-adapter/server/handlers/authorization.rs:89-549"]}
{"id": "C114", "title": "How a request reaches the wallet makes no difference to what becomes of it", "statement": "A request by reference is treated as the request that passes the fetched token by value: the same result, be it a request object or an error, and the same effects after the one GET; so the place a token is fetched from plays no part. A request object in a token typed as one gets the same result as the same parameters passed directly, if the wallet's methods do not ask for the token and the outer client identifier, if there is one, is that of the object. Where the two identifiers differ the ways differ: the token is never accepted, while direct parameters are taken as those of the outer client, whatever identifier they carry.", "quantifier": "for all wallets, HTTP clients, verification methods, client identifiers, references, tokens and objects", "why_tests_cant": "The three ways run through different code; tests compare them on a few requests, mostly accepted ones, while a check made on one way only shows on requests that one way refuses and another accepts.", "anchors": ["src/core/authorization_request/mod.rs", "src/core/authorization_request/verification/mod.rs"]}
{"id": "C115", "title": "The example wallet and the sets of credentials a query asks for", "statement": "Without `credential_sets` the example wallet's matcher selects exactly when the store can answer every credential query (with distinct ids), and then selects one credential for each. With them, a selection always covers the ids of all credential queries and no others, so it is what OpenID4VP 6.4.2 asks for exactly if each set that is not optional has an option that names credential queries of the query only; the same holds of the VP token that leaves the wallet. The findings: a query that can be answered by one option is refused if any other credential query cannot be answered; where all can be answered the credentials of all options are disclosed although one option is enough; and neither distinct ids nor the references of the sets are checked.", "quantifier": "for all queries, stores, lower-casing functions, request objects and VP tokens", "why_tests_cant": "The demands of sets quantify over options and stores of any size; tests show a few queries, most without sets, and a matcher that ignores the sets passes all of them that can be answered in full.", "anchors": ["examples/wallet-conformance-adapter/dcql/matcher.rs", "src/core/dcql_query.rs"]}
{"id": "C116", "title": "What the session transcript says of the key an answer is encrypted to", "statement": "The thumbprint in the handover of a request is that of its key for the transcript: the first key for encryption with the required members of its type. If two requests that are answered by a post have the same session transcript, one of them asks for an encrypted answer and its key for the transcript has no quotes in its required members, then the other asks for an encrypted answer too and its key for the transcript has the same type and required members, or the hash function collides; if moreover the keys for the transcript and for the answer of the other request are the same, its answer is encrypted to a key with these members. The finding: in general the transcript says nothing of the key the answer is encrypted to. For every request for an encrypted answer and every suitable key there is a request that differs from it in the keys only, has the same transcripts, passes the same checks against the wallet's metadata, and whose answer is encrypted to that key.", "quantifier": "for all request objects, keys, metadata, hash functions with 32 bytes of output, origins, vp tokens and states", "why_tests_cant": "A statement on all pairs of requests with the same transcript, up to collisions of the hash function; a test computes the transcripts of a few requests with one key each, where both ways to choose a key agree.", "anchors": ["src/core/iso_18013_7/mod.rs", "src/core/jwe.rs"]}
{"id": "C117", "title": "What the example wallet's refusals tell of its holdings", "statement": "Without the user's consent nothing the example wallet does depends on its credentials. The finding: with consent, a request that cannot be answered (its mode is not a post, or its address is not that of its redirect client) is refused as access_denied exactly if the wallet lacks a credential for some query, and otherwise with another error; nothing is posted. So anyone who can call the endpoint, with a token under any signature for an answer over the Digital Credentials API, learns of any type whether the wallet has a credential of it, without any HTTP request of the wallet. No more is told by the status, the error code, the state and the requests made: stores that both have or both lack what is asked for are not told apart, so not the values of claims nor what would be presented (the text of the error description is not modelled; it names the first query that was not matched).", "quantifier": "for all example wallets, stores, calls of the endpoint, requests, queries, token headers the wallet takes and signatures", "why_tests_cant": "Equality of two runs of the endpoint for every pair of stores, and an equivalence between an error code and the contents of any store; a test compares a few stores.", "anchors": ["examples/wallet-conformance-adapter/server/handlers/authorization.rs", "examples/wallet-conformance-adapter/dcql/matcher.rs"]}
{"id": "C118", "title": "Operations that run at the same time do what they do one after the other", "statement": "For every interleaving of builds, polls, retrievals, verifications and removals on the in-memory store, with operations dropped or failing at the lock at any point: the store and the way each operation ends are those of the same operations run one after the other, in the order in which they ended, unless an operation is overtaken, i.e. writes what follows from a reading that no longer holds. If sessions are stored under fresh ids and the validators do not look at the status, only a retrieval that notes that the request was sent for a session that has got further can make a difference; a verifier that is never asked for a request by reference is free of it. The finding: a retrieval during which a response is verified leaves a store that the two operations leave in neither order.", "quantifier": "for all stores, sessions, validators, responses and schedules of any length", "why_tests_cant": "Serializability over all interleavings of any number of operations; a test runs a few operations under the schedules the runtime happens to choose.", "anchors": ["src/verifier/mod.rs", "src/verifier/session.rs"]}
{"id": "C119", "title": "A verifier known by a redirect address can be answered in one session at most", "statement": "OpenID4VP 5.9.3 wants a client with the prefix redirect_uri to be answered at the address in its client identifier. For every verifier whose client identifier is redirect_uri: and an address, and every session it builds with responses to be posted, whatever the builder is given: the request keeps that rule exactly if the address is the submission endpoint with the id of that session; so it is kept in at most one session, and in none if the address is the submission endpoint itself, as in the command-line verifier. Wallets that check the rule, among them the example wallet, accept or answer requests of at most one session of such a verifier.", "quantifier": "for all verifiers, builders, wallet metadata, stores, sessions, wallets with any credentials, and ways the request reaches the wallet", "why_tests_cant": "A statement about all pairs of sessions of all verifiers; no test of the library has a client with a redirect address and a wallet that checks it.", "anchors": ["src/verifier/request_builder.rs", "src/verifier/client.rs", "examples/cli-verifier/main.rs", "examples/wallet-conformance-adapter/server/handlers/authorization.rs"]}
{"id": "C120", "title": "What can be done with the request URL of a session", "statement": "Whoever sees a request URL of the example verifier, say as a QR code, can read one text off the path of its request_uri, and that text is the session id. With it alone they get from the status route the whole presentation that a wallet encrypted to the verifier, and they can have the verifier report success without any credential by posting an empty response, before the wallet answers or afterwards. The URL shown by the command-line verifier shows its session id too, and whoever posts an empty response first ends that program with success, whatever the wallet sends later.", "quantifier": "for all started verifiers, public addresses, session ids, nonces, stores, wallets with any credentials, histories of calls before and after, and all texts that a URL shows", "why_tests_cant": "It composes request building, form and URL reading, the wallet, and all histories of the routes; tests run one history by the intended parties.", "anchors": ["examples/verifier-conformance-adapter/server/handlers.rs", "examples/cli-verifier/main.rs", "src/verifier/request_builder.rs", "src/core/authorization_request/mod.rs"]}
{"id": "C121", "title": "What the example verifier prints when it starts", "statement": "When the example verifier starts, the lines it prints between braces are one JSON text with exactly the coordinates of the key, its private number and its certificate; that key signs every request and that certificate is in the header of every request, also after restarts with cached certificates. The client id it prints is the host, while requests carry it with the prefix x509_san_dns:. The response mode it prints is the argument as given; requests use direct_post.jwt only for exactly this text and direct_post for every other text, so a mistyped mode silently turns encryption off. The addresses it lists for sessions are those in the requests exactly if the public address ends in one slash and has neither query nor fragment, and the status address it lists is the one it answers with exactly if the public address does not end in a slash; with http or https both are never right.", "quantifier": "for all public addresses, response mode arguments, keys, certificates, earlier starts on the same cache, session ids, nonces and stores", "why_tests_cant": "It relates printed text to all later requests over all addresses and arguments; tests start the program with one address.", "anchors": ["examples/verifier-conformance-adapter/main.rs", "examples/verifier-conformance-adapter/server/state.rs", "examples/verifier-conformance-adapter/server/handlers.rs"]}
{"id": "C122", "title": "The two examples with each other", "statement": "A wallet that is given the request of a session of the example verifier sends exactly one response if it may present and holds a dc+sd-jwt credential of type urn:eudi:pid:1, and otherwise sends nothing and answers access_denied. The wallet as shipped holds one credential, of type https://credentials.example.com/pid/1.0, so it answers no session of the example verifier, however either is configured otherwise, and the verifier goes on reporting that the session waits. It also answers no request of the command-line verifier, whatever types that is told to ask for.", "quantifier": "for all started verifiers of both response modes, earlier starts, sessions, nonces, stores, wallets, parameters and later calls; for all lists of types of the command-line verifier", "why_tests_cant": "It is a statement about pairs of programs over all of their configurations; tests run one pair with credentials made for the test.", "anchors": ["examples/wallet-conformance-adapter/credentials.json", "examples/wallet-conformance-adapter/server/handlers/authorization.rs", "examples/wallet-conformance-adapter/credentials/matcher.rs", "examples/verifier-conformance-adapter/server/state.rs", "examples/cli-verifier/main.rs"]}
{"id": "C123", "title": "The start of the example wallet", "statement": "The example wallet starts exactly if its public address (given, or http with host and port), and that address with /authorize after it, can be read as URLs and host and port name a socket. It then holds the embedded credentials, presents unless told not to, and announces, in the box and in its metadata, the public address with /authorize after it. For a public address without query and fragment the addresses it lists are made from the address without the slashes it ends in, so listed and announced endpoint agree exactly if the address does not end in a slash; the server answers at the listed endpoint exactly if the path has only slashes, and at the announced one only without any path. Started with whatever arguments, it answers 400 access_denied and sends nothing for every session of the example verifier.", "quantifier": "for all arguments, surroundings, addresses, requests to the server, and all started verifiers, sessions and parameters", "why_tests_cant": "It relates printed text, metadata and routes over all public addresses, and two programs over all their arguments; tests start the program with one address.", "anchors": ["examples/wallet-conformance-adapter/main.rs", "examples/wallet-conformance-adapter/config.rs", "examples/wallet-conformance-adapter/server/state.rs", "examples/wallet-conformance-adapter/engine/headless.rs"]}
{"id": "C124", "title": "The holder key of the example wallet", "statement": "The secret in the example wallet's source is a P-256 secret, and its public key is the key named in cnf.jwk of every embedded credential and the one key the started wallet serves at /.well-known/jwks.json. For any secret, digest and one-time number, what signing returns is an ECDSA signature on that digest for the public key of the secret, so the key binding of every presentation has an ES256 signature for the key the credential is bound to, whatever nonce, audience and clock. A public key has one secret. The issuer's JWT of the embedded credential has a signature for no key.", "quantifier": "for all secrets, digests, one-time numbers, SD-JWTs, nonces, audiences, clocks and started wallets; for all points of the curve", "why_tests_cant": "It is a statement about every signature and every public key, resting on the group of the curve; a test checks some signatures with the same crate that made them.", "anchors": ["examples/wallet-conformance-adapter/crypto/keys.rs", "examples/wallet-conformance-adapter/credentials.json", "examples/wallet-conformance-adapter/engine/headless.rs", "examples/wallet-conformance-adapter/server/handlers/metadata.rs"]}
{"id": "C125", "title": "The bundled P-256 verifier and signer", "statement": "The bundled verifier made from an uncompressed subject public key info is made exactly for ES256 and the coordinates of a point of the curve, and accepts exactly the ES256 signatures (FIPS 186-5, RFC 7518) for that point. So a request object passes the check against a certificate with such a key exactly if it says ES256 and carries a signature, over its first two parts, for the key of the certificate. The bundled signer gives the JWK of its public key and, unless the crate panics, ES256 signatures for it; with a certificate of that key its requests are accepted exactly by the wallets that list ES256.", "quantifier": "for all keys, points, messages, signatures, one-time numbers, certificates and requests", "why_tests_cant": "Exactness of signature checking over all byte strings and points is a statement about the group of the curve; tests sign with the same crate and check a few messages.", "anchors": ["src/core/authorization_request/verification/verifier.rs", "src/verifier/request_signer.rs", "src/core/authorization_request/verification/x509_san.rs", "src/core/authorization_request/verification/x509_hash.rs"]}
{"id": "C126", "title": "What is encrypted to the verifier's key is what the verifier reads", "statement": "Two P-256 keys have exactly one shared secret and both owners compute it; the content key is the one of RFC 7518 section 4.6.2. Decryption with the secret of a key succeeds exactly on the JWEs addressed to it: five parts with an empty encrypted key, alg ECDH-ES, the key's kid, an epk on the curve, and a content encryption that opens under the derived key. What the library encrypts to a key, with any one-time secret and initialization vector, is exactly what the owner of the key reads. So a generated key of the example verifier works as C62 assumes, the encrypted response built for any request that names it first is reported with exactly its token and state, and so is the whole flow between the two examples.", "quantifier": "for all secrets, one-time secrets, initialization vectors, keys, headers, payloads, JWE texts and requests", "why_tests_cant": "That both sides agree for every pair of secrets is the commutativity of the group of the curve, and exactness of decryption ranges over all texts; tests encrypt with one key and do not decrypt.", "anchors": ["src/core/jwe.rs", "examples/verifier-conformance-adapter/crypto/jwe.rs", "examples/verifier-conformance-adapter/server/state.rs"]}
{"id": "C127", "title": "The content encryption of responses is GCM and opens exactly what it locks", "statement": "Under the names A128GCM, A192GCM and A256GCM, encryption yields exactly the text and the tag of NIST SP 800-38D: each byte added to a byte of an encrypted counter, and the tag made of the hash of the authenticated data, the encrypted text and their lengths, as a sum of products in the field of 2^128 elements. Decryption yields a text if and only if that text encrypts to the given text and tag with the same authenticated data; everything else is refused. So for every block cipher the assumption of C126 on content encryption holds, a generated key of the example verifier works, and the whole encrypted flow between the two examples reports exactly what was presented.", "quantifier": "for all block ciphers, keys, vectors, authenticated data, texts, tags, secrets, requests and schedules of the flow", "why_tests_cant": "Equality of the computed hash with the sum in the field, and refusal of every other tag, range over all texts of all lengths; tests encrypt a few values and never decrypt.", "anchors": ["src/core/jwe.rs", "examples/verifier-conformance-adapter/crypto/jwe.rs"]}
{"id": "C128", "title": "The block cipher of encrypted responses is AES", "statement": "With keys of 128, 192 and 256 bits, the block that is computed is exactly the one of FIPS 197: bytes are substituted by the affine image of their inverse in the field of 256 elements, rows are shifted, columns are multiplied by the matrix of the standard in that field, and round keys are added that satisfy the key expansion. So A128GCM, A192GCM and A256GCM encrypt and decrypt exactly as GCM with AES does, and of the encryption of a response only the random values are left open.", "quantifier": "for all keys of 16, 24 and 32 bytes, blocks, vectors, authenticated data, texts and tags", "why_tests_cant": "There are 2^128 blocks for each of 2^128 and more keys; test vectors are three of them.", "anchors": ["src/core/jwe.rs", "examples/verifier-conformance-adapter/crypto/jwe.rs"]}
