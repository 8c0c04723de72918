{"id": "C01", "title": "Authentication requires a valid signature by the registered key", "statement": "If handle_credential_assertion returns normally, then the signature in the response verified, under the public key the registrar returned for the presented raw credential id (ECDSA with the hash named by the key's alg for EC2 keys, EdDSA for OKP keys), over exactly the bytes authenticatorData followed by SHA-256(clientDataJSON).", "quantifier": "every credential, registrar behaviour and state, every option combination, every behaviour of the JSON, CBOR, hash and signature primitives", "why_tests_cant": "Tests sign a few messages; the claim is that no combination of inputs, stored data and option flags reaches success without this check on these exact bytes.", "anchors": ["webauthn_rp/backends.py:CredentialsBackend.handle_credential_assertion", "webauthn_rp/verifiers.py:verify", "webauthn_rp/converters.py:cryptography_public_key"]}
{"id": "C02", "title": "Ceremony type is bound", "statement": "Registration succeeds only if the \"type\" member of the client data JSON is the string webauthn.create, authentication only if it is webauthn.get; so one client data value is never accepted by both ceremonies.", "quantifier": "every client data byte string, credential, registrar and option set", "why_tests_cant": "A cross-ceremony confusion needs one unlucky input; tests try two strings.", "anchors": ["webauthn_rp/backends.py:CredentialsBackend.handle_credential_attestation", "webauthn_rp/backends.py:CredentialsBackend.handle_credential_assertion", "webauthn_rp/parsers.py:parse_client_data"]}
{"id": "C03", "title": "Challenge is bound", "statement": "Either ceremony succeeds only if the challenge member of the client data, base64url-decoded, is byte-for-byte the expected_challenge argument.", "quantifier": "every client data value, every expected challenge (any length), every option set", "why_tests_cant": "Decoder leniency and length edge cases are unbounded.", "anchors": ["webauthn_rp/backends.py:CredentialsBackend.handle_credential_attestation", "webauthn_rp/backends.py:CredentialsBackend.handle_credential_assertion", "webauthn_rp/utils.py:url_base64_decode"]}
{"id": "C04", "title": "Origin is bound", "statement": "Either ceremony succeeds only if the client data origin parses as an http(s) origin and equals, after parsing, the parse of one of the expected origins; an empty collection of expected origins is always refused with OriginError, and an unparsable expected origin always fails the call.", "quantifier": "every origin string and every (finite) collection of expected origins", "why_tests_cant": "URL syntax is unbounded; tests sample a handful of origins.", "anchors": ["webauthn_rp/backends.py:CredentialsBackend.handle_credential_attestation", "webauthn_rp/backends.py:CredentialsBackend.handle_credential_assertion", "webauthn_rp/parsers.py:parse_origin"]}
{"id": "C05", "title": "RP ID hash is bound", "statement": "Either ceremony succeeds only if the first 32 bytes of the authenticator data equal SHA-256 of the UTF-8 encoding of the effective RP id (the rp argument, or in authentication the registered RP when no argument is given).", "quantifier": "every authenticator data byte string, RP id and registrar", "why_tests_cant": "Any byte of the 32 could be ignored by a slip; tests flip the whole hash.", "anchors": ["webauthn_rp/backends.py:CredentialsBackend.handle_credential_attestation", "webauthn_rp/backends.py:CredentialsBackend.handle_credential_assertion", "webauthn_rp/parsers.py:parse_authenticator_data"]}
{"id": "C06", "title": "User presence is always required", "statement": "Either ceremony succeeds only if bit 0 of byte 32 of the authenticator data is set.", "quantifier": "every authenticator data byte string and option set", "why_tests_cant": "256 flag values times every option set times every payload.", "anchors": ["webauthn_rp/backends.py:CredentialsBackend.handle_credential_attestation", "webauthn_rp/backends.py:CredentialsBackend.handle_credential_assertion", "webauthn_rp/types.py:AuthenticatorDataFlag"]}
{"id": "C07", "title": "User verification is enforced on demand", "statement": "With require_user_verification=True either ceremony succeeds only if bit 2 of byte 32 of the authenticator data is set; with False the bit has no influence on the outcome of the checks.", "quantifier": "every authenticator data byte string and option set", "why_tests_cant": "As C06.", "anchors": ["webauthn_rp/backends.py:CredentialsBackend.handle_credential_attestation", "webauthn_rp/backends.py:CredentialsBackend.handle_credential_assertion"]}
{"id": "C08", "title": "Expected extensions are enforced", "statement": "If expected_extensions is given and not empty, either ceremony succeeds only if the authenticator data carries an extension map in which every expected extension identifier is present with a non-null value.", "quantifier": "every set of the nine extension identifiers and every extension map", "why_tests_cant": "2^9 sets times unbounded maps; the name mapping between wire names and attribute names must be right for each.", "anchors": ["webauthn_rp/backends.py:CredentialsBackend.handle_credential_attestation", "webauthn_rp/backends.py:CredentialsBackend.handle_credential_assertion", "webauthn_rp/types.py:ExtensionIdentifier.key", "webauthn_rp/parsers.py:parse_extensions"]}
{"id": "C09", "title": "Token binding matches exactly", "statement": "Either ceremony succeeds only if the token binding in the client data is absent when the RP passes none, and has equal status and equal id when the RP passes one.", "quantifier": "every client token binding value and every RP token binding argument", "why_tests_cant": "The absent/present/mismatch matrix over arbitrary JSON ids.", "anchors": ["webauthn_rp/backends.py:CredentialsBackend.handle_credential_attestation", "webauthn_rp/backends.py:CredentialsBackend.handle_credential_assertion", "webauthn_rp/parsers.py:parse_client_data"]}
{"id": "C10", "title": "Allow list is enforced before the registrar is consulted", "statement": "If allow_credentials is given and contains no descriptor whose id equals the presented raw id, authentication fails with CredentialNotAllowedError (given acceptable expected origins) and the registrar is not called at all.", "quantifier": "every allow list of any length, every credential, every registrar", "why_tests_cant": "Lists are unbounded and the no-call claim is about all registrars.", "anchors": ["webauthn_rp/backends.py:CredentialsBackend.handle_credential_assertion"]}
{"id": "C11", "title": "User identity is bound", "statement": "Authentication succeeds only if: when a user argument is given its id equals the id of the user the registrar associates with the credential; when none is given the response carries a user handle; and whenever the response carries a user handle it equals that same user id. The user handed to the registrar on success has that id.", "quantifier": "every user argument, user handle, registrar answer", "why_tests_cant": "Four-way presence matrix over arbitrary byte strings.", "anchors": ["webauthn_rp/backends.py:CredentialsBackend.handle_credential_assertion"]}
{"id": "C12", "title": "RP identity is bound", "statement": "Authentication succeeds only if an RP is known (argument or registered), and when both are present their ids are equal; the RP handed to the registrar is the effective one.", "quantifier": "every RP argument and registrar answer", "why_tests_cant": "Presence matrix over arbitrary strings.", "anchors": ["webauthn_rp/backends.py:CredentialsBackend.handle_credential_assertion"]}
{"id": "C13", "title": "Signature counter check", "statement": "If the registrar reports a stored signature count n and ignore_clone_error is False, authentication succeeds only if the big-endian 32-bit counter at bytes 33..36 of the authenticator data is strictly greater than n. If no count is stored or ignore_clone_error is True, the counter never causes a failure.", "quantifier": "every stored count (any integer or none), every authenticator data", "why_tests_cant": "2^32 counters times unbounded stored integers.", "anchors": ["webauthn_rp/backends.py:CredentialsBackend.handle_credential_assertion"]}
{"id": "C14", "title": "Nothing is written before every check passed", "statement": "If a ceremony fails for any reason other than the registrar's own write call failing, the registrar's state is the state left by the read call (authentication) or the initial state (registration); the write call happens at most once, as the last action, with the presented credential, the parsed authenticator data or attestation, and the effective user and RP.", "quantifier": "every input, registrar and registrar state", "why_tests_cant": "A claim about every failing path and every registrar.", "anchors": ["webauthn_rp/backends.py:CredentialsBackend.handle_credential_attestation", "webauthn_rp/backends.py:CredentialsBackend.handle_credential_assertion"]}
{"id": "C15", "title": "Only documented errors escape", "statement": "Every exception leaving either ceremony handler is an instance of WebAuthnRPError, whatever exception (of class Exception) the JSON, CBOR, crypto libraries or the registrar raise; an exception that is not already a WebAuthnRPError surfaces as InternalError, or as RegistrationError if the registrar raised it.", "quantifier": "every input, every exception raised by any dependency or registrar", "why_tests_cant": "Dependencies can raise anything anywhere.", "anchors": ["webauthn_rp/backends.py:CredentialsBackend.handle_credential_attestation", "webauthn_rp/backends.py:CredentialsBackend.handle_credential_assertion", "webauthn_rp/errors.py"]}
{"id": "C16", "title": "A refusing registrar is never success", "statement": "If the registrar's write call raises or returns anything but None, or its read call raises, the ceremony fails with RegistrationError; if the read call returns None authentication fails with CredentialDataError.", "quantifier": "every registrar behaviour and state", "why_tests_cant": "Registrars are user code.", "anchors": ["webauthn_rp/backends.py:CredentialsBackend.handle_credential_attestation", "webauthn_rp/backends.py:CredentialsBackend.handle_credential_assertion", "webauthn_rp/registrars.py:CredentialsRegistrar"]}
{"id": "C17", "title": "Authentication accepts exactly the valid responses", "statement": "handle_credential_assertion succeeds if and only if: all expected origins parse; the allow list admits the raw id; the registrar yields data; user, user handle and RP agree; client data has the right type, challenge, origin, token binding; authenticator data is well formed with matching RP hash, UP (and UV) flags and extensions; the signature verifies; the counter rule holds; and the registrar accepts the write.", "quantifier": "every input, registrar and state", "why_tests_cant": "An exact characterisation (no over-rejection either) quantifies over everything.", "anchors": ["webauthn_rp/backends.py:CredentialsBackend.handle_credential_assertion"]}
{"id": "C18", "title": "Registration accepts exactly the valid responses", "statement": "handle_credential_attestation succeeds if and only if: expected origins parse; client data has type webauthn.create and matching challenge, origin, token binding; the attestation object is well formed, with matching RP hash, UP (and UV) flags and extensions, and carries attested credential data; the attestation statement is acceptable; and the registrar accepts the write.", "quantifier": "every input, registrar and state", "why_tests_cant": "As C17.", "anchors": ["webauthn_rp/backends.py:CredentialsBackend.handle_credential_attestation"]}
{"id": "C19", "title": "Supported attestation formats can be registered through the backend", "statement": "A registration whose attestation statement is in a format the library implements (none, fido-u2f, android-key) and is valid for that format is accepted by handle_credential_attestation.", "quantifier": "every valid attestation of the three implemented formats", "why_tests_cant": "The backend tests only use the none format.", "anchors": ["webauthn_rp/backends.py:CredentialsBackend.handle_credential_attestation", "webauthn_rp/attesters.py:attest"]}
{"id": "C20", "title": "The registered credential id is the attested one", "statement": "On a successful registration the raw id of the credential handed to the registrar equals the credential id inside the attested credential data that the authenticator produced.", "quantifier": "every registration response", "why_tests_cant": "An attacker chooses the mismatch.", "anchors": ["webauthn_rp/backends.py:CredentialsBackend.handle_credential_attestation", "webauthn_rp/parsers.py:parse_public_key_credential"]}
{"id": "C21", "title": "FIDO U2F attestation soundness", "statement": "attest on a FIDO U2F statement returns only if there is exactly one certificate, its key is an EC key on P-256, and that key verifies the statement's signature with ECDSA/SHA-256 over 0x00 | rpIdHash | clientDataHash | credentialId | 0x04 | x | y of the attested key; it then returns attestation type BASIC and that certificate as trust path. Conversely every such statement is accepted.", "quantifier": "every statement, attestation object, certificate behaviour and signature oracle", "why_tests_cant": "Concatenation order and every field must be exact for all lengths.", "anchors": ["webauthn_rp/attesters.py:attest_fido_u2f"]}
{"id": "C22", "title": "Android key attestation soundness", "statement": "attest on an Android key statement returns only if: there is at least one certificate; the first certificate's key verifies the signature over authData | clientDataHash (with the hash named by the statement alg for EC keys); that key is the credential key; the key-attestation extension is present and decodes; its challenge is the client data hash; allApplications is absent in both authorization lists; the TEE list has origin GENERATED and purposes including SIGN. It then returns BASIC and the first certificate.", "quantifier": "every statement, attestation object, certificate and decoded key description", "why_tests_cant": "Many independent conditions over unbounded data.", "anchors": ["webauthn_rp/attesters.py:attest_android_key", "webauthn_rp/asn1.py:KeyDescription"]}
{"id": "C23", "title": "Unimplemented attestation formats are refused", "statement": "attest raises UnimplementedError for packed, TPM and SafetyNet statements, and a registration carrying one never succeeds and never writes to the registrar.", "quantifier": "every such statement and registration", "why_tests_cant": "Every statement content must be refused.", "anchors": ["webauthn_rp/attesters.py:attest", "webauthn_rp/backends.py:CredentialsBackend.handle_credential_attestation"]}
{"id": "C24", "title": "Authenticator data layout is exact", "statement": "If parse_authenticator_data succeeds then rp_id_hash is bytes 0..31, flags byte 32, sign_count the big-endian value of bytes 33..36; attested credential data is present iff bit 6 is set and then consists of a 16-byte AAGUID, a 16-bit big-endian length, that many id bytes and one CBOR item; extensions are present iff bit 7 is set and are one further CBOR item; and these parts, in order, make up the whole input with nothing left over.", "quantifier": "every byte string", "why_tests_cant": "Unbounded inputs; off-by-one layout errors hide in lengths tests do not use.", "anchors": ["webauthn_rp/parsers.py:parse_authenticator_data"]}
{"id": "C25", "title": "Authenticator data round trip", "statement": "For every RP id hash of 32 bytes, flag byte, 32-bit counter, AAGUID, credential id up to 65535 bytes, valid credential key and extension map, parsing the concatenated encoding returns exactly these values.", "quantifier": "every field value and size", "why_tests_cant": "Round trips over all sizes.", "anchors": ["webauthn_rp/parsers.py:parse_authenticator_data", "webauthn_rp/converters.py:cose_key"]}
{"id": "C26", "title": "Truncated or padded authenticator data is refused", "statement": "parse_authenticator_data raises for every proper prefix of a valid encoding that has bit 6 or bit 7 set, for every input shorter than 37 bytes, and for every valid encoding followed by at least one extra byte.", "quantifier": "every valid encoding, every cut point, every suffix", "why_tests_cant": "Every cut point of every message.", "anchors": ["webauthn_rp/parsers.py:parse_authenticator_data", "webauthn_rp/parsers.py:_read_bytes"]}
{"id": "C27", "title": "Stored keys survive encode/parse", "statement": "parse_cose_key(cose_key(k)) returns a key equal to k in every field, for every EC2 or OKP credential key accepted by the parser.", "quantifier": "every key: curve, algorithm, name/value form of enums, coordinates, kid, key_ops, base_IV", "why_tests_cant": "The combinations of optional fields are exponential; the existing test covers none of them.", "anchors": ["webauthn_rp/converters.py:cose_key", "webauthn_rp/converters.py:_build_base_cose_dictionary", "webauthn_rp/parsers.py:parse_cose_key"]}
{"id": "C28", "title": "Parsed credential keys are well formed", "statement": "If parse_cose_key succeeds, the kty matches the returned class, the curve belongs to the family, each coordinate has exactly the curve's byte length, alg is one of the four supported identifiers, and kid, key_ops, base_IV are exactly the values present in the map; every other map raises.", "quantifier": "every CBOR map", "why_tests_cant": "Unbounded input space of maps.", "anchors": ["webauthn_rp/parsers.py:parse_cose_key", "webauthn_rp/parsers.py:parse_ec2_public_key", "webauthn_rp/parsers.py:parse_okp_public_key"]}
{"id": "C29", "title": "Attested keys are algorithm-consistent", "statement": "Every key that comes out of parse_authenticator_data has kty EC2 with a NIST curve and an ES* algorithm, or kty OKP with an Edwards curve and EdDSA.", "quantifier": "every byte string", "why_tests_cant": "Any input could try algorithm confusion.", "anchors": ["webauthn_rp/validators.py:validate", "webauthn_rp/parsers.py:parse_authenticator_data"]}
{"id": "C30", "title": "Client credential JSON parsing is strict and faithful", "statement": "parse_public_key_credential returns a credential iff the dictionary has exactly the allowed keys with the required ones present, string-typed and base64-decodable; the result carries the decoded bytes of the same-named members; it is an attestation response iff the response has an attestationObject member; every failure is ParserError or DecodingError.", "quantifier": "every dictionary", "why_tests_cant": "Unbounded dictionaries.", "anchors": ["webauthn_rp/parsers.py:parse_public_key_credential", "webauthn_rp/parsers.py:_check_unsupported_keys", "webauthn_rp/parsers.py:_bytes_from_base64"]}
{"id": "C31", "title": "Client data parsing is faithful", "statement": "parse_client_data succeeds only on valid UTF-8 JSON objects whose type, challenge and origin are strings, returns exactly these strings, and returns a token binding iff the tokenBinding member is present and non-null, with status one of supported/present and an id whenever status is present.", "quantifier": "every byte string", "why_tests_cant": "Unbounded JSON.", "anchors": ["webauthn_rp/parsers.py:parse_client_data"]}
{"id": "C32", "title": "Extension outputs are strictly typed", "statement": "parse_extensions succeeds iff all keys are among the nine known names and each present value has the documented type; the result carries each value under the matching attribute.", "quantifier": "every dictionary", "why_tests_cant": "Unbounded dictionaries with arbitrary nesting.", "anchors": ["webauthn_rp/parsers.py:parse_extensions"]}
{"id": "C33", "title": "Attestation statement parsing is strict and faithful", "statement": "Each attestation statement parser succeeds iff the statement has exactly the keys its format allows, with the documented types, and returns these values; the variant (plain, x5c, ECDAA) is determined by which key is present.", "quantifier": "every dictionary and each of the six formats", "why_tests_cant": "Unbounded dictionaries.", "anchors": ["webauthn_rp/parsers.py:parse_packed_attestation_statement", "webauthn_rp/parsers.py:parse_tpm_attestation_statement", "webauthn_rp/parsers.py:parse_android_key_attestation_statement", "webauthn_rp/parsers.py:parse_android_safetynet_attestation_statement", "webauthn_rp/parsers.py:parse_fido_u2f_attestation_statement", "webauthn_rp/parsers.py:parse_none_attestation_statement"]}
{"id": "C34", "title": "Attestation object parsing is faithful", "statement": "parse_attestation_object succeeds only if the CBOR map has text fmt naming a known format, byte-string authData that parses, and a map attStmt that parses for that format; the result pairs the parsed data with fmt and the raw authData bytes.", "quantifier": "every byte string", "why_tests_cant": "Unbounded CBOR.", "anchors": ["webauthn_rp/parsers.py:parse_attestation_object"]}
{"id": "C35", "title": "Attestation objects carry no trailing data", "statement": "parse_attestation_object and parse_cose_key refuse input with bytes after the first CBOR item.", "quantifier": "every valid encoding and suffix", "why_tests_cant": "All suffixes.", "anchors": ["webauthn_rp/parsers.py:parse_attestation_object", "webauthn_rp/parsers.py:parse_cose_key"]}
{"id": "C36", "title": "Origin parsing", "statement": "parse_origin returns only origins whose scheme is http or https with a non-empty host part and a port in 0..65535 (the scheme's default when none is written), and refuses any origin with a path, query or fragment; every ASCII host name, with or without port, in the serialisation scheme://host[:port] is accepted and yields that scheme, host part and port.", "quantifier": "every string", "why_tests_cant": "URL syntax is unbounded.", "anchors": ["webauthn_rp/parsers.py:parse_origin"]}
{"id": "C37", "title": "Equivalent origins compare equal", "statement": "Two serialisations of the same web origin (explicit default port or not) parse to equal Origin values.", "quantifier": "every http(s) host", "why_tests_cant": "Every host.", "anchors": ["webauthn_rp/parsers.py:parse_origin", "webauthn_rp/types.py:Origin"]}
{"id": "C38", "title": "base64url round trip", "statement": "url_base64_decode applied to url_base64_encode(b), with its padding complete, partial or stripped, returns b.", "quantifier": "every byte string and every padding removal", "why_tests_cant": "Every length modulo 3 and every byte value.", "anchors": ["webauthn_rp/utils.py:url_base64_encode", "webauthn_rp/utils.py:url_base64_decode"]}
{"id": "C39", "title": "Case conversion round trip", "statement": "snake_to_camel_case(camel_to_snake_case(s)) = s for every ASCII string without underscores that does not start with an upper-case letter; in particular each extension wire name maps to the attribute holding it.", "quantifier": "every such string", "why_tests_cant": "Unbounded strings.", "anchors": ["webauthn_rp/utils.py:snake_to_camel_case", "webauthn_rp/utils.py:camel_to_snake_case"]}
{"id": "C40", "title": "jsonify produces JSON", "statement": "If jsonify returns, the result consists only of JSON values (null, booleans, numbers, strings, lists and string-keyed objects), contains no null object members, and bytes appear as base64 strings that decode to the original bytes; it raises only JSONConversionError or UnimplementedError.", "quantifier": "every object graph of supported and unsupported values", "why_tests_cant": "Unbounded nesting.", "anchors": ["webauthn_rp/converters.py:jsonify"]}
{"id": "C41", "title": "Options serialise completely", "statement": "jsonify of any options object built by the two builders, with lists or tuples for its sequences, succeeds, and the resulting object has, under the camel-cased member names of the WebAuthn specification, exactly the non-null option values, with the challenge recoverable by base64 decoding; with another sequence type it raises.", "quantifier": "every builder configuration, user, challenge, credential list", "why_tests_cant": "Exponential option combinations.", "anchors": ["webauthn_rp/converters.py:jsonify", "webauthn_rp/builders.py:CredentialCreationOptionsBuilder.build", "webauthn_rp/builders.py:CredentialRequestOptionsBuilder.build"]}
{"id": "C42", "title": "Builders are immutable", "statement": "Calling any sequence of setters on any existing builders never changes the options any previously created builder builds; the new builder differs from its source exactly in the attribute set.", "quantifier": "every history of constructor and setter calls", "why_tests_cant": "Aliasing bugs need particular histories.", "anchors": ["webauthn_rp/builders.py:CredentialCreationOptionsBuilder", "webauthn_rp/builders.py:CredentialRequestOptionsBuilder"]}
{"id": "C43", "title": "build fails exactly on missing required attributes", "statement": "CredentialCreationOptionsBuilder.build raises BuilderError iff rp, pub_key_cred_params or attestation is unset, and otherwise returns options carrying exactly the last value set for each attribute; CredentialRequestOptionsBuilder.build raises BuilderError iff mediation is unset.", "quantifier": "every setter history", "why_tests_cant": "Unbounded histories.", "anchors": ["webauthn_rp/builders.py:CredentialCreationOptionsBuilder.build", "webauthn_rp/builders.py:CredentialRequestOptionsBuilder.build"]}
{"id": "C44", "title": "Key validation is exact", "statement": "validate accepts an EC2 key iff its curve is a NIST curve and alg is ES256/ES384/ES512, and an OKP key iff its curve is Ed25519/Ed448 and alg is EdDSA, raising ValidationError otherwise (for keys whose kty agrees with their class and with alg present).", "quantifier": "every key", "why_tests_cant": "All combinations of class, curve, alg, name/value form.", "anchors": ["webauthn_rp/validators.py:validate"]}
{"id": "C45", "title": "Key conversion preserves the key", "statement": "cryptography_public_key maps an EC2 key to the point whose affine coordinates are the big-endian integers of x and y on the named curve, and an OKP key to its raw bytes; two parsed keys (same curve) convert to the same key only if their coordinates are equal bytes; any rejected key raises PublicKeyConversionError.", "quantifier": "every key", "why_tests_cant": "All coordinates.", "anchors": ["webauthn_rp/converters.py:cryptography_public_key"]}
{"id": "C46", "title": "verify uses the key's own algorithm", "statement": "verify on an EC2 key succeeds iff the key converts, alg names ES256/384/512 and ECDSA with SHA-256/384/512 respectively accepts; on an OKP key iff it converts and EdDSA accepts; a bad signature raises VerificationError; other key classes raise UnimplementedError.", "quantifier": "every key, signature, message", "why_tests_cant": "All combinations.", "anchors": ["webauthn_rp/verifiers.py:verify", "webauthn_rp/utils.py:ec2_hash_algorithm"]}
{"id": "C47", "title": "Counters strictly increase over any serial history", "statement": "With a registrar that stores the reported counter (as the documented example does), in every serial history of registrations and authentications the counters of successive successful authentications with one credential are strictly increasing; hence the same assertion response is accepted at most once.", "quantifier": "every finite history of requests, any mix of credentials and failures", "why_tests_cant": "Histories are unbounded.", "anchors": ["webauthn_rp/backends.py:CredentialsBackend.handle_credential_assertion", "examples/flask/app.py:RegistrarImpl"]}
{"id": "C48", "title": "Replay protection under concurrency", "statement": "Two concurrent authentications presenting the same assertion response are not both accepted.", "quantifier": "every interleaving of the registrar read and write calls of concurrent handlers", "why_tests_cant": "Needs a particular schedule.", "anchors": ["webauthn_rp/backends.py:CredentialsBackend.handle_credential_assertion", "webauthn_rp/registrars.py:CredentialsRegistrar"]}
{"id": "C49", "title": "A login proves an earlier registration by the same user (example application)", "statement": "In every history of the example application, an authentication response for username u succeeds only if the credential was stored by an earlier successful registration response for the same username, and the signature verified under the key stored then.", "quantifier": "every finite history of the four endpoints with arbitrary request contents and clock", "why_tests_cant": "Unbounded histories.", "anchors": ["examples/flask/app.py:registration_response", "examples/flask/app.py:authentication_response", "examples/flask/app.py:RegistrarImpl"]}
{"id": "C50", "title": "Stale challenges are refused (example application)", "statement": "In every history, a response endpoint that answers Success referred to a challenge issued by an earlier request endpoint no more than 60000 ms before.", "quantifier": "every history and clock", "why_tests_cant": "Unbounded histories and clocks.", "anchors": ["examples/flask/app.py:registration_response", "examples/flask/app.py:authentication_response"]}
{"id": "C51", "title": "Challenges are single use and user-bound (example application)", "statement": "In every history a challenge leads to at most one Success and only for the user it was issued to.", "quantifier": "every history", "why_tests_cant": "Unbounded histories.", "anchors": ["examples/flask/app.py:registration_response", "examples/flask/app.py:authentication_response"]}
{"id": "C52", "title": "Honest ceremonies succeed end to end", "statement": "For every RP id, origin, challenge, user, credential id and key, an honest client response to the issued options is accepted by registration with none attestation, and a later honest assertion with a larger counter is accepted by authentication.", "quantifier": "every parameter choice", "why_tests_cant": "Completeness over all parameters.", "anchors": ["webauthn_rp/backends.py:CredentialsBackend.handle_credential_attestation", "webauthn_rp/backends.py:CredentialsBackend.handle_credential_assertion", "webauthn_rp/parsers.py:parse_public_key_credential"]}
{"id": "C53", "title": "A crash never leaves a half-registered credential", "statement": "If the process stops at any point during a handler call, the registrar has performed either no write or the complete single write of a fully verified ceremony.", "quantifier": "every crash point of every call", "why_tests_cant": "Every crash point.", "anchors": ["webauthn_rp/backends.py:CredentialsBackend.handle_credential_attestation", "webauthn_rp/backends.py:CredentialsBackend.handle_credential_assertion"]}
{"id": "C54", "title": "Failure reports name the failed check", "statement": "When all earlier checks pass and one specific check fails, the error class is the documented one for that check (ClientDataTypeError, ChallengeError, OriginError, TokenBindingError, RPIDHashError, UserPresenceError, UserVerificationError, ExtensionError, UserIDError, UserHandleError, RPNotFoundError, RPIDError, SignatureCountError, VerificationError, ...).", "quantifier": "every input", "why_tests_cant": "Every combination of failing and passing checks.", "anchors": ["webauthn_rp/backends.py:CredentialsBackend.handle_credential_attestation", "webauthn_rp/backends.py:CredentialsBackend.handle_credential_assertion", "webauthn_rp/errors.py"]}
{"id": "C55", "title": "Derived builders are isolated", "statement": "After a setter call, changing any object that existed before the call (the source builder and its attribute values included) does not change what the new builder builds, except through the very object passed to the setter; changing the new builder or its parts does not change anything that existed before.", "quantifier": "every heap of objects, every builder, attribute and value, every later mutation", "why_tests_cant": "Aliasing shows only for particular object graphs, sharing patterns and later mutations; object graphs are unbounded.", "anchors": ["webauthn_rp/builders.py:CredentialCreationOptionsBuilder._copy", "webauthn_rp/builders.py:CredentialRequestOptionsBuilder._copy"]}
{"id": "C56", "title": "Honest users are served (example application)", "statement": "In every history of the example application, an honest response to a challenge issued to that user no more than 60000 ms before is answered Success: for a registration whenever the credential id was not registered before; for an authentication whenever the user registered the credential before and the counter exceeds the counters of all earlier successful authentications with it.", "quantifier": "every finite history of the four endpoints, every honest response", "why_tests_cant": "The state in which an honest request arrives is the result of an unbounded history of other requests.", "anchors": ["examples/flask/app.py:registration_response", "examples/flask/app.py:authentication_response", "examples/flask/app.py:RegistrarImpl"]}
{"id": "C57", "title": "The page and the application fit together", "statement": "Every reply of the example application to a registration or authentication request is turned by the page into the argument of the browser call of the Web Authentication standard: the challenge and the user handle as the very bytes the application holds, the allowed credentials exactly those the user registered, every other option unchanged. Whatever an honest browser and authenticator make of that argument, the page turns into a form that the application accepts within 60000 ms (for a registration, of a new credential id; for an authentication, with a counter above the earlier ones). Requests are answered with options whenever the random bytes are new. The handle given to the browser identifies the user.", "quantifier": "every finite history of the four endpoints, every user name, handle and challenge, every honest credential", "why_tests_cant": "The page and the server are different programs in different languages; that their encodings agree on all bytes, all histories and all credentials cannot be sampled, and no test runs the page.", "anchors": ["examples/flask/templates/app.html:parseCreationOptions", "examples/flask/templates/app.html:parseRequestOptions", "examples/flask/templates/app.html:attestationJSON", "examples/flask/templates/app.html:assertionJSON", "examples/flask/app.py:registration_request", "examples/flask/app.py:authentication_request"]}
{"id": "C58", "title": "The Android key description is read as documented", "statement": "For every key description encoded in DER after the documented Android schema (by tag numbers), followed by any bytes, attest accepts an Android key statement whose signature and key are right exactly if the attestation challenge is the client data hash, tag 600 (all applications) is in neither authorization list, and the list of the trusted environment has 0 under tag 702 (origin) and a set with 2 under tag 1 (purpose); otherwise it raises AttestationError and never another exception. No bytes can be read as two different key descriptions.", "quantifier": "every documented key description (all 37 authorizations present or absent, all values), every following bytes, every statement", "why_tests_cant": "The schema has 2^37 combinations of optional components for each list, with values of every size; a wrong tag, type or order for one component shows only for key descriptions that have it.", "anchors": ["webauthn_rp/asn1.py:KeyDescription", "webauthn_rp/asn1.py:AuthorizationList", "webauthn_rp/attesters.py:attest_android_key"]}
{"id": "C59", "title": "A registrar that leaves methods unimplemented stores and admits nobody", "statement": "A registrar that inherits register_credential_attestation from the base class registers nobody, and keeps its state; one that inherits get_credential_data or register_credential_assertion authenticates nobody, and writes nothing. Where a response is otherwise acceptable the error is RegistrationError.", "quantifier": "every registrar that leaves one of the methods of the base class in place, every request, every state", "why_tests_cant": "The remaining methods of the registrar are arbitrary, and the claim is about every request.", "anchors": ["webauthn_rp/registrars.py:CredentialsRegistrar", "webauthn_rp/backends.py:CredentialsBackend.handle_credential_attestation", "webauthn_rp/backends.py:CredentialsBackend.handle_credential_assertion"]}
{"id": "C60", "title": "Every ceremony ends in its one documented outcome", "statement": "For all arguments, all behaviours of the dependencies (also undocumented exceptions) and all registrars, the result and the final registrar state of handle_credential_attestation and handle_credential_assertion are exactly the outcome that the specification assigns: which check fails first decides the error; library errors are reported as they are, other exceptions as InternalError, registrar failures as RegistrationError, and what is not an Exception (KeyboardInterrupt) reaches the caller unchanged; the state changes only by the registrar calls that are made.", "quantifier": "every argument, every environment, every registrar and state, no hypotheses", "why_tests_cant": "The order of some twenty checks, each with several ways to fail and foreign exceptions in between, gives a space of outcomes that samples cannot exhaust.", "anchors": ["webauthn_rp/backends.py:CredentialsBackend.handle_credential_attestation", "webauthn_rp/backends.py:CredentialsBackend.handle_credential_assertion"]}
{"id": "C61", "title": "Every parser refuses with the documented error", "statement": "parse_origin, parse_client_data, parse_authenticator_data, parse_attestation_object, parse_attestation_statement, parse_extensions, parse_public_key_credential, parse_cose_key, cryptography_public_key and verify raise an exception exactly for the inputs that the specification refuses, and exactly the exception it names, including what becomes of exceptions of json, cbor2 and cryptography of each class; cose_key writes exactly the map of the specification or raises the exception it names.", "quantifier": "every byte string, text, key and signature, every behaviour of the dependencies", "why_tests_cant": "Malformed inputs are unboundedly many, and exceptions of the dependencies depend on classes that tests do not provoke.", "anchors": ["webauthn_rp/parsers.py:parse_origin", "webauthn_rp/parsers.py:parse_client_data", "webauthn_rp/parsers.py:parse_authenticator_data", "webauthn_rp/parsers.py:parse_attestation_object", "webauthn_rp/converters.py:cryptography_public_key", "webauthn_rp/verifiers.py:verify", "webauthn_rp/parsers.py:parse_public_key_credential", "webauthn_rp/parsers.py:parse_cose_key", "webauthn_rp/parsers.py:parse_extensions", "webauthn_rp/parsers.py:parse_attestation_statement", "webauthn_rp/converters.py:cose_key"]}
{"id": "C62", "title": "attest refuses exactly the invalid statements, with the documented exception", "statement": "For an attestation object, attest raises an exception exactly if the statement is not valid in a supported format, and exactly the exception that the first failing check raises, including what becomes of exceptions of the certificate loader, the key loader, the signature check, the extension lookup and the DER decoder. With the attestation object passed to attest (the repair of F1) the result and the final registrar state of a registration are exactly the outcome that the specification assigns.", "quantifier": "every statement, attestation object, client data hash, registrar and state, every behaviour of the dependencies other than a DER decoder that returns values of the wrong type", "why_tests_cant": "Each of some twenty checks can fail in several ways after all earlier ones passed, with certificates and key descriptions that tests would have to forge.", "anchors": ["webauthn_rp/attesters.py:attest", "webauthn_rp/attesters.py:attest_fido_u2f", "webauthn_rp/attesters.py:attest_android_key"]}
{"id": "C63", "title": "Overlapping requests of the example application are served as if the guarantees of single requests held", "statement": "When the requests of the example application run in threads that take turns at every database statement: every request is answered; a request that is not interrupted is answered as in the sequential application; user names, user handles, challenges and credential ids stay unique; a credential id is registered by at most one request and a challenge issued by at most one; a successful login carries a signature of a key registered before under that user name and a challenge issued at most a minute before; honest registrations, logins and requests for options succeed; an assertion is accepted at most once and the accepted counters of a credential grow; a request for options with a new user name succeeds.", "quantifier": "every set of requests, every interleaving of their database statements, every behaviour of the dependencies (within the codec laws for the honest part)", "why_tests_cant": "The interleavings of the statements of overlapping requests are unboundedly many and tests cannot choose them; the refuted parts need particular ones.", "anchors": ["examples/flask/app.py:registration_request", "examples/flask/app.py:registration_response", "examples/flask/app.py:authentication_request", "examples/flask/app.py:authentication_response", "examples/flask/app.py:RegistrarImpl"]}
{"id": "C64", "title": "Every outcome of the example application is specified", "statement": "For every request and all contents of consistent tables, the reply of the example application and the tables after the request are those that the specification names by the rows of the tables: which of the refusals, crashes and successes it is, the options that are sent, the row that is added or the counter that is set, and that nothing else changes; the specification allows no other outcome, up to the order of members of the options; the tables are consistent after every history and every interleaving of requests.", "quantifier": "every request, all contents of the tables, every behaviour of the dependencies", "why_tests_cant": "The outcome depends on the contents of three tables, the form, the time and the behaviour of the JSON, CBOR and cryptography libraries; tests cover a few combinations and do not exclude other effects on the tables.", "anchors": ["examples/flask/app.py:registration_request", "examples/flask/app.py:registration_response", "examples/flask/app.py:authentication_request", "examples/flask/app.py:authentication_response", "examples/flask/app.py:RegistrarImpl"]}
{"id": "C65", "title": "A login was approved by the holder of the key, on the page of the application", "statement": "If the key of a registered credential is used only after approvals by its holder (nobody submitted a forged signature or colliding client data, and the browser writes the origin of the page into the client data), every successful login with the credential at the example application is for the user it was registered for and was approved on a page of the application's origin, as an authentication, for its RP id, with a challenge that the application issued at most 60000 ms before; so approvals on other origins (phishing) lead to no login. This holds of requests one after another and of requests that overlap.", "quantifier": "every history and every interleaving of requests, every set of approvals, every behaviour of the dependencies that meets the JSON and CBOR laws", "why_tests_cant": "The attacker may send any requests in any order, with any bytes; tests send some of them.", "anchors": ["examples/flask/app.py:authentication_response", "webauthn_rp/backends.py:CredentialsBackend.handle_credential_assertion"]}
{"id": "C66", "title": "Only the owner of a user name logs in under it", "statement": "The first to register a credential under a user name owns the name: after that, a login under the name succeeds only if the holder of the key of that credential approved it.", "quantifier": "every history of requests, every set of approvals", "why_tests_cant": "It is about all requests that a stranger may send in between; the tests of the project do not cover the example application.", "anchors": ["examples/flask/app.py:registration_request", "examples/flask/app.py:registration_response", "examples/flask/app.py:RegistrarImpl.register_credential_attestation"]}
{"id": "C67", "title": "One approval by the holder of a key is good for one login", "statement": "If the key of a registered credential is used only after approvals by its holder, the successful logins with the credential at the example application can be assigned approvals, each of what was submitted in the login, so that no approval is assigned to two logins.", "quantifier": "every history and every interleaving of requests, every set of approvals", "why_tests_cant": "The attacker may repeat any response at any time, also while the first is being handled.", "anchors": ["examples/flask/app.py:authentication_response", "examples/flask/app.py:RegistrarImpl.register_credential_assertion", "webauthn_rp/backends.py:CredentialsBackend.handle_credential_assertion"]}
{"id": "C68", "title": "No check of a ceremony rests on an assertion", "statement": "With assertions disabled (python -O) both handlers of the backend return or raise the same and leave the registrar in the same state, for every registrar, and the example application answers every request in the same way; the parsers of authenticator data and attestation objects are the same functions; attest, verify and cose_key succeed in the same cases with the same results and raise the same errors of the library. Outside of ceremonies, assertions matter in two places only: validate compares the key type with the class of a key in an assertion (no parsed key is affected), and build refuses a missing user or challenge in one; the assertions of the setters are repeated by build.", "quantifier": "every input, registrar, state and behaviour of the dependencies", "why_tests_cant": "Tests are run with assertions enabled; that no assertion is a security check is a statement about all inputs of two programs.", "anchors": ["webauthn_rp/backends.py:CredentialsBackend", "webauthn_rp/attesters.py:attest", "webauthn_rp/validators.py:validate", "webauthn_rp/utils.py:ec2_hash_algorithm", "webauthn_rp/converters.py:cose_key", "webauthn_rp/builders.py:CredentialCreationOptionsBuilder.build"]}
{"id": "C69", "title": "An authentication was approved by the holder of the key, whatever the registrar", "statement": "If the key of a credential is used only after approvals by its holder (nobody submitted a forged signature or colliding client data, and the browser writes the origin of the page into the client data), handle_credential_assertion succeeds with the credential only if the holder approved what was submitted: on a page of an expected origin, as an authentication, with the expected challenge, for the effective RP id, with user presence, and user verification if required. So approvals on other origins or for other Relying Parties lead to no authentication, and if no challenge is expected twice, the authentications can be assigned different approvals, so there are not more of them than approvals.", "quantifier": "every registrar, state, set of calls and arguments, every set of approvals, every behaviour of the dependencies that meets the JSON law", "why_tests_cant": "The attacker may submit any bytes in any number of calls; tests submit some.", "anchors": ["webauthn_rp/backends.py:CredentialsBackend.handle_credential_assertion"]}
{"id": "C70", "title": "Nobody locks the holder of a key out (example application)", "statement": "Whatever others have sent to the example application, and whatever state this left, a user with a registered credential who asks for a login is given a challenge (if the same random bytes were not given out before), and the response of the holder of the key to a challenge of the last minute is accepted, if its counter exceeds those of the holder's other approvals and its authenticator data were not submitted before. The key is used only by its holder (no forged signatures, no collisions), so nobody else can raise the stored counter, replace the credential or use up the challenge. The same when requests overlap, in any schedule.", "quantifier": "every sequence of requests, every schedule of overlapping requests, every set of approvals, every behaviour of the dependencies that meets the codec and JSON laws", "why_tests_cant": "Denial of service by state is a statement about all requests an attacker may have sent before the login, and all interleavings with it.", "anchors": ["examples/flask/app.py:authentication_request", "examples/flask/app.py:authentication_response", "examples/flask/app.py:RegistrarImpl", "webauthn_rp/backends.py:CredentialsBackend.handle_credential_assertion"]}
{"id": "C71", "title": "Registered keys are for an algorithm that was asked for", "statement": "The example application asks for ES256; every key it registers is for ES256, as the registration ceremony of WebAuthn requires (the alg of the credential public key matches one of pubKeyCredParams).", "quantifier": "every sequence of requests, every response, every behaviour of the dependencies; for the handler: every registrar, state and argument", "why_tests_cant": "A response with another algorithm is valid in every other respect; tests would have to think of it for each algorithm.", "anchors": ["examples/flask/app.py:registration_response", "examples/flask/app.py:RegistrarImpl.register_credential_attestation", "webauthn_rp/backends.py:CredentialsBackend.handle_credential_attestation"]}
{"id": "C72", "title": "Registered keys are credential keys of WebAuthn", "statement": "Whatever the registrar, a registration succeeds only with a public key in the form that WebAuthn prescribes: the curve is the one of the algorithm (P-256 for ES256, P-384 for ES384, P-521 for ES512, Ed25519 for EdDSA), and there is no optional COSE member besides alg (no kid, key_ops, base IV).", "quantifier": "every registrar, state, argument and response, every behaviour of the dependencies", "why_tests_cant": "The combinations of algorithm, curve and optional members are many, and the statement is about every response that is accepted.", "anchors": ["webauthn_rp/backends.py:CredentialsBackend.handle_credential_attestation", "webauthn_rp/parsers.py:parse_cose_key", "webauthn_rp/validators.py:validate"]}
{"id": "C73", "title": "Failing database statements endanger neither logins nor registrations", "statement": "When statements of the example application's requests fail with a database error, before or after they had their effect, the tables stay keyed, every request is answered, only what C63 and C65 allow is accepted (a login is signed with the key of a credential registered before for the user, approved by its holder, for a challenge drawn at most 60 seconds ago), and an honest request whose own statements do not fail is served, also when an earlier attempt failed.  In the application repaired for overlapping requests one approval stays good for one login.", "quantifier": "every set of requests, every order of their statements, every choice of the statements that fail and of whether they had their effect, every behaviour of the dependencies", "why_tests_cant": "A failure can hit every statement of every request in every interleaving; the suite has no test of the example, and none with failures of a database.", "anchors": ["examples/flask/app.py:registration_request", "examples/flask/app.py:registration_response", "examples/flask/app.py:authentication_request", "examples/flask/app.py:authentication_response", "examples/flask/app.py:RegistrarImpl", "webauthn_rp/backends.py:CredentialsBackend"]}
{"id": "C74", "title": "The page decodes options as the standards say", "statement": "The page's base64decode gives bytes for exactly the texts that forgiving-base64 decode of the Infra standard takes, and those bytes. parseCreationOptions and parseRequestOptions of the page change exactly the challenge, the id of the user and the ids of the allowed credentials into their bytes, where these are present, keep every other member, its value and the order of the members, and fail exactly where one of these texts does not decode or publicKey, the user or an allowed credential is not of the expected kind.", "quantifier": "every text, every options value", "why_tests_cant": "The texts and options are unbounded, and no test runs the page.", "anchors": ["examples/flask/templates/app.html:base64decode", "examples/flask/templates/app.html:parseCreationOptions", "examples/flask/templates/app.html:parseRequestOptions"]}
{"id": "C75", "title": "All data types convert to JSON and credentials survive the conversion and parsing", "statement": "As the README says, jsonify converts all available data types of the module types to JSON: each attribute that is not None appears under its camel-case name, bytes as base64 text, enumeration members by the text or number of the standard. A public key credential that is converted and then parsed by parse_public_key_credential is the same credential, and different credentials have different JSON forms.", "quantifier": "every value of every data type of webauthn_rp.types", "why_tests_cant": "The classes hold unbounded byte strings, lists and optional attributes; a test converts a few samples.", "anchors": ["README.md:61", "webauthn_rp/converters.py:jsonify", "webauthn_rp/parsers.py:parse_public_key_credential", "webauthn_rp/types.py"]}
{"id": "C76", "title": "Users of the example application are isolated from each other", "statement": "Requests that carry another user name change neither the handle nor the credentials, keys and counters of a user, and the replies that a user gets do not depend on what the other users did: histories that agree on the requests of the user and on the challenges issued lead to the same replies, unless another user holds the random handle or the credential id that is about to be stored.", "quantifier": "every pair of histories, every request", "why_tests_cant": "It compares all pairs of histories; a test compares a few.", "anchors": ["examples/flask/app.py:registration_request", "examples/flask/app.py:registration_response", "examples/flask/app.py:authentication_request", "examples/flask/app.py:authentication_response"]}
{"id": "C77", "title": "A visitor cannot find out who has an account", "statement": "The replies of the example application to somebody who has no key do not depend on whether a name has an account (Web Authentication, 14.6.2: username enumeration).  It is false of the application.  With four changes it holds: for every sequence of requests of somebody who does not have the keys, the replies are the same whether the account and its credentials are there or not.", "quantifier": "every database, every name, every request", "why_tests_cant": "It compares replies in all databases with and without the account.", "anchors": ["examples/flask/app.py:registration_request", "examples/flask/app.py:authentication_request", "examples/flask/app.py:authentication_response"]}
{"id": "C78", "title": "The page tells of a success only for the user whose response was accepted", "statement": "Whatever the user clicks and in whatever order replies, credentials and failures arrive: when the page shows that a user registered a credential or was authorized, the application has accepted a response of that kind for that user; every form that the page submits is made of the user name, the reply and the credential of one click; and when the reply to a response arrives the page shows a success exactly if it was one.", "quantifier": "every sequence of clicks on both buttons, replies, credentials, rejected promises and requests of other clients", "why_tests_cant": "Flows of asynchronous functions interleave in unboundedly many ways and share variables; a test clicks one button once.", "anchors": ["examples/flask/templates/app.html:register", "examples/flask/templates/app.html:registerUsername", "examples/flask/templates/app.html:registerAttestation", "examples/flask/templates/app.html:authenticate", "examples/flask/templates/app.html:requestAuthentication", "examples/flask/templates/app.html:assertAuthentication"]}
{"id": "C79", "title": "Extension outputs are what they are documented to be", "statement": "Outputs that parse_extensions accepts are as types.py documents them: a location has a latitude, a longitude and an accuracy, all of them real numbers, accuracies and speed are not negative, a heading is from 0 up to 360 degrees or, at rest, not a number; each entry of uvm has length 3; the flags are not false.  So a Relying Party that expects a location gets one when a user logs in.", "quantifier": "every dictionary of outputs; every login, registrar and registrar state", "why_tests_cant": "The values are arbitrary CBOR values, among them all integers and all floating point numbers with NaN, infinities and negative zero.", "anchors": ["webauthn_rp/parsers.py:parse_extensions", "webauthn_rp/types.py:Coordinates", "webauthn_rp/types.py:AuthenticationExtensionsClientOutputs", "webauthn_rp/backend.py:CredentialsBackend.handle_credential_assertion"]}
{"id": "C80", "title": "If the AppID was used its hash is expected", "statement": "If the outputs of a login say that the AppID was used, the login is accepted only if the hash in the authenticator data is that of the AppID, and it is accepted if everything else is in order; if they do not say so, nothing changes.", "quantifier": "every AppID, login, registrar, registrar state and world", "why_tests_cant": "The rule ranges over all outputs, keys and AppIDs; a test needs an authenticator that was registered with U2F.", "anchors": ["webauthn_rp/types.py:AuthenticationExtensionsClientOutputs", "webauthn_rp/backend.py:CredentialsBackend.handle_credential_assertion"]}
{"id": "C81", "title": "Randomness makes guessing and collisions negligible (example application)", "statement": "Let everything outside of the example application be a strategy that chooses each request and each approval by what happened before, and let every call of secrets.token_bytes(64) draw uniformly and independently.  In q requests with at most K approvals, the probability that a login succeeds without an approval that the holder of the key gave after the challenge was issued, hence in the last 60000 ms, is at most q K / 256^64; and the probability that a request for a challenge by a user who names themselves (for a login: who asked for a registration before) is not answered with one is at most q (q-1) / 256^64.", "quantifier": "every strategy of browsers, users, attackers and clocks, every q and K, all draws", "why_tests_cant": "The events have probabilities near 2^-500; a test never sees them, and a strategy may adapt to every draw.", "anchors": ["examples/flask/app.py:registration_request", "examples/flask/app.py:authentication_request", "examples/flask/app.py:authentication_response"]}
{"id": "C82", "title": "A login exceeds the counter of the registration", "statement": "If a credential was registered with a signature counter other than zero, a later successful login with it has a greater counter.  (WebAuthn 7.1 stores the counter of the registration, and server-configuration.rst 64-66 tells registrars to.)  The example application stores None instead (app.py 92), so it is false of it: a copy of the authenticator with a smaller counter logs in.  It holds for every registrar that stores the counter, in particular for the example's with another value in that line, which serves everyone whose counters grow as before.", "quantifier": "all registrars that store counters, all requests between registration and login; all histories of the application", "why_tests_cant": "The tests have no login after a registration with a counter, and the order and number of requests between them is unbounded.", "anchors": ["examples/flask/app.py:RegistrarImpl.register_credential_attestation", "docs/source/getting-started/server-configuration.rst", "webauthn_rp/backends.py:CredentialsBackend.handle_credential_assertion"]}
{"id": "C83", "title": "Keys are used as their parameters permit", "statement": "A successful authentication verifies the signature with an algorithm for which the type (kty) of the stored key is appropriate, which matches its alg if it has one, and only if its key_ops, if it has any, permit to verify signatures, as the docstring of CredentialPublicKey demands (types.py 1370-1398, RFC 8152 7.1).  The functions verify look neither at kty nor at key_ops nor at the alg of an OKP key, so this is false of the library.  It holds for the keys that registrations bring, up to key_ops, and with a registrar that does not find other keys.", "quantifier": "all registrars, stored keys, credentials and options; all behaviours of the cryptographic library", "why_tests_cant": "The tests verify with a few correct keys, none of which has key_ops.", "anchors": ["webauthn_rp/types.py:CredentialPublicKey", "webauthn_rp/verifiers.py:verify_ec2_public_key", "webauthn_rp/verifiers.py:verify_okp_public_key", "webauthn_rp/backends.py:CredentialsBackend.handle_credential_assertion"]}
{"id": "C84", "title": "The repairs of the example application go together", "statement": "Let any checks, which may remember everything, refuse some requests to the example application.  Then what is proved of it in C47, C49, C50, C65 and C67 still holds.  Checks for what is false of it add just that, in whatever company: single use (C51) and user-bound challenges (C51), one owner per name (C66), attested ids (C20), requested algorithms (C71), credential keys of WebAuthn (C72), ids of at least 16 bytes (server-configuration.rst 42-43), and counters above that of the registration (C82).  With all of them, honest users are still served.", "quantifier": "all checks and lists of checks, all histories of requests, all behaviours of the dependencies", "why_tests_cant": "The claim is about all combinations of checks and all histories.", "anchors": ["examples/flask/app.py:registration_response", "examples/flask/app.py:authentication_response", "examples/flask/app.py:RegistrarImpl", "docs/source/getting-started/server-configuration.rst"]}
{"id": "C85", "title": "Overlapping requests behind a lock and in transactions are served as if one after the other", "statement": "Let requests to the example application be served in overlapping threads, as app.run does, but behind a lock, in transactions, and with the checks of C84; and let any request be cut off at any moment, whereupon its transaction is rolled back and the lock given back.  Then requests are answered as if each came after those that were answered before it, and those that are cut off as if they had not come.  So all guarantees of C84 hold of overlapping requests too.  Honest users are still served, and every request that is not cut off is answered.  Without the lock requests are not answered as if one after the other.", "quantifier": "all families of requests, all interleavings of their statements, all moments at which requests are cut off, all behaviours of the dependencies", "why_tests_cant": "The interleavings and the moments of failure are not bounded, and the guarantees are about all requests.", "anchors": ["examples/flask/app.py:registration_response", "examples/flask/app.py:authentication_response", "examples/flask/app.py:RegistrarImpl", "examples/flask/app.py:328"]}
{"id": "C86", "title": "What was signed for one thing is accepted for no other", "statement": "If two accepted responses (logins, and registrations with Android key or FIDO U2F statements) to Relying Parties with the same id have the same signed bytes, then they say the same: both are logins with the same authenticator data and client data, or both are statements of the same format about the same key, id and client data.  The exceptions are client data with the same hash, and an RP id whose hash is zero.", "quantifier": "all pairs of accepted responses, registrars, expectations and behaviours of the dependencies", "why_tests_cant": "The claim is about all pairs of messages, of which one may be made from parts of the other.", "anchors": ["webauthn_rp/attesters.py:attest_fido_u2f", "webauthn_rp/attesters.py:attest_android_key", "webauthn_rp/backends.py:CredentialsBackend.handle_credential_assertion", "webauthn_rp/backends.py:CredentialsBackend.handle_credential_attestation"]}
{"id": "C87", "title": "Stricter expectations refuse more, and nothing else", "statement": "If the expectations of the Relying Party (origins, allowed credentials, user verification, extensions, counter check) are loosened, accepted responses are still accepted and recorded alike.  Origins are alternatives: a list is accepted just if one of its parts is.  Extensions and user verification are requirements: all are accepted together just if each is.  Usable expectations that ask for the same in another order, with repetitions, have the same outcome and effect.", "quantifier": "all pairs of expectations, responses, registrars and their states, and behaviours of the dependencies", "why_tests_cant": "The claim relates the outcomes of all pairs of calls.", "anchors": ["webauthn_rp/backends.py:CredentialsBackend.handle_credential_attestation", "webauthn_rp/backends.py:CredentialsBackend.handle_credential_assertion", "webauthn_rp/backends.py:CredentialsBackend._extract_allowed_origins"]}
{"id": "C88", "title": "The unsigned parts of a response change nothing but acceptance", "statement": "Of two accepted logins with the same raw id, authenticator data and client data, whatever their signatures, user handles, id texts and types, the registrar gets the same data to record; with a registrar that does not look at the unsigned parts, such as that of the example application, the effect is the same.  Of such a login the signature must be by the stored key and the user handle that of the user, and nothing else is asked of the unsigned parts.  The id text and the type change neither the outcome nor the effect of a registration or login.", "quantifier": "all pairs of responses, expectations, registrars and their states, histories of the example application", "why_tests_cant": "The claim relates the outcomes of all pairs of responses.", "anchors": ["webauthn_rp/backends.py:CredentialsBackend.handle_credential_assertion", "webauthn_rp/backends.py:CredentialsBackend.handle_credential_attestation", "examples/flask/app.py:authentication_response", "examples/flask/app.py:RegistrarImpl"]}
{"id": "C89", "title": "The repairs of the package go together", "statement": "A backend with the repairs of the package together (parse_attestation_object without trailing bytes, statements of all three formats, raw id compared with the attested one, origins compared by scheme, host and port, documented extension outputs only, the AppID, keys of the requested algorithms in the form of WebAuthn, keys used as they permit, FIDO U2F keys with coordinates of 32 bytes, Android key statements to the letter) accepts just the registrations and logins that satisfy all of these and what the code asks for.  What the code accepts and does satisfy them it accepts with the same effect; up to statements, AppIDs and spellings of origins it accepts nothing else.  A registered key can be used for logins, and survives storing.  Signed bytes are accepted for one thing only.  What is refused raises an error of the package and leaves the registrar alone, but for the reading of the credential.", "quantifier": "all responses, expectations, policies, registrars and their states, and behaviours of the dependencies", "why_tests_cant": "The claim is an equivalence over all inputs; that one repair does not undo another concerns all their combinations.", "anchors": ["webauthn_rp/backends.py:CredentialsBackend.handle_credential_attestation", "webauthn_rp/backends.py:CredentialsBackend.handle_credential_assertion", "webauthn_rp/parsers.py:parse_attestation_object", "webauthn_rp/parsers.py:parse_origin"]}
{"id": "C90", "title": "The trust path is the certificate chain of the statement", "statement": "When a statement that carries certificates (x5c) is accepted, the trust path that attest returns, and that the registrar gets, is the list of all of these certificates in their order.", "quantifier": "all statements, attestation objects, client data hashes and behaviours of the dependencies", "why_tests_cant": "It is about every chain, of any length and contents; the tests of the package have chains of one certificate.", "anchors": ["webauthn_rp/attesters.py:attest", "webauthn_rp/attesters.py:attest_android_key", "webauthn_rp/attesters.py:attest_fido_u2f"]}
{"id": "C91", "title": "Android key statements are checked to the letter of the standard", "statement": "An Android key statement is accepted only if its signature is one of the algorithm that the statement names, by the key of its first certificate, and the trusted environment holds the key for signing and no other purpose.", "quantifier": "all statements, certificates, key descriptions, attestation objects and behaviours of the dependencies", "why_tests_cant": "It is about every combination of key, algorithm and set of purposes.", "anchors": ["webauthn_rp/attesters.py:attest_android_key"]}
{"id": "C92", "title": "A byte order mark in front of client data is stripped", "statement": "Client data are read as the UTF-8 decoding of the standard has it: with one leading byte order mark stripped, the rest being JSON with the members of CollectedClientData.", "quantifier": "all byte strings and behaviours of the dependencies", "why_tests_cant": "It is an equivalence over all byte strings; the tests have no client data with a byte order mark.", "anchors": ["webauthn_rp/parsers.py:parse_client_data", "webauthn_rp/backends.py:CredentialsBackend.handle_credential_attestation", "webauthn_rp/backends.py:CredentialsBackend.handle_credential_assertion"]}
{"id": "C93", "title": "A user without a credential gets no options to log in (example application)", "statement": "The example application answers a request to log in of a user who has registered no credential with 'User without credential' and status 400, and never sends options whose list of allowed credentials is empty, which clients take as no restriction at all.", "quantifier": "every finite history of the four endpoints, every user name, challenge and time", "why_tests_cant": "It is about all histories; the example has no tests.", "anchors": ["examples/flask/app.py:authentication_request"]}
{"id": "C94", "title": "Clients take the options of the example application", "statement": "What the page of the example application passes to the browser meets the conditions under which a conforming client goes on to ask the user: members of the types in the interface definitions of Web Authentication, a user handle of 1 to 64 bytes, a challenge of at least 16, an algorithm for public keys, and an id of the Relying Party that is the host of the page.", "quantifier": "every finite history of the four endpoints, every user name and time, all random bytes of the drawn length", "why_tests_cant": "The handle in the options was drawn in an earlier request, and the options pass through jsonify, JSON, and the page; the example has no tests.", "anchors": ["examples/flask/app.py:registration_request", "examples/flask/app.py:authentication_request", "examples/flask/templates/app.html", "webauthn_rp/builders.py:CredentialCreationOptionsBuilder.build", "webauthn_rp/builders.py:CredentialRequestOptionsBuilder.build", "webauthn_rp/converters.py:jsonify"]}
{"id": "C95", "title": "Challenges that are too old are not kept (example application)", "statement": "After a request at the time t, the table of challenges of the example application holds no challenge that was made more than 60000 ms before t and so can no longer be used. It therefore never holds more challenges than were requested in the last minute, whatever visitors do.", "quantifier": "every finite history of the four endpoints, every user name, handle, challenge and time", "why_tests_cant": "It is about the growth of the tables over all histories; the example has no tests.", "anchors": ["examples/flask/app.py:registration_request", "examples/flask/app.py:authentication_request", "examples/flask/app.py:Challenge"]}
{"id": "C96", "title": "What the example application relies on", "statement": "The guarantees of the example application (fresh challenges, logins only with registered credentials and with the approval of the holder, once per approval, with increasing counters) follow from a contract of the two handlers alone: a success means a response to the challenge from the origin, with a signature of the stored key for the Relying Party, a present user and a greater counter, that the registrar took; a failure changes nothing the registrar did not. Whatever package has the contract can take the place of this one. The package has it. A package that also registers credentials under the attested id and with keys that were asked for gives, with five checks in the application, all that is false of it today; the repaired package is one, and honest users are still served.", "quantifier": "every package that has the contract, every list of checks before it, every finite history of requests, every time, every challenge, every key holder", "why_tests_cant": "It is about all packages that have the contract and all histories; a test runs one package on one history.", "anchors": ["webauthn_rp/backends.py:CredentialsBackend", "examples/flask/app.py:registration_response", "examples/flask/app.py:authentication_response", "examples/flask/app.py:RegistrarImpl"]}
{"id": "C97", "title": "The package may be exchanged while the example application runs", "statement": "If the package under the example application is exchanged between requests, any number of times and for any others that have the contract of C96, the guarantees of the application hold over the whole history, for credentials and challenges made with one package and used with another. Who registered with one package logs in with any other that serves honest users, if the key is as WebAuthn prescribes; the package as it is and the repaired one do. What is registered while a strict package is installed has what is asked for, whatever was installed before.", "quantifier": "every choice of the installed package as a function of all that was served, every list of checks, every finite history of requests, every time, every challenge, every key holder", "why_tests_cant": "It is about all series of packages and all histories; a test runs one version on one history.", "anchors": ["webauthn_rp/backends.py:CredentialsBackend", "webauthn_rp/parsers.py:parse_cose_key", "webauthn_rp/converters.py:cose_key", "examples/flask/app.py:RegistrarImpl"]}
{"id": "C98", "title": "Holders of authenticators without a counter log in again and again", "statement": "Authenticators that have no signature counter report zero in every response, and WebAuthn has them accepted. The backend refuses a zero after a zero, and the example application stores it, so with it and with any package that has its rule a credential that logged in with zero never does so again, though the login is honest. If a stored zero is read as no counter, exactly the logins that WebAuthn allows are accepted, holders of authenticators with and without counters are served again and again, counters still never fall and never stay except at zero, and all guarantees of the application hold if challenges are used once; without that one approval would be good for two logins.", "quantifier": "every package with the contract of C96 and every series of them, every list of checks, every finite history of requests, every credential, counter, time and challenge, every key holder; for the handler alone every registrar and every call", "why_tests_cant": "The lock-out is about all histories after a login and all packages, and the guarantees of the repair about all histories and key holders; a test tries a few counters.", "anchors": ["webauthn_rp/backends.py:CredentialsBackend.handle_credential_assertion", "examples/flask/app.py:RegistrarImpl.register_credential_assertion", "examples/flask/app.py:RegistrarImpl.get_credential_data"]}
{"id": "C99", "title": "Each check of the ceremonies is needed, and no other", "statement": "The contract of C96 has 23 parts: among others that the type, the challenge and the origin of the client data are checked, the Relying Party hash, user presence, the user, the signature and the counter, that what is registered is what was attested, and that registrars hear of what was accepted and of nothing else. A set of parts gives the guarantees of the application (fresh challenges, only registered credentials, each registered once, rising counters, approval by the key holder, one approval for one login) for all packages that have them if and only if it has all 23. For each part there is a package that lacks only it, and a history after which a guarantee fails.", "quantifier": "every set of parts; for the guarantees every package, every finite history of requests and every key holder", "why_tests_cant": "That a set of checks is enough is about all packages and histories; that none is redundant is about all sets of the others. A test shows that a check refuses an input, not that the guarantees need it or that nothing else is needed.", "anchors": ["webauthn_rp/backends.py:CredentialsBackend.handle_credential_attestation", "webauthn_rp/backends.py:CredentialsBackend.handle_credential_assertion", "examples/flask/app.py:registration_response", "examples/flask/app.py:authentication_response"]}
{"id": "C100", "title": "Each of the seven checks in front of the application is needed, and no other", "statement": "The example application lets a challenge be used twice and by another user, lets anybody register a credential under the name of a user, registers ids that were not attested, keys for algorithms it did not ask for, and short ids, and accepts a first counter below that of the registration. Seven checks in front of it (C84) mend these. Behind any list of these checks, in any order, each of the seven properties holds if and only if its check is in the list: no check makes another one redundant, and none disturbs another. Behind any list the application accepts the registrations and logins that meet the conditions of the checks in the list.", "quantifier": "every list of the checks; for the properties every application, every finite history of requests, every user, credential and key holder", "why_tests_cant": "There are infinitely many lists and histories. That a check cannot be left out is a statement about all the other checks together; a test of one refused request says nothing about it.", "anchors": ["examples/flask/app.py:registration_response", "examples/flask/app.py:authentication_response", "examples/flask/app.py:RegistrarImpl.register_credential_attestation"]}
{"id": "C101", "title": "Backups of the database may be put back, if the challenges in them are no longer taken", "statement": "Copies of the database of the example application are put back between requests, any copy, any number of times. The application then answers as if the requests whose effect was undone had never been sent. So every login is with a credential whose registration stands and is signed with its key, for a challenge whose request stands and is less than a minute old; a credential stands registered once; counters increase over the logins that stand; and the holder of the key approved every login. What the copies take back is that one approval is good for one login: a response sent again after the copy from before it is put back is accepted again. If nobody logs in after a restoration before the challenges in the copy are a minute old, and no challenge is drawn twice, one approval is good for one login even over the logins that were undone. The same holds without waiting, whenever copies are put back, if the number of the next challenge is noted after each restoration and responses with a smaller number are refused; everybody else is then answered as before.", "quantifier": "every application with lawful codecs, every finite sequence of requests and restorations of any copy, every key holder", "why_tests_cant": "The sequences of requests and restorations are infinitely many, and nest: copies are taken of tables that were themselves put back. That two accepted logins, one of them undone, need two approvals rests on all the requests between them.", "anchors": ["examples/flask/app.py:DATABASE_PATH", "examples/flask/app.py:Challenge", "examples/flask/app.py:authentication_response", "webauthn_rp/backends.py:CredentialsBackend.handle_credential_assertion"]}
{"id": "C102", "title": "A caller can check token bindings as the standard says, but only by looking into the client data first", "statement": "On a connection without token binding a client may leave the member tokenBinding out or report the status supported; on a connection with one it reports present and its identifier. A caller that chooses the token_binding argument from the state of the connection and the client data accepts, of the responses that some argument would accept, exactly those whose client reported the state of the connection rightly, in both ceremonies. No argument does for all clients: two responses accepted with the same argument have clients that report the same. So a caller that finds the argument from the connection alone refuses right clients, and the example application, which gives none, refuses every client that reports anything.", "quantifier": "every environment, every registrar and state, all arguments of both ceremonies, every state of the connection; every application, finite sequence of requests and accepted response", "why_tests_cant": "That no argument accepts two different reports is a statement about all arguments, responses and registrars; that the chosen argument accepts exactly the right ones is an equivalence over all client data, including JSON values of any kind in the identifier.", "anchors": ["webauthn_rp/backends.py:CredentialsBackend.handle_credential_attestation", "webauthn_rp/backends.py:CredentialsBackend.handle_credential_assertion", "webauthn_rp/parsers.py:parse_client_data", "examples/flask/app.py:registration_response", "examples/flask/app.py:authentication_response"]}
{"id": "C103", "title": "User handles contain nothing of the names, and names are names and nothing else (example application)", "statement": "If all requests carry other names, of which no two are alike, the tables of the example application are the same but for the names, and so are its replies: only the name and the display name in the options of a registration differ. So user handles, challenges and credentials contain nothing of the names, as the documentation asks for (server-configuration.rst 57-61), and what is accepted does not depend on them. A handle is what was drawn in a request for a registration under the name.", "quantifier": "every application, every finite sequence of requests, every injective map of names", "why_tests_cant": "The statement compares all pairs of histories that differ in names only, for all strings as names and all maps between them; a test tries a few names and cannot see that a handle could encode one for others.", "anchors": ["examples/flask/app.py:registration_request", "examples/flask/app.py:authentication_request", "examples/flask/app.py:registration_response", "examples/flask/app.py:authentication_response", "examples/flask/app.py:RegistrarImpl", "webauthn_rp/backends.py:CredentialsBackend.handle_credential_assertion"]}
{"id": "C104", "title": "Of the clock only the ages of challenges matter, and what is too old stays so (example application)", "statement": "If two clocks agree, whenever a request is served, on which challenges are older than a minute, the replies of the example application are the same; so they are by a clock that is always off by the same. What is accepted at one time would have been accepted at any earlier time. A challenge that was found too old (reply Timeout) leads to no success later.", "quantifier": "every application, every two clocks, every finite sequence of requests", "why_tests_cant": "The statement compares all pairs of clocks over all histories; a test runs with the clock of one machine, which is hardly ever set back while it runs.", "anchors": ["examples/flask/app.py:timestamp_ms", "examples/flask/app.py:registration_response", "examples/flask/app.py:authentication_response", "examples/flask/app.py:APP_TIMEOUT"]}
{"id": "C105", "title": "One route may serve all requests and responses (example application)", "statement": "As the documentation says (server-configuration.rst 15-16), the four routes of the example application can be one: if it tells requests from responses by the credential in the form, and registrations from logins by the kind of the response, it answers every request as the one of the four that is meant does, and the tables are the same. Every request to it means one of the four; every request to the four that is not a response sent to the wrong one can be made to it; and a response sent to the wrong one is refused without a change. No form is good for both ceremonies.", "quantifier": "every application, every finite sequence of requests to the one route, every two histories", "why_tests_cant": "The statement compares two applications over all histories and all forms; tests compare them on a few.", "anchors": ["examples/flask/app.py:registration_request", "examples/flask/app.py:authentication_request", "examples/flask/app.py:registration_response", "examples/flask/app.py:authentication_response"]}
{"id": "C106", "title": "Copies of an authenticator are noticed (example application)", "statement": "Let an authenticator be copied, and let all copies count their uses from there. Then a copy is refused until it has been used more often than any that was accepted before; of two copies that were used equally often one is refused; and all copies together are accepted at most as often as one of them was used. A login that would be accepted if copies were ignored is otherwise accepted or reported by SignatureCountError with nothing written, and only such a login is so reported. Nobody is refused for a copy that does not exist: if one authenticator has the credential and its responses arrive in order, its honest logins succeed. All this also behind any of the checks of C84, and with packages that take zero for no counter (C98). Copies that are used elsewhere in between need not be noticed.", "quantifier": "all applications, histories, numbers of copies and orders of their uses, all checks, all registrars and packages of the contract", "why_tests_cant": "The numbers of copies, uses and orders are unbounded.", "anchors": ["webauthn_rp/backends.py:CredentialsBackend.handle_credential_assertion", "examples/flask/app.py:RegistrarImpl", "examples/flask/app.py:authentication_response"]}
{"id": "C107", "title": "Credentials may be revoked (example application)", "statement": "Let the operator delete rows of credentials between requests. Then the application answers as if the responses with a credential that has been revoked since had never been sent, and revoking a credential changes no reply to a request that does not concern it, but for the credentials that are offered. A login is with a credential that was registered by the user and not revoked since, and signed with its key; it is for a challenge of at most 60000 ms before; and its counter is above those of the logins with the credential since it was last revoked. Refuted: that nobody logs in with a credential that was revoked, as whoever has it, or has seen its registration, may register it again; and that then one approval is good for one login, as the counter begins anew. Both hold if instead of deleting rows the ids are kept in a list and responses with them are refused.", "quantifier": "all applications, histories of requests and revocations, credentials", "why_tests_cant": "The histories are unbounded, and revocations may come anywhere in them.", "anchors": ["examples/flask/app.py:Credential", "examples/flask/app.py:RegistrarImpl", "examples/flask/app.py:registration_response", "examples/flask/app.py:authentication_response"]}
{"id": "C108", "title": "Accounts may be deleted (example application)", "statement": "Let the operator delete accounts between requests, and let new rows get the keys that SQLite takes, one more than the greatest in the table. Where nothing is deleted this is the application. If the rows of credentials and challenges that refer to a user are deleted with it, a login under a name is with a credential that was registered under that name since it was last deleted, and signed with its key; and the honest response of a user who was not deleted, to a challenge issued to the user, is accepted. In either case a name that was deleted is not known until somebody asks to register under it, a success is for a challenge of at most 60000 ms before, and a login is with a credential that was registered under some name and signed with its key. Refuted: that it was registered under the same name, if only the row of the user is deleted; the next new user gets its number, and with it its credentials. It holds if keys are not used again (AUTOINCREMENT).", "quantifier": "all applications, histories of requests and deletions of accounts", "why_tests_cant": "The histories are unbounded, and which keys are free depends on all of the history.", "anchors": ["examples/flask/app.py:User", "examples/flask/app.py:Challenge", "examples/flask/app.py:Credential", "examples/flask/app.py:registration_request", "examples/flask/app.py:authentication_response"]}
{"id": "C109", "title": "The application may be stopped, killed and started again (example application)", "statement": "Let processes of the example application be started, stopped and killed between requests. Where none is started while one serves, the application answers, while one serves, as if of the requests only those had been sent that were sent while one served, since one was last stopped: a process that is killed and started again goes on as if nothing had happened, one that is stopped and started again is as new. In every case a login is with a credential that was registered by the user since the tables were last removed, and signed with its key, a success is for a challenge issued since then, of at most 60000 ms before, and, where no challenge is drawn again, one approval is good for one login. Refuted: that a process that is started while one serves makes no difference; it removes the tables, and until the application is started again every request for a challenge is answered with an error and no response with success.", "quantifier": "all applications, histories of requests, starts, stops and kills", "why_tests_cant": "The histories are unbounded, and what is answered depends on all starts and stops before.", "anchors": ["examples/flask/app.py:325", "examples/flask/app.py:DATABASE_PATH", "examples/flask/app.py:registration_request", "examples/flask/app.py:authentication_response"]}
{"id": "C110", "title": "The application may be killed at any time, with requests in progress (example application)", "statement": "Let requests be in progress at the same time, their statements interleaved in any way, and let the process be killed between any two statements, or before a reply is sent, and started again. The tables and the replies are as in an order of statements in which the requests that were lost stop and the others are complete. So the keys of the tables stay unique, a login is with a credential that was registered by the user and signed with its key, a success is for a challenge issued at most 60000 ms before, a credential is registered once, and, with the repaired statements, one approval is good for one login. A request after the last kill is answered as the application answers it with the tables that are there. A request that is cut off before its first writing statement leaves no trace in the tables or the other replies. Refuted: that every request whose reply was not sent leaves no trace, and that a login is with a credential whose registration was answered.", "quantifier": "all applications, families of requests, interleavings of statements, replies and kills", "why_tests_cant": "The kill may come between any two statements of any interleaving of unboundedly many requests.", "anchors": ["examples/flask/app.py:325", "examples/flask/app.py:registration_request", "examples/flask/app.py:registration_response", "examples/flask/app.py:authentication_response", "examples/flask/app.py:RegistrarImpl.register_credential_attestation"]}
{"id": "C111", "title": "A registration may be sent again (example application)", "statement": "A registration that was answered with success, or whose reply was lost because the process was killed, is answered with success when it is sent again while its challenge is fresh, whatever happened in between, and changes nothing. Refuted of the code: wherever a registration succeeds it never does again. Proved of a registrar that looks first whether the credential is stored for the user with the key: its tables are those of the application after every history, everything else is answered alike, what it registers the application has registered for the same user with a key that is stored alike, and a login is with a credential that the user registered before and signed with its key.", "quantifier": "all applications, histories, times, and interleavings with kills", "why_tests_cant": "Anything may happen between the two requests, and the kill may come at any statement.", "anchors": ["examples/flask/app.py:RegistrarImpl.register_credential_attestation", "examples/flask/app.py:registration_response", "webauthn_rp/backends.py:handle_credential_attestation"]}
{"id": "C112", "title": "The order of requests that have nothing to do with each other does not matter (example application)", "statement": "After every history, let two requests name different users, at most one of them ask for a challenge, the challenges they answer be issued before, and the credential ids of two responses differ. Then both get the same reply in either order, and so does every later request, whatever happens in between. A request gets the reply it would get without the requests it has nothing to do with, and requests that pairwise have nothing to do with each other may come in any order. Each of the conditions is needed.", "quantifier": "all applications, histories, requests, later requests and permutations", "why_tests_cant": "The tables after the two orders differ (rows of credentials are in another order), so that equality of all later replies is a claim about all continuations.", "anchors": ["examples/flask/app.py:registration_request", "examples/flask/app.py:registration_response", "examples/flask/app.py:authentication_request", "examples/flask/app.py:authentication_response", "examples/flask/app.py:RegistrarImpl"]}
{"id": "C113", "title": "Requests that were refused leave no trace (example application)", "statement": "After every history, every request gets the reply that it would get had those requests of the history that were not served (with options or with success) never been sent, and the tables are the same; so a log of what was served is all there is to know. False of the code when a registration draws a challenge that was issued before: the row of the user is committed before that of the challenge and stays. Proved where no challenge is drawn again, and in full where both rows are committed together, which otherwise is the same application; there what was served is served again when the log is sent to a new instance.", "quantifier": "all applications, histories and requests", "why_tests_cant": "Any number of requests of any kind may be refused at any point of the history, for any reason.", "anchors": ["examples/flask/app.py:registration_request", "examples/flask/app.py:registration_response", "examples/flask/app.py:authentication_request", "examples/flask/app.py:authentication_response"]}
{"id": "C114", "title": "The tables say what happened, and nothing else (example application)", "statement": "After every history the rows of the users are the accounts that were opened, in order; a challenge with its number, bytes, time and user is stored if and only if it was issued so; a credential with its user and key is stored if and only if it was registered so; its counter is that of the last successful login with it, and is empty if and only if there was none. Keyed tables of which this is true are the tables of the application, up to the order of rows.", "quantifier": "all applications and histories", "why_tests_cant": "The claim is an equivalence between rows and events of histories of any length.", "anchors": ["examples/flask/app.py:User", "examples/flask/app.py:Challenge", "examples/flask/app.py:Credential", "examples/flask/app.py:RegistrarImpl", "examples/flask/app.py:registration_request", "examples/flask/app.py:authentication_request"]}
{"id": "C115", "title": "When a response succeeds, by what happened before (example application)", "statement": "A registration succeeds if and only if its form can be read, it answers a challenge that was issued at most a minute ago, the account was opened, it passes the ceremony for this challenge and account, its key can be stored, and nobody registered the id before. A login succeeds if and only if its form can be read, it answers a challenge that was issued at most a minute ago, the account was opened, its credential was registered before, and it passes the ceremony with the key and owner of that registration and the counter of the last successful login with it. Both are stated by the requests and replies before, without the tables.", "quantifier": "all applications, histories, forms and times", "why_tests_cant": "It is an equivalence about histories of any length; a test sees one history.", "anchors": ["examples/flask/app.py:registration_response", "examples/flask/app.py:authentication_response", "examples/flask/app.py:RegistrarImpl", "webauthn_rp/backends.py:handle_credential_attestation", "webauthn_rp/backends.py:handle_credential_assertion"]}
{"id": "C116", "title": "The reply to every request, by what happened before (example application)", "statement": "After every history, the reply to every request is determined by the requests and replies before it, and C116 says which it is, case by case: the number of the next challenge is the first that was not issued; the options for a registration carry the handle with which the account was opened; the options for a login list exactly the credentials that the user registered, in the order of their registration; a request whose challenge was issued before, or whose new handle is taken, crashes; and a response is answered by the first of its defects. The history calls for exactly one reply, up to the order of the members of the options.", "quantifier": "all applications, histories and requests", "why_tests_cant": "It determines every reply after every history of any length; a test sees one.", "anchors": ["examples/flask/app.py:registration_request", "examples/flask/app.py:registration_response", "examples/flask/app.py:authentication_request", "examples/flask/app.py:authentication_response", "examples/flask/app.py:RegistrarImpl"]}
{"id": "C117", "title": "What the application remembers of a history (example application)", "statement": "Two histories lead to the same tables if and only if in both the same accounts were opened in the same order, the same challenges issued to the same users at the same times, the same credentials registered by the same users with the same keys and in the same order, and the last login with each credential had the same counter. After such histories all requests are answered the same for ever; for instance, every login with a credential but the last is forgotten.", "quantifier": "all applications, pairs of histories and continuations", "why_tests_cant": "It compares all pairs of histories and all continuations; tests compare few.", "anchors": ["examples/flask/app.py:registration_request", "examples/flask/app.py:authentication_request", "examples/flask/app.py:RegistrarImpl", "examples/flask/app.py:User", "examples/flask/app.py:Credential", "examples/flask/app.py:Challenge"]}
{"id": "C118", "title": "Nobody needs an earlier login (example application)", "statement": "Leave any number of logins, successful or not, out of a history: every request other than a login is answered exactly as before, and every login that succeeded still succeeds. So a login gives nobody anything that lasts, and affects nothing but later logins; of two logins in a row with the same credential the application forgets the first.", "quantifier": "all applications, histories, sets of logins left out and requests", "why_tests_cant": "It compares every history with all histories in which logins are left out; logins that were refused may succeed in the other history and change the counter there.", "anchors": ["examples/flask/app.py:authentication_response", "examples/flask/app.py:RegistrarImpl", "webauthn_rp/backends.py:handle_credential_assertion"]}
