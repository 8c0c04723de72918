{
 "claims": [
  {
   "property": "C01",
   "status": "proved",
   "theorems": [
    "WebAuthn.Props.C01_signature_required",
    "WebAuthn.Props.C01_no_signature_no_login"
   ],
   "note": ""
  },
  {
   "property": "C02",
   "status": "proved",
   "theorems": [
    "WebAuthn.Props.C02_type_registration",
    "WebAuthn.Props.C02_type_authentication",
    "WebAuthn.Props.C02_no_cross_ceremony"
   ],
   "note": ""
  },
  {
   "property": "C03",
   "status": "proved",
   "theorems": [
    "WebAuthn.Props.C03_challenge_registration",
    "WebAuthn.Props.C03_challenge_authentication",
    "WebAuthn.Props.C03_challenge_unique"
   ],
   "note": ""
  },
  {
   "property": "C04",
   "status": "proved",
   "theorems": [
    "WebAuthn.Props.C04_origin_registration",
    "WebAuthn.Props.C04_origin_authentication",
    "WebAuthn.Props.C04_empty_expectation",
    "WebAuthn.Props.C04_malformed_expectation"
   ],
   "note": ""
  },
  {
   "property": "C05",
   "status": "proved",
   "theorems": [
    "WebAuthn.Props.C05_rp_hash_registration",
    "WebAuthn.Props.C05_rp_hash_authentication"
   ],
   "note": ""
  },
  {
   "property": "C06",
   "status": "proved",
   "theorems": [
    "WebAuthn.Props.C06_user_presence_registration",
    "WebAuthn.Props.C06_user_presence_authentication"
   ],
   "note": ""
  },
  {
   "property": "C07",
   "status": "proved",
   "theorems": [
    "WebAuthn.Props.C07_user_verification_registration",
    "WebAuthn.Props.C07_user_verification_authentication",
    "WebAuthn.Props.C07_user_verification_ignored",
    "WebAuthn.Props.C07_user_verification_ignored_registration"
   ],
   "note": ""
  },
  {
   "property": "C08",
   "status": "proved",
   "theorems": [
    "WebAuthn.Props.C08_extensions_registration",
    "WebAuthn.Props.C08_extensions_authentication",
    "WebAuthn.Props.C08_map",
    "WebAuthn.Props.C08_map_registration",
    "WebAuthn.Props.C08_map_authentication"
   ],
   "note": ""
  },
  {
   "property": "C09",
   "status": "proved",
   "theorems": [
    "WebAuthn.Props.C09_token_binding_registration",
    "WebAuthn.Props.C09_token_binding_authentication"
   ],
   "note": ""
  },
  {
   "property": "C10",
   "status": "proved",
   "theorems": [
    "WebAuthn.Props.C10_allow_list",
    "WebAuthn.Props.C10_allow_list_success"
   ],
   "note": ""
  },
  {
   "property": "C11",
   "status": "proved",
   "theorems": [
    "WebAuthn.Props.C11_user_bound"
   ],
   "note": ""
  },
  {
   "property": "C12",
   "status": "proved",
   "theorems": [
    "WebAuthn.Props.C12_rp_bound"
   ],
   "note": ""
  },
  {
   "property": "C13",
   "status": "proved",
   "theorems": [
    "WebAuthn.Props.C13_counter_increases",
    "WebAuthn.Props.C13_counter_ignored"
   ],
   "note": ""
  },
  {
   "property": "C14",
   "status": "proved",
   "theorems": [
    "WebAuthn.Props.C14_registration_calls",
    "WebAuthn.Props.C14_authentication_calls",
    "WebAuthn.Props.C14_failed_registration",
    "WebAuthn.Props.C14_failed_authentication"
   ],
   "note": ""
  },
  {
   "property": "C15",
   "status": "proved",
   "theorems": [
    "WebAuthn.Props.C15_registration_reported",
    "WebAuthn.Props.C15_authentication_reported",
    "WebAuthn.Props.C15_registration_errors",
    "WebAuthn.Props.C15_authentication_errors",
    "WebAuthn.Props.C15_registration_any",
    "WebAuthn.Props.C15_authentication_any"
   ],
   "note": ""
  },
  {
   "property": "C16",
   "status": "proved",
   "theorems": [
    "WebAuthn.Props.C16_registration_refused",
    "WebAuthn.Props.C16_authentication_refused",
    "WebAuthn.Props.C16_read_raises",
    "WebAuthn.Props.C16_read_none",
    "WebAuthn.Props.C16_refusing_registrar"
   ],
   "note": ""
  },
  {
   "property": "C17",
   "status": "proved",
   "theorems": [
    "WebAuthn.Props.C17_authentication_accepts_exactly"
   ],
   "note": ""
  },
  {
   "property": "C18",
   "status": "partial",
   "theorems": [
    "WebAuthn.Props.C18_registration_accepts_exactly_partial",
    "WebAuthn.Props.C18_repaired_accepts_exactly"
   ],
   "note": "False of the code for FIDO U2F and Android key statements (F1): the handler passes the wrong object to attest. The partial theorem characterises success exactly as the code has it; the repaired variant, which passes the attestation object, accepts exactly the valid responses."
  },
  {
   "property": "C19",
   "status": "partial",
   "theorems": [
    "WebAuthn.Props.C19_none_accepted_partial",
    "WebAuthn.Props.C19_u2f_refused",
    "WebAuthn.Props.C19_supported_formats_refuted",
    "WebAuthn.Props.C19_repaired_supported_formats",
    "WebAuthn.Props.C19_repaired_conservative"
   ],
   "note": "False of the code (F1): refuted with a valid FIDO U2F registration. Missing from the partial theorem: the formats fido-u2f and android-key. Proved in full for the repaired variant."
  },
  {
   "property": "C20",
   "status": "partial",
   "theorems": [
    "WebAuthn.Props.C20_registrar_can_compare_partial",
    "WebAuthn.Props.C20_checking_registrar",
    "WebAuthn.Props.C20_raw_id_attested_refuted",
    "WebAuthn.Props.C20_repaired_raw_id_attested"
   ],
   "note": "False of the code (F4): refuted with a registration whose raw id is not the attested id. The partial theorem says that the registrar is given what it needs to compare; C20_checking_registrar is a registrar that does. Proved in full for the repaired variant."
  },
  {
   "property": "C21",
   "status": "proved",
   "theorems": [
    "WebAuthn.Props.C21_fido_u2f_exact",
    "WebAuthn.Props.C21_fido_u2f_wrong_signature"
   ],
   "note": ""
  },
  {
   "property": "C22",
   "status": "proved",
   "theorems": [
    "WebAuthn.Props.C22_android_key_exact",
    "WebAuthn.Props.C22_android_same_key"
   ],
   "note": ""
  },
  {
   "property": "C23",
   "status": "proved",
   "theorems": [
    "WebAuthn.Props.C23_unimplemented_refused",
    "WebAuthn.Props.C23_unimplemented_not_registered"
   ],
   "note": ""
  },
  {
   "property": "C24",
   "status": "proved",
   "theorems": [
    "WebAuthn.Props.C24_layout_exact",
    "WebAuthn.Props.C24_layout_offsets"
   ],
   "note": ""
  },
  {
   "property": "C25",
   "status": "proved",
   "theorems": [
    "WebAuthn.Props.C25_auth_data_round_trip"
   ],
   "note": ""
  },
  {
   "property": "C26",
   "status": "proved",
   "theorems": [
    "WebAuthn.Props.C26_short",
    "WebAuthn.Props.C26_padded",
    "WebAuthn.Props.C26_truncated"
   ],
   "note": ""
  },
  {
   "property": "C27",
   "status": "partial",
   "theorems": [
    "WebAuthn.Props.C27_stored_key",
    "WebAuthn.Props.C27_stored_keys_survive_partial",
    "WebAuthn.Props.C27_stored_keys_survive_refuted",
    "WebAuthn.Props.C27_repaired_stored_keys_survive"
   ],
   "note": "False of the code (F2): refuted by a key with base_IV and without key_ops. The partial theorem covers all other keys; C27_stored_key states what is read back in every case. Proved in full for the repaired variant."
  },
  {
   "property": "C28",
   "status": "proved",
   "theorems": [
    "WebAuthn.Props.C28_cose_key_exact",
    "WebAuthn.Props.C28_cose_key_bytes",
    "WebAuthn.Props.C28_cose_key_fields"
   ],
   "note": ""
  },
  {
   "property": "C29",
   "status": "proved",
   "theorems": [
    "WebAuthn.Props.C29_attested_key_consistent"
   ],
   "note": ""
  },
  {
   "property": "C30",
   "status": "proved",
   "theorems": [
    "WebAuthn.Props.C30_credential_exact",
    "WebAuthn.Props.C30_response_kind"
   ],
   "note": ""
  },
  {
   "property": "C31",
   "status": "proved",
   "theorems": [
    "WebAuthn.Props.C31_client_data_exact",
    "WebAuthn.Props.C31_token_binding"
   ],
   "note": ""
  },
  {
   "property": "C32",
   "status": "proved",
   "theorems": [
    "WebAuthn.Props.C32_extensions_exact"
   ],
   "note": ""
  },
  {
   "property": "C33",
   "status": "proved",
   "theorems": [
    "WebAuthn.Props.C33_statement_exact",
    "WebAuthn.Props.C33_statement_variant"
   ],
   "note": ""
  },
  {
   "property": "C34",
   "status": "proved",
   "theorems": [
    "WebAuthn.Props.C34_attestation_object_exact"
   ],
   "note": ""
  },
  {
   "property": "C35",
   "status": "partial",
   "theorems": [
    "WebAuthn.Props.C35_trailing_data_ignored",
    "WebAuthn.Props.C35_trailing_data_ignored_key",
    "WebAuthn.Props.C35_no_trailing_data_refuted",
    "WebAuthn.Props.C35_repaired_no_trailing_data"
   ],
   "note": "False of the code (F9): refuted; trailing bytes are proved to be ignored in every case. Proved in full for the repaired variant."
  },
  {
   "property": "C36",
   "status": "proved",
   "theorems": [
    "WebAuthn.Props.C36_accepted_origins",
    "WebAuthn.Props.C36_serialised_origins",
    "WebAuthn.Props.C36_no_path"
   ],
   "note": ""
  },
  {
   "property": "C37",
   "status": "partial",
   "theorems": [
    "WebAuthn.Props.C37_equivalent_origins_refuted",
    "WebAuthn.Props.C37_equivalent_origins_partial",
    "WebAuthn.Props.C37_compared",
    "WebAuthn.Props.C37_never_confused",
    "WebAuthn.Props.C37_accepted_listed_registration",
    "WebAuthn.Props.C37_accepted_listed_authentication",
    "WebAuthn.Props.C37_repaired_equivalent_origins",
    "WebAuthn.Props.C37_repaired_accepted_origins",
    "WebAuthn.Props.C37_repaired_same_origin"
   ],
   "note": "False of the code (F3): refuted by an explicit default port. The partial theorem covers texts with the same authority; C37_compared states what is compared, and C37_never_confused that different serialised origins are never taken for each other. Proved in full, as equivalences over all texts, for the repaired variant."
  },
  {
   "property": "C38",
   "status": "proved",
   "theorems": [
    "WebAuthn.Props.C38_base64url_round_trip",
    "WebAuthn.Props.C38_base64url_encoding"
   ],
   "note": ""
  },
  {
   "property": "C39",
   "status": "proved",
   "theorems": [
    "WebAuthn.Props.C39_case_round_trip",
    "WebAuthn.Props.C39_names_exact",
    "WebAuthn.Props.C39_extension_names"
   ],
   "note": ""
  },
  {
   "property": "C40",
   "status": "partial",
   "theorems": [
    "WebAuthn.Props.C40_shows",
    "WebAuthn.Props.C40_supported",
    "WebAuthn.Props.C40_errors",
    "WebAuthn.Props.C40_json_partial",
    "WebAuthn.Props.C40_refuted",
    "WebAuthn.Props.C40_repaired_json",
    "WebAuthn.Props.C40_repaired_shows",
    "WebAuthn.Props.C40_repaired_errors",
    "WebAuthn.Props.C40_repaired_conservative"
   ],
   "note": "False of the code (F11): refuted by NaN and by an enumeration member with the value None. The partial theorem covers all other objects; C40_shows states the result for every object. Proved in full for the repaired variant."
  },
  {
   "property": "C41",
   "status": "proved",
   "theorems": [
    "WebAuthn.Props.C41_creation",
    "WebAuthn.Props.C41_request",
    "WebAuthn.Props.C41_creation_listed",
    "WebAuthn.Props.C41_request_listed",
    "WebAuthn.Props.C41_challenge",
    "WebAuthn.Props.C41_request_challenge"
   ],
   "note": ""
  },
  {
   "property": "C42",
   "status": "proved",
   "theorems": [
    "WebAuthn.Props.C42_unchanged",
    "WebAuthn.Props.C42_derived",
    "WebAuthn.Props.C42_histories",
    "WebAuthn.Props.C42_build_creation",
    "WebAuthn.Props.C42_build_request",
    "WebAuthn.Props.C42_creation_attributes",
    "WebAuthn.Props.C42_request_attributes"
   ],
   "note": ""
  },
  {
   "property": "C43",
   "status": "proved",
   "theorems": [
    "WebAuthn.Props.C43_setter",
    "WebAuthn.Props.C43_creation",
    "WebAuthn.Props.C43_request",
    "WebAuthn.Props.C43_defaults"
   ],
   "note": ""
  },
  {
   "property": "C44",
   "status": "proved",
   "theorems": [
    "WebAuthn.Props.C44_validate_exact",
    "WebAuthn.Props.C44_validate_error",
    "WebAuthn.Props.C44_validate_raises"
   ],
   "note": ""
  },
  {
   "property": "C45",
   "status": "proved",
   "theorems": [
    "WebAuthn.Props.C45_conversion_exact",
    "WebAuthn.Props.C45_conversion_injective",
    "WebAuthn.Props.C45_conversion_error"
   ],
   "note": ""
  },
  {
   "property": "C46",
   "status": "proved",
   "theorems": [
    "WebAuthn.Props.C46_verify_exact",
    "WebAuthn.Props.C46_bad_ecdsa",
    "WebAuthn.Props.C46_bad_eddsa",
    "WebAuthn.Props.C46_other_class"
   ],
   "note": ""
  },
  {
   "property": "C47",
   "status": "proved",
   "theorems": [
    "WebAuthn.Flask.C47_flask_registrar",
    "WebAuthn.Flask.C47_flask_counters",
    "WebAuthn.Props.C47_counters_increase",
    "WebAuthn.Props.C47_no_replay"
   ],
   "note": ""
  },
  {
   "property": "C48",
   "status": "partial",
   "theorems": [
    "WebAuthn.Props.C48_compare_and_set_partial",
    "WebAuthn.Props.C48_distinct_counters_partial",
    "WebAuthn.Props.C48_replay_refuted",
    "WebAuthn.Props.C48_locked_distinct",
    "WebAuthn.Props.C48_locked_never_twice",
    "WebAuthn.Props.C48_locked_increasing",
    "WebAuthn.Props.C48_locked_serial",
    "WebAuthn.Props.C48_locked_progress",
    "WebAuthn.Props.C48_locked_serves"
   ],
   "note": "False of the code (F10) for registrars that read and write in separate steps: refuted by a schedule of two handlers. The partial theorems cover registrars that compare and set in the write, and assertions with distinct counters. The C48_locked theorems hold of handlers behind a lock per credential, or one lock for all (Model/LockedBackend): no response is accepted twice, counters increase, everything comes out as if the handlers had run one after another, and none is stuck."
  },
  {
   "property": "C49",
   "status": "proved",
   "theorems": [
    "WebAuthn.Flask.C49_login",
    "WebAuthn.Flask.C49_registration_scope",
    "WebAuthn.Flask.C49_authentication_scope",
    "WebAuthn.Flask.C49_registered_once"
   ],
   "note": ""
  },
  {
   "property": "C50",
   "status": "proved",
   "theorems": [
    "WebAuthn.Flask.C50_fresh_challenge"
   ],
   "note": ""
  },
  {
   "property": "C51",
   "status": "partial",
   "theorems": [
    "WebAuthn.Flask.C51_no_replay_partial",
    "WebAuthn.Flask.C51_single_use_refuted",
    "WebAuthn.Flask.C51_user_bound_refuted",
    "WebAuthn.Flask.C51_repaired_single_use",
    "WebAuthn.Flask.C51_repaired_user_bound",
    "WebAuthn.Flask.C51_repaired_serves"
   ],
   "note": "False of the example application (F8): refuted by a run. The partial theorem says what is left of replay protection; the property is proved for the repaired application."
  },
  {
   "property": "C52",
   "status": "proved",
   "theorems": [
    "WebAuthn.Props.C52_honest_registration",
    "WebAuthn.Props.C52_honest_authentication",
    "WebAuthn.Props.C52_honest_ceremonies"
   ],
   "note": ""
  },
  {
   "property": "C53",
   "status": "proved",
   "theorems": [
    "WebAuthn.Props.C53_registration_uninterrupted",
    "WebAuthn.Props.C53_authentication_uninterrupted",
    "WebAuthn.Props.C53_registration_crash",
    "WebAuthn.Props.C53_authentication_crash"
   ],
   "note": ""
  },
  {
   "property": "C54",
   "status": "proved",
   "theorems": [
    "WebAuthn.Props.C54_authentication_error",
    "WebAuthn.Props.C54_authentication_error_exact",
    "WebAuthn.Props.C54_not_allowed",
    "WebAuthn.Props.C54_registration_error",
    "WebAuthn.Props.C54_bad_expected_origin"
   ],
   "note": ""
  },
  {
   "property": "C55",
   "status": "proved",
   "theorems": [
    "WebAuthn.Props.C55_derived_isolated",
    "WebAuthn.Props.C55_source_isolated",
    "WebAuthn.Props.C55_exception_needed",
    "WebAuthn.Props.C55_derived_forever",
    "WebAuthn.Props.C55_derived_builds_creation",
    "WebAuthn.Props.C55_derived_builds_request",
    "WebAuthn.Props.C55_source_forever"
   ],
   "note": ""
  },
  {
   "property": "C56",
   "status": "proved",
   "theorems": [
    "WebAuthn.Flask.C56_registration",
    "WebAuthn.Flask.C56_authentication"
   ],
   "note": ""
  },
  {
   "property": "C57",
   "status": "proved",
   "theorems": [
    "WebAuthn.Flask.C57_registration_answered",
    "WebAuthn.Flask.C57_authentication_answered",
    "WebAuthn.Flask.C57_creation_argument",
    "WebAuthn.Flask.C57_request_argument",
    "WebAuthn.Flask.C57_handles",
    "WebAuthn.Flask.C57_registration_form",
    "WebAuthn.Flask.C57_authentication_form",
    "WebAuthn.Flask.C57_registration",
    "WebAuthn.Flask.C57_authentication"
   ],
   "note": ""
  },
  {
   "property": "C58",
   "status": "proved",
   "theorems": [
    "WebAuthn.Props.C58_documented_decoded",
    "WebAuthn.Props.C58_android_exact",
    "WebAuthn.Props.C58_android_refused",
    "WebAuthn.Props.C58_unambiguous"
   ],
   "note": ""
  },
  {
   "property": "C59",
   "status": "proved",
   "theorems": [
    "WebAuthn.Props.C59_registration_not_stored",
    "WebAuthn.Props.C59_nobody_known",
    "WebAuthn.Props.C59_authentication_not_stored"
   ],
   "note": ""
  },
  {
   "property": "C60",
   "status": "proved",
   "theorems": [
    "WebAuthn.Props.C60_registration",
    "WebAuthn.Props.C60_authentication",
    "WebAuthn.Props.C60_registration_one",
    "WebAuthn.Props.C60_authentication_one"
   ],
   "note": ""
  },
  {
   "property": "C61",
   "status": "proved",
   "theorems": [
    "WebAuthn.Props.C61_origin",
    "WebAuthn.Props.C61_client_data",
    "WebAuthn.Props.C61_authenticator_data",
    "WebAuthn.Props.C61_attestation_object",
    "WebAuthn.Props.C61_public_key",
    "WebAuthn.Props.C61_signature",
    "WebAuthn.Props.C61_credential",
    "WebAuthn.Props.C61_cose_key",
    "WebAuthn.Props.C61_cose_key_bytes",
    "WebAuthn.Props.C61_extensions",
    "WebAuthn.Props.C61_statement",
    "WebAuthn.Props.C61_key_written"
   ],
   "note": ""
  },
  {
   "property": "C62",
   "status": "proved",
   "theorems": [
    "WebAuthn.Props.C62_attest_error",
    "WebAuthn.Props.C62_attest_total",
    "WebAuthn.Props.C62_repaired_registration"
   ],
   "note": ""
  },
  {
   "property": "C63",
   "status": "partial",
   "theorems": [
    "WebAuthn.Flask.C63_repaired_answered",
    "WebAuthn.Flask.C63_repaired_authentication_statements",
    "WebAuthn.Flask.C63_repaired_login",
    "WebAuthn.Flask.C63_repaired_fresh_challenge",
    "WebAuthn.Flask.C63_repaired_registration_scope",
    "WebAuthn.Flask.C63_repaired_authentication_scope",
    "WebAuthn.Flask.C63_repaired_registered_once",
    "WebAuthn.Flask.C63_repaired_issued_once",
    "WebAuthn.Flask.C63_repaired_counters",
    "WebAuthn.Flask.C63_repaired_distinct_counters",
    "WebAuthn.Flask.C63_repaired_no_replay",
    "WebAuthn.Flask.C63_repaired_registration",
    "WebAuthn.Flask.C63_repaired_authentication",
    "WebAuthn.Flask.C63_repaired_registration_request",
    "WebAuthn.Flask.C63_sequential",
    "WebAuthn.Flask.C63_answered",
    "WebAuthn.Flask.C63_uninterrupted",
    "WebAuthn.Flask.C63_tables",
    "WebAuthn.Flask.C63_registered_once",
    "WebAuthn.Flask.C63_issued_once",
    "WebAuthn.Flask.C63_login",
    "WebAuthn.Flask.C63_fresh_challenge",
    "WebAuthn.Flask.C63_registration_scope",
    "WebAuthn.Flask.C63_authentication_scope",
    "WebAuthn.Flask.C63_registration",
    "WebAuthn.Flask.C63_authentication",
    "WebAuthn.Flask.C63_registration_request_known",
    "WebAuthn.Flask.C63_authentication_request",
    "WebAuthn.Flask.C63_registration_request_new_partial",
    "WebAuthn.Flask.C63_registration_statements",
    "WebAuthn.Flask.C63_authentication_statements",
    "WebAuthn.Flask.C63_counters_partial",
    "WebAuthn.Flask.C63_no_replay_partial",
    "WebAuthn.Flask.C63_replay_refuted",
    "WebAuthn.Flask.C63_counters_refuted",
    "WebAuthn.Flask.C63_registration_request_refuted"
   ],
   "note": "Three parts are false of the example application and refuted by schedules: an assertion is accepted twice when both logins read the counter before either writes it, the stored counter can be set back so that an old assertion is accepted later (F21), and of two first requests for the same new user name one fails with status 500 (F20). The partial theorems say what is left: a login that reads the counter after another was answered, with no third login of this credential in between, has a larger counter; a request for a new user name succeeds if no other request for this name or with this handle overlaps. The other parts are proved in full. C63_repaired_* prove all parts of an application with two statements changed (Model/FlaskAtomic)."
  },
  {
   "property": "C64",
   "status": "proved",
   "theorems": [
    "WebAuthn.Flask.C64_outcome",
    "WebAuthn.Flask.C64_only",
    "WebAuthn.Flask.C64_consistent",
    "WebAuthn.Flask.C64_consistent_history",
    "WebAuthn.Flask.C64_reply",
    "WebAuthn.Flask.C64_reply_only"
   ],
   "note": ""
  },
  {
   "property": "C65",
   "status": "proved",
   "theorems": [
    "WebAuthn.Flask.C65_repaired",
    "WebAuthn.Flask.C65_login",
    "WebAuthn.Flask.C65_phishing",
    "WebAuthn.Flask.C65_overlapping",
    "WebAuthn.Flask.C65_overlapping_phishing"
   ],
   "note": "The cryptography enters as hypotheses about what was submitted (Spec/Phishing.Holder). C65_repaired is about the application of Model/FlaskAtomic."
  },
  {
   "property": "C66",
   "status": "partial",
   "theorems": [
    "WebAuthn.Flask.C66_owner_only_partial",
    "WebAuthn.Flask.C66_repaired",
    "WebAuthn.Flask.C66_repaired_registration",
    "WebAuthn.Flask.C66_repaired_authentication",
    "WebAuthn.Flask.C66_owner_only_refuted"
   ],
   "note": "False of the example application (F16): refuted by a run in which a stranger registers a credential under the name of another and logs in. The partial theorem covers the names under which only the owner's key was registered; the property is proved for a repaired application that refuses further registrations under a name, which is also proved to serve honest users."
  },
  {
   "property": "C67",
   "status": "partial",
   "theorems": [
    "WebAuthn.Flask.C67_repaired",
    "WebAuthn.Flask.C67_one_login_partial",
    "WebAuthn.Flask.C67_overlapping_refuted"
   ],
   "note": "False when requests overlap (F21): refuted by a schedule in which the same response succeeds twice. Proved for requests one after another, and for overlapping requests of an application that sets the counter only if it grows (Model/FlaskAtomic)."
  },
  {
   "property": "C68",
   "status": "proved",
   "theorems": [
    "WebAuthn.Props.C68_registration",
    "WebAuthn.Props.C68_authentication",
    "WebAuthn.Props.C68_parsers",
    "WebAuthn.Props.C68_attest",
    "WebAuthn.Props.C68_verify",
    "WebAuthn.Props.C68_cose_key",
    "WebAuthn.Props.C68_validate",
    "WebAuthn.Props.C68_validate_raises",
    "WebAuthn.Props.C68_setters",
    "WebAuthn.Props.C68_build",
    "WebAuthn.Props.C68_build_incomplete",
    "WebAuthn.Flask.C68_application"
   ],
   "note": "Model/Optimised is the package without assertions; the theorems compare it with the model. C68_validate and C68_build_incomplete show where assertions do matter (F22)."
  },
  {
   "property": "C69",
   "status": "proved",
   "theorems": [
    "WebAuthn.Flask.C69_approved",
    "WebAuthn.Flask.C69_phishing",
    "WebAuthn.Flask.C69_one_each",
    "WebAuthn.Flask.C69_count"
   ],
   "note": "The cryptography enters as hypotheses about what was submitted (Spec/Phishing.Holder, SentTo)."
  },
  {
   "property": "C70",
   "status": "proved",
   "theorems": [
    "WebAuthn.Flask.C70_request",
    "WebAuthn.Flask.C70_login",
    "WebAuthn.Flask.C70_overlapping"
   ],
   "note": "The cryptography enters as hypotheses about what was submitted (Spec/Phishing.Holder). The theorems assume that the authenticator data of the response were not submitted before (an attacker who has them could have used them) and that the authenticator counts."
  },
  {
   "property": "C71",
   "status": "partial",
   "theorems": [
    "WebAuthn.Props.C71_registrar",
    "WebAuthn.Props.C71_registrar_stores_nothing",
    "WebAuthn.Flask.C71_supported_partial",
    "WebAuthn.Flask.C71_repaired",
    "WebAuthn.Flask.C71_repaired_serves",
    "WebAuthn.Flask.C71_requested_refuted"
   ],
   "note": "False of the example application (F23): refuted by a run that registers a key for ES384. The partial theorem says what is left: the key is of a supported family. C71_registrar and C71_repaired prove it for registrars that check the algorithm (Model/Choosy), which are also proved to serve everybody else."
  },
  {
   "property": "C72",
   "status": "partial",
   "theorems": [
    "WebAuthn.Props.C72_family_partial",
    "WebAuthn.Props.C72_registrar",
    "WebAuthn.Props.C72_registrar_stores_nothing",
    "WebAuthn.Flask.C72_repaired",
    "WebAuthn.Flask.C72_repaired_serves",
    "WebAuthn.Flask.C72_profile_refuted"
   ],
   "note": "False of the code (F24): refuted by a key for ES384 on P-256 with a key id. The partial theorem says what is left: curve and algorithm are of the same family. Proved in full, as an equivalence, for every registrar that checks the key (Model/Choosy)."
  },
  {
   "property": "C73",
   "status": "proved",
   "theorems": [
    "WebAuthn.Flask.C73_faults",
    "WebAuthn.Flask.C73_repaired_faults",
    "WebAuthn.Flask.C73_tables",
    "WebAuthn.Flask.C73_answered",
    "WebAuthn.Flask.C73_login",
    "WebAuthn.Flask.C73_fresh_challenge",
    "WebAuthn.Flask.C73_registration_scope",
    "WebAuthn.Flask.C73_authentication_scope",
    "WebAuthn.Flask.C73_registered_once",
    "WebAuthn.Flask.C73_issued_once",
    "WebAuthn.Flask.C73_approved",
    "WebAuthn.Flask.C73_repaired_one_each",
    "WebAuthn.Flask.C73_registration",
    "WebAuthn.Flask.C73_authentication",
    "WebAuthn.Flask.C73_lockout",
    "WebAuthn.Flask.C73_registration_request_known",
    "WebAuthn.Flask.C73_repaired_registration_request"
   ],
   "note": "A simulation: the tables and the answers of requests that do not fail are those of a schedule without faults, from which the statements without effect and those of requests that have failed are left out. A request that failed after a commit may have registered, which the conclusions say (Succeeded). The theorems named C73_repaired are about the application of Model/FlaskAtomic."
  },
  {
   "property": "C74",
   "status": "proved",
   "theorems": [
    "WebAuthn.Flask.C74_atob",
    "WebAuthn.Flask.C74_creation_options",
    "WebAuthn.Flask.C74_request_options"
   ],
   "note": "Values of a kind that the application never sends (a number as challenge, an array as user) are outside the model, which takes them for failures; see Model/Page.lean."
  },
  {
   "property": "C75",
   "status": "partial",
   "theorems": [
    "WebAuthn.Props.C75_credential",
    "WebAuthn.Props.C75_credential_parsed",
    "WebAuthn.Props.C75_credential_round_trip",
    "WebAuthn.Props.C75_credential_injective",
    "WebAuthn.Props.C75_client_data",
    "WebAuthn.Props.C75_key",
    "WebAuthn.Props.C75_authenticator_data",
    "WebAuthn.Props.C75_attestation_object",
    "WebAuthn.Props.C75_all_partial",
    "WebAuthn.Props.C75_refuted",
    "WebAuthn.Props.C75_repaired",
    "WebAuthn.Props.C75_repaired_same"
   ],
   "note": "False of the code for one type: Origin, a NamedTuple, is refused with UnimplementedError (F25). Proved for every other type, each with its JSON form member by member; the round trip of credentials is proved in full. C75_repaired is the whole claim for the variant in which a named tuple is converted by its fields. The id of a token binding is taken for a text, as types.py declares it; that parse_client_data lets other values through is F7."
  },
  {
   "property": "C76",
   "status": "proved",
   "theorems": [
    "WebAuthn.Flask.C76_others_leave",
    "WebAuthn.Flask.C76_same_reply",
    "WebAuthn.Flask.C76_alike",
    "WebAuthn.Flask.C76_history",
    "WebAuthn.Flask.C76_taken"
   ],
   "note": "Proved as stated. C76_taken shows that the exception for credential ids is needed: a registration is refused when somebody else has the id. Requests that overlap are not covered (C63, C67). Assumes that cbor2 raises no exceptions but those derived from Exception."
  },
  {
   "property": "C77",
   "status": "partial",
   "theorems": [
    "WebAuthn.Flask.C77_repaired",
    "WebAuthn.Flask.C77_repaired_credentials",
    "WebAuthn.Flask.C77_repaired_logins",
    "WebAuthn.Flask.C77_repaired_registrations",
    "WebAuthn.Flask.C77_repaired_requests",
    "WebAuthn.Flask.C77_repaired_history",
    "WebAuthn.Flask.C77_login_tells",
    "WebAuthn.Flask.C77_hides_refuted",
    "WebAuthn.Flask.C77_response_tells",
    "WebAuthn.Flask.C77_registration_hides_partial"
   ],
   "note": "False of every instance of the application (C77_hides_refuted, C77_login_tells, C77_response_tells; F26). C77_registration_hides_partial is what holds of it. C77_repaired, C77_repaired_history and C77_repaired_credentials are non-interference for an application with four changes (Model/Discreet): for every database and every sequence of requests of a visitor without the keys, the replies are the same with and without the account. C77_repaired_logins, _registrations and _requests say what it still serves."
  },
  {
   "property": "C78",
   "status": "partial",
   "theorems": [
    "WebAuthn.Flask.Page.C78_truthful_partial",
    "WebAuthn.Flask.Page.C78_coherent_partial",
    "WebAuthn.Flask.Page.C78_repaired_truthful",
    "WebAuthn.Flask.Page.C78_repaired_coherent",
    "WebAuthn.Flask.Page.C78_some_success",
    "WebAuthn.Flask.Page.C78_conclusion_partial",
    "WebAuthn.Flask.Page.C78_repaired_conclusion",
    "WebAuthn.Flask.Page.C78_one_at_a_time",
    "WebAuthn.Flask.Page.C78_registration",
    "WebAuthn.Flask.Page.C78_authentication",
    "WebAuthn.Flask.Page.C78_mixed_refused",
    "WebAuthn.Flask.Page.C78_disturbed",
    "WebAuthn.Flask.PageRun.C78_truthful_refuted",
    "WebAuthn.Flask.PageRun.C78_coherent_refuted",
    "WebAuthn.Flask.Page.C78_clicked_told",
    "WebAuthn.Flask.Page.C78_clicked_form",
    "WebAuthn.Flask.Page.C78_texts"
   ],
   "note": "False of the code when a button is clicked again before its first flow is over: the flows share global variables, so the page tells that the user named in the second click is registered or authorized when the response of the first is accepted, and submits credentials with the challenge of another flow (F27; such a form is refused). Proved under the condition that no flow reads its reply while another of the same button is using the variables, which holds if each button is clicked only when its flows are over; proved of all executions for flows with variables of their own (repaired). Liveness for honest users after any history. C78_clicked_told and C78_clicked_form hold of the code as it is, however flows overlap: the names told and submitted were clicked. C78_texts: whatever the page shows is one of its texts for a name that was clicked."
  },
  {
   "property": "C79",
   "status": "partial",
   "theorems": [
    "WebAuthn.Props.C79_types_partial",
    "WebAuthn.Props.C79_repaired_exact",
    "WebAuthn.Props.C79_repaired",
    "WebAuthn.Props.C79_refuted",
    "WebAuthn.Demo.C79_location_refuted"
   ],
   "note": "False of the code: parse_extensions checks the types of the outputs but not their values, so that a login whose location is empty is accepted by a Relying Party that expects locations (F28). Proved: outputs are accepted exactly if the types are as documented; the repaired parser accepts exactly the documented outputs and refuses all others with ParserError."
  },
  {
   "property": "C80",
   "status": "partial",
   "theorems": [
    "WebAuthn.Props.C80_appid_refused",
    "WebAuthn.Props.C80_appid_given_partial",
    "WebAuthn.Props.C80_repaired_expected",
    "WebAuthn.Props.C80_repaired_accepted",
    "WebAuthn.Props.C80_repaired_conservative",
    "WebAuthn.Demo.C80_refuted"
   ],
   "note": "False of the code: the output appid is read and never used, so that logins for the AppID are refused and logins that claim to have used it are accepted with the hash of the RP id (F29). Proved: such a login is refused with RPIDHashError; a Relying Party can log the user in by passing the AppID as its id; the repaired function does as documented and is the function of the code on all other logins."
  },
  {
   "property": "C81",
   "status": "proved",
   "theorems": [
    "WebAuthn.Flask.C81_login",
    "WebAuthn.Flask.C81_served"
   ],
   "note": "The draws are uniform and independent by assumption; the strategy is deterministic, so a random one is covered for every outcome of its own coins. Unforgeability and collision freedom enter as in C65. For some draws the events happen (Props/RandomDemo.lean), so neither bound can be zero."
  },
  {
   "property": "C82",
   "status": "partial",
   "theorems": [
    "WebAuthn.Props.C82_login_above",
    "WebAuthn.Flask.C82_after_partial",
    "WebAuthn.Flask.C82_repaired_registrar",
    "WebAuthn.Flask.C82_repaired",
    "WebAuthn.Flask.Run.C82_refuted",
    "WebAuthn.Flask.C82_repaired_serves"
   ],
   "note": "False of the example application (C82_refuted): it forgets the counter of the registration (F30). C82_after_partial is what holds of it. C82_login_above is the library's part, proved for every registrar that stores the counter; C82_repaired and C82_repaired_serves are about the application with the line changed."
  },
  {
   "property": "C83",
   "status": "partial",
   "theorems": [
    "WebAuthn.Props.C83_algorithm",
    "WebAuthn.Props.C83_use_partial",
    "WebAuthn.Props.C83_registered_partial",
    "WebAuthn.Props.C83_repaired",
    "WebAuthn.Props.C83_repaired_exact",
    "WebAuthn.Props.C83_refuted"
   ],
   "note": "False of the library (C83_refuted): it verifies with a key whose key_ops permit only to sign (F31). C83_algorithm, C83_use_partial and C83_registered_partial are what holds of it. C83_repaired and C83_repaired_exact are about every registrar with a filter in front of it."
  },
  {
   "property": "C84",
   "status": "proved",
   "theorems": [
    "WebAuthn.Flask.C84_guarantees",
    "WebAuthn.Flask.C84_single_use",
    "WebAuthn.Flask.C84_user_bound",
    "WebAuthn.Flask.C84_owner_only",
    "WebAuthn.Flask.C84_attested_id",
    "WebAuthn.Flask.C84_good_key",
    "WebAuthn.Flask.C84_long_id",
    "WebAuthn.Flask.C84_counter_above",
    "WebAuthn.Flask.C84_strong",
    "WebAuthn.Flask.C84_registration",
    "WebAuthn.Flask.C84_login",
    "WebAuthn.Flask.C84_requests",
    "WebAuthn.Flask.C84_no_guards"
   ],
   "note": "About the application behind checks that are not in the repository (Model/Guards); with no checks it is the application itself (C84_no_guards). C84_guarantees is for arbitrary checks, C84_single_use to C84_counter_above for each check among arbitrary others, C84_strong for all, C84_registration, C84_login and C84_requests say that honest users are served. Requests are served one after another."
  },
  {
   "property": "C85",
   "status": "proved",
   "theorems": [
    "WebAuthn.Flask.C85_transfer",
    "WebAuthn.Flask.C85_linearizable",
    "WebAuthn.Flask.C85_safe",
    "WebAuthn.Flask.C85_registration",
    "WebAuthn.Flask.C85_login",
    "WebAuthn.Flask.C85_answered",
    "WebAuthn.Flask.C85_lock_needed"
   ],
   "note": "About the application behind a lock, transactions and checks that are not in the repository (Model/Locked). C85_linearizable is for arbitrary checks; C85_transfer says that the guarantees follow from it for any way of answering, C85_safe is the instance; C85_registration and C85_login say that honest users are served, C85_answered that requests that are not cut off are answered; C85_lock_needed that the application without the lock is not linearizable. A commit happens at once."
  },
  {
   "property": "C86",
   "status": "partial",
   "theorems": [
    "WebAuthn.Props.C86_separate_partial",
    "WebAuthn.Props.C86_repaired_others",
    "WebAuthn.Props.C86_repaired_u2f",
    "WebAuthn.Props.C86_repaired_same",
    "WebAuthn.Props.C86_repaired_raises",
    "WebAuthn.Props.C86_repaired_separate",
    "WebAuthn.Props.C86_separate_refuted"
   ],
   "note": "False of the code (C86_separate_refuted): a FIDO U2F statement about a key on P-256 is also accepted for a key on P-384 with a shorter id, since the lengths of the coordinates are not checked. C86_separate_partial is the claim for all other pairs: logins, Android key statements, and FIDO U2F statements about keys whose first coordinates have the same length. C86_repaired_separate is the claim for a variant that checks the lengths (Model/RepairedU2F), which otherwise accepts the same (C86_repaired_u2f)."
  },
  {
   "property": "C87",
   "status": "proved",
   "theorems": [
    "WebAuthn.Props.C87_login_looser",
    "WebAuthn.Props.C87_registration_looser",
    "WebAuthn.Props.C87_login_origins",
    "WebAuthn.Props.C87_registration_origins",
    "WebAuthn.Props.C87_login_extensions",
    "WebAuthn.Props.C87_registration_extensions",
    "WebAuthn.Props.C87_login_verification",
    "WebAuthn.Props.C87_registration_verification",
    "WebAuthn.Props.C87_registration_same",
    "WebAuthn.Props.C87_login_same"
   ],
   "note": "C87_login_looser and C87_registration_looser are about loosening, the …_origins, …_extensions and …_verification theorems about parts, the …_same theorems about order and repetition, including the exception. These need usable expectations: with malformed origins in a set the exception depends on the order (F34). Registrations are as C18_registration_accepts_exactly_partial describes them, with none statements."
  },
  {
   "property": "C88",
   "status": "proved",
   "theorems": [
    "WebAuthn.Props.C88_login_recorded",
    "WebAuthn.Props.C88_login_effect",
    "WebAuthn.Props.C88_login_exact",
    "WebAuthn.Props.C88_login_names",
    "WebAuthn.Props.C88_registration_names",
    "WebAuthn.Flask.C88_app_effect",
    "WebAuthn.Flask.C88_app_names"
   ],
   "note": "C88_login_recorded is for every registrar; C88_login_effect and C88_login_exact for registrars that do not look at the unsigned parts, C88_login_names and C88_registration_names for those that look neither at the id text nor at the type; the registrar of the example application is both (C88_app_effect, C88_app_names)."
  },
  {
   "property": "C89",
   "status": "proved",
   "theorems": [
    "WebAuthn.Props.C89_registration_exact",
    "WebAuthn.Props.C89_login_exact",
    "WebAuthn.Props.C89_registration_kept",
    "WebAuthn.Props.C89_registration_only",
    "WebAuthn.Props.C89_login_kept",
    "WebAuthn.Props.C89_login_only",
    "WebAuthn.Props.C89_registered_usable",
    "WebAuthn.Props.C89_attested_stored",
    "WebAuthn.Props.C89_separate",
    "WebAuthn.Props.C89_registration_refused",
    "WebAuthn.Props.C89_login_refused"
   ],
   "note": "About a model of a backend that is not in the repository: the handlers of CredentialsBackend with all repairs of the package (Model/Whole). C89_registration_exact and C89_login_exact characterise it; the …_kept and …_only theorems compare it with the code; the rest is that the repairs do not get in each other's way."
  },
  {
   "property": "C90",
   "status": "partial",
   "theorems": [
    "WebAuthn.Props.C90_trust_path_partial",
    "WebAuthn.Props.C90_fido_u2f",
    "WebAuthn.Props.C90_rest_ignored",
    "WebAuthn.Props.C90_repaired_trust_path",
    "WebAuthn.Props.C90_repaired_extends",
    "WebAuthn.Props.C90_repaired_others",
    "WebAuthn.Props.C90_trust_path_refuted"
   ],
   "note": "False of the code: attest_android_key returns the first certificate only, and does not read the others (C90_trust_path_refuted, C90_rest_ignored). C90_trust_path_partial and C90_fido_u2f are what holds; C90_repaired_… hold of a variant that returns the chain (Model/RepairedAndroid)."
  },
  {
   "property": "C91",
   "status": "partial",
   "theorems": [
    "WebAuthn.Props.C91_repaired_exact",
    "WebAuthn.Props.C91_android_partial",
    "WebAuthn.Props.C91_repaired_algorithm",
    "WebAuthn.Props.C91_repaired_purpose",
    "WebAuthn.Props.C91_repaired_bytes",
    "WebAuthn.Props.C91_algorithm_refuted",
    "WebAuthn.Props.C91_purpose_refuted"
   ],
   "note": "False of the code: the algorithm is not looked at with Edwards keys, and purposes beside signing are let through (C91_…_refuted). C91_android_partial is what holds; C91_repaired_exact and C91_repaired_bytes characterise a variant that does as the standard says (Model/RepairedAndroid)."
  },
  {
   "property": "C92",
   "status": "partial",
   "theorems": [
    "WebAuthn.Props.C92_client_data_partial",
    "WebAuthn.Props.C92_marked_refused",
    "WebAuthn.Props.C92_registration_refused",
    "WebAuthn.Props.C92_login_refused",
    "WebAuthn.Props.C92_repaired_exact",
    "WebAuthn.Props.C92_repaired_mark",
    "WebAuthn.Props.C92_repaired_kept",
    "WebAuthn.Props.Demo.C92_client_data_refuted"
   ],
   "note": "False of the code: client data with a byte order mark are refused (C92_client_data_refuted, C92_marked_refused). C92_client_data_partial is what holds; C92_repaired_exact holds of a variant with the codec 'utf-8-sig' (Model/RepairedClient), which is part of the repaired package of C89. Decoding of ill-formed UTF-8 with replacement characters is not part of the claim."
  },
  {
   "property": "C93",
   "status": "partial",
   "theorems": [
    "WebAuthn.Flask.C93_allowed",
    "WebAuthn.Flask.C93_login_partial",
    "WebAuthn.Flask.C93_options",
    "WebAuthn.Flask.C93_refuted",
    "WebAuthn.Flask.C93_repaired",
    "WebAuthn.Flask.C93_repaired_restricted",
    "WebAuthn.Flask.C93_repaired_told",
    "WebAuthn.Flask.C93_repaired_traceless",
    "WebAuthn.Flask.C93_repaired_serves"
   ],
   "note": "False of the code: the list of credentials is compared with None, which it never is (C93_refuted, for every instance of the application). C93_allowed says what the options allow, and C93_login_partial that nobody logs in without a credential all the same. The C93_repaired theorems hold with a check for the empty list (Model/SomeCredential), also together with the checks of C84."
  },
  {
   "property": "C94",
   "status": "proved",
   "theorems": [
    "WebAuthn.Flask.C94_creation",
    "WebAuthn.Flask.C94_request"
   ],
   "note": "Assumes that the random bytes are 64 each, as asked for of secrets.token_bytes (Drawn). TakesCreation and TakesRequest are read off Web Authentication 5.1.3, 5.1.4.1, 5.4, 5.5, 5.8.3; ids of the Relying Party that are proper suffixes of the host are left out."
  },
  {
   "property": "C95",
   "status": "partial",
   "theorems": [
    "WebAuthn.Flask.C95_growth_partial",
    "WebAuthn.Flask.C95_refuted",
    "WebAuthn.Flask.C95_repaired",
    "WebAuthn.Flask.C95_repaired_few",
    "WebAuthn.Flask.C95_repaired_replies",
    "WebAuthn.Flask.C95_repaired_success",
    "WebAuthn.Flask.C95_repaired_rows"
   ],
   "note": "False of the code: challenges are never deleted, so mere requests make it keep any number of stale ones (C95_refuted, for every instance of the application and every number). C95_growth_partial bounds them by the requests. The C95_repaired theorems hold with a deletion of stale challenges before each request (Model/Swept); requests are then answered as before (but for the text of the refusal of a stale challenge), if the clock does not go backwards and bytes are not drawn again."
  },
  {
   "property": "C96",
   "status": "proved",
   "theorems": [
    "WebAuthn.Flask.C96_code",
    "WebAuthn.Flask.C96_repaired",
    "WebAuthn.Flask.C96_same",
    "WebAuthn.Flask.C96_guarantees",
    "WebAuthn.Flask.C96_strong",
    "WebAuthn.Flask.C96_fixed",
    "WebAuthn.Flask.C96_registration",
    "WebAuthn.Flask.C96_login",
    "WebAuthn.Flask.C96_requests"
   ],
   "note": "C96_guarantees: from the contract; C96_code: the package has it; C96_same: with it, the application on a package is the modelled application. C96_strong and C96_repaired: the same for the strict contract and the package with all repairs (Model/Whole); C96_registration, C96_login and C96_requests: honest users are served, with attestation in any format."
  },
  {
   "property": "C97",
   "status": "proved",
   "theorems": [
    "WebAuthn.Flask.C97_guarantees",
    "WebAuthn.Flask.C97_strong",
    "WebAuthn.Flask.C97_code_serves",
    "WebAuthn.Flask.C97_repaired_serves",
    "WebAuthn.Flask.C97_registration",
    "WebAuthn.Flask.C97_login",
    "WebAuthn.Flask.C97_requests",
    "WebAuthn.Flask.C97_registers"
   ],
   "note": "C97_guarantees and C97_strong: over any versions with the contract. C97_code_serves and C97_repaired_serves: which packages serve honest users; C97_registration, C97_login and C97_requests: they are served while such a package is installed. C97_registers: what a strict package registers, whatever was installed before."
  },
  {
   "property": "C98",
   "status": "partial",
   "theorems": [
    "WebAuthn.Flask.C98_same",
    "WebAuthn.Flask.C98_exact",
    "WebAuthn.Flask.C98_contract",
    "WebAuthn.Flask.C98_strict_contract",
    "WebAuthn.Flask.C98_serves",
    "WebAuthn.Flask.C98_locked_out",
    "WebAuthn.Flask.C98_locked_out_app",
    "WebAuthn.Flask.C98_login",
    "WebAuthn.Flask.C98_counterless",
    "WebAuthn.Flask.C98_guarantees",
    "WebAuthn.Flask.C98_strong",
    "WebAuthn.Flask.C98_counters",
    "WebAuthn.Flask.Run.C98_counterless_refuted",
    "WebAuthn.Flask.Run.C98_alone_refuted"
   ],
   "note": "Partial, because the code is wrong: C98_counterless_refuted: the application does not serve holders of authenticators without a counter; C98_locked_out and C98_locked_out_app: whoever logged in with zero never does so again, with any packages that have the contract of C96. Missing of the code: the whole claim; it is proved with `if registered_sign_count:` in backends.py 432: C98_exact and C98_same (what that accepts), C98_contract, C98_strict_contract and C98_serves (for any package), C98_login and C98_counterless (who is served), C98_guarantees, C98_strong and C98_counters. C98_alone_refuted: without single use of challenges one approval is then good for two logins."
  },
  {
   "property": "C99",
   "status": "proved",
   "theorems": [
    "WebAuthn.Flask.C99_whole",
    "WebAuthn.Flask.C99_suffices",
    "WebAuthn.Flask.Run.Needed.C99_counter",
    "WebAuthn.Flask.Run.Needed.C99_known",
    "WebAuthn.Flask.Run.Needed.C99_authData",
    "WebAuthn.Flask.Run.Needed.C99_updated",
    "WebAuthn.Flask.Run.Needed.C99_notUpdated",
    "WebAuthn.Flask.Run.Needed.C99_stored",
    "WebAuthn.Flask.Run.Needed.C99_notStored",
    "WebAuthn.Flask.Run.Needed.C99_object",
    "WebAuthn.Flask.Run.Needed.C99_attestation",
    "WebAuthn.Flask.Run.Needed.C99_createData",
    "WebAuthn.Flask.Run.Needed.C99_createType",
    "WebAuthn.Flask.Run.Needed.C99_createChallenge",
    "WebAuthn.Flask.Run.Needed.C99_createOrigin",
    "WebAuthn.Flask.Run.Needed.C99_assertion",
    "WebAuthn.Flask.Run.Needed.C99_getData",
    "WebAuthn.Flask.Run.Needed.C99_getType",
    "WebAuthn.Flask.Run.Needed.C99_getChallenge",
    "WebAuthn.Flask.Run.Needed.C99_getOrigin",
    "WebAuthn.Flask.Run.Needed.C99_user",
    "WebAuthn.Flask.Run.Needed.C99_signed",
    "WebAuthn.Flask.Run.Needed.C99_rp",
    "WebAuthn.Flask.Run.Needed.C99_rpHash",
    "WebAuthn.Flask.Run.Needed.C99_present",
    "WebAuthn.Flask.Run.Needed.C99_needed",
    "WebAuthn.Flask.Run.Needed.C99_exactly"
   ],
   "note": "C99_exactly: the sets of parts that give the guarantees; C99_whole: all parts are the contract of C96, C99_suffices: they give the guarantees; C99_needed: none can be left out, with a package and a history for each (C99_counter, C99_signed, …)."
  },
  {
   "property": "C100",
   "status": "proved",
   "theorems": [
    "WebAuthn.Flask.C100_registration",
    "WebAuthn.Flask.C100_login",
    "WebAuthn.Flask.C100_requests",
    "WebAuthn.Flask.C100_each",
    "WebAuthn.Flask.C100_enough",
    "WebAuthn.Flask.C100_each_exactly",
    "WebAuthn.Flask.C100_exactly"
   ],
   "note": "C100_each_exactly: each property holds exactly behind the lists with its check; C100_exactly: all seven hold exactly behind the lists with all seven; C100_registration, C100_login, C100_requests: what is accepted behind a list."
  },
  {
   "property": "C101",
   "status": "partial",
   "theorems": [
    "WebAuthn.Flask.C101_as_if",
    "WebAuthn.Flask.C101_registered",
    "WebAuthn.Flask.C101_fresh",
    "WebAuthn.Flask.C101_once",
    "WebAuthn.Flask.C101_increasing",
    "WebAuthn.Flask.C101_approved",
    "WebAuthn.Flask.C101_one_login_partial",
    "WebAuthn.Flask.C101_one_login_refuted",
    "WebAuthn.Flask.C101_marked_one_login",
    "WebAuthn.Flask.C101_marked_as_if",
    "WebAuthn.Flask.C101_marked_refused"
   ],
   "note": "C101_as_if and what follows from it hold for every sequence of restorations. One approval for one login is refuted when copies may be put back at any time (C101_one_login_refuted); C101_one_login_partial proves it when nobody logs in until the challenges in the copy are stale (Settled). C101_marked_one_login proves it for every sequence of restorations with a check that refuses challenges from before the last one; C101_marked_as_if and C101_marked_refused say what that check does."
  },
  {
   "property": "C102",
   "status": "proved",
   "theorems": [
    "WebAuthn.Props.C102_chosen",
    "WebAuthn.Props.C102_one_report_registration",
    "WebAuthn.Props.C102_one_report_authentication",
    "WebAuthn.Demo.C102_instance_unknown",
    "WebAuthn.Demo.C102_instance_offered",
    "WebAuthn.Demo.C102_instance_authentication",
    "WebAuthn.Demo.C102_instance_refused",
    "WebAuthn.Demo.C102_connection_alone",
    "WebAuthn.Flask.C102_application_registration",
    "WebAuthn.Flask.C102_application_authentication"
   ],
   "note": "C102_chosen is the equivalence for callers that read the client data first (chosenBinding, not code of the repository); C102_one_report_registration and C102_one_report_authentication that the library takes one report per argument; C102_connection_alone that no argument found from the connection alone serves all right clients; C102_application_registration and C102_application_authentication what this means for the example application."
  },
  {
   "property": "C103",
   "status": "proved",
   "theorems": [
    "WebAuthn.Flask.C103_names_only",
    "WebAuthn.Flask.C103_handles",
    "WebAuthn.Flask.C103_accepted",
    "WebAuthn.Flask.C103_drawn",
    "WebAuthn.Flask.Run.C103_instance_login",
    "WebAuthn.Flask.Run.C103_instance_handles",
    "WebAuthn.Flask.Run.C103_injective_needed"
   ],
   "note": "C103_names_only is the whole; C103_handles, C103_accepted and C103_drawn say what it means; C103_injective_needed that names must not be merged."
  },
  {
   "property": "C104",
   "status": "partial",
   "theorems": [
    "WebAuthn.Flask.C104_ages_only",
    "WebAuthn.Flask.C104_ahead",
    "WebAuthn.Flask.C104_earlier",
    "WebAuthn.Flask.C104_stays_old_partial",
    "WebAuthn.Flask.Run.C104_instance_slow",
    "WebAuthn.Flask.Run.C104_instance_agreeing",
    "WebAuthn.Flask.Run.C104_instance_earlier",
    "WebAuthn.Flask.Run.C104_instance_late",
    "WebAuthn.Flask.Run.C104_set_back_refuted",
    "WebAuthn.Flask.Run.C104_instance_expired",
    "WebAuthn.Flask.C104_expired",
    "WebAuthn.Flask.C104_expired_forward"
   ],
   "note": "C104_ages_only, C104_ahead and C104_earlier hold of the code. That what was found too old stays so holds while the clock goes forward (C104_stays_old_partial) and is false when it is set back (C104_set_back_refuted): time.time() is not monotonic. With a column in which the expiry is written down it holds by any clock (C104_expired), and nothing else changes (C104_expired_forward)."
  },
  {
   "property": "C105",
   "status": "proved",
   "theorems": [
    "WebAuthn.Flask.C105_one_route",
    "WebAuthn.Flask.C105_total",
    "WebAuthn.Flask.C105_onto",
    "WebAuthn.Flask.C105_misdirected",
    "WebAuthn.Flask.C105_no_confusion",
    "WebAuthn.Flask.Run.C105_instance_login",
    "WebAuthn.Flask.Run.C105_instance_misdirected",
    "WebAuthn.Flask.Run.C105_instance_no_confusion"
   ],
   "note": "The one route (Model/OneRoute.lean) is not code of the repository; C105_misdirected and C105_no_confusion are about the code."
  },
  {
   "property": "C106",
   "status": "proved",
   "theorems": [
    "WebAuthn.Flask.C106_noticed",
    "WebAuthn.Flask.C106_application",
    "WebAuthn.Flask.C106_guarded",
    "WebAuthn.Flask.C106_package",
    "WebAuthn.Flask.C106_one_copy",
    "WebAuthn.Flask.Run.C106_instance",
    "WebAuthn.Flask.Run.C106_instance_one_copy",
    "WebAuthn.Flask.Run.C106_elsewhere",
    "WebAuthn.Props.C106_reported",
    "WebAuthn.Props.C106_reported_only",
    "WebAuthn.Props.Fail.C106_instance_reported"
   ],
   "note": "The application answers a copy as any refused login (C64); only the backend tells the difference (C106_reported). C106_elsewhere shows that the condition on the counters is needed."
  },
  {
   "property": "C107",
   "status": "partial",
   "theorems": [
    "WebAuthn.Flask.C107_as_if",
    "WebAuthn.Flask.C107_others",
    "WebAuthn.Flask.C107_registered",
    "WebAuthn.Flask.C107_gone_partial",
    "WebAuthn.Flask.C107_fresh",
    "WebAuthn.Flask.C107_increasing",
    "WebAuthn.Flask.C107_one_login_partial",
    "WebAuthn.Flask.C107_barred_refused",
    "WebAuthn.Flask.C107_barred_others",
    "WebAuthn.Flask.C107_barred_gone",
    "WebAuthn.Flask.C107_barred_registers",
    "WebAuthn.Flask.C107_barred_registered",
    "WebAuthn.Flask.C107_barred_fresh",
    "WebAuthn.Flask.C107_barred_one_login",
    "WebAuthn.Flask.C107_gone_refuted",
    "WebAuthn.Flask.C107_one_login_refuted",
    "WebAuthn.Flask.Run.C107_instance",
    "WebAuthn.Flask.Run.C107_instance_barred"
   ],
   "note": "C107_gone_refuted and C107_one_login_refuted: a deleted credential may be registered again. C107_gone_partial and C107_one_login_partial hold where it is not; C107_barred_gone and C107_barred_one_login hold fully of the repaired variant."
  },
  {
   "property": "C108",
   "status": "partial",
   "theorems": [
    "WebAuthn.Flask.C108_same",
    "WebAuthn.Flask.C108_account_registered",
    "WebAuthn.Flask.C108_account_gone",
    "WebAuthn.Flask.C108_partial",
    "WebAuthn.Flask.C108_account_fresh",
    "WebAuthn.Flask.C108_user_fresh",
    "WebAuthn.Flask.C108_refuted",
    "WebAuthn.Flask.Run.C108_instance_partial",
    "WebAuthn.Flask.Run.C108_instance",
    "WebAuthn.Flask.Run.C108_instance_served",
    "WebAuthn.Flask.Run.C108_instance_name",
    "WebAuthn.Flask.Run.C108_instance_repaired",
    "WebAuthn.Flask.C108_account_name",
    "WebAuthn.Flask.C108_user_name",
    "WebAuthn.Flask.C108_account_served",
    "WebAuthn.Flask.C108_repaired",
    "WebAuthn.Flask.C108_repaired_same"
   ],
   "note": "C108_refuted: with only the row of the user deleted, whoever has a credential of the account may log in to the one that is made next; C108_partial says what remains. With the rows that refer to it deleted too C108_account_registered, C108_account_gone, C108_account_fresh and C108_account_served hold fully. C108_repaired holds where only the row of the user is deleted and keys are not used again (Model/AutoKeys). Deleting accounts is not in the repository; the keys are those of SQLite without AUTOINCREMENT."
  },
  {
   "property": "C109",
   "status": "partial",
   "theorems": [
    "WebAuthn.Flask.C109_as_if",
    "WebAuthn.Flask.C109_registered",
    "WebAuthn.Flask.C109_fresh",
    "WebAuthn.Flask.C109_one_login",
    "WebAuthn.Flask.C109_killed",
    "WebAuthn.Flask.C109_stopped",
    "WebAuthn.Flask.C109_disturbed",
    "WebAuthn.Flask.C109_partial",
    "WebAuthn.Flask.C109_careful",
    "WebAuthn.Flask.Run.C109_instance_killed",
    "WebAuthn.Flask.Run.C109_instance_stopped",
    "WebAuthn.Flask.Run.C109_instance_disturbed",
    "WebAuthn.Flask.Run.C109_instance_partial",
    "WebAuthn.Flask.Run.C109_instance_careful",
    "WebAuthn.Flask.Run.C109_instance_as_if",
    "WebAuthn.Flask.Run.C109_instance_registered",
    "WebAuthn.Flask.Run.C109_instance_before",
    "WebAuthn.Flask.Run.C109_instance_after",
    "WebAuthn.Flask.Run.C109_instance_one_login",
    "WebAuthn.Flask.C109_refuted",
    "WebAuthn.Flask.C109_redrawn_refuted"
   ],
   "note": "C109_refuted: the second process cannot bind the port and removes the file with the tables in its finally clause; C109_disturbed says what follows. C109_careful: where it leaves the file alone it makes no difference. C109_redrawn_refuted: that no challenge is drawn again is needed in C109_one_login. Processes are started and stopped between requests; that the serving process sees the file removed is the NullPool of SQLAlchemy before 2.0."
  },
  {
   "property": "C110",
   "status": "partial",
   "theorems": [
    "WebAuthn.Flask.C110_as_if",
    "WebAuthn.Flask.C110_received",
    "WebAuthn.Flask.C110_tables",
    "WebAuthn.Flask.C110_login",
    "WebAuthn.Flask.C110_fresh",
    "WebAuthn.Flask.C110_registered_once",
    "WebAuthn.Flask.C110_repaired_one_each",
    "WebAuthn.Flask.C110_goes_on",
    "WebAuthn.Flask.C110_partial",
    "WebAuthn.Flask.C110_refuted",
    "WebAuthn.Flask.C110_answered_refuted"
   ],
   "note": "C110_partial: no trace for a request cut off before it writes; missing: one cut off between its commit and its reply, of which NoTrace is false (C110_refuted: a user and a challenge are stored; C110_answered_refuted: a credential is stored and good for logins though its registration was never answered). The commit and the reply are separate steps, a kill at a commit is one before or after it."
  },
  {
   "property": "C111",
   "status": "partial",
   "theorems": [
    "WebAuthn.Flask.C111_tables",
    "WebAuthn.Flask.C111_others",
    "WebAuthn.Flask.C111_success",
    "WebAuthn.Flask.C111_repaired",
    "WebAuthn.Flask.C111_registered",
    "WebAuthn.Flask.C111_login",
    "WebAuthn.Flask.C111_never",
    "WebAuthn.Flask.C111_refuted",
    "WebAuthn.Flask.C111_after_kill"
   ],
   "note": "C111_never and C111_refuted: the application never answers a registration with success again. C111_repaired is the full claim for the variant in Model/Retry, C111_tables, C111_others, C111_registered and C111_login say that nothing else changes. C111_after_kill is about a process of C110: until the kill the statements are those of the application, whose tables the variant shares."
  },
  {
   "property": "C112",
   "status": "proved",
   "theorems": [
    "WebAuthn.Flask.C112_order",
    "WebAuthn.Flask.C112_alone",
    "WebAuthn.Flask.C112_any_order",
    "WebAuthn.Flask.Run.C112_credentials_needed",
    "WebAuthn.Flask.Run.C112_response_needed",
    "WebAuthn.Flask.Run.C112_issued_needed",
    "WebAuthn.Flask.Run.C112_names_needed"
   ],
   "note": "C112_order for two requests, C112_any_order for any number, C112_alone for one. C112_credentials_needed, C112_response_needed, C112_issued_needed and C112_names_needed: without the conditions the claim is false."
  },
  {
   "property": "C113",
   "status": "partial",
   "theorems": [
    "WebAuthn.Flask.C113_repaired",
    "WebAuthn.Flask.C113_same_run",
    "WebAuthn.Flask.C113_same",
    "WebAuthn.Flask.C113_partial",
    "WebAuthn.Flask.C113_replay",
    "WebAuthn.Flask.C113_refuted"
   ],
   "note": "C113_refuted, for every instance of the application: a registration that draws a challenge which was issued before is refused and its user stays. C113_partial: where no challenge is drawn again (C81: all but certain) nothing is left. C113_repaired is the full claim for the variant in Model/Together, which is the application where no challenge is drawn again (C113_same_run, C113_same); C113_replay: its log is served again."
  },
  {
   "property": "C114",
   "status": "proved",
   "theorems": [
    "WebAuthn.Flask.C114_counters",
    "WebAuthn.Flask.C114_users",
    "WebAuthn.Flask.C114_books",
    "WebAuthn.Flask.C114_determined"
   ],
   "note": "C114_books; C114_users and C114_counters are parts of it. C114_determined: the specification leaves nothing open but the order of challenges and credentials."
  },
  {
   "property": "C115",
   "status": "proved",
   "theorems": [
    "WebAuthn.Flask.C115_registration",
    "WebAuthn.Flask.C115_login"
   ],
   "note": "C115_registration and C115_login. The challenge may have been issued to anyone and the credential registered by anyone, as the code has it (F8, F16): the ceremony compares the owner of the credential with the user."
  },
  {
   "property": "C116",
   "status": "proved",
   "theorems": [
    "WebAuthn.Flask.C116_reply",
    "WebAuthn.Flask.C116_only",
    "WebAuthn.Flask.C116_iff"
   ],
   "note": "C116_reply: the reply is an Answer. C116_only: an Answer is the reply, up to the order of the members of options. C116_iff: exactly the reply where it is no options. No rule of Answer mentions the tables; it extends C115 from successes to all replies."
  },
  {
   "property": "C117",
   "status": "proved",
   "theorems": [
    "WebAuthn.Flask.C117_facts",
    "WebAuthn.Flask.C117_future",
    "WebAuthn.Flask.C117_stays",
    "WebAuthn.Flask.C117_forgets"
   ],
   "note": "C117_facts is the equivalence, C117_future and C117_stays follow. C117_forgets is the instance for logins. That different facts are also told apart by some reply is not claimed: it depends on what the environment can decode."
  },
  {
   "property": "C118",
   "status": "proved",
   "theorems": [
    "WebAuthn.Flask.C118_logins",
    "WebAuthn.Flask.C118_others",
    "WebAuthn.Flask.C118_success",
    "WebAuthn.Flask.C118_forgets"
   ],
   "note": "C118_logins, C118_others and C118_success. C118_forgets is C117_forgets without its last hypothesis. The converse of C118_logins is false, as it must be (LeftoutDemo)."
  }
 ]
}