{
 "claims": [
  {
   "property": "C01",
   "status": "proved",
   "theorems": [
    "Ntlm.Props.C01_negotiate_roundtrip",
    "Ntlm.Props.C01_negotiate_injective"
   ],
   "note": "exact condition, both directions"
  },
  {
   "property": "C02",
   "status": "proved",
   "theorems": [
    "Ntlm.Props.C02_challenge_roundtrip",
    "Ntlm.Props.C02_challenge_injective"
   ],
   "note": "exact condition, both directions, every build configuration"
  },
  {
   "property": "C03",
   "status": "proved",
   "theorems": [
    "Ntlm.Props.C03_authenticate_roundtrip",
    "Ntlm.Props.C03_authenticate_injective"
   ],
   "note": "exact condition, both directions"
  },
  {
   "property": "C04",
   "status": "proved",
   "theorems": [
    "Ntlm.Props.C04_append_only",
    "Ntlm.Props.C04_append_only_vec",
    "Ntlm.Props.C04_serialize"
   ],
   "note": "all wire types of the crate, and vectors of any of them"
  },
  {
   "property": "C05",
   "status": "proved",
   "theorems": [
    "Ntlm.Props.C05_negotiate_layout",
    "Ntlm.Props.C05_challenge_layout",
    "Ntlm.Props.C05_authenticate_layout"
   ],
   "note": "all three messages"
  },
  {
   "property": "C06",
   "status": "proved",
   "theorems": [
    "Ntlm.Props.C06_negotiate_fails_iff",
    "Ntlm.Props.C06_challenge_fails_iff",
    "Ntlm.Props.C06_challenge_failure_kind",
    "Ntlm.Props.C06_authenticate_fails_iff",
    "Ntlm.Props.C06_authenticate_failure_kind"
   ],
   "note": "exact condition and kind of failure"
  },
  {
   "property": "C07",
   "status": "partial",
   "theorems": [
    "Ntlm.Props.C07_negotiate_panics_iff",
    "Ntlm.Props.C07_challenge_panics_iff",
    "Ntlm.Props.C07_authenticate_panics_iff",
    "Ntlm.Props.C07_in_range_partial",
    "Ntlm.Props.C07_refuted"
   ],
   "note": "the full property is false (C07_refuted); the exact set of aborting inputs is proved for all three messages, and absence of aborts for in-range descriptors in release builds"
  },
  {
   "property": "C08",
   "status": "proved",
   "theorems": [
    "Ntlm.Props.C08_wrong_header",
    "Ntlm.Props.C08_one_type"
   ],
   "note": "all three messages"
  },
  {
   "property": "C09",
   "status": "proved",
   "theorems": [
    "Ntlm.Props.C09_longest_plain_prefix",
    "Ntlm.Props.C09_roundtrip_iff",
    "Ntlm.Props.C09_total"
   ],
   "note": "every byte string"
  },
  {
   "property": "C10",
   "status": "proved",
   "theorems": [
    "Ntlm.Props.C10_roundtrip",
    "Ntlm.Props.C10_accepts_iff"
   ],
   "note": "both directions"
  },
  {
   "property": "C11",
   "status": "proved",
   "theorems": [
    "Ntlm.Props.C11_avpairs_roundtrip",
    "Ntlm.Props.C11_avpairs_encodable"
   ],
   "note": "any list of pairs"
  },
  {
   "property": "C12",
   "status": "proved",
   "theorems": [
    "Ntlm.Props.C12_pair_framing",
    "Ntlm.Props.C12_pair_iff",
    "Ntlm.Props.C12_pair_error_iff",
    "Ntlm.Props.C12_pair_refused",
    "Ntlm.Props.C12_list_walk",
    "Ntlm.Props.C12_list_progress",
    "Ntlm.Props.C12_list_tail"
   ],
   "note": "any input; exactly which bytes are a pair and which are not, the value framing, the walk and progress"
  },
  {
   "property": "C13",
   "status": "proved",
   "theorems": [
    "Ntlm.Props.C13_terminated",
    "Ntlm.Props.C13_unterminated_refused"
   ],
   "note": "both directions"
  },
  {
   "property": "C14",
   "status": "proved",
   "theorems": [
    "Ntlm.Props.C14_builder",
    "Ntlm.Props.C14_terminated"
   ],
   "note": "every sequence of builder calls on a fresh challenge"
  },
  {
   "property": "C15",
   "status": "proved",
   "theorems": [
    "Ntlm.Props.C15_operations",
    "Ntlm.Props.C15_debug_bound",
    "Ntlm.Props.C15_extensional",
    "Ntlm.Props.C15_algebra"
   ],
   "note": "at the level of the public methods, both build profiles"
  },
  {
   "property": "C16",
   "status": "partial",
   "theorems": [
    "Ntlm.Props.C16_accepts_all_partial",
    "Ntlm.Props.C16_checks_if_compiled",
    "Ntlm.Props.C16_strict_refuted"
   ],
   "note": "the strict half is false (C16_strict_refuted: the checks are never compiled in); the lenient half holds in every configuration, and the checks are correct had they been compiled in"
  },
  {
   "property": "C17",
   "status": "proved",
   "theorems": [
    "Ntlm.Props.C17_negotiate",
    "Ntlm.Props.C17_challenge",
    "Ntlm.Props.C17_authenticate"
   ],
   "note": "every sequence of setter calls on any message"
  },
  {
   "property": "C18",
   "status": "proved",
   "theorems": [
    "Ntlm.Props.C18_tryFrom",
    "Ntlm.Props.C18_truncates",
    "Ntlm.Props.C18_value",
    "Ntlm.Props.C18_encoding",
    "Ntlm.Props.C18_unix_accepts",
    "Ntlm.Props.C18_windows_accepts"
   ],
   "note": "conversion truncates to microseconds; encoding; acceptance per platform"
  },
  {
   "property": "C19",
   "status": "proved",
   "theorems": [
    "Ntlm.Props.C19_roundtrip",
    "Ntlm.Props.C19_ofTriple",
    "Ntlm.Props.C19_accepts",
    "Ntlm.Props.C19_tryFrom"
   ],
   "note": "round trip, acceptance and conversions"
  },
  {
   "property": "C20",
   "status": "proved",
   "theorems": [
    "Ntlm.Props.C20_ntv1_never_v2",
    "Ntlm.Props.C20_nt_roundtrip",
    "Ntlm.Props.C20_lm"
   ],
   "note": "variant choice of both responses"
  },
  {
   "property": "C21",
   "status": "proved",
   "theorems": [
    "Ntlm.Props.C21_buffers",
    "Ntlm.Props.C21_flags",
    "Ntlm.Props.C21_field",
    "Ntlm.Props.C21_singleHost",
    "Ntlm.Props.C21_signature",
    "Ntlm.Props.C21_avFlags",
    "Ntlm.Props.C21_avId",
    "Ntlm.Props.C21_responses"
   ],
   "note": "every fixed-size structure of the crate"
  },
  {
   "property": "C22",
   "status": "proved",
   "theorems": [
    "Ntlm.Props.C22_unambiguous",
    "Ntlm.Props.C22_split",
    "Ntlm.Props.C22_fields"
   ],
   "note": "every given name, both directions"
  },
  {
   "property": "C23",
   "status": "partial",
   "theorems": [
    "Ntlm.Props.C23_workstation",
    "Ntlm.Props.C23_unambiguous",
    "Ntlm.Props.C23_no_crash_partial",
    "Ntlm.Props.C23_refuted"
   ],
   "note": "the no-crash part is false (C23_refuted: an empty host name file aborts construction); which workstation is chosen and when construction aborts are proved exactly"
  },
  {
   "property": "C24",
   "status": "partial",
   "theorems": [
    "Ntlm.Props.C24_ascii_partial",
    "Ntlm.Props.C24_case_and_length",
    "Ntlm.Props.C24_construct_iff",
    "Ntlm.Props.C24_refuted"
   ],
   "note": "totality is false (C24_refuted); exact set of passwords that make construction panic (C24_construct_iff), the hash for ASCII passwords, and its dependence on case and length"
  },
  {
   "property": "C25",
   "status": "proved",
   "theorems": [
    "Ntlm.Props.C25_expansion",
    "Ntlm.Props.C25_injective"
   ],
   "note": "every 7-byte key, every other length refused, injectivity on the 56 key bits"
  },
  {
   "property": "C26",
   "status": "proved",
   "theorems": [
    "Ntlm.Props.C26_formula",
    "Ntlm.Props.C26_case_insensitive",
    "Ntlm.Props.C26_inputs"
   ],
   "note": "over arbitrary primitives and case mapping"
  },
  {
   "property": "C27",
   "status": "proved",
   "theorems": [
    "Ntlm.Props.C27_ntlmv1",
    "Ntlm.Props.C27_determined"
   ],
   "note": "over arbitrary primitives; the responses are determined by the specification"
  },
  {
   "property": "C28",
   "status": "proved",
   "theorems": [
    "Ntlm.Props.C28_ntlmv2",
    "Ntlm.Props.C28_failure"
   ],
   "note": "over arbitrary primitives; exact failure condition"
  },
  {
   "property": "C29",
   "status": "partial",
   "theorems": [
    "Ntlm.Props.C29_server_iff",
    "Ntlm.Props.C29_server_refuses",
    "Ntlm.Props.C29_refuted",
    "Ntlm.Props.C29_no_proof",
    "Ntlm.Props.C29_lmv2_partial"
   ],
   "note": "the property is false (C29_refuted: the NT response of every NTLMv2 answer consists of the client blob alone, without proof; C29_no_proof: it does not depend on the password; C29_server_iff: exactly when a server following the protocol accepts it; C29_server_refuses: an exchange, with the standard primitives, that such a server refuses); the LMv2 response is proved correct"
  },
  {
   "property": "C30",
   "status": "partial",
   "theorems": [
    "Ntlm.Props.C30_kxkey",
    "Ntlm.Props.C30_key_used",
    "Ntlm.Props.C30_client_partial",
    "Ntlm.Props.C30_refuted"
   ],
   "note": "the derivation is proved (C30_kxkey), and exactly which key the client uses (C30_key_used); agreement with the protocol's rules holds with extended session security (C30_client_partial) and is false without it (C30_refuted, with the standard primitives)"
  },
  {
   "property": "C31",
   "status": "partial",
   "theorems": [
    "Ntlm.Props.C31_exchange",
    "Ntlm.Props.C31_no_exchange",
    "Ntlm.Props.C31_v2_refuted",
    "Ntlm.Props.C31_field",
    "Ntlm.Props.C31_client_partial",
    "Ntlm.Props.C31_quiet",
    "Ntlm.Props.C31_agree_iff",
    "Ntlm.Props.C31_refuted"
   ],
   "note": "agreement with the server is false if no key exchange is negotiated (C31_refuted, with the standard primitives); exactly when the two agree is proved (C31_agree_iff); an NTLMv2 server that takes the proof from the message arrives at another key (C31_v2_refuted)"
  },
  {
   "property": "C32",
   "status": "partial",
   "theorems": [
    "Ntlm.Props.C32_compute_mic_partial",
    "Ntlm.Props.C32_mic_covers",
    "Ntlm.Props.C32_v1_zero",
    "Ntlm.Props.C32_refuted"
   ],
   "note": "the function is proved; the MIC an NTLMv2 client sends does not cover the message sent (C32_refuted), and exactly what it covers is proved (C32_mic_covers)"
  },
  {
   "property": "C33",
   "status": "proved",
   "theorems": [
    "Ntlm.Props.C33_state_check",
    "Ntlm.Props.C33_no_side_effect"
   ],
   "note": "any history of calls"
  },
  {
   "property": "C34",
   "status": "proved",
   "theorems": [
    "Ntlm.Props.C34_first_challenge",
    "Ntlm.Props.C34_ignored",
    "Ntlm.Props.C34_accepted"
   ],
   "note": "any history of calls"
  },
  {
   "property": "C35",
   "status": "proved",
   "theorems": [
    "Ntlm.Props.C35_same_negotiate",
    "Ntlm.Props.C35_restart",
    "Ntlm.Props.C35_repeat"
   ],
   "note": "any history of calls"
  },
  {
   "property": "C36",
   "status": "proved",
   "theorems": [
    "Ntlm.Props.C36_negotiate"
   ],
   "note": "any history; exact bytes"
  },
  {
   "property": "C37",
   "status": "proved",
   "theorems": [
    "Ntlm.Props.C37_unsupported"
   ],
   "note": "any history of calls"
  },
  {
   "property": "C38",
   "status": "proved",
   "theorems": [
    "Ntlm.Props.C38_v1",
    "Ntlm.Props.C38_v2"
   ],
   "note": "any history; every bit"
  },
  {
   "property": "C39",
   "status": "partial",
   "theorems": [
    "Ntlm.Props.C39_v2_decodes_partial",
    "Ntlm.Props.C39_v1_decodes_partial",
    "Ntlm.Props.C39_refuted"
   ],
   "note": "false for NTLMv1 when the challenge has the VERSION flag (C39_refuted: never decodable); in all other cases decoding and its exact result are proved"
  },
  {
   "property": "C40",
   "status": "proved",
   "theorems": [
    "Ntlm.Props.C40_identity"
   ],
   "note": "any history"
  },
  {
   "property": "C41",
   "status": "proved",
   "theorems": [
    "Ntlm.Props.C41_no_lm_hash",
    "Ntlm.Props.C41_no_nt_hash"
   ],
   "note": "any history; the relation is over two clients that differ only in the hash in question"
  },
  {
   "property": "C42",
   "status": "proved",
   "theorems": [
    "Ntlm.Props.C42_blob",
    "Ntlm.Props.C42_time_unique"
   ],
   "note": "any history; exact blob bytes"
  },
  {
   "property": "C43",
   "status": "proved",
   "theorems": [
    "Ntlm.Props.C43_exact_encoding",
    "Ntlm.Props.C43_no_stale_bytes"
   ],
   "note": "any state and buffer"
  },
  {
   "property": "C44",
   "status": "proved",
   "theorems": [
    "Ntlm.Props.C44_login",
    "Ntlm.Props.C44_credentials"
   ],
   "note": "any history of calls"
  },
  {
   "property": "C45",
   "status": "proved",
   "theorems": [
    "Ntlm.Props.C45_v2",
    "Ntlm.Props.C45_v1"
   ],
   "note": "any history; both versions"
  },
  {
   "property": "C46",
   "status": "partial",
   "theorems": [
    "Ntlm.Props.C46_answers_iff",
    "Ntlm.Props.C46_v1",
    "Ntlm.Props.C46_v2_partial",
    "Ntlm.Props.C46_refuted"
   ],
   "note": "false for NTLMv2 (C46_refuted: a decodable challenge no client can answer); the exact condition for an answer is proved, in particular every challenge is answered by NTLMv1 clients and every one with at most 65507 bytes of target info by NTLMv2 clients"
  },
  {
   "property": "C47",
   "status": "proved",
   "theorems": [
    "Ntlm.Props.C47_negotiate_local",
    "Ntlm.Props.C47_challenge_local",
    "Ntlm.Props.C47_authenticate_local"
   ],
   "note": "all three messages, results including errors and aborts"
  },
  {
   "property": "C48",
   "status": "partial",
   "theorems": [
    "Ntlm.Props.C48_reencode_partial",
    "Ntlm.Props.C48_reencode_same_iff",
    "Ntlm.Props.C48_bytes_refuted"
   ],
   "note": "the byte-level claim is false and the second fails for a target name read as empty (C48_bytes_refuted); re-encoding and the exact result of decoding it are proved"
  },
  {
   "property": "C49",
   "status": "partial",
   "theorems": [
    "Ntlm.Props.Win.C49_new",
    "Ntlm.Props.Win.C49_calls",
    "Ntlm.Props.Win.C49_outcome",
    "Ntlm.Props.Win.C49_release_partial",
    "Ntlm.Props.Win.C49_refuted",
    "Ntlm.Props.Win.C49_debug_aborts",
    "Ntlm.Props.Win.C49_undefined_handle",
    "Ntlm.Props.Win.C49_undefined_size"
   ],
   "note": "failures of InitializeSecurityContext are never reported by release builds (C49_refuted); what is passed to the operating system and the exact outcome of each call are proved for any history"
  },
  {
   "property": "C50",
   "status": "partial",
   "theorems": [
    "Ntlm.Props.C50_refuted",
    "Ntlm.Props.C50_reading_refuted",
    "Ntlm.Props.C50_peer_reads",
    "Ntlm.Props.C50_order_partial",
    "Ntlm.Props.C50_client_refuted"
   ],
   "note": "false for every time (C50_refuted, C50_reading_refuted); what the values mean to a peer and that they keep the order is proved"
  },
  {
   "property": "C51",
   "status": "proved",
   "theorems": [
    "Ntlm.Props.C51_negotiate_contents",
    "Ntlm.Props.C51_challenge_contents",
    "Ntlm.Props.C51_authenticate_contents"
   ],
   "note": "exact, both directions, all three messages"
  },
  {
   "property": "C52",
   "status": "proved",
   "theorems": [
    "Ntlm.Props.C07_negotiate_panics_iff",
    "Ntlm.Props.C07_challenge_panics_iff",
    "Ntlm.Props.C07_authenticate_panics_iff"
   ],
   "note": "exact, both directions, all three messages"
  },
  {
   "property": "C53",
   "status": "proved",
   "theorems": [
    "Ntlm.Props.C53_first_recorded",
    "Ntlm.Props.C53_latest_refuted"
   ],
   "note": "any history; the expectation that it is the latest is refuted by C53_latest_refuted"
  },
  {
   "property": "C54",
   "status": "proved",
   "theorems": [
    "Ntlm.Props.C54_flags",
    "Ntlm.Props.C54_named_iff",
    "Ntlm.Props.C54_flags_injective",
    "Ntlm.Props.C54_buffers"
   ],
   "note": "the two hand-written Debug implementations"
  },
  {
   "property": "C55",
   "status": "proved",
   "theorems": [
    "Ntlm.Props.C55_negotiate_append",
    "Ntlm.Props.C55_challenge_append",
    "Ntlm.Props.C55_authenticate_append",
    "Ntlm.Props.C55_cut"
   ],
   "note": "for all three messages"
  },
  {
   "property": "C56",
   "status": "proved",
   "theorems": [
    "Ntlm.Props.C56_v1_responses",
    "Ntlm.Props.C56_v1_accepted",
    "Ntlm.Props.C56_v1_lm",
    "Ntlm.Props.C56_v2_lm_accepted"
   ],
   "note": "for any primitives; for NTLMv2 only the LM response can be checked, see C29"
  },
  {
   "property": "C57",
   "status": "proved",
   "theorems": [
    "Ntlm.Props.C57_v1_agree"
   ],
   "note": "for any primitives"
  },
  {
   "property": "C58",
   "status": "proved",
   "theorems": [
    "Ntlm.Props.C46_answers_iff",
    "Ntlm.Props.C46_v1"
   ],
   "note": "exact condition; see C46 for the claim that every decodable challenge is answered, which is false"
  },
  {
   "property": "C59",
   "status": "proved",
   "theorems": [
    "Ntlm.Props.C59_lm_hash",
    "Ntlm.Props.C24_construct_iff"
   ],
   "note": "An iff for creation, and the value of the LM hash for every accepted password, ASCII or not."
  },
  {
   "property": "C60",
   "status": "proved",
   "theorems": [
    "Ntlm.Props.C60_builder",
    "Ntlm.Props.C60_wire"
   ],
   "note": "any starting challenge; the wire theorem is an iff for fresh and received ones"
  },
  {
   "property": "C61",
   "status": "proved",
   "theorems": [
    "Ntlm.Props.C61_negotiate",
    "Ntlm.Props.C61_authenticate",
    "Ntlm.Props.C61_stable"
   ],
   "note": "every accepted input; the one difference (empty texts) is exact"
  },
  {
   "property": "C62",
   "status": "proved",
   "theorems": [
    "Ntlm.Props.C62_v1",
    "Ntlm.Props.C62_v2"
   ],
   "note": "any earlier history; NTLMv1 with session key, NTLMv2 with the LM response (the NT response is C29)"
  },
  {
   "property": "C63",
   "status": "proved",
   "theorems": [
    "Ntlm.Props.C63_negotiate",
    "Ntlm.Props.C63_target"
   ],
   "note": "Two-run theorem over all histories; the target is shown to have no effect."
  },
  {
   "property": "C64",
   "status": "proved",
   "theorems": [
    "Ntlm.Props.C64_v1",
    "Ntlm.Props.C64_v2"
   ],
   "note": "At levels 3 to 5 stated field by field on the bytes, and on all bytes but the MIC when key exchange agrees."
  },
  {
   "property": "C65",
   "status": "proved",
   "theorems": [
    "Ntlm.Props.C65_v1",
    "Ntlm.Props.C65_v2"
   ],
   "note": "Level 0 without extended session security also uses the LM hash and is excluded in the statement."
  },
  {
   "property": "C66",
   "status": "proved",
   "theorems": [
    "Ntlm.Props.C66_levels",
    "Ntlm.Props.C66_answers"
   ],
   "note": ""
  },
  {
   "property": "C67",
   "status": "proved",
   "theorems": [
    "Ntlm.Props.C67_v1",
    "Ntlm.Props.C67_v2"
   ],
   "note": ""
  },
  {
   "property": "C68",
   "status": "proved",
   "theorems": [
    "Ntlm.Props.C68_succeeds_iff",
    "Ntlm.Props.C68_value",
    "Ntlm.Props.C68_again",
    "Ntlm.Props.C68_no_key",
    "Ntlm.Props.C68_effect",
    "Ntlm.Props.C68_aborted"
   ],
   "note": "Applies to messages built by the caller as well as to the client's own."
  },
  {
   "property": "C69",
   "status": "proved",
   "theorems": [
    "Ntlm.Props.C69_negotiate",
    "Ntlm.Props.C69_challenge",
    "Ntlm.Props.C69_authenticate",
    "Ntlm.Props.C69_negotiate_refused",
    "Ntlm.Props.C69_challenge_refused",
    "Ntlm.Props.C69_authenticate_refused",
    "Ntlm.Props.C69_completes",
    "Ntlm.Props.C69_on_vec"
   ],
   "note": "Writers use the default write_all of std."
  },
  {
   "property": "C70",
   "status": "partial",
   "theorems": [
    "Ntlm.Props.C70_no_text_partial",
    "Ntlm.Props.C70_pairs_partial",
    "Ntlm.Props.C70_response_partial",
    "Ntlm.Props.C70_short_write",
    "Ntlm.Props.C70_refuted"
   ],
   "note": "False of the code: structures/avid.rs:170 calls write instead of write_all (C70_refuted, C70_short_write). Proved for pairs without a text, and for writers that take all they are offered. The crate itself only encodes pairs into a Vec."
  },
  {
   "property": "C71",
   "status": "proved",
   "theorems": [
    "Ntlm.Props.C71_same_result",
    "Ntlm.Props.C71_negotiate",
    "Ntlm.Props.C71_challenge",
    "Ntlm.Props.C71_authenticate",
    "Ntlm.Props.C71_plain",
    "Ntlm.Props.C71_own_negotiate",
    "Ntlm.Props.C71_own_challenge",
    "Ntlm.Props.C71_own_authenticate",
    "Ntlm.Props.C71_mic"
   ],
   "note": "Model/Log.lean has the decoders with their warnings; refinement, exact log of accepted messages and of the library's own, and the set of all possible lines."
  },
  {
   "property": "C72",
   "status": "partial",
   "theorems": [
    "Ntlm.Props.C72_refuted",
    "Ntlm.Props.C72_negotiate",
    "Ntlm.Props.C72_challenge",
    "Ntlm.Props.C72_authenticate_partial"
   ],
   "note": "False: refuted by a 32-byte message. The exact condition for each line is proved; the claim holds for the session key only."
  },
  {
   "property": "C73",
   "status": "proved",
   "theorems": [
    "Ntlm.Props.C73_slice",
    "Ntlm.Props.C73_fields"
   ],
   "note": "The machine (word size, overflow checks) is a parameter of the field access."
  },
  {
   "property": "C74",
   "status": "partial",
   "theorems": [
    "Ntlm.Props.C74_little",
    "Ntlm.Props.C74_refuted",
    "Ntlm.Props.C74_pairs_partial",
    "Ntlm.Props.C74_same_iff",
    "Ntlm.Props.C74_ascii",
    "Ntlm.Props.C74_read_back",
    "Ntlm.Props.C74_hash",
    "Ntlm.Props.C74_hash_ascii"
   ],
   "note": "False on big-endian machines (C74_refuted). Proved: little-endian machines (C74_little); on big-endian ones exactly what is sent, when it is right, what it is read as, and what is hashed."
  },
  {
   "property": "C75",
   "status": "proved",
   "theorems": [
    "Ntlm.Props.C75_negotiate",
    "Ntlm.Props.C75_challenge",
    "Ntlm.Props.C75_authenticate",
    "Ntlm.Props.C75_mic_input",
    "Ntlm.Props.C75_mic_binds"
   ],
   "note": "Injectivity of the layouts on everything that fits; self-delimitation of the first two messages before the signature of the next."
  },
  {
   "property": "C76",
   "status": "proved",
   "theorems": [
    "Ntlm.Props.C76_proof_input",
    "Ntlm.Props.C76_binds"
   ],
   "note": ""
  },
  {
   "property": "C77",
   "status": "proved",
   "theorems": [
    "Ntlm.Props.C77_sent",
    "Ntlm.Props.C77_client",
    "Ntlm.Props.C77_received_negotiate",
    "Ntlm.Props.C77_received_challenge",
    "Ntlm.Props.C77_received_authenticate"
   ],
   "note": ""
  },
  {
   "property": "C78",
   "status": "proved",
   "theorems": [
    "Ntlm.Props.C78_outcome",
    "Ntlm.Props.C78_same",
    "Ntlm.Props.C78_ranges",
    "Ntlm.Props.C78_plain",
    "Ntlm.Props.C78_map",
    "Ntlm.Props.C78_calls",
    "Ntlm.Props.C78_plainFirst"
   ],
   "note": "For every implementation of the four operations of the error trait."
  },
  {
   "property": "C79",
   "status": "proved",
   "theorems": [
    "Ntlm.Props.C79_negotiate",
    "Ntlm.Props.C79_challenge",
    "Ntlm.Props.C79_authenticate",
    "Ntlm.Props.C79_wrongType",
    "Ntlm.Props.C79_challengeParts",
    "Ntlm.Props.C79_authenticateParts"
   ],
   "note": "The tables of checks are in Spec/Report.lean; each theorem is an equivalence between result and table."
  },
  {
   "property": "C80",
   "status": "proved",
   "theorems": [
    "Ntlm.Props.C80_messages",
    "Ntlm.Props.C80_parts",
    "Ntlm.Props.C80_sessionKey"
   ],
   "note": "Text determines value in both layouts for all public types; the exported session key is shown."
  },
  {
   "property": "C81",
   "status": "proved",
   "theorems": [
    "Ntlm.Props.C81_oneLine",
    "Ntlm.Props.C81_layout",
    "Ntlm.Props.C81_names"
   ],
   "note": "No unprintable characters; line breaks only from the layout of {:#?}."
  },
  {
   "property": "C82",
   "status": "proved",
   "theorems": [
    "Ntlm.Props.C82_call",
    "Ntlm.Props.C82_history",
    "Ntlm.Props.C82_secrets"
   ],
   "note": "Exact output of each call and history; independence from secrets. The source positions dbg! prints are a parameter."
  },
  {
   "property": "C83",
   "status": "proved",
   "theorems": [
    "Ntlm.Props.C83_view",
    "Ntlm.Props.C83_confined",
    "Ntlm.Props.C83_functions",
    "Ntlm.Props.C83_protocol",
    "Ntlm.Props.C83_exists"
   ],
   "note": "Memory is a partial function from addresses to bytes; the conditions of slice::from_raw_parts are those of its documentation, other than aliasing."
  },
  {
   "property": "C84",
   "status": "proved",
   "theorems": [
    "Ntlm.Props.C84_call",
    "Ntlm.Props.C84_constant",
    "Ntlm.Props.C84_history",
    "Ntlm.Props.C84_refuses",
    "Ntlm.Props.C84_no_lm_hash",
    "Ntlm.Props.C84_credentials",
    "Ntlm.Props.C84_panic_history",
    "Ntlm.Props.C84_panic_result",
    "Ntlm.Props.C84_panic_seen"
   ],
   "note": "For a fixed level this is C33, C34, C41 and C44 (C84_constant)."
  },
  {
   "property": "C85",
   "status": "proved",
   "theorems": [
    "Ntlm.Props.C85_des",
    "Ntlm.Props.C85_plain",
    "Ntlm.Props.C85_extended",
    "Ntlm.Props.C85_lm",
    "Ntlm.Props.C85_lmv2"
   ],
   "note": "DES is proved injective for the DES in Verif/Prims (a Feistel network); the other theorems take injectivity as the hypothesis desInjective, met by Prims.std (C85_des)."
  },
  {
   "property": "C86",
   "status": "proved",
   "theorems": [
    "Ntlm.Props.C86_challenges",
    "Ntlm.Props.C86_received",
    "Ntlm.Props.C86_received_only",
    "Ntlm.Props.C86_messages",
    "Ntlm.Props.C86_wire"
   ],
   "note": "The closures are over the public interface of messages.rs; safe Rust only."
  },
  {
   "property": "C87",
   "status": "proved",
   "theorems": [
    "Ntlm.Props.C87_thirds",
    "Ntlm.Props.C87_last_third",
    "Ntlm.Props.C87_lm",
    "Ntlm.Props.C87_lm_short"
   ],
   "note": "Upper bounds on what the responses depend on; for every choice of primitives. The LM statements are for ASCII passwords."
  },
  {
   "property": "C88",
   "status": "partial",
   "theorems": [
    "Ntlm.Props.C88_printed_iff",
    "Ntlm.Props.C88_password",
    "Ntlm.Props.C88_long",
    "Ntlm.Props.C88_upper_case",
    "Ntlm.Props.C88_counts_partial",
    "Ntlm.Props.C88_cases",
    "Ntlm.Props.C88_ascii",
    "Ntlm.Props.C88_calls",
    "Ntlm.Props.C88_refuted"
   ],
   "note": "False as stated: C88_refuted. C88_printed_iff ties the messages to the model of client creation; C88_password, C88_long and C88_upper_case give the messages that quote the password; C88_counts_partial, C88_ascii and C88_calls are the part that holds; C88_cases shows that these are all passwords but for upper-casings of fourteen bytes to less than seven."
  },
  {
   "property": "C89",
   "status": "partial",
   "theorems": [
    "Ntlm.Props.C89_v2_partial",
    "Ntlm.Props.C89_level2",
    "Ntlm.Props.C89_never",
    "Ntlm.Props.C89_refuted",
    "Ntlm.Props.C89_downgrade"
   ],
   "note": "False below level 3 (C89_refuted). Proved: levels 3 to 5 claim only what was offered (C89_v2_partial); at level 2 exactly if the server stays within the offer (C89_level2); at levels 0 and 1 never (C89_never); at levels 1 and 2 extended session security is dropped at the wish of the server (C89_downgrade)."
  },
  {
   "property": "C90",
   "status": "partial",
   "theorems": [
    "Ntlm.Props.C90_pairs",
    "Ntlm.Props.C90_exact_partial",
    "Ntlm.Props.C90_refuted"
   ],
   "note": "False of the code: C90_pairs and C90_exact_partial say exactly which pairs an NTLMv2 answer carries and when each duty is met; C90_refuted is an answer that meets none."
  },
  {
   "property": "C91",
   "status": "proved",
   "theorems": [
    "Ntlm.Props.C91_history",
    "Ntlm.Props.C91_result",
    "Ntlm.Props.C91_random_iff",
    "Ntlm.Props.C91_negotiated"
   ],
   "note": "Model/Failing.lean follows the calls with every draw and every printed line succeeding or failing."
  },
  {
   "property": "C92",
   "status": "proved",
   "theorems": [
    "Ntlm.Props.C92_alone",
    "Ntlm.Props.C92_state",
    "Ntlm.Props.C92_draws",
    "Ntlm.Props.C92_apart",
    "Ntlm.Props.C92_different",
    "Ntlm.Props.C92_progress"
   ],
   "note": "Model/Threads.lean interleaves the calls of any number of clients at their draws from one shared source; MachineOk and DrawInv are invariants of every schedule."
  },
  {
   "property": "C93",
   "status": "partial",
   "theorems": [
    "Ntlm.Props.Win.C93_context",
    "Ntlm.Props.Win.C93_refuted",
    "Ntlm.Props.Win.C93_first_partial",
    "Ntlm.Props.Win.C93_forgets"
   ],
   "note": "False of the code (C93_refuted): only the first call of a client asks for a new security context. C93_context says for every history which context each call is about, C93_forgets that nothing else of the history matters; C93_first_partial is the exchange that works."
  },
  {
   "property": "C94",
   "status": "proved",
   "theorems": [
    "Ntlm.Props.C94_negotiate",
    "Ntlm.Props.C94_challenge",
    "Ntlm.Props.C94_authenticate",
    "Ntlm.Props.C94_signature",
    "Ntlm.Props.C94_text"
   ],
   "note": "message of every abort of the decoders"
  },
  {
   "property": "C95",
   "status": "proved",
   "theorems": [
    "Ntlm.Props.C95_same_result",
    "Ntlm.Props.C95_negotiate",
    "Ntlm.Props.C95_challenge",
    "Ntlm.Props.C95_authenticate",
    "Ntlm.Props.C95_parts",
    "Ntlm.Props.C95_counted"
   ],
   "note": "Steps are counted in a second model of the decoders (Model/Cost.lean), proved to return what the main model returns; error values and log lines, of bounded size, are not counted."
  },
  {
   "property": "C96",
   "status": "proved",
   "theorems": [
    "Ntlm.Props.C96_negotiate",
    "Ntlm.Props.C96_challenge",
    "Ntlm.Props.C96_authenticate",
    "Ntlm.Props.C96_pieces",
    "Ntlm.Props.C96_refused",
    "Ntlm.Props.C96_reports",
    "Ntlm.Props.C96_stock",
    "Ntlm.Props.C96_pair"
   ],
   "note": "For the three messages, any writer. An attribute pair with a text is covered by C96_pair and C70."
  },
  {
   "property": "C97",
   "status": "proved",
   "theorems": [
    "Ntlm.Props.C97_same_result",
    "Ntlm.Props.C97_create",
    "Ntlm.Props.C97_answer",
    "Ntlm.Props.C97_secrets",
    "Ntlm.Props.C97_few"
   ],
   "note": "Calls of primitives only: kind, order and input lengths. Steps outside them are not counted (C95 counts the steps of decoding)."
  },
  {
   "property": "C98",
   "status": "proved",
   "theorems": [
    "Ntlm.Props.C98_negotiate",
    "Ntlm.Props.C98_challenge",
    "Ntlm.Props.C98_authenticate",
    "Ntlm.Props.C98_refused",
    "Ntlm.Props.C98_pairs",
    "Ntlm.Props.C98_response",
    "Ntlm.Props.C98_terminated"
   ],
   "note": "The standard library implementation of Write for &mut [u8] is modelled in Model/Slice.lean."
  }
 ]
}
