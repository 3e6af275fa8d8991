{
 "claims": [
  {
   "property": "C01",
   "status": "proved",
   "theorems": [
    "Verif.C01_handshake_order"
   ],
   "note": "All call histories since initialisation, all environments. Message 4 is accepted as compose or process in both roles (see the message-4 role property)."
  },
  {
   "property": "C02",
   "status": "proved",
   "theorems": [
    "Verif.C02_failure_aborts",
    "Verif.C02_next_call_fails"
   ],
   "note": "Any state, any message call, any callback behaviour, any later history without init."
  },
  {
   "property": "C03",
   "status": "proved",
   "theorems": [
    "Verif.C03_message_out_of_order",
    "Verif.C03_export_before_completion",
    "Verif.C03_secret_before_completion"
   ],
   "note": "Refused means error code plus unchanged context, callback state and log."
  },
  {
   "property": "C04",
   "status": "proved",
   "theorems": [
    "Verif.C04_error_code",
    "Verif.C04_get_code"
   ],
   "note": "Codes 0, 3 exactly characterised; code 2 only for message_1 process when the decoder did not find the preferred suite selected."
  },
  {
   "property": "C05",
   "status": "proved",
   "theorems": [
    "Verif.C05_selected_suite",
    "Verif.C05_reported_suites",
    "Verif.C05_decoded_suites",
    "Verif.C05_reported_only_then"
   ],
   "note": "The most preferred suite is the last configured one. A message that is no message_1 is reported with code 2 too: C05_garbage_reported_as_wrong_suite. C05_reported_only_then: suites are reported after error code 2 only."
  },
  {
   "property": "C06",
   "status": "proved",
   "theorems": [
    "Verif.C06_proposed_method",
    "Verif.C06_accepted_method",
    "Verif.C06_same_method"
   ],
   "note": ""
  },
  {
   "property": "C07",
   "status": "proved",
   "theorems": [
    "Verif.C07_responder_authenticated"
   ],
   "note": "Any session, any input, any callbacks. Suite lengths and message length below 2^32. The plaintext may be followed by further bytes (see C24)."
  },
  {
   "property": "C08",
   "status": "proved",
   "theorems": [
    "Verif.C08_initiator_authenticated"
   ],
   "note": "Any session, any input, any callbacks. Suite lengths below 2^32."
  },
  {
   "property": "C09",
   "status": "proved",
   "theorems": [
    "Verif.C09_compose1",
    "Verif.C09_process1",
    "Verif.C09_compose2",
    "Verif.C09_process2",
    "Verif.C09_compose3",
    "Verif.C09_process3",
    "Verif.C09_later",
    "Verif.C10_initiator_keys",
    "Verif.C10_responder_keys"
   ],
   "note": "Per call from any state (Props/Transcript) and for whole sessions (Props/Keys). For TH_3 the hash callback is assumed to return hashes of the length the suite says, because the code does not check that length there."
  },
  {
   "property": "C10",
   "status": "proved",
   "theorems": [
    "Verif.C10_initiator_keys",
    "Verif.C10_responder_keys",
    "Verif.C10_keys"
   ],
   "note": "For every session in which the handshake completed, with any later calls; the key schedule is stated in SpecKeys.lean in terms of the extract, expand and key agreement callbacks."
  },
  {
   "property": "C11",
   "status": "proved",
   "theorems": [
    "Verif.C11_same_keys",
    "Verif.C11_equal_keys"
   ],
   "note": "Any two complete sessions of either application over the same lawful primitives with messages 1 to 3 delivered unchanged, all methods, any later exports and key updates."
  },
  {
   "property": "C12",
   "status": "proved",
   "theorems": [
    "Verif.C12_completes"
   ],
   "note": "For all primitives, suites, methods, credentials and EAD meeting the premises Parties (SpecHonest.lean): in the states where an application is in order its callbacks do not fail, compute the primitives on the keys the library imports and leave the application in order; message buffers of at least 65000 bytes, credentials of at most 40000 bytes, labels and hash algorithms within +-65535, keystream of message_2 within what the suite can derive in one call. Both complete call histories succeed, with and without message_4, and end in the same OSCORE context."
  },
  {
   "property": "C13",
   "status": "proved",
   "theorems": [
    "Verif.C13_export",
    "Verif.C13_same_secret"
   ],
   "note": "Any complete session, any earlier exports and key updates; length below 2^32. Agreement between peers over the same primitives."
  },
  {
   "property": "C14",
   "status": "proved",
   "theorems": [
    "Verif.C14_mirrored",
    "Verif.C14_same_secrets",
    "Verif.C14_oscore_export"
   ],
   "note": "Secrets, lengths and mirrored identifiers."
  },
  {
   "property": "C15",
   "status": "proved",
   "theorems": [
    "Verif.C15_one_export_per_epoch",
    "Verif.C15_none_before_completion"
   ],
   "note": ""
  },
  {
   "property": "C16",
   "status": "proved",
   "theorems": [
    "Verif.C16_key_update",
    "Verif.C11_equal_keys"
   ],
   "note": "New PRK_out, exporter state, re-allowed OSCORE export; peers with the same entropies hold the same key."
  },
  {
   "property": "C17",
   "status": "partial",
   "theorems": [
    "Verif.C17_secret_partial",
    "Verif.C17_update_oscore",
    "Verif.C17_violated"
   ],
   "note": "Key update and OSCORE export: proved. Exporter: proved that the handshake is complete or that an Initiator failed to compose message 3 after authenticating the Responder; the latter case really exists (C17_violated)."
  },
  {
   "property": "C18",
   "status": "partial",
   "theorems": [
    "Verif.C18_released_partial",
    "Verif.C18_violated"
   ],
   "note": "Every call, every result: proved unless message_1 compose runs with the heap backend and an allocation fails; in that case the key of the key-pair generation is never destroyed (C18_violated)."
  },
  {
   "property": "C19",
   "status": "partial",
   "theorems": [
    "Verif.C19_deinit",
    "Verif.C19_wiped_partial",
    "Verif.C19_violated"
   ],
   "note": "Proved for de-initialisation and for methods in which the peer uses a static DH key; violated when the peer signs (C19_violated)."
  },
  {
   "property": "C20",
   "status": "partial",
   "theorems": [
    "Verif.C20_message1_partial",
    "Verif.C20_violated"
   ],
   "note": "Exact wire format for every configuration, when all EAD items of message_1 have a value. The full statement is false of the code: an EAD item without a value is sent with an empty value (C20_violated)."
  },
  {
   "property": "C21",
   "status": "proved",
   "theorems": [
    "Verif.C21_message2",
    "Verif.C21_message3",
    "Verif.C21_message4"
   ],
   "note": "PLAINTEXT_2 and PLAINTEXT_3 are described by the grammar for the credentials of SentAs; kid integers outside -24..23 are a separate finding."
  },
  {
   "property": "C22",
   "status": "partial",
   "theorems": [
    "Verif.C22_outputs_fit_partial",
    "Verif.C26_memory_safe_partial",
    "Verif.C22_violated"
   ],
   "note": "All outputs of successful calls fit, and (C26_memory_safe_partial, any call, any result) no call leaves the caller's buffer except message_3 compose. The full statement is false of the code: message_3 compose writes one byte past a buffer that is one byte too small (C22_violated)."
  },
  {
   "property": "C23",
   "status": "partial",
   "theorems": [
    "Verif.C23_message1_partial",
    "Verif.C23_message2",
    "Verif.C23_message3",
    "Verif.C23_message4_partial",
    "Verif.C23_violated"
   ],
   "note": "Accepted messages begin with the expected items (message 1: up to G_X). Violated: a message_1 without C_I is accepted (C23_violated), PLAINTEXT_4 may be anything (C24_plaintext4_violated)."
  },
  {
   "property": "C24",
   "status": "partial",
   "theorems": [
    "Verif.C23_message1_partial",
    "Verif.C23_message2",
    "Verif.C23_message3",
    "Verif.C23_message4_partial",
    "Verif.C24_message1_violated",
    "Verif.C24_message2_violated",
    "Verif.C24_message3_violated",
    "Verif.C24_message4_violated",
    "Verif.C24_plaintext4_violated",
    "Verif.C27_dropped"
   ],
   "note": "Violated: every accepted message 2, 3 or 4 is also accepted, with the same effects, with any bytes appended; message_1 with a trailing byte, PLAINTEXT_4 that is not CBOR, and a message with a fourth EAD item are accepted. What holds is that accepted messages begin with complete items (C23)."
  },
  {
   "property": "C25",
   "status": "partial",
   "theorems": [
    "Verif.C25_message1",
    "Verif.C25_bstr",
    "Verif.C25_error",
    "Verif.C25_plaintext2_partial",
    "Verif.C25_plaintext3_partial",
    "Verif.C25_plaintext4",
    "Verif.C25_violated"
   ],
   "note": "Round trip of every message and plaintext for all credentials sent as RFC 9528 prescribes. Violated for key identifiers outside -24..23, of which one byte is sent (C25_violated)."
  },
  {
   "property": "C26",
   "status": "partial",
   "theorems": [
    "Verif.C26_memory_safe_partial",
    "Verif.C26_short_message2_violated",
    "Verif.C26_long_kid2_violated",
    "Verif.C26_long_kid3_violated",
    "Verif.C26_truncated_message1_violated",
    "Verif.C26_truncated_ead2_violated",
    "Verif.C26_truncated_ead34_violated",
    "Verif.C26_wrap_violated",
    "Verif.C26_ead_violated"
   ],
   "note": "For every session, call and argument, with a sound application: out-of-bounds access and null calls happen only in the situations of KnownFault (and when the stack backend cannot hold a buffer, which C69 bounds). The full statement is false of the code: short message_2, overlong key identifiers in message_2 and message_3, strings cut off in message_1 and EAD values cut off in any message (if the decoder stores a length before it checks it), wrapped-around plaintext sizes in message_3 and message_4 (C26_*_violated). Processing of error messages is covered by C41."
  },
  {
   "property": "C27",
   "status": "partial",
   "theorems": [
    "Verif.C27_message1_partial",
    "Verif.C27_message2_partial",
    "Verif.C27_message3_partial",
    "Verif.C27_message4_partial",
    "Verif.C27_at_most_once",
    "Verif.C27_success1",
    "Verif.C27_success2",
    "Verif.C27_success3",
    "Verif.C27_success4",
    "Verif.C27_dropped",
    "Verif.C27_too_many"
   ],
   "note": "Tokens handed over are EAD items of the message, in order, once per call; on success they were accepted. Violated: a fourth item is dropped even if critical (C27_dropped); messages 2-4 can hand over more tokens than configured (C27_too_many)."
  },
  {
   "property": "C28",
   "status": "partial",
   "theorems": [
    "Verif.C28_round_trip_partial",
    "Verif.C28_message4",
    "Verif.C28_violated"
   ],
   "note": "Messages 2, 3 and 4 in full, message 1 for tokens with a value. Violated for EAD_1 tokens without a value, which arrive with an empty value (C28_violated)."
  },
  {
   "property": "C29",
   "status": "proved",
   "theorems": [
    "Verif.C29_error_message",
    "Verif.C29_composes"
   ],
   "note": "All codes, texts and lists of suites that can be composed; suite numbers must fit int32_t. C29_composes: with a buffer as large as announced, composing succeeds exactly when the entries the code calls for are given and the message fits."
  },
  {
   "property": "C30",
   "status": "proved",
   "theorems": [
    "Verif.C30_setters"
   ],
   "note": "Every state and every setter call: it succeeds exactly on the documented domain, stores the value and changes nothing else; otherwise it fails and the state is unchanged."
  },
  {
   "property": "C31",
   "status": "partial",
   "theorems": [
    "Verif.C31_equal",
    "Verif.C31_prepend_extract_partial",
    "Verif.C31_violated",
    "Verif.C31_negative_extracted"
   ],
   "note": "Equality in full; round trip for byte strings and integers 0..23. Violated for every negative integer (C31_violated)."
  },
  {
   "property": "C32",
   "status": "proved",
   "theorems": [
    "Verif.C32_forward",
    "Verif.C32_recognised"
   ],
   "note": ""
  },
  {
   "property": "C33",
   "status": "proved",
   "theorems": [
    "Verif.C33_performs",
    "Verif.C33_info_injective",
    "Verif.C33_separated",
    "Verif.C33_exporter"
   ],
   "note": "Any call from any state, however it ends; two message calls of a session share no info string, whatever keys are used."
  },
  {
   "property": "C34",
   "status": "proved",
   "theorems": [
    "Verif.C34_message_4_confirms"
   ],
   "note": "Any state, any input, any callbacks. Suite lengths below 2^32. C09/C10 say what the context's key and transcript hash are."
  },
  {
   "property": "C35",
   "status": "partial",
   "theorems": [
    "Verif.C35_items_partial",
    "Verif.C35_mac_context_partial",
    "Verif.C35_calls_partial",
    "Verif.C35_exporter_violated",
    "Verif.C35_kid_violated",
    "Verif.C35_label_violated"
   ],
   "note": "Sizes suffice for integers of 17 bits and lengths of 16 bits, for the MAC context of every credential that can be sent, and every compose and export call succeeds under the premises of C12; C59 shows the same against any peer that follows RFC 9528, C65 after any accepted messages. Violated: exported secrets of 256 bytes or more (hash at most 255 bytes), key identifiers as long as the configured maximum, EAD labels beyond 17 bits; each negation is proved."
  },
  {
   "property": "C36",
   "status": "proved",
   "theorems": [
    "Verif.C36_binding"
   ],
   "note": "Separate plaintexts and credentials if the hashed plaintext has no trailing bytes (which the decoders accept, see C24) and the credential is one CBOR item; otherwise the concatenation of plaintext and credential."
  },
  {
   "property": "C37",
   "status": "proved",
   "theorems": [
    "Verif.C37_involution",
    "Verif.C37_compose",
    "Verif.C37_process"
   ],
   "note": ""
  },
  {
   "property": "C38",
   "status": "proved",
   "theorems": [
    "Verif.C38_determined",
    "Verif.C38_isolated",
    "Verif.C38_alone",
    "Verif.C38_session"
   ],
   "note": "For all applications, all contexts and all interleavings. Isolation rests on the model giving each context its own state: the library has no mutable global or static variables."
  },
  {
   "property": "C39",
   "status": "partial",
   "theorems": [
    "Verif.C39_completed_partial",
    "Verif.C39_violated"
   ],
   "note": "Violated: the role is not checked. The Initiator may compose message 4 and the Responder accepts it; if both compose it, two plaintexts are encrypted under the same key and IV (witness). Proved: message-4 calls succeed only after messages 1 to 3."
  },
  {
   "property": "C40",
   "status": "proved",
   "theorems": [
    "Verif.C40_one_encryption"
   ],
   "note": ""
  },
  {
   "property": "C41",
   "status": "partial",
   "theorems": [
    "Verif.C41_error_code_partial",
    "Verif.C41_violated",
    "Verif.C41_text_as_suites"
   ],
   "note": "Code and number of entries in full; undefined behaviour only for code 1 with a list of three suites, where it does occur (C41_violated)."
  },
  {
   "property": "C42",
   "status": "partial",
   "theorems": [
    "Verif.C42_documented_partial",
    "Verif.C42_violated"
   ],
   "note": "Proved for all states, arguments and callbacks up to eleven undocumented codes, listed per function in SpecCodes.exceptions (NOT_ENOUGH_MEMORY, NOT_SUPPORTED, INVALID_MAC_3). The full statement is violated: each of the eleven is returned in some session (C42_violated)."
  },
  {
   "property": "C43",
   "status": "proved",
   "theorems": [
    "Verif.C43_no_failure_lost"
   ],
   "note": "Calls without undefined behaviour, from every state."
  },
  {
   "property": "C44",
   "status": "proved",
   "theorems": [
    "Verif.C44_cause"
   ],
   "note": "The code for each callback is Spec.cause. For the allocator and the import of keys the code is not narrowed beyond what the function may return."
  },
  {
   "property": "C45",
   "status": "proved",
   "theorems": [
    "Verif.Mem.C45_memory_returned",
    "Verif.Mem.C45_calls_are_neutral"
   ],
   "note": "On control skeletons of all 87 C functions, extracted from the C text by tools/skeleton.py (55 allocations, 317 releases). Every branch other than a NULL test may go either way. The skeletons are separate from the main model."
  },
  {
   "property": "C46",
   "status": "proved",
   "theorems": [
    "Verif.C46_registered",
    "Verif.C46_lengths"
   ],
   "note": "Suites 0, 2, 4, 24 against a written-out registry; lengths of results from the laws of the algorithms (AlgLaws)."
  },
  {
   "property": "C47",
   "status": "proved",
   "theorems": [
    "Verif.C47_hash",
    "Verif.C47_extract",
    "Verif.C47_expand",
    "Verif.C47_encrypt",
    "Verif.C47_decrypt",
    "Verif.C47_key_pair",
    "Verif.C47_key_agreement",
    "Verif.C47_sign",
    "Verif.C47_verify",
    "Verif.C47_import_destroy",
    "Verif.C47_failures",
    "Verif.C47_defined",
    "Verif.C47_overread",
    "Verif.C47_private_size",
    "Verif.C47_outputs"
   ],
   "note": "Algorithms below PSA are parameters. C47_overread: with a larger buffer than the library passes, key pair creation reads out of bounds."
  },
  {
   "property": "C48",
   "status": "partial",
   "theorems": [
    "Verif.C48_separated_partial",
    "Verif.C48_violated"
   ],
   "note": "Holds in suites 2 and 24, and in 0 and 4 except between key agreement and verification keys."
  },
  {
   "property": "C49",
   "status": "proved",
   "theorems": [
    "Verif.C49_faithful",
    "Verif.C49_keys_stay",
    "Verif.C49_same_keys"
   ],
   "note": "For applications whose own key is stored before the session (Anchored) and whose other callbacks only add keys (Decent)."
  },
  {
   "property": "C50",
   "status": "proved",
   "theorems": [
    "Verif.C50_primes",
    "Verif.C50_decompress",
    "Verif.C50_either",
    "Verif.C50_exact"
   ],
   "note": "for both NIST curves of the shipped suites; laws of the algorithms below PSA as premise of C50_exact only"
  },
  {
   "property": "C51",
   "status": "proved",
   "theorems": [
    "Verif.C51_completes"
   ],
   "note": "instance of C12 for the shipped suites over a key store; laws of the algorithms below PSA as premise"
  },
  {
   "property": "C52",
   "status": "proved",
   "theorems": [
    "Verif.Gen.C52_message1",
    "Verif.Gen.C52_message1_accepts",
    "Verif.Gen.C52_plaintext2",
    "Verif.Gen.C52_plaintext2_accepts",
    "Verif.Gen.C52_plaintext3",
    "Verif.Gen.C52_plaintext3_accepts",
    "Verif.Gen.C52_plaintext4",
    "Verif.Gen.C52_plaintext4_accepts",
    "Verif.Gen.C52_bstr",
    "Verif.Gen.C52_bstr_accepts",
    "Verif.Gen.C52_cid",
    "Verif.Gen.C52_cid_accepts",
    "Verif.Gen.C52_int",
    "Verif.Gen.C52_int_accepts",
    "Verif.Gen.C52_error",
    "Verif.Gen.C52_error_accepts",
    "Verif.Gen.C52_handshake_message1",
    "Verif.Gen.C52_handshake",
    "Verif.Gen.C52_ead",
    "Verif.Gen.C52_ead_accepts",
    "Verif.Gen.C52_idCred",
    "Verif.Gen.C52_idCred_accepts",
    "Verif.Gen.C52_info",
    "Verif.Gen.C52_info_accepts",
    "Verif.Gen.C52_encStructure",
    "Verif.Gen.C52_encStructure_accepts",
    "Verif.Gen.C52_sigStructure",
    "Verif.Gen.C52_sigStructure_accepts"
   ],
   "note": "The generated decoders over a model of the zcbor runtime, with their element counts and backups. The decoders ignore what follows the message (see C24). C52_handshake: the decoders in the model of the handshake are these. All generated decoders are covered, also those the library does not call."
  },
  {
   "property": "C53",
   "status": "proved",
   "theorems": [
    "Verif.Gen.C53_message1",
    "Verif.Gen.C53_ead",
    "Verif.Gen.C53_plaintext4",
    "Verif.Gen.C53_cid",
    "Verif.Gen.C53_idCred",
    "Verif.Gen.C53_error",
    "Verif.Gen.C53_bstr",
    "Verif.Gen.C53_int",
    "Verif.Gen.C53_info",
    "Verif.Gen.C53_encStructure",
    "Verif.Gen.C53_sigStructure",
    "Verif.Gen.C53_message1_back",
    "Verif.Gen.C53_error_back",
    "Verif.Gen.C53_handshake",
    "Verif.Gen.C53_plaintext2",
    "Verif.Gen.C53_plaintext3",
    "Verif.Gen.C53_encStructure_any",
    "Verif.Gen.C53_plaintext2_back",
    "Verif.Gen.C53_plaintext3_back",
    "Verif.Gen.C53_info_back",
    "Verif.Gen.C53_encStructure_back",
    "Verif.Gen.C53_sigStructure_back"
   ],
   "note": "For structures whose announced strings and elements are there; those the library fills are. All generated encoders are covered; C53_plaintext2 and C53_plaintext3 are about encoders the library does not call, the plaintexts it concatenates itself are C25. C53_handshake: the encoders in the model of the handshake are these."
  },
  {
   "property": "C54",
   "status": "proved",
   "theorems": [
    "Verif.Pqc.C54_sign",
    "Verif.Pqc.C54_verify",
    "Verif.Pqc.C54_encapsulate",
    "Verif.Pqc.C54_decapsulate",
    "Verif.Pqc.C54_agreement",
    "Verif.Pqc.C54_extract",
    "Verif.Pqc.C54_expand",
    "Verif.Pqc.C54_encrypt",
    "Verif.Pqc.C54_decrypt",
    "Verif.Pqc.C54_hash",
    "Verif.Pqc.C54_import",
    "Verif.Pqc.C54_table"
   ],
   "note": "Exact conditions and results of every operation with an imported key after any history that keeps it; agreement of the KEM secret under the laws of the algorithms."
  },
  {
   "property": "C55",
   "status": "proved",
   "theorems": [
    "Verif.Pqc.C55_memory",
    "Verif.Pqc.C55_new",
    "Verif.Pqc.C55_pair",
    "Verif.Pqc.C55_decapsulate",
    "Verif.Pqc.C55_distinct",
    "Verif.Pqc.C55_destroy"
   ],
   "note": "For every history from the zeroed static memory."
  },
  {
   "property": "C56",
   "status": "proved",
   "theorems": [
    "Verif.Pqc.C56_defined",
    "Verif.Pqc.C56_no_failure_lost",
    "Verif.Pqc.C56_fits"
   ],
   "note": "For every call after every history."
  },
  {
   "property": "C57",
   "status": "partial",
   "theorems": [
    "Verif.Pqc.C57_separated_partial",
    "Verif.Pqc.C57_key_pair",
    "Verif.Pqc.C57_violated"
   ],
   "note": "Violated by the code: keys for Extract and Expand are interchangeable, and other raw keys are told apart by their length only. Proved: keys of the proper length are separated otherwise; private keys of key pairs are usable only for decapsulation."
  },
  {
   "property": "C58",
   "status": "proved",
   "theorems": [
    "Verif.C58_laws",
    "Verif.C58_eddsa",
    "Verif.C58_own_key",
    "Verif.C58_completes"
   ],
   "note": "The algorithms are defined in Real/ and checked there against published test vectors. C58_completes fixes the credentials and connection identifiers of the parties; C58_laws and C58_own_key discharge the premises of C49 and C51 in general."
  },
  {
   "property": "C59",
   "status": "proved",
   "theorems": [
    "Verif.C59_initiator",
    "Verif.C59_responder"
   ],
   "note": "For all primitives, suites, methods, own credentials (Denotes: the forms the library sends as RFC 9528 says, see C60) and all peers of SpecPeer.lean, which is RFC 9528 without the library. Premises Local: the application's callbacks compute the primitives and do not fail, it knows the peer's credential and returns it with the ID_CRED_x of RFC 9528. Limits of the library: Takes1, Takes, Id.Fits (at most three suites, at most three EAD items, 1000 bytes of signature, lengths of 16 bits). The Responder accepts only a message_1 that selects its own preferred suite (the others are answered with an error, C05)."
  },
  {
   "property": "C60",
   "status": "partial",
   "theorems": [
    "Verif.C60_message3_partial",
    "Verif.C60_message2_partial",
    "Verif.C60_violated",
    "Verif.C60_unreadable",
    "Verif.C60_no_setting",
    "Verif.C60_received_violated"
   ],
   "note": "For every credential with a meaning as ID_CRED_x, message and MAC are as RFC 9528 says exactly if SentRight holds (certificates and hashes always; key identifiers as byte string with cred_is_cbor set if and only if it is the encoding of a one-byte integer). The full statement is violated: concrete sessions for a CBOR credential with a longer key identifier, for h'32' without cred_is_cbor, and for integers; also for received one-byte key identifiers."
  },
  {
   "property": "C61",
   "status": "proved",
   "theorems": [
    "Verif.C61_initiator",
    "Verif.C61_responder"
   ],
   "note": "Instance of C59 for the four shipped suites over a key store in order (InOrder) and the algorithms of the standards (Real/); signatures must have the length of the suite. Limits as in C59."
  },
  {
   "property": "C62",
   "status": "partial",
   "theorems": [
    "Verif.C62_accepted_partial",
    "Verif.C62_accepts_partial",
    "Verif.C62_violated"
   ],
   "note": "Accepted messages select the last configured suite; with one configured suite this is RFC 9528, and messages of RFC 9528 with up to three suites are accepted. With several configured suites or more than three offered, the code does not follow the RFC: C62_violated."
  },
  {
   "property": "C63",
   "status": "partial",
   "theorems": [
    "Verif.C63_distinct_partial",
    "Verif.C63_violated"
   ],
   "note": "Distinct exactly if the OSCORE forms of the connection identifiers are; the code does not enforce this: C63_violated gives two completed handshakes."
  },
  {
   "property": "C64",
   "status": "partial",
   "theorems": [
    "Verif.C64_message4_partial",
    "Verif.C64_violated"
   ],
   "note": "Without exporter calls message 4 is taken up; after a successful one it is refused in every session (C64_violated)."
  },
  {
   "property": "C65",
   "status": "proved",
   "theorems": [
    "Verif.C65_message1",
    "Verif.C65_message2",
    "Verif.C65_message3",
    "Verif.C65_message4",
    "Verif.C65_export",
    "Verif.C65_suites_initiator",
    "Verif.C65_suites_responder",
    "Verif.C65_suites_export"
   ],
   "note": "For all application callbacks (Honest: they compute the primitives and do not fail, in states I), all settings and credentials within the limits (Sender), and all histories after configuration in which the messages were accepted; nothing is assumed of the peer but that its ephemeral key is a public key (for message_2 and message_3). Message 4 and the export are for sessions without an earlier exporter call (C64 shows why for message 4). Buffers of 65000 bytes; exported lengths within SecretLen (C35). The suites theorems say the same of an application with a shipped cipher suite, in terms of its key store."
  },
  {
   "property": "C66",
   "status": "proved",
   "theorems": [
    "Verif.C66_initiator",
    "Verif.C66_responder",
    "Verif.C66_injective"
   ],
   "note": "For every family of sessions that satisfies Network: the sessions are proper (as in C10), the credentials are CBOR items, and the attacker cannot forge signatures or MACs of honest keys, find collisions or repeat ephemeral keys. The assumptions are about what is computed and accepted in these sessions only. Agreement is on the data of Data2 and Data3; the Responder's call of edhoc_message_2_compose can still have failed after it computed MAC_2. Non-vacuity: the toy handshakes of every method."
  },
  {
   "property": "C67",
   "status": "proved",
   "theorems": [
    "Verif.C67_confirmation"
   ],
   "note": "For every family of sessions that satisfies Network (as in C66) and Sealed: what a session with an honest peer decrypts with its K_4 was encrypted with that key in one of the sessions, possibly the same one. The Responder's call of edhoc_message_4_compose can still have failed after the encryption. Non-vacuity: the toy handshakes of every method."
  },
  {
   "property": "C68",
   "status": "proved",
   "theorems": [
    "Verif.C68_initiator",
    "Verif.C68_responder"
   ],
   "note": "For every family of sessions that satisfies Network (as in C66), Sealed or Sealed3, and Shared (same primitives, commutative Diffie-Hellman, equal suites for equal numbers, an owner of a key has its private key). Exports of equal label and length after equal key updates. On the Responder's side the equality is claimed if the Initiator's edhoc_message_3_compose succeeded and the Initiator accepted an honest key; on the Initiator's side, if the Responder accepted an honest key. Non-vacuity: the toy handshakes of every method, with exports before and after a key update."
  },
  {
   "property": "C69",
   "status": "partial",
   "theorems": [
    "Verif.C69_demand_partial",
    "Verif.C69_nonzero_partial",
    "Verif.C69_wrap_violated",
    "Verif.C69_empty_violated",
    "Verif.C69_zero_array_violated"
   ],
   "note": "The full statement is false of the code. Proved for every call that does not meet a wrapped length (demand) and, in addition, with nothing empty to store (nonzero); the exceptions are spelled out in SpecDemand.lean. Violated with a ciphertext shorter than the tag, and in honest handshakes without EAD in message_4."
  },
  {
   "property": "C70",
   "status": "partial",
   "theorems": [
    "Verif.C70_update_partial",
    "Verif.C70_violated",
    "Verif.C70_oscore_violated",
    "Verif.C70_suites_violated",
    "Verif.C70_suites_oscore_violated"
   ],
   "note": "The code does not have the property in method 0: the shared secret G_XY stays in the context, and C70_violated and C70_oscore_violated give, for every session in which both parties sign, the function that computes the secrets exported before the first key update from it, the messages and the credentials; C70_suites_violated and C70_suites_oscore_violated say so for the four shipped cipher suites, whatever fails in PSA. Proved: a key update overwrites PRK_out and changes nothing else that is secret. Missing: for the methods 1 to 3, that no function computes them, which would need an assumption on the hash function."
  },
  {
   "property": "C71",
   "status": "proved",
   "theorems": [
    "Verif.C71_message2",
    "Verif.C71_message3",
    "Verif.C71_message4",
    "Verif.C71_standard"
   ],
   "note": "For every shipped suite and algorithms with the laws of C49 (C58 proves them for the standard algorithms). The remaining hypotheses are what cryptography provides: no collisions found, no repeated ephemeral keys, no forged signatures, MACs or ciphertexts. The non-vacuity example uses the suites 0 and 4 with toy algorithms and method 3."
  },
  {
   "property": "C72",
   "status": "proved",
   "theorems": [
    "Verif.C72_signed",
    "Verif.C72_once"
   ],
   "note": "C72_signed: what a signature is asked for, in every call and however it ends; C72_once: at most one per session."
  },
  {
   "property": "C73",
   "status": "proved",
   "theorems": [
    "Verif.C73_used",
    "Verif.C73_once",
    "Verif.C73_session"
   ],
   "note": "The empty peer key (a suite with eccKey 0) is excluded in C73_session."
  },
  {
   "property": "C74",
   "status": "partial",
   "theorems": [
    "Verif.C74_transfer_partial",
    "Verif.C74_export_partial",
    "Verif.C74_settled_partial",
    "Verif.C74_violated",
    "Verif.C74_update_violated"
   ],
   "note": "Holds unless a derivation of PRK_out fails in place; then it is violated (two witnesses): a repeated export delivers a secret that is not derived from the handshake."
  },
  {
   "property": "C75",
   "status": "proved",
   "theorems": [
    "Verif.C75_when",
    "Verif.C75_independent"
   ],
   "note": "Identity = credential callback (own credential, static DH key) and signature callback. C75_independent: non-interference, the same session exists for every other identity. That message 2 is accepted only from an authenticated Responder is C07 and C66."
  },
  {
   "property": "C76",
   "status": "proved",
   "theorems": [
    "Verif.C76_own",
    "Verif.C76_list",
    "Verif.C76_initiator",
    "Verif.C76_responder"
   ],
   "note": "Preference as the library has it: the last configured suite, the first configured method. The Responder's rule of RFC 9528 5.2.3 about suites listed before the selected one is C62. Assumptions about the attacker as in C66 (Network); C71_standard gives such a Network for the shipped suites. Sessions are configured before the first message (Settled)."
  },
  {
   "property": "C77",
   "status": "proved",
   "theorems": [
    "Verif.C77_call",
    "Verif.C77_session",
    "Verif.C77_publicKey"
   ],
   "note": "All calls in all states, and all sessions. The budgets are fixed numbers in SpecWork.lean; toy handshakes reach them, so none of the handshake's numbers can be lowered."
  },
  {
   "property": "C78",
   "status": "proved",
   "theorems": [
    "Verif.C78_two_ends",
    "Verif.C78_at_most_two"
   ],
   "note": "Keys of b bytes or more, where b is the length from which on Expand has no collisions in the calls of the sessions. The credentials are equal if the plaintexts received are well-formed (Whole2, Whole3); otherwise the strings of plaintext and credential are."
  },
  {
   "property": "C79",
   "status": "proved",
   "theorems": [
    "Verif.C79_enough",
    "Verif.C79_too_small",
    "Verif.C79_exactly",
    "Verif.C79_oscore",
    "Verif.C79_histories"
   ],
   "note": "All sizes and states. A buffer exactly one byte too small for message 3 overflows; this is finding C22_violated and appears as its own case of C79_too_small."
  },
  {
   "property": "C80",
   "status": "proved",
   "theorems": [
    "Verif.C80_call",
    "Verif.C80_history",
    "Verif.C80_session",
    "Verif.C80_backends"
   ],
   "note": "All pairs of configurations. The decoder settings are the same in both, and both or neither are built with EAD (a build without EAD never calls the EAD callbacks)."
  },
  {
   "property": "C81",
   "status": "proved",
   "theorems": [
    "Verif.C81_defined",
    "Verif.C81_message",
    "Verif.C81_dump",
    "Verif.C81_time",
    "Verif.C81_secret",
    "Verif.C81_silent",
    "Verif.C81_no_effect"
   ],
   "note": "Hosted backend. That the length of a dumped buffer is not larger than the buffer is a hypothesis (Readable). Log statements are a generated table of their source text; the types of the arguments are those of the declarations."
  },
  {
   "property": "C82",
   "status": "proved",
   "theorems": [
    "Verif.C82_two_ends",
    "Verif.C82_at_most_two",
    "Verif.C82_standard",
    "Verif.C82_initiator",
    "Verif.C82_responder"
   ],
   "note": "C78 and C76 for sessions with a shipped suite: assumptions are stated about the algorithms and the attacker only. C82_standard needs no assumption about encodings or functional correctness."
  },
  {
   "property": "C83",
   "status": "partial",
   "theorems": [
    "Verif.Wipe.C83_keys_left",
    "Verif.Wipe.C83_success_partial",
    "Verif.Wipe.C83_exact_partial"
   ],
   "note": "Violated: KEYSTREAM_2, K_3, K_4 and PRK_exporter are released without being overwritten. C83_success_partial: after a call that succeeded no released memory holds PRK_2e, G_RX or G_IY. C83_exact_partial: a table of exactly what each of the functions of the library can leave behind on success and on failure, over all executions of control skeletons extracted from the C text."
  },
  {
   "property": "C84",
   "status": "proved",
   "theorems": [
    "Verif.C84_closed",
    "Verif.C84_session",
    "Verif.C84_deinit"
   ],
   "note": "The message functions do not check is_init: on a de-initialised context they are refused because no cipher suite is set."
  },
  {
   "property": "C85",
   "status": "proved",
   "theorems": [
    "Verif.Mem.C85_nesting",
    "Verif.Mem.C85_bounded",
    "Verif.Mem.C85_exact",
    "Verif.Mem.C85_no_recursion"
   ],
   "note": "About the control skeletons of C45, whose branches may go either way; the bounds are attained there. Calls of callbacks and of the generated CBOR coder are not counted."
  },
  {
   "property": "C86",
   "status": "proved",
   "theorems": [
    "Verif.C86_order",
    "Verif.C86_call_stops",
    "Verif.C86_session_stops",
    "Verif.C86_exact"
   ],
   "note": ""
  },
  {
   "property": "C87",
   "status": "partial",
   "theorems": [
    "Verif.C87_once_partial",
    "Verif.C87_message3_once",
    "Verif.C87_once_of_role",
    "Verif.C87_violated",
    "Verif.C87_suites_partial",
    "Verif.C87_suites_of_role",
    "Verif.C87_standard"
   ],
   "note": "Violated: after one handshake both ends may compose message 4 (C39), and encrypt with the same key and nonce (C87_violated: different plaintexts). C87_once_partial: this is the only case; C87_message3_once: never for the key of message 3; C87_once_of_role: never if message 4 is composed by Responders only. C87_suites_*: for the shipped cipher suites; C87_standard: with the algorithms they name."
  },
  {
   "property": "C88",
   "status": "proved",
   "theorems": [
    "Verif.C88_one_handshake",
    "Verif.C88_at_most_two",
    "Verif.C88_not_exported",
    "Verif.C88_suites",
    "Verif.C88_suites_two",
    "Verif.C88_suites_exports",
    "Verif.C88_standard"
   ],
   "note": "Over any family of sessions with an active attacker; no assumption on peers. Spec in SpecOneKey.lean and SpecKeyShare.lean. C88_suites_*: for the shipped cipher suites; C88_standard: with the algorithms they name."
  },
  {
   "property": "C89",
   "status": "proved",
   "theorems": [
    "Verif.C89_message2",
    "Verif.C89_message3",
    "Verif.C89_message4",
    "Verif.C89_suites",
    "Verif.C89_standard"
   ],
   "note": "Over any family of sessions with an active attacker. Spec in SpecReplay.lean, SpecMatching.lean, SpecAgreement.lean. C89_suites: the shipped cipher suites; C89_standard: with the algorithms they name."
  },
  {
   "property": "C90",
   "status": "proved",
   "theorems": [
    "Verif.C90_distinct",
    "Verif.C90_update",
    "Verif.C90_oscore",
    "Verif.C90_suites",
    "Verif.C90_standard"
   ],
   "note": "Over any family of sessions with an active attacker; the two exports may be in the same session. Spec in SpecDistinct.lean and SpecKeyShare.lean."
  },
  {
   "property": "C91",
   "status": "partial",
   "theorems": [
    "Verif.C91_call_partial",
    "Verif.C91_history_partial",
    "Verif.C91_program_partial",
    "Verif.C91_in_order",
    "Verif.C91_responder",
    "Verif.C91_initiator",
    "Verif.C91_handshake",
    "Verif.C91_violated"
   ],
   "note": "Violated for composing message 1 when an allocation fails (C91_violated: seven failures fill a store of eight slots, and message 1 can never be composed again). Partial: every other call; every call if buffers are on the stack or no allocation fails; all histories and programs of several contexts if working memory does not run out. C91_handshake: after any history a handshake completes; C91_responder and C91_initiator: answers as in C65 with premises at the start of the session only."
  },
  {
   "property": "C92",
   "status": "proved",
   "theorems": [
    "Verif.C92_completes",
    "Verif.C92_suites",
    "Verif.C92_steady",
    "Verif.C92_initiator",
    "Verif.C92_responder",
    "Verif.C92_export",
    "Verif.C92_suites_initiator",
    "Verif.C92_suites_responder"
   ],
   "note": "any number of contexts, calls interleaved in any order; the shipped suites with a shared key store as an instance (there: allocations succeed, as in C91_program_partial)"
  },
  {
   "property": "C93",
   "status": "proved",
   "theorems": [
    "Verif.C93_serves",
    "Verif.C93_in_step",
    "Verif.C93_suites_serves",
    "Verif.C93_suites_in_step",
    "Verif.C93_concurrent",
    "Verif.C93_suites_concurrent"
   ],
   "note": "All sequences of exports (labels for applications, lengths up to 255 bytes, as longer ones fail, see C35), key updates (up to 60000 bytes of entropy) and OSCORE exports (one per key update, see C15), with exact results. C93_serves: one party after any messages that were accepted; C93_in_step: two honest parties; C93_suites_*: the same for the shipped cipher suites; C93_concurrent, C93_suites_concurrent: the calls succeed while calls on other contexts go on."
  }
 ]
}
