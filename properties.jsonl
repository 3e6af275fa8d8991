{"id": "C01", "title": "Handshake order", "statement": "For every sequence of API calls on a context since its initialisation, the message calls that succeeded form a prefix of one of the two RFC 9528 role sequences (compose 1, process 2, compose 3, then message 4) or (process 1, compose 2, process 3, then message 4). No message call can be skipped, repeated or taken out of order.", "quantifier": "all finite sequences of API calls with any arguments, all environments (callback behaviours)", "why_tests_cant": "The order must hold for every interleaving of setters, message calls, exporters and failures; the set of histories is infinite.", "anchors": ["library/edhoc_message_1.c: edhoc_message_1_compose, edhoc_message_1_process", "library/edhoc_message_2.c", "library/edhoc_message_3.c", "library/edhoc_message_4.c", "include/edhoc_context.h: enum edhoc_state_machine"]}
{"id": "C02", "title": "Failure aborts the session for good", "statement": "If a message call that was accepted for processing fails for any reason, the session is aborted: every later message call on that context returns EDHOC_ERROR_BAD_STATE until the context is initialised again.", "quantifier": "all message calls, all inputs, all callback results (each callback may fail at any point), all later call sequences", "why_tests_cant": "There are dozens of failure exits per function, reached by arbitrary callback failures; the claim also ranges over every later history.", "anchors": ["library/edhoc_message_*.c"]}
{"id": "C03", "title": "Rejected calls have no effect", "statement": "A message or exporter call rejected because of the session phase (EDHOC_ERROR_BAD_STATE before any work) leaves the context as it was and calls no application callback.", "quantifier": "all contexts, all calls, all arguments", "why_tests_cant": "Needs to hold for every context value, including those no test constructs.", "anchors": ["library/edhoc_message_*.c", "library/edhoc_exporter.c"]}
{"id": "C04", "title": "Protocol error code reported after each call", "statement": "After a message call, edhoc_error_get_code reports 0 exactly when the call succeeded; after a failed accepted call it reports 2 only for a cipher suite rejection of message 1, 3 only when the credential callback rejected the peer credential, and 1 otherwise.", "quantifier": "all message calls, inputs and callback behaviours", "why_tests_cant": "All failure exits of eight functions under arbitrary callback failures.", "anchors": ["library/edhoc.c: edhoc_error_get_code", "library/edhoc_message_*.c"]}
{"id": "C05", "title": "Cipher suite negotiation by the Responder", "statement": "edhoc_message_1_process succeeds only if the suite selected by the peer (the only suite, or the last of the list) is the Responder's most preferred configured suite; after error code 2 edhoc_error_get_cipher_suites returns the Responder's configured suites and the suites decoded from message 1. It reports suites after no other error code.", "quantifier": "all message 1 byte strings, all suite configurations", "why_tests_cant": "Ranges over all wire inputs and configurations.", "anchors": ["library/edhoc_message_1.c: edhoc_message_1_process", "library/edhoc.c: edhoc_error_get_cipher_suites"]}
{"id": "C06", "title": "Method negotiation", "statement": "The Initiator always proposes the first configured method; the Responder accepts message 1 only if the received method is one of its configured methods, and both then use that method.", "quantifier": "all inputs and configurations", "why_tests_cant": "All wire inputs and all method lists.", "anchors": ["library/edhoc_message_1.c"]}
{"id": "C07", "title": "Responder authentication by the Initiator", "statement": "If edhoc_message_2_process succeeds then, in that call, the application's credential callback accepted the credential identified in PLAINTEXT_2, and either (signature methods) the application's verify callback accepted the received signature, with the public key returned by the credential callback, over the COSE Sig_structure [Signature1, ID_CRED_R, <<TH_2, CRED_R, ?EAD_2>>, MAC_2], or (static DH methods) the received field is byte for byte equal to MAC_2, where MAC_2 is the expand output for context_2 = C_R, ID_CRED_R, TH_2, CRED_R, ?EAD_2 under PRK_3e2m.", "quantifier": "all message 2 byte strings, all environments, all methods and suites", "why_tests_cant": "An authentication bypass is a property of every adversarial input and callback history.", "anchors": ["library/edhoc_message_2.c: edhoc_message_2_process", "library/edhoc_common.c: edhoc_verify_sign_or_mac, verify_cose_sign_1, edhoc_comp_mac_context"]}
{"id": "C08", "title": "Initiator authentication by the Responder", "statement": "If edhoc_message_3_process succeeds then the application AEAD accepted CIPHERTEXT_3, the credential callback accepted the credential identified in PLAINTEXT_3, and the signature was verified over [Signature1, ID_CRED_I, <<TH_3, CRED_I, ?EAD_3>>, MAC_3] (methods 0, 1) or the received field equals MAC_3 (methods 2, 3), MAC_3 being the expand output for context_3 under PRK_4e3m.", "quantifier": "all message 3 byte strings, all environments, all methods and suites", "why_tests_cant": "Every adversarial input and callback history.", "anchors": ["library/edhoc_message_3.c: edhoc_message_3_process", "library/edhoc_common.c"]}
{"id": "C09", "title": "Transcript hashes follow RFC 9528", "statement": "Whenever the message functions succeed, the transcript hash held for the next step is TH_1 = H(message_1), TH_2 = H(G_Y, H(message_1)), TH_3 = H(TH_2, PLAINTEXT_2, CRED_R), TH_4 = H(TH_3, PLAINTEXT_3, CRED_I), each argument in its CBOR encoding, as computed by the application's hash callback.", "quantifier": "all inputs, environments, suites", "why_tests_cant": "An equation between the implementation and the specification for all byte strings.", "anchors": ["library/edhoc_message_2.c: comp_th_2, comp_th_3", "library/edhoc_message_3.c: comp_th_4"]}
{"id": "C10", "title": "Key schedule follows RFC 9528", "statement": "Whenever the message functions succeed with an application whose keys and KDF callbacks are faithful, the pseudorandom keys are PRK_2e = Extract(TH_2, G_XY), PRK_3e2m and PRK_4e3m as prescribed for each of the four methods (equal to the previous key for signature authentication, Extract(SALT, G_RX / G_IY) for static DH).", "quantifier": "all methods, suites, inputs, faithful environments", "why_tests_cant": "All methods times all byte strings.", "anchors": ["library/edhoc_message_2.c: comp_prk_2e, comp_prk_3e2m", "library/edhoc_message_3.c: comp_prk_4e3m"]}
{"id": "C11", "title": "Both parties derive the same keys", "statement": "If an Initiator and a Responder with faithful callbacks over the same primitives both complete the handshake on the messages the other sent, they hold the same TH_4 and PRK_4e3m.", "quantifier": "all pairs of sessions, all four methods, all credentials, EAD and connection identifiers, callbacks that may also fail", "why_tests_cant": "A relation between two unbounded executions.", "anchors": ["library/edhoc_message_1.c", "library/edhoc_message_2.c", "library/edhoc_message_3.c"]}
{"id": "C12", "title": "An honest handshake completes", "statement": "With correctly configured contexts, large enough buffers and non-failing faithful callbacks, the handshake succeeds end to end for each of the four methods, and each side ends up with the other's connection identifier.", "quantifier": "all methods, connection identifiers, credentials of each type, EAD, key material", "why_tests_cant": "Completeness over all inputs; the tests check a few vectors.", "anchors": ["library/edhoc_message_*.c"]}
{"id": "C13", "title": "Exporter output follows RFC 9528 and is shared", "statement": "edhoc_export_prk_exporter returns Expand(PRK_exporter, info(label, h'', length), length) with PRK_exporter = Expand(PRK_out, info(10, h'', hash_length)) and PRK_out = Expand(PRK_4e3m, info(7, TH_4, hash_length)); two completed peers with the same TH_4 and PRK_4e3m export the same secret.", "quantifier": "all labels and lengths, all prior exporter calls and key updates", "why_tests_cant": "All labels, lengths and call histories.", "anchors": ["library/edhoc_exporter.c: edhoc_export_prk_exporter"]}
{"id": "C14", "title": "OSCORE session export mirrors the two peers", "statement": "After a completed handshake the OSCORE master secret and salt exported by the peers are equal, and each peer's sender identifier is the other's recipient identifier.", "quantifier": "all connection identifiers, lengths, suites", "why_tests_cant": "Relation between two sessions over all identifiers.", "anchors": ["library/edhoc_exporter.c: edhoc_export_oscore_session"]}
{"id": "C15", "title": "OSCORE session is exported at most once per key epoch", "statement": "Between two successful key updates (or before the first) at most one edhoc_export_oscore_session call succeeds, and none before the handshake has completed.", "quantifier": "all API call sequences", "why_tests_cant": "Quantifies over all histories.", "anchors": ["library/edhoc_exporter.c"]}
{"id": "C16", "title": "Key update derives a new epoch", "statement": "A successful edhoc_export_key_update replaces PRK_out by Expand(PRK_out, info(11, entropy, hash_length)), invalidates previously derived exporter state and re-allows one OSCORE export; peers that supply the same entropy stay synchronised.", "quantifier": "all entropy byte strings, all histories", "why_tests_cant": "All byte strings and histories.", "anchors": ["library/edhoc_exporter.c: edhoc_export_key_update"]}
{"id": "C17", "title": "No key export before authentication is complete", "statement": "Exporter functions succeed only in a session in which the handshake has completed (Initiator composed message 3, Responder processed message 3), never in a fresh, running or aborted session.", "quantifier": "all API call sequences", "why_tests_cant": "All histories, including failures between any two calls.", "anchors": ["library/edhoc_exporter.c"]}
{"id": "C18", "title": "Imported keys are always destroyed", "statement": "In every API call each key the library imports through the keys callback is destroyed through the same interface before the call returns, on success and on every failure path.", "quantifier": "all calls, inputs, callback failures", "why_tests_cant": "Every failure point of every function.", "anchors": ["library/edhoc_common.c", "library/edhoc_message_*.c", "library/edhoc_exporter.c"]}
{"id": "C19", "title": "Ephemeral private key is wiped after its last use", "statement": "Once a party has used its ephemeral private key for the last time in the handshake, the context no longer contains it; de-initialisation clears every field of the context.", "quantifier": "all sessions", "why_tests_cant": "All paths.", "anchors": ["library/edhoc_message_2.c: comp_dh_secret, comp_grx", "library/edhoc_message_3.c: comp_giy", "library/edhoc.c: edhoc_context_deinit"]}
{"id": "C20", "title": "Message 1 wire format", "statement": "A successful edhoc_message_1_compose writes exactly the CBOR sequence METHOD, SUITES_I, G_X, C_I, ?EAD_1 of RFC 9528 section 5.2.1, with the configured values, within the caller's buffer, and returns its length.", "quantifier": "all configurations and EAD tokens", "why_tests_cant": "All values.", "anchors": ["library/edhoc_message_1.c: edhoc_message_1_compose", "backends/cbor/src/backend_cbor_message_1_encode.c"]}
{"id": "C21", "title": "Messages 2, 3 and 4 wire format", "statement": "Successful compose calls write message_2 = bstr(G_Y || CIPHERTEXT_2), message_3 = bstr(CIPHERTEXT_3), message_4 = bstr(CIPHERTEXT_4) in minimal CBOR, with CIPHERTEXT_2 = PLAINTEXT_2 XOR KEYSTREAM_2 and the AEAD ciphertexts bound to AAD [Encrypt0, h'', TH].", "quantifier": "all inputs", "why_tests_cant": "All values.", "anchors": ["library/edhoc_message_2.c", "library/edhoc_message_3.c", "library/edhoc_message_4.c"]}
{"id": "C22", "title": "Caller output buffers are respected", "statement": "No compose or export call writes more bytes than the size the caller passed; the reported length never exceeds that size.", "quantifier": "all buffer sizes and inputs", "why_tests_cant": "Off-by-one errors occur at one size out of infinitely many.", "anchors": ["library/edhoc_message_*.c", "library/edhoc_exporter.c"]}
{"id": "C23", "title": "Malformed messages are rejected", "statement": "A process call on a byte string that is not an encoding of the expected CBOR sequence fails.", "quantifier": "all byte strings", "why_tests_cant": "All malformed inputs.", "anchors": ["library/edhoc_message_1.c: edhoc_message_1_process", "backends/cbor/src/*_decode.c"]}
{"id": "C24", "title": "Only complete messages are accepted", "statement": "A process call that succeeds has consumed the whole input: no trailing bytes and no undelivered EAD item.", "quantifier": "all byte strings", "why_tests_cant": "All extensions of all messages.", "anchors": ["library/edhoc_message_*.c", "backends/cbor/src/*_decode.c"]}
{"id": "C25", "title": "CBOR round trip", "statement": "Decoding the encoding of message 1, of each plaintext, of messages 2 to 4 and of the error message returns the values encoded.", "quantifier": "all values in range, both decoder strictness settings", "why_tests_cant": "All values.", "anchors": ["backends/cbor/src/*.c"]}
{"id": "C26", "title": "Memory safety of message processing", "statement": "With suite parameters within the configured maxima and all callbacks bound, processing any byte string never makes the library write or read outside its buffers, call a null callback, or request an allocation of a wrapped-around size.", "quantifier": "all byte strings, environments, configurations", "why_tests_cant": "All adversarial inputs.", "anchors": ["library/edhoc_message_*.c: *_process", "library/edhoc_message_error.c"]}
{"id": "C27", "title": "EAD delivery", "statement": "The EAD tokens handed to the process callback are exactly the tokens in the received (decrypted) message, in order, at most the configured number, and each process call invokes the EAD callback at most once.", "quantifier": "all messages", "why_tests_cant": "All token lists.", "anchors": ["library/edhoc_message_*.c", "include/edhoc_ead.h"]}
{"id": "C28", "title": "EAD round trip", "statement": "In an honest exchange the tokens the peer's compose callback produced are the tokens the process callback receives.", "quantifier": "all token lists allowed by the configuration", "why_tests_cant": "All token lists.", "anchors": ["library/edhoc_message_*.c"]}
{"id": "C29", "title": "Error message round trip", "statement": "edhoc_message_error_process on the output of edhoc_message_error_compose returns the error code and the error information (text, suites) that were composed. Composing succeeds exactly when the caller gives the information the code calls for and the message fits.", "quantifier": "all codes and information values", "why_tests_cant": "All texts and suite lists.", "anchors": ["library/edhoc_message_error.c"]}
{"id": "C30", "title": "Setters accept exactly the documented values", "statement": "Each setter succeeds exactly on the documented domain (1 to 4 methods, 1 to max suites, connection identifier -24..23 or 1 to max bytes, complete callback tables), stores the value, and changes nothing else; otherwise it changes nothing.", "quantifier": "all contexts and arguments", "why_tests_cant": "All arguments.", "anchors": ["library/edhoc.c"]}
{"id": "C31", "title": "Connection identifier helpers", "statement": "Prepending a connection identifier to a message and extracting it again returns the identifier and the message; identifier equality is an equivalence relation that distinguishes different identifiers.", "quantifier": "all identifiers and messages", "why_tests_cant": "All identifiers.", "anchors": ["helpers/src/edhoc_helpers.c"]}
{"id": "C32", "title": "Flow helpers", "statement": "Prepending the forward-flow marker and extracting flow information recovers the flow type and the message; a buffer without marker and without content is the reverse flow.", "quantifier": "all messages", "why_tests_cant": "All byte strings.", "anchors": ["helpers/src/edhoc_helpers.c"]}
{"id": "C33", "title": "KDF domain separation", "statement": "Within one session no two keys, IVs, MACs, salts or keystreams of the handshake are derived with the same info string; each derivation uses the label RFC 9528 assigns to its purpose; the exporter keys have labels of their own; the info encoding is injective in (label, context, length).", "quantifier": "all contexts, suites", "why_tests_cant": "All pairs of derivations.", "anchors": ["library/edhoc_common.c: edhoc_comp_mac", "library/edhoc_message_2.c", "library/edhoc_message_3.c", "library/edhoc_message_4.c", "library/edhoc_exporter.c"]}
{"id": "C34", "title": "Message 4 confirms the keys", "statement": "edhoc_message_4_process succeeds only if the application AEAD accepted the ciphertext under K_4, IV_4 derived from PRK_4e3m and TH_4 with AAD [Encrypt0, h'', TH_4].", "quantifier": "all byte strings and environments", "why_tests_cant": "All adversarial inputs.", "anchors": ["library/edhoc_message_4.c: edhoc_message_4_process"]}
{"id": "C35", "title": "Internal buffer sizes suffice", "statement": "The sizes the library computes for its internal CBOR buffers are at least the encoded sizes, so that a compose call never fails for lack of internal space.", "quantifier": "all values below 64 KiB", "why_tests_cant": "All sizes.", "anchors": ["library/edhoc_common.c: edhoc_cbor_int_mem_req, edhoc_cbor_bstr_oh, edhoc_comp_mac_context_length"]}
{"id": "C36", "title": "Transcript binding", "statement": "If hashing is injective on the inputs used, two parties that hold the same TH_4 agree on message 1, G_Y, and on the plaintexts and credentials hashed into the transcript.", "quantifier": "all pairs of sessions", "why_tests_cant": "All pairs of transcripts.", "anchors": ["library/edhoc_message_2.c", "library/edhoc_message_3.c"]}
{"id": "C37", "title": "Message 2 encryption is an involution and is keyed to its length", "statement": "Encrypting with KEYSTREAM_2 and decrypting with the same keystream returns the plaintext; the keystream has exactly the plaintext's length.", "quantifier": "all plaintexts and keystreams", "why_tests_cant": "All byte strings.", "anchors": ["library/edhoc_message_2.c: xor_arrays, comp_keystream"]}
{"id": "C38", "title": "Sessions are independent and deterministic", "statement": "The result of an API call depends only on its arguments, the context and the callback results; calls on one context never change another context.", "quantifier": "all interleavings of calls on two contexts", "why_tests_cant": "All interleavings.", "anchors": ["include/edhoc_context.h"]}
{"id": "C39", "title": "Message 4 goes from the Responder to the Initiator", "statement": "Only the Responder of a session can compose message 4 and only the Initiator can process it, and each only after messages 1 to 3 succeeded on that context.", "quantifier": "all histories of API calls on a context, all callback results, all received bytes", "why_tests_cant": "A test that drives each side in its own role never makes the call that must be refused; the claim is about every history of calls.", "anchors": ["library/edhoc_message_4.c: edhoc_message_4_compose", "library/edhoc_message_4.c: edhoc_message_4_process", "include/edhoc.h"]}
{"id": "C40", "title": "AEAD keys encrypt once", "statement": "Each AEAD key and IV of a session is used for at most one encryption: only composing message 3 and composing message 4 encrypt, each at most once, whatever calls are made and however they end.", "quantifier": "all contexts, all calls, all later histories without re-initialisation, all callback results", "why_tests_cant": "Nonce reuse must be excluded for every order of calls, including retries after failures, not for the orders a test tries.", "anchors": ["library/edhoc_message_3.c: edhoc_message_3_compose", "library/edhoc_message_4.c: edhoc_message_4_compose"]}
{"id": "C41", "title": "Received error messages are read for what they are", "statement": "edhoc_message_error_process reports the code in the message (0 to 3, anything else is refused), delivers no more entries than the caller's buffer holds, and reads ERR_INFO as the kind the message carries: it never takes a text for suites or suites for a text, and never reads outside the message.", "quantifier": "all byte strings, all buffer sizes, all decoder settings", "why_tests_cant": "The error message comes from an unauthenticated peer, so every byte string must be considered.", "anchors": ["library/edhoc_message_error.c: edhoc_message_error_process", "backends/cbor/src/backend_cbor_message_error_decode.c"]}
{"id": "C42", "title": "Only documented return codes", "statement": "Every error code an API function returns is listed for that function in the header edhoc.h, whatever the state of the context, the arguments and the results of the callbacks.", "quantifier": "all API functions that take a context, all context values, all arguments, all callback and allocator results", "why_tests_cant": "The set of reachable codes is a statement about every failing path of every function, with every combination of failing callbacks.", "anchors": ["include/edhoc.h (\\retval lists)", "include/edhoc_values.h", "library/edhoc_message_1.c", "library/edhoc_message_2.c", "library/edhoc_message_3.c", "library/edhoc_message_4.c", "library/edhoc_exporter.c", "library/edhoc.c"]}
{"id": "C43", "title": "No failure is swallowed", "statement": "When the allocator or any application callback other than the destruction of a key reports failure during an API call, that call returns an error; it never reports success.", "quantifier": "all API functions that take a context, all context values, all arguments, all sequences of callback results", "why_tests_cant": "Each of the many callback invocations may fail at any point, in any state; tests cover a few failing callbacks.", "anchors": ["library/edhoc_message_1.c", "library/edhoc_message_2.c", "library/edhoc_message_3.c", "library/edhoc_message_4.c", "library/edhoc_exporter.c", "library/edhoc_common.c"]}
{"id": "C44", "title": "The return code names the cause", "statement": "When a callback fails, the code returned belongs to that callback: credentials callbacks give a credentials failure, EAD callbacks an EAD failure, a refused signature an invalid Signature_or_MAC of that message, key pair generation an ephemeral Diffie-Hellman failure, hashing a transcript hash failure (a crypto failure in message 1), and so on.", "quantifier": "all API functions that take a context, all context values, all arguments, all sequences of callback results", "why_tests_cant": "The code is chosen at every return site of every function; a wrong code at one of them is invisible unless that very callback fails there.", "anchors": ["library/edhoc_message_1.c", "library/edhoc_message_2.c", "library/edhoc_message_3.c", "library/edhoc_message_4.c", "library/edhoc_common.c", "include/edhoc_values.h"]}
{"id": "C45", "title": "Working memory is returned", "statement": "Every API call gives back all working memory it obtained from the allocator: whatever the allocator, the callbacks and the checks on the way give, each buffer obtained during the call is released exactly once before the call returns, and no buffer is accessed after its release or after the allocation of it failed.", "quantifier": "all API functions and internal functions, all outcomes of every allocation, every callback and every check, any number of rounds of every loop", "why_tests_cant": "There are over three hundred release sites on the error paths; a missing or doubled release on one of them shows only when that very step fails with those buffers allocated.", "anchors": ["library/edhoc_common.c", "library/edhoc_exporter.c", "library/edhoc_message_1.c", "library/edhoc_message_2.c", "library/edhoc_message_3.c", "library/edhoc_message_4.c", "backends/memory (EDHOC_MEM_ALLOC, EDHOC_MEM_FREE)"]}
{"id": "C46", "title": "The cipher suite tables are the registered ones", "statement": "The cipher suite tables shipped with the library (suites 0, 2, 4 and 24) carry the number of the registered suite and exactly its algorithms and lengths (AEAD key, tag and nonce, hash, MAC, public key, signature, curve parameters), what the suite's callbacks produce has these lengths, and a handshake is possible with them.", "quantifier": "all four shipped suites, all entries of their tables, all inputs of the callbacks", "why_tests_cant": "A wrong length in a table makes both ends of the same implementation agree with each other and still break interoperability or security margins.", "anchors": ["helpers/src/edhoc_cipher_suite_0.c", "helpers/src/edhoc_cipher_suite_2.c", "helpers/src/edhoc_cipher_suite_4.c", "helpers/src/edhoc_cipher_suite_24.c"]}
{"id": "C47", "title": "The cipher suite callbacks compute what they are named for", "statement": "When a callback of a shipped cipher suite succeeds, its result is the suite's algorithm applied to the imported key and the arguments: hash, HKDF-Extract, HKDF-Expand, AEAD, key pair generation, key agreement (on the NIST curves with a point that has the peer's x-coordinate), signing and verification. A failure of the crypto library below makes the callback fail. Only import and destruction change the set of stored keys, destruction undoes import, a failed import stores nothing, and no memory beyond the given buffers is read.", "quantifier": "all four shipped suites, all keys, inputs and identifiers, all contents of the key store, all failures of the crypto library below", "why_tests_cant": "Tests run each callback on a few vectors with a crypto library that never fails; a wrong branch on failure or on an unusual key is not seen.", "anchors": ["helpers/src/edhoc_cipher_suite_0.c", "helpers/src/edhoc_cipher_suite_2.c", "helpers/src/edhoc_cipher_suite_4.c", "helpers/src/edhoc_cipher_suite_24.c", "include/edhoc_crypto.h"]}
{"id": "C48", "title": "A key serves only the purpose it was imported for", "statement": "A key imported through a shipped cipher suite for one purpose (key pair generation, key agreement, signature, verification, extract, expand, encryption, decryption) cannot be used successfully in an operation of another purpose.", "quantifier": "all shipped suites, all pairs of different purposes, all key bytes, all arguments of the operation, all contents of the key store", "why_tests_cant": "Tests use each key the way it was meant; that every misuse fails is a statement about all other operations and all arguments.", "anchors": ["helpers/src/edhoc_cipher_suite_0.c (edhoc_cipher_suite_0_key_import)", "helpers/src/edhoc_cipher_suite_2.c (edhoc_cipher_suite_2_key_import)", "include/edhoc_crypto.h (enum edhoc_key_type)"]}
{"id": "C49", "title": "Sessions with a shipped cipher suite", "statement": "In every session of an application that binds a shipped cipher suite, all cryptographic results the library receives are those of fixed primitives, even though key identifiers are reused after destruction; the library never touches a key the application had stored before; and an Initiator and a Responder that complete a handshake on each other's messages hold the same session keys.", "quantifier": "all four shipped suites, all applications (with any other callbacks that only add keys), all sequences of API calls, all failures of the crypto library below, all contents of the key store", "why_tests_cant": "Key identifiers are recycled in an order that depends on the whole history of imports and destructions, including those on failing paths.", "anchors": ["helpers/src/edhoc_cipher_suite_0.c", "helpers/src/edhoc_cipher_suite_2.c", "library/edhoc_message_1.c", "library/edhoc_message_2.c", "library/edhoc_message_3.c"]}
{"id": "C50", "title": "Public keys sent without their second coordinate are completed correctly", "statement": "For every x-coordinate of a point on the curve of suites 2 and 24, the helper of the suite computes a point of the curve with this x-coordinate (there are exactly two, negatives of each other), and the key agreement of the suite succeeds exactly for the byte strings that are x-coordinates of a point.", "quantifier": "all points of P-256 and P-384, all byte strings received as a public key, all private keys", "why_tests_cant": "The claim covers about 2^256 (2^384) x-coordinates; it rests on the primality of the field primes and on the cubic having no root.", "anchors": ["helpers/src/edhoc_cipher_suite_2.c (mbedtls_ecp_decompress, edhoc_cipher_suite_2_key_agreement)", "helpers/src/edhoc_cipher_suite_24.c (mbedtls_ecp_decompress, edhoc_cipher_suite_24_key_agreement)"]}
{"id": "C51", "title": "Honest handshakes over the shipped suites complete", "statement": "Two applications that bind the same shipped cipher suite, hold authentication keys of the suite in their key stores and exchange the messages unchanged complete the handshake: every call succeeds, with or without message 4, and both export the same OSCORE master secret and salt with mirrored identifiers.", "quantifier": "all four shipped suites, all four methods, all keys, random draws, credentials, connection identifiers and EAD items within the documented limits, all other contents of the key stores", "why_tests_cant": "Tests run a few handshakes with fixed keys; the claim covers every key, every random draw and every admissible configuration.", "anchors": ["helpers/src/edhoc_cipher_suite_0.c", "helpers/src/edhoc_cipher_suite_2.c", "helpers/src/edhoc_cipher_suite_4.c", "helpers/src/edhoc_cipher_suite_24.c", "include/edhoc.h (edhoc_message_1_compose … edhoc_export_oscore_session)"]}
{"id": "C52", "title": "The CBOR decoders accept exactly what they understand", "statement": "If the decoder of a message (message_1 to message_4, the plaintexts, the error message, a connection identifier, EAD items, an ID_CRED map, or the info, Enc_structure and Sig_structure inputs of the cryptographic operations) accepts a byte string, the byte string begins with an encoding of exactly the values the decoder returns: no field is mixed up, cut or invented, and the flag that EAD is present is true exactly if there are items. The deterministic encoding of every message within the limits of the CDDL is accepted and returns its fields. No decoder runs out of its element or backup budget on such an encoding.", "quantifier": "all byte strings, all messages within the CDDL limits, both strictness settings of the decoder, with and without containers of indefinite length", "why_tests_cant": "Tests decode a handful of vectors; the decoders are generated code with shared element counters, backups and unions, whose interplay on arbitrary input (for example a list without end inside a union) is not visible in samples.", "anchors": ["backends/cbor/src/backend_cbor_message_1_decode.c (cbor_decode_message_1)", "backends/cbor/src/backend_cbor_plaintext_2_decode.c (cbor_decode_plaintext_2)", "backends/cbor/src/backend_cbor_plaintext_3_decode.c", "backends/cbor/src/backend_cbor_plaintext_4_decode.c", "backends/cbor/src/backend_cbor_message_error_decode.c", "backends/cbor/src/backend_cbor_connection_identifier_decode.c", "backends/cbor/src/backend_cbor_int_type_decode.c", "backends/cbor/src/backend_cbor_ead_decode.c", "backends/cbor/src/backend_cbor_id_cred_x_decode.c", "backends/cbor/src/backend_cbor_info_decode.c", "backends/cbor/src/backend_cbor_enc_structure_decode.c", "backends/cbor/src/backend_cbor_sig_structure_decode.c"]}
{"id": "C53", "title": "The CBOR encoders write the deterministic encoding or nothing", "statement": "An encoder succeeds exactly if the values are within the limits of the CDDL and their deterministic encoding fits in the buffer, and it then writes exactly that encoding. What is written decodes to the same values. This covers message_1, message_2 to message_4, PLAINTEXT_2 to PLAINTEXT_4, ID_CRED, EAD items, connection identifiers, integers, error messages, and the info, Enc_structure and Sig_structure inputs of the cryptographic operations.", "quantifier": "all values, all buffer sizes", "why_tests_cant": "Tests encode a handful of vectors into large buffers; boundary sizes, containers whose head is written after their contents, and all combinations of optional fields are not sampled.", "anchors": ["backends/cbor/src/backend_cbor_message_1_encode.c (cbor_encode_message_1)", "backends/cbor/src/backend_cbor_id_cred_x_encode.c", "backends/cbor/src/backend_cbor_message_error_encode.c", "backends/cbor/src/backend_cbor_plaintext_4_encode.c", "backends/cbor/src/backend_cbor_info_encode.c", "backends/cbor/src/backend_cbor_enc_structure_encode.c", "backends/cbor/src/backend_cbor_sig_structure_encode.c", "backends/cbor/src/backend_cbor_ead_encode.c", "backends/cbor/src/backend_cbor_connection_identifier_encode.c", "backends/cbor/src/backend_cbor_plaintext_2_encode.c", "backends/cbor/src/backend_cbor_plaintext_3_encode.c"]}
{"id": "C54", "title": "The post-quantum suite computes its algorithms with the imported keys", "statement": "After a key was imported into the experimental post-quantum suite and as long as it is not destroyed, signing, verifying, decapsulating, Extract, Expand, encryption and decryption with its handle succeed exactly under the documented conditions on lengths (and if the libraries below do not fail), and give ML-DSA-44, ML-KEM-512, KMAC256 (RFC 9528, 4.1) or AES-CCM-16-128-128 of that key. A secret encapsulated by a Responder to a public key is the one the Initiator decapsulates with the handle of the key pair, whatever else happened on the handle's side in between.", "quantifier": "all keys, inputs, buffer sizes; all histories of calls of the suite and of other uses of PSA between import and use", "why_tests_cant": "Tests run one operation after one import with fixed vectors; other keys and key pairs in between and all lengths are not covered.", "anchors": ["helpers/src/edhoc_exp_pqc_cipher_suite_1.c (exp_pqc_cs1_signature, exp_pqc_cs1_verify, exp_pqc_cs1_encapsulate, exp_pqc_cs1_decapsulate, exp_pqc_cs1_extract, exp_pqc_cs1_expand, exp_pqc_cs1_encrypt, exp_pqc_cs1_decrypt, exp_pqc_cs1_hash)", "helpers/src/edhoc_kdf_kmac256_xkcp.c (edhoc_kdf_kmac256)"]}
{"id": "C55", "title": "Handles of post-quantum key pairs: one private key each, nothing after destruction", "statement": "After every history the static key memory of the post-quantum suite holds exactly the private key of the last key pair of each handle that is in use, and zeros otherwise. A new handle is one not in use, and is refused without effect only when both are in use. A handle works for decapsulation exactly while it holds a key pair, with that pair's private key; after its destruction it does not work. No other key gets the handle of a key pair or of a key in use.", "quantifier": "all histories of calls, with failures of the libraries at any call", "why_tests_cant": "Reuse of freed slots, remains of earlier keys and interleavings of two handles arise only in long histories.", "anchors": ["helpers/src/edhoc_exp_pqc_cipher_suite_1.c (exp_pqc_cs1_slot_alloc, exp_pqc_cs1_slot_free, exp_pqc_cs1_slot_from_handle, exp_pqc_cs1_key_import, exp_pqc_cs1_key_destroy, exp_pqc_cs1_make_key_pair)"]}
{"id": "C56", "title": "The post-quantum suite is memory safe and loses no failure", "statement": "No call of the post-quantum suite has undefined behaviour, what a call writes fits into the buffers it was given, and a call that succeeds had no failing call to PSA, liboqs or XKCP on its way.", "quantifier": "all calls with all arguments, after all histories", "why_tests_cant": "Buffer sizes at their limits in every state, and a failure at each single library call, are not enumerated by tests.", "anchors": ["helpers/src/edhoc_exp_pqc_cipher_suite_1.c"]}
{"id": "C57", "title": "A key of the post-quantum suite has one use", "statement": "A key imported for one use works for no operation of another use.", "quantifier": "all keys and uses, all histories between import and use", "why_tests_cant": "Tests use each key for its purpose only.", "anchors": ["helpers/src/edhoc_exp_pqc_cipher_suite_1.c (exp_pqc_cs1_key_import, exp_pqc_cs1_export_raw_key)"]}
{"id": "C58", "title": "With the named standard algorithms every key works", "statement": "With the algorithms the shipped suites name (SHA-2, HKDF, AES-CCM, AES-GCM, ChaCha20-Poly1305, ECDH and ECDSA on P-256 and P-384, X25519, Ed25519) two peers complete a handshake and export the same OSCORE secrets, whatever their long-term keys are and whatever private keys their random generators give; nothing further is assumed about the algorithms.", "quantifier": "all shipped suites, methods, long-term keys and random values, with and without message 4", "why_tests_cant": "Tests use a few keys; agreement of the x-coordinates, decompressed points and signatures for all keys is number theory.", "anchors": ["helpers/src/edhoc_cipher_suite_0.c", "helpers/src/edhoc_cipher_suite_2.c", "helpers/src/edhoc_cipher_suite_4.c", "helpers/src/edhoc_cipher_suite_24.c"]}
{"id": "C59", "title": "A handshake with any conforming peer completes", "statement": "The library completes a handshake with any peer that follows RFC 9528, not only with itself. As Initiator: message_1 is one of RFC 9528; every message_2 that RFC 9528 admits as answer, from the Responder the application knows and within the documented limits, is accepted; message_3 is one of RFC 9528; every message_4 of RFC 9528 is accepted. As Responder: every message_1 of RFC 9528 that selects its suite, and every message_3 that RFC 9528 admits, are accepted, and its message_2 and message_4 are of RFC 9528. After message_3 and after message_4 it exports the OSCORE keys of RFC 9528.", "quantifier": "all conforming peers (any choice of ephemeral keys, connection identifier, suites, EAD items, credential, signature), all methods, cipher suites, credentials of the own party and initial states of the context", "why_tests_cant": "The tests run the library against itself and against two fixed traces.", "anchors": ["library/edhoc_message_1.c", "library/edhoc_message_2.c", "library/edhoc_message_3.c", "library/edhoc_message_4.c", "library/edhoc_exporter.c"]}
{"id": "C60", "title": "ID_CRED_x is encoded as RFC 9528 says", "statement": "For every credential an application supplies, message_2 and message_3 carry ID_CRED_x in the form of RFC 9528, section 3.5.3.2 (a key identifier as byte string without the map, or as it is if it is the encoding of a one-byte integer; other identifiers as map), and MAC_2, MAC_3 and the signatures are computed over the map { kid : bstr }; and a received key identifier leads to the same map.", "quantifier": "all sessions, credentials (key identifiers as byte string or integer, CBOR or not, certificates, hashes) and messages 2 and 3", "why_tests_cant": "Tests cover one key identifier per form; the combinations of encode_type, cred_is_cbor and length matter.", "anchors": ["library/edhoc_common.c: kid_compact_encoding, edhoc_comp_mac_context", "include/edhoc_credentials.h: edhoc_auth_cred_key_id"]}
{"id": "C61", "title": "The shipped suites interoperate with any conforming peer", "statement": "An application that uses one of the cipher suites shipped in helpers/ completes a handshake with any peer that follows RFC 9528 and uses the algorithms of the standards the suite names: all messages and the exported OSCORE keys are those of RFC 9528, computed with SHA-2, HKDF, AES-CCM, AES-GCM, ChaCha20-Poly1305, ECDH and ECDSA on the NIST curves, X25519 and Ed25519.", "quantifier": "all shipped suites, methods, long-term and ephemeral keys, conforming peers, credentials and EAD items within the limits of the library", "why_tests_cant": "Two fixed traces exist; keys, peers and choices are unbounded.", "anchors": ["helpers/src/edhoc_cipher_suite_0.c", "helpers/src/edhoc_cipher_suite_2.c", "helpers/src/edhoc_cipher_suite_4.c", "helpers/src/edhoc_cipher_suite_24.c", "library/edhoc_message_2.c", "library/edhoc_message_3.c"]}
{"id": "C62", "title": "Suite selection follows RFC 9528", "statement": "edhoc_message_1_process accepts, as far as cipher suites are concerned, exactly the messages section 5.2.3 of RFC 9528 admits: the selected suite (the last of SUITES_I) is one of the configured suites, and none of those listed before it is.", "quantifier": "all configured lists of suites, all SUITES_I of any length", "why_tests_cant": "Tests use one configured suite per peer; lists of any length and content on both sides matter.", "anchors": ["library/edhoc_message_1.c: edhoc_message_1_process", "include/edhoc.h: edhoc_set_cipher_suites"]}
{"id": "C63", "title": "OSCORE identifiers are distinct", "statement": "The sender and recipient identifier of an exported OSCORE session are distinct (RFC 8613 requires it, RFC 9528 section 3.3.3 makes the parties ensure it when connection identifiers are used for OSCORE).", "quantifier": "all sessions, connection identifiers of both peers and export calls", "why_tests_cant": "Tests choose distinct identifiers; an integer and a byte string may have the same OSCORE form.", "anchors": ["library/edhoc_exporter.c: edhoc_export_oscore_session", "library/edhoc.c: edhoc_set_connection_id"]}
{"id": "C64", "title": "Exporting keys does not disturb message 4", "statement": "After messages 1 to 3, message 4 can be composed or processed whether or not keys were exported or updated before.", "quantifier": "all sessions and all orders of exporter, key update, OSCORE export and message 4 calls", "why_tests_cant": "Tests fix one order of the calls.", "anchors": ["library/edhoc_message_4.c: edhoc_message_4_compose, edhoc_message_4_process", "library/edhoc_exporter.c: edhoc_export_prk_exporter, edhoc_export_key_update, edhoc_export_oscore_session"]}
{"id": "C65", "title": "No accepted message makes the answer fail", "statement": "As long as the application's own callbacks do not fail and its settings and credential are within the limits, the call that composes the next message succeeds after any accepted message, and keys can be exported after any completed handshake, whatever the peer put into its messages, provided that the peer's ephemeral key is a public key.", "quantifier": "all sessions, all sequences of messages from any peer, conforming or not, and all application callbacks that compute the primitives", "why_tests_cant": "Tests use messages of conforming peers, or messages that are rejected.", "anchors": ["library/edhoc_message_1.c: edhoc_message_1_compose, edhoc_message_1_process", "library/edhoc_message_2.c: edhoc_message_2_compose, edhoc_message_2_process", "library/edhoc_message_3.c: edhoc_message_3_compose, edhoc_message_3_process", "library/edhoc_message_4.c: edhoc_message_4_compose", "library/edhoc_exporter.c: edhoc_export_prk_exporter, edhoc_export_oscore_session"]}
{"id": "C66", "title": "Agreement against an active attacker", "statement": "If a session accepts message 2 (message 3) as coming from the owner of a key that is used in honest sessions only, then another session, of that owner and in the other role, received (sent) the same message 1 and computed its message 2 (message 3) with the same method, cipher suite, ephemeral keys, transcript hashes, connection identifier C_R, credential, EAD and MAC. No session is the peer of two sessions in this way, so a session is never accepted twice, be it by replay or by reflection.", "quantifier": "all families of sessions of any number of parties with any application callbacks, all messages an attacker delivers to them in any order, provided that signatures and MACs are not forged, hashes do not collide and ephemeral keys are not repeated in these sessions", "why_tests_cant": "Tests have no attacker that interleaves several sessions; that every signature and MAC an honest party ever computes can serve in only one session and role is a statement about all histories.", "anchors": ["library/edhoc_message_2.c: edhoc_message_2_compose, edhoc_message_2_process", "library/edhoc_message_3.c: edhoc_message_3_compose, edhoc_message_3_process", "library/edhoc_common.c: edhoc_comp_mac, edhoc_comp_sign_or_mac, edhoc_verify_sign_or_mac"]}
{"id": "C67", "title": "Message 4 confirms that the Responder accepted message 3", "statement": "If a session that sent message 1 accepts message 4, with a peer key that is used in honest sessions only, then another session, of the owner of that key and in the role of the Responder, received the same message 1, sent a message 2 and accepted a message 3, and both have the same method, cipher suite, ephemeral keys, connection identifier C_R, Responder credential, PLAINTEXT_2, PLAINTEXT_3, both credentials in the transcript, and transcript hashes TH_1 to TH_4.", "quantifier": "all families of sessions of any number of parties with any application callbacks, all messages an attacker delivers to them in any order, under the assumptions of C66 and that the attacker cannot encrypt with the K_4 of a session with an honest peer", "why_tests_cant": "Tests have no attacker; that no ciphertext other than a message 4 computed after message 3 was accepted can ever be taken for message 4 is a statement about all histories of all sessions.", "anchors": ["library/edhoc_message_4.c: edhoc_message_4_compose, edhoc_message_4_process", "library/edhoc_message_3.c: edhoc_message_3_compose, edhoc_message_3_process"]}
{"id": "C68", "title": "Matching sessions export the same keys in spite of an active attacker", "statement": "If an Initiator accepts message 4 from the owner of an honest key, then there is a session of that owner, in the role of the Responder, such that, if it accepted an honest key too, whatever secrets both export after the handshake and after the same key updates are equal, their OSCORE master secrets and salts are equal, and their OSCORE identifiers are exchanged. The same holds for a Responder that accepts message 3 and the Initiator session that completed it.", "quantifier": "all families of sessions of any number of parties with any application callbacks, all messages an attacker delivers to them in any order, all export labels, lengths and key updates, under the assumptions of C66, that all sessions compute the same primitives with commutative Diffie-Hellman, and that the attacker cannot encrypt with the K_3 and K_4 of a session with an honest peer", "why_tests_cant": "Tests let two contexts talk to each other directly; that an attacker who delivers, drops, changes and replays messages between any number of sessions cannot make two peers that accept each other end with different keys is a statement about all histories of all sessions.", "anchors": ["library/edhoc_exporter.c: edhoc_export_prk_exporter, edhoc_export_oscore_session, edhoc_export_key_update", "library/edhoc_message_3.c: edhoc_message_3_compose, edhoc_message_3_process", "library/edhoc_message_4.c: edhoc_message_4_compose, edhoc_message_4_process"]}
{"id": "C69", "title": "Working memory is bounded and never empty", "statement": "The buffers one call takes from the memory backend add up to at most a linear function of the configured maxima, the sizes of the cipher suite, the length of the received message and the sizes of the credentials and EAD the application provides. No requested buffer has zero bytes. So with the stack backend, which cannot report failure, a stack with that much room is enough.", "quantifier": "all sessions, all calls, all received bytes, all application callbacks that provide at most L bytes of credentials and EAD, both memory backends, all configurations with at most three EAD tokens", "why_tests_cant": "Tests measure the memory of some handshakes; that no received message, however malformed, makes a call request more or request nothing is a statement about all byte strings in all states.", "anchors": ["backends/memory/include/edhoc_backend_memory.h: EDHOC_MEM_ALLOC", "library/edhoc_common.c: edhoc_comp_mac_context, edhoc_comp_mac, edhoc_comp_sign_or_mac, edhoc_verify_sign_or_mac", "library/edhoc_message_2.c: edhoc_message_2_compose, edhoc_message_2_process", "library/edhoc_message_3.c: edhoc_message_3_compose, edhoc_message_3_process", "library/edhoc_message_4.c: edhoc_message_4_compose, edhoc_message_4_process", "library/edhoc_exporter.c: edhoc_export_prk_exporter, edhoc_export_key_update"]}
{"id": "C70", "title": "A key update protects the keys before it", "statement": "After a successful key update, what the context still contains does not determine, together with the messages that were sent and the credentials of the parties, the secrets exported before the update.", "quantifier": "all sessions with a completed handshake, all exports before the first key update and all calls after it, both roles, all callbacks that compute functions", "why_tests_cant": "A test compares exports before and after an update; whether earlier ones can be recomputed from what stays in memory is a statement about every session and every function of the context.", "anchors": ["library/edhoc_exporter.c: edhoc_export_key_update", "library/edhoc_message_2.c: comp_dh_secret, comp_prk_2e", "include/edhoc_context.h: dh_secret", "doc/api/exporters.rst"]}
{"id": "C71", "title": "Agreement against an active attacker with the shipped cipher suites", "statement": "Applications that use a shipped cipher suite on PSA Crypto get the guarantees of C66, C67 and C68: if a session accepts message 2, 3 or 4 from the owner of an honest key, a session of an application that has the private key of that key answered or sent it with the same method, cipher suite, message 1, ephemeral keys, identifiers, credentials, transcript hashes and MACs; and if both accept honest keys, both export the same keys. Nothing is assumed about the callbacks, only about the algorithms: collisions of the hash are not found, ephemeral keys do not repeat, and signatures, MACs and ciphertexts of honest parties are not forged.", "quantifier": "all shipped cipher suites, all families of sessions over them, each with its own key store, any calls of PSA failing, and any application callbacks that leave keys of others alone; all messages an attacker delivers in any order", "why_tests_cant": "Agreement is a statement about all histories of any number of sessions; with the shipped suites it also depends on what every callback computes with the key store in any state and with any failures.", "anchors": ["helpers/src/edhoc_cipher_suite_0.c", "helpers/src/edhoc_cipher_suite_2.c", "helpers/src/edhoc_cipher_suite_4.c", "helpers/src/edhoc_cipher_suite_24.c", "library/edhoc_message_2.c: edhoc_message_2_process", "library/edhoc_message_3.c: edhoc_message_3_process", "library/edhoc_message_4.c: edhoc_message_4_process", "library/edhoc_exporter.c"]}
{"id": "C72", "title": "The authentication key signs one Sig_structure per session", "statement": "Between two initialisations of a context the library asks the application for at most one signature. It does so only when a Responder composes message 2 or an Initiator composes message 3 in a method in which that party signs, with the key the credentials callback supplied in that call, and over the Sig_structure of RFC 9528 with that credential, the session's transcript hash and a MAC derived in that call.", "quantifier": "all histories of API calls with all arguments, all states of the context, all callback results; calls that fail included", "why_tests_cant": "Tests look at signatures of handshakes that succeed; what a call signs before it fails, and how often a peer can make the library sign by repeated, reordered or malformed messages, ranges over all histories.", "anchors": ["library/edhoc_common.c: edhoc_comp_sign_or_mac, sign_cose_sign_1", "library/edhoc_message_2.c: edhoc_message_2_compose", "library/edhoc_message_3.c: edhoc_message_3_compose"]}
{"id": "C73", "title": "What private keys are combined with", "statement": "Between two initialisations of a context the party's static private key takes part in at most one key agreement. This happens only when a Responder composes message 2 or an Initiator composes message 3 in a method in which that party does not sign, with the key the credentials callback supplied in that call, and with the ephemeral public key of a message that the party accepted in this session. Every other key agreement is with an ephemeral private key that was made in this session: the Responder combines it with G_X, the Initiator with the G_Y it received, and, in the methods in which the peer does not sign, each also with the public key of the peer's credential.", "quantifier": "all histories of API calls with all arguments, all states of the context, all callback results; calls that fail included", "why_tests_cant": "A static key that can be combined with a value the attacker chooses is an oracle. Tests see the key agreements of handshakes that succeed; how often, in which states and with which values an attacker can make the library use a private key by repeated, reordered or malformed messages ranges over all histories.", "anchors": ["library/edhoc_message_2.c: edhoc_message_2_compose, edhoc_message_2_process, comp_dh_secret, comp_grx, comp_prk_3e2m", "library/edhoc_message_3.c: edhoc_message_3_compose, edhoc_message_3_process, comp_giy, comp_prk_4e3m"]}
{"id": "C74", "title": "A failed callback does not spoil the session's keys", "statement": "Whatever a failed callback left in the buffer it was to fill, calls made later return what they would return had it left the buffer untouched; in particular a secret delivered by an export that succeeds, possibly after failed attempts, is derived from the keys of the handshake.", "quantifier": "all histories of API calls with all arguments, all callback results, all contents failed callbacks leave in the output buffers inside of the context, at any call", "why_tests_cant": "A mock that fails usually returns early and leaves its output alone. What a partial write does to later calls depends on which buffer, which call and which later calls: all combinations of failure points, contents and continuations.", "anchors": ["library/edhoc_exporter.c: compute_prk_out, compute_new_prk_out, edhoc_export_prk_exporter, edhoc_export_key_update, edhoc_export_oscore_session", "include/edhoc_crypto.h: struct edhoc_crypto"]}
{"id": "C75", "title": "The Initiator's identity is not used before the Responder is authenticated", "statement": "An application's own credential, static key and signature key are asked for only while message 3 is composed by an Initiator that has accepted message 2, or while message 2 is composed by a Responder that has accepted message 1. Until then everything the library returns, sends and asks of the application is the same whoever the application is, so somebody who is not accepted as Responder learns nothing about the identity of the Initiator.", "quantifier": "all histories of API calls with all arguments, all received messages including forged ones, all callback results, all pairs of identities", "why_tests_cant": "That two runs with different identities are the same is a statement about pairs of runs, for all identities and all messages an attacker could send. A test compares a few traces.", "anchors": ["library/edhoc_message_2.c: edhoc_message_2_process", "library/edhoc_message_3.c: edhoc_message_3_compose", "include/edhoc_credentials.h: struct edhoc_credentials"]}
{"id": "C76", "title": "Method and cipher suite are what both applications configured", "statement": "A session uses the last of the cipher suites given to the last successful edhoc_set_cipher_suites; as Initiator the first of the methods given to edhoc_set_methods, as Responder one of them. If a session accepts message 2 or message 3 from the owner of a key the attacker does not have, a session of the owner uses the same method and suite, and they are those both applications configured: an attacker on the network cannot make honest parties use another one.", "quantifier": "all histories of API calls with all arguments, any number of sessions, all messages an attacker can send or change, all callback results", "why_tests_cant": "A test of a downgrade tries a few manipulated messages. The claim is about every manipulation, in every number of concurrent sessions, and needs the agreement on the transcript.", "anchors": ["library/edhoc_message_1.c: edhoc_message_1_compose, edhoc_message_1_process", "include/edhoc.h: edhoc_set_methods, edhoc_set_cipher_suites"]}
{"id": "C77", "title": "Messages cannot make a session work without bound", "statement": "Every API call makes at most a fixed number of calls to the application: public-key operations, symmetric operations, imports and destructions of keys, credential and EAD callbacks, requests for memory. The numbers depend on the function alone, not on the length or content of the message it is given. Processing message 1 makes no public-key operation. All message calls of a session together make no more than those of one handshake: a session of any length makes at most four public-key operations and six credential and EAD callbacks; only exports and key updates, which the application asks for, add symmetric operations.", "quantifier": "all states, all histories of API calls with all arguments and received messages, all callback results and failures", "why_tests_cant": "Tests count the work of a few messages. An attacker looks for the message, or the sequence of messages, that makes a device work longest, so the bound must hold for every input and every history.", "anchors": ["library/edhoc_message_1.c: edhoc_message_1_process", "library/edhoc_message_2.c: edhoc_message_2_compose, edhoc_message_2_process", "library/edhoc_message_3.c: edhoc_message_3_process", "library/edhoc_message_4.c: edhoc_message_4_process", "library/edhoc_exporter.c: edhoc_export_prk_exporter, edhoc_export_key_update, edhoc_export_oscore_session"]}
{"id": "C78", "title": "Sessions with the same exported key are the two ends of one handshake", "statement": "If two sessions export the same key, with edhoc_export_prk_exporter or as OSCORE master secret, then they asked for it with the same label, length and key updates, and they are the Initiator and the Responder of one handshake: same method, message 1, ephemeral keys, plaintexts and credentials, so that each has accepted the credential the other one supplied (no unknown key share). At most two sessions export a given key. Nothing is assumed about the peers, their keys and the messages they send: they may all be the attacker's; only that hash and Expand have no collisions and that sessions do not generate the same ephemeral key.", "quantifier": "all families of sessions, all histories of API calls, all received messages, all labels and lengths, any number of key updates", "why_tests_cant": "An unknown key share attack is a run of several sessions with a malicious peer in between. Tests run honest peers and compare that their keys are equal, not that nobody else's are.", "anchors": ["library/edhoc_exporter.c: edhoc_export_prk_exporter, edhoc_export_oscore_session, edhoc_export_key_update", "library/edhoc_message_3.c: comp_th_4", "library/edhoc_message_2.c: comp_th_2, comp_th_3"]}
{"id": "C79", "title": "The size of the caller's buffer decides only whether a call succeeds", "statement": "If a compose call succeeds with a buffer of some size, then from the same state it succeeds with exactly the buffers its message fits into, with the same message and the same state of the session afterwards. With a smaller buffer it fails: a buffer of no bytes is refused without an effect, any other ends the session (one byte too few for message 3 overflows, see C22). The same holds for the identifier buffers of edhoc_export_oscore_session. Two histories whose calls differ only in these sizes, and all of whose calls succeed, return the same values.", "quantifier": "all sizes, all states, all callbacks, all histories", "why_tests_cant": "Tests use one generous size. A result that depends on the size, or a size one byte off, shows only at particular lengths of keys, credentials and EAD.", "anchors": ["library/edhoc_message_1.c: edhoc_message_1_compose", "library/edhoc_message_2.c: prepare_message_2", "library/edhoc_message_3.c: gen_msg_3", "library/edhoc_message_4.c: gen_msg_4", "library/edhoc_exporter.c: edhoc_export_oscore_session"]}
{"id": "C80", "title": "Larger limits and another memory backend change nothing for a working session", "statement": "If all calls of a session succeed with one build configuration (CONFIG_LIBEDHOC_* limits, stack or heap buffers), then the same calls succeed with every configuration whose limits are at least as large and that serves every request for memory the first one serves, with the same results, the same state at the end and the same calls to the application except for requests for memory. With two configurations that cover each other, such as stack and heap with enough memory, a call succeeds with the one exactly if it does with the other.", "quantifier": "all pairs of configurations, all histories, all callbacks whose allocator is separate from the rest", "why_tests_cant": "A test suite is built with one or a few configurations; there are as many as limits can be combined.", "anchors": ["include/edhoc_values.h", "include/edhoc_context.h", "backends/memory/include/edhoc_backend_memory.h", "library/*.c: checks against CONFIG_LIBEDHOC_MAX_*"]}
{"id": "C81", "title": "Logging is well defined, has no effects, and shows data at the debug level only", "statement": "No log statement of the library has undefined behaviour: formats fit their arguments. What it writes is free of control characters, whatever values and bytes a peer sends, so that log entries and terminal commands cannot be forged. A hex dump shows exactly the bytes it is given. The time fits into its buffer whatever the clock says. Below the debug level no statement shows the contents of memory, and with the default level nothing is written. The arguments of log statements have no effects, so that the level changes nothing but the log.", "quantifier": "all 838 log statements, all values of their arguments, all data, all levels", "why_tests_cant": "Most statements are on error paths that need particular values, and log output is checked by no test.", "anchors": ["backends/log/include/edhoc_backend_log.h", "library/*.c: EDHOC_LOG_*", "helpers/src/*.c: EDHOC_LOG_*"]}
{"id": "C82", "title": "No unknown key share and no downgrade with the shipped cipher suites", "statement": "Sessions use one of the shipped cipher suites on PSA Crypto, on a network an attacker controls. If two of them export the same key, from whatever messages, they are the Initiator and the Responder of one handshake with the same data, and no third session has the key. If a session accepts message 2 or message 3 from the owner of an honest key, method and suite are what both sides were configured to want. For the standard algorithms the only assumptions are that hash and HKDF-Expand have no collisions, ephemeral keys are fresh, and for the negotiation that signatures and MACs of honest keys cannot be forged.", "quantifier": "all four shipped suites, all applications, configurations and histories of API calls, any number of sessions, all messages an attacker delivers", "why_tests_cant": "Tests run two sessions with delivered messages; the claims are about all sessions and all messages an attacker may invent.", "anchors": ["helpers/src/edhoc_cipher_suite_0.c, edhoc_cipher_suite_2.c, edhoc_cipher_suite_4.c, edhoc_cipher_suite_24.c", "library/edhoc_exporter.c: edhoc_export_prk_exporter, edhoc_export_oscore_session", "library/edhoc_message_1.c, edhoc_message_2.c, edhoc_message_3.c"]}
{"id": "C83", "title": "No keys in memory that was given back", "statement": "When an API call gives working memory back to the allocator, or leaves it on the stack, the memory no longer contains key material: Diffie-Hellman secrets of static keys, PRK_2e, KEYSTREAM_2, K_3, K_4 and PRK_exporter are overwritten first, on success and on every failure path.", "quantifier": "all functions of the library, all outcomes of allocations, callbacks and checks, at any depth of calls", "why_tests_cant": "Memory that was released cannot be inspected by a test without undefined behaviour, and the failure paths are many: each call has dozens of places at which it may fail with secrets in its buffers.", "anchors": ["library/edhoc_message_2.c (comp_prk_3e2m, edhoc_message_2_compose, edhoc_message_2_process)", "library/edhoc_message_3.c (comp_prk_4e3m, edhoc_message_3_compose, edhoc_message_3_process)", "library/edhoc_message_4.c (edhoc_message_4_compose, edhoc_message_4_process)", "library/edhoc_exporter.c (edhoc_export_prk_exporter)", "backends/memory/include/edhoc_backend_memory.h"]}
{"id": "C84", "title": "The life of a context", "statement": "A context may be initialised at any time, whatever it contains, and what follows up to the next initialisation or de-initialisation is a session like the first. A context in a session can always be de-initialised. From then on every call is refused with BAD_STATE or INVALID_ARGUMENT until the context is initialised again: no callback is called, and the context stays empty but for the marks of the refused calls.", "quantifier": "all lives of a context: all sequences of API calls with any number of initialisations and de-initialisations, all applications, configurations and messages", "why_tests_cant": "The message functions do not look at the flag that says whether a context is initialised. That they are refused after de-initialisation follows from other fields, in every order of calls.", "anchors": ["library/edhoc.c (edhoc_context_init, edhoc_context_deinit, edhoc_error_get_code, edhoc_error_get_cipher_suites)", "library/edhoc_message_1.c (edhoc_message_1_compose, edhoc_message_1_process)", "library/edhoc_exporter.c (edhoc_export_prk_exporter, edhoc_export_key_update, edhoc_export_oscore_session)", "include/edhoc.h"]}
{"id": "C85", "title": "No recursion, bounded nesting, few buffers at a time", "statement": "No function of the library calls itself, directly or through others: below an API call at most four calls of library functions are nested, whatever is received. At most seven working buffers exist at any moment of a call; the bounds for each function are the best that its control flow allows.", "quantifier": "all functions of the library, all moments of all executions: all outcomes of allocations, callbacks and checks, any number of rounds of loops", "why_tests_cant": "The deepest nesting and the greatest number of buffers occur on particular paths; a test sees the paths it takes. Whoever sizes the stack of a device or the pools of a memory backend needs a bound for all of them.", "anchors": ["library/*.c (all functions)", "backends/memory/include/edhoc_backend_memory.h (EDHOC_MEM_ALLOC, EDHOC_MEM_FREE)"]}
{"id": "C86", "title": "The application is asked in the order of one handshake, and not after a failure", "statement": "A session asks its application for EAD, credentials, signatures and AEAD operations only in the order of one handshake, and for each at most once, whatever functions are called and whatever is received. In an API call the first callback that fails, or the first failed allocation, is the last one: afterwards only keys are destroyed. If one of the requests named above fails, the session makes none of them again. As long as nothing failed, the requests made are exactly those the messages so far need with the chosen method, EAD apart: the own credential once, the peer's credential once, a signature and the check of one where the method has them, and the AEAD operations.", "quantifier": "all applications, configurations, histories of API calls and received messages, all callbacks that may fail", "why_tests_cant": "The order must hold for every history of calls and at every place a callback may fail. A callback that is asked again after it refused, for instance to decrypt a second message with a key of the session, shows only in particular histories.", "anchors": ["library/edhoc_message_1.c", "library/edhoc_message_2.c", "library/edhoc_message_3.c", "library/edhoc_message_4.c", "include/edhoc_crypto.h", "include/edhoc_ead.h", "include/edhoc_credentials.h"]}
{"id": "C87", "title": "One encryption with each AEAD key", "statement": "Among any number of sessions, with any peers, no AEAD key is used for more than one encryption, so no nonce is used twice with a key; an encryption that is refused, or in a call that fails later, counts too. The assumptions are that hash and Expand have no collisions and no two sessions generate the same ephemeral key.", "quantifier": "all sets of sessions, applications, configurations, histories of API calls and received messages, all callbacks that may fail", "why_tests_cant": "Two encryptions with the same key and nonce break the AEAD. They may be in two different sessions, between which a test sees no relation, or in a call that failed after it had encrypted.", "anchors": ["library/edhoc_message_3.c: edhoc_message_3_compose", "library/edhoc_message_4.c: edhoc_message_4_compose", "library/edhoc_common.c"]}
{"id": "C88", "title": "An AEAD key belongs to one handshake, and is not exported", "statement": "If two sessions use the same AEAD key, to encrypt or to decrypt, they are the Initiator and the Responder of one handshake and use it for the same message; no third session uses it. What a session exports is not an AEAD key of any session, and no session derives it as anything else than the output of the exporter with that label and length. Nothing is assumed about peers and messages, only that hash and Expand have no collisions and that no two sessions generate the same ephemeral key. Attempts that fail count too.", "quantifier": "all sets of sessions, applications, configurations, histories of API calls and received messages, all callbacks that may fail", "why_tests_cant": "The property relates all sessions that ever run, with all messages an attacker may give them. A key shared by unrelated sessions, or one that is both exported and used by the library, does not show in any one session.", "anchors": ["library/edhoc_message_3.c: edhoc_message_3_compose, edhoc_message_3_process", "library/edhoc_message_4.c: edhoc_message_4_compose, edhoc_message_4_process", "library/edhoc_exporter.c"]}
{"id": "C89", "title": "A recorded message is not accepted again", "statement": "A message 2, 3 or 4 that one session accepted is not accepted in any other session, by the same party or by another one, in the same role or in the opposite one, and neither is a message 3 as message 4 or the reverse. This holds if the keys both sessions accept belong to parties whose private keys the attacker does not have, and if hash, Expand, signatures, MACs and AEAD are secure and ephemeral keys are fresh. (Message 1 carries no such protection in RFC 9528: it may be accepted any number of times.)", "quantifier": "all sets of sessions, applications, configurations, histories of API calls and messages the attacker chooses", "why_tests_cant": "A replay may involve any two of the sessions that ever run, with any messages in between; a test replays a message into one particular session.", "anchors": ["library/edhoc_message_2.c: edhoc_message_2_process", "library/edhoc_message_3.c: edhoc_message_3_process", "library/edhoc_message_4.c: edhoc_message_4_process"]}
{"id": "C90", "title": "Different exports have different values", "statement": "Two values that were exported (with edhoc_export_prk_exporter, or as OSCORE master secret or master salt), in one session or in two, and are the same, were exported with the same label and the same length, after the same key updates and from the same handshake. So a key update changes every exported key, two labels never give the same key, and the OSCORE master secret is not the master salt. Assumed are only that hash and Expand have no collisions, for results of the length concerned, and that no two sessions generate the same ephemeral key.", "quantifier": "all sets of sessions, applications, configurations, histories of API calls (with any number of exports and key updates) and received messages", "why_tests_cant": "The property compares every export with every other one, over all histories of updates and all sessions; a test compares a few.", "anchors": ["library/edhoc_exporter.c: edhoc_export_prk_exporter, edhoc_export_key_update, edhoc_export_oscore_session"]}
{"id": "C91", "title": "No call leaves keys in the key store", "statement": "With a shipped cipher suite and a key store that works, no API call leaves a key in the store or removes one, whether it succeeds or fails and whatever was received. So a device never runs out of key slots: after any history of sessions, with forged and malformed messages and failed calls, an honest handshake completes as on the first day. The same holds for any number of contexts that share one key store.", "quantifier": "all API calls with all arguments and received messages, all histories of calls, all programs that interleave calls on several contexts, all shipped suites, all applications that do not use the key store in their own callbacks, all allocator results", "why_tests_cant": "A leak shows only after as many failures as there are key slots, and it depends on where in which call the failure happens; a test would have to fail at every point of every call and count the keys.", "anchors": ["library/edhoc_message_1.c: edhoc_message_1_compose", "library/edhoc_message_2.c", "library/edhoc_message_3.c", "library/edhoc_message_4.c", "library/edhoc_exporter.c", "helpers/src/edhoc_cipher_suite_2.c"]}
{"id": "C92", "title": "Handshakes that run at the same time complete", "statement": "A device may run any number of sessions at once, on contexts that share one application and one key store. Whatever is called on the other contexts before, between and after the calls of a handshake, with whatever messages and results, every call of the handshake succeeds if the other side is honest and the messages arrive, and both sides export the same OSCORE master secret and salt with mirrored identifiers. With a peer that may be hostile, as long as the session is not over, composing the message that is due and exporting keys after the handshake succeed as well, whatever goes on on the other contexts.", "quantifier": "all interleavings of the calls of a handshake with any other calls on any number of other contexts, on both devices; all methods, with and without message 4; all applications whose state stays in order whichever context is used, and in particular all shipped suites with a shared key store", "why_tests_cant": "The number of interleavings of a handshake with arbitrary other sessions, including hostile ones, has no bound; a test runs a few schedules.", "anchors": ["library/edhoc.c", "library/edhoc_message_1.c: edhoc_message_1_compose, edhoc_message_1_process", "library/edhoc_message_2.c: edhoc_message_2_compose, edhoc_message_2_process", "library/edhoc_message_3.c: edhoc_message_3_compose, edhoc_message_3_process", "library/edhoc_message_4.c: edhoc_message_4_compose, edhoc_message_4_process", "library/edhoc_exporter.c: edhoc_export_oscore_session"]}
{"id": "C93", "title": "Exports and key updates go on for ever and stay in step", "statement": "After a completed handshake an application can export secrets, update the key and export an OSCORE context (once per key update) as often and in whatever order it likes: every such call succeeds and returns what RFC 9528 says for the present PRK_out. After a handshake of two honest parties both start from the same PRK_out, so that after the same key updates the same exports have the same values, whatever else either of them exported. Calls on other contexts of the same device in between, with whatever results, do not make such a call fail.", "quantifier": "all sequences of exports, key updates and OSCORE exports of any length, chosen by each party on its own; all methods, with and without message 4; for one party all peers, including hostile ones, whose messages were accepted; all shipped suites; all interleavings with calls on other contexts", "why_tests_cant": "The sequences of calls have no bound and the two parties choose them independently; a test runs a few short ones.", "anchors": ["library/edhoc_exporter.c: edhoc_export_prk_exporter, edhoc_export_key_update, edhoc_export_oscore_session, compute_prk_out, compute_new_prk_out, compute_prk_exporter"]}
