# Formal model of libedhoc in Lean 4

The model lives in `lean/Verif`. It follows the C sources in `/repo` function by
function; each definition cites the file and lines it models.

## Shape of the model

* Byte strings are `List UInt8`. All functions are total and structurally recursive.
* The CBOR backend (generated zcbor code) is modelled twice: as pure encoders and decoders, which the
  handshake uses, and function by function on a model of the zcbor runtime (`Gen`). C52 and C53 show both
  equal. zcbor itself is not part of the repository. Its decoder strictness (does it reject
  non-minimal headers and indefinite-length containers?) is a parameter, and theorems
  hold for each value of the parameter. So is what a failed decoder leaves behind in its output:
  an arbitrary integer (`junk`), and the announced length of a byte string (`early`). The toy
  configuration takes zcbor 0.8.1 to behave as its source was remembered when the model was written:
  canonical mode, lengths stored before they are compared with the input.
* A context (`struct edhoc_context`) is a record. Each array with a length field becomes a
  list; capacity checks the C code relies on are explicit. A copy into an array whose size the caller
  or the peer controls is followed by a guard that yields `ub` when the copy does not fit, so dropping the
  check before it breaks the memory-safety theorem.
* Application callbacks (keys, crypto, credentials, EAD) and memory allocation are an
  `Env σ`: functions on an arbitrary environment state `σ`, free to fail at any call.
  Each call is appended to a log, so claims about callbacks are claims about the log.
* A library function is `St σ → Res α × St σ`, where the result is a value, an
  error code, or undefined behaviour (`ub`) of a named kind. The state is returned in all
  three cases, because C keeps the writes made before an error.
* `step` is the API as a transition function on (context, environment); histories are lists of operations.

## Plan per property

| Property | Model part | Proof |
|---|---|---|
| C01 order, C02 abort, C03 rejected calls, C15, C17 | `Api.step` over all message, setter and exporter functions | induction over operation lists, with frame lemmas for each function |
| C04 error code | message functions | frame lemmas: only the three assignments change the code |
| C05, C06 negotiation | `msg1Process`, decoder with partial results | inversion of a successful run |
| C07, C08, C34 authentication | log of callbacks | inversion of a successful run, in terms of the log |
| C09, C10 TH and PRK | faithful environments (`Faithful E prim`) | inversion, then equality with the separate RFC specification |
| C11, C12, C14 agreement and completeness | two sessions, honest environment | composition of the inversion (agreement) and evaluation (completeness) lemmas |
| C13, C16 exporter, key update | exporter functions | inversion |
| C18 key hygiene, C19 wiping | log | balance predicate proved for each function, all exits |
| C20, C21, C25 wire format and round trip | CBOR model | structural lemmas on headers |
| C22, C26, C35 buffers | capacity checks and `ub` outcomes | case analysis on all exits |
| C23, C24 malformed input | decoders | witness for the violated part, theorem for the part that holds |
| C27, C28 EAD | log | inversion |
| C29 error message | error functions | round trip |
| C30 setters | setters | decision logic |
| C31, C32 helpers | helpers | round trip |
| C33 domain separation | `info` encoding | injectivity |
| C36 transcript binding | spec | injectivity of the hashed encodings |
| C37 XOR | `xorBytes` | involution |
| C38 independence | two-context interleaving | relational logic (`Sync`): equal views give equal results |
| C39 role of message 4 | `Msg4`, `Api.step` | witness for the violated part, order theorem for the rest |
| C40 one AEAD use per key | log of callbacks | counting over a session |
| C41 received error messages | `ErrorMsg` | inversion; witness for the type confusion |
| C42, C43, C44 return codes | all functions | a logic of possible return codes (`Does`), one lemma per function |
| C45 working memory | control skeletons extracted from the C text (`tools/skeleton.py`) | a checker proved sound for every execution, run in the kernel |
| C46 suite tables | the four tables, written-out registry | comparison; lengths from the laws of the algorithms |
| C47, C48 suite callbacks | `helpers/src/edhoc_cipher_suite_*.c` over a PSA key store | inversion of each callback |
| C49 sessions over shipped suites | the suites as `Env` | the log of a session replayed against the key store (`Ran`), handle discipline on every path (`OnlyOwn`) |
| C50 decompression | `mbedtls_ecp_decompress` on natural numbers | primality by Pocklington certificates, no root of the cubic by a power of x in the quotient ring (Mathlib: finite fields) |
| C51 honest handshakes over shipped suites | as C49 | the suites meet the premises of C12 |
| C52 generated decoders | `backends/cbor/src/*_decode.c` over the zcbor runtime | each decoder equals a schema function, for every input and with its element and backup budgets; soundness and completeness of these. For info, Enc_structure and Sig_structure: by inverting each step of an accepting run |
| C53 generated encoders | `backends/cbor/src/*_encode.c` over the zcbor runtime | as C52; the structures the library fills are complete |
| C54 post-quantum suite, algorithms | the suite's callbacks over PSA, liboqs and XKCP as parameters | each operation solved for success; the key stays over any history |
| C55 post-quantum suite, handles | the static key slots | the slots equal a function of the trace of calls and results, by induction over histories |
| C56 post-quantum suite, safety | copies as guarded operations, failures at any library call | no-UB and no-loss logics over the callbacks |
| C57 post-quantum suite, key use | attributes of imported keys | success of an operation determines attributes and length of the key |
| C58 standard algorithms | the algorithms of FIPS 180-4, RFC 5869, SP 800-38C/D, RFC 8439, FIPS 186-4, RFC 7748 and RFC 8032 as functions on bytes (`Real/`) | the curves as Mathlib's elliptic-curve groups (Ed25519 through its Montgomery form), orders by one scalar multiplication each; laws from the group laws |
| C59 any conforming peer | messages, transcript hashes and keys of RFC 9528 as functions of both parties' contributions, without the library (`SpecPeer.lean`) | the lemmas of C12 that execute the process calls, stated for any message of RFC 9528; the composed messages equal those of the specification |
| C60 ID_CRED_x | what an `edhoc_auth_cred_key_id` means as ID_CRED_x, and its two forms in RFC 9528 | facts of successful compose calls; exact condition for conformance; toy sessions for the violations |
| C61 shipped suites and any peer | C59 with the callbacks of the suites over a key store and the algorithms of the standards (`SpecSuitePeer.lean`) | instance of C59 by C47, C51 and C58 |
| C62 suite selection, C63 OSCORE identifiers, C64 exporter and message 4 | rules of RFC 9528 as predicates on SUITES_I, identifiers and histories (`SpecNegotiation.lean`) | from C05, C59, C14, and an invariant that PRK_out stays |
| C65 answers never fail | premises on the local application only (`SpecAnswers.lean`), histories with arbitrary accepted messages | lengths and states from the success lemmas of the process calls, then the evaluation lemmas of C12 with arbitrary transcript hashes; lifted to the shipped suites with the key store of the application (`SpecSuiteAnswers.lean`) |
| C66 agreement with an active attacker | families of sessions with assumptions on forgeries, collisions and fresh keys (`SpecAgreement.lean`) | every signature and every MAC_2 or MAC_3 in a session is located in one call (`Locate.lean`, `Events.lean`), which has computed it from its transcript (`Heads.lean`, `Sides.lean`); the inputs of signatures and MACs are injective |
| C67 key confirmation by message 4 | as C66, and the attacker cannot encrypt with K_4 of a session with an honest peer (`SpecConfirm.lean`) | the encryption is located in one call (`Seal.lean`); its additional data contain TH_4, or TH_3 in message 3, so it is a call of `edhoc_message_4_compose` in a completed session; TH_4 determines the rest |
| C68 the same keys in spite of an active attacker | as C67, and all sessions compute the same primitives (`SpecMatching.lean`) | by C66 and C67 the sessions have the same TH_4 and ephemeral keys; the Initiator's message 3 is the one the Responder decrypted; credential callbacks are called once per session (`Once.lean`), so each side's static key is the one its peer accepted; then PRK_out is equal as in C12 to C14 |
| C69 working memory | the requests in the log and the stack outcomes against an explicit bound (`SpecDemand.lean`) | a logic for the sum of the requests of a computation (`Demand.lean`), one rule per function (`Demand2.lean` to `Demand5.lean`), and invariants of the session for the sizes of connection identifiers, EAD and transcript hash |
| C70 key update and earlier keys | the attacker's computation from G_XY and the messages as a function (`SpecForget.lean`) | the context keeps G_XY after message 2 (`Record.lean`), later calls keep it (`proper_prefix`), and the key schedule of C10 in method 0 needs nothing else that is secret; for the shipped suites (`ForgetSuites.lean`) the assumptions on the primitives come from C49 |
| C71 agreement with the shipped suites | sessions over `suiteEnv` with ownership defined by the private key in the key store (`SpecSuiteNetwork.lean`) | by C49 the callbacks compute the primitives of the suite, so the sessions are a network in the sense of C66 and share their primitives in the sense of C68; the key used for static Diffie-Hellman is a private key because it passed the check at its import |
| C72 one signature per session | number and input of the calls to the sign callback in each API call and in each run without re-initialisation (`SpecSigning.lean`) | the kinds of calls each function makes (C33) bound the number; stepping through the two compose functions from the knowledge that they signed gives the input; no state after a signature lets a second one happen (`Props/Signing.lean`) |
| C73 what private keys are combined with | the key agreements in the log of each API call and of each run, split by whether the library imported the key directly before (`SpecStatic.lean`) | a list predicate for the shape of the calls, proved compositionally for every function (`Agree.lean`); an invariant of the session relates the keys in the context to the accepted messages and the keys made (`Props/StaticKey.lean`) |
| C74 callbacks that fail after writing | a second step function in which failed callbacks leave arbitrary bytes in the buffers of the context they were given (`Residue.lean`, `SpecResidue.lean`) | simulation: outside of the in-place derivations of PRK_out both step functions agree (`ResidueFacts.lean`); on an aborted context no call reads the buffers concerned (`ResidueStale.lean`, `ResidueStep.lean`) |
| C75 identity of the Initiator | the application with another credential and another signature key, everything else unchanged (`SpecIdentity.lean`) | which kinds of callbacks each call performs (C33) and the order of the messages give when the identity is asked for; by induction over the session, sessions that accepted no message are the same for any two identities. What acceptance of message 2 means is C07 and C66; what the static key is combined with is C73 |
| C76 no downgrade | what the application configured, read off the history of its calls (`SpecDowngrade.lean`) | invariants of sessions: the context holds what was configured last, and what is used was chosen from it by message 1; combined with the agreement of C66. The preferred suite is the last one configured, as in the code; that RFC 9528 asks the Responder for more is C62 |
| C77 bounded work | five counters over the record of callback calls and a budget for each API function (`SpecWork.lean`) | a cost calculus over the monad (`Tally.lean`), one lemma for each function that makes calls; for sessions a potential on the status: a message call is accepted only in one status and leaves it. A refinement of the calculus that knows message, role and method (`TallyAt.lean`) makes the bounds sharp, as a party never signs and uses its static key for the same message; toy handshakes reach them |
| C78 no unknown key share | families of sessions without assumptions on peers (`SpecKeyShare.lean`) | an exported key is traced back through the chain of Expand calls to TH_4 (C13, C14), then C36; a third session would have the role of one of the two |
| C79 sizes of the caller's buffers | the size as an argument of the calls (`SpecBuffer.lean`) | each compose function is a chain of steps independent of the size, one encoding into the buffer, and steps independent of the size (`Buffer.lean`); histories by induction |
| C80 larger limits, other memory backend | two configurations of one program (`SpecCovers.lean`) | simulation: function by function (`Covers.lean`), states that differ in requests for memory only stay so and the results are equal; histories by induction |
| C81 logging | the hosted log backend (`LogBackend.lean`) and a table of all log statements with the types of their arguments (`LogText.lean`, generated from the source); a reader of hex dumps (`SpecLog.lean`) | formats, texts and arguments are checked for each entry of the table; output for all values and data by induction over formats and rows |
| C82 keys and negotiation with the shipped suites | sites as in C71, assumptions about the algorithms only (`SpecSuiteKeyShare.lean`) | what a session with a shipped suite derives is HKDF-Expand of what it imported (`Suite/Computes.lean`), so collisions of the callbacks are collisions of the algorithms; then C78 and C76 |
| C83 keys in released memory | the skeletons of C45 with overwriting, the variable `ret`, branches on it and return values added (`Wipe.lean`, `WipeSkeleton.lean`, generated) | weakest preconditions proved sound for every execution, a checker for them run in the kernel; runs by choices show that the table of what is left is exact |
| C84 life of a context | histories with any number of initialisations and de-initialisations | an empty context is an invariant of all calls but `edhoc_context_init`; a history is cut into sessions |
| C85 nesting and buffers | the skeletons of C45; the moments of an execution, with calls in progress and allocated buffers (`SpecNesting.lean`) | bounds computed along the check of C45 and proved sound by induction on moments; executions by choices attain them; a call has smaller depth than its caller |
| C86 order of requests | the log of callbacks of a session, without those that exports make too | the order within a call (C33) put together along the order of calls (C01); the logic of return codes (C43) extended by what follows a failure; for the exact list, the kinds of calls of a message with a given method (`EmitsAt`) together with what a successful message call has seen |
| C87 one encryption with each AEAD key | the calls to the application in each API call of each session | the key imported for the encryption is K_3 or K_4 of the state, also if the call fails later; equal keys have equal transcripts (no collisions), hence equal ephemeral keys, hence one session; **violated**: both ends may compose message 4 (C39), so this case is left in the partial theorem |
| C88 an AEAD key belongs to one handshake | as C87, with decryptions | the key imported for a decryption is K_3 or K_4 of the state too (`OpenKey.lean`); equal keys have equal labels and transcripts, hence ephemeral keys; labels of the exporter differ from 3 and 8, and its context is empty |
| C89 a recorded message is not accepted again | as C66 and C88; in addition encryptions with different keys have different ciphertexts (`SpecReplay.lean`) | message 2 begins with G_Y, which one session generated and which answered one G_X (C66); the key that opens message 3 or 4 is that of the encryption, hence the same in both sessions, so they are the two ends of one handshake (C88); the third end that encrypted message 4 does not exist |
| C90 different exports have different values | as C78, with the OSCORE master salt (`SpecDistinct.lean`) | the calls behind an exported value (C13, C14); Expand without collisions takes the chain of PRK_exporter and PRK_out apart, update by update |
| C91 key store unchanged | the PSA key store of the shipped suites before and after a call, a history, a program of several contexts (`SpecStore.lean`) | the log of a call is balanced (C18); an import adds one key under a free identifier and a destruction removes it, so a balanced log leaves the store as it was; with C51 and C65: later handshakes and answers work |
| C92 handshakes at the same time | programs of several contexts on two devices (`SpecShared.lean`, `SpecConcurrent.lean`) | each call of the handshake succeeds from every state of the application that is in order (the lemmas of C12), and the calls on other contexts keep it in order; for the shipped suites by C91. Answers to any peer: the calls on the context are replayed alone (C38), which gives the state of the context, and the lemmas of C65 apply to it |
| C93 exports and key updates after a handshake | which sequences of calls are orderly, and what they return as a function of PRK_out (`SpecService.lean`) | each of the three calls succeeds from every context after a handshake and leaves such a context (as in C12); induction on the calls; C12's and C65's lemmas give the first context; among other sessions (`ServiceConcurrent.lean`) the calls on the context are replayed alone, as in C92 |

Where the code violates a property, the negation is proved with a concrete witness, and the part
that does hold is kept as a `_partial` theorem.

## What is modelled

| C file | Lean module | Note |
|---|---|---|
| `library/edhoc.c` | `Config`, `Api` | all setters, getters, init, deinit |
| `library/edhoc_common.c` | `Common` | all functions |
| `library/edhoc_message_1.c` | `Msg1` | all functions |
| `library/edhoc_message_2.c` | `Msg2` | all functions |
| `library/edhoc_message_3.c` | `Msg3` | all functions |
| `library/edhoc_message_4.c` | `Msg4` | all functions |
| `library/edhoc_message_error.c` | `ErrorMsg` | all functions |
| `library/edhoc_exporter.c` | `Exporter`, `Residue` | all functions; `Residue` has them with callbacks that fail after writing to their output |
| `backends/cbor` (CDDL schemas) | `Cbor`, `CborSchemas` | as pure encoders and decoders; decoder strictness is a parameter |
| `backends/cbor/src/*_decode.c` | `Gen/Types`, `Gen/Decode`, `Gen/Unused` | all decoders; `Gen/Unused` has those neither the library nor the helpers call |
| `backends/cbor/src/*_encode.c` | `Gen/Encode`, `Gen/Fill`, `Gen/Unused` | all encoders; how the library fills their structures |
| the zcbor functions these call | `Gen/Zcbor`, `Gen/Encode` | element counts, backups, what stays after a failure |
| `helpers/src/edhoc_helpers.c` | `Helpers` | all functions |
| `helpers/src/edhoc_cipher_suite_{0,2,4,24}.c` | `Suite/Impl`, `Suite/Env` | all callbacks; suites 0/4 and 2/24 are two parameterised functions each |
| `helpers/src/edhoc_exp_pqc_cipher_suite_1.c`, `helpers/src/edhoc_kdf_kmac256_xkcp.c` | `Pqc/Impl` | all functions; calls of an application, since the library does not reach this suite |
| the PSA functions these call | `Suite/Psa` | a key store with usage flags, permitted algorithms, a limited number of slots, and failures at any call; algorithms are parameters |
| `library/*.c`, control flow only | `MemSkeleton`, `WipeSkeleton` | generated by `tools/skeleton.py`; used only for C45, C83 and C85; `erase_code` proves that the second is the first with more detail |

Not modelled: the rest of the zcbor library; logging on Zephyr; the custom memory
backend (it has the shape of the heap backend, which is modelled as an allocator that may fail at
any call); the insides of PSA Crypto, mbedTLS, c25519, liboqs, XKCP and compact25519; tests, samples and build scripts.

Simplifications, also stated where they are made:

* An array with its length field is one list. Writes beyond the capacity the C code relies on are
  the outcome `ub`.
* `size_t` arithmetic that the C code lets wrap is modelled where it can wrap (`ub` with the kind
  of the fault); other sums are natural numbers.
* In the main model (`step`) a failed callback leaves the buffer it was to fill as it was. C74 drops this assumption, and shows
  that it matters only for failed derivations of PRK_out.
* A callback gets no output size argument. Its C contract not to write beyond that size is assumed.
* In the cipher suites `psa_generate_key` counts a draw that is no private key as a failure. The cast of the byte
  array with the key identifier to `psa_key_id_t *` is taken as a conversion.
* Memory release is not in the main model; C45 and C83 cover it on the extracted skeletons.

## Findings: where the code does not have the property

| Property | Finding | Witness |
|---|---|---|
| C05 | Bytes that are no message_1 are answered with error code 2 (wrong suite) | `C05_garbage_reported_as_wrong_suite` |
| C17 | The exporter's guard never fires: export works in the aborted state after PRK_out exists | `C17_violated` |
| C18 | message_1 compose leaks the key of the key-pair generation if an allocation fails | `C18_violated` |
| C19 | The ephemeral private key is wiped only when the peer uses a static DH key | `C19_violated` |
| C20, C28 | EAD_1 items without a value are sent with an empty value | `C20_violated`, `C28_violated` |
| C22 | message_3 compose writes one byte past a buffer that is one byte too small | `C22_violated` |
| C23 | A message_1 without C_I is accepted: the decoder's error is ignored | `C23_violated` |
| C24 | Trailing bytes are accepted in every message; PLAINTEXT_4 may be anything | `C24_*_violated` |
| C25 | Integer key identifiers outside -24..23 are truncated to one byte | `C25_violated` |
| C26 | Short message_2 underflows a length; long key identifiers in message_2 and message_3 overflow a buffer; too many EAD items overflow an array; short ciphertexts underflow; if the decoder stores lengths early (`early`), a message_1 cut off in G_X, C_I or an EAD value, and plaintexts cut off in an EAD value, are read past their end | `C26_*_violated` |
| C27 | A fourth EAD item is dropped even if critical; messages 2 to 4 can hand over more items than configured | `C27_dropped`, `C27_too_many` |
| C31 | Negative one-byte connection identifiers do not survive prepend and extract | `C31_violated` |
| C39, C87 | Both roles may compose message 4; key and IV are then used twice | `C39_violated`, `C87_violated` |
| C39 | Both roles may compose message 4; key and IV are then used twice | `C39_violated` |
| C41 | An error message with code 1 and a list of suites is read through the wrong union member | `C41_violated` |
| C42 | Eight functions return codes their documentation does not list, in eleven cases (each with a session) | `C42_violated` |
| C48 | Suites 0 and 4 store private X25519 keys and public Ed25519 keys alike: each is accepted in the other's place | `C48_violated` |
| C57 | The post-quantum suite stores all keys but those of AES-CCM as exportable raw data: keys for Extract and Expand are interchangeable, and the others are told apart by their length only | `C57_violated` |
| C60 | `kid_compact_encoding` uses `cred_is_cbor`, which says whether the *credential* is CBOR, for the key identifier: with a CBOR credential the bytes of the key identifier are copied into the plaintext as they are (key identifier h'0102' is sent as `01 02`, the integer -5 as `fb`, and no peer can read the message); without, a one-byte key identifier h'32' is sent as `41 32` instead of `32`. No setting is right for a CBOR credential with a longer key identifier, except the user-defined header `any`. Key identifiers given as integers enter the MAC as { 4 : int } instead of { 4 : bstr } | `C60_message3_partial` (exact condition), `C60_violated`, `C60_unreadable`, `C60_no_setting` |
| C60 | For a received one-byte key identifier the application gets an integer; if it only adds the credential, as `edhoc_credentials.h` says, the MAC is computed over { 4 : int } and a conforming message is rejected | `C60_received_violated` |
| C62 | The Responder accepts only its own last configured suite: one that supports 2 and 24 rejects SUITES_I = 2 (and reports that it supports 2), and accepts [2, 24] although it supports the preferred 2. More than three suites are rejected, with a truncated list | `C62_violated` |
| C63 | Distinct identifiers are not enforced: with C_I = C_R, or 5 and h'05', both peers export an OSCORE context with equal identifiers | `C63_violated` |
| C64 | Once an exporter, key update or OSCORE export call succeeded, message 4 is refused for the rest of the session | `C64_violated` (every session) |
| C69 | A message_3 or message_4 whose ciphertext is shorter than the tag, or a message_2 shorter than G_Y, makes a call request nearly 2^64 bytes. Without EAD in message_4, both peers of an honest handshake request a buffer of no bytes for PLAINTEXT_4 (`edhoc_message_4.c:640`, `:854`): with the stack backend this declares an array of length zero, which C leaves undefined; with the heap backend `calloc` may return NULL, and the handshake fails for lack of memory | `C69_wrap_violated`, `C69_empty_violated`, `C69_zero_array_violated` |
| C70 | The shared secret G_XY stays in the context (`dh_secret`, `edhoc_message_2.c:345`) until de-initialisation, and so does the ephemeral private key when the peer signs. In method 0 all keys of the handshake follow from G_XY, message_1 to message_3 and the credentials. So whoever reads the context after any number of key updates can compute the secrets exported before the first one, and a key update does not protect them. In the other methods a static Diffie-Hellman secret is missing, which is not in the context. What a key update itself does is right: it overwrites PRK_out and keeps no copy (`C70_update_partial`). | `C70_violated`, `C70_oscore_violated` (for every session, not one example) |
| C74 | The exporter derives PRK_out, and the next PRK_out in a key update, into the buffer of the key it derives from (`edhoc_exporter.c:141`, `:216`). If the callback fails after writing (Mbed TLS overwrites the output of a failed `psa_key_derivation_output_bytes`, as its source was remembered when this was written), the key is lost, but the state of the context still says it is there. A second attempt to export then succeeds and delivers a secret the peer does not have; after a failed key update it delivers a secret that depends on nothing but what the callback left | `C74_violated`, `C74_update_violated` |
| C83 | KEYSTREAM_2, K_3, K_4 and PRK_exporter are released without being overwritten, also by successful calls; so are PRK_2e if composing message 2 fails before KEYSTREAM_2 is computed, and G_RX and G_IY if computing them fails (for example by a wrong length) | `C83_keys_left`, `C83_exact_partial` |
| C91 | On the NIST curves message_1 compose leaves the key it generated in the key store when an allocation fails (see C18). Each such failure costs a key slot for good. When all slots are used no session can be started any more, although memory is available again. Every other call, and every call when allocations succeed, leaves the store as it was. | `C91_violated` |

Further observations without a property of their own: at the debug level the log contains private keys and all
derived keys; an Initiator without configured methods proposes
method 0; the exporter accepts the labels 0 and 1 of OSCORE; received EAD items are delivered before the peer
is authenticated; after a failed call
the context keeps pointers to EAD items in released memory (unused, because the context is
aborted); `x5chain` and `x5t` together are resolved differently in messages 2 and 3; with suites 2 and 24 key
pair creation reads beyond a buffer if asked for a public key of more than 64 (96) bytes
(`C47_overread`; the library never asks for that); suites 0 and 4 do not reject an all-zero shared
secret and leave private keys on the stack; with suites 2 and 24 a static Diffie-Hellman public key is given
as x-coordinate, but a signature public key as uncompressed point; `mbedtls_ecp_decompress` would write
the prime itself for a point with y = 0 and sign byte 3 (there is no such point, which C50 uses); the post-quantum
suite keeps exported private keys on the stack without wiping them, its handles 0x3FFFFFFE and 0x3FFFFFFF hide persistent
PSA keys an application may have under these identifiers (and AES-CCM with such a handle would use that key), destroying
an unused handle of a key pair succeeds, and its two slots are shared by all contexts of the process.

## Trusted base

* Lean 4.33.0 kernel. No axioms are added. Every theorem in `MANIFEST.json` depends on at most `propext`,
  `Classical.choice` and `Quot.sound`.
* Mathlib is used for prime numbers and finite fields (`Suite/Prime`, `Suite/Decompress`)
  and for elliptic curves (`Real/`); its proofs are checked by the kernel.
* The hand translation from C to Lean (citations beside each definition).
* The behaviour of zcbor as described in `Cbor`, `Gen/Zcbor` and `Gen/Encode`; zcbor is not in the repository, and these
  files were written from its documented behaviour. Encoders write canonical containers. The witnesses `C26_truncated_*_violated` need `early`; the
  general theorems hold for both values.
* The callbacks keep to their C contracts on output lengths (they do not write past the size they are given).
* For C45, C83 and C85: the extraction of control skeletons by `tools/skeleton.py`. The skeletons over-approximate
  the C functions: every branch other than a NULL test (for C83 also: a test of `ret`) may go either way. For C83 every
  access to a buffer counts as one that writes to it, and a `memset` that sets it to zero as not removed by the compiler.
* Premises about callbacks are explicit in the theorems: `Faithful` (the log agrees with fixed
  primitives), `Lawful` (AEAD and Diffie-Hellman laws), `Honest`/`Parties` (callbacks succeed).
  `AlgLaws` (lengths and laws of the algorithms below PSA, for C46 to C51), `Spec.Pqc.Laws` (lengths, and decapsulation
  inverts encapsulation; ML-KEM has this up to a failure probability below 2^-138; for C54 to C57), `Decent` and `Anchored`
  (the application's other callbacks keep stored keys, and its own key is stored before the session),
  `InOrder` and `SuiteParties` (key stores without failures and with room, for C51).
  None of them is an axiom, and each is met by the toy instance in `Toy*.lean`.
  `AlgLaws` is also proved for the standards' algorithms (`Real/`, C58). That `Real/` has the functions of the standards is
  checked by test vectors in these files (FIPS, NIST and RFC examples, evaluated by the kernel) only.
* Validation of the translation, by tests (not proofs): `Real/Rfc2*` and `Real/Rfc3*` replay RFC 9529 (chapters 2 and 3) in the
  kernel. The model of the library, over the model of suite 0 or 2 and the standards' algorithms, gives the four messages,
  the OSCORE secrets, salts and identifiers of both sides, and those after the key update, byte for byte.
  `Conform/*` replays the repository's own unit tests: the mock application of `tests/unit/coverage` whose n-th callback fails
  (the model gives the recorded return code at each failure point, and fails at exactly the recorded number of callbacks),
  the exporters, error queries, helper functions, error messages and the negotiation of RFC 9528. Left out are tests that
  store a value outside of an enumeration, and tests of static functions with only "greater than 0" as the expectation.
