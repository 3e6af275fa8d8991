import Verif.Conform.Mock

/-!
# The repository's unit tests, replayed on the model

Each `example` names the tests of `/repo/tests/unit` it replays; the expected values are those of the
tests. These are tests of the model, not proofs about it: they show that the order and number of
callback calls and the return codes of the model are those of the code, on the cases the authors of
the code recorded. Tests that corrupt an enumeration to a value outside of it
(`msg2_compose_corrupted_cid_type`, `oscore_export_invalid_cid_type`,
`oscore_export_invalid_own_cid_type`) cannot be expressed.
-/

namespace Verif.Conform

open Verif

/-- a party with a method -/
def m (k : Nat) : Party := { method := k }

/-- a party with a byte string connection identifier.
`/repo/tests/unit/coverage/coverage_common.c:616-629`. -/
def bs : Party := { cid := .bstr [1, 2, 3] }

/-- EAD of `coverage_mock_ead_compose_with_token`. -/
def token : List EadTok := [⟨1, some [0xAA, 0xBB]⟩]

/-! ## Message 1: `/repo/tests/unit/coverage/test_coverage_msg1.c` -/

/- msg1_compose_key_import_fail, msg1_compose_make_key_pair_fail, msg1_compose_buffer_too_small -/
example : errAt (m 0) 1 (.compose1 256) (start (m 0)) = some .ephemeralDh ∧
    errAt (m 0) 2 (.compose1 256) (start (m 0)) = some .ephemeralDh ∧
    errAt (m 0) 0 (.compose1 1) (start (m 0)) = some .cbor := by decide +kernel

/- msg1_process_method_mismatch, msg1_process_hash_fail, msg1_process_bad_cbor -/
example : errAt (m 1) 0 (.process1 (c1 (m 0) (m 1)).last) (start (m 1)) = some .msg1Process ∧
    errAt (m 0) 1 (.process1 (c1 (m 0) (m 0)).last) (start (m 0)) = some .crypto ∧
    errAt (m 0) 0 (.process1 [0xFF]) (start (m 0)) = some .msg1Process := by decide +kernel

/- conn_id_byte_string, msg1_compose_bad_state, msg1_compose_with_ead -/
example : succeeds bs (.setCid (.bstr [1, 2, 3])) (runs bs [.init] zero).2 = true ∧
    errAt (m 0) 0 (.compose1 256) (c1 (m 0) (m 0)).i = some .badState ∧
    succeeds { toks := token } (.compose1 256) (start {}) = true := by decide +kernel

/- msg1_compose_failure_sweep, msg1_process_failure_sweep, and the tables of sweep_validate -/
example : sweep (m 0) (.compose1 256) (start (m 0)) 10 = table 4 10 ∧
    sweep (m 0) (.process1 (c1 (m 0) (m 0)).last) (start (m 0)) 10 = table 1 10 := by
  decide +kernel

/- msg1_process_ead_failure -/
example : errAt { eadFail := true } 0 (.process1 (c1 { toks := token } {}).last) (start {}) =
    some .eadProcess := by decide +kernel

/-! ## Message 2: `/repo/tests/unit/coverage/test_coverage_msg2.c` -/

/- msg2_compose_dh_fail, msg2_compose_cred_fetch_fail, msg2_compose_hash_fail,
msg2_compose_ead_fail, msg2_compose_signature_fail, msg2_compose_encrypt_fail -/
example : [3, 7, 5, 6, 10, 12].map (fun k => errAt (m 0) k (.compose2 512) (p1 (m 0) (m 0)).r) =
    [some .ephemeralDh, some .prk, some .transcriptHash, some .prk, some .crypto, some .crypto] := by
  decide +kernel

/- msg2_compose_bad_state, msg2_compose_no_fail, msg2_compose_tiny_buffer,
msg2_compose_bstr_cid_tiny_buf, msg2_compose_bstr_cid -/
example : errAt (m 0) 0 (.compose2 512) (start (m 0)) = some .badState ∧
    (c2 (m 0) (m 0)).good = true ∧
    errAt (m 0) 0 (.compose2 8) (p1 (m 0) (m 0)).r = some .cbor ∧
    errAt bs 0 (.compose2 4) (p1 bs bs).r = some .cbor ∧
    (c2 bs bs).good = true := by decide +kernel

/- msg2_compose_failure_sweep, _high, _very_high, _extended, _gap (method 0), method 2 -/
example : sweep (m 0) (.compose2 512) (p1 (m 0) (m 0)).r 30 = table 15 30 ∧
    sweep (m 2) (.compose2 512) (p1 (m 2) (m 2)).r 12 = table 12 12 ∧
    sweep bs (.compose2 512) (p1 bs bs).r 30 = table 15 30 := by decide +kernel

/- msg2_compose_method1_failure_sweep, msg2_compose_method3_failure_sweep and _high -/
example : sweep (m 1) (.compose2 512) (p1 (m 1) (m 1)).r 12 = table 12 12 ∧
    sweep (m 3) (.compose2 512) (p1 (m 3) (m 3)).r 30 = table 19 30 := by decide +kernel

/- msg2_process_failure_sweep (all methods), _gap, msg2_process_bstr_cid_failure_sweep -/
example : sweep (m 0) (.process2 (c2 (m 0) (m 0)).last) (c2 (m 0) (m 0)).i 30 = table 13 30 ∧
    sweep (m 1) (.process2 (c2 (m 1) (m 1)).last) (c2 (m 1) (m 1)).i 20 = table 17 20 ∧
    sweep (m 2) (.process2 (c2 (m 2) (m 2)).last) (c2 (m 2) (m 2)).i 20 = table 13 20 ∧
    sweep (m 3) (.process2 (c2 (m 3) (m 3)).last) (c2 (m 3) (m 3)).i 20 = table 17 20 ∧
    sweep bs (.process2 (c2 bs bs).last) (c2 bs bs).i 20 = table 13 20 := by decide +kernel

/- msg2_process_truncated: the first attempt (the others are made on an aborted session) -/
example : ((List.range 9).map fun k =>
      (errAt (m 0) 0 (.process2 ((c2 (m 0) (m 0)).last.take (k + 1))) (c1 (m 0) (m 0)).i).isSome) =
    table 9 9 := by decide +kernel

/- msg2_process_garbage, msg2_process_ead_value_failure -/
example : errAt (m 0) 0 (.process2 [0xFF, 0xFE, 0xFD, 0xFC, 0xFB, 0xFA]) (p1 (m 0) (m 0)).i =
      some .bufferTooSmall ∧
    errAt { eadFail := true } 0 (.process2 (c2 {} { toks := token }).last) (c2 {} { toks := token }).i =
      some .eadProcess := by decide +kernel

/-- change the context -/
def S.with (s : S) (f : Ctx → Ctx) : S := { s with ctx := f s.ctx }

/- msg2_compose_corrupted_method, msg2_process_corrupted_method, msg2_compose_corrupted_state,
msg2_process_corrupted_state -/
example :
    errAt (m 0) 0 (.compose2 512) (S.with (p1 (m 0) (m 0)).r fun c => { c with chosenMethod := 99 }) =
      some .prk ∧
    errAt (m 0) 0 (.process2 (c2 (m 0) (m 0)).last)
      (S.with (c2 (m 0) (m 0)).i fun c => { c with chosenMethod := 99 }) = some .prk ∧
    errAt (m 0) 0 (.compose2 256) (S.with (p1 (m 0) (m 0)).r fun c => { c with status := .start }) =
      some .badState ∧
    errAt (m 0) 0 (.process2 (c2 (m 0) (m 0)).last)
      (S.with (c2 (m 0) (m 0)).i fun c => { c with status := .completed }) = some .badState := by
  decide +kernel

/- msg2_compose_x509_zero_certs, msg2_compose_x509_zero_certs_2, msg2_compose_invalid_cred_label -/
example : errAt { cred := .x5chain [] } 0 (.compose2 512) (p1 (m 0) (m 0)).r = some .badState ∧
    errAt { method := 3, cred := .x5chain [] } 0 (.compose2 512) (p1 (m 3) (m 3)).r = some .badState ∧
    errAt { cred := .other 99 } 0 (.compose2 512) (p1 (m 0) (m 0)).r = some .notSupported := by
  decide +kernel

/-! ## Message 3: `/repo/tests/unit/coverage/test_coverage_msg3.c` -/

/- msg3_compose_bad_state, msg3_compose_tiny_buffer, msg3_compose_invalid_cred_label,
msg3_compose_corrupted_method, msg3_compose_corrupted_state -/
example : errAt (m 0) 0 (.compose3 512) (start (m 0)) = some .badState ∧
    errAt (m 0) 0 (.compose3 8) (p2 (m 0) (m 0)).i = some .cbor ∧
    errAt { cred := .other 99 } 0 (.compose3 512) (p2 (m 0) (m 0)).i = some .notSupported ∧
    errAt (m 0) 0 (.compose3 512) (S.with (p2 (m 0) (m 0)).i fun c => { c with chosenMethod := 99 }) =
      some .crypto ∧
    errAt (m 0) 0 (.compose3 256) (S.with (p2 (m 0) (m 0)).i fun c => { c with status := .start }) =
      some .badState := by decide +kernel

/- msg3_compose_failure_sweep (all methods), _extended, _gap, msg3_compose_bstr_cid_failure_sweep -/
example : sweep (m 0) (.compose3 512) (p2 (m 0) (m 0)).i 40 = table 12 40 ∧
    sweep (m 1) (.compose3 512) (p2 (m 1) (m 1)).i 25 = table 12 25 ∧
    sweep (m 2) (.compose3 512) (p2 (m 2) (m 2)).i 25 = table 16 25 ∧
    sweep (m 3) (.compose3 512) (p2 (m 3) (m 3)).i 25 = table 16 25 ∧
    sweep bs (.compose3 512) (p2 bs bs).i 30 = table 12 30 := by decide +kernel

/- msg3_process_failure_sweep (all methods), _extended, _gap -/
example : sweep (m 0) (.process3 (c3 (m 0) (m 0)).last) (c3 (m 0) (m 0)).r 40 = table 12 40 ∧
    sweep (m 1) (.process3 (c3 (m 1) (m 1)).last) (c3 (m 1) (m 1)).r 25 = table 12 25 ∧
    sweep (m 2) (.process3 (c3 (m 2) (m 2)).last) (c3 (m 2) (m 2)).r 25 = table 16 25 ∧
    sweep (m 3) (.process3 (c3 (m 3) (m 3)).last) (c3 (m 3) (m 3)).r 25 = table 16 25 := by
  decide +kernel

/- msg3_process_truncated, msg3_process_garbage, msg3_process_corrupted_method,
msg3_process_ead_failure -/
example : ((List.range 9).map fun k =>
      (errAt (m 0) 0 (.process3 ((c3 (m 0) (m 0)).last.take (k + 1))) (c3 (m 0) (m 0)).r).isSome) =
      table 9 9 ∧
    errAt (m 0) 0 (.process3 [0xFF, 0xFE]) (p2 (m 0) (m 0)).r = some .msg3Process ∧
    errAt (m 0) 0 (.process3 (c3 (m 0) (m 0)).last)
      (S.with (c3 (m 0) (m 0)).r fun c => { c with chosenMethod := 99 }) = some .crypto ∧
    errAt { eadFail := true } 0
      (.process3 (byI { toks := token } (fun _ => .compose3 512) (p2 {} {})).last) (p2 {} {}).r =
      some .eadProcess := by decide +kernel

/-! ## Message 4: `/repo/tests/unit/coverage/test_coverage_msg4.c` -/

/- msg4_compose_bad_state, msg4_compose_tiny_buffer, msg4_compose_corrupted_state,
msg4_process_bad_state, msg4_process_truncated, msg4_process_garbage -/
example : errAt (m 0) 0 (.compose4 512) (start (m 0)) = some .badState ∧
    errAt (m 0) 0 (.compose4 4) (p3 (m 0) (m 0)).r = some .cbor ∧
    errAt (m 0) 0 (.compose4 256) (S.with (p3 (m 0) (m 0)).r fun c => { c with status := .start }) =
      some .badState ∧
    errAt (m 0) 0 (.process4 (c4 (m 0) (m 0)).last)
      (S.with (c4 (m 0) (m 0)).i fun c => { c with status := .start }) = some .badState ∧
    errAt (m 0) 0 (.process4 ((c4 (m 0) (m 0)).last.take 2)) (c4 (m 0) (m 0)).i = some .msg4Process ∧
    errAt (m 0) 0 (.process4 [0xFF]) (p3 (m 0) (m 0)).i = some .msg4Process := by decide +kernel

/- msg4_compose_failure_sweep and msg4_process_failure_sweep (all methods), _extended, _gap -/
example : (∀ k, k < 4 → sweep (m k) (.compose4 512) (p3 (m k) (m k)).r 40 = table 7 40) ∧
    (∀ k, k < 4 →
      sweep (m k) (.process4 (c4 (m k) (m k)).last) (c4 (m k) (m k)).i 40 = table 6 40) := by
  decide +kernel

/- msg4_process_ead_failure, msg4_bstr_cid_full -/
example : errAt { eadFail := true } 0
      (.process4 (byR { toks := token } (fun _ => .compose4 512) (p3 {} {})).last) (p3 {} {}).i =
      some .eadProcess ∧
    (p4 bs bs).good = true ∧
    succeeds bs (.exportOscore 32 32 16 16) (p4 bs bs).i = true := by decide +kernel

/-! ## Whole handshakes: `/repo/tests/unit/coverage/test_coverage_handshake.c` -/

/- mock_full_handshake_method0 to method3 -/
example : ∀ k, k < 4 → (p4 (m k) (m k)).good = true := by decide +kernel

/-- the credentials of the tests. `/repo/tests/unit/coverage/coverage_common.c:436-614`. -/
def kidInt : Cred := .kid [] false (.int 5)
@[inherit_doc kidInt] def kidBstr : Cred := .kid [0xA1, 0x01, 0x01] true (.bstr [0x05])
@[inherit_doc kidInt] def x5tBstr : Cred :=
  .x5t [0x30, 0x82, 0x01, 0x00] [0xAA, 0xBB, 0xCC, 0xDD] (.bstr [0x2e])
@[inherit_doc kidInt] def x5tInt : Cred :=
  .x5t [0x30, 0x82, 0x01, 0x00] [0xAA, 0xBB, 0xCC, 0xDD] (.int (-16))
@[inherit_doc kidInt] def chain2 : Cred := .x5chain [[0x30, 0x00], [0x30, 0x01, 0x00]]
@[inherit_doc kidInt] def anyCred : Cred :=
  .any [0xA1, 0x04, 0x42, 0xAB, 0xCD] (some (.integer, [0x05])) [0x58, 0x02, 0x30, 0x00]

/- mock_handshake_kid_int_method0, kid_int_method3, kid_bstr, x5t_bstr, x5t_int, x5chain_multi,
cose_any, bstr_cid, ead_with_values -/
example : [({ cred := kidInt } : Party), { method := 3, cred := kidInt }, { cred := kidBstr },
      { cred := x5tBstr }, { cred := x5tInt }, { cred := chain2 }, { cred := anyCred }, bs,
      { toks := [⟨65535, some [1, 2, 3, 4]⟩] }].map (fun p => (p4 p p).good) =
    List.replicate 9 true := by decide +kernel

/-! ## Exporters: `/repo/tests/unit/coverage/test_coverage_exporters.c`,
`/repo/tests/unit/exporters/test_exporters.c` -/

/-- a context set by hand to the completed state -/
def done : S := S.with (start {}) fun c =>
  { c with status := .completed, prkState := .out, th := fill 32 0, prk := fill 32 0 }

/-- and with the OSCORE export allowed -/
def doneO (peer : Cid) : S := S.with done fun c => { c with oscoreAllowed := true, peerCid := peer }

/- prk_exporter_bad_label, prk_exporter_expand_fail, prk_exporter_failure_sweep -/
example : errAt {} 0 (.exportSecret 100 32) done = some .badState ∧
    [1, 2, 3, 4].map (fun k => errAt {} k (.exportSecret 32769 32) done) =
      [some .prk, some .prk, some .crypto, some .crypto] := by decide +kernel

/- key_update_success, key_update_extract_fail, key_update_prk_state_4e3m and _fail -/
example : succeeds {} (.keyUpdate ([1, 2, 3] ++ fill 13 0)) done = true ∧
    (call {} 0 (.keyUpdate ([1, 2, 3] ++ fill 13 0)) done).2.ctx.oscoreAllowed = true ∧
    errAt {} 2 (.keyUpdate ([1, 2, 3] ++ fill 13 0)) done = some .prk ∧
    (let s := S.with (c3 {} {}).i fun c =>
       { c with status := .completed, thState := .th4, prkState := .prk4e3m }
     succeeds {} (.keyUpdate (0x42 :: fill 31 0)) s = true ∧
     errAt {} 1 (.keyUpdate (0x42 :: fill 31 0)) s = some .prk) := by decide +kernel

/- oscore_export_wrong_status, oscore_export_bstr_cid, oscore_export_failure_sweep -/
example : succeeds {} (.exportOscore 16 8 8 8) (doneO (.int (-8))) = true ∧
    succeeds {} (.exportOscore 16 8 8 8) (doneO (.bstr [0xAA, 0xBB])) = true ∧
    [1, 2, 3, 4, 5, 6].map (fun k => errAt {} k (.exportOscore 16 8 8 8) (doneO (.int (-8)))) =
      List.replicate 6 (some .prk) := by decide +kernel

/- exporter_failure_sweep_extended, oscore_export_failure_sweep_4e3m,
oscore_export_bstr_cid_failure_sweep, key_update_failure_sweep -/
example : sweep {} (.exportOscore 32 32 16 16) (p3 {} {}).i 15 = table 10 15 ∧
    sweep {} (.exportOscore 32 32 16 16) (S.with (p3 {} {}).r fun c =>
      { c with prkState := .prk4e3m, thState := .th4 }) 15 = table 10 15 ∧
    sweep bs (.exportOscore 32 32 16 16) (p3 bs bs).r 15 = table 10 15 ∧
    sweep {} (.keyUpdate (0x42 :: fill 31 0)) (p3 {} {}).r 10 = table 4 10 := by decide +kernel

/- oscore_export_after_bstr_cid_handshake, oscore_export_prk_state_4e3m,
oscore_export_bstr_cid_sid_too_small, oscore_export_bstr_cid_rid_too_small -/
example : succeeds bs (.exportOscore 32 32 16 16) (p3 bs bs).r = true ∧
    succeeds {} (.exportOscore 32 32 16 16) (S.with (p3 {} {}).r fun c =>
      { c with prkState := .prk4e3m, thState := .th4 }) = true ∧
    errAt bs 0 (.exportOscore 32 32 1 16) (p3 bs bs).r = some .bufferTooSmall ∧
    errAt bs 0 (.exportOscore 32 32 16 1) (p3 bs bs).r = some .bufferTooSmall := by decide +kernel

/- oscore_session_not_allowed, oscore_session_bad_state_not_completed,
key_update_bad_state_not_completed, key_update_zero_entropy_length, prk_exporter_zero_length,
prk_exporter_invalid_label, prk_exporter_bad_state -/
example : errAt {} 0 (.exportOscore 16 8 8 8) done = some .badState ∧
    errAt {} 0 (.exportOscore 16 8 8 8) (S.with (start {}) fun c =>
      { c with status := .waitM2, prkState := .prk4e3m, oscoreAllowed := true }) = some .badState ∧
    errAt {} 0 (.keyUpdate (0xAA :: fill 31 0)) (S.with (start {}) fun c =>
      { c with prkState := .prk4e3m }) = some .badState ∧
    errAt {} 0 (.keyUpdate []) (start {}) = some .invalidArgument ∧
    errAt {} 0 (.exportSecret 0 0) (start {}) = some .invalidArgument ∧
    errAt {} 0 (.exportSecret 100 32) (S.with (start {}) fun c =>
      { c with status := .completed, prkState := .out }) = some .badState ∧
    errAt {} 0 (.exportSecret 0 32) (start {}) = some .badState := by decide +kernel

/-! ## Error queries: `/repo/tests/unit/api/test_api_negative.c`,
`/repo/tests/unit/exporters/test_exporters.c` -/

/-- a fresh context -/
def fresh : S := (runs {} [.init] zero).2

/- error_get_code_success_default, error_get_code_after_set, error_get_code_not_initialized,
error_get_cipher_suites_success, _not_initialized, _wrong_error_code, _buffer_too_small,
_peer_buffer_too_small -/
example : (call {} 0 .getCode fresh).1 = .ok (.code .success) ∧
    (call {} 0 .getCode (S.with fresh fun c => { c with errorCode := .unknownCred })).1 =
      .ok (.code .unknownCred) ∧
    errAt {} 0 .getCode zero = some .badState ∧
    (call {} 0 (.getSuites 3 3) (S.with fresh fun c => { c with
      errorCode := .wrongSuite, csuiteLen := 2,
      csuiteArr := [Suite.zero, { Suite.zero with value := 2 }], peerCsuite := [3] })).1 =
      .ok (.suites [0, 2] [3]) ∧
    errAt {} 0 (.getSuites 3 3) zero = some .badState ∧
    errAt {} 0 (.getSuites 3 3) (S.with fresh fun c => { c with errorCode := .unspecified }) =
      some .badState ∧
    errAt {} 0 (.getSuites 1 3) (S.with fresh fun c => { c with
      errorCode := .wrongSuite, csuiteLen := 3 }) = some .bufferTooSmall ∧
    errAt {} 0 (.getSuites 3 1) (S.with fresh fun c => { c with
      errorCode := .wrongSuite, csuiteLen := 1, csuiteArr := [Suite.zero],
      peerCsuite := [0, 0, 0] }) = some .bufferTooSmall := by decide +kernel

/- the `*_not_initialized`, `*_zero_length`, `*_too_many` and `*_null_callbacks` tests of the
life-cycle functions, and bind_ead_both_callbacks_null -/
example : [Op.deinit, .setMethods [0], .setSuites [suite], .setCid (.int 0), .setUserCtx,
      .bindEad true true, .bindKeys true, .bindCrypto true, .bindCred true].map
        (fun o => errAt {} 0 o zero) = List.replicate 9 (some .badState) ∧
    [Op.bindEad false false, .bindKeys false, .bindCrypto false, .bindCred false].map
        (fun o => errAt {} 0 o fresh) = List.replicate 4 (some .badState) ∧
    [Op.setMethods [], .setMethods [0, 0, 0, 0, 0], .setSuites [], .nullArg].map
        (fun o => errAt {} 0 o fresh) = List.replicate 4 (some .invalidArgument) ∧
    [Op.setSuites [suite, suite, suite, suite], .setCid (.int (-25)), .setCid (.int 24),
      .setCid (.bstr []), .setCid (.bstr (fill 8 0))].map
        (fun o => errAt {} 0 o fresh) = List.replicate 5 (some .badState) := by decide +kernel

/-! ## Error messages: `/repo/tests/unit/coverage/test_coverage_error.c` -/

/-- the error of a result -/
def errOf {α : Type} : Res α → Option Err
  | .err e => some e
  | _ => none

/- error_msg_compose_bad_info, suites_overflow, bad_code, suites_null_info, unspecified_null_info -/
example :
    errOf (errorCompose 64 1 (some ⟨.text (fill 6 0x65), 2, 5⟩)) = some .invalidArgument ∧
    errOf (errorCompose 256 2 (some ⟨.suites ((List.range 100).map Int.ofNat), 100, 100⟩)) =
      some .bufferTooSmall ∧
    errOf (errorCompose 64 (-1) none) = some .badState ∧
    errOf (errorCompose 64 2 none) = some .invalidArgument ∧
    errOf (errorCompose 64 1 none) = some .invalidArgument := by decide +kernel

/-- bytes of a result -/
def outOf : Res Bytes → Bytes
  | .ok b => b
  | _ => []

/- error_msg_process_text_too_small, suites_too_small, bad_cbor -/
example :
    errOf (errorProcess cfg.dec (outOf (errorCompose 128 1 (some ⟨.text (fill 24 0x61), 24, 24⟩)))
      1).2 = some .bufferTooSmall ∧
    errOf (errorProcess cfg.dec (outOf (errorCompose 128 2 (some ⟨.suites [0, 2, 3], 3, 3⟩)))
      1).2 = some .bufferTooSmall ∧
    errOf (errorProcess cfg.dec [0xFF, 0xFF, 0xFF, 0xFF] 0).2 = some .cbor := by decide +kernel

end Verif.Conform
