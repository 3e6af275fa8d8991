import Verif.Conform.Replay
import Verif.Helpers
import Verif.ErrorMsg

/-!
# Further tests of the repository, replayed on the model

Helper functions, error messages and the negotiation of cipher suites. As in
`Verif.Conform.Replay`, the expected values are those of the repository's tests.
Not expressible: an encoding type outside of its enumeration, and a message pointer before the
buffer (`prepend_recalculate_size_ptr_before_buffer`).
-/

namespace Verif.Conform

open Verif

/-! ## `/repo/tests/unit/helpers/test_helpers.c`,
`/repo/tests/unit/internals/test_internals_helpers.c` -/

/- connection_id_equal_*, conn_id_equal_* -/
example : cidEqual (.int 5) (.int 5) = true ∧ cidEqual (.int 5) (.int 10) = false ∧
    cidEqual (.bstr [1, 2, 3]) (.bstr [1, 2, 3]) = true ∧
    cidEqual (.bstr [1, 2, 3]) (.bstr [1, 2, 4]) = false ∧
    cidEqual (.bstr [1, 2, 3]) (.bstr [1, 2]) = false ∧
    cidEqual (.int 5) (.bstr [5]) = false ∧ cidEqual (.int 1) (.bstr [0]) = false ∧
    cidEqual (.bstr [0xAA, 0xBB]) (.bstr [0xAA, 0xBB]) = true := by decide +kernel

/-- a zeroed buffer -/
def room (n : Nat) : Prepended := ⟨fill n 0, some 0, n⟩

/- prepend_flow_success, prepend_flow_buffer_too_small -/
example : prependFlow (room 100) = .ok ⟨0xF5 :: fill 99 0, some 1, 99⟩ ∧
    prependFlow (room 0) = .err .bufferTooSmall := by decide +kernel

/- prepend_connection_id_int_success, _bstr_success, _bstr_zero_length, prepend_conn_id_zero_buf,
_bstr_success, _bstr_tiny_buf -/
example : prependCid 7 (room 100) (.int 5) = .ok ⟨5 :: fill 99 0, some 1, 99⟩ ∧
    prependCid 7 (room 100) (.bstr [1, 2, 3]) =
      .ok ⟨[0x43, 1, 2, 3] ++ fill 96 0, some 4, 96⟩ ∧
    prependCid 7 (room 100) (.bstr []) = .err .invalidArgument ∧
    prependCid 7 (room 0) (.int 5) = .err .bufferTooSmall ∧
    prependCid 7 (room 32) (.bstr [0xAA, 0xBB]) =
      .ok ⟨[0x42, 0xAA, 0xBB] ++ fill 29 0, some 3, 29⟩ ∧
    prependCid 7 (room 1) (.bstr [0xAA, 0xBB]) = .err .cbor := by decide +kernel

/- prepend_recalculate_size_success, _zero_buffer_size, _zero_message_size, _total_exceeds_buffer,
_ptr_past_buffer -/
example : prependResize ⟨fill 100 0, some 5, 10⟩ = .ok ⟨fill 15 0, some 5, 10⟩ ∧
    prependResize ⟨[], some 5, 10⟩ = .err .invalidArgument ∧
    prependResize ⟨fill 100 0, some 5, 0⟩ = .err .invalidArgument ∧
    prependResize ⟨fill 10 0, some 5, 10⟩ = .err .bufferTooSmall ∧
    prependResize ⟨fill 32 0, some 48, 16⟩ = .err .invalidArgument := by decide +kernel

/- extract_flow_info_forward_flow, _reverse_flow, _no_flow_indicator, _single_byte_buffer,
prepend_and_extract_flow_roundtrip -/
example : extractFlow (some [0xF5, 1, 2, 3]) = ⟨true, false, some [1, 2, 3]⟩ ∧
    extractFlow none = ⟨false, true, none⟩ ∧
    extractFlow (some [1, 2, 3]) = ⟨false, false, none⟩ ∧
    extractFlow (some [0xF5]) = ⟨false, false, none⟩ ∧
    (extractFlow (some (0xF5 :: fill 99 0))).forward = true := by decide +kernel

/- extract_connection_id_int_success, _bstr_success, _zero_buffer_size, _invalid_cbor,
_bstr_too_long, extract_conn_id_int, extract_conn_id_bstr,
prepend_and_extract_connection_id_roundtrip -/
example : extractCid cfg.dec 7 [5] = .ok (.int 5, []) ∧
    extractCid cfg.dec 7 [0x43, 1, 2, 3] = .ok (.bstr [1, 2, 3], []) ∧
    extractCid cfg.dec 7 [] = .err .invalidArgument ∧
    extractCid cfg.dec 7 [0xFF, 0xFF, 0xFF, 0xFF] = .err .cbor ∧
    extractCid cfg.dec 7 [0x48, 1, 2, 3, 4, 5, 6, 7, 8] = .err .bufferTooSmall ∧
    extractCid cfg.dec 7 [5, 1, 2] = .ok (.int 5, [1, 2]) ∧
    extractCid cfg.dec 7 [0x42, 0xAA, 0xBB, 1] = .ok (.bstr [0xAA, 0xBB], [1]) ∧
    extractCid cfg.dec 7 ([0x43, 1, 2, 3] ++ fill 96 0) = .ok (.bstr [1, 2, 3], fill 96 0) := by
  decide +kernel

/-! ## `/repo/tests/unit/error/test_error_message.c` -/

/-- compose in 100 bytes and process -/
def roundTrip (code : Int) (info : Option ErrArg) (total : Nat) : Option Nat × Res ErrOut :=
  match errorCompose 100 code info with
  | .ok b => errorProcess cfg.dec b total
  | _ => (none, .err .badState)

/-- "Not supported C509 certificate type." -/
def sentence : Bytes := "Not supported C509 certificate type.".toUTF8.toList

/- success, unspecified_error, wrong_selected_cipher_suite_one, _many,
unknown_credential_referenced -/
example : roundTrip 0 none 0 = (some 0, .ok .nothing) ∧
    roundTrip 1 (some ⟨.text sentence, 36, 36⟩) 100 = (some 1, .ok (.text sentence)) ∧
    roundTrip 2 (some ⟨.suites [1], 1, 1⟩) 10 = (some 2, .ok (.suites [1])) ∧
    roundTrip 2 (some ⟨.suites [6, 4, 2], 3, 3⟩) 10 = (some 2, .ok (.suites [6, 4, 2])) ∧
    roundTrip 3 none 0 = (some 3, .ok .nothing) := by decide +kernel

/- compose_unknown_code, compose_cipher_suite_written_gt_total, compose_tiny_buffer,
process_invalid_cbor, process_unknown_code -/
example : errorCompose 100 99 none = .err .badState ∧
    errorCompose 100 2 (some ⟨.suites [0, 2], 2, 5⟩) = .err .invalidArgument ∧
    errorCompose 1 3 none = .err .cbor ∧
    errorProcess cfg.dec [0xFF, 0xFF, 0xFF] 0 = (none, .err .cbor) ∧
    errorProcess cfg.dec [0x18, 0x63] 0 = (none, .err .notPermitted) := by decide +kernel

/-! ## `/repo/tests/integration/test_rfc9528_negotiation.c` -/

/-- a suite of which only the value and two lengths are set -/
def bare (v : Int) : Suite := { Suite.zero with value := v, eccKey := 32, hash := 32 }

/-- method 1, the suites, and what the initiator (or the responder, second time) sets besides -/
def negotiator (vs : List Int) (keys : Bool) : List Op :=
  [.init, .setMethods [1], .setSuites (vs.map bare)] ++
    if keys then [.setCid (.int 1), .bindKeys true, .bindCrypto true] else []

/-- The responder's first context after it has processed message 1 of the initiator. -/
def refused (vsI vsR : List Int) : Res Out × S :=
  call {} 0 (.process1 (bytesOf (call {} 0 (.compose1 100) (runs {} (negotiator vsI true) zero).2).1))
    (runs {} (negotiator vsR false) zero).2

/-- message 1 with new suites, and what the responder says to it in a new context -/
def retried (vsI vsR : List Int) : Res Out × S :=
  call {} 0 (.process1 (bytesOf (call {} 0 (.compose1 100) (runs {} (negotiator vsI true) zero).2).1))
    (runs {} (negotiator vsR true) zero).2

/- example_1 -/
example : (refused [5] [6]).1 = .err .msg1Process ∧
    (call {} 0 .getCode (refused [5] [6]).2).1 = .ok (.code .wrongSuite) ∧
    (call {} 0 (.getSuites 1 1) (refused [5] [6]).2).1 = .ok (.suites [6] [5]) ∧
    roundTrip 2 (some ⟨.suites [6], 1, 1⟩) 1 = (some 2, .ok (.suites [6])) ∧
    (retried [5, 6] [6]).1 = .ok .unit ∧
    (call {} 0 .getCode (retried [5, 6] [6]).2).1 = .ok (.code .success) := by decide +kernel

/- example_2 -/
example : (refused [5, 6] [9, 8]).1 = .err .msg1Process ∧
    (call {} 0 .getCode (refused [5, 6] [9, 8]).2).1 = .ok (.code .wrongSuite) ∧
    (call {} 0 (.getSuites 2 2) (refused [5, 6] [9, 8]).2).1 = .ok (.suites [9, 8] [5, 6]) ∧
    roundTrip 2 (some ⟨.suites [9, 8], 2, 2⟩) 2 = (some 2, .ok (.suites [9, 8])) ∧
    (retried [6, 7, 8] [9, 8]).1 = .ok .unit ∧
    (call {} 0 .getCode (retried [6, 7, 8] [9, 8]).2).1 = .ok (.code .success) := by decide +kernel

/-! ## `/repo/tests/unit/exporters/test_exporters.c` -/

/-- A completed responder set by hand. -/
def responderDone (own peer : Cid) : S := S.with (start {}) fun c =>
  { c with status := .completed, role := .responder, oscoreAllowed := true, thState := .th4,
           prkState := .prk4e3m, th := fill 32 0xAB, prk := fill 32 0xCD, cid := own, peerCid := peer }

/- oscore_session_sender_id_encode_fail, oscore_session_recipient_id_encode_fail -/
example : errAt {} 0 (.exportOscore 16 8 1 8) (responderDone (.int 1) (.int 24)) = some .cbor ∧
    errAt {} 0 (.exportOscore 16 8 8 1) (responderDone (.int 24) (.int 1)) = some .cbor := by
  decide +kernel

/-! ## `/repo/tests/unit/internals/test_internals_common.c`,
`/repo/tests/unit/internals/test_internals_mac.c` -/

/- comp_cid_len_*, comp_th_len_*, comp_id_cred_len_kid_int, _unsupported, comp_cred_len_any, _kid,
_unsupported, comp_ead_len_* -/
example : cidLen (.int 5) = 1 ∧ cidLen (.bstr [0, 0, 0]) = 4 ∧ thLen 32 = .ok 34 ∧
    thLen 0 = .err .invalidArgument ∧ idCredLen cfg (.kid [] false (.int 5)) = .ok 4 ∧
    idCredLen cfg (.other 99) = .err .notSupported ∧
    credLen (.any [] none (fill 50 0)) = .ok 50 ∧
    credLen (.kid (fill 100 0) false (.int 0)) = .ok 102 ∧
    credLen (.other 99) = .err .notSupported ∧ eadLen [] = 0 ∧
    0 < eadLen [⟨1, some [1, 2, 3, 4]⟩, ⟨2, some [0xAA, 0xBB]⟩] := by decide +kernel

/- kid_compact_enc_int_cbor, _bstr_cbor_one_byte, _bstr_cbor_multi_byte, _bstr_non_cbor -/
example : kidCompact cfg true (.int 7) = .ok ⟨.integer, [7, 0, 0, 0], []⟩ ∧
    kidCompact cfg true (.bstr [5]) = .ok ⟨.integer, [5, 0, 0, 0], []⟩ ∧
    kidCompact cfg true (.bstr [0x18, 0x64]) = .ok ⟨.byteString, [0, 0, 0, 0], [0x18, 0x64]⟩ ∧
    kidCompact cfg false (.bstr []) = .ok ⟨.byteString, [0, 0, 0, 0], [0x40]⟩ := by decide +kernel

/-- a context with a message, a method, TH and PRK states -/
def inner (r : Role) (g : Msg) (k : Nat) (th : ThState) (prk : PrkState) : S :=
  S.with (start {}) fun c =>
    { c with role := r, message := g, chosenMethod := k, thState := th, prkState := prk,
             th := fill 32 0xAA, prk := fill 32 0xBB, cid := .int 5 }

/- mac_length_method*, sign_or_mac_length_method*: MAC_2, Signature_or_MAC_2, MAC_3 and
Signature_or_MAC_3 for each method -/
example : [0, 1, 2, 3, 4].map (fun k => macLength (inner .responder .msg2 k .th2 .prk3e2m).ctx) =
      [.ok 32, .ok 8, .ok 32, .ok 8, .err .notPermitted] ∧
    [0, 1, 2, 3, 4].map (fun k => signOrMacLength (inner .responder .msg2 k .th2 .prk3e2m).ctx) =
      [.ok 64, .ok 8, .ok 64, .ok 8, .err .notPermitted] ∧
    [0, 1, 2, 3, 4].map (fun k => macLength (inner .initiator .msg3 k .th3 .prk4e3m).ctx) =
      [.ok 32, .ok 32, .ok 8, .ok 8, .err .notPermitted] ∧
    [0, 1, 2, 3, 4].map (fun k => signOrMacLength (inner .initiator .msg3 k .th3 .prk4e3m).ctx) =
      [.ok 64, .ok 64, .ok 8, .ok 8, .err .notPermitted] := by decide +kernel

/-- the return code -/
def err? {α : Type} : Res α → Option Err
  | .err e => some e
  | _ => none

/- mac_ctx_small_buffer: the test announces 4 bytes of a buffer of 2048, the code writes past the
announced end and then reports it. For the model the announced size is the real one. -/
example : macContext cfg (inner .responder .msg2 0 .th2 .prk3e2m).ctx (.x5chain [fill 100 0]) 4 =
    .ub .oob := by decide +kernel

/- mac_ctx_bad_th_state_msg2, mac_ctx_bad_th_state_msg3, mac_ctx_len_unsupported_cred,
mac_ctx_unsupported_cred_label -/
example :
    err? (macContext cfg (inner .responder .msg2 0 .th3 .prk3e2m).ctx (.kid [] false (.int 0)) 1000) =
      some .badState ∧
    err? (macContext cfg (inner .initiator .msg3 0 .th2 .prk4e3m).ctx (.kid [] false (.int 0)) 1000) =
      some .badState ∧
    err? (macContextLen cfg (inner .responder .msg2 0 .th2 .prk3e2m).ctx (.other 99)) =
      some .notSupported ∧
    err? (macContext cfg (inner .responder .msg2 0 .th2 .prk3e2m).ctx (.other 99) 1000) =
      some .notSupported := by decide +kernel

/-- an empty MAC context -/
def noMac : MacCtx := ⟨[], [], [], [], [], false, .integer, [], []⟩

/- comp_mac_bad_prk_state_msg2 and _msg3, comp_sign_or_mac_method_max, verify_sign_or_mac_method_max,
comp_sign_or_mac_method1_msg2, comp_sign_or_mac_method2_msg3, verify_sign_or_mac_method1_msg2,
_mismatch -/
example : err? (compMac (env {}) cfg [] 32 (inner .responder .msg2 0 .th2 .prk2e)).1 =
      some .badState ∧
    err? (compMac (env {}) cfg [] 32 (inner .initiator .msg3 0 .th3 .prk2e)).1 = some .badState ∧
    err? (compSignOrMac (env {}) cfg [] noMac (fill 8 0) 64
      (inner .responder .msg2 4 .th2 .prk3e2m)).1 = some .notPermitted ∧
    err? (verifySignOrMac (env {}) cfg noMac (some (fill 32 0)) (fill 8 0) (fill 8 0)
      (inner .responder .msg2 4 .th2 .prk3e2m)).1 = some .notPermitted ∧
    (compSignOrMac (env {}) cfg [] noMac [1, 2, 3, 4, 5, 6, 7, 8] 64
      (inner .responder .msg2 1 .th2 .prk3e2m)).1 = .ok [1, 2, 3, 4, 5, 6, 7, 8] ∧
    (compSignOrMac (env {}) cfg [] noMac [1, 2, 3, 4, 5, 6, 7, 8] 64
      (inner .initiator .msg3 2 .th3 .prk4e3m)).1 = .ok [1, 2, 3, 4, 5, 6, 7, 8] ∧
    (verifySignOrMac (env {}) cfg noMac (some (fill 32 0)) [1, 2, 3, 4, 5, 6, 7, 8]
      [1, 2, 3, 4, 5, 6, 7, 8] (inner .responder .msg2 1 .th2 .prk3e2m)).1 = .ok () ∧
    err? (verifySignOrMac (env {}) cfg noMac (some (fill 32 0)) (fill 8 9)
      [1, 2, 3, 4, 5, 6, 7, 8] (inner .responder .msg2 1 .th2 .prk3e2m)).1 =
      some .invalidSignOrMac2 := by decide +kernel

end Verif.Conform
