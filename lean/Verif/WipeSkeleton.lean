/-
Control skeletons of the C functions with respect to wiping their working buffers.

Generated by `tools/skeleton.py --wipe` from /repo/library/*.c; do not edit. They are those of
MemSkeleton.lean (`Verif.Wipe.erase_code` proves it) with this added: which accesses set a whole buffer to
zero, which calls and statements assign the variable `ret`, which branches are taken if `ret` is not
EDHOC_SUCCESS, and whether a `return` returns EDHOC_SUCCESS, an error code, `ret`, or something else.
-/
import Verif.Wipe

namespace Verif.Wipe

open Verif.Mem (Buf Fn)

/-- library/edhoc.c:34-46 -/
def code_edhoc_context_init : Stm :=
  seq [
    alt [seq [.ret .err], seq []],
    .ret .ok]

/-- library/edhoc.c:48-63 -/
def code_edhoc_context_deinit : Stm :=
  seq [
    alt [seq [.ret .err], seq []],
    alt [seq [.ret .err], seq []],
    .ret .ok]

/-- library/edhoc.c:65-83 -/
def code_edhoc_set_methods : Stm :=
  seq [
    alt [seq [.ret .err], seq []],
    alt [seq [.ret .err], seq []],
    .ret .ok]

/-- library/edhoc.c:85-108 -/
def code_edhoc_set_cipher_suites : Stm :=
  seq [
    alt [seq [.ret .err], seq []],
    alt [seq [.ret .err], seq []],
    alt [seq [.ret .err], seq []],
    .ret .ok]

/-- library/edhoc.c:110-152 -/
def code_edhoc_set_connection_id : Stm :=
  seq [
    alt [seq [.ret .err], seq []],
    alt [seq [.ret .err], seq []],
    alt [seq [alt [seq [.ret .err], seq []]], seq [alt [seq [.ret .err], seq []], alt [seq [.ret .err], seq []]], seq [.ret .err]],
    .ret .ok]

/-- library/edhoc.c:154-169 -/
def code_edhoc_set_user_context : Stm :=
  seq [
    alt [seq [.ret .err], seq []],
    alt [seq [.ret .err], seq []],
    .ret .ok]

/-- library/edhoc.c:171-191 -/
def code_edhoc_bind_ead : Stm :=
  seq [
    alt [seq [.ret .err], seq []],
    alt [seq [.ret .err], seq []],
    alt [seq [.ret .err], seq []],
    .ret .ok]

/-- library/edhoc.c:193-213 -/
def code_edhoc_bind_keys : Stm :=
  seq [
    alt [seq [.ret .err], seq []],
    alt [seq [.ret .err], seq []],
    alt [seq [.ret .err], seq []],
    .ret .ok]

/-- library/edhoc.c:215-240 -/
def code_edhoc_bind_crypto : Stm :=
  seq [
    alt [seq [.ret .err], seq []],
    alt [seq [.ret .err], seq []],
    alt [seq [.ret .err], seq []],
    .ret .ok]

/-- library/edhoc.c:242-263 -/
def code_edhoc_bind_credentials : Stm :=
  seq [
    alt [seq [.ret .err], seq []],
    alt [seq [.ret .err], seq []],
    alt [seq [.ret .err], seq []],
    .ret .ok]

/-- library/edhoc.c:265-280 -/
def code_edhoc_error_get_code : Stm :=
  seq [
    alt [seq [.ret .err], seq []],
    alt [seq [.ret .err], seq []],
    .ret .ok]

/-- library/edhoc.c:282-326 -/
def code_edhoc_error_get_cipher_suites : Stm :=
  seq [
    alt [seq [.ret .err], seq []],
    alt [seq [.ret .err], seq []],
    alt [seq [.ret .err], seq []],
    alt [seq [.ret .err], seq []],
    alt [seq [.ret .err], seq []],
    .ret .ok]

/-- library/edhoc_common.c:175-178 -/
def code_edhoc_cbor_is_one_byte_int : Stm :=
  seq [
    .call .edhoc_cbor_int_mem_req,
    .ret .any]

/-- library/edhoc_common.c:180-203 -/
def code_comp_cid_len : Stm :=
  seq [
    alt [seq [.ret .err], seq []],
    alt [seq [], seq [.call .edhoc_cbor_bstr_oh], seq [.ret .err]],
    .ret .ok]

/-- library/edhoc_common.c:205-282 -/
def code_comp_id_cred_len : Stm :=
  seq [
    alt [seq [.ret .err], seq []],
    alt [seq [], seq [.call .edhoc_cbor_map_oh, alt [seq [.call .edhoc_cbor_int_mem_req], seq [.call .edhoc_cbor_bstr_oh], seq [.ret .err]]], seq [.call .edhoc_cbor_map_oh, .loop (seq [.call .edhoc_cbor_bstr_oh]), alt [seq [.call .edhoc_cbor_array_oh], seq []]], seq [.call .edhoc_cbor_map_oh, .call .edhoc_cbor_array_oh, alt [seq [.call .edhoc_cbor_int_mem_req], seq [.call .edhoc_cbor_bstr_oh], seq [.ret .err]], .call .edhoc_cbor_bstr_oh], seq [.ret .err]],
    .ret .ok]

/-- library/edhoc_common.c:284-296 -/
def code_comp_th_len : Stm :=
  seq [
    alt [seq [.ret .err], seq []],
    .call .edhoc_cbor_bstr_oh,
    .ret .ok]

/-- library/edhoc_common.c:298-334 -/
def code_comp_cred_len : Stm :=
  seq [
    alt [seq [.ret .err], seq []],
    alt [seq [], seq [.call .edhoc_cbor_bstr_oh], seq [.call .edhoc_cbor_bstr_oh], seq [.call .edhoc_cbor_bstr_oh], seq [.ret .err]],
    .ret .ok]

/-- library/edhoc_common.c:336-350 -/
def code_comp_ead_len : Stm :=
  seq [
    alt [seq [.ret .err], seq []],
    .loop (seq [.call .edhoc_cbor_int_mem_req, .call .edhoc_cbor_bstr_oh]),
    .ret .ok]

/-- library/edhoc_common.c:352-439 -/
def code_kid_compact_encoding : Stm :=
  seq [
    .set,
    .scope (seq [alt [seq [alt [seq [], seq [.set, alt [seq [.ret .err], seq []]]]], seq [alt [seq [alt [seq [.set, alt [seq [.ret .err], seq []], .call .edhoc_cbor_is_one_byte_int, alt [seq [.brk], seq []]], seq []]], seq [.set, alt [seq [.ret .err], seq []]]]], seq [.ret .err]]]),
    .ret .ok]

/-- library/edhoc_common.c:441-498 -/
def code_sign_cose_sign_1 : Stm :=
  seq [
    .set,
    .call .edhoc_cbor_tstr_oh,
    .call .edhoc_cbor_bstr_oh,
    .call .edhoc_cbor_bstr_oh,
    .call .edhoc_cbor_int_mem_req,
    .alloc .cose_sign_1_buf,
    .ifNull .cose_sign_1_buf (seq [.ret .err]),
    .use .cose_sign_1_buf,
    .set,
    alt [seq [.free .cose_sign_1_buf, .ret .err], seq []],
    .use .cose_sign_1_buf,
    .set,
    .free .cose_sign_1_buf,
    .onFail (seq [.ret .err]),
    .ret .ok]

/-- library/edhoc_common.c:500-568 -/
def code_verify_cose_sign_1 : Stm :=
  seq [
    .set,
    .call .edhoc_cbor_tstr_oh,
    .call .edhoc_cbor_bstr_oh,
    .call .edhoc_cbor_bstr_oh,
    .call .edhoc_cbor_int_mem_req,
    .alloc .cose_sign_1_buf,
    .ifNull .cose_sign_1_buf (seq [.ret .err]),
    .use .cose_sign_1_buf,
    .set,
    alt [seq [.free .cose_sign_1_buf, .ret .err], seq []],
    .set,
    .onFail (seq [.free .cose_sign_1_buf, .ret .err]),
    .use .cose_sign_1_buf,
    .set,
    .free .cose_sign_1_buf,
    .onFail (seq [.ret .err]),
    .ret .ok]

/-- library/edhoc_common.c:572-584 -/
def code_edhoc_cbor_int_mem_req : Stm :=
  seq [
    alt [seq [.ret .any], seq [alt [seq [.ret .any], seq [alt [seq [.ret .any], seq [.ret .any]]]]]]]

/-- library/edhoc_common.c:586-599 -/
def code_edhoc_cbor_tstr_oh : Stm :=
  seq [
    alt [seq [.ret .any], seq [alt [seq [.ret .any], seq [alt [seq [.ret .any], seq [alt [seq [.ret .any], seq [.ret .any]]]]]]]]]

/-- library/edhoc_common.c:601-614 -/
def code_edhoc_cbor_bstr_oh : Stm :=
  seq [
    alt [seq [.ret .any], seq [alt [seq [.ret .any], seq [alt [seq [.ret .any], seq [alt [seq [.ret .any], seq [.ret .any]]]]]]]]]

/-- library/edhoc_common.c:616-621 -/
def code_edhoc_cbor_map_oh : Stm :=
  seq [
    .ret .any]

/-- library/edhoc_common.c:623-633 -/
def code_edhoc_cbor_array_oh : Stm :=
  seq [
    alt [seq [.ret .any], seq []],
    alt [seq [.ret .any], seq []],
    alt [seq [.ret .any], seq []],
    .ret .any]

/-- library/edhoc_common.c:635-721 -/
def code_edhoc_comp_mac_context_length : Stm :=
  seq [
    alt [seq [.ret .err], seq []],
    alt [seq [.ret .err], seq []],
    alt [seq [.ret .err], seq []],
    .set,
    alt [seq [alt [seq [], seq [], seq [.ret .err]], .callRet .comp_cid_len, .onFail (seq [.ret .var])], seq []],
    .callRet .comp_id_cred_len,
    .onFail (seq [.ret .var]),
    .callRet .comp_th_len,
    .onFail (seq [.ret .var]),
    .callRet .comp_cred_len,
    .onFail (seq [.ret .var]),
    .callRet .comp_ead_len,
    .onFail (seq [.ret .var]),
    .ret .ok]

/-- library/edhoc_common.c:723-1137 -/
def code_edhoc_comp_mac_context : Stm :=
  seq [
    alt [seq [.ret .err], seq []],
    alt [seq [.ret .err], seq []],
    alt [seq [.ret .err], seq []],
    alt [seq [.ret .err], seq []],
    alt [seq [.ret .err], seq []],
    .set,
    alt [seq [alt [seq [], seq [], seq [.ret .err]], .callRet .comp_cid_len, .onFail (seq [.ret .var]), alt [seq [.set], seq [.set], seq [.ret .err]], alt [seq [.ret .err], seq []]], seq []],
    .callRet .comp_id_cred_len,
    .onFail (seq [.ret .var]),
    alt [seq [], seq [alt [seq [], seq [], seq [.ret .err]]], seq [alt [seq [.ret .err], seq []], alt [seq [], seq [alt [seq [.ret .err], seq []]]]], seq [alt [seq [], seq [], seq [.ret .err]]], seq [.ret .err]],
    alt [seq [], seq [.set, alt [seq [.ret .err], seq []]]],
    alt [seq [.callRet .kid_compact_encoding, .onFail (seq [.ret .err])], seq []],
    alt [seq [alt [seq [], seq [], seq [.ret .err]]], seq []],
    .callRet .comp_th_len,
    .onFail (seq [.ret .var]),
    .set,
    alt [seq [.ret .err], seq []],
    .callRet .comp_cred_len,
    .onFail (seq [.ret .var]),
    alt [seq [], seq [], seq [], seq [], seq [.ret .err]],
    alt [seq [], seq [alt [seq [], seq [.set, alt [seq [.ret .err], seq []]]]]],
    alt [seq [.callRet .comp_ead_len, .onFail (seq [.ret .var])], seq []],
    alt [seq [.set, alt [seq [.ret .err], seq []]], seq []],
    alt [seq [.ret .err], seq []],
    .ret .ok]

/-- library/edhoc_common.c:1139-1194 -/
def code_edhoc_comp_mac_length : Stm :=
  seq [
    alt [seq [.ret .err], seq []],
    alt [seq [.ret .err], seq []],
    alt [seq [alt [seq [.ret .ok], seq [.ret .ok], seq [.ret .err], seq []]], seq []],
    alt [seq [alt [seq [.ret .ok], seq [.ret .ok], seq [.ret .err], seq []]], seq []],
    .ret .err]

/-- library/edhoc_common.c:1196-1297 -/
def code_edhoc_comp_mac : Stm :=
  seq [
    alt [seq [.ret .err], seq []],
    alt [seq [.ret .err], seq []],
    alt [seq [.ret .err], seq []],
    alt [seq [.ret .err], seq []],
    .set,
    .call .edhoc_cbor_int_mem_req,
    .call .edhoc_cbor_bstr_oh,
    .call .edhoc_cbor_int_mem_req,
    .alloc .info_buf,
    .ifNull .info_buf (seq [.ret .err]),
    .use .info_buf,
    .set,
    alt [seq [.free .info_buf, .ret .err], seq []],
    alt [seq [.use .info_buf], seq [.use .info_buf], seq [.free .info_buf, .ret .err]],
    .set,
    .onFail (seq [.free .info_buf, .ret .err]),
    .use .info_buf,
    .set,
    .free .info_buf,
    .onFail (seq [.ret .err]),
    .ret .ok]

/-- library/edhoc_common.c:1299-1355 -/
def code_edhoc_comp_sign_or_mac_length : Stm :=
  seq [
    alt [seq [.ret .err], seq []],
    alt [seq [.ret .err], seq []],
    alt [seq [alt [seq [.ret .ok], seq [.ret .ok], seq [.ret .err], seq []]], seq []],
    alt [seq [alt [seq [.ret .ok], seq [.ret .ok], seq [.ret .err], seq []]], seq []],
    .ret .err]

/-- library/edhoc_common.c:1357-1414 -/
def code_edhoc_comp_sign_or_mac : Stm :=
  seq [
    alt [seq [.ret .err], seq []],
    alt [seq [alt [seq [.callRet .sign_cose_sign_1, .ret .var], seq [.ret .ok], seq [.ret .err], seq []]], seq []],
    alt [seq [alt [seq [.callRet .sign_cose_sign_1, .ret .var], seq [.ret .ok], seq [.ret .err], seq []]], seq []],
    .ret .err]

/-- library/edhoc_common.c:1416-1483 -/
def code_edhoc_verify_sign_or_mac : Stm :=
  seq [
    alt [seq [.ret .err], seq []],
    alt [seq [alt [seq [.callRet .verify_cose_sign_1, .ret .var], seq [alt [seq [.ret .err], seq []], .ret .ok], seq [.ret .err], seq []]], seq []],
    alt [seq [alt [seq [.callRet .verify_cose_sign_1, .ret .var], seq [alt [seq [.ret .err], seq []], .ret .ok], seq [.ret .err], seq []]], seq []],
    .ret .err]

/-- library/edhoc_exporter.c:82-156 -/
def code_compute_prk_out : Stm :=
  seq [
    alt [seq [.ret .err], seq []],
    alt [seq [.ret .err], seq []],
    .set,
    .call .edhoc_cbor_int_mem_req,
    .call .edhoc_cbor_bstr_oh,
    .call .edhoc_cbor_int_mem_req,
    .alloc .info,
    .ifNull .info (seq [.ret .err]),
    .use .info,
    .set,
    alt [seq [.free .info, .ret .err], seq []],
    .set,
    .onFail (seq [.free .info, .ret .err]),
    .use .info,
    .set,
    .free .info,
    .onFail (seq [.ret .err]),
    .ret .ok]

/-- library/edhoc_exporter.c:158-229 -/
def code_compute_new_prk_out : Stm :=
  seq [
    alt [seq [.ret .err], seq []],
    alt [seq [.ret .err], seq []],
    .set,
    .call .edhoc_cbor_int_mem_req,
    .call .edhoc_cbor_bstr_oh,
    .call .edhoc_cbor_int_mem_req,
    .alloc .info,
    .ifNull .info (seq [.ret .err]),
    .use .info,
    .set,
    alt [seq [.free .info, .ret .err], seq []],
    .set,
    .onFail (seq [.free .info, .ret .err]),
    .use .info,
    .set,
    .free .info,
    .onFail (seq [.ret .err]),
    .ret .ok]

/-- library/edhoc_exporter.c:231-303 -/
def code_compute_prk_exporter : Stm :=
  seq [
    alt [seq [.ret .err], seq []],
    alt [seq [.ret .err], seq []],
    .set,
    .call .edhoc_cbor_int_mem_req,
    .call .edhoc_cbor_bstr_oh,
    .call .edhoc_cbor_int_mem_req,
    .alloc .info,
    .ifNull .info (seq [.ret .err]),
    .use .info,
    .set,
    alt [seq [.free .info, .ret .err], seq []],
    .set,
    .onFail (seq [.free .info, .ret .err]),
    .use .info,
    .set,
    .free .info,
    .onFail (seq [.ret .err]),
    .ret .ok]

/-- library/edhoc_exporter.c:314-427 -/
def code_edhoc_export_prk_exporter : Stm :=
  seq [
    alt [seq [.ret .err], seq []],
    alt [seq [.ret .err], seq []],
    alt [seq [.ret .err], seq []],
    .set,
    alt [seq [.callRet .compute_prk_out, .onFail (seq [.ret .err])], seq []],
    .alloc .prk_exporter,
    .ifNull .prk_exporter (seq [.ret .err]),
    .use .prk_exporter,
    .callRet .compute_prk_exporter,
    .onFail (seq [.free .prk_exporter, .ret .err]),
    .call .edhoc_cbor_int_mem_req,
    .call .edhoc_cbor_bstr_oh,
    .call .edhoc_cbor_int_mem_req,
    .alloc .info,
    .ifNull .info (seq [.free .prk_exporter, .ret .err]),
    .use .info,
    .set,
    alt [seq [.free .info, .free .prk_exporter, .ret .err], seq []],
    .use .prk_exporter,
    .set,
    .onFail (seq [.free .info, .free .prk_exporter, .ret .err]),
    .free .prk_exporter,
    .use .info,
    .set,
    .free .info,
    .onFail (seq [.ret .err]),
    .ret .ok]

/-- library/edhoc_exporter.c:429-470 -/
def code_edhoc_export_key_update : Stm :=
  seq [
    alt [seq [.ret .err], seq []],
    alt [seq [.ret .err], seq []],
    .set,
    alt [seq [.callRet .compute_prk_out, .onFail (seq [.ret .err])], seq []],
    .callRet .compute_new_prk_out,
    .onFail (seq [.ret .err]),
    .ret .ok]

/-- library/edhoc_exporter.c:479-627 -/
def code_edhoc_export_oscore_session : Stm :=
  seq [
    alt [seq [.ret .err], seq []],
    alt [seq [.ret .err], seq []],
    alt [seq [.ret .err], seq []],
    .set,
    .callRet .edhoc_export_prk_exporter,
    .onFail (seq [.ret .err]),
    .callRet .edhoc_export_prk_exporter,
    .onFail (seq [.ret .err]),
    alt [seq [.set, alt [seq [.ret .err], seq []]], seq [alt [seq [.ret .err], seq []]], seq [.ret .err]],
    alt [seq [], seq [], seq [.ret .err]],
    alt [seq [.set, alt [seq [.ret .err], seq []]], seq [alt [seq [.ret .err], seq []]], seq [.ret .err]],
    alt [seq [], seq [], seq [.ret .err]],
    .ret .ok]

/-- library/edhoc_message_1.c:67-288 -/
def code_edhoc_message_1_compose : Stm :=
  seq [
    .set,
    alt [seq [.ret .err], seq []],
    alt [seq [.ret .err], seq []],
    alt [seq [.ret .err], seq []],
    .set,
    .onFail (seq [.ret .err]),
    .alloc .dh_pub_key,
    .ifNull .dh_pub_key (seq [.ret .err]),
    .use .dh_pub_key,
    .set,
    .onFailOr (seq [.free .dh_pub_key, .ret .err]),
    .use .dh_pub_key,
    alt [seq [], seq [alt [seq [.free .dh_pub_key, .ret .err], seq []]]],
    .use .dh_pub_key,
    alt [seq [], seq [], seq [.free .dh_pub_key, .ret .err]],
    alt [seq [.set, .onFailOr (seq [.free .dh_pub_key, .ret .err])], seq []],
    .set,
    alt [seq [.free .dh_pub_key, .ret .err], seq []],
    .free .dh_pub_key,
    .set,
    .onFailOr (seq [.ret .err]),
    .ret .ok]

/-- library/edhoc_message_1.c:301-575 -/
def code_edhoc_message_1_process : Stm :=
  seq [
    alt [seq [.ret .err], seq []],
    alt [seq [.ret .err], seq []],
    .set,
    .set,
    alt [seq [.ret .err], seq []],
    alt [seq [.ret .err], seq []],
    .loop (seq [alt [seq [.brk], seq []]]),
    alt [seq [.ret .err], seq []],
    alt [seq [alt [seq [.ret .err], seq []]], seq [alt [seq [.ret .err], seq []], alt [seq [.ret .err], seq []], alt [seq [.ret .err], seq []]], seq [.ret .err]],
    alt [seq [.ret .err], seq []],
    alt [seq [alt [seq [.ret .err], seq []]], seq [alt [seq [.ret .err], seq []]], seq [.ret .err]],
    alt [seq [], seq [], seq [.ret .err]],
    alt [seq [alt [seq [.ret .err], seq []], .set, .onFail (seq [.ret .err])], seq []],
    .set,
    .onFailOr (seq [.ret .err]),
    .ret .ok]

/-- library/edhoc_message_2.c:274-317 -/
def code_gen_dh_keys : Stm :=
  seq [
    alt [seq [.ret .err], seq []],
    .set,
    .set,
    .onFail (seq [.ret .err]),
    .set,
    .onFailOr (seq [.ret .err]),
    .ret .ok]

/-- library/edhoc_message_2.c:319-357 -/
def code_comp_dh_secret : Stm :=
  seq [
    alt [seq [.ret .err], seq []],
    .set,
    .set,
    .onFail (seq [.ret .err]),
    .set,
    .onFailOr (seq [.ret .err]),
    .ret .ok]

/-- library/edhoc_message_2.c:359-463 -/
def code_comp_th_2 : Stm :=
  seq [
    alt [seq [.ret .err], seq []],
    alt [seq [.ret .err], seq []],
    .set,
    .call .edhoc_cbor_bstr_oh,
    .call .edhoc_cbor_bstr_oh,
    .alloc .th_2,
    .ifNull .th_2 (seq [.ret .err]),
    alt [seq [], seq [], seq [.free .th_2, .ret .err]],
    .use .th_2,
    .set,
    alt [seq [.free .th_2, .ret .err], seq []],
    .use .th_2,
    .set,
    alt [seq [.free .th_2, .ret .err], seq []],
    alt [seq [.free .th_2, .ret .err], seq []],
    .use .th_2,
    .set,
    .free .th_2,
    .onFailOr (seq [.ret .err]),
    .ret .ok]

/-- library/edhoc_message_2.c:465-506 -/
def code_comp_prk_2e : Stm :=
  seq [
    alt [seq [.ret .err], seq []],
    alt [seq [.ret .err], seq []],
    .set,
    .set,
    .onFail (seq [.ret .err]),
    .set,
    .onFailOr (seq [.ret .err]),
    .ret .ok]

/-- library/edhoc_message_2.c:508-614 -/
def code_comp_prk_3e2m : Stm :=
  seq [
    alt [seq [.ret .err], seq []],
    alt [seq [.ret .err], seq []],
    alt [seq [.ret .ok], seq [.alloc .salt_3e2m, .ifNull .salt_3e2m (seq [.ret .err]), .use .salt_3e2m, .callRet .comp_salt_3e2m, .onFail (seq [.free .salt_3e2m, .ret .err]), .use .salt_3e2m, .alloc .grx, .ifNull .grx (seq [.free .salt_3e2m, .ret .err]), .use .grx, .callRet .comp_grx, .onFail (seq [.free .grx, .free .salt_3e2m, .ret .err]), .use .grx, .use .grx, .set, .wipe .grx, .free .grx, .onFail (seq [.free .salt_3e2m, .ret .err]), .use .salt_3e2m, .set, .free .salt_3e2m, .onFailOr (seq [.ret .err]), .ret .ok], seq [.ret .err], seq []],
    .ret .err]

/-- library/edhoc_message_2.c:616-658 -/
def code_comp_plaintext_2_len : Stm :=
  seq [
    alt [seq [.ret .err], seq []],
    alt [seq [.call .edhoc_cbor_int_mem_req], seq [.call .edhoc_cbor_bstr_oh], seq []],
    alt [seq [alt [seq [.call .edhoc_cbor_int_mem_req], seq [.call .edhoc_cbor_bstr_oh], seq []]], seq []],
    .call .edhoc_cbor_bstr_oh,
    .ret .ok]

/-- library/edhoc_message_2.c:660-760 -/
def code_prepare_plaintext_2 : Stm :=
  seq [
    .set,
    alt [seq [.set, alt [seq [.ret .err], seq []]], seq [.set, alt [seq [.ret .err], seq []]], seq [.ret .err]],
    alt [seq [alt [seq [], seq [], seq [.ret .err]]], seq []],
    .call .edhoc_cbor_bstr_oh,
    .set,
    alt [seq [.ret .err], seq []],
    alt [seq [.ret .err], seq []],
    .ret .ok]

/-- library/edhoc_message_2.c:762-833 -/
def code_comp_keystream : Stm :=
  seq [
    alt [seq [.ret .err], seq []],
    alt [seq [.ret .err], seq []],
    .set,
    .call .edhoc_cbor_int_mem_req,
    .call .edhoc_cbor_bstr_oh,
    .call .edhoc_cbor_int_mem_req,
    .alloc .info,
    .ifNull .info (seq [.ret .err]),
    .use .info,
    .set,
    alt [seq [.free .info, .ret .err], seq []],
    .set,
    .onFail (seq [.free .info, .ret .err]),
    .use .info,
    .set,
    .free .info,
    .onFail (seq [.ret .err]),
    .ret .ok]

/-- library/edhoc_message_2.c:835-839 -/
def code_xor_arrays : Stm :=
  seq [
    .ret .any]

/-- library/edhoc_message_2.c:841-893 -/
def code_prepare_message_2 : Stm :=
  seq [
    alt [seq [.ret .err], seq []],
    .set,
    .alloc .buffer,
    .ifNull .buffer (seq [.ret .err]),
    .use .buffer,
    .use .buffer,
    alt [seq [.free .buffer, .ret .err], seq []],
    .use .buffer,
    .set,
    .free .buffer,
    alt [seq [.ret .err], seq []],
    .ret .ok]

/-- library/edhoc_message_2.c:895-922 -/
def code_comp_ciphertext_2_len : Stm :=
  seq [
    .set,
    .set,
    .onFail (seq [.ret .err]),
    alt [seq [.ret .err], seq []],
    .ret .ok]

/-- library/edhoc_message_2.c:924-956 -/
def code_parse_msg_2 : Stm :=
  seq [
    .set,
    .set,
    .onFail (seq [.ret .err]),
    alt [seq [.ret .err], seq []],
    .ret .ok]

/-- library/edhoc_message_2.c:958-1182 -/
def code_parse_plaintext_2 : Stm :=
  seq [
    alt [seq [.ret .err], seq []],
    .set,
    .set,
    alt [seq [.ret .err], seq []],
    alt [seq [alt [seq [.ret .err], seq []]], seq [alt [seq [.ret .err], seq []]], seq [.ret .err]],
    .scope (seq [alt [seq [], seq [], seq [alt [seq [alt [seq [], seq [alt [seq [.ret .err], seq []]], seq [.ret .err]]], seq []], alt [seq [alt [seq [], seq [alt [seq [.ret .err], seq []]], seq [.ret .err]], .brk], seq []]], seq []]]),
    .ret .ok]

/-- library/edhoc_message_2.c:1184-1256 -/
def code_comp_th_3 : Stm :=
  seq [
    alt [seq [.ret .err], seq []],
    alt [seq [.ret .err], seq []],
    .set,
    .call .edhoc_cbor_bstr_oh,
    .alloc .th_3,
    .ifNull .th_3 (seq [.ret .err]),
    .use .th_3,
    .set,
    .onFail (seq [.free .th_3, .ret .err]),
    .use .th_3,
    .use .th_3,
    alt [seq [.free .th_3, .ret .err], seq []],
    .use .th_3,
    .set,
    .free .th_3,
    .onFail (seq [.ret .err]),
    .ret .ok]

/-- library/edhoc_message_2.c:1258-1327 -/
def code_comp_salt_3e2m : Stm :=
  seq [
    alt [seq [.ret .err], seq []],
    alt [seq [.ret .err], seq []],
    .set,
    .call .edhoc_cbor_int_mem_req,
    .call .edhoc_cbor_bstr_oh,
    .call .edhoc_cbor_int_mem_req,
    .alloc .info,
    .ifNull .info (seq [.ret .err]),
    .use .info,
    .set,
    alt [seq [.free .info, .ret .err], seq []],
    .set,
    .onFail (seq [.free .info, .ret .err]),
    .use .info,
    .set,
    .free .info,
    .onFail (seq [.ret .err]),
    .ret .ok]

/-- library/edhoc_message_2.c:1329-1397 -/
def code_comp_grx : Stm :=
  seq [
    alt [seq [.ret .err], seq []],
    .set,
    alt [seq [.set, .onFail (seq [.ret .err]), .set, .onFailOr (seq [.ret .err]), .ret .ok], seq [.set, .onFailOr (seq [.ret .err]), .ret .ok], seq [.ret .err]],
    .ret .err]

/-- library/edhoc_message_2.c:1422-1749 -/
def code_edhoc_message_2_compose : Stm :=
  seq [
    alt [seq [.ret .err], seq []],
    alt [seq [.ret .err], seq []],
    .set,
    .callRet .gen_dh_keys,
    .onFail (seq [.ret .err]),
    .callRet .comp_dh_secret,
    .onFail (seq [.ret .err]),
    .callRet .comp_th_2,
    .onFail (seq [.ret .err]),
    .callRet .comp_prk_2e,
    .onFail (seq [.ret .err]),
    .alloc .prk_2e,
    .ifNull .prk_2e (seq [.ret .err]),
    .use .prk_2e,
    .set,
    .onFail (seq [.free .prk_2e, .ret .err]),
    alt [seq [.set, .onFailOr (seq [.free .prk_2e, .ret .err])], seq []],
    .callRet .comp_prk_3e2m,
    .onFail (seq [.free .prk_2e, .ret .err]),
    .callRet .edhoc_comp_mac_context_length,
    .onFail (seq [.free .prk_2e, .ret .var]),
    .alloc .mac_ctx_buf,
    .ifNull .mac_ctx_buf (seq [.free .prk_2e, .ret .err]),
    .use .mac_ctx_buf,
    .use .mac_ctx_buf,
    .callRet .edhoc_comp_mac_context,
    .onFail (seq [.free .mac_ctx_buf, .free .prk_2e, .ret .var]),
    .use .mac_ctx_buf,
    .use .mac_ctx_buf,
    .use .mac_ctx_buf,
    .use .mac_ctx_buf,
    .use .mac_ctx_buf,
    .callRet .edhoc_comp_mac_length,
    .onFail (seq [.free .mac_ctx_buf, .free .prk_2e, .ret .var]),
    .alloc .mac_buf,
    .ifNull .mac_buf (seq [.free .mac_ctx_buf, .free .prk_2e, .ret .err]),
    .use .mac_ctx_buf,
    .use .mac_buf,
    .callRet .edhoc_comp_mac,
    .onFail (seq [.free .mac_buf, .free .mac_ctx_buf, .free .prk_2e, .ret .var]),
    .callRet .edhoc_comp_sign_or_mac_length,
    .onFail (seq [.free .mac_buf, .free .mac_ctx_buf, .free .prk_2e, .ret .var]),
    .alloc .signature,
    .ifNull .signature (seq [.free .mac_buf, .free .mac_ctx_buf, .free .prk_2e, .ret .err]),
    .use .mac_ctx_buf,
    .use .mac_buf,
    .use .signature,
    .callRet .edhoc_comp_sign_or_mac,
    .free .mac_buf,
    .onFail (seq [.free .signature, .free .mac_ctx_buf, .free .prk_2e, .ret .var]),
    .use .signature,
    .use .mac_ctx_buf,
    .callRet .comp_plaintext_2_len,
    .onFail (seq [.free .signature, .free .mac_ctx_buf, .free .prk_2e, .ret .err]),
    .alloc .plaintext,
    .ifNull .plaintext (seq [.free .signature, .free .mac_ctx_buf, .free .prk_2e, .ret .err]),
    .use .mac_ctx_buf,
    .use .signature,
    .use .plaintext,
    .callRet .prepare_plaintext_2,
    .free .signature,
    .onFail (seq [.free .plaintext, .free .mac_ctx_buf, .free .prk_2e, .ret .err]),
    .use .plaintext,
    .alloc .keystream,
    .ifNull .keystream (seq [.free .plaintext, .free .mac_ctx_buf, .free .prk_2e, .ret .err]),
    .use .prk_2e,
    .use .keystream,
    .callRet .comp_keystream,
    .wipe .prk_2e,
    .free .prk_2e,
    .onFail (seq [.free .keystream, .free .plaintext, .free .mac_ctx_buf, .ret .err]),
    .use .keystream,
    .use .mac_ctx_buf,
    .use .plaintext,
    .callRet .comp_th_3,
    .free .mac_ctx_buf,
    .onFail (seq [.free .keystream, .free .plaintext, .ret .err]),
    .use .plaintext,
    .use .keystream,
    .call .xor_arrays,
    .free .keystream,
    .use .plaintext,
    .use .plaintext,
    .callRet .prepare_message_2,
    .onFail (seq [.free .plaintext, .ret .err]),
    .free .plaintext,
    .ret .ok]

/-- library/edhoc_message_2.c:1771-2061 -/
def code_edhoc_message_2_process : Stm :=
  seq [
    alt [seq [.ret .err], seq []],
    alt [seq [.ret .err], seq []],
    .set,
    .callRet .comp_ciphertext_2_len,
    .onFail (seq [.ret .err]),
    .alloc .ciphertext_2,
    .ifNull .ciphertext_2 (seq [.ret .err]),
    .use .ciphertext_2,
    .callRet .parse_msg_2,
    .onFail (seq [.free .ciphertext_2, .ret .err]),
    .use .ciphertext_2,
    .callRet .comp_dh_secret,
    .onFail (seq [.free .ciphertext_2, .ret .err]),
    .callRet .comp_th_2,
    .onFail (seq [.free .ciphertext_2, .ret .err]),
    .callRet .comp_prk_2e,
    .onFail (seq [.free .ciphertext_2, .ret .err]),
    .alloc .keystream,
    .ifNull .keystream (seq [.free .ciphertext_2, .ret .err]),
    .use .keystream,
    .callRet .comp_keystream,
    .onFail (seq [.free .keystream, .free .ciphertext_2, .ret .err]),
    .use .keystream,
    .use .ciphertext_2,
    .use .keystream,
    .call .xor_arrays,
    .free .keystream,
    .use .ciphertext_2,
    .use .ciphertext_2,
    .callRet .parse_plaintext_2,
    .onFail (seq [.free .ciphertext_2, .ret .err]),
    alt [seq [], seq [], seq [.free .ciphertext_2, .ret .err]],
    .use .ciphertext_2,
    alt [seq [.use .ciphertext_2, .set, .onFail (seq [.free .ciphertext_2, .ret .err]), .loop (seq [.use .ciphertext_2, .use .ciphertext_2, alt [seq [.use .ciphertext_2], seq []]])], seq []],
    .use .ciphertext_2,
    .set,
    .onFail (seq [.free .ciphertext_2, .ret .err]),
    .use .ciphertext_2,
    .callRet .comp_prk_3e2m,
    .onFail (seq [.free .ciphertext_2, .ret .err]),
    .use .ciphertext_2,
    .callRet .edhoc_comp_mac_context_length,
    .onFail (seq [.free .ciphertext_2, .ret .err]),
    .alloc .mac_ctx_buf,
    .ifNull .mac_ctx_buf (seq [.free .ciphertext_2, .ret .err]),
    .use .mac_ctx_buf,
    .use .mac_ctx_buf,
    .use .ciphertext_2,
    .callRet .edhoc_comp_mac_context,
    .onFail (seq [.free .mac_ctx_buf, .free .ciphertext_2, .ret .var]),
    .use .mac_ctx_buf,
    .use .mac_ctx_buf,
    .use .mac_ctx_buf,
    .use .mac_ctx_buf,
    .use .mac_ctx_buf,
    .callRet .edhoc_comp_mac_length,
    .onFail (seq [.free .mac_ctx_buf, .free .ciphertext_2, .ret .var]),
    .alloc .mac_buf,
    .ifNull .mac_buf (seq [.free .mac_ctx_buf, .free .ciphertext_2, .ret .err]),
    .use .mac_ctx_buf,
    .use .mac_buf,
    .callRet .edhoc_comp_mac,
    .onFail (seq [.free .mac_buf, .free .mac_ctx_buf, .free .ciphertext_2, .ret .var]),
    .use .mac_ctx_buf,
    .use .mac_buf,
    .use .ciphertext_2,
    .callRet .edhoc_verify_sign_or_mac,
    .free .mac_buf,
    .onFail (seq [.free .mac_ctx_buf, .free .ciphertext_2, .ret .err]),
    .use .mac_ctx_buf,
    .use .ciphertext_2,
    .callRet .comp_th_3,
    .free .mac_ctx_buf,
    .free .ciphertext_2,
    .onFail (seq [.ret .err]),
    .ret .ok]

/-- library/edhoc_message_3.c:270-374 -/
def code_comp_prk_4e3m : Stm :=
  seq [
    alt [seq [.ret .err], seq []],
    alt [seq [.ret .err], seq []],
    alt [seq [.ret .ok], seq [.alloc .salt_4e3m, .ifNull .salt_4e3m (seq [.ret .err]), .use .salt_4e3m, .callRet .comp_salt_4e3m, .onFail (seq [.free .salt_4e3m, .ret .err]), .use .salt_4e3m, .alloc .giy, .ifNull .giy (seq [.free .salt_4e3m, .ret .err]), .use .giy, .callRet .comp_giy, .onFail (seq [.free .giy, .free .salt_4e3m, .ret .err]), .use .giy, .use .giy, .set, .wipe .giy, .free .giy, .onFail (seq [.free .salt_4e3m, .ret .err]), .use .salt_4e3m, .set, .free .salt_4e3m, .onFailOr (seq [.ret .err]), .ret .ok], seq [.ret .err], seq []],
    .ret .err]

/-- library/edhoc_message_3.c:376-418 -/
def code_comp_plaintext_3_len : Stm :=
  seq [
    alt [seq [.ret .err], seq []],
    alt [seq [.call .edhoc_cbor_int_mem_req], seq [.call .edhoc_cbor_bstr_oh], seq []],
    alt [seq [alt [seq [.call .edhoc_cbor_int_mem_req], seq [.call .edhoc_cbor_bstr_oh], seq []]], seq []],
    .call .edhoc_cbor_bstr_oh,
    .ret .ok]

/-- library/edhoc_message_3.c:420-488 -/
def code_prepare_plaintext_3 : Stm :=
  seq [
    alt [seq [.ret .err], seq []],
    .set,
    alt [seq [alt [seq [], seq [], seq [.ret .err]]], seq []],
    .call .edhoc_cbor_bstr_oh,
    .set,
    alt [seq [.ret .err], seq []],
    alt [seq [.ret .err], seq []],
    .ret .ok]

/-- library/edhoc_message_3.c:490-505 -/
def code_comp_aad_3_len : Stm :=
  seq [
    alt [seq [.ret .err], seq []],
    .call .edhoc_cbor_tstr_oh,
    .call .edhoc_cbor_bstr_oh,
    .ret .ok]

/-- library/edhoc_message_3.c:507-636 -/
def code_comp_key_iv_aad_3 : Stm :=
  seq [
    alt [seq [.ret .err], seq []],
    alt [seq [.ret .err], seq []],
    .set,
    .call .edhoc_cbor_int_mem_req,
    .call .edhoc_cbor_bstr_oh,
    .call .edhoc_cbor_int_mem_req,
    .alloc .info,
    .ifNull .info (seq [.ret .err]),
    .use .info,
    .set,
    alt [seq [.free .info, .ret .err], seq []],
    .set,
    .onFail (seq [.free .info, .ret .err]),
    .use .info,
    .set,
    .onFail (seq [.free .info, .ret .err]),
    .wipe .info,
    .use .info,
    .set,
    alt [seq [.free .info, .ret .err], seq []],
    .set,
    .onFail (seq [.free .info, .ret .err]),
    .use .info,
    .set,
    .free .info,
    .onFail (seq [.ret .err]),
    .set,
    .onFail (seq [.ret .err]),
    .ret .ok]

/-- library/edhoc_message_3.c:638-675 -/
def code_comp_ciphertext : Stm :=
  seq [
    alt [seq [.ret .err], seq []],
    .set,
    .set,
    .onFail (seq [.ret .err]),
    .set,
    .onFail (seq [.ret .err]),
    .ret .ok]

/-- library/edhoc_message_3.c:677-756 -/
def code_comp_th_4 : Stm :=
  seq [
    alt [seq [.ret .err], seq []],
    alt [seq [.ret .err], seq []],
    .set,
    .call .edhoc_cbor_bstr_oh,
    .alloc .th_4,
    .ifNull .th_4 (seq [.ret .err]),
    .use .th_4,
    .set,
    .onFail (seq [.free .th_4, .ret .err]),
    .use .th_4,
    .use .th_4,
    alt [seq [.free .th_4, .ret .err], seq []],
    .use .th_4,
    .set,
    .free .th_4,
    .onFailOr (seq [.ret .err]),
    .ret .ok]

/-- library/edhoc_message_3.c:758-783 -/
def code_gen_msg_3 : Stm :=
  seq [
    alt [seq [.ret .err], seq []],
    .set,
    .set,
    .onFail (seq [.ret .err]),
    .ret .ok]

/-- library/edhoc_message_3.c:785-810 -/
def code_parse_msg_3 : Stm :=
  seq [
    alt [seq [.ret .err], seq []],
    .set,
    .set,
    alt [seq [.ret .err], seq []],
    .ret .ok]

/-- library/edhoc_message_3.c:812-851 -/
def code_decrypt_ciphertext_3 : Stm :=
  seq [
    alt [seq [.ret .err], seq []],
    .set,
    .set,
    .onFail (seq [.ret .err]),
    .set,
    .onFailOr (seq [.ret .err]),
    .ret .ok]

/-- library/edhoc_message_3.c:853-1035 -/
def code_parse_plaintext_3 : Stm :=
  seq [
    alt [seq [.ret .err], seq []],
    .set,
    .set,
    alt [seq [.ret .err], seq []],
    .scope (seq [alt [seq [], seq [], seq [alt [seq [alt [seq [], seq [alt [seq [.ret .err], seq []]], seq []], .brk], seq []], alt [seq [alt [seq [], seq [alt [seq [.ret .err], seq []]], seq [.ret .err]], .brk], seq []]], seq []]]),
    .ret .ok]

/-- library/edhoc_message_3.c:1037-1106 -/
def code_comp_salt_4e3m : Stm :=
  seq [
    alt [seq [.ret .err], seq []],
    alt [seq [.ret .err], seq []],
    .set,
    .call .edhoc_cbor_int_mem_req,
    .call .edhoc_cbor_bstr_oh,
    .call .edhoc_cbor_int_mem_req,
    .alloc .info,
    .ifNull .info (seq [.ret .err]),
    .use .info,
    .set,
    alt [seq [.free .info, .ret .err], seq []],
    .set,
    .onFail (seq [.free .info, .ret .err]),
    .use .info,
    .set,
    .free .info,
    .onFail (seq [.ret .err]),
    .ret .ok]

/-- library/edhoc_message_3.c:1108-1176 -/
def code_comp_giy : Stm :=
  seq [
    alt [seq [.ret .err], seq []],
    .set,
    alt [seq [.set, .onFailOr (seq [.ret .err]), .ret .ok], seq [.set, .onFail (seq [.ret .err]), .set, .onFailOr (seq [.ret .err]), .ret .ok], seq [.ret .err]],
    .ret .err]

/-- library/edhoc_message_3.c:1197-1557 -/
def code_edhoc_message_3_compose : Stm :=
  seq [
    alt [seq [.ret .err], seq []],
    alt [seq [.ret .err], seq []],
    .set,
    alt [seq [.set, .onFailOr (seq [.ret .err])], seq []],
    .set,
    .onFail (seq [.ret .err]),
    .alloc .key,
    .ifNull .key (seq [.ret .err]),
    .alloc .iv,
    .ifNull .iv (seq [.free .key, .ret .err]),
    .callRet .comp_aad_3_len,
    .onFail (seq [.free .iv, .free .key, .ret .var]),
    .alloc .aad,
    .ifNull .aad (seq [.free .iv, .free .key, .ret .err]),
    .use .key,
    .use .iv,
    .use .aad,
    .callRet .comp_key_iv_aad_3,
    .onFail (seq [.free .aad, .free .iv, .free .key, .ret .err]),
    .use .key,
    .use .iv,
    .use .aad,
    .callRet .comp_prk_4e3m,
    .onFail (seq [.free .aad, .free .iv, .free .key, .ret .err]),
    .callRet .edhoc_comp_mac_context_length,
    .onFail (seq [.free .aad, .free .iv, .free .key, .ret .var]),
    .alloc .mac_3_context_buf,
    .ifNull .mac_3_context_buf (seq [.free .aad, .free .iv, .free .key, .ret .err]),
    .use .mac_3_context_buf,
    .use .mac_3_context_buf,
    .callRet .edhoc_comp_mac_context,
    .onFail (seq [.free .mac_3_context_buf, .free .aad, .free .iv, .free .key, .ret .var]),
    .use .mac_3_context_buf,
    .use .mac_3_context_buf,
    .use .mac_3_context_buf,
    .use .mac_3_context_buf,
    .callRet .edhoc_comp_mac_length,
    .onFail (seq [.free .mac_3_context_buf, .free .aad, .free .iv, .free .key, .ret .err]),
    .alloc .mac_buf,
    .ifNull .mac_buf (seq [.free .mac_3_context_buf, .free .aad, .free .iv, .free .key, .ret .err]),
    .use .mac_3_context_buf,
    .use .mac_buf,
    .callRet .edhoc_comp_mac,
    .onFail (seq [.free .mac_buf, .free .mac_3_context_buf, .free .aad, .free .iv, .free .key, .ret .err]),
    .callRet .edhoc_comp_sign_or_mac_length,
    .onFail (seq [.free .mac_buf, .free .mac_3_context_buf, .free .aad, .free .iv, .free .key, .ret .var]),
    .alloc .signature,
    .ifNull .signature (seq [.free .mac_buf, .free .mac_3_context_buf, .free .aad, .free .iv, .free .key, .ret .err]),
    .use .mac_3_context_buf,
    .use .mac_buf,
    .use .signature,
    .callRet .edhoc_comp_sign_or_mac,
    .free .mac_buf,
    .onFail (seq [.free .signature, .free .mac_3_context_buf, .free .aad, .free .iv, .free .key, .ret .var]),
    .use .signature,
    .use .mac_3_context_buf,
    .callRet .comp_plaintext_3_len,
    .onFail (seq [.free .signature, .free .mac_3_context_buf, .free .aad, .free .iv, .free .key, .ret .var]),
    .alloc .plaintext,
    .ifNull .plaintext (seq [.free .signature, .free .mac_3_context_buf, .free .aad, .free .iv, .free .key, .ret .err]),
    .use .mac_3_context_buf,
    .use .signature,
    .use .plaintext,
    .callRet .prepare_plaintext_3,
    .free .signature,
    .onFail (seq [.free .plaintext, .free .mac_3_context_buf, .free .aad, .free .iv, .free .key, .ret .err]),
    .use .plaintext,
    .alloc .ciphertext,
    .ifNull .ciphertext (seq [.free .plaintext, .free .mac_3_context_buf, .free .aad, .free .iv, .free .key, .ret .err]),
    .use .key,
    .use .iv,
    .use .aad,
    .use .plaintext,
    .use .ciphertext,
    .callRet .comp_ciphertext,
    .free .aad,
    .free .iv,
    .free .key,
    .onFail (seq [.free .ciphertext, .free .plaintext, .free .mac_3_context_buf, .ret .err]),
    .use .ciphertext,
    .use .mac_3_context_buf,
    .use .plaintext,
    .callRet .comp_th_4,
    .free .plaintext,
    .free .mac_3_context_buf,
    .onFail (seq [.free .ciphertext, .ret .err]),
    .use .ciphertext,
    .callRet .gen_msg_3,
    .free .ciphertext,
    .onFail (seq [.ret .err]),
    .ret .ok]

/-- library/edhoc_message_3.c:1576-1852 -/
def code_edhoc_message_3_process : Stm :=
  seq [
    alt [seq [.ret .err], seq []],
    alt [seq [.ret .err], seq []],
    .set,
    .callRet .parse_msg_3,
    .onFail (seq [.ret .err]),
    .alloc .key,
    .ifNull .key (seq [.ret .err]),
    .alloc .iv,
    .ifNull .iv (seq [.free .key, .ret .err]),
    .callRet .comp_aad_3_len,
    .onFail (seq [.free .iv, .free .key, .ret .err]),
    .alloc .aad,
    .ifNull .aad (seq [.free .iv, .free .key, .ret .err]),
    .use .key,
    .use .iv,
    .use .aad,
    .callRet .comp_key_iv_aad_3,
    .onFail (seq [.free .aad, .free .iv, .free .key, .ret .err]),
    .use .key,
    .use .iv,
    .use .aad,
    .alloc .ptxt,
    .ifNull .ptxt (seq [.free .aad, .free .iv, .free .key, .ret .err]),
    .use .key,
    .use .iv,
    .use .aad,
    .use .ptxt,
    .callRet .decrypt_ciphertext_3,
    .free .aad,
    .free .iv,
    .free .key,
    .onFail (seq [.free .ptxt, .ret .err]),
    .use .ptxt,
    .use .ptxt,
    .callRet .parse_plaintext_3,
    .onFail (seq [.free .ptxt, .ret .err]),
    .use .ptxt,
    alt [seq [.use .ptxt, .set, .onFail (seq [.free .ptxt, .ret .err]), .loop (seq [.use .ptxt, .use .ptxt, alt [seq [.use .ptxt], seq []]])], seq []],
    .use .ptxt,
    .set,
    .onFail (seq [.free .ptxt, .ret .err]),
    .use .ptxt,
    .callRet .comp_prk_4e3m,
    .onFail (seq [.free .ptxt, .ret .err]),
    .use .ptxt,
    .callRet .edhoc_comp_mac_context_length,
    .onFail (seq [.free .ptxt, .ret .err]),
    .alloc .mac_3_context_buf,
    .ifNull .mac_3_context_buf (seq [.free .ptxt, .ret .err]),
    .use .mac_3_context_buf,
    .use .mac_3_context_buf,
    .use .ptxt,
    .callRet .edhoc_comp_mac_context,
    .onFail (seq [.free .mac_3_context_buf, .free .ptxt, .ret .var]),
    .use .mac_3_context_buf,
    .use .mac_3_context_buf,
    .use .mac_3_context_buf,
    .use .mac_3_context_buf,
    .use .mac_3_context_buf,
    .callRet .edhoc_comp_mac_length,
    .onFail (seq [.free .mac_3_context_buf, .free .ptxt, .ret .err]),
    .alloc .mac_buf,
    .ifNull .mac_buf (seq [.free .mac_3_context_buf, .free .ptxt, .ret .err]),
    .use .mac_3_context_buf,
    .use .mac_buf,
    .callRet .edhoc_comp_mac,
    .onFail (seq [.free .mac_buf, .free .mac_3_context_buf, .free .ptxt, .ret .err]),
    .use .mac_3_context_buf,
    .use .mac_buf,
    .use .ptxt,
    .callRet .edhoc_verify_sign_or_mac,
    .free .mac_buf,
    .onFail (seq [.free .mac_3_context_buf, .free .ptxt, .ret .err]),
    .use .mac_3_context_buf,
    .use .ptxt,
    .callRet .comp_th_4,
    .free .mac_3_context_buf,
    .free .ptxt,
    .onFail (seq [.ret .err]),
    .ret .ok]

/-- library/edhoc_message_4.c:198-216 -/
def code_compute_plaintext_4_len : Stm :=
  seq [
    alt [seq [.ret .err], seq []],
    .loop (seq [.call .edhoc_cbor_int_mem_req, .call .edhoc_cbor_bstr_oh]),
    .ret .ok]

/-- library/edhoc_message_4.c:218-262 -/
def code_prepare_plaintext_4 : Stm :=
  seq [
    alt [seq [.ret .err], seq []],
    .set,
    alt [seq [.ret .err], seq []],
    .set,
    .onFail (seq [.ret .err]),
    .ret .ok]

/-- library/edhoc_message_4.c:264-273 -/
def code_compute_aad_4_len : Stm :=
  seq [
    .call .edhoc_cbor_tstr_oh,
    .call .edhoc_cbor_bstr_oh,
    .call .edhoc_cbor_bstr_oh,
    .ret .any]

/-- library/edhoc_message_4.c:275-405 -/
def code_compute_key_iv_aad_4 : Stm :=
  seq [
    alt [seq [.ret .err], seq []],
    alt [seq [.ret .err], seq []],
    .set,
    .call .edhoc_cbor_int_mem_req,
    .call .edhoc_cbor_bstr_oh,
    .call .edhoc_cbor_int_mem_req,
    .alloc .info,
    .ifNull .info (seq [.ret .err]),
    .use .info,
    .set,
    alt [seq [.free .info, .ret .err], seq []],
    .set,
    .onFail (seq [.free .info, .ret .err]),
    .use .info,
    .set,
    .onFail (seq [.free .info, .ret .err]),
    .wipe .info,
    .use .info,
    .set,
    alt [seq [.free .info, .ret .err], seq []],
    .set,
    .onFail (seq [.free .info, .ret .err]),
    .use .info,
    .set,
    .free .info,
    .onFail (seq [.ret .err]),
    .set,
    .onFail (seq [.ret .err]),
    .ret .ok]

/-- library/edhoc_message_4.c:407-437 -/
def code_compute_ciphertext : Stm :=
  seq [
    .set,
    .set,
    .onFail (seq [.ret .err]),
    .set,
    .onFail (seq [.ret .err]),
    .ret .ok]

/-- library/edhoc_message_4.c:439-464 -/
def code_gen_msg_4 : Stm :=
  seq [
    alt [seq [.ret .err], seq []],
    .set,
    .set,
    .onFail (seq [.ret .err]),
    .ret .ok]

/-- library/edhoc_message_4.c:466-491 -/
def code_parse_msg_4 : Stm :=
  seq [
    alt [seq [.ret .err], seq []],
    .set,
    .set,
    alt [seq [.ret .err], seq []],
    .ret .ok]

/-- library/edhoc_message_4.c:493-525 -/
def code_decrypt_ciphertext_4 : Stm :=
  seq [
    .set,
    .set,
    .onFail (seq [.ret .err]),
    .set,
    .onFailOr (seq [.ret .err]),
    .ret .ok]

/-- library/edhoc_message_4.c:527-557 -/
def code_parse_plaintext_4 : Stm :=
  seq [
    alt [seq [.ret .err], seq []],
    .set,
    .set,
    alt [seq [.ret .err], seq []],
    .ret .ok]

/-- library/edhoc_message_4.c:571-761 -/
def code_edhoc_message_4_compose : Stm :=
  seq [
    alt [seq [.ret .err], seq []],
    alt [seq [.ret .err], seq []],
    .set,
    alt [seq [.set, .onFailOr (seq [.ret .err])], seq []],
    .callRet .compute_plaintext_4_len,
    .onFail (seq [.ret .err]),
    .alloc .plaintext,
    .ifNull .plaintext (seq [.ret .err]),
    .use .plaintext,
    .callRet .prepare_plaintext_4,
    .onFail (seq [.free .plaintext, .ret .err]),
    .use .plaintext,
    .alloc .key,
    .ifNull .key (seq [.free .plaintext, .ret .err]),
    .alloc .iv,
    .ifNull .iv (seq [.free .key, .free .plaintext, .ret .err]),
    .call .compute_aad_4_len,
    .alloc .aad,
    .ifNull .aad (seq [.free .iv, .free .key, .free .plaintext, .ret .err]),
    .use .key,
    .use .iv,
    .use .aad,
    .callRet .compute_key_iv_aad_4,
    .onFail (seq [.free .aad, .free .iv, .free .key, .free .plaintext, .ret .err]),
    .use .key,
    .use .iv,
    .use .aad,
    .alloc .ciphertext,
    .ifNull .ciphertext (seq [.free .aad, .free .iv, .free .key, .free .plaintext, .ret .err]),
    .use .key,
    .use .iv,
    .use .aad,
    .use .plaintext,
    .use .ciphertext,
    .callRet .compute_ciphertext,
    .onFail (seq [.free .ciphertext, .free .aad, .free .iv, .free .key, .free .plaintext, .ret .err]),
    .free .aad,
    .free .iv,
    .free .key,
    .free .plaintext,
    .use .ciphertext,
    .use .ciphertext,
    .callRet .gen_msg_4,
    .onFail (seq [.free .ciphertext, .ret .err]),
    .free .ciphertext,
    .ret .ok]

/-- library/edhoc_message_4.c:772-934 -/
def code_edhoc_message_4_process : Stm :=
  seq [
    alt [seq [.ret .err], seq []],
    alt [seq [.ret .err], seq []],
    .set,
    .callRet .parse_msg_4,
    .onFail (seq [.ret .err]),
    .alloc .key,
    .ifNull .key (seq [.ret .err]),
    .alloc .iv,
    .ifNull .iv (seq [.free .key, .ret .err]),
    .call .compute_aad_4_len,
    .alloc .aad,
    .ifNull .aad (seq [.free .iv, .free .key, .ret .err]),
    .use .key,
    .use .iv,
    .use .aad,
    .callRet .compute_key_iv_aad_4,
    .onFail (seq [.free .aad, .free .iv, .free .key, .ret .err]),
    .use .key,
    .use .iv,
    .use .aad,
    .alloc .ptxt,
    .ifNull .ptxt (seq [.free .aad, .free .iv, .free .key, .ret .err]),
    .use .key,
    .use .iv,
    .use .aad,
    .use .ptxt,
    .callRet .decrypt_ciphertext_4,
    .onFail (seq [.free .ptxt, .free .aad, .free .iv, .free .key, .ret .err]),
    .free .aad,
    .free .iv,
    .free .key,
    .use .ptxt,
    .use .ptxt,
    .callRet .parse_plaintext_4,
    .onFail (seq [.free .ptxt, .ret .err]),
    .use .ptxt,
    alt [seq [.use .ptxt, .set, .onFail (seq [.free .ptxt, .ret .err]), .loop (seq [.use .ptxt, .use .ptxt, alt [seq [.use .ptxt], seq []]])], seq []],
    .free .ptxt,
    .ret .ok]

/-- library/edhoc_message_error.c:52-163 -/
def code_edhoc_message_error_compose : Stm :=
  seq [
    alt [seq [.ret .err], seq []],
    alt [seq [.ret .err], seq []],
    .set,
    alt [seq [], seq [alt [seq [.ret .err], seq []], alt [seq [.ret .err], seq []]], seq [alt [seq [.ret .err], seq []], alt [seq [.ret .err], seq []], alt [seq [], seq [alt [seq [.ret .err], seq []]]]], seq [], seq [.ret .err]],
    .set,
    alt [seq [.ret .err], seq []],
    .ret .ok]

/-- library/edhoc_message_error.c:165-278 -/
def code_edhoc_message_error_process : Stm :=
  seq [
    alt [seq [.ret .err], seq []],
    .set,
    .set,
    alt [seq [.ret .err], seq []],
    .scope (seq [alt [seq [], seq [alt [seq [.brk], seq []], alt [seq [alt [seq [.ret .err], seq []]], seq []]], seq [alt [seq [.brk], seq []], alt [seq [alt [seq [], seq [alt [seq [.ret .err], seq []]], seq [.ret .err]]], seq []]], seq [], seq [.ret .err]]]),
    .ret .ok]

/-- The body of each function. -/
def code : Fn → Stm
  | .edhoc_context_init => code_edhoc_context_init
  | .edhoc_context_deinit => code_edhoc_context_deinit
  | .edhoc_set_methods => code_edhoc_set_methods
  | .edhoc_set_cipher_suites => code_edhoc_set_cipher_suites
  | .edhoc_set_connection_id => code_edhoc_set_connection_id
  | .edhoc_set_user_context => code_edhoc_set_user_context
  | .edhoc_bind_ead => code_edhoc_bind_ead
  | .edhoc_bind_keys => code_edhoc_bind_keys
  | .edhoc_bind_crypto => code_edhoc_bind_crypto
  | .edhoc_bind_credentials => code_edhoc_bind_credentials
  | .edhoc_error_get_code => code_edhoc_error_get_code
  | .edhoc_error_get_cipher_suites => code_edhoc_error_get_cipher_suites
  | .edhoc_cbor_is_one_byte_int => code_edhoc_cbor_is_one_byte_int
  | .comp_cid_len => code_comp_cid_len
  | .comp_id_cred_len => code_comp_id_cred_len
  | .comp_th_len => code_comp_th_len
  | .comp_cred_len => code_comp_cred_len
  | .comp_ead_len => code_comp_ead_len
  | .kid_compact_encoding => code_kid_compact_encoding
  | .sign_cose_sign_1 => code_sign_cose_sign_1
  | .verify_cose_sign_1 => code_verify_cose_sign_1
  | .edhoc_cbor_int_mem_req => code_edhoc_cbor_int_mem_req
  | .edhoc_cbor_tstr_oh => code_edhoc_cbor_tstr_oh
  | .edhoc_cbor_bstr_oh => code_edhoc_cbor_bstr_oh
  | .edhoc_cbor_map_oh => code_edhoc_cbor_map_oh
  | .edhoc_cbor_array_oh => code_edhoc_cbor_array_oh
  | .edhoc_comp_mac_context_length => code_edhoc_comp_mac_context_length
  | .edhoc_comp_mac_context => code_edhoc_comp_mac_context
  | .edhoc_comp_mac_length => code_edhoc_comp_mac_length
  | .edhoc_comp_mac => code_edhoc_comp_mac
  | .edhoc_comp_sign_or_mac_length => code_edhoc_comp_sign_or_mac_length
  | .edhoc_comp_sign_or_mac => code_edhoc_comp_sign_or_mac
  | .edhoc_verify_sign_or_mac => code_edhoc_verify_sign_or_mac
  | .compute_prk_out => code_compute_prk_out
  | .compute_new_prk_out => code_compute_new_prk_out
  | .compute_prk_exporter => code_compute_prk_exporter
  | .edhoc_export_prk_exporter => code_edhoc_export_prk_exporter
  | .edhoc_export_key_update => code_edhoc_export_key_update
  | .edhoc_export_oscore_session => code_edhoc_export_oscore_session
  | .edhoc_message_1_compose => code_edhoc_message_1_compose
  | .edhoc_message_1_process => code_edhoc_message_1_process
  | .gen_dh_keys => code_gen_dh_keys
  | .comp_dh_secret => code_comp_dh_secret
  | .comp_th_2 => code_comp_th_2
  | .comp_prk_2e => code_comp_prk_2e
  | .comp_prk_3e2m => code_comp_prk_3e2m
  | .comp_plaintext_2_len => code_comp_plaintext_2_len
  | .prepare_plaintext_2 => code_prepare_plaintext_2
  | .comp_keystream => code_comp_keystream
  | .xor_arrays => code_xor_arrays
  | .prepare_message_2 => code_prepare_message_2
  | .comp_ciphertext_2_len => code_comp_ciphertext_2_len
  | .parse_msg_2 => code_parse_msg_2
  | .parse_plaintext_2 => code_parse_plaintext_2
  | .comp_th_3 => code_comp_th_3
  | .comp_salt_3e2m => code_comp_salt_3e2m
  | .comp_grx => code_comp_grx
  | .edhoc_message_2_compose => code_edhoc_message_2_compose
  | .edhoc_message_2_process => code_edhoc_message_2_process
  | .comp_prk_4e3m => code_comp_prk_4e3m
  | .comp_plaintext_3_len => code_comp_plaintext_3_len
  | .prepare_plaintext_3 => code_prepare_plaintext_3
  | .comp_aad_3_len => code_comp_aad_3_len
  | .comp_key_iv_aad_3 => code_comp_key_iv_aad_3
  | .comp_ciphertext => code_comp_ciphertext
  | .comp_th_4 => code_comp_th_4
  | .gen_msg_3 => code_gen_msg_3
  | .parse_msg_3 => code_parse_msg_3
  | .decrypt_ciphertext_3 => code_decrypt_ciphertext_3
  | .parse_plaintext_3 => code_parse_plaintext_3
  | .comp_salt_4e3m => code_comp_salt_4e3m
  | .comp_giy => code_comp_giy
  | .edhoc_message_3_compose => code_edhoc_message_3_compose
  | .edhoc_message_3_process => code_edhoc_message_3_process
  | .compute_plaintext_4_len => code_compute_plaintext_4_len
  | .prepare_plaintext_4 => code_prepare_plaintext_4
  | .compute_aad_4_len => code_compute_aad_4_len
  | .compute_key_iv_aad_4 => code_compute_key_iv_aad_4
  | .compute_ciphertext => code_compute_ciphertext
  | .gen_msg_4 => code_gen_msg_4
  | .parse_msg_4 => code_parse_msg_4
  | .decrypt_ciphertext_4 => code_decrypt_ciphertext_4
  | .parse_plaintext_4 => code_parse_plaintext_4
  | .edhoc_message_4_compose => code_edhoc_message_4_compose
  | .edhoc_message_4_process => code_edhoc_message_4_process
  | .edhoc_message_error_compose => code_edhoc_message_error_compose
  | .edhoc_message_error_process => code_edhoc_message_error_process

end Verif.Wipe
