/-
Control skeletons of the C functions with respect to their working buffers.

Generated by tools/skeleton.py from /repo/library/*.c; do not edit. Every function definition of those
files has a skeleton. All of its EDHOC_MEM_ALLOC, EDHOC_MEM_FREE, accesses to a working buffer, calls to
functions of the library, branches, loops and returns are kept, in their order; everything else is
dropped. Conditions are dropped too, other than the test of a buffer against NULL: an `alt` may take
either way. Log statements count as accesses. EDHOC_MEM_ALLOC_SIZE(x) reads no buffer.
-/
import Verif.Mem

namespace Verif.Mem

/-- Names of the working buffers: second argument of EDHOC_MEM_ALLOC in /repo/library/*.c. -/
inductive Buf where
  | cose_sign_1_buf | info_buf | info | prk_exporter | dh_pub_key | th_2 | salt_3e2m | grx 
  | buffer | th_3 | prk_2e | mac_ctx_buf | mac_buf | signature | plaintext | keystream 
  | ciphertext_2 | salt_4e3m | giy | th_4 | key | iv | aad | mac_3_context_buf | ciphertext | ptxt
  deriving DecidableEq, Repr

/-- The functions defined in /repo/library/*.c. -/
inductive Fn where
  | edhoc_context_init | edhoc_context_deinit | edhoc_set_methods | edhoc_set_cipher_suites 
  | edhoc_set_connection_id | edhoc_set_user_context | edhoc_bind_ead | edhoc_bind_keys 
  | edhoc_bind_crypto | edhoc_bind_credentials | edhoc_error_get_code 
  | edhoc_error_get_cipher_suites | edhoc_cbor_is_one_byte_int | comp_cid_len | comp_id_cred_len 
  | comp_th_len | comp_cred_len | comp_ead_len | kid_compact_encoding | sign_cose_sign_1 
  | verify_cose_sign_1 | edhoc_cbor_int_mem_req | edhoc_cbor_tstr_oh | edhoc_cbor_bstr_oh 
  | edhoc_cbor_map_oh | edhoc_cbor_array_oh | edhoc_comp_mac_context_length | edhoc_comp_mac_context
  | edhoc_comp_mac_length | edhoc_comp_mac | edhoc_comp_sign_or_mac_length 
  | edhoc_comp_sign_or_mac | edhoc_verify_sign_or_mac | compute_prk_out | compute_new_prk_out 
  | compute_prk_exporter | edhoc_export_prk_exporter | edhoc_export_key_update 
  | edhoc_export_oscore_session | edhoc_message_1_compose | edhoc_message_1_process | gen_dh_keys 
  | comp_dh_secret | comp_th_2 | comp_prk_2e | comp_prk_3e2m | comp_plaintext_2_len 
  | prepare_plaintext_2 | comp_keystream | xor_arrays | prepare_message_2 | comp_ciphertext_2_len 
  | parse_msg_2 | parse_plaintext_2 | comp_th_3 | comp_salt_3e2m | comp_grx 
  | edhoc_message_2_compose | edhoc_message_2_process | comp_prk_4e3m | comp_plaintext_3_len 
  | prepare_plaintext_3 | comp_aad_3_len | comp_key_iv_aad_3 | comp_ciphertext | comp_th_4 
  | gen_msg_3 | parse_msg_3 | decrypt_ciphertext_3 | parse_plaintext_3 | comp_salt_4e3m | comp_giy 
  | edhoc_message_3_compose | edhoc_message_3_process | compute_plaintext_4_len 
  | prepare_plaintext_4 | compute_aad_4_len | compute_key_iv_aad_4 | compute_ciphertext | gen_msg_4
  | parse_msg_4 | decrypt_ciphertext_4 | parse_plaintext_4 | edhoc_message_4_compose 
  | edhoc_message_4_process | edhoc_message_error_compose | edhoc_message_error_process
  deriving DecidableEq, Repr

/-- library/edhoc.c:34-46 -/
def code_edhoc_context_init : Stm Buf Fn :=
  seq [
    alt [seq [.ret], seq []],
    .ret]

/-- library/edhoc.c:48-63 -/
def code_edhoc_context_deinit : Stm Buf Fn :=
  seq [
    alt [seq [.ret], seq []],
    alt [seq [.ret], seq []],
    .ret]

/-- library/edhoc.c:65-83 -/
def code_edhoc_set_methods : Stm Buf Fn :=
  seq [
    alt [seq [.ret], seq []],
    alt [seq [.ret], seq []],
    .ret]

/-- library/edhoc.c:85-108 -/
def code_edhoc_set_cipher_suites : Stm Buf Fn :=
  seq [
    alt [seq [.ret], seq []],
    alt [seq [.ret], seq []],
    alt [seq [.ret], seq []],
    .ret]

/-- library/edhoc.c:110-152 -/
def code_edhoc_set_connection_id : Stm Buf Fn :=
  seq [
    alt [seq [.ret], seq []],
    alt [seq [.ret], seq []],
    alt [seq [alt [seq [.ret], seq []]], seq [alt [seq [.ret], seq []], alt [seq [.ret], seq []]], seq [.ret]],
    .ret]

/-- library/edhoc.c:154-169 -/
def code_edhoc_set_user_context : Stm Buf Fn :=
  seq [
    alt [seq [.ret], seq []],
    alt [seq [.ret], seq []],
    .ret]

/-- library/edhoc.c:171-191 -/
def code_edhoc_bind_ead : Stm Buf Fn :=
  seq [
    alt [seq [.ret], seq []],
    alt [seq [.ret], seq []],
    alt [seq [.ret], seq []],
    .ret]

/-- library/edhoc.c:193-213 -/
def code_edhoc_bind_keys : Stm Buf Fn :=
  seq [
    alt [seq [.ret], seq []],
    alt [seq [.ret], seq []],
    alt [seq [.ret], seq []],
    .ret]

/-- library/edhoc.c:215-240 -/
def code_edhoc_bind_crypto : Stm Buf Fn :=
  seq [
    alt [seq [.ret], seq []],
    alt [seq [.ret], seq []],
    alt [seq [.ret], seq []],
    .ret]

/-- library/edhoc.c:242-263 -/
def code_edhoc_bind_credentials : Stm Buf Fn :=
  seq [
    alt [seq [.ret], seq []],
    alt [seq [.ret], seq []],
    alt [seq [.ret], seq []],
    .ret]

/-- library/edhoc.c:265-280 -/
def code_edhoc_error_get_code : Stm Buf Fn :=
  seq [
    alt [seq [.ret], seq []],
    alt [seq [.ret], seq []],
    .ret]

/-- library/edhoc.c:282-326 -/
def code_edhoc_error_get_cipher_suites : Stm Buf Fn :=
  seq [
    alt [seq [.ret], seq []],
    alt [seq [.ret], seq []],
    alt [seq [.ret], seq []],
    alt [seq [.ret], seq []],
    alt [seq [.ret], seq []],
    .ret]

/-- library/edhoc_common.c:175-178 -/
def code_edhoc_cbor_is_one_byte_int : Stm Buf Fn :=
  seq [
    .call .edhoc_cbor_int_mem_req,
    .ret]

/-- library/edhoc_common.c:180-203 -/
def code_comp_cid_len : Stm Buf Fn :=
  seq [
    alt [seq [.ret], seq []],
    alt [seq [], seq [.call .edhoc_cbor_bstr_oh], seq [.ret]],
    .ret]

/-- library/edhoc_common.c:205-282 -/
def code_comp_id_cred_len : Stm Buf Fn :=
  seq [
    alt [seq [.ret], seq []],
    alt [seq [], seq [.call .edhoc_cbor_map_oh, alt [seq [.call .edhoc_cbor_int_mem_req], seq [.call .edhoc_cbor_bstr_oh], seq [.ret]]], seq [.call .edhoc_cbor_map_oh, .loop (seq [.call .edhoc_cbor_bstr_oh]), alt [seq [.call .edhoc_cbor_array_oh], seq []]], seq [.call .edhoc_cbor_map_oh, .call .edhoc_cbor_array_oh, alt [seq [.call .edhoc_cbor_int_mem_req], seq [.call .edhoc_cbor_bstr_oh], seq [.ret]], .call .edhoc_cbor_bstr_oh], seq [.ret]],
    .ret]

/-- library/edhoc_common.c:284-296 -/
def code_comp_th_len : Stm Buf Fn :=
  seq [
    alt [seq [.ret], seq []],
    .call .edhoc_cbor_bstr_oh,
    .ret]

/-- library/edhoc_common.c:298-334 -/
def code_comp_cred_len : Stm Buf Fn :=
  seq [
    alt [seq [.ret], seq []],
    alt [seq [], seq [.call .edhoc_cbor_bstr_oh], seq [.call .edhoc_cbor_bstr_oh], seq [.call .edhoc_cbor_bstr_oh], seq [.ret]],
    .ret]

/-- library/edhoc_common.c:336-350 -/
def code_comp_ead_len : Stm Buf Fn :=
  seq [
    alt [seq [.ret], seq []],
    .loop (seq [.call .edhoc_cbor_int_mem_req, .call .edhoc_cbor_bstr_oh]),
    .ret]

/-- library/edhoc_common.c:352-439 -/
def code_kid_compact_encoding : Stm Buf Fn :=
  seq [
    .scope (seq [alt [seq [alt [seq [], seq [alt [seq [.ret], seq []]]]], seq [alt [seq [alt [seq [alt [seq [.ret], seq []], .call .edhoc_cbor_is_one_byte_int, alt [seq [.brk], seq []]], seq []]], seq [alt [seq [.ret], seq []]]]], seq [.ret]]]),
    .ret]

/-- library/edhoc_common.c:441-498 -/
def code_sign_cose_sign_1 : Stm Buf Fn :=
  seq [
    .call .edhoc_cbor_tstr_oh,
    .call .edhoc_cbor_bstr_oh,
    .call .edhoc_cbor_bstr_oh,
    .call .edhoc_cbor_int_mem_req,
    .alloc .cose_sign_1_buf,
    .ifNull .cose_sign_1_buf (seq [.ret]),
    .use .cose_sign_1_buf,
    alt [seq [.free .cose_sign_1_buf, .ret], seq []],
    .use .cose_sign_1_buf,
    .free .cose_sign_1_buf,
    alt [seq [.ret], seq []],
    .ret]

/-- library/edhoc_common.c:500-568 -/
def code_verify_cose_sign_1 : Stm Buf Fn :=
  seq [
    .call .edhoc_cbor_tstr_oh,
    .call .edhoc_cbor_bstr_oh,
    .call .edhoc_cbor_bstr_oh,
    .call .edhoc_cbor_int_mem_req,
    .alloc .cose_sign_1_buf,
    .ifNull .cose_sign_1_buf (seq [.ret]),
    .use .cose_sign_1_buf,
    alt [seq [.free .cose_sign_1_buf, .ret], seq []],
    alt [seq [.free .cose_sign_1_buf, .ret], seq []],
    .use .cose_sign_1_buf,
    .free .cose_sign_1_buf,
    alt [seq [.ret], seq []],
    .ret]

/-- library/edhoc_common.c:572-584 -/
def code_edhoc_cbor_int_mem_req : Stm Buf Fn :=
  seq [
    alt [seq [.ret], seq [alt [seq [.ret], seq [alt [seq [.ret], seq [.ret]]]]]]]

/-- library/edhoc_common.c:586-599 -/
def code_edhoc_cbor_tstr_oh : Stm Buf Fn :=
  seq [
    alt [seq [.ret], seq [alt [seq [.ret], seq [alt [seq [.ret], seq [alt [seq [.ret], seq [.ret]]]]]]]]]

/-- library/edhoc_common.c:601-614 -/
def code_edhoc_cbor_bstr_oh : Stm Buf Fn :=
  seq [
    alt [seq [.ret], seq [alt [seq [.ret], seq [alt [seq [.ret], seq [alt [seq [.ret], seq [.ret]]]]]]]]]

/-- library/edhoc_common.c:616-621 -/
def code_edhoc_cbor_map_oh : Stm Buf Fn :=
  seq [
    .ret]

/-- library/edhoc_common.c:623-633 -/
def code_edhoc_cbor_array_oh : Stm Buf Fn :=
  seq [
    alt [seq [.ret], seq []],
    alt [seq [.ret], seq []],
    alt [seq [.ret], seq []],
    .ret]

/-- library/edhoc_common.c:635-721 -/
def code_edhoc_comp_mac_context_length : Stm Buf Fn :=
  seq [
    alt [seq [.ret], seq []],
    alt [seq [.ret], seq []],
    alt [seq [.ret], seq []],
    alt [seq [alt [seq [], seq [], seq [.ret]], .call .comp_cid_len, alt [seq [.ret], seq []]], seq []],
    .call .comp_id_cred_len,
    alt [seq [.ret], seq []],
    .call .comp_th_len,
    alt [seq [.ret], seq []],
    .call .comp_cred_len,
    alt [seq [.ret], seq []],
    .call .comp_ead_len,
    alt [seq [.ret], seq []],
    .ret]

/-- library/edhoc_common.c:723-1137 -/
def code_edhoc_comp_mac_context : Stm Buf Fn :=
  seq [
    alt [seq [.ret], seq []],
    alt [seq [.ret], seq []],
    alt [seq [.ret], seq []],
    alt [seq [.ret], seq []],
    alt [seq [.ret], seq []],
    alt [seq [alt [seq [], seq [], seq [.ret]], .call .comp_cid_len, alt [seq [.ret], seq []], alt [seq [], seq [], seq [.ret]], alt [seq [.ret], seq []]], seq []],
    .call .comp_id_cred_len,
    alt [seq [.ret], seq []],
    alt [seq [], seq [alt [seq [], seq [], seq [.ret]]], seq [alt [seq [.ret], seq []], alt [seq [], seq [alt [seq [.ret], seq []]]]], seq [alt [seq [], seq [], seq [.ret]]], seq [.ret]],
    alt [seq [], seq [alt [seq [.ret], seq []]]],
    alt [seq [.call .kid_compact_encoding, alt [seq [.ret], seq []]], seq []],
    alt [seq [alt [seq [], seq [], seq [.ret]]], seq []],
    .call .comp_th_len,
    alt [seq [.ret], seq []],
    alt [seq [.ret], seq []],
    .call .comp_cred_len,
    alt [seq [.ret], seq []],
    alt [seq [], seq [], seq [], seq [], seq [.ret]],
    alt [seq [], seq [alt [seq [], seq [alt [seq [.ret], seq []]]]]],
    alt [seq [.call .comp_ead_len, alt [seq [.ret], seq []]], seq []],
    alt [seq [alt [seq [.ret], seq []]], seq []],
    alt [seq [.ret], seq []],
    .ret]

/-- library/edhoc_common.c:1139-1194 -/
def code_edhoc_comp_mac_length : Stm Buf Fn :=
  seq [
    alt [seq [.ret], seq []],
    alt [seq [.ret], seq []],
    alt [seq [alt [seq [.ret], seq [.ret], seq [.ret], seq []]], seq []],
    alt [seq [alt [seq [.ret], seq [.ret], seq [.ret], seq []]], seq []],
    .ret]

/-- library/edhoc_common.c:1196-1297 -/
def code_edhoc_comp_mac : Stm Buf Fn :=
  seq [
    alt [seq [.ret], seq []],
    alt [seq [.ret], seq []],
    alt [seq [.ret], seq []],
    alt [seq [.ret], seq []],
    .call .edhoc_cbor_int_mem_req,
    .call .edhoc_cbor_bstr_oh,
    .call .edhoc_cbor_int_mem_req,
    .alloc .info_buf,
    .ifNull .info_buf (seq [.ret]),
    .use .info_buf,
    alt [seq [.free .info_buf, .ret], seq []],
    alt [seq [.use .info_buf], seq [.use .info_buf], seq [.free .info_buf, .ret]],
    alt [seq [.free .info_buf, .ret], seq []],
    .use .info_buf,
    .free .info_buf,
    alt [seq [.ret], seq []],
    .ret]

/-- library/edhoc_common.c:1299-1355 -/
def code_edhoc_comp_sign_or_mac_length : Stm Buf Fn :=
  seq [
    alt [seq [.ret], seq []],
    alt [seq [.ret], seq []],
    alt [seq [alt [seq [.ret], seq [.ret], seq [.ret], seq []]], seq []],
    alt [seq [alt [seq [.ret], seq [.ret], seq [.ret], seq []]], seq []],
    .ret]

/-- library/edhoc_common.c:1357-1414 -/
def code_edhoc_comp_sign_or_mac : Stm Buf Fn :=
  seq [
    alt [seq [.ret], seq []],
    alt [seq [alt [seq [.call .sign_cose_sign_1, .ret], seq [.ret], seq [.ret], seq []]], seq []],
    alt [seq [alt [seq [.call .sign_cose_sign_1, .ret], seq [.ret], seq [.ret], seq []]], seq []],
    .ret]

/-- library/edhoc_common.c:1416-1483 -/
def code_edhoc_verify_sign_or_mac : Stm Buf Fn :=
  seq [
    alt [seq [.ret], seq []],
    alt [seq [alt [seq [.call .verify_cose_sign_1, .ret], seq [alt [seq [.ret], seq []], .ret], seq [.ret], seq []]], seq []],
    alt [seq [alt [seq [.call .verify_cose_sign_1, .ret], seq [alt [seq [.ret], seq []], .ret], seq [.ret], seq []]], seq []],
    .ret]

/-- library/edhoc_exporter.c:82-156 -/
def code_compute_prk_out : Stm Buf Fn :=
  seq [
    alt [seq [.ret], seq []],
    alt [seq [.ret], seq []],
    .call .edhoc_cbor_int_mem_req,
    .call .edhoc_cbor_bstr_oh,
    .call .edhoc_cbor_int_mem_req,
    .alloc .info,
    .ifNull .info (seq [.ret]),
    .use .info,
    alt [seq [.free .info, .ret], seq []],
    alt [seq [.free .info, .ret], seq []],
    .use .info,
    .free .info,
    alt [seq [.ret], seq []],
    .ret]

/-- library/edhoc_exporter.c:158-229 -/
def code_compute_new_prk_out : Stm Buf Fn :=
  seq [
    alt [seq [.ret], seq []],
    alt [seq [.ret], seq []],
    .call .edhoc_cbor_int_mem_req,
    .call .edhoc_cbor_bstr_oh,
    .call .edhoc_cbor_int_mem_req,
    .alloc .info,
    .ifNull .info (seq [.ret]),
    .use .info,
    alt [seq [.free .info, .ret], seq []],
    alt [seq [.free .info, .ret], seq []],
    .use .info,
    .free .info,
    alt [seq [.ret], seq []],
    .ret]

/-- library/edhoc_exporter.c:231-303 -/
def code_compute_prk_exporter : Stm Buf Fn :=
  seq [
    alt [seq [.ret], seq []],
    alt [seq [.ret], seq []],
    .call .edhoc_cbor_int_mem_req,
    .call .edhoc_cbor_bstr_oh,
    .call .edhoc_cbor_int_mem_req,
    .alloc .info,
    .ifNull .info (seq [.ret]),
    .use .info,
    alt [seq [.free .info, .ret], seq []],
    alt [seq [.free .info, .ret], seq []],
    .use .info,
    .free .info,
    alt [seq [.ret], seq []],
    .ret]

/-- library/edhoc_exporter.c:314-427 -/
def code_edhoc_export_prk_exporter : Stm Buf Fn :=
  seq [
    alt [seq [.ret], seq []],
    alt [seq [.ret], seq []],
    alt [seq [.ret], seq []],
    alt [seq [.call .compute_prk_out, alt [seq [.ret], seq []]], seq []],
    .alloc .prk_exporter,
    .ifNull .prk_exporter (seq [.ret]),
    .use .prk_exporter,
    .call .compute_prk_exporter,
    alt [seq [.free .prk_exporter, .ret], seq []],
    .call .edhoc_cbor_int_mem_req,
    .call .edhoc_cbor_bstr_oh,
    .call .edhoc_cbor_int_mem_req,
    .alloc .info,
    .ifNull .info (seq [.free .prk_exporter, .ret]),
    .use .info,
    alt [seq [.free .info, .free .prk_exporter, .ret], seq []],
    .use .prk_exporter,
    alt [seq [.free .info, .free .prk_exporter, .ret], seq []],
    .free .prk_exporter,
    .use .info,
    .free .info,
    alt [seq [.ret], seq []],
    .ret]

/-- library/edhoc_exporter.c:429-470 -/
def code_edhoc_export_key_update : Stm Buf Fn :=
  seq [
    alt [seq [.ret], seq []],
    alt [seq [.ret], seq []],
    alt [seq [.call .compute_prk_out, alt [seq [.ret], seq []]], seq []],
    .call .compute_new_prk_out,
    alt [seq [.ret], seq []],
    .ret]

/-- library/edhoc_exporter.c:479-627 -/
def code_edhoc_export_oscore_session : Stm Buf Fn :=
  seq [
    alt [seq [.ret], seq []],
    alt [seq [.ret], seq []],
    alt [seq [.ret], seq []],
    .call .edhoc_export_prk_exporter,
    alt [seq [.ret], seq []],
    .call .edhoc_export_prk_exporter,
    alt [seq [.ret], seq []],
    alt [seq [alt [seq [.ret], seq []]], seq [alt [seq [.ret], seq []]], seq [.ret]],
    alt [seq [], seq [], seq [.ret]],
    alt [seq [alt [seq [.ret], seq []]], seq [alt [seq [.ret], seq []]], seq [.ret]],
    alt [seq [], seq [], seq [.ret]],
    .ret]

/-- library/edhoc_message_1.c:67-288 -/
def code_edhoc_message_1_compose : Stm Buf Fn :=
  seq [
    alt [seq [.ret], seq []],
    alt [seq [.ret], seq []],
    alt [seq [.ret], seq []],
    alt [seq [.ret], seq []],
    .alloc .dh_pub_key,
    .ifNull .dh_pub_key (seq [.ret]),
    .use .dh_pub_key,
    alt [seq [.free .dh_pub_key, .ret], seq []],
    .use .dh_pub_key,
    alt [seq [], seq [alt [seq [.free .dh_pub_key, .ret], seq []]]],
    .use .dh_pub_key,
    alt [seq [], seq [], seq [.free .dh_pub_key, .ret]],
    alt [seq [alt [seq [.free .dh_pub_key, .ret], seq []]], seq []],
    alt [seq [.free .dh_pub_key, .ret], seq []],
    .free .dh_pub_key,
    alt [seq [.ret], seq []],
    .ret]

/-- library/edhoc_message_1.c:301-575 -/
def code_edhoc_message_1_process : Stm Buf Fn :=
  seq [
    alt [seq [.ret], seq []],
    alt [seq [.ret], seq []],
    alt [seq [.ret], seq []],
    alt [seq [.ret], seq []],
    .loop (seq [alt [seq [.brk], seq []]]),
    alt [seq [.ret], seq []],
    alt [seq [alt [seq [.ret], seq []]], seq [alt [seq [.ret], seq []], alt [seq [.ret], seq []], alt [seq [.ret], seq []]], seq [.ret]],
    alt [seq [.ret], seq []],
    alt [seq [alt [seq [.ret], seq []]], seq [alt [seq [.ret], seq []]], seq [.ret]],
    alt [seq [], seq [], seq [.ret]],
    alt [seq [alt [seq [.ret], seq []], alt [seq [.ret], seq []]], seq []],
    alt [seq [.ret], seq []],
    .ret]

/-- library/edhoc_message_2.c:274-317 -/
def code_gen_dh_keys : Stm Buf Fn :=
  seq [
    alt [seq [.ret], seq []],
    alt [seq [.ret], seq []],
    alt [seq [.ret], seq []],
    .ret]

/-- library/edhoc_message_2.c:319-357 -/
def code_comp_dh_secret : Stm Buf Fn :=
  seq [
    alt [seq [.ret], seq []],
    alt [seq [.ret], seq []],
    alt [seq [.ret], seq []],
    .ret]

/-- library/edhoc_message_2.c:359-463 -/
def code_comp_th_2 : Stm Buf Fn :=
  seq [
    alt [seq [.ret], seq []],
    alt [seq [.ret], seq []],
    .call .edhoc_cbor_bstr_oh,
    .call .edhoc_cbor_bstr_oh,
    .alloc .th_2,
    .ifNull .th_2 (seq [.ret]),
    alt [seq [], seq [], seq [.free .th_2, .ret]],
    .use .th_2,
    alt [seq [.free .th_2, .ret], seq []],
    .use .th_2,
    alt [seq [.free .th_2, .ret], seq []],
    alt [seq [.free .th_2, .ret], seq []],
    .use .th_2,
    .free .th_2,
    alt [seq [.ret], seq []],
    .ret]

/-- library/edhoc_message_2.c:465-506 -/
def code_comp_prk_2e : Stm Buf Fn :=
  seq [
    alt [seq [.ret], seq []],
    alt [seq [.ret], seq []],
    alt [seq [.ret], seq []],
    alt [seq [.ret], seq []],
    .ret]

/-- library/edhoc_message_2.c:508-614 -/
def code_comp_prk_3e2m : Stm Buf Fn :=
  seq [
    alt [seq [.ret], seq []],
    alt [seq [.ret], seq []],
    alt [seq [.ret], seq [.alloc .salt_3e2m, .ifNull .salt_3e2m (seq [.ret]), .use .salt_3e2m, .call .comp_salt_3e2m, alt [seq [.free .salt_3e2m, .ret], seq []], .use .salt_3e2m, .alloc .grx, .ifNull .grx (seq [.free .salt_3e2m, .ret]), .use .grx, .call .comp_grx, alt [seq [.free .grx, .free .salt_3e2m, .ret], seq []], .use .grx, .use .grx, .use .grx, .free .grx, alt [seq [.free .salt_3e2m, .ret], seq []], .use .salt_3e2m, .free .salt_3e2m, alt [seq [.ret], seq []], .ret], seq [.ret], seq []],
    .ret]

/-- library/edhoc_message_2.c:616-658 -/
def code_comp_plaintext_2_len : Stm Buf Fn :=
  seq [
    alt [seq [.ret], seq []],
    alt [seq [.call .edhoc_cbor_int_mem_req], seq [.call .edhoc_cbor_bstr_oh], seq []],
    alt [seq [alt [seq [.call .edhoc_cbor_int_mem_req], seq [.call .edhoc_cbor_bstr_oh], seq []]], seq []],
    .call .edhoc_cbor_bstr_oh,
    .ret]

/-- library/edhoc_message_2.c:660-760 -/
def code_prepare_plaintext_2 : Stm Buf Fn :=
  seq [
    alt [seq [alt [seq [.ret], seq []]], seq [alt [seq [.ret], seq []]], seq [.ret]],
    alt [seq [alt [seq [], seq [], seq [.ret]]], seq []],
    .call .edhoc_cbor_bstr_oh,
    alt [seq [.ret], seq []],
    alt [seq [.ret], seq []],
    .ret]

/-- library/edhoc_message_2.c:762-833 -/
def code_comp_keystream : Stm Buf Fn :=
  seq [
    alt [seq [.ret], seq []],
    alt [seq [.ret], seq []],
    .call .edhoc_cbor_int_mem_req,
    .call .edhoc_cbor_bstr_oh,
    .call .edhoc_cbor_int_mem_req,
    .alloc .info,
    .ifNull .info (seq [.ret]),
    .use .info,
    alt [seq [.free .info, .ret], seq []],
    alt [seq [.free .info, .ret], seq []],
    .use .info,
    .free .info,
    alt [seq [.ret], seq []],
    .ret]

/-- library/edhoc_message_2.c:835-839 -/
def code_xor_arrays : Stm Buf Fn :=
  seq [
    .ret]

/-- library/edhoc_message_2.c:841-893 -/
def code_prepare_message_2 : Stm Buf Fn :=
  seq [
    alt [seq [.ret], seq []],
    .alloc .buffer,
    .ifNull .buffer (seq [.ret]),
    .use .buffer,
    .use .buffer,
    alt [seq [.free .buffer, .ret], seq []],
    .use .buffer,
    .free .buffer,
    alt [seq [.ret], seq []],
    .ret]

/-- library/edhoc_message_2.c:895-922 -/
def code_comp_ciphertext_2_len : Stm Buf Fn :=
  seq [
    alt [seq [.ret], seq []],
    alt [seq [.ret], seq []],
    .ret]

/-- library/edhoc_message_2.c:924-956 -/
def code_parse_msg_2 : Stm Buf Fn :=
  seq [
    alt [seq [.ret], seq []],
    alt [seq [.ret], seq []],
    .ret]

/-- library/edhoc_message_2.c:958-1182 -/
def code_parse_plaintext_2 : Stm Buf Fn :=
  seq [
    alt [seq [.ret], seq []],
    alt [seq [.ret], seq []],
    alt [seq [alt [seq [.ret], seq []]], seq [alt [seq [.ret], seq []]], seq [.ret]],
    .scope (seq [alt [seq [], seq [], seq [alt [seq [alt [seq [], seq [alt [seq [.ret], seq []]], seq [.ret]]], seq []], alt [seq [alt [seq [], seq [alt [seq [.ret], seq []]], seq [.ret]], .brk], seq []]], seq []]]),
    .ret]

/-- library/edhoc_message_2.c:1184-1256 -/
def code_comp_th_3 : Stm Buf Fn :=
  seq [
    alt [seq [.ret], seq []],
    alt [seq [.ret], seq []],
    .call .edhoc_cbor_bstr_oh,
    .alloc .th_3,
    .ifNull .th_3 (seq [.ret]),
    .use .th_3,
    alt [seq [.free .th_3, .ret], seq []],
    .use .th_3,
    .use .th_3,
    alt [seq [.free .th_3, .ret], seq []],
    .use .th_3,
    .free .th_3,
    alt [seq [.ret], seq []],
    .ret]

/-- library/edhoc_message_2.c:1258-1327 -/
def code_comp_salt_3e2m : Stm Buf Fn :=
  seq [
    alt [seq [.ret], seq []],
    alt [seq [.ret], seq []],
    .call .edhoc_cbor_int_mem_req,
    .call .edhoc_cbor_bstr_oh,
    .call .edhoc_cbor_int_mem_req,
    .alloc .info,
    .ifNull .info (seq [.ret]),
    .use .info,
    alt [seq [.free .info, .ret], seq []],
    alt [seq [.free .info, .ret], seq []],
    .use .info,
    .free .info,
    alt [seq [.ret], seq []],
    .ret]

/-- library/edhoc_message_2.c:1329-1397 -/
def code_comp_grx : Stm Buf Fn :=
  seq [
    alt [seq [.ret], seq []],
    alt [seq [alt [seq [.ret], seq []], alt [seq [.ret], seq []], .ret], seq [alt [seq [.ret], seq []], .ret], seq [.ret]],
    .ret]

/-- library/edhoc_message_2.c:1422-1749 -/
def code_edhoc_message_2_compose : Stm Buf Fn :=
  seq [
    alt [seq [.ret], seq []],
    alt [seq [.ret], seq []],
    .call .gen_dh_keys,
    alt [seq [.ret], seq []],
    .call .comp_dh_secret,
    alt [seq [.ret], seq []],
    .call .comp_th_2,
    alt [seq [.ret], seq []],
    .call .comp_prk_2e,
    alt [seq [.ret], seq []],
    .alloc .prk_2e,
    .ifNull .prk_2e (seq [.ret]),
    .use .prk_2e,
    alt [seq [.free .prk_2e, .ret], seq []],
    alt [seq [alt [seq [.free .prk_2e, .ret], seq []]], seq []],
    .call .comp_prk_3e2m,
    alt [seq [.free .prk_2e, .ret], seq []],
    .call .edhoc_comp_mac_context_length,
    alt [seq [.free .prk_2e, .ret], seq []],
    .alloc .mac_ctx_buf,
    .ifNull .mac_ctx_buf (seq [.free .prk_2e, .ret]),
    .use .mac_ctx_buf,
    .use .mac_ctx_buf,
    .call .edhoc_comp_mac_context,
    alt [seq [.free .mac_ctx_buf, .free .prk_2e, .ret], seq []],
    .use .mac_ctx_buf,
    .use .mac_ctx_buf,
    .use .mac_ctx_buf,
    .use .mac_ctx_buf,
    .use .mac_ctx_buf,
    .call .edhoc_comp_mac_length,
    alt [seq [.free .mac_ctx_buf, .free .prk_2e, .ret], seq []],
    .alloc .mac_buf,
    .ifNull .mac_buf (seq [.free .mac_ctx_buf, .free .prk_2e, .ret]),
    .use .mac_ctx_buf,
    .use .mac_buf,
    .call .edhoc_comp_mac,
    alt [seq [.free .mac_buf, .free .mac_ctx_buf, .free .prk_2e, .ret], seq []],
    .call .edhoc_comp_sign_or_mac_length,
    alt [seq [.free .mac_buf, .free .mac_ctx_buf, .free .prk_2e, .ret], seq []],
    .alloc .signature,
    .ifNull .signature (seq [.free .mac_buf, .free .mac_ctx_buf, .free .prk_2e, .ret]),
    .use .mac_ctx_buf,
    .use .mac_buf,
    .use .signature,
    .call .edhoc_comp_sign_or_mac,
    .free .mac_buf,
    alt [seq [.free .signature, .free .mac_ctx_buf, .free .prk_2e, .ret], seq []],
    .use .signature,
    .use .mac_ctx_buf,
    .call .comp_plaintext_2_len,
    alt [seq [.free .signature, .free .mac_ctx_buf, .free .prk_2e, .ret], seq []],
    .alloc .plaintext,
    .ifNull .plaintext (seq [.free .signature, .free .mac_ctx_buf, .free .prk_2e, .ret]),
    .use .mac_ctx_buf,
    .use .signature,
    .use .plaintext,
    .call .prepare_plaintext_2,
    .free .signature,
    alt [seq [.free .plaintext, .free .mac_ctx_buf, .free .prk_2e, .ret], seq []],
    .use .plaintext,
    .alloc .keystream,
    .ifNull .keystream (seq [.free .plaintext, .free .mac_ctx_buf, .free .prk_2e, .ret]),
    .use .prk_2e,
    .use .keystream,
    .call .comp_keystream,
    .use .prk_2e,
    .free .prk_2e,
    alt [seq [.free .keystream, .free .plaintext, .free .mac_ctx_buf, .ret], seq []],
    .use .keystream,
    .use .mac_ctx_buf,
    .use .plaintext,
    .call .comp_th_3,
    .free .mac_ctx_buf,
    alt [seq [.free .keystream, .free .plaintext, .ret], seq []],
    .use .plaintext,
    .use .keystream,
    .call .xor_arrays,
    .free .keystream,
    .use .plaintext,
    .use .plaintext,
    .call .prepare_message_2,
    alt [seq [.free .plaintext, .ret], seq []],
    .free .plaintext,
    .ret]

/-- library/edhoc_message_2.c:1771-2061 -/
def code_edhoc_message_2_process : Stm Buf Fn :=
  seq [
    alt [seq [.ret], seq []],
    alt [seq [.ret], seq []],
    .call .comp_ciphertext_2_len,
    alt [seq [.ret], seq []],
    .alloc .ciphertext_2,
    .ifNull .ciphertext_2 (seq [.ret]),
    .use .ciphertext_2,
    .call .parse_msg_2,
    alt [seq [.free .ciphertext_2, .ret], seq []],
    .use .ciphertext_2,
    .call .comp_dh_secret,
    alt [seq [.free .ciphertext_2, .ret], seq []],
    .call .comp_th_2,
    alt [seq [.free .ciphertext_2, .ret], seq []],
    .call .comp_prk_2e,
    alt [seq [.free .ciphertext_2, .ret], seq []],
    .alloc .keystream,
    .ifNull .keystream (seq [.free .ciphertext_2, .ret]),
    .use .keystream,
    .call .comp_keystream,
    alt [seq [.free .keystream, .free .ciphertext_2, .ret], seq []],
    .use .keystream,
    .use .ciphertext_2,
    .use .keystream,
    .call .xor_arrays,
    .free .keystream,
    .use .ciphertext_2,
    .use .ciphertext_2,
    .call .parse_plaintext_2,
    alt [seq [.free .ciphertext_2, .ret], seq []],
    alt [seq [], seq [], seq [.free .ciphertext_2, .ret]],
    .use .ciphertext_2,
    alt [seq [.use .ciphertext_2, alt [seq [.free .ciphertext_2, .ret], seq []], .loop (seq [.use .ciphertext_2, .use .ciphertext_2, alt [seq [.use .ciphertext_2], seq []]])], seq []],
    .use .ciphertext_2,
    alt [seq [.free .ciphertext_2, .ret], seq []],
    .use .ciphertext_2,
    .call .comp_prk_3e2m,
    alt [seq [.free .ciphertext_2, .ret], seq []],
    .use .ciphertext_2,
    .call .edhoc_comp_mac_context_length,
    alt [seq [.free .ciphertext_2, .ret], seq []],
    .alloc .mac_ctx_buf,
    .ifNull .mac_ctx_buf (seq [.free .ciphertext_2, .ret]),
    .use .mac_ctx_buf,
    .use .mac_ctx_buf,
    .use .ciphertext_2,
    .call .edhoc_comp_mac_context,
    alt [seq [.free .mac_ctx_buf, .free .ciphertext_2, .ret], seq []],
    .use .mac_ctx_buf,
    .use .mac_ctx_buf,
    .use .mac_ctx_buf,
    .use .mac_ctx_buf,
    .use .mac_ctx_buf,
    .call .edhoc_comp_mac_length,
    alt [seq [.free .mac_ctx_buf, .free .ciphertext_2, .ret], seq []],
    .alloc .mac_buf,
    .ifNull .mac_buf (seq [.free .mac_ctx_buf, .free .ciphertext_2, .ret]),
    .use .mac_ctx_buf,
    .use .mac_buf,
    .call .edhoc_comp_mac,
    alt [seq [.free .mac_buf, .free .mac_ctx_buf, .free .ciphertext_2, .ret], seq []],
    .use .mac_ctx_buf,
    .use .mac_buf,
    .use .ciphertext_2,
    .call .edhoc_verify_sign_or_mac,
    .free .mac_buf,
    alt [seq [.free .mac_ctx_buf, .free .ciphertext_2, .ret], seq []],
    .use .mac_ctx_buf,
    .use .ciphertext_2,
    .call .comp_th_3,
    .free .mac_ctx_buf,
    .free .ciphertext_2,
    alt [seq [.ret], seq []],
    .ret]

/-- library/edhoc_message_3.c:270-374 -/
def code_comp_prk_4e3m : Stm Buf Fn :=
  seq [
    alt [seq [.ret], seq []],
    alt [seq [.ret], seq []],
    alt [seq [.ret], seq [.alloc .salt_4e3m, .ifNull .salt_4e3m (seq [.ret]), .use .salt_4e3m, .call .comp_salt_4e3m, alt [seq [.free .salt_4e3m, .ret], seq []], .use .salt_4e3m, .alloc .giy, .ifNull .giy (seq [.free .salt_4e3m, .ret]), .use .giy, .call .comp_giy, alt [seq [.free .giy, .free .salt_4e3m, .ret], seq []], .use .giy, .use .giy, .use .giy, .free .giy, alt [seq [.free .salt_4e3m, .ret], seq []], .use .salt_4e3m, .free .salt_4e3m, alt [seq [.ret], seq []], .ret], seq [.ret], seq []],
    .ret]

/-- library/edhoc_message_3.c:376-418 -/
def code_comp_plaintext_3_len : Stm Buf Fn :=
  seq [
    alt [seq [.ret], seq []],
    alt [seq [.call .edhoc_cbor_int_mem_req], seq [.call .edhoc_cbor_bstr_oh], seq []],
    alt [seq [alt [seq [.call .edhoc_cbor_int_mem_req], seq [.call .edhoc_cbor_bstr_oh], seq []]], seq []],
    .call .edhoc_cbor_bstr_oh,
    .ret]

/-- library/edhoc_message_3.c:420-488 -/
def code_prepare_plaintext_3 : Stm Buf Fn :=
  seq [
    alt [seq [.ret], seq []],
    alt [seq [alt [seq [], seq [], seq [.ret]]], seq []],
    .call .edhoc_cbor_bstr_oh,
    alt [seq [.ret], seq []],
    alt [seq [.ret], seq []],
    .ret]

/-- library/edhoc_message_3.c:490-505 -/
def code_comp_aad_3_len : Stm Buf Fn :=
  seq [
    alt [seq [.ret], seq []],
    .call .edhoc_cbor_tstr_oh,
    .call .edhoc_cbor_bstr_oh,
    .ret]

/-- library/edhoc_message_3.c:507-636 -/
def code_comp_key_iv_aad_3 : Stm Buf Fn :=
  seq [
    alt [seq [.ret], seq []],
    alt [seq [.ret], seq []],
    .call .edhoc_cbor_int_mem_req,
    .call .edhoc_cbor_bstr_oh,
    .call .edhoc_cbor_int_mem_req,
    .alloc .info,
    .ifNull .info (seq [.ret]),
    .use .info,
    alt [seq [.free .info, .ret], seq []],
    alt [seq [.free .info, .ret], seq []],
    .use .info,
    alt [seq [.free .info, .ret], seq []],
    .use .info,
    .use .info,
    alt [seq [.free .info, .ret], seq []],
    alt [seq [.free .info, .ret], seq []],
    .use .info,
    .free .info,
    alt [seq [.ret], seq []],
    alt [seq [.ret], seq []],
    .ret]

/-- library/edhoc_message_3.c:638-675 -/
def code_comp_ciphertext : Stm Buf Fn :=
  seq [
    alt [seq [.ret], seq []],
    alt [seq [.ret], seq []],
    alt [seq [.ret], seq []],
    .ret]

/-- library/edhoc_message_3.c:677-756 -/
def code_comp_th_4 : Stm Buf Fn :=
  seq [
    alt [seq [.ret], seq []],
    alt [seq [.ret], seq []],
    .call .edhoc_cbor_bstr_oh,
    .alloc .th_4,
    .ifNull .th_4 (seq [.ret]),
    .use .th_4,
    alt [seq [.free .th_4, .ret], seq []],
    .use .th_4,
    .use .th_4,
    alt [seq [.free .th_4, .ret], seq []],
    .use .th_4,
    .free .th_4,
    alt [seq [.ret], seq []],
    .ret]

/-- library/edhoc_message_3.c:758-783 -/
def code_gen_msg_3 : Stm Buf Fn :=
  seq [
    alt [seq [.ret], seq []],
    alt [seq [.ret], seq []],
    .ret]

/-- library/edhoc_message_3.c:785-810 -/
def code_parse_msg_3 : Stm Buf Fn :=
  seq [
    alt [seq [.ret], seq []],
    alt [seq [.ret], seq []],
    .ret]

/-- library/edhoc_message_3.c:812-851 -/
def code_decrypt_ciphertext_3 : Stm Buf Fn :=
  seq [
    alt [seq [.ret], seq []],
    alt [seq [.ret], seq []],
    alt [seq [.ret], seq []],
    .ret]

/-- library/edhoc_message_3.c:853-1035 -/
def code_parse_plaintext_3 : Stm Buf Fn :=
  seq [
    alt [seq [.ret], seq []],
    alt [seq [.ret], seq []],
    .scope (seq [alt [seq [], seq [], seq [alt [seq [alt [seq [], seq [alt [seq [.ret], seq []]], seq []], .brk], seq []], alt [seq [alt [seq [], seq [alt [seq [.ret], seq []]], seq [.ret]], .brk], seq []]], seq []]]),
    .ret]

/-- library/edhoc_message_3.c:1037-1106 -/
def code_comp_salt_4e3m : Stm Buf Fn :=
  seq [
    alt [seq [.ret], seq []],
    alt [seq [.ret], seq []],
    .call .edhoc_cbor_int_mem_req,
    .call .edhoc_cbor_bstr_oh,
    .call .edhoc_cbor_int_mem_req,
    .alloc .info,
    .ifNull .info (seq [.ret]),
    .use .info,
    alt [seq [.free .info, .ret], seq []],
    alt [seq [.free .info, .ret], seq []],
    .use .info,
    .free .info,
    alt [seq [.ret], seq []],
    .ret]

/-- library/edhoc_message_3.c:1108-1176 -/
def code_comp_giy : Stm Buf Fn :=
  seq [
    alt [seq [.ret], seq []],
    alt [seq [alt [seq [.ret], seq []], .ret], seq [alt [seq [.ret], seq []], alt [seq [.ret], seq []], .ret], seq [.ret]],
    .ret]

/-- library/edhoc_message_3.c:1197-1557 -/
def code_edhoc_message_3_compose : Stm Buf Fn :=
  seq [
    alt [seq [.ret], seq []],
    alt [seq [.ret], seq []],
    alt [seq [alt [seq [.ret], seq []]], seq []],
    alt [seq [.ret], seq []],
    .alloc .key,
    .ifNull .key (seq [.ret]),
    .alloc .iv,
    .ifNull .iv (seq [.free .key, .ret]),
    .call .comp_aad_3_len,
    alt [seq [.free .iv, .free .key, .ret], seq []],
    .alloc .aad,
    .ifNull .aad (seq [.free .iv, .free .key, .ret]),
    .use .key,
    .use .iv,
    .use .aad,
    .call .comp_key_iv_aad_3,
    alt [seq [.free .aad, .free .iv, .free .key, .ret], seq []],
    .use .key,
    .use .iv,
    .use .aad,
    .call .comp_prk_4e3m,
    alt [seq [.free .aad, .free .iv, .free .key, .ret], seq []],
    .call .edhoc_comp_mac_context_length,
    alt [seq [.free .aad, .free .iv, .free .key, .ret], seq []],
    .alloc .mac_3_context_buf,
    .ifNull .mac_3_context_buf (seq [.free .aad, .free .iv, .free .key, .ret]),
    .use .mac_3_context_buf,
    .use .mac_3_context_buf,
    .call .edhoc_comp_mac_context,
    alt [seq [.free .mac_3_context_buf, .free .aad, .free .iv, .free .key, .ret], seq []],
    .use .mac_3_context_buf,
    .use .mac_3_context_buf,
    .use .mac_3_context_buf,
    .use .mac_3_context_buf,
    .call .edhoc_comp_mac_length,
    alt [seq [.free .mac_3_context_buf, .free .aad, .free .iv, .free .key, .ret], seq []],
    .alloc .mac_buf,
    .ifNull .mac_buf (seq [.free .mac_3_context_buf, .free .aad, .free .iv, .free .key, .ret]),
    .use .mac_3_context_buf,
    .use .mac_buf,
    .call .edhoc_comp_mac,
    alt [seq [.free .mac_buf, .free .mac_3_context_buf, .free .aad, .free .iv, .free .key, .ret], seq []],
    .call .edhoc_comp_sign_or_mac_length,
    alt [seq [.free .mac_buf, .free .mac_3_context_buf, .free .aad, .free .iv, .free .key, .ret], seq []],
    .alloc .signature,
    .ifNull .signature (seq [.free .mac_buf, .free .mac_3_context_buf, .free .aad, .free .iv, .free .key, .ret]),
    .use .mac_3_context_buf,
    .use .mac_buf,
    .use .signature,
    .call .edhoc_comp_sign_or_mac,
    .free .mac_buf,
    alt [seq [.free .signature, .free .mac_3_context_buf, .free .aad, .free .iv, .free .key, .ret], seq []],
    .use .signature,
    .use .mac_3_context_buf,
    .call .comp_plaintext_3_len,
    alt [seq [.free .signature, .free .mac_3_context_buf, .free .aad, .free .iv, .free .key, .ret], seq []],
    .alloc .plaintext,
    .ifNull .plaintext (seq [.free .signature, .free .mac_3_context_buf, .free .aad, .free .iv, .free .key, .ret]),
    .use .mac_3_context_buf,
    .use .signature,
    .use .plaintext,
    .call .prepare_plaintext_3,
    .free .signature,
    alt [seq [.free .plaintext, .free .mac_3_context_buf, .free .aad, .free .iv, .free .key, .ret], seq []],
    .use .plaintext,
    .alloc .ciphertext,
    .ifNull .ciphertext (seq [.free .plaintext, .free .mac_3_context_buf, .free .aad, .free .iv, .free .key, .ret]),
    .use .key,
    .use .iv,
    .use .aad,
    .use .plaintext,
    .use .ciphertext,
    .call .comp_ciphertext,
    .free .aad,
    .free .iv,
    .free .key,
    alt [seq [.free .ciphertext, .free .plaintext, .free .mac_3_context_buf, .ret], seq []],
    .use .ciphertext,
    .use .mac_3_context_buf,
    .use .plaintext,
    .call .comp_th_4,
    .free .plaintext,
    .free .mac_3_context_buf,
    alt [seq [.free .ciphertext, .ret], seq []],
    .use .ciphertext,
    .call .gen_msg_3,
    .free .ciphertext,
    alt [seq [.ret], seq []],
    .ret]

/-- library/edhoc_message_3.c:1576-1852 -/
def code_edhoc_message_3_process : Stm Buf Fn :=
  seq [
    alt [seq [.ret], seq []],
    alt [seq [.ret], seq []],
    .call .parse_msg_3,
    alt [seq [.ret], seq []],
    .alloc .key,
    .ifNull .key (seq [.ret]),
    .alloc .iv,
    .ifNull .iv (seq [.free .key, .ret]),
    .call .comp_aad_3_len,
    alt [seq [.free .iv, .free .key, .ret], seq []],
    .alloc .aad,
    .ifNull .aad (seq [.free .iv, .free .key, .ret]),
    .use .key,
    .use .iv,
    .use .aad,
    .call .comp_key_iv_aad_3,
    alt [seq [.free .aad, .free .iv, .free .key, .ret], seq []],
    .use .key,
    .use .iv,
    .use .aad,
    .alloc .ptxt,
    .ifNull .ptxt (seq [.free .aad, .free .iv, .free .key, .ret]),
    .use .key,
    .use .iv,
    .use .aad,
    .use .ptxt,
    .call .decrypt_ciphertext_3,
    .free .aad,
    .free .iv,
    .free .key,
    alt [seq [.free .ptxt, .ret], seq []],
    .use .ptxt,
    .use .ptxt,
    .call .parse_plaintext_3,
    alt [seq [.free .ptxt, .ret], seq []],
    .use .ptxt,
    alt [seq [.use .ptxt, alt [seq [.free .ptxt, .ret], seq []], .loop (seq [.use .ptxt, .use .ptxt, alt [seq [.use .ptxt], seq []]])], seq []],
    .use .ptxt,
    alt [seq [.free .ptxt, .ret], seq []],
    .use .ptxt,
    .call .comp_prk_4e3m,
    alt [seq [.free .ptxt, .ret], seq []],
    .use .ptxt,
    .call .edhoc_comp_mac_context_length,
    alt [seq [.free .ptxt, .ret], seq []],
    .alloc .mac_3_context_buf,
    .ifNull .mac_3_context_buf (seq [.free .ptxt, .ret]),
    .use .mac_3_context_buf,
    .use .mac_3_context_buf,
    .use .ptxt,
    .call .edhoc_comp_mac_context,
    alt [seq [.free .mac_3_context_buf, .free .ptxt, .ret], seq []],
    .use .mac_3_context_buf,
    .use .mac_3_context_buf,
    .use .mac_3_context_buf,
    .use .mac_3_context_buf,
    .use .mac_3_context_buf,
    .call .edhoc_comp_mac_length,
    alt [seq [.free .mac_3_context_buf, .free .ptxt, .ret], seq []],
    .alloc .mac_buf,
    .ifNull .mac_buf (seq [.free .mac_3_context_buf, .free .ptxt, .ret]),
    .use .mac_3_context_buf,
    .use .mac_buf,
    .call .edhoc_comp_mac,
    alt [seq [.free .mac_buf, .free .mac_3_context_buf, .free .ptxt, .ret], seq []],
    .use .mac_3_context_buf,
    .use .mac_buf,
    .use .ptxt,
    .call .edhoc_verify_sign_or_mac,
    .free .mac_buf,
    alt [seq [.free .mac_3_context_buf, .free .ptxt, .ret], seq []],
    .use .mac_3_context_buf,
    .use .ptxt,
    .call .comp_th_4,
    .free .mac_3_context_buf,
    .free .ptxt,
    alt [seq [.ret], seq []],
    .ret]

/-- library/edhoc_message_4.c:198-216 -/
def code_compute_plaintext_4_len : Stm Buf Fn :=
  seq [
    alt [seq [.ret], seq []],
    .loop (seq [.call .edhoc_cbor_int_mem_req, .call .edhoc_cbor_bstr_oh]),
    .ret]

/-- library/edhoc_message_4.c:218-262 -/
def code_prepare_plaintext_4 : Stm Buf Fn :=
  seq [
    alt [seq [.ret], seq []],
    alt [seq [.ret], seq []],
    alt [seq [.ret], seq []],
    .ret]

/-- library/edhoc_message_4.c:264-273 -/
def code_compute_aad_4_len : Stm Buf Fn :=
  seq [
    .call .edhoc_cbor_tstr_oh,
    .call .edhoc_cbor_bstr_oh,
    .call .edhoc_cbor_bstr_oh,
    .ret]

/-- library/edhoc_message_4.c:275-405 -/
def code_compute_key_iv_aad_4 : Stm Buf Fn :=
  seq [
    alt [seq [.ret], seq []],
    alt [seq [.ret], seq []],
    .call .edhoc_cbor_int_mem_req,
    .call .edhoc_cbor_bstr_oh,
    .call .edhoc_cbor_int_mem_req,
    .alloc .info,
    .ifNull .info (seq [.ret]),
    .use .info,
    alt [seq [.free .info, .ret], seq []],
    alt [seq [.free .info, .ret], seq []],
    .use .info,
    alt [seq [.free .info, .ret], seq []],
    .use .info,
    .use .info,
    alt [seq [.free .info, .ret], seq []],
    alt [seq [.free .info, .ret], seq []],
    .use .info,
    .free .info,
    alt [seq [.ret], seq []],
    alt [seq [.ret], seq []],
    .ret]

/-- library/edhoc_message_4.c:407-437 -/
def code_compute_ciphertext : Stm Buf Fn :=
  seq [
    alt [seq [.ret], seq []],
    alt [seq [.ret], seq []],
    .ret]

/-- library/edhoc_message_4.c:439-464 -/
def code_gen_msg_4 : Stm Buf Fn :=
  seq [
    alt [seq [.ret], seq []],
    alt [seq [.ret], seq []],
    .ret]

/-- library/edhoc_message_4.c:466-491 -/
def code_parse_msg_4 : Stm Buf Fn :=
  seq [
    alt [seq [.ret], seq []],
    alt [seq [.ret], seq []],
    .ret]

/-- library/edhoc_message_4.c:493-525 -/
def code_decrypt_ciphertext_4 : Stm Buf Fn :=
  seq [
    alt [seq [.ret], seq []],
    alt [seq [.ret], seq []],
    .ret]

/-- library/edhoc_message_4.c:527-557 -/
def code_parse_plaintext_4 : Stm Buf Fn :=
  seq [
    alt [seq [.ret], seq []],
    alt [seq [.ret], seq []],
    .ret]

/-- library/edhoc_message_4.c:571-761 -/
def code_edhoc_message_4_compose : Stm Buf Fn :=
  seq [
    alt [seq [.ret], seq []],
    alt [seq [.ret], seq []],
    alt [seq [alt [seq [.ret], seq []]], seq []],
    .call .compute_plaintext_4_len,
    alt [seq [.ret], seq []],
    .alloc .plaintext,
    .ifNull .plaintext (seq [.ret]),
    .use .plaintext,
    .call .prepare_plaintext_4,
    alt [seq [.free .plaintext, .ret], seq []],
    .use .plaintext,
    .alloc .key,
    .ifNull .key (seq [.free .plaintext, .ret]),
    .alloc .iv,
    .ifNull .iv (seq [.free .key, .free .plaintext, .ret]),
    .call .compute_aad_4_len,
    .alloc .aad,
    .ifNull .aad (seq [.free .iv, .free .key, .free .plaintext, .ret]),
    .use .key,
    .use .iv,
    .use .aad,
    .call .compute_key_iv_aad_4,
    alt [seq [.free .aad, .free .iv, .free .key, .free .plaintext, .ret], seq []],
    .use .key,
    .use .iv,
    .use .aad,
    .alloc .ciphertext,
    .ifNull .ciphertext (seq [.free .aad, .free .iv, .free .key, .free .plaintext, .ret]),
    .use .key,
    .use .iv,
    .use .aad,
    .use .plaintext,
    .use .ciphertext,
    .call .compute_ciphertext,
    alt [seq [.free .ciphertext, .free .aad, .free .iv, .free .key, .free .plaintext, .ret], seq []],
    .free .aad,
    .free .iv,
    .free .key,
    .free .plaintext,
    .use .ciphertext,
    .use .ciphertext,
    .call .gen_msg_4,
    alt [seq [.free .ciphertext, .ret], seq []],
    .free .ciphertext,
    .ret]

/-- library/edhoc_message_4.c:772-934 -/
def code_edhoc_message_4_process : Stm Buf Fn :=
  seq [
    alt [seq [.ret], seq []],
    alt [seq [.ret], seq []],
    .call .parse_msg_4,
    alt [seq [.ret], seq []],
    .alloc .key,
    .ifNull .key (seq [.ret]),
    .alloc .iv,
    .ifNull .iv (seq [.free .key, .ret]),
    .call .compute_aad_4_len,
    .alloc .aad,
    .ifNull .aad (seq [.free .iv, .free .key, .ret]),
    .use .key,
    .use .iv,
    .use .aad,
    .call .compute_key_iv_aad_4,
    alt [seq [.free .aad, .free .iv, .free .key, .ret], seq []],
    .use .key,
    .use .iv,
    .use .aad,
    .alloc .ptxt,
    .ifNull .ptxt (seq [.free .aad, .free .iv, .free .key, .ret]),
    .use .key,
    .use .iv,
    .use .aad,
    .use .ptxt,
    .call .decrypt_ciphertext_4,
    alt [seq [.free .ptxt, .free .aad, .free .iv, .free .key, .ret], seq []],
    .free .aad,
    .free .iv,
    .free .key,
    .use .ptxt,
    .use .ptxt,
    .call .parse_plaintext_4,
    alt [seq [.free .ptxt, .ret], seq []],
    .use .ptxt,
    alt [seq [.use .ptxt, alt [seq [.free .ptxt, .ret], seq []], .loop (seq [.use .ptxt, .use .ptxt, alt [seq [.use .ptxt], seq []]])], seq []],
    .free .ptxt,
    .ret]

/-- library/edhoc_message_error.c:52-163 -/
def code_edhoc_message_error_compose : Stm Buf Fn :=
  seq [
    alt [seq [.ret], seq []],
    alt [seq [.ret], seq []],
    alt [seq [], seq [alt [seq [.ret], seq []], alt [seq [.ret], seq []]], seq [alt [seq [.ret], seq []], alt [seq [.ret], seq []], alt [seq [], seq [alt [seq [.ret], seq []]]]], seq [], seq [.ret]],
    alt [seq [.ret], seq []],
    .ret]

/-- library/edhoc_message_error.c:165-278 -/
def code_edhoc_message_error_process : Stm Buf Fn :=
  seq [
    alt [seq [.ret], seq []],
    alt [seq [.ret], seq []],
    .scope (seq [alt [seq [], seq [alt [seq [.brk], seq []], alt [seq [alt [seq [.ret], seq []]], seq []]], seq [alt [seq [.brk], seq []], alt [seq [alt [seq [], seq [alt [seq [.ret], seq []]], seq [.ret]]], seq []]], seq [], seq [.ret]]]),
    .ret]

/-- The body of each function. -/
def code : Fn → Stm Buf Fn
  | .edhoc_context_init => code_edhoc_context_init
  | .edhoc_context_deinit => code_edhoc_context_deinit
  | .edhoc_set_methods => code_edhoc_set_methods
  | .edhoc_set_cipher_suites => code_edhoc_set_cipher_suites
  | .edhoc_set_connection_id => code_edhoc_set_connection_id
  | .edhoc_set_user_context => code_edhoc_set_user_context
  | .edhoc_bind_ead => code_edhoc_bind_ead
  | .edhoc_bind_keys => code_edhoc_bind_keys
  | .edhoc_bind_crypto => code_edhoc_bind_crypto
  | .edhoc_bind_credentials => code_edhoc_bind_credentials
  | .edhoc_error_get_code => code_edhoc_error_get_code
  | .edhoc_error_get_cipher_suites => code_edhoc_error_get_cipher_suites
  | .edhoc_cbor_is_one_byte_int => code_edhoc_cbor_is_one_byte_int
  | .comp_cid_len => code_comp_cid_len
  | .comp_id_cred_len => code_comp_id_cred_len
  | .comp_th_len => code_comp_th_len
  | .comp_cred_len => code_comp_cred_len
  | .comp_ead_len => code_comp_ead_len
  | .kid_compact_encoding => code_kid_compact_encoding
  | .sign_cose_sign_1 => code_sign_cose_sign_1
  | .verify_cose_sign_1 => code_verify_cose_sign_1
  | .edhoc_cbor_int_mem_req => code_edhoc_cbor_int_mem_req
  | .edhoc_cbor_tstr_oh => code_edhoc_cbor_tstr_oh
  | .edhoc_cbor_bstr_oh => code_edhoc_cbor_bstr_oh
  | .edhoc_cbor_map_oh => code_edhoc_cbor_map_oh
  | .edhoc_cbor_array_oh => code_edhoc_cbor_array_oh
  | .edhoc_comp_mac_context_length => code_edhoc_comp_mac_context_length
  | .edhoc_comp_mac_context => code_edhoc_comp_mac_context
  | .edhoc_comp_mac_length => code_edhoc_comp_mac_length
  | .edhoc_comp_mac => code_edhoc_comp_mac
  | .edhoc_comp_sign_or_mac_length => code_edhoc_comp_sign_or_mac_length
  | .edhoc_comp_sign_or_mac => code_edhoc_comp_sign_or_mac
  | .edhoc_verify_sign_or_mac => code_edhoc_verify_sign_or_mac
  | .compute_prk_out => code_compute_prk_out
  | .compute_new_prk_out => code_compute_new_prk_out
  | .compute_prk_exporter => code_compute_prk_exporter
  | .edhoc_export_prk_exporter => code_edhoc_export_prk_exporter
  | .edhoc_export_key_update => code_edhoc_export_key_update
  | .edhoc_export_oscore_session => code_edhoc_export_oscore_session
  | .edhoc_message_1_compose => code_edhoc_message_1_compose
  | .edhoc_message_1_process => code_edhoc_message_1_process
  | .gen_dh_keys => code_gen_dh_keys
  | .comp_dh_secret => code_comp_dh_secret
  | .comp_th_2 => code_comp_th_2
  | .comp_prk_2e => code_comp_prk_2e
  | .comp_prk_3e2m => code_comp_prk_3e2m
  | .comp_plaintext_2_len => code_comp_plaintext_2_len
  | .prepare_plaintext_2 => code_prepare_plaintext_2
  | .comp_keystream => code_comp_keystream
  | .xor_arrays => code_xor_arrays
  | .prepare_message_2 => code_prepare_message_2
  | .comp_ciphertext_2_len => code_comp_ciphertext_2_len
  | .parse_msg_2 => code_parse_msg_2
  | .parse_plaintext_2 => code_parse_plaintext_2
  | .comp_th_3 => code_comp_th_3
  | .comp_salt_3e2m => code_comp_salt_3e2m
  | .comp_grx => code_comp_grx
  | .edhoc_message_2_compose => code_edhoc_message_2_compose
  | .edhoc_message_2_process => code_edhoc_message_2_process
  | .comp_prk_4e3m => code_comp_prk_4e3m
  | .comp_plaintext_3_len => code_comp_plaintext_3_len
  | .prepare_plaintext_3 => code_prepare_plaintext_3
  | .comp_aad_3_len => code_comp_aad_3_len
  | .comp_key_iv_aad_3 => code_comp_key_iv_aad_3
  | .comp_ciphertext => code_comp_ciphertext
  | .comp_th_4 => code_comp_th_4
  | .gen_msg_3 => code_gen_msg_3
  | .parse_msg_3 => code_parse_msg_3
  | .decrypt_ciphertext_3 => code_decrypt_ciphertext_3
  | .parse_plaintext_3 => code_parse_plaintext_3
  | .comp_salt_4e3m => code_comp_salt_4e3m
  | .comp_giy => code_comp_giy
  | .edhoc_message_3_compose => code_edhoc_message_3_compose
  | .edhoc_message_3_process => code_edhoc_message_3_process
  | .compute_plaintext_4_len => code_compute_plaintext_4_len
  | .prepare_plaintext_4 => code_prepare_plaintext_4
  | .compute_aad_4_len => code_compute_aad_4_len
  | .compute_key_iv_aad_4 => code_compute_key_iv_aad_4
  | .compute_ciphertext => code_compute_ciphertext
  | .gen_msg_4 => code_gen_msg_4
  | .parse_msg_4 => code_parse_msg_4
  | .decrypt_ciphertext_4 => code_decrypt_ciphertext_4
  | .parse_plaintext_4 => code_parse_plaintext_4
  | .edhoc_message_4_compose => code_edhoc_message_4_compose
  | .edhoc_message_4_process => code_edhoc_message_4_process
  | .edhoc_message_error_compose => code_edhoc_message_error_compose
  | .edhoc_message_error_process => code_edhoc_message_error_process

/-- Every function of the library. -/
def Fn.all : List Fn :=
  [.edhoc_context_init, .edhoc_context_deinit, .edhoc_set_methods, .edhoc_set_cipher_suites,
   .edhoc_set_connection_id, .edhoc_set_user_context, .edhoc_bind_ead, .edhoc_bind_keys,
   .edhoc_bind_crypto, .edhoc_bind_credentials, .edhoc_error_get_code,
   .edhoc_error_get_cipher_suites, .edhoc_cbor_is_one_byte_int, .comp_cid_len, .comp_id_cred_len,
   .comp_th_len, .comp_cred_len, .comp_ead_len, .kid_compact_encoding, .sign_cose_sign_1,
   .verify_cose_sign_1, .edhoc_cbor_int_mem_req, .edhoc_cbor_tstr_oh, .edhoc_cbor_bstr_oh,
   .edhoc_cbor_map_oh, .edhoc_cbor_array_oh, .edhoc_comp_mac_context_length,
   .edhoc_comp_mac_context, .edhoc_comp_mac_length, .edhoc_comp_mac,
   .edhoc_comp_sign_or_mac_length, .edhoc_comp_sign_or_mac, .edhoc_verify_sign_or_mac,
   .compute_prk_out, .compute_new_prk_out, .compute_prk_exporter, .edhoc_export_prk_exporter,
   .edhoc_export_key_update, .edhoc_export_oscore_session, .edhoc_message_1_compose,
   .edhoc_message_1_process, .gen_dh_keys, .comp_dh_secret, .comp_th_2, .comp_prk_2e,
   .comp_prk_3e2m, .comp_plaintext_2_len, .prepare_plaintext_2, .comp_keystream, .xor_arrays,
   .prepare_message_2, .comp_ciphertext_2_len, .parse_msg_2, .parse_plaintext_2, .comp_th_3,
   .comp_salt_3e2m, .comp_grx, .edhoc_message_2_compose, .edhoc_message_2_process, .comp_prk_4e3m,
   .comp_plaintext_3_len, .prepare_plaintext_3, .comp_aad_3_len, .comp_key_iv_aad_3,
   .comp_ciphertext, .comp_th_4, .gen_msg_3, .parse_msg_3, .decrypt_ciphertext_3,
   .parse_plaintext_3, .comp_salt_4e3m, .comp_giy, .edhoc_message_3_compose,
   .edhoc_message_3_process, .compute_plaintext_4_len, .prepare_plaintext_4, .compute_aad_4_len,
   .compute_key_iv_aad_4, .compute_ciphertext, .gen_msg_4, .parse_msg_4, .decrypt_ciphertext_4,
   .parse_plaintext_4, .edhoc_message_4_compose, .edhoc_message_4_process,
   .edhoc_message_error_compose, .edhoc_message_error_process]

end Verif.Mem
