/-
Specification for C85: how deep calls nest inside the library, and how many working buffers exist at a time.
-/
import Verif.MemSkeleton

namespace Verif.Mem

/-- `Sees code s L d n`: while statement `s`, begun with the buffers `L` of the running function allocated, is
being executed, there may be a moment with `d` unfinished calls inside it, and with `n` buffers allocated by the
running function and by those calls together. -/
inductive Sees {β φ : Type} [DecidableEq β] (code : φ → Stm β φ) : Stm β φ → List β → Nat → Nat → Prop
  /-- before the statement -/
  | here : Sees code s L 0 L.length
  /-- after it -/
  | after : Run code s L (.next M) → Sees code s L 0 M.length
  | isNull : b ∉ L → Sees code s L d n → Sees code (.ifNull b s) L d n
  | first : Sees code s L d n → Sees code (.seq s t) L d n
  | second : Run code s L (.next M) → Sees code t M d n → Sees code (.seq s t) L d n
  | left : Sees code s L d n → Sees code (.alt s t) L d n
  | right : Sees code t L d n → Sees code (.alt s t) L d n
  | round : Sees code s L d n → Sees code (.loop s) L d n
  | nextRound : Run code s L (.next M) → Sees code (.loop s) M d n → Sees code (.loop s) L d n
  | scope : Sees code s L d n → Sees code (.scope s) L d n
  | call : Sees code (code f) [] d n → Sees code (.call f) L (d + 1) (L.length + n)

/-- `Inside code s L g`: some execution of `s`, begun with the buffers `L` allocated, calls `g`. -/
inductive Inside (code : Fn → Stm Buf Fn) : Stm Buf Fn → List Buf → Fn → Prop
  | call : Inside code (.call f) L f
  | isNull : b ∉ L → Inside code s L g → Inside code (.ifNull b s) L g
  | first : Inside code s L g → Inside code (.seq s t) L g
  | second : Run code s L (.next M) → Inside code t M g → Inside code (.seq s t) L g
  | left : Inside code s L g → Inside code (.alt s t) L g
  | right : Inside code t L g → Inside code (.alt s t) L g
  | round : Inside code s L g → Inside code (.loop s) L g
  | nextRound : Run code s L (.next M) → Inside code (.loop s) M g → Inside code (.loop s) L g
  | scope : Inside code s L g → Inside code (.scope s) L g

/-- Some execution of `f` calls `g`, directly or through other functions of the library. -/
inductive Reaches : Fn → Fn → Prop
  | call : Inside code (code f) [] g → Reaches f g
  | through : Inside code (code f) [] g → Reaches g k → Reaches f k

/-- For each function of the library: how deep the calls inside it nest at most, and how many working buffers it
and the functions it calls have allocated at most at a time. -/
def nestingOf : Fn → Nat × Nat
  | .edhoc_message_1_compose | .prepare_message_2 => (0, 1)
  | .edhoc_cbor_is_one_byte_int | .comp_cid_len | .comp_id_cred_len | .comp_th_len | .comp_cred_len
  | .comp_ead_len | .comp_plaintext_2_len | .prepare_plaintext_2 | .comp_plaintext_3_len
  | .prepare_plaintext_3 | .comp_aad_3_len | .compute_plaintext_4_len | .compute_aad_4_len => (1, 0)
  | .sign_cose_sign_1 | .verify_cose_sign_1 | .edhoc_comp_mac | .compute_prk_out | .compute_new_prk_out
  | .compute_prk_exporter | .comp_th_2 | .comp_keystream | .comp_th_3 | .comp_salt_3e2m | .comp_key_iv_aad_3
  | .comp_th_4 | .comp_salt_4e3m | .compute_key_iv_aad_4 => (1, 1)
  | .kid_compact_encoding | .edhoc_comp_mac_context_length => (2, 0)
  | .edhoc_comp_sign_or_mac | .edhoc_verify_sign_or_mac | .edhoc_export_key_update => (2, 1)
  | .edhoc_export_prk_exporter | .comp_prk_3e2m | .comp_prk_4e3m => (2, 2)
  | .edhoc_message_4_process => (2, 4)
  | .edhoc_message_4_compose => (2, 5)
  | .edhoc_comp_mac_context => (3, 0)
  | .edhoc_export_oscore_session => (3, 2)
  | .edhoc_message_2_process | .edhoc_message_3_process => (4, 4)
  | .edhoc_message_2_compose => (4, 5)
  | .edhoc_message_3_compose => (4, 7)
  | _ => (0, 0)

end Verif.Mem
