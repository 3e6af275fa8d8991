import Verif.LogBackend

/-!
# The log statements of the library

Every use of an `EDHOC_LOG_*` macro in `/repo/library` and `/repo/helpers`: line, severity, format with the types and the
text of the arguments, or the text, pointer and length of a hex dump. Types are those of the declarations in `/repo`
(`psa_status_t` is an `int32_t`; enumerations are passed as `int`). The lists are complete and in the order of the source;
adjacent string literals are joined.
-/

namespace Verif.Logging

/-- `/repo/helpers/src/edhoc_cipher_suite_0.c` -/
def cipherSuite0 : List Stmt := [
  .print 138 .err "Unknown key type: %d" [(.enum, "key_type")],
  .print 152 .err "Import key: %d" [(.int32, "ret")],
  .print 164 .err "Invalid argument" [],
  .print 173 .err "Destroy key: %d" [(.int32, "ret")],
  .print 190 .err "Invalid arguments" [],
  .print 195 .err "Invalid key sizes: %zu, %zu" [(.size, "priv_key_size"), (.size, "pub_key_size")],
  .print 204 .err "Generate random: %d" [(.int32, "ret")],
  .print 225 .err "Invalid arguments" [],
  .print 231 .err "Invalid key sizes: %zu, %zu" [(.size, "peer_pub_key_len"), (.size, "shr_sec_size")],
  .print 244 .err "Export private key: %d, %zu" [(.int32, "ret"), (.size, "priv_key_len")],
  .print 267 .err "Invalid arguments" [],
  .print 272 .err "Invalid signature size: %zu, %d" [(.size, "sign_size"), (.int, "ED25519_SIGNATURE_SIZE")],
  .print 285 .err "Export private key: %d, %zu" [(.int32, "ret"), (.size, "priv_key_len")],
  .print 303 .err "Invalid arguments" [],
  .print 308 .err "Invalid signature size: %zu, %d" [(.size, "sign_len"), (.int, "ED25519_SIGNATURE_SIZE")],
  .print 321 .err "Export public key: %d, %zu" [(.int32, "ret"), (.size, "pub_key_len")],
  .print 329 .err "EdDSA verify" [],
  .print 344 .err "Invalid arguments" [],
  .print 356 .err "Get key attributes: %d" [(.int32, "ret")],
  .print 362 .err "Setup key derivation: %d" [(.int32, "ret")],
  .print 369 .err "Input salt: %d" [(.int32, "ret")],
  .print 376 .err "Input secret key: %d" [(.int32, "ret")],
  .print 382 .err "Set capacity: %d" [(.int32, "ret")],
  .print 388 .err "Output bytes: %d" [(.int32, "ret")],
  .print 399 .err "HKDF extract: %d" [(.int32, "ret")],
  .print 411 .err "Invalid arguments" [],
  .print 423 .err "Get key attributes: %d" [(.int32, "ret")],
  .print 429 .err "Setup key derivation: %d" [(.int32, "ret")],
  .print 436 .err "Input secret key: %d" [(.int32, "ret")],
  .print 443 .err "Input info: %d" [(.int32, "ret")],
  .print 449 .err "Set capacity: %d" [(.int32, "ret")],
  .print 455 .err "Output bytes: %d" [(.int32, "ret")],
  .print 464 .err "HKDF expand: %d" [(.int32, "ret")],
  .print 480 .err "Invalid arguments" [],
  .print 491 .err "Get key attributes: %d" [(.int32, "ret")],
  .print 500 .err "AEAD encryption: %d" [(.int32, "ret")],
  .print 519 .err "Invalid arguments" [],
  .print 530 .err "Get key attributes: %d" [(.int32, "ret")],
  .print 539 .err "AEAD decryption: %d" [(.int32, "ret")],
  .print 554 .err "Invalid arguments" [],
  .print 562 .err "SHA256 hash: %d" [(.int32, "ret")]]

/-- `/repo/helpers/src/edhoc_cipher_suite_2.c` -/
def cipherSuite2 : List Stmt := [
  .print 261 .err "Unknown key type: %d" [(.enum, "key_type")],
  .print 278 .err "Import/generate key: %d" [(.int, "ret")],
  .print 290 .err "Invalid argument" [],
  .print 299 .err "Destroy key: %d" [(.int32, "ret")],
  .print 319 .err "Invalid arguments" [],
  .print 330 .err "Export private key: %d, %zu" [(.int, "ret"), (.size, "*priv_key_len")],
  .print 340 .err "Export public key: %d, %zu" [(.int, "ret"), (.size, "*pub_key_len")],
  .print 361 .err "Invalid arguments" [],
  .print 367 .err "Invalid key sizes: %zu, %zu" [(.size, "peer_pub_key_len"), (.size, "shr_sec_size")],
  .print 384 .err "Setup PK context: %d" [(.int32, "ret")],
  .print 394 .err "Load ECP group: %d" [(.int32, "ret")],
  .print 405 .err "Decompress public key: %d" [(.int32, "ret")],
  .print 418 .err "Get key attributes: %d" [(.int32, "ret")],
  .print 429 .err "ECDH key agreement: %d" [(.int32, "ret")],
  .print 445 .err "Invalid arguments" [],
  .print 450 .err "Invalid signature size: %zu, %d" [(.size, "sign_size"), (.int, "EDHOC_CIPHER_SUITE_2_ECC_ECDSA_SIGN_LEN")],
  .print 462 .err "Get key attributes: %d" [(.int32, "ret")],
  .print 473 .err "Hash input: %d" [(.int32, "ret")],
  .print 478 .err "Unexpected digest length: %zu" [(.size, "digest_len")],
  .print 486 .err "ECDSA signature: %d" [(.int32, "ret")],
  .print 491 .err "Invalid signature length: %zu, %d" [(.size, "*sign_len"), (.int, "EDHOC_CIPHER_SUITE_2_ECC_ECDSA_SIGN_LEN")],
  .print 507 .err "Invalid arguments" [],
  .print 512 .err "Invalid signature size: %zu, %d" [(.size, "sign_len"), (.int, "EDHOC_CIPHER_SUITE_2_ECC_ECDSA_SIGN_LEN")],
  .print 524 .err "Get key attributes: %d" [(.int32, "ret")],
  .print 535 .err "Hash input: %d" [(.int32, "ret")],
  .print 540 .err "Invalid digest length: %zu" [(.size, "digest_len")],
  .print 548 .err "ECDSA verify: %d" [(.int32, "ret")],
  .print 563 .err "Invalid arguments" [],
  .print 575 .err "Get key attributes: %d" [(.int32, "ret")],
  .print 581 .err "Setup key derivation: %d" [(.int32, "ret")],
  .print 588 .err "Input salt: %d" [(.int32, "ret")],
  .print 595 .err "Input secret key: %d" [(.int32, "ret")],
  .print 601 .err "Set capacity: %d" [(.int32, "ret")],
  .print 607 .err "Output bytes: %d" [(.int32, "ret")],
  .print 618 .err "HKDF extract: %d" [(.int32, "ret")],
  .print 630 .err "Invalid arguments" [],
  .print 642 .err "Get key attributes: %d" [(.int32, "ret")],
  .print 648 .err "Setup key derivation: %d" [(.int32, "ret")],
  .print 655 .err "Input secret key: %d" [(.int32, "ret")],
  .print 662 .err "Input info: %d" [(.int32, "ret")],
  .print 668 .err "Set capacity: %d" [(.int32, "ret")],
  .print 674 .err "Output bytes: %d" [(.int32, "ret")],
  .print 683 .err "HKDF expand: %d" [(.int32, "ret")],
  .print 699 .err "Invalid arguments" [],
  .print 710 .err "Get key attributes: %d" [(.int32, "ret")],
  .print 719 .err "AEAD encryption: %d" [(.int32, "ret")],
  .print 738 .err "Invalid arguments" [],
  .print 749 .err "Get key attributes: %d" [(.int32, "ret")],
  .print 758 .err "AEAD decryption: %d" [(.int32, "ret")],
  .print 773 .err "Invalid arguments" [],
  .print 781 .err "SHA256 hash: %d" [(.int32, "ret")]]

/-- `/repo/helpers/src/edhoc_cipher_suite_24.c` -/
def cipherSuite24 : List Stmt := [
  .print 261 .err "Unknown key type: %d" [(.enum, "key_type")],
  .print 278 .err "Import/generate key: %d" [(.int, "ret")],
  .print 290 .err "Invalid argument" [],
  .print 299 .err "Destroy key: %d" [(.int32, "ret")],
  .print 319 .err "Invalid arguments" [],
  .print 330 .err "Export private key: %d, %zu" [(.int, "ret"), (.size, "*priv_key_len")],
  .print 340 .err "Export public key: %d, %zu" [(.int, "ret"), (.size, "*pub_key_len")],
  .print 361 .err "Invalid arguments" [],
  .print 367 .err "Invalid key sizes: %zu, %zu" [(.size, "peer_pub_key_len"), (.size, "shr_sec_size")],
  .print 384 .err "Setup PK context: %d" [(.int32, "ret")],
  .print 394 .err "Load ECP group: %d" [(.int32, "ret")],
  .print 405 .err "Decompress public key: %d" [(.int32, "ret")],
  .print 418 .err "Get key attributes: %d" [(.int32, "ret")],
  .print 429 .err "ECDH key agreement: %d" [(.int32, "ret")],
  .print 445 .err "Invalid arguments" [],
  .print 450 .err "Invalid signature size: %zu, %d" [(.size, "sign_size"), (.int, "EDHOC_CIPHER_SUITE_24_ECC_ECDSA_SIGN_LEN")],
  .print 462 .err "Get key attributes: %d" [(.int32, "ret")],
  .print 473 .err "Hash input: %d" [(.int32, "ret")],
  .print 478 .err "Unexpected digest length: %zu" [(.size, "digest_len")],
  .print 486 .err "ECDSA signature: %d" [(.int32, "ret")],
  .print 491 .err "Invalid signature length: %zu, %d" [(.size, "*sign_len"), (.int, "EDHOC_CIPHER_SUITE_24_ECC_ECDSA_SIGN_LEN")],
  .print 507 .err "Invalid arguments" [],
  .print 512 .err "Invalid signature size: %zu, %d" [(.size, "sign_len"), (.int, "EDHOC_CIPHER_SUITE_24_ECC_ECDSA_SIGN_LEN")],
  .print 524 .err "Get key attributes: %d" [(.int32, "ret")],
  .print 535 .err "Hash input: %d" [(.int32, "ret")],
  .print 540 .err "Invalid digest length: %zu" [(.size, "digest_len")],
  .print 548 .err "ECDSA verify: %d" [(.int32, "ret")],
  .print 564 .err "Invalid arguments" [],
  .print 576 .err "Get key attributes: %d" [(.int32, "ret")],
  .print 582 .err "Setup key derivation: %d" [(.int32, "ret")],
  .print 589 .err "Input salt: %d" [(.int32, "ret")],
  .print 596 .err "Input secret key: %d" [(.int32, "ret")],
  .print 602 .err "Set capacity: %d" [(.int32, "ret")],
  .print 608 .err "Output bytes: %d" [(.int32, "ret")],
  .print 619 .err "HKDF extract: %d" [(.int32, "ret")],
  .print 631 .err "Invalid arguments" [],
  .print 643 .err "Get key attributes: %d" [(.int32, "ret")],
  .print 649 .err "Setup key derivation: %d" [(.int32, "ret")],
  .print 656 .err "Input secret key: %d" [(.int32, "ret")],
  .print 663 .err "Input info: %d" [(.int32, "ret")],
  .print 669 .err "Set capacity: %d" [(.int32, "ret")],
  .print 675 .err "Output bytes: %d" [(.int32, "ret")],
  .print 684 .err "HKDF expand: %d" [(.int32, "ret")],
  .print 700 .err "Invalid arguments" [],
  .print 711 .err "Get key attributes: %d" [(.int32, "ret")],
  .print 720 .err "AEAD encryption: %d" [(.int32, "ret")],
  .print 739 .err "Invalid arguments" [],
  .print 750 .err "Get key attributes: %d" [(.int32, "ret")],
  .print 759 .err "AEAD decryption: %d" [(.int32, "ret")],
  .print 774 .err "Invalid arguments" [],
  .print 782 .err "SHA384 hash: %d" [(.int32, "ret")]]

/-- `/repo/helpers/src/edhoc_cipher_suite_4.c` -/
def cipherSuite4 : List Stmt := [
  .print 138 .err "Unknown key type: %d" [(.enum, "key_type")],
  .print 152 .err "Import key: %d" [(.int32, "ret")],
  .print 164 .err "Invalid argument" [],
  .print 173 .err "Destroy key: %d" [(.int32, "ret")],
  .print 190 .err "Invalid arguments" [],
  .print 195 .err "Invalid key sizes: %zu, %zu" [(.size, "priv_key_size"), (.size, "pub_key_size")],
  .print 204 .err "Generate random: %d" [(.int32, "ret")],
  .print 225 .err "Invalid arguments" [],
  .print 231 .err "Invalid key sizes: %zu, %zu" [(.size, "peer_pub_key_len"), (.size, "shr_sec_size")],
  .print 244 .err "Export private key: %d, %zu" [(.int32, "ret"), (.size, "priv_key_len")],
  .print 267 .err "Invalid arguments" [],
  .print 272 .err "Invalid signature size: %zu, %d" [(.size, "sign_size"), (.int, "ED25519_SIGNATURE_SIZE")],
  .print 285 .err "Export private key: %d, %zu" [(.int32, "ret"), (.size, "priv_key_len")],
  .print 303 .err "Invalid arguments" [],
  .print 308 .err "Invalid signature size: %zu, %d" [(.size, "sign_len"), (.int, "ED25519_SIGNATURE_SIZE")],
  .print 321 .err "Export public key: %d, %zu" [(.int32, "ret"), (.size, "pub_key_len")],
  .print 329 .err "EdDSA verify" [],
  .print 344 .err "Invalid arguments" [],
  .print 356 .err "Get key attributes: %d" [(.int32, "ret")],
  .print 362 .err "Setup key derivation: %d" [(.int32, "ret")],
  .print 369 .err "Input salt: %d" [(.int32, "ret")],
  .print 376 .err "Input secret key: %d" [(.int32, "ret")],
  .print 382 .err "Set capacity: %d" [(.int32, "ret")],
  .print 388 .err "Output bytes: %d" [(.int32, "ret")],
  .print 399 .err "HKDF extract: %d" [(.int32, "ret")],
  .print 411 .err "Invalid arguments" [],
  .print 423 .err "Get key attributes: %d" [(.int32, "ret")],
  .print 429 .err "Setup key derivation: %d" [(.int32, "ret")],
  .print 436 .err "Input secret key: %d" [(.int32, "ret")],
  .print 443 .err "Input info: %d" [(.int32, "ret")],
  .print 449 .err "Set capacity: %d" [(.int32, "ret")],
  .print 455 .err "Output bytes: %d" [(.int32, "ret")],
  .print 464 .err "HKDF expand: %d" [(.int32, "ret")],
  .print 480 .err "Invalid arguments" [],
  .print 491 .err "Get key attributes: %d" [(.int32, "ret")],
  .print 500 .err "AEAD encryption: %d" [(.int32, "ret")],
  .print 519 .err "Invalid arguments" [],
  .print 530 .err "Get key attributes: %d" [(.int32, "ret")],
  .print 539 .err "AEAD decryption: %d" [(.int32, "ret")],
  .print 554 .err "Invalid arguments" [],
  .print 562 .err "SHA256 hash: %d" [(.int32, "ret")]]

/-- `/repo/helpers/src/edhoc_exp_pqc_cipher_suite_1.c` -/
def expPqcCipherSuite1 : List Stmt := [
  .print 215 .err "Invalid arguments" [],
  .print 232 .err "No free key slots" [],
  .print 251 .err "Invalid arguments" [],
  .print 262 .err "Empty key slot" [],
  .print 267 .err "Export buffer too small: %zu, %zu" [(.size, "raw_size"), (.size, "slot->material_len")],
  .print 280 .err "Export key: %d" [(.int32, "ret")],
  .print 297 .err "Invalid arguments" [],
  .print 357 .err "Unknown key type: %d" [(.enum, "key_type")],
  .print 365 .err "Import key: %d" [(.int32, "psa_ret")],
  .print 377 .err "Invalid argument" [],
  .print 393 .err "Destroy key: %d" [(.int32, "ret")],
  .print 413 .err "Invalid arguments" [],
  .print 421 .err "Invalid make_key_pair slot" [],
  .print 427 .err "Invalid key sizes: %zu, %zu" [(.size, "private_key_size"), (.size, "public_key_size")],
  .print 434 .err "ML-KEM keypair" [],
  .print 461 .err "Invalid arguments" [],
  .print 466 .err "Invalid encapsulation key length: %zu" [(.size, "peer_public_key_length")],
  .print 473 .err "Output buffer too small" [],
  .print 479 .err "ML-KEM encapsulate" [],
  .print 503 .err "Invalid arguments" [],
  .print 508 .err "Invalid ciphertext length: %zu" [(.size, "ciphertext_length")],
  .print 514 .err "Shared secret buffer too small" [],
  .print 522 .err "Export decapsulation key" [],
  .print 527 .err "Invalid decapsulation key length: %zu" [(.size, "decapsulation_key_len")],
  .print 534 .err "ML-KEM decapsulate" [],
  .print 555 .err "Invalid arguments" [],
  .print 560 .err "Signature buffer too small: %zu" [(.size, "signature_size")],
  .print 568 .err "Export signing key" [],
  .print 573 .err "Invalid signing key length: %zu" [(.size, "signing_key_len")],
  .print 581 .err "ML-DSA sign" [],
  .print 600 .err "Invalid arguments" [],
  .print 608 .err "Export verification key" [],
  .print 613 .err "Invalid verification key length: %zu" [(.size, "verification_key_len")],
  .print 621 .err "ML-DSA verify" [],
  .print 635 .err "Invalid arguments" [],
  .print 640 .err "Hash buffer too small: %zu" [(.size, "hash_size")],
  .print 664 .err "Invalid arguments" [],
  .print 669 .err "PRK buffer too small" [],
  .print 677 .err "Export input key material" [],
  .print 686 .err "KMAC extract" [],
  .print 708 .err "Invalid arguments" [],
  .print 714 .err "Export PRK" [],
  .print 723 .err "KMAC expand" [],
  .print 743 .err "Invalid arguments" [],
  .print 755 .err "AEAD encryption: %d" [(.int32, "status")],
  .print 774 .err "Invalid arguments" [],
  .print 785 .err "AEAD decryption: %d" [(.int32, "status")]]

/-- `/repo/helpers/src/edhoc_helpers.c` -/
def helpers : List Stmt := [
  .print 84 .err "Invalid arguments" [],
  .print 90 .err "Buffer too small: %zu" [(.size, "prepended_fields->buffer_size")],
  .print 111 .err "Invalid arguments" [],
  .print 116 .err "Invalid argument" [],
  .print 122 .err "Buffer too small: %zu" [(.size, "prepended_fields->buffer_size")],
  .print 135 .err "Invalid bstr cid len: %zu" [(.size, "conn_id->bstr_length")],
  .print 154 .err "CBOR encoding: %d" [(.int, "ret")],
  .print 159 .err "CBOR encoding: %zu" [(.size, "cid_encoded_len")],
  .print 168 .err "Invalid connection ID encode type: %d" [(.enum, "conn_id->encode_type")],
  .print 180 .err "Invalid argument" [],
  .print 186 .err "Invalid arguments" [],
  .print 192 .err "Invalid arguments" [],
  .print 198 .err "Invalid argument" [],
  .print 210 .err "Invalid argument" [],
  .print 219 .err "Buffer too small: %zu, %zu" [(.size, "total_size"), (.size, "prepended_fields->buffer_size")],
  .print 232 .err "Invalid argument" [],
  .print 266 .err "Invalid argument" [],
  .print 281 .err "CBOR decoding: %d" [(.int, "ret")],
  .print 296 .err "Byte string connection ID length exceeds maximum: %zu" [(.size, "cid_r.connection_identifier_bstr.len")],
  .print 310 .err "Invalid connection identifier choice: %d" [(.enum, "cid_r.connection_identifier_choice")]]

/-- `/repo/helpers/src/edhoc_kdf_kmac256_xkcp.c` -/
def kdfKmac256Xkcp : List Stmt := [
  .print 44 .err "Invalid arguments" [],
  .print 63 .err "XKCP KMAC256 failed: %d" [(.int, "rc")]]

/-- `/repo/library/edhoc.c` -/
def edhoc : List Stmt := [
  .print 37 .err "Invalid argument" [],
  .print 51 .err "Invalid argument" [],
  .print 56 .err "Bad state" [],
  .print 70 .err "Invalid arguments" [],
  .print 75 .err "Bad state" [],
  .print 90 .err "Invalid arguments" [],
  .print 95 .err "Bad state" [],
  .print 100 .err "Bad state" [],
  .print 114 .err "Invalid arguments" [],
  .print 119 .err "Bad state" [],
  .print 127 .err "Bad state" [],
  .print 134 .err "Bad state" [],
  .print 139 .err "Bad state" [],
  .print 145 .err "Bad state" [],
  .print 157 .err "Invalid arguments" [],
  .print 162 .err "Bad state" [],
  .print 174 .err "Invalid arguments" [],
  .print 179 .err "Bad state" [],
  .print 184 .err "Bad state" [],
  .print 196 .err "Invalid arguments" [],
  .print 201 .err "Bad state" [],
  .print 206 .err "Bad state" [],
  .print 219 .err "Invalid arguments" [],
  .print 224 .err "Bad state" [],
  .print 233 .err "Bad state" [],
  .print 246 .err "Invalid arguments" [],
  .print 251 .err "Bad state" [],
  .print 256 .err "Bad state" [],
  .print 269 .err "Invalid arguments" [],
  .print 274 .err "Bad state" [],
  .print 291 .err "Invalid arguments" [],
  .print 296 .err "Bad state" [],
  .print 301 .err "Bad state" [],
  .print 306 .err "Cipher suites length too small" [],
  .print 316 .err "Peer cipher suites length too small" []]

/-- `/repo/library/edhoc_common.c` -/
def common : List Stmt := [
  .print 183 .err "Invalid arguments" [],
  .print 198 .err "Invalid CID enc type: %d" [(.enum, "cid->encode_type")],
  .print 208 .err "Invalid arguments" [],
  .print 233 .err "Invalid key_id enc type: %d" [(.enum, "cred->key_id.encode_type")],
  .print 267 .err "Invalid x509_hash enc type: %d" [(.enum, "cred->x509_hash.encode_type")],
  .print 277 .err "Unsupported cred label: %d" [(.enum, "cred->label")],
  .print 287 .err "Invalid arguments" [],
  .print 301 .err "Invalid arguments" [],
  .print 329 .err "Unsupported cred label: %d" [(.enum, "cred->label")],
  .print 339 .err "Invalid arguments" [],
  .print 373 .err "CBOR enc key_id integer: %d" [(.int, "ret")],
  .print 395 .err "CBOR decode key_id bstr: %d" [(.int, "ret")],
  .print 426 .err "CBOR enc key_id bstr: %d" [(.int, "ret")],
  .print 433 .err "Invalid key_id enc type: %d" [(.enum, "cred->key_id.encode_type")],
  .print 472 .err "Memory allocation failed" [],
  .print 482 .err "CBOR enc Sign1: %d" [(.int, "ret")],
  .print 493 .err "Compute signature: %d" [(.int, "ret")],
  .print 531 .err "Memory allocation failed" [],
  .print 541 .err "CBOR enc Sign1: %d" [(.int, "ret")],
  .print 551 .err "Import key: %d" [(.int, "ret")],
  .print 563 .err "Verify signature: %d" [(.int, "ret")],
  .print 640 .err "Invalid arguments" [],
  .print 645 .err "Invalid role: %d" [(.enum, "ctx->role")],
  .print 650 .err "Invalid message: %d" [(.enum, "ctx->message")],
  .print 671 .err "Invalid role: %d" [(.enum, "ctx->role")],
  .print 728 .err "Invalid arguments" [],
  .print 733 .err "Invalid role: %d" [(.enum, "ctx->role")],
  .print 738 .err "Invalid message: %d" [(.enum, "ctx->message")],
  .print 743 .err "Invalid TH state for msg2: %d" [(.enum, "ctx->th_state")],
  .print 748 .err "Invalid TH state for msg3: %d" [(.enum, "ctx->th_state")],
  .print 767 .err "Invalid role: %d" [(.enum, "ctx->role")],
  .print 805 .err "Invalid CID encode type: %d" [(.enum, "cid->encode_type")],
  .print 811 .err "CBOR enc C_R: %d" [(.int, "ret")],
  .print 855 .err "Invalid key_id encode type: %d" [(.enum, "cred->key_id.encode_type")],
  .print 864 .err "Invalid state: no certs" [],
  .print 882 .err "Buffer too small: %zu < %zu" [(.size, "ARRAY_SIZE(cose_x509->COSE_X509_certs_l_certs)"), (.size, "cred->x509_chain.nr_of_certs")],
  .print 933 .err "Invalid x509_hash enc type: %d" [(.enum, "cred->x509_hash.encode_type")],
  .print 940 .err "Unsupported cred label: %d" [(.enum, "cred->label")],
  .print 952 .err "CBOR enc ID_CRED: %d" [(.int, "ret")],
  .print 964 .err "Compact encoding ID_CRED: %d" [(.int, "ret")],
  .print 987 .err "Invalid enc type for ID_CRED: %d" [(.enum, "cred->any.encode_type")],
  .print 1015 .err "CBOR enc TH: %d" [(.int, "ret")],
  .print 1057 .err "Unsupported cred label for CRED: %d" [(.enum, "cred->label")],
  .print 1074 .err "CBOR enc CRED: %d" [(.int, "ret")],
  .print 1118 .err "CBOR enc EAD: %d" [(.int, "ret")],
  .print 1130 .err "Buffer too small: %zu > %zu" [(.size, "encoded_bytes"), (.size, "mac_ctx->buf_len")],
  .print 1142 .err "Invalid arguments" [],
  .print 1147 .err "Invalid role: %d" [(.enum, "ctx->role")],
  .print 1167 .err "Invalid method for msg2: %d" [(.enum, "ctx->chosen_method")],
  .print 1186 .err "Invalid method for msg3: %d" [(.enum, "ctx->chosen_method")],
  .print 1192 .err "Invalid message: %d" [(.enum, "ctx->message")],
  .print 1201 .err "Invalid arguments" [],
  .print 1206 .err "Invalid message: %d" [(.enum, "ctx->message")],
  .print 1212 .err "Invalid PRK state for msg2: %d" [(.enum, "ctx->prk_state")],
  .print 1218 .err "Invalid PRK state for msg3: %d" [(.enum, "ctx->prk_state")],
  .print 1244 .err "Memory allocation failed" [],
  .print 1253 .err "CBOR enc MAC info: %d" [(.int, "ret")],
  .dump 1260 .dbg "MAC_2 info" "info_buf" "len",
  .dump 1263 .dbg "MAC_3 info" "info_buf" "len",
  .print 1269 .err "Invalid message for MAC logging: %d" [(.enum, "ctx->message")],
  .print 1280 .err "Import key: %d" [(.int, "ret")],
  .print 1292 .err "Expand MAC: %d" [(.int, "ret")],
  .print 1303 .err "Invalid arguments" [],
  .print 1308 .err "Invalid role: %d" [(.enum, "ctx->role")],
  .print 1328 .err "Invalid method for msg2: %d" [(.enum, "ctx->chosen_method")],
  .print 1347 .err "Invalid method for msg3: %d" [(.enum, "ctx->chosen_method")],
  .print 1353 .err "Invalid message: %d" [(.enum, "ctx->message")],
  .print 1366 .err "Invalid arguments" [],
  .print 1385 .err "Invalid method for msg2: %d" [(.enum, "ctx->chosen_method")],
  .print 1406 .err "Invalid method for msg3: %d" [(.enum, "ctx->chosen_method")],
  .print 1412 .err "Invalid message: %d" [(.enum, "ctx->message")],
  .print 1425 .err "Invalid arguments" [],
  .print 1441 .err "Invalid Signature_or_MAC_2: MAC mismatch" [],
  .print 1449 .err "Invalid method for msg2: %d" [(.enum, "ctx->chosen_method")],
  .print 1467 .err "Invalid Signature_or_MAC_3: MAC mismatch" [],
  .print 1475 .err "Invalid method for msg3: %d" [(.enum, "ctx->chosen_method")],
  .print 1481 .err "Invalid message: %d" [(.enum, "ctx->message")]]

/-- `/repo/library/edhoc_exporter.c` -/
def exporter : List Stmt := [
  .print 85 .err "Invalid arguments" [],
  .print 91 .err "Bad state: %d, %d" [(.enum, "ctx->th_state"), (.enum, "ctx->prk_state")],
  .print 109 .err "Memory allocation failed" [],
  .print 126 .err "CBOR enc PRK_out info: %d" [(.int, "ret")],
  .print 136 .err "Import key: %d" [(.int, "ret")],
  .print 148 .err "Expand: %d" [(.int, "ret")],
  .dump 152 .dbg "PRK_out" "ctx->prk" "ctx->prk_len",
  .print 162 .err "Invalid arguments" [],
  .print 167 .err "Bad state: %d" [(.enum, "ctx->prk_state")],
  .print 184 .err "Memory allocation failed" [],
  .print 201 .err "CBOR enc new PRK_out info: %d" [(.int, "ret")],
  .print 211 .err "Import key: %d" [(.int, "ret")],
  .print 223 .err "Expand: %d" [(.int, "ret")],
  .print 235 .err "Invalid arguments" [],
  .print 240 .err "Bad state: %d" [(.enum, "ctx->prk_state")],
  .print 257 .err "Memory allocation failed" [],
  .print 274 .err "CBOR enc PRK_exporter info: %d" [(.int, "ret")],
  .print 284 .err "Import key: %d" [(.int, "ret")],
  .print 296 .err "Expand: %d" [(.int, "ret")],
  .dump 300 .dbg "PRK_exporter" "prk_exp" "prk_exp_len",
  .print 319 .err "Invalid arguments" [],
  .print 327 .err "Invalid label: %zu" [(.size, "label")],
  .print 333 .err "Bad state: %d, %d" [(.enum, "ctx->status"), (.enum, "ctx->prk_state")],
  .print 344 .err "Compute PRK_out: %d" [(.int, "ret")],
  .print 356 .err "Memory allocation failed" [],
  .print 364 .err "Compute PRK_exporter: %d" [(.int, "ret")],
  .print 377 .err "Memory allocation failed" [],
  .print 394 .err "CBOR enc exporter secret info: %d" [(.int, "ret")],
  .print 405 .err "Import key: %d" [(.int, "ret")],
  .print 420 .err "Expand: %d" [(.int, "ret")],
  .dump 424 .dbg "PRK exporter secret" "secret" "secret_len",
  .print 433 .err "Invalid arguments" [],
  .print 439 .err "Bad state: %d, %d" [(.enum, "ctx->status"), (.enum, "ctx->prk_state")],
  .print 452 .err "Compute PRK_out for key update: %d" [(.int, "ret")],
  .print 461 .err "Compute new PRK_out: %d" [(.int, "ret")],
  .dump 465 .dbg "new PRK_out" "ctx->prk" "ctx->prk_len",
  .print 488 .err "Invalid arguments" [],
  .print 493 .err "OSCORE export not allowed in current context state" [],
  .print 500 .err "Bad state: %d, %d" [(.enum, "ctx->status"), (.enum, "ctx->prk_state")],
  .print 515 .err "Derive OSCORE master secret: %d" [(.int, "ret")],
  .print 524 .err "Derive OSCORE master salt: %d" [(.int, "ret")],
  .print 537 .err "CBOR encode OSCORE SID: %d" [(.int, "ret")],
  .print 544 .err "Buffer too small for OSCORE SID: %zu, %zu" [(.size, "sid_size"), (.size, "ctx->peer_cid.bstr_length")],
  .print 555 .err "Invalid peer CID enc type: %d" [(.enum, "ctx->peer_cid.encode_type")],
  .dump 562 .dbg "OSCORE sender ID" "(const uint8_t *)&ctx->peer_cid.int_value" "sizeof(ctx->peer_cid.int_value)",
  .dump 567 .dbg "OSCORE sender ID" "ctx->peer_cid.bstr_value" "ctx->peer_cid.bstr_length",
  .print 572 .err "Invalid peer CID enc type: %d" [(.enum, "ctx->peer_cid.encode_type")],
  .print 586 .err "CBOR encode OSCORE RID: %d" [(.int, "ret")],
  .print 593 .err "Buffer too small for OSCORE RID: %zu, %zu" [(.size, "rid_size"), (.size, "ctx->cid.bstr_length")],
  .print 603 .err "Invalid OSCORE RID enc type: %d" [(.enum, "ctx->cid.encode_type")],
  .dump 610 .dbg "OSCORE recipient ID" "(const uint8_t *)&ctx->cid.int_value" "sizeof(ctx->cid.int_value)",
  .dump 615 .dbg "OSCORE recipient ID" "ctx->cid.bstr_value" "ctx->cid.bstr_length",
  .print 620 .err "Invalid OSCORE RID enc type: %d" [(.enum, "ctx->cid.encode_type")]]

/-- `/repo/library/edhoc_message_1.c` -/
def message1 : List Stmt := [
  .print 70 .inf "Compose msg1 start" [],
  .print 76 .err "Invalid arguments" [],
  .print 92 .err "No cipher suites configured" [],
  .print 109 .err "Import ephemeral DH key: %d" [(.int, "ret")],
  .print 115 .err "Memory allocation failed" [],
  .print 131 .err "Generate key pair: %d, %zu, %zu, %zu" [(.int, "ret"), (.size, "csuite.ecc_key_length"), (.size, "dh_priv_key_len"), (.size, "dh_pub_key_len")],
  .dump 140 .dbg "G_X" "dh_pub_key" "dh_pub_key_len",
  .dump 141 .dbg "X" "ctx->dh_priv_key" "ctx->dh_priv_key_len",
  .print 160 .err "Buffer too small for cipher suites: %zu, %zu" [(.size, "ctx->csuite_len"), (.size, "ARRAY_SIZE(cbor_enc_msg_1.message_1_SUITES_I.suites_int_l_int)")],
  .print 194 .err "Invalid cid enc type: %d" [(.enum, "ctx->cid.encode_type")],
  .print 208 .err "EAD compose: %d, %zu, %zu" [(.int, "ret"), (.size, "ctx->nr_of_ead_tokens"), (.size, "ARRAY_SIZE(ctx->ead_token) - 1")],
  .dump 216 .dbg "EAD_1 compose token label" "(const uint8_t *)&ctx->ead_token[i].label" "sizeof(ctx->ead_token[i].label)",
  .dump 222 .dbg "EAD_1 compose token value" "ctx->ead_token[i].value" "ctx->ead_token[i].value_len",
  .print 257 .err "CBOR enc msg1: %d" [(.int, "ret")],
  .dump 265 .dbg "message_1" "msg_1" "*msg_1_len",
  .print 274 .err "Hash: %d, %zu, %zu" [(.int, "ret"), (.size, "csuite.hash_length"), (.size, "hash_len")],
  .print 279 .inf "Compose msg1 end" [],
  .print 304 .inf "Process msg1 start" [],
  .print 307 .err "Invalid arguments" [],
  .print 314 .err "Bad state: %d, %d, %d" [(.enum, "ctx->status"), (.enum, "ctx->th_state"), (.enum, "ctx->prk_state")],
  .print 332 .err "CBOR dec msg1: %d, %zu, %zu" [(.int, "ret"), (.size, "msg_1_len"), (.size, "len")],
  .print 339 .err "No cipher suites configured" [],
  .print 359 .err "Method mismatch: %d" [(.int32, "cbor_dec_msg_1.message_1_METHOD")],
  .print 373 .err "Wrong cipher suite: %d, %d" [(.int32, "csuite.value"), (.int32, "cbor_dec_msg_1.message_1_SUITES_I.suites_int")],
  .print 387 .err "Empty peer cipher suite list" [],
  .print 395 .err "Buffer too small for peer cipher suites: %zu, %zu" [(.size, "cbor_dec_msg_1.message_1_SUITES_I.suites_int_l_int_count"), (.size, "ARRAY_SIZE(ctx->peer_csuite)")],
  .print 415 .err "Wrong cipher suite: %d, %d" [(.int32, "csuite.value"), (.int32, "cbor_dec_msg_1.message_1_SUITES_I.suites_int_l_int[cbor_dec_msg_1.message_1_SUITES_I.suites_int_l_int_count - 1]")],
  .print 430 .err "Invalid cipher suite: %d" [(.enum, "cbor_dec_msg_1.message_1_SUITES_I.suites_choice")],
  .print 437 .err "Invalid G_X length: %zu, %zu" [(.size, "csuite.ecc_key_length"), (.size, "cbor_dec_msg_1.message_1_G_X.len")],
  .print 454 .err "C_I integer out of range: %d" [(.int32, "cbor_dec_msg_1.message_1_C_I_int")],
  .print 468 .err "C_I byte string too large: %zu, %zu" [(.size, "cbor_dec_msg_1.message_1_C_I_bstr.len"), (.size, "ARRAY_SIZE(ctx->peer_cid.bstr_value)")],
  .print 484 .err "Invalid C_I choice: %d" [(.enum, "cbor_dec_msg_1.message_1_C_I_choice")],
  .dump 491 .dbg "C_I" "(const uint8_t *)&ctx->peer_cid.int_value" "sizeof(ctx->peer_cid.int_value)",
  .dump 495 .dbg "C_I" "ctx->peer_cid.bstr_value" "ctx->peer_cid.bstr_length",
  .print 500 .err "Invalid peer CID encoding type: %d" [(.enum, "ctx->peer_cid.encode_type")],
  .print 510 .err "EAD buffer too small: %zu, %zu" [(.size, "cbor_dec_msg_1.message_1_EAD_1_m.EAD_1_count"), (.size, "ARRAY_SIZE(ctx->ead_token) - 1")],
  .dump 535 .dbg "EAD_1 process token label" "(const uint8_t *)&ctx->ead_token[i].label" "sizeof(ctx->ead_token[i].label)",
  .dump 541 .dbg "EAD_1 process token value" "ctx->ead_token[i].value" "ctx->ead_token[i].value_len",
  .print 552 .err "EAD process: %d" [(.int, "ret")],
  .print 564 .err "Hash: %d, %zu, %zu" [(.int, "ret"), (.size, "csuite.hash_length"), (.size, "hash_len")],
  .print 569 .inf "Process msg1 end" []]

/-- `/repo/library/edhoc_message_2.c` -/
def message2 : List Stmt := [
  .print 277 .err "Invalid argument" [],
  .print 289 .err "Import key for DH key gen: %d" [(.int, "ret")],
  .print 311 .err "DH key pair generation: %d, %zu, %zu, %zu" [(.int, "ret"), (.size, "csuite.ecc_key_length"), (.size, "priv_key_len"), (.size, "pub_key_len")],
  .print 322 .err "Invalid argument" [],
  .print 333 .err "Import key for DH secret: %d" [(.int, "ret")],
  .print 351 .err "Key agreement: %d, %zu, %zu" [(.int, "ret"), (.size, "csuite.ecc_key_length"), (.size, "secret_len")],
  .print 362 .err "Invalid argument" [],
  .print 367 .err "Invalid TH state: %d, %d" [(.int, "EDHOC_TH_STATE_1"), (.enum, "ctx->th_state")],
  .print 388 .err "Memory allocation failed" [],
  .print 407 .err "Invalid role: %d" [(.enum, "ctx->role")],
  .print 417 .err "CBOR enc: %d, %zu, %zu" [(.int, "ret"), (.size, "g_y_len"), (.size, "len_out")],
  .print 433 .err "CBOR enc: %d, %zu, %zu" [(.int, "ret"), (.size, "hash_len"), (.size, "len_out")],
  .print 441 .err "Buffer too small for TH_2: %zu, %zu" [(.size, "EDHOC_MEM_ALLOC_SIZE(th_2)"), (.size, "offset")],
  .print 456 .err "TH_2 hash: %d, %zu, %zu" [(.int, "ret"), (.size, "csuite.hash_length"), (.size, "hash_length")],
  .print 468 .err "Invalid argument" [],
  .print 474 .err "Invalid state for PRK_2e: %d, %d" [(.enum, "ctx->th_state"), (.enum, "ctx->prk_state")],
  .print 488 .err "Import key for PRK_2e: %d" [(.int, "ret")],
  .print 499 .err "Extract PRK_2e: %d, %zu, %zu" [(.int, "ret"), (.size, "ctx->prk_len"), (.size, "out_len")],
  .print 513 .err "Invalid argument" [],
  .print 518 .err "Invalid PRK state for PRK_3e2m: %d" [(.enum, "ctx->prk_state")],
  .print 536 .err "Memory allocation failed" [],
  .print 544 .err "Compute SALT_3e2m: %d" [(.int, "ret")],
  .dump 549 .dbg "SALT_3e2m" "salt_3e2m" "EDHOC_MEM_ALLOC_SIZE(salt_3e2m)",
  .print 558 .err "Memory allocation failed" [],
  .print 567 .err "Compute G_RX: %d" [(.int, "ret")],
  .dump 573 .dbg "G_RX" "grx" "EDHOC_MEM_ALLOC_SIZE(grx)",
  .print 584 .err "Import key for PRK_3e2m: %d" [(.int, "ret")],
  .print 598 .err "Extract PRK_3e2m: %d, %zu, %zu" [(.int, "ret"), (.size, "ctx->prk_len"), (.size, "out_len")],
  .print 608 .err "Invalid method" [],
  .print 612 .err "Unsupported method: %d" [(.enum, "ctx->chosen_method")],
  .print 622 .err "Invalid arguments" [],
  .print 679 .err "CBOR enc C_I int" [],
  .print 696 .err "CBOR enc C_I bstr" [],
  .print 704 .err "Invalid C_I enc type: %d" [(.enum, "ctx->cid.encode_type")],
  .print 720 .err "Invalid ID_CRED_R enc type: %d" [(.enum, "mac_ctx->id_cred_enc_type")],
  .print 740 .err "CBOR enc Signature_or_MAC_2: %d" [(.int, "ret")],
  .print 752 .err "Buffer too small for plaintext_2: %zu, %zu" [(.size, "offset"), (.size, "ptxt_size")],
  .print 768 .err "Invalid arguments" [],
  .print 773 .err "Invalid TH state for keystream_2: %d" [(.enum, "ctx->th_state")],
  .print 794 .err "Memory allocation failed" [],
  .print 803 .err "CBOR enc info for keystream_2: %d, %zu, %zu" [(.int, "ret"), (.size, "EDHOC_MEM_ALLOC_SIZE(info)"), (.size, "len")],
  .print 814 .err "Import PRK_2e for keystream: %d" [(.int, "ret")],
  .print 827 .err "Expand keystream_2: %d, %zu" [(.int, "ret"), (.size, "keystream_len")],
  .print 848 .err "Invalid arguments" [],
  .print 861 .err "Memory allocation failed" [],
  .print 872 .err "Buffer overflow: %zu, %zu" [(.size, "EDHOC_MEM_ALLOC_SIZE(buffer)"), (.size, "offset")],
  .print 888 .err "CBOR enc msg_2: %d" [(.int, "ret")],
  .print 907 .err "CBOR dec msg_2: %d" [(.int, "ret")],
  .print 912 .err "Decoded length exceeds buffer: %zu, %zu" [(.size, "len"), (.size, "msg_2_len")],
  .print 935 .err "CBOR decode message_2: %d" [(.int, "ret")],
  .print 940 .err "Message 2 length mismatch: %zu, %zu" [(.size, "len"), (.size, "msg_2_len")],
  .print 963 .err "Invalid arguments" [],
  .print 974 .err "CBOR dec plaintext_2: %d" [(.int, "ret")],
  .print 985 .err "C_R int out of range: %d" [(.int8, "(int8_t)cbor_ptxt_2.plaintext_2_C_R_int")],
  .print 998 .err "C_R bstr too large: %zu" [(.size, "cbor_ptxt_2.plaintext_2_C_R_bstr.len")],
  .print 1012 .err "Invalid C_R choice: %d" [(.enum, "cbor_ptxt_2.plaintext_2_C_R_choice")],
  .print 1062 .err "X.509 certificate chain too large: %zu (max %zu)" [(.size, "cose_x509->COSE_X509_certs_l_certs_count"), (.size, "ARRAY_SIZE(parsed_ptxt->auth_cred.x509_chain.cert)")],
  .print 1096 .err "Invalid COSE_X509 choice: %d" [(.enum, "cose_x509->COSE_X509_choice")],
  .print 1125 .err "X.509 hash alg bstr too large: %zu" [(.size, "cose_x509->COSE_CertHash_hashAlg_tstr.len")],
  .print 1146 .err "Invalid COSE_CertHash_hashAlg choice: %d" [(.enum, "cose_x509->COSE_CertHash_hashAlg_choice")],
  .print 1189 .err "Invalid arguments" [],
  .print 1194 .err "Invalid TH state: %d" [(.enum, "ctx->th_state")],
  .print 1207 .err "Memory allocation failed" [],
  .print 1223 .err "CBOR enc TH_3: %d" [(.int, "ret")],
  .print 1235 .err "Buffer overflow: %zu, %zu" [(.size, "EDHOC_MEM_ALLOC_SIZE(th_3)"), (.size, "offset")],
  .print 1250 .err "Hash TH_3: %d" [(.int, "ret")],
  .print 1262 .err "Invalid arguments" [],
  .print 1268 .err "Bad state: %d, %d" [(.enum, "ctx->th_state"), (.enum, "ctx->prk_state")],
  .print 1290 .err "Memory allocation failed" [],
  .print 1299 .err "CBOR enc info for salt_3e2m: %d, %zu, %zu" [(.int, "ret"), (.size, "EDHOC_MEM_ALLOC_SIZE(info)"), (.size, "len")],
  .print 1310 .err "Import PRK_2e for salt_3e2m: %d" [(.int, "ret")],
  .print 1322 .err "Expand salt_3e2m: %d, %zu" [(.int, "ret"), (.size, "salt_len")],
  .print 1335 .err "Invalid arguments" [],
  .print 1352 .err "Import DH private key for GRX: %d" [(.int, "ret")],
  .print 1365 .err "Key agreement for GRX: %d, %zu, %zu" [(.int, "ret"), (.size, "grx_len"), (.size, "secret_len")],
  .print 1382 .err "Key agreement for GRX: %d, %zu, %zu" [(.int, "ret"), (.size, "grx_len"), (.size, "secret_len")],
  .print 1391 .err "Invalid role: %d" [(.enum, "ctx->role")],
  .print 1395 .err "Unreachable code" [],
  .print 1425 .inf "Compose msg2 start" [],
  .print 1429 .err "Invalid arguments" [],
  .print 1436 .err "Bad state: %d, %d, %d" [(.enum, "ctx->status"), (.enum, "ctx->th_state"), (.enum, "ctx->prk_state")],
  .print 1452 .err "Generate DH keys: %d" [(.int, "ret")],
  .dump 1456 .dbg "G_Y" "ctx->dh_pub_key" "ctx->dh_pub_key_len",
  .dump 1457 .dbg "Y" "ctx->dh_priv_key" "ctx->dh_priv_key_len",
  .print 1463 .err "Compute DH secret: %d" [(.int, "ret")],
  .dump 1467 .dbg "G_XY" "ctx->dh_secret" "ctx->dh_secret_len",
  .print 1473 .err "Compute TH_2: %d" [(.int, "ret")],
  .dump 1477 .dbg "TH_2" "ctx->th" "ctx->th_len",
  .print 1483 .err "Compute PRK_2e: %d" [(.int, "ret")],
  .dump 1487 .dbg "PRK_2e" "ctx->prk" "ctx->prk_len",
  .print 1492 .err "Memory allocation failed" [],
  .print 1502 .err "Fetch credentials: %d" [(.int, "ret")],
  .print 1516 .err "EAD_2 compose failure: %d, %zu, %zu" [(.int, "ret"), (.size, "ctx->nr_of_ead_tokens"), (.size, "ARRAY_SIZE(ctx->ead_token) - 1")],
  .dump 1524 .dbg "EAD_2 compose label" "(const uint8_t *)&ctx->ead_token[i].label" "sizeof(ctx->ead_token[i].label)",
  .dump 1530 .dbg "EAD_2 compose value" "ctx->ead_token[i].value" "ctx->ead_token[i].value_len",
  .print 1542 .err "Compute PRK_3e2m: %d" [(.int, "ret")],
  .dump 1547 .dbg "PRK_3e2m" "ctx->prk" "ctx->prk_len",
  .print 1562 .err "Memory allocation failed" [],
  .dump 1577 .dbg "C_R" "mac_ctx->conn_id" "mac_ctx->conn_id_len",
  .dump 1578 .dbg "ID_CRED_R" "mac_ctx->id_cred" "mac_ctx->id_cred_len",
  .dump 1580 .dbg "TH_2" "mac_ctx->th" "mac_ctx->th_len",
  .dump 1581 .dbg "CRED_R" "mac_ctx->cred" "mac_ctx->cred_len",
  .dump 1582 .dbg "context_2" "mac_ctx->buf" "mac_ctx->buf_len",
  .print 1595 .err "Memory allocation failed" [],
  .print 1621 .err "Memory allocation failed" [],
  .dump 1639 .dbg "Signature_or_MAC_2" "signature" "signature_length",
  .print 1648 .err "Compute plaintext_2 length: %d" [(.int, "ret")],
  .print 1657 .err "Memory allocation failed" [],
  .print 1671 .err "Prepare plaintext_2: %d" [(.int, "ret")],
  .dump 1678 .dbg "PLAINTEXT_2" "plaintext" "plaintext_len",
  .print 1683 .err "Memory allocation failed" [],
  .print 1696 .err "Compute keystream_2: %d" [(.int, "ret")],
  .dump 1703 .dbg "KEYSTREAM_2" "keystream" "EDHOC_MEM_ALLOC_SIZE(keystream)",
  .print 1711 .err "Compute TH_3: %d" [(.int, "ret")],
  .dump 1717 .dbg "TH_3" "ctx->th" "ctx->th_len",
  .dump 1725 .dbg "CIPHERTEXT_2" "ciphertext" "ciphertext_len",
  .print 1732 .err "Prepare message_2: %d" [(.int, "ret")],
  .dump 1739 .dbg "message_2" "msg_2" "*msg_2_len",
  .print 1740 .inf "Compose msg2 end" [],
  .print 1774 .inf "Process msg2 start" [],
  .print 1777 .err "Invalid arguments" [],
  .print 1784 .err "Bad state: %d, %d, %d" [(.enum, "ctx->status"), (.enum, "ctx->th_state"), (.enum, "ctx->prk_state")],
  .print 1801 .err "Compute ciphertext length: %d" [(.int, "ret")],
  .print 1807 .err "Memory allocation failed" [],
  .print 1816 .err "Parse msg2: %d" [(.int, "ret")],
  .dump 1821 .dbg "CIPHERTEXT_2" "ciphertext_2" "EDHOC_MEM_ALLOC_SIZE(ciphertext_2)",
  .print 1828 .err "Compute DH secret: %d" [(.int, "ret")],
  .dump 1833 .dbg "G_XY" "ctx->dh_secret" "ctx->dh_secret_len",
  .print 1839 .err "Compute TH_2: %d" [(.int, "ret")],
  .dump 1844 .dbg "TH_2" "ctx->th" "ctx->th_len",
  .print 1850 .err "Compute PRK_2e: %d" [(.int, "ret")],
  .dump 1855 .dbg "PRK_2e" "ctx->prk" "ctx->prk_len",
  .print 1860 .err "Memory allocation failed" [],
  .print 1869 .err "Compute keystream: %d" [(.int, "ret")],
  .dump 1875 .dbg "KEYSTREAM_2" "keystream" "EDHOC_MEM_ALLOC_SIZE(keystream)",
  .dump 1884 .dbg "PLAINTEXT_2" "plaintext" "plaintext_len",
  .print 1891 .err "Parse plaintext: %d" [(.int, "ret")],
  .dump 1898 .dbg "C_R" "(const uint8_t *)&ctx->peer_cid.int_value" "sizeof(ctx->peer_cid.int_value)",
  .dump 1902 .dbg "C_R" "ctx->peer_cid.bstr_value" "ctx->peer_cid.bstr_length",
  .print 1907 .err "Invalid peer CID type: %d" [(.enum, "ctx->peer_cid.encode_type")],
  .print 1920 .err "EAD_2 process: %d" [(.int, "ret")],
  .dump 1926 .dbg "EAD_2 process label" "(const uint8_t *)&ctx->ead_token[i].label" "sizeof(ctx->ead_token[i].label)",
  .dump 1932 .dbg "EAD_2 process value" "ctx->ead_token[i].value" "ctx->ead_token[i].value_len",
  .print 1948 .err "Credentials verification: %d" [(.int, "ret")],
  .print 1959 .err "Compute PRK_3e2m: %d" [(.int, "ret")],
  .dump 1964 .dbg "PRK_3e2m" "ctx->prk" "ctx->prk_len",
  .print 1972 .err "Compute MAC context length: %d" [(.int, "ret")],
  .print 1981 .err "Memory allocation failed" [],
  .dump 1996 .dbg "C_R" "mac_ctx->conn_id" "mac_ctx->conn_id_len",
  .dump 1997 .dbg "ID_CRED_R" "mac_ctx->id_cred" "mac_ctx->id_cred_len",
  .dump 1999 .dbg "TH_2" "mac_ctx->th" "mac_ctx->th_len",
  .dump 2000 .dbg "CRED_R" "mac_ctx->cred" "mac_ctx->cred_len",
  .dump 2001 .dbg "context_2" "mac_ctx->buf" "mac_ctx->buf_len",
  .print 2014 .err "Memory allocation failed" [],
  .print 2035 .err "Signature or MAC_2 verification: %d" [(.int, "ret")],
  .print 2047 .err "Compute TH_3: %d" [(.int, "ret")],
  .dump 2051 .dbg "TH_3" "ctx->th" "ctx->th_len",
  .print 2052 .inf "Process msg2 end" []]

/-- `/repo/library/edhoc_message_3.c` -/
def message3 : List Stmt := [
  .print 275 .err "Invalid arguments" [],
  .print 280 .err "Bad PRK state: %d" [(.enum, "ctx->prk_state")],
  .print 297 .err "Memory allocation failed" [],
  .print 305 .err "Compute SALT_4e3m: %d" [(.int, "ret")],
  .dump 310 .dbg "SALT_4e3m" "salt_4e3m" "EDHOC_MEM_ALLOC_SIZE(salt_4e3m)",
  .print 319 .err "Memory allocation failed" [],
  .print 328 .err "Compute G_IY: %d" [(.int, "ret")],
  .dump 334 .dbg "G_IY" "giy" "EDHOC_MEM_ALLOC_SIZE(giy)",
  .print 345 .err "Import key for PRK_4e3m: %d" [(.int, "ret")],
  .print 359 .err "Extract PRK_4e3m: %d, %zu, %zu" [(.int, "ret"), (.size, "ctx->prk_len"), (.size, "out_len")],
  .print 368 .err "Invalid method" [],
  .print 372 .err "Unsupported method: %d" [(.enum, "ctx->chosen_method")],
  .print 382 .err "Invalid arguments" [],
  .print 427 .err "Invalid arguments" [],
  .print 448 .err "Invalid ID_CRED_I enc type: %d" [(.enum, "mac_ctx->id_cred_enc_type")],
  .print 467 .err "CBOR enc Signature_or_MAC_3: %d" [(.int, "ret")],
  .print 480 .err "Buffer too small for plaintext_3: %zu, %zu" [(.size, "offset"), (.size, "ptxt_size")],
  .print 493 .err "Invalid arguments" [],
  .print 513 .err "Invalid arguments" [],
  .print 518 .err "Invalid TH state: %d, %d" [(.enum, "ctx->th_state"), (.int, "EDHOC_TH_STATE_3")],
  .print 539 .err "Memory allocation failed" [],
  .print 556 .err "CBOR encode info for K_3: %d" [(.int, "ret")],
  .print 565 .err "Import key for K_3: %d" [(.int, "ret")],
  .print 576 .err "Expand K_3: %d" [(.int, "ret")],
  .print 595 .err "CBOR enc info for IV_3: %d" [(.int, "ret")],
  .print 604 .err "Import key for IV_3: %d" [(.int, "ret")],
  .print 615 .err "Expand IV_3: %d" [(.int, "ret")],
  .print 631 .err "CBOR enc AAD_3: %d" [(.int, "ret")],
  .print 648 .err "Invalid arguments" [],
  .print 659 .err "Import key for ciphertext_3: %d" [(.int, "ret")],
  .print 670 .err "Encrypt ciphertext_3: %d" [(.int, "ret")],
  .print 682 .err "Invalid arguments" [],
  .print 687 .err "Invalid TH state: %d" [(.enum, "ctx->th_state")],
  .print 703 .err "Memory allocation failed" [],
  .print 718 .err "CBOR enc TH_4: %d" [(.int, "ret")],
  .print 734 .err "Buffer overflow: %zu, %zu" [(.size, "EDHOC_MEM_ALLOC_SIZE(th_4)"), (.size, "offset")],
  .print 749 .err "Hash TH_4: %d, %zu, %zu" [(.int, "ret"), (.size, "ctx->th_len"), (.size, "hash_length")],
  .print 763 .err "Invalid arguments" [],
  .print 778 .err "CBOR enc msg3: %d" [(.int, "ret")],
  .print 790 .err "Invalid arguments" [],
  .print 802 .err "CBOR dec msg3: %d" [(.int, "ret")],
  .print 822 .err "Invalid arguments" [],
  .print 833 .err "Import key for decryption: %d" [(.int, "ret")],
  .print 845 .err "Decrypt ciphertext_3: %d, %zu, %zu" [(.int, "ret"), (.size, "ptxt_len"), (.size, "len")],
  .print 858 .err "Invalid arguments" [],
  .print 869 .err "CBOR dec plaintext_3: %d" [(.int, "ret")],
  .print 923 .err "X.509 certificate chain too large: %zu" [(.size, "cose_x509->COSE_X509_certs_l_certs_count")],
  .print 978 .err "X.509 hash algorithm string too large: %zu" [(.size, "cose_x509->COSE_CertHash_hashAlg_tstr.len")],
  .print 999 .err "Invalid COSE_CertHash_hashAlg choice: %d" [(.enum, "cose_x509->COSE_CertHash_hashAlg_choice")],
  .print 1041 .err "Invalid arguments" [],
  .print 1047 .err "Bad state: %d, %d" [(.enum, "ctx->th_state"), (.enum, "ctx->prk_state")],
  .print 1069 .err "Memory allocation failed" [],
  .print 1078 .err "CBOR enc info for salt_4e3m: %d, %zu, %zu" [(.int, "ret"), (.size, "EDHOC_MEM_ALLOC_SIZE(info)"), (.size, "len")],
  .print 1089 .err "Import key for salt_4e3m: %d" [(.int, "ret")],
  .print 1101 .err "Expand salt_4e3m: %d" [(.int, "ret")],
  .print 1114 .err "Invalid arguments" [],
  .print 1130 .err "Compute G_IY: %d, %zu, %zu" [(.int, "ret"), (.size, "giy_len"), (.size, "secret_len")],
  .print 1148 .err "Import private key for G_IY: %d" [(.int, "ret")],
  .print 1161 .err "Compute G_IY: %d, %zu, %zu" [(.int, "ret"), (.size, "giy_len"), (.size, "secret_len")],
  .print 1170 .err "Invalid role: %d" [(.enum, "ctx->role")],
  .print 1174 .err "Unreachable code" [],
  .print 1200 .inf "Compose msg3 start" [],
  .print 1204 .err "Invalid arguments" [],
  .print 1211 .err "Bad state: %d, %d, %d" [(.enum, "ctx->status"), (.enum, "ctx->th_state"), (.enum, "ctx->prk_state")],
  .print 1236 .err "Compose EAD_3: %d, %zu, %zu" [(.int, "ret"), (.size, "ARRAY_SIZE(ctx->ead_token) - 1"), (.size, "ctx->nr_of_ead_tokens")],
  .dump 1243 .dbg "EAD_3 token label:" "(const uint8_t *)&ctx->ead_token[i].label" "sizeof(ctx->ead_token[i].label)",
  .dump 1249 .dbg "EAD_3 token value:" "ctx->ead_token[i].value" "ctx->ead_token[i].value_len",
  .print 1262 .err "Fetch credentials: %d" [(.int, "ret")],
  .print 1269 .err "Memory allocation failed" [],
  .print 1275 .err "Memory allocation failed" [],
  .print 1284 .err "Compute AAD_3 length: %d" [(.int, "ret")],
  .print 1292 .err "Memory allocation failed" [],
  .print 1303 .err "Compute K_3: %d" [(.int, "ret")],
  .dump 1310 .dbg "K_3" "key" "EDHOC_MEM_ALLOC_SIZE(key)",
  .dump 1311 .dbg "IV_3" "iv" "EDHOC_MEM_ALLOC_SIZE(iv)",
  .dump 1312 .dbg "AAD_3" "aad" "EDHOC_MEM_ALLOC_SIZE(aad)",
  .print 1318 .err "Compute PRK_4e3m: %d" [(.int, "ret")],
  .dump 1325 .dbg "PRK_4e3m" "ctx->prk" "ctx->prk_len",
  .print 1332 .err "Compute MAC context length: %d" [(.int, "ret")],
  .print 1343 .err "Memory allocation failed" [],
  .print 1355 .err "Compute MAC context: %d" [(.int, "ret")],
  .dump 1363 .dbg "ID_CRED_I" "mac_context->id_cred" "mac_context->id_cred_len",
  .dump 1365 .dbg "TH_3" "mac_context->th" "mac_context->th_len",
  .dump 1366 .dbg "CRED_I" "mac_context->cred" "mac_context->cred_len",
  .dump 1368 .dbg "context_3" "mac_context->buf" "mac_context->buf_len",
  .print 1375 .err "Compute MAC_3 length: %d" [(.int, "ret")],
  .print 1385 .err "Memory allocation failed" [],
  .print 1394 .err "Compute MAC_3: %d" [(.int, "ret")],
  .print 1407 .err "Compute Signature_or_MAC_3 length: %d" [(.int, "ret")],
  .print 1419 .err "Memory allocation failed" [],
  .print 1433 .err "Compute Signature_or_MAC_3: %d" [(.int, "ret")],
  .dump 1442 .dbg "Signature_or_MAC_3" "signature" "signature_length",
  .print 1451 .err "Compute PLAINTEXT_3 length: %d" [(.int, "ret")],
  .print 1462 .err "Memory allocation failed" [],
  .print 1478 .err "Prepare PLAINTEXT_3: %d" [(.int, "ret")],
  .dump 1487 .dbg "PLAINTEXT_3" "plaintext" "plaintext_len",
  .print 1494 .err "Memory allocation failed" [],
  .print 1514 .err "Compute CIPHERTEXT_3: %d" [(.int, "ret")],
  .dump 1521 .dbg "CIPHERTEXT_3" "ciphertext" "ciphertext_len",
  .print 1529 .err "Compute TH_4: %d" [(.int, "ret")],
  .dump 1534 .dbg "TH_4" "ctx->th" "ctx->th_len",
  .print 1542 .err "Generate message_3: %d" [(.int, "ret")],
  .dump 1546 .dbg "message_3" "msg_3" "*msg_3_len",
  .print 1547 .inf "Compose msg3 end" [],
  .print 1579 .inf "Process msg3 start" [],
  .print 1582 .err "Invalid arguments" [],
  .print 1589 .err "Bad state: %d, %d, %d" [(.enum, "ctx->status"), (.enum, "ctx->th_state"), (.enum, "ctx->prk_state")],
  .print 1612 .err "Parse msg3: %d" [(.int, "ret")],
  .print 1619 .err "Memory allocation failed" [],
  .print 1625 .err "Memory allocation failed" [],
  .print 1634 .err "Compute AAD_3 length: %d" [(.int, "ret")],
  .print 1642 .err "Memory allocation failed" [],
  .print 1653 .err "Compute K_3: %d" [(.int, "ret")],
  .dump 1660 .dbg "K_3" "key" "EDHOC_MEM_ALLOC_SIZE(key)",
  .dump 1661 .dbg "IV_3" "iv" "EDHOC_MEM_ALLOC_SIZE(iv)",
  .dump 1662 .dbg "AAD_3" "aad" "EDHOC_MEM_ALLOC_SIZE(aad)",
  .print 1667 .err "Memory allocation failed" [],
  .print 1683 .err "Decrypt CIPHERTEXT_3: %d" [(.int, "ret")],
  .dump 1688 .dbg "PLAINTEXT_3" "ptxt" "EDHOC_MEM_ALLOC_SIZE(ptxt)",
  .print 1696 .err "Parse PLAINTEXT_3: %d" [(.int, "ret")],
  .print 1708 .err "Process EAD_3: %d" [(.int, "ret")],
  .dump 1714 .dbg "EAD_3 process label" "(const uint8_t *)&ctx->ead_token[i].label" "sizeof(ctx->ead_token[i].label)",
  .dump 1720 .dbg "EAD_3 process value" "ctx->ead_token[i].value" "ctx->ead_token[i].value_len",
  .print 1735 .err "Verify peer credentials: %d" [(.int, "ret")],
  .print 1746 .err "Compute PRK_4e3m: %d" [(.int, "ret")],
  .print 1757 .err "Compute MAC context length: %d" [(.int, "ret")],
  .print 1766 .err "Memory allocation failed" [],
  .print 1776 .err "Compute MAC context: %d" [(.int, "ret")],
  .dump 1782 .dbg "C_I" "mac_context->conn_id" "mac_context->conn_id_len",
  .dump 1784 .dbg "ID_CRED_I" "mac_context->id_cred" "mac_context->id_cred_len",
  .dump 1786 .dbg "TH_3" "mac_context->th" "mac_context->th_len",
  .dump 1787 .dbg "CRED_I" "mac_context->cred" "mac_context->cred_len",
  .dump 1789 .dbg "context_3" "mac_context->buf" "mac_context->buf_len",
  .print 1796 .err "Compute MAC_3 length: %d" [(.int, "ret")],
  .print 1804 .err "Memory allocation failed" [],
  .print 1811 .err "Compute MAC_3: %d" [(.int, "ret")],
  .print 1826 .err "Verify Signature_or_MAC_3: %d" [(.int, "ret")],
  .print 1838 .err "Compute TH_4: %d" [(.int, "ret")],
  .print 1842 .inf "Process msg3 end" []]

/-- `/repo/library/edhoc_message_4.c` -/
def message4 : List Stmt := [
  .print 202 .err "Invalid arguments" [],
  .print 222 .err "Invalid arguments" [],
  .print 231 .err "EAD_4 buffer too small: %zu" [(.size, "ctx->nr_of_ead_tokens")],
  .print 257 .err "CBOR enc PLAINTEXT_4: %d" [(.int, "ret")],
  .print 281 .err "Invalid arguments" [],
  .print 287 .err "Bad state: %d, %d" [(.enum, "ctx->th_state"), (.enum, "ctx->prk_state")],
  .print 308 .err "Memory allocation failed" [],
  .print 325 .err "CBOR enc info for K_4: %d" [(.int, "ret")],
  .print 334 .err "Import key for K_4: %d" [(.int, "ret")],
  .print 345 .err "Expand K_4: %d" [(.int, "ret")],
  .print 364 .err "CBOR enc info for IV_4: %d" [(.int, "ret")],
  .print 373 .err "Import key for IV_4: %d" [(.int, "ret")],
  .print 384 .err "Expand IV_4: %d" [(.int, "ret")],
  .print 400 .err "CBOR enc AAD_4: %d" [(.int, "ret")],
  .print 421 .err "Import key for encryption: %d" [(.int, "ret")],
  .print 432 .err "Encrypt CIPHERTEXT_4: %d" [(.int, "ret")],
  .print 444 .err "Invalid arguments" [],
  .print 459 .err "CBOR enc msg4: %d" [(.int, "ret")],
  .print 471 .err "Invalid arguments" [],
  .print 483 .err "CBOR dec msg4: %d" [(.int, "ret")],
  .print 507 .err "Import key for decryption: %d" [(.int, "ret")],
  .print 519 .err "Decrypt CIPHERTEXT_4: %d, %zu, %zu" [(.int, "ret"), (.size, "ptxt_len"), (.size, "len")],
  .print 531 .err "Invalid arguments" [],
  .print 542 .err "CBOR dec PLAINTEXT_4: %d" [(.int, "ret")],
  .print 574 .inf "Compose msg4 start" [],
  .print 578 .err "Invalid arguments" [],
  .print 585 .err "Bad state: %d, %d, %d" [(.enum, "ctx->status"), (.enum, "ctx->th_state"), (.enum, "ctx->prk_state")],
  .print 610 .err "Compose EAD_4: %d, %zu, %zu" [(.int, "ret"), (.size, "ARRAY_SIZE(ctx->ead_token) - 1"), (.size, "ctx->nr_of_ead_tokens")],
  .dump 617 .dbg "EAD_4 compose label" "(const uint8_t *)&ctx->ead_token[i].label" "sizeof(ctx->ead_token[i].label)",
  .dump 622 .dbg "EAD_4 compose value" "ctx->ead_token[i].value" "ctx->ead_token[i].value_len",
  .print 635 .err "Compute PLAINTEXT_4 length: %d" [(.int, "ret")],
  .print 642 .err "Memory allocation failed" [],
  .print 652 .err "Prepare PLAINTEXT_4: %d" [(.int, "ret")],
  .dump 657 .dbg "PLAINTEXT_4" "plaintext" "plaintext_len",
  .print 662 .err "Memory allocation failed" [],
  .print 669 .err "Memory allocation failed" [],
  .print 678 .err "Memory allocation failed" [],
  .print 690 .err "Compute K_4/IV_4/AAD_4: %d" [(.int, "ret")],
  .dump 698 .dbg "K_4" "key" "EDHOC_MEM_ALLOC_SIZE(key)",
  .dump 699 .dbg "IV_4" "iv" "EDHOC_MEM_ALLOC_SIZE(iv)",
  .dump 700 .dbg "AAD_4" "aad" "EDHOC_MEM_ALLOC_SIZE(aad)",
  .print 708 .err "Memory allocation failed" [],
  .print 724 .err "Compute CIPHERTEXT_4: %d" [(.int, "ret")],
  .dump 738 .dbg "CIPHERTEXT_4" "ciphertext" "ciphertext_len",
  .print 745 .err "Generate message_4: %d" [(.int, "ret")],
  .dump 752 .dbg "message_4" "msg_4" "*msg_4_len",
  .print 753 .inf "Compose msg4 end" [],
  .print 775 .inf "Process msg4 start" [],
  .print 778 .err "Invalid arguments" [],
  .print 785 .err "Bad state: %d, %d, %d" [(.enum, "ctx->status"), (.enum, "ctx->th_state"), (.enum, "ctx->prk_state")],
  .print 808 .err "Parse message_4: %d" [(.int, "ret")],
  .dump 812 .dbg "CIPHERTEXT_4" "ctxt" "ctxt_len",
  .print 817 .err "Memory allocation failed" [],
  .print 823 .err "Memory allocation failed" [],
  .print 831 .err "Memory allocation failed" [],
  .print 842 .err "Compute K_4/IV_4/AAD_4: %d" [(.int, "ret")],
  .dump 849 .dbg "K_4" "key" "EDHOC_MEM_ALLOC_SIZE(key)",
  .dump 850 .dbg "IV_4" "iv" "EDHOC_MEM_ALLOC_SIZE(iv)",
  .dump 851 .dbg "AAD_4" "aad" "EDHOC_MEM_ALLOC_SIZE(aad)",
  .print 856 .err "Memory allocation failed" [],
  .print 869 .err "Decrypt CIPHERTEXT_4: %d" [(.int, "ret")],
  .dump 881 .dbg "PLAINTEXT_4" "ptxt" "EDHOC_MEM_ALLOC_SIZE(ptxt)",
  .print 887 .err "Parse PLAINTEXT_4: %d" [(.int, "ret")],
  .print 904 .err "Process EAD_4: %d" [(.int, "ret")],
  .dump 910 .dbg "EAD_4 process label" "(const uint8_t *)&ctx->ead_token[i].label" "sizeof(ctx->ead_token[i].label)",
  .dump 916 .dbg "EAD_4 process value" "ctx->ead_token[i].value" "ctx->ead_token[i].value_len",
  .print 926 .inf "Process msg4 end" []]

/-- `/repo/library/edhoc_message_error.c` -/
def messageError : List Stmt := [
  .print 57 .err "Invalid arguments" [],
  .print 63 .err "Unknown error code: %d" [(.enum, "code")],
  .print 80 .err "Invalid arguments for unspecified error: info missing or empty" [],
  .print 86 .err "Invalid arguments" [],
  .print 107 .err "Invalid arguments for wrong cipher suite: info missing or empty" [],
  .print 113 .err "Invalid arguments" [],
  .print 127 .err "Buffer too small: %zu" [(.size, "info->written_entries")],
  .print 150 .err "Unknown error code: %d" [(.enum, "code")],
  .print 158 .err "CBOR enc error msg: %d" [(.int, "ret")],
  .print 170 .err "Invalid arguments" [],
  .print 181 .err "CBOR dec error msg: %d" [(.int, "ret")],
  .print 204 .err "Buffer too small: %zu, %zu" [(.size, "tstr->len"), (.size, "info->total_entries")],
  .print 239 .err "Buffer too small: %zu, %zu" [(.size, "suites->suites_int_l_int_count"), (.size, "info->total_entries")],
  .print 256 .err "Invalid suites choice: %d" [(.enum, "suites->suites_choice")],
  .print 272 .err "Unknown error code in message: %d" [(.int32, "result.message_error_ERR_CODE")]]

/-- all log statements, with the file they are in -/
def statements : List (String × List Stmt) := [
  ("helpers/src/edhoc_cipher_suite_0.c", cipherSuite0),
  ("helpers/src/edhoc_cipher_suite_2.c", cipherSuite2),
  ("helpers/src/edhoc_cipher_suite_24.c", cipherSuite24),
  ("helpers/src/edhoc_cipher_suite_4.c", cipherSuite4),
  ("helpers/src/edhoc_exp_pqc_cipher_suite_1.c", expPqcCipherSuite1),
  ("helpers/src/edhoc_helpers.c", helpers),
  ("helpers/src/edhoc_kdf_kmac256_xkcp.c", kdfKmac256Xkcp),
  ("library/edhoc.c", edhoc),
  ("library/edhoc_common.c", common),
  ("library/edhoc_exporter.c", exporter),
  ("library/edhoc_message_1.c", message1),
  ("library/edhoc_message_2.c", message2),
  ("library/edhoc_message_3.c", message3),
  ("library/edhoc_message_4.c", message4),
  ("library/edhoc_message_error.c", messageError)]

end Verif.Logging
