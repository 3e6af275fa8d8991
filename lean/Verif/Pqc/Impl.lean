import Verif.Suite.Psa

/-!
# The experimental post-quantum cipher suite

`/repo/helpers/src/edhoc_exp_pqc_cipher_suite_1.c` and `/repo/helpers/src/edhoc_kdf_kmac256_xkcp.c`. The suite is not reached from
the handshake functions; an application calls it through its table. It keeps private keys of new KEM key pairs in a static array
of two slots and all other keys in PSA.

Checks for NULL pointers are left out. Sizes of output buffers are arguments, a call returns the bytes it writes. The buffer
for a key on the stack is not modelled beyond its size.
-/

namespace Verif.Pqc

open Psa (Store Algs Attr)

/-- liboqs and XKCP, as functions. -/
structure PqAlgs where
  /-- `OQS_KEM_ml_kem_512_keypair`: randomness to encapsulation key and decapsulation key -/
  kemPair : Bytes → Bytes × Bytes
  /-- `OQS_KEM_ml_kem_512_encaps`: encapsulation key and randomness to ciphertext and shared secret -/
  kemEncaps : Bytes → Bytes → Bytes × Bytes
  /-- `OQS_KEM_ml_kem_512_decaps`: decapsulation key and ciphertext to shared secret -/
  kemDecaps : Bytes → Bytes → Bytes
  /-- `OQS_SIG_ml_dsa_44_sign`: private key, message, randomness -/
  dsaSign : Bytes → Bytes → Bytes → Bytes
  /-- `OQS_SIG_ml_dsa_44_verify`: public key, message, signature -/
  dsaVerify : Bytes → Bytes → Bytes → Bool
  /-- `OQS_SHA3_shake256`: input, length of the output -/
  shake256 : Bytes → Nat → Bytes
  /-- `KMAC256` of XKCP: key, input, length of the output, customisation string; all lengths are in bits -/
  kmac256 : Bytes × Nat → Bytes × Nat → Nat → Bytes × Nat → Bytes

/-! ## Constants. `/repo/helpers/include/edhoc_exp_pqc_cipher_suite_1.h:56-72` -/

/-- `EDHOC_EXP_PQC_CS1_MLKEM512_EK_LEN` -/
def ekLen : Nat := 800
/-- `EDHOC_EXP_PQC_CS1_MLKEM512_DK_LEN` -/
def dkLen : Nat := 1632
/-- `EDHOC_EXP_PQC_CS1_MLKEM512_CT_LEN` -/
def ctLen : Nat := 768
/-- `EDHOC_EXP_PQC_CS1_MLKEM512_SS_LEN` -/
def ssLen : Nat := 32
/-- `EDHOC_EXP_PQC_CS1_MLDSA44_PK_LEN` -/
def pkLen : Nat := 1312
/-- `EDHOC_EXP_PQC_CS1_MLDSA44_SK_LEN` -/
def skLen : Nat := 2560
/-- `EDHOC_EXP_PQC_CS1_MLDSA44_SIG_LEN` -/
def sigLen : Nat := 2420
/-- `EDHOC_EXP_PQC_CS1_HASH_LEN` -/
def hashLen : Nat := 64
/-- `EDHOC_EXP_PQC_CS1_KDF_IKM_BUF_LEN`. `/repo/helpers/src/edhoc_exp_pqc_cipher_suite_1.c:61` -/
def ikmLen : Nat := 256
/-- `EDHOC_EXP_PQC_CS1_AEAD_KEY_LEN`, `..._TAG_LEN`, `..._IV_LEN`, `..._MAC_LEN`.
`/repo/helpers/src/edhoc_exp_pqc_cipher_suite_1.c:47-51` -/
def aeadKeyLen : Nat := 16
@[inherit_doc aeadKeyLen] def aeadTagLen : Nat := 16
@[inherit_doc aeadKeyLen] def aeadIvLen : Nat := 13
@[inherit_doc aeadKeyLen] def macLen : Nat := 16
/-- `EDHOC_EXP_PQC_CS1_CCM_ALG`. `/repo/helpers/src/edhoc_exp_pqc_cipher_suite_1.c:53-55` -/
def ccm : Psa.Alg := .aead .ccm aeadTagLen
/-- `EDHOC_EXP_PQC_CS1_MAX_SLOTS`. `/repo/helpers/src/edhoc_exp_pqc_cipher_suite_1.c:63` -/
def maxSlots : Nat := 2
/-- `PSA_KEY_ID_USER_MAX` -/
def userMax : Nat := 0x3FFFFFFF
/-- `EDHOC_EXP_PQC_CS1_SLOT_HANDLE_BASE`. `/repo/helpers/src/edhoc_exp_pqc_cipher_suite_1.c:64-66` -/
def base : Nat := userMax - (maxSlots - 1)

/-- `struct edhoc_cipher_suite_pqc`. `/repo/helpers/include/edhoc_exp_pqc_cipher_suite_1.h:315-344` -/
structure SuitePqc where
  value : Int
  aeadKey : Nat
  aeadTag : Nat
  aeadIv : Nat
  hash : Nat
  mac : Nat
  kemPublic : Nat
  kemPrivate : Nat
  kemCiphertext : Nat
  kemSecret : Nat
  signature : Nat
  deriving DecidableEq, Repr

/-- `edhoc_exp_pqc_cipher_suite_1_suite`. `/repo/helpers/src/edhoc_exp_pqc_cipher_suite_1.c:810-822` -/
def table : SuitePqc := ⟨-1, aeadKeyLen, aeadTagLen, aeadIvLen, hashLen, macLen, ekLen, dkLen, ctLen, ssLen, sigLen⟩

/-! ## State -/

/-- `struct exp_pqc_cs1_key_slot`. `/repo/helpers/src/edhoc_exp_pqc_cipher_suite_1.c:70-75` -/
structure Slot where
  inUse : Bool
  type : KeyType
  material : Bytes
  len : Nat
  deriving DecidableEq, Repr

/-- all bytes zero; `EDHOC_KT_MAKE_KEY_PAIR` is 0 -/
def Slot.zero : Slot := ⟨false, .makeKeyPair, List.replicate skLen 0, 0⟩

/-- PSA and the array `s_exp_pqc_cs1_slots`. `/repo/helpers/src/edhoc_exp_pqc_cipher_suite_1.c:79-80` -/
structure State where
  psa : Store
  slots : List Slot

/-- static memory is zero at the start -/
def State.start (p : Store) : State := ⟨p, List.replicate maxSlots .zero⟩

/-- Programs over this state. -/
def M (α : Type) : Type := State → Res α × State

namespace M

variable {α β : Type}

/-- return -/
def ret (a : α) : M α := fun s => (.ok a, s)

/-- sequencing -/
def bind (m : M α) (f : α → M β) : M β := fun s =>
  match m s with
  | (.ok a, s') => f a s'
  | (.err e, s') => (.err e, s')
  | (.ub u, s') => (.ub u, s')

instance : Monad M where
  pure := M.ret
  bind := M.bind

/-- `if (!b) return e;` -/
def require (b : Bool) (e : Err) : M Unit := fun s => (if b then .ok () else .err e, s)

/-- proceed only when an operation is defined -/
def guardUB (b : Bool) (u : UB) : M Unit := fun s => (if b then .ok () else .ub u, s)

/-- a call to PSA -/
def lift (m : Psa.P α) : M α := fun s => ((m s.psa).1, { s with psa := (m s.psa).2 })

/-- a call to liboqs or XKCP: it may fail for a reason outside the model, and may use random bytes -/
def oqs (f : Bytes → Option α) : M α := lift (Psa.P.query fun s => f (s.rand s.clock))

end M

open M

variable (A : Algs) (B : PqAlgs)

/-! ## Slots -/

/-- `exp_pqc_cs1_is_slot_handle`. `/repo/helpers/src/edhoc_exp_pqc_cipher_suite_1.c:186-191` -/
def isSlotHandle (h : Nat) : Bool := base ≤ h && h < base + maxSlots

/-- `exp_pqc_cs1_slot_from_handle`: the index of the slot. `/repo/helpers/src/edhoc_exp_pqc_cipher_suite_1.c:193-207` -/
def slotFromHandle (s : State) (h : Nat) : Option Nat :=
  if isSlotHandle h then
    match s.slots[h - base]? with
    | some x => if maxSlots ≤ h - base || !x.inUse then none else some (h - base)
    | none => none
  else none

/-- the loop of `exp_pqc_cs1_slot_alloc`: the first slot not in use.
`/repo/helpers/src/edhoc_exp_pqc_cipher_suite_1.c:219-230` -/
def firstFree : List Slot → Nat → Option Nat
  | [], _ => none
  | x :: xs, i => if x.inUse then firstFree xs (i + 1) else some i

/-- `exp_pqc_cs1_slot_alloc`. `/repo/helpers/src/edhoc_exp_pqc_cipher_suite_1.c:209-234` -/
def slotAlloc (t : KeyType) : M Nat := fun s =>
  match firstFree s.slots 0 with
  | some i => (.ok (base + i), { s with slots := s.slots.set i ⟨true, t, List.replicate skLen 0, 0⟩ })
  | none => (.err .crypto, s)

/-- `exp_pqc_cs1_slot_free`. `/repo/helpers/src/edhoc_exp_pqc_cipher_suite_1.c:236-245` -/
def slotFree (h : Nat) : M Unit := fun s =>
  match slotFromHandle s h with
  | some i => (.ok (), { s with slots := s.slots.set i .zero })
  | none => (.ok (), s)

/-- `exp_pqc_cs1_export_raw_key` into a buffer of `n` bytes. `/repo/helpers/src/edhoc_exp_pqc_cipher_suite_1.c:247-285` -/
def exportRaw (h n : Nat) : M Bytes := fun s =>
  if isSlotHandle h then
    match (slotFromHandle s h).bind fun i => s.slots[i]? with
    | none => (.err .crypto, s)
    | some x =>
      if x.len = 0 then (.err .crypto, s)
      else if n < x.len then (.err .bufferTooSmall, s)
      else if x.material.length < x.len then (.ub .oob, s)
      else (.ok (x.material.take x.len), s)
  else lift (Psa.exportKey h n) s

/-! ## Callbacks -/

/-- the attributes of a key of `n` bytes. `/repo/helpers/src/edhoc_exp_pqc_cipher_suite_1.c:303-358` -/
def attrOf (t : KeyType) (n : Nat) : Attr :=
  match t with
  | .encrypt => ⟨[.encrypt], ccm, .aes, 8 * aeadKeyLen⟩
  | .decrypt => ⟨[.decrypt], ccm, .aes, 8 * aeadKeyLen⟩
  | _ => ⟨[.export], .none, .rawData, 8 * n⟩

/-- `exp_pqc_cs1_key_import`. `/repo/helpers/src/edhoc_exp_pqc_cipher_suite_1.c:287-370` -/
def keyImport (t : KeyType) (raw : Bytes) : M Nat :=
  match t with
  | .makeKeyPair => slotAlloc t
  | _ => lift (Psa.importKey A (attrOf t raw.length) raw)

/-- `exp_pqc_cs1_key_destroy`. `/repo/helpers/src/edhoc_exp_pqc_cipher_suite_1.c:372-398` -/
def keyDestroy (h : Nat) : M Unit := if isSlotHandle h then slotFree h else lift (Psa.destroyKey h)

/-- `memcpy` of `b` to the start of an array -/
def overwrite (a b : Bytes) : Bytes := b ++ a.drop b.length

/-- `exp_pqc_cs1_make_key_pair`: decapsulation key and encapsulation key, into buffers of `n` and `m` bytes.
`/repo/helpers/src/edhoc_exp_pqc_cipher_suite_1.c:400-444` -/
def makePair (h n m : Nat) : M (Bytes × Bytes) := do
  require (n != 0 && m != 0) .invalidArgument
  let i ← fun s =>
    match slotFromHandle s h with
    | some i => match s.slots[i]? with
      | some x => if x.type = .makeKeyPair then (.ok i, s) else (.err .invalidArgument, s)
      | none => (.err .invalidArgument, s)
    | none => (.err .invalidArgument, s)
  require (dkLen ≤ n && ekLen ≤ m) .bufferTooSmall
  guardUB (dkLen ≤ n && ekLen ≤ m && dkLen ≤ skLen) .oob
  let k ← oqs fun r => some (B.kemPair r)
  fun s => (.ok (k.2, k.1), { s with slots := s.slots.modify i fun x =>
    { x with material := overwrite x.material (k.2.take dkLen), len := dkLen } })

/-- `exp_pqc_cs1_encapsulate`: ciphertext and shared secret, into buffers of `n` and `m` bytes.
`/repo/helpers/src/edhoc_exp_pqc_cipher_suite_1.c:446-486` -/
def encapsulate (ek : Bytes) (n m : Nat) : M (Bytes × Bytes) := do
  require (ek.length == ekLen) .invalidArgument
  require (ctLen ≤ n && ssLen ≤ m) .bufferTooSmall
  guardUB (ctLen ≤ n && ssLen ≤ m) .oob
  oqs fun r => some (B.kemEncaps ek r)

/-- `exp_pqc_cs1_decapsulate` into a buffer of `n` bytes. `/repo/helpers/src/edhoc_exp_pqc_cipher_suite_1.c:488-540` -/
def decapsulate (h : Nat) (ct : Bytes) (n : Nat) : M Bytes := do
  require (ct.length == ctLen) .invalidArgument
  require (ssLen ≤ n) .bufferTooSmall
  let dk ← exportRaw h dkLen
  require (dk.length == dkLen) .crypto
  guardUB (ssLen ≤ n) .oob
  oqs fun _ => some (B.kemDecaps dk ct)

/-- `exp_pqc_cs1_signature` into a buffer of `n` bytes. `/repo/helpers/src/edhoc_exp_pqc_cipher_suite_1.c:542-587` -/
def signInput (h : Nat) (input : Bytes) (n : Nat) : M Bytes := do
  require (sigLen ≤ n) .bufferTooSmall
  let sk ← exportRaw h skLen
  require (sk.length == skLen) .crypto
  guardUB (sigLen ≤ n) .oob
  oqs fun r => some (B.dsaSign sk input r)

/-- `exp_pqc_cs1_verify`. `/repo/helpers/src/edhoc_exp_pqc_cipher_suite_1.c:589-626` -/
def verifyInput (h : Nat) (input sig : Bytes) : M Unit := do
  let pk ← exportRaw h pkLen
  require (pk.length == pkLen) .crypto
  oqs fun _ => if B.dsaVerify pk input sig then some () else none

/-- `exp_pqc_cs1_hash` into a buffer of `n` bytes. `/repo/helpers/src/edhoc_exp_pqc_cipher_suite_1.c:628-648` -/
def hashInput (input : Bytes) (n : Nat) : M Bytes := do
  require (hashLen ≤ n) .bufferTooSmall
  guardUB (hashLen ≤ n) .oob
  pure (B.shake256 input hashLen)

/-- `edhoc_kdf_kmac256`: `n` bytes of output. The products with 8 are taken not to overflow.
`/repo/helpers/src/edhoc_kdf_kmac256_xkcp.c:38-68` -/
def kdfKmac (key input : Bytes) (n : Nat) : M Bytes := do
  require (n != 0) .invalidArgument
  oqs fun _ => some (B.kmac256 (key, 8 * key.length) (input, 8 * input.length) (8 * n) ([], 0))

/-- `exp_pqc_cs1_extract` into a buffer of `n` bytes. `/repo/helpers/src/edhoc_exp_pqc_cipher_suite_1.c:650-692` -/
def extractKey (h : Nat) (salt : Bytes) (n : Nat) : M Bytes := do
  require (salt.length != 0) .invalidArgument
  require (hashLen ≤ n) .bufferTooSmall
  let ikm ← exportRaw h ikmLen
  guardUB (hashLen ≤ n) .oob
  kdfKmac B salt ikm hashLen

/-- `exp_pqc_cs1_expand`: `n` bytes of output. `/repo/helpers/src/edhoc_exp_pqc_cipher_suite_1.c:694-728` -/
def expandKey (h : Nat) (info : Bytes) (n : Nat) : M Bytes := do
  require (info.length != 0 && n != 0) .invalidArgument
  let prk ← exportRaw h hashLen
  kdfKmac B prk info n

/-- `exp_pqc_cs1_encrypt` into a buffer of `n` bytes. `/repo/helpers/src/edhoc_exp_pqc_cipher_suite_1.c:730-760` -/
def encryptText (h : Nat) (nonce ad ptxt : Bytes) (n : Nat) : M Bytes := lift (Psa.aeadEncrypt A h ccm nonce ad ptxt n)

/-- `exp_pqc_cs1_decrypt` into a buffer of `n` bytes. `/repo/helpers/src/edhoc_exp_pqc_cipher_suite_1.c:762-790` -/
def decryptText (h : Nat) (nonce ad ctxt : Bytes) (n : Nat) : M Bytes := lift (Psa.aeadDecrypt A h ccm nonce ad ctxt n)

/-! ## Histories -/

/-- The calls of the suite's tables. `/repo/helpers/src/edhoc_exp_pqc_cipher_suite_1.c:792-808` -/
inductive Call
  | importKey (t : KeyType) (raw : Bytes)
  | destroyKey (h : Nat)
  | makeKeyPair (h n m : Nat)
  | encapsulate (ek : Bytes) (n m : Nat)
  | decapsulate (h : Nat) (ct : Bytes) (n : Nat)
  | sign (h : Nat) (input : Bytes) (n : Nat)
  | verify (h : Nat) (input sig : Bytes)
  | extract (h : Nat) (salt : Bytes) (n : Nat)
  | expand (h : Nat) (info : Bytes) (n : Nat)
  | encrypt (h : Nat) (nonce ad ptxt : Bytes) (n : Nat)
  | decrypt (h : Nat) (nonce ad ctxt : Bytes) (n : Nat)
  | hash (input : Bytes) (n : Nat)
  deriving DecidableEq, Repr

/-- What a successful call gives. -/
inductive Out
  | done
  | handle (h : Nat)
  | bytes (b : Bytes)
  | pair (a b : Bytes)
  deriving DecidableEq, Repr

/-- One call. -/
def call : Call → M Out
  | .importKey t raw => do let h ← keyImport A t raw; pure (.handle h)
  | .destroyKey h => do let _ ← keyDestroy h; pure .done
  | .makeKeyPair h n m => do let k ← makePair B h n m; pure (.pair k.1 k.2)
  | .encapsulate ek n m => do let k ← encapsulate B ek n m; pure (.pair k.1 k.2)
  | .decapsulate h ct n => do let b ← decapsulate B h ct n; pure (.bytes b)
  | .sign h input n => do let b ← signInput B h input n; pure (.bytes b)
  | .verify h input sig => do let _ ← verifyInput B h input sig; pure .done
  | .extract h salt n => do let b ← extractKey B h salt n; pure (.bytes b)
  | .expand h info n => do let b ← expandKey B h info n; pure (.bytes b)
  | .encrypt h nonce ad ptxt n => do let b ← encryptText A h nonce ad ptxt n; pure (.bytes b)
  | .decrypt h nonce ad ctxt n => do let b ← decryptText A h nonce ad ctxt n; pure (.bytes b)
  | .hash input n => do let b ← hashInput B input n; pure (.bytes b)

/-- A program calls the suite, and PSA directly in between (`other`: with an arbitrary effect there). -/
inductive Act
  | call (c : Call)
  | other (p : Store)

/-- A history: the calls with their results, the oldest first, and the state after them. -/
def run : List Act → State → List (Call × Res Out) × State
  | [], s => ([], s)
  | .call c :: as, s =>
    let r := call A B c s
    let t := run as r.2
    ((c, r.1) :: t.1, t.2)
  | .other p :: as, s => run as { s with psa := p }

end Verif.Pqc
