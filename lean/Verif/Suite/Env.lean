import Verif.Suite.Impl

/-!
# A shipped cipher suite as the callbacks of the library

What an application gets that binds the tables `edhoc_cipher_suite_N_keys` and `edhoc_cipher_suite_N_crypto`
(`/repo/helpers/src/edhoc_cipher_suite_0.c:571-586`, `/repo/helpers/src/edhoc_cipher_suite_2.c:790-805`). The rest of the
application is arbitrary: allocator, EAD and credential callbacks. It may use PSA as well.
-/

namespace Verif.Psa

/-- the state of PSA and of the application -/
abbrev World (τ : Type) := Store × τ

/-- the callbacks the application brings itself -/
structure App (τ : Type) where
  alloc : World τ → Nat → Bool × World τ
  eadCompose : World τ → Msg → Option (List EadTok) × World τ
  eadProcess : World τ → Msg → List EadTok → Bool × World τ
  credFetch : World τ → Option (Cred × Bytes) × World τ
  credVerify : World τ → Cred → Option (Cred × Option Bytes) × World τ

/-- the bytes of a `psa_key_id_t` in the array the library keeps (`CONFIG_LIBEDHOC_KEY_ID_LEN` is 4). The byte order does not
matter, the suites only convert back and forth. -/
def kidBytes (id : Nat) : Bytes := beBytes 4 id

/-- and back -/
def kidNat (kid : Bytes) : Nat := beNat kid

variable {τ α : Type}

/-- success or not -/
def Res.toOption : Res α → Option α
  | .ok a => some a
  | _ => none

/-- run a callback -/
def runP (m : P α) (w : World τ) : Option α × World τ :=
  (Res.toOption (m w.1).1, (m w.1).2, w.2)

/-- The callbacks. The sizes of the buffers are those the library passes; those that depend on the cipher suite come from
its table. For the private key of a new pair the library passes the size of its array in message 1
(`/repo/library/edhoc_message_1.c:121-125`) and the length from the table in message 2
(`/repo/library/edhoc_message_2.c:302-305`); here it is always the latter (theorem `C47_private_size` shows that this does not matter).
`hash`: `/repo/library/edhoc_message_2.c:451-452`, `keyAgreement`: `/repo/library/edhoc_message_2.c:342-346,1357-1359`,
`sign`: `/repo/library/edhoc_common.c:487-489`, `extract`: `/repo/library/edhoc_message_2.c:493-494`,
`encrypt`: `/repo/library/edhoc_message_3.c:663-665`, `decrypt`: `/repo/library/edhoc_message_3.c:838-840`. -/
def suiteEnv (A : Algs) (q : Params) (X : App τ) : Env (World τ) where
  alloc := X.alloc
  importKey := fun w t raw => let r := runP (keyImport A q t raw) w; (r.1.map kidBytes, r.2)
  destroyKey := fun w kid => (runP (keyDestroy (kidNat kid)) w).2
  makeKeyPair := fun w kid => runP (makePair A q (kidNat kid) q.ecc q.ecc) w
  keyAgreement := fun w kid peer => runP (keyAgree A q (kidNat kid) peer q.ecc) w
  sign := fun w kid input => runP (signInput A q (kidNat kid) input q.sign) w
  verify := fun w kid input sig => let r := runP (verifyInput A q (kidNat kid) input sig) w; (r.1.isSome, r.2)
  extract := fun w kid salt => runP (extractKey A (kidNat kid) salt q.hashLen) w
  expand := fun w kid info n => runP (expandKey A (kidNat kid) info n) w
  encrypt := fun w kid iv aad p => runP (encryptText A (kidNat kid) iv aad p (p.length + q.aeadTag)) w
  decrypt := fun w kid iv aad c => runP (decryptText A (kidNat kid) iv aad c (c.length - q.aeadTag)) w
  hash := fun w b => runP (hashInput A q b q.hashLen) w
  eadCompose := X.eadCompose
  eadProcess := X.eadProcess
  credFetch := X.credFetch
  credVerify := X.credVerify

end Verif.Psa
