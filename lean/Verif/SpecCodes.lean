import Verif.Spec

/-!
# Specification: return codes (C42, C43)

The codes documented in `/repo/include/edhoc.h` (the `\retval` lists), and the code that belongs to each failing callback.
-/

namespace Verif.Spec

/-- The callbacks, and the allocator. -/
inductive Callback
  | alloc | importKey | destroyKey | makeKeyPair | keyAgreement | sign | verify | extract | expand | encrypt | decrypt | hash
  | eadCompose | eadProcess | credFetch | credVerify
  deriving DecidableEq, Repr

/-- Which callback was called? -/
def _root_.Verif.Ev.callback : Ev → Callback
  | .alloc .. => .alloc
  | .importKey .. => .importKey
  | .destroyKey .. => .destroyKey
  | .makeKeyPair .. => .makeKeyPair
  | .keyAgreement .. => .keyAgreement
  | .sign .. => .sign
  | .verify .. => .verify
  | .extract .. => .extract
  | .expand .. => .expand
  | .encrypt .. => .encrypt
  | .decrypt .. => .decrypt
  | .hash .. => .hash
  | .eadCompose .. => .eadCompose
  | .eadProcess .. => .eadProcess
  | .credFetch .. => .credFetch
  | .credVerify .. => .credVerify

/-- Did it fail? (The result of destroying a key is not looked at.) -/
def _root_.Verif.Ev.failed : Ev → Bool
  | .alloc _ ok => !ok
  | .importKey _ _ r => r.isNone
  | .destroyKey _ => false
  | .makeKeyPair _ r => r.isNone
  | .keyAgreement _ _ r => r.isNone
  | .sign _ _ r => r.isNone
  | .verify _ _ _ ok => !ok
  | .extract _ _ r => r.isNone
  | .expand _ _ _ r => r.isNone
  | .encrypt _ _ _ _ r => r.isNone
  | .decrypt _ _ _ _ r => r.isNone
  | .hash _ r => r.isNone
  | .eadCompose _ r => r.isNone
  | .eadProcess _ _ ok => !ok
  | .credFetch r => r.isNone
  | .credVerify _ r => r.isNone

/-- The documented error codes of each function. `/repo/include/edhoc.h:52-690`. -/
def retvals : Op → List Err
  | .nullArg => [.invalidArgument]
  | .init => [.invalidArgument]
  | .deinit | .setMethods _ | .setSuites _ | .setCid _ | .setUserCtx | .bindEad _ _ | .bindKeys _ | .bindCrypto _
  | .bindCred _ | .getCode => [.invalidArgument, .badState]
  | .compose1 _ => [.invalidArgument, .badState, .notPermitted, .cbor, .crypto, .bufferTooSmall, .ephemeralDh, .eadCompose]
  | .process1 _ => [.invalidArgument, .badState, .notPermitted, .bufferTooSmall, .msg1Process, .cbor, .crypto, .eadProcess]
  | .compose2 _ => [.invalidArgument, .badState, .notPermitted, .bufferTooSmall, .cbor, .crypto, .transcriptHash, .prk,
      .ephemeralDh, .credentials, .eadCompose]
  | .process2 _ => [.invalidArgument, .badState, .bufferTooSmall, .notPermitted, .msg2Process, .cbor, .crypto,
      .transcriptHash, .prk, .ephemeralDh, .invalidMac2, .invalidSignOrMac2, .credentials, .eadProcess]
  | .compose3 _ => [.invalidArgument, .badState, .notPermitted, .bufferTooSmall, .cbor, .crypto, .transcriptHash, .prk,
      .credentials, .eadCompose]
  | .process3 _ => [.invalidArgument, .badState, .notPermitted, .bufferTooSmall, .msg3Process, .cbor, .crypto,
      .transcriptHash, .prk, .invalidMac3, .invalidSignOrMac3, .credentials, .eadProcess]
  | .compose4 _ => [.invalidArgument, .badState, .cbor, .crypto, .eadCompose]
  | .process4 _ => [.invalidArgument, .badState, .msg4Process, .cbor, .crypto, .eadProcess]
  | .exportSecret _ _ => [.invalidArgument, .badState, .notPermitted, .cbor, .crypto, .prk]
  | .keyUpdate _ => [.invalidArgument, .badState, .notPermitted, .cbor, .crypto, .prk]
  | .exportOscore _ _ _ _ => [.invalidArgument, .badState, .notPermitted, .cbor, .bufferTooSmall, .crypto, .prk]
  | .getSuites _ _ => [.invalidArgument, .badState, .bufferTooSmall]

/-- The codes that the functions return although they are not documented. -/
def exceptions : Op → List Err
  | .compose2 _ => [.notEnoughMemory, .notSupported]
  | .compose3 _ => [.notEnoughMemory, .notSupported, .invalidMac3]
  | .compose1 _ | .process2 _ | .process3 _ | .compose4 _ | .process4 _ | .exportSecret _ _ => [.notEnoughMemory]
  | _ => []

/-- What a failing callback is reported as. For the allocator and the import of keys, any code of the function
(destroying a key does not fail). -/
def cause (o : Op) : Callback → List Err
  | .credFetch | .credVerify => [.credentials]
  | .eadCompose => [.eadCompose]
  | .eadProcess => [.eadProcess]
  | .verify => (match o with | .process2 _ => [.invalidSignOrMac2] | _ => [.invalidSignOrMac3])
  | .sign | .encrypt | .decrypt => [.crypto]
  | .makeKeyPair => [.ephemeralDh]
  | .keyAgreement => (match o with | .compose2 _ | .process2 _ => [.ephemeralDh, .prk] | _ => [.crypto])
  | .hash => (match o with | .compose1 _ | .process1 _ => [.crypto] | _ => [.transcriptHash])
  | .extract => (match o with | .compose2 _ | .process2 _ => [.prk] | _ => [.crypto])
  | .expand => (match o with
      | .compose3 _ | .process3 _ => [.crypto, .invalidMac3]
      | .compose4 _ | .process4 _ => [.crypto]
      | _ => [.prk, .crypto])
  | .alloc | .importKey | .destroyKey => retvals o ++ exceptions o

end Verif.Spec
