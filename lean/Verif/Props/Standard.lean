import Verif.Real.Algs
import Verif.Props.SuiteHandshake

/-!
# C58: what is assumed about the algorithms holds for the algorithms of the standards

C47 to C51 hold for all algorithms with the laws `AlgLaws`. Here these are proved for the algorithms the shipped suites name:
SHA-256 and SHA-384, HKDF, AES-CCM, AES-GCM, ChaCha20-Poly1305, ECDH and ECDSA on P-256 and P-384, X25519 and Ed25519.
-/

namespace Verif

open Spec Psa

attribute [local irreducible] Real.edPub Real.ed25519Sign Real.ed25519Verify

/-- **C58**. The algorithms of the standards meet the laws, for each shipped suite. -/
theorem C58_laws {q : Params} (hq : q ∈ shipped) : AlgLaws Real.algs q := Real.algs_laws hq

/-- **C58**. A signature made with the key from a seed is accepted for the public key from this seed. -/
theorem C58_eddsa {seed : Bytes} (hs : seed.length = 32) (m : Bytes) :
    Real.algs.ed25519Verify (Real.edPub seed) m (Real.algs.ed25519Sign (seed ++ Real.edPub seed) m) = true :=
  Real.ed25519_verifies hs m

/-- What a party starts from: a seed for EdDSA, else a private key. -/
def Spec.StandardSecret (q : Params) (signs : Bool) (x : Bytes) : Prop :=
  if signs && q.curve.isNone then x.length = 32 else isPriv Real.algs q x

/-- The private key as it is imported, and the public key the peer has. -/
noncomputable def Spec.standardKeys (q : Params) (signs : Bool) (x : Bytes) : Bytes × Bytes :=
  match signs, q.curve with
  | true, none => (x ++ Real.edPub x, Real.edPub x)
  | true, some c => (x, Real.algs.ecPub (8 * c.len) x)
  | false, _ => (x, (primsOf Real.algs q).pub x)

/-- **C58**. Such keys are keys in the sense of C51. -/
theorem C58_own_key {q : Params} {signs : Bool} {x : Bytes} (hx : StandardSecret q signs x) (cred : Cred) (kid : Bytes) :
    OwnKey Real.algs q
      ⟨attrOf q (if signs then .signature else .keyAgreement) (standardKeys q signs x).1.length, (standardKeys q signs x).1⟩
      ⟨cred, kid, (standardKeys q signs x).1, (standardKeys q signs x).2⟩ signs := by
  cases signs
  · exact ⟨rfl, hx, rfl⟩
  · refine ⟨rfl, ?_⟩
    cases hc : q.curve with
    | none =>
      have hx : x.length = 32 := by simpa [StandardSecret, hc] using hx
      have hp : (Real.edPub x).length = 32 := Real.edPub_length x
      refine ⟨?_, ?_, fun m => ?_⟩
      · simp only [standardKeys, hc, List.length_append]; omega
      · simpa only [standardKeys, hc] using hp
      · simpa only [standardKeys, hc] using C58_eddsa hx m
    | some c =>
      have hx : x.length = c.len ∧ Real.algs.ecPriv (8 * c.len) x = true := by
        simpa [StandardSecret, hc, isPriv] using hx
      refine ⟨?_, ?_⟩
      · simpa only [standardKeys, hc] using hx.2
      · simp only [standardKeys, hc]

namespace Standard

/-- a party -/
noncomputable def party (q : Params) (cred : Cred) (signs : Bool) (x : Bytes) : Identity :=
  ⟨cred, kidBytes idMin, (standardKeys q signs x).1, (standardKeys q signs x).2⟩

/-- its key -/
noncomputable def own (q : Params) (signs : Bool) (x : Bytes) : Key :=
  ⟨attrOf q (if signs then .signature else .keyAgreement) (standardKeys q signs x).1.length, (standardKeys q signs x).1⟩

/-- a key store with this key, and a source of random bytes -/
noncomputable def store (q : Params) (signs : Bool) (x : Bytes) (rand : Nat → Bytes) : Store where
  keys := [(idMin, own q signs x)]
  slots := 8
  clock := 0
  fault := fun _ => false
  rand := rand

theorem inOrder {q : Params} (signs : Bool) (x : Bytes) {rand : Nat → Bytes}
    (hr : ∀ n, isPriv Real.algs q (fitLen q.ecc (rand n))) :
    InOrder Real.algs q idMin (own q signs x) (store q signs x rand) where
  calm _ _ := rfl
  free := by
    have : (store q signs x rand).freeId = some (idMin + 1) := rfl
    rw [this]; exact Option.some_ne_none _
  draws n _ := hr n
  own := rfl

theorem serves (q : Params) (cred peer : Cred) (s s' : Bool) (x x' : Bytes) :
    Serves (Psa.Toy.app cred peer (party q peer s' x').pk) Verif.Toy.bounds (fun _ => True) (party q cred s x)
      (party q peer s' x') where
  alloc _ _ _ := ⟨rfl, rfl, trivial⟩
  eadCompose _ _ _ := ⟨⟨[], rfl, by decide, by simp, by decide⟩, rfl, trivial⟩
  eadProcess _ _ _ _ := ⟨rfl, rfl, trivial⟩
  credFetch _ _ := ⟨rfl, rfl, trivial⟩
  credVerify _ _ _ _ := ⟨rfl, rfl, trivial⟩

/-- the Initiator's and the Responder's application -/
noncomputable def appI (q : Params) (me : Nat) (xR : Bytes) : Psa.App Unit :=
  Psa.Toy.app Psa.Toy.credI Psa.Toy.credR (party q Psa.Toy.credR (responderSigns me) xR).pk
noncomputable def appR (q : Params) (me : Nat) (xI : Bytes) : Psa.App Unit :=
  Psa.Toy.app Psa.Toy.credR Psa.Toy.credI (party q Psa.Toy.credI (initiatorSigns me) xI).pk

theorem parties {q : Params} (hq : q ∈ shipped) {me : Nat} (hm : me < 4) {xI xR : Bytes}
    (hI : StandardSecret q (initiatorSigns me) xI) (hR : StandardSecret q (responderSigns me) xR) :
    SuiteParties Real.algs q Verif.Toy.bounds me (appI q me xR) (appR q me xI) (fun _ => True) (fun _ => True)
      Verif.Toy.cfg Verif.Toy.cfg idMin idMin (own q (initiatorSigns me) xI) (own q (responderSigns me) xR)
      (party q Psa.Toy.credI (initiatorSigns me) xI) (party q Psa.Toy.credR (responderSigns me) xR)
      (Psa.Toy.choice q me (.int 5)) (Psa.Toy.choice q me (.bstr [0x18, 9])) :=
  let t := Psa.Toy.suiteParties hq hm
  { t with
    laws := C58_laws hq
    servesI := serves _ _ _ _ _ _ _
    servesR := serves _ _ _ _ _ _ _
    kidI := ⟨rfl, by decide⟩
    kidR := ⟨rfl, by decide⟩
    keyI := C58_own_key hI _ _
    keyR := C58_own_key hR _ _
    credI := t.credI
    credR := t.credR
    keystream := t.keystream }

end Standard

open Standard in
/-- **C58**. Two parties use the algorithms of the standards with a shipped suite. Whatever their long-term keys are, and
whatever private keys their random generators give, all calls of a handshake succeed, with each method, with and without
message 4, and both export the same OSCORE secret and salt. -/
theorem C58_completes {q : Params} (hq : q ∈ shipped) {me : Nat} (hm : me < 4) {xI xR : Bytes}
    (hI : StandardSecret q (initiatorSigns me) xI) (hR : StandardSecret q (responderSigns me) xR) {rI rR : Nat → Bytes}
    (hrI : ∀ n, isPriv Real.algs q (fitLen q.ecc (rI n))) (hrR : ∀ n, isPriv Real.algs q (fitLen q.ecc (rR n)))
    {n a b : Nat} (hn : 65000 ≤ n) (ha : SecretLen q.table a) (hb : SecretLen q.table b) (four : Bool) :
    ∃ m1 m2 m3 m4 secret salt sI' sR',
      Run (suiteEnv Real.algs q (appI q me xR)) Verif.Toy.cfg ⟨Ctx.fresh, (store q (initiatorSigns me) xI rI, ()), []⟩
        (done (Psa.Toy.choice q me (.int 5)).calls ++
        [(.compose1 n, .ok (.bytes m1)), (.process2 m2, .ok .unit), (.compose3 n, .ok (.bytes m3))] ++
        (if four then [(.process4 m4, .ok .unit)] else []) ++
        [(.exportOscore a b n n, .ok (.oscore ⟨secret, salt, oscoreIdOf (.bstr [0x18, 9]), oscoreIdOf (.int 5)⟩))]) sI' ∧
      Run (suiteEnv Real.algs q (appR q me xI)) Verif.Toy.cfg ⟨Ctx.fresh, (store q (responderSigns me) xR rR, ()), []⟩
        (done (Psa.Toy.choice q me (.bstr [0x18, 9])).calls ++
        [(.process1 m1, .ok .unit), (.compose2 n, .ok (.bytes m2)), (.process3 m3, .ok .unit)] ++
        (if four then [(.compose4 n, .ok (.bytes m4))] else []) ++
        [(.exportOscore a b n n, .ok (.oscore ⟨secret, salt, oscoreIdOf (.int 5), oscoreIdOf (.bstr [0x18, 9])⟩))]) sR' :=
  C51_completes (parties hq hm hI hR) (sI := ⟨Ctx.fresh, (store q (initiatorSigns me) xI rI, ()), []⟩)
    (sR := ⟨Ctx.fresh, (store q (responderSigns me) xR rR, ()), []⟩) (inOrder _ _ hrI) trivial (inOrder _ _ hrR) trivial
    hn ha hb four

/-- The premises can be met: there are such keys for each suite and method. -/
example {q : Params} (hq : q ∈ shipped) (signs : Bool) : StandardSecret q signs (List.replicate q.ecc 0x21) ∧
    isPriv Real.algs q (fitLen q.ecc [0x07, 0x0b]) := by
  simp only [shipped, List.mem_cons, List.not_mem_nil, or_false] at hq
  rcases hq with rfl | rfl | rfl | rfl <;> cases signs <;>
    simp only [StandardSecret, isPriv, suite0, suite2, suite4, suite24, Bool.and_true, Bool.and_false, Option.isNone_none,
      Option.isNone_some, if_true, if_false, Bool.false_eq_true] <;> decide +kernel

end Verif
