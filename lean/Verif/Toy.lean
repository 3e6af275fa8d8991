import Verif.Api

/-!
# A toy application

Concrete callbacks used only in examples: they show that the hypotheses of theorems can be met and
they carry the witnesses for violated properties. The primitives are not secure; they only have
the algebraic laws an honest handshake needs.
-/

namespace Verif.Toy

open Verif

/-- sum of bytes with position weights -/
def mix : Nat → Bytes → Nat
  | acc, [] => acc
  | acc, b :: r => mix ((acc * 31 + b.toNat + 7) % 65521) r

/-- toy hash, 4 bytes -/
def hash (b : Bytes) : Bytes := beBytes 4 (mix 1 b * 65537)

/-- toy expand -/
def expand (k info : Bytes) (n : Nat) : Bytes :=
  (List.range n).map fun i => UInt8.ofNat (mix (i + 3) (k ++ info))

/-- toy extract -/
def extract (ikm salt : Bytes) : Bytes := hash (ikm ++ [0] ++ salt)

/-- toy Diffie-Hellman in `Z/257Z` (two bytes) with generator 3: keys are exponents -/
def dhPub (sk : Bytes) : Bytes := beBytes 2 (3 ^ (beNat sk % 251) % 257)

/-- shared secret -/
def dh (sk pk : Bytes) : Bytes := beBytes 2 (beNat pk ^ (beNat sk % 251) % 257)

/-- toy MAC used as signature and as AEAD tag, 3 bytes -/
def tag (k m : Bytes) : Bytes := (hash (k ++ [1] ++ m)).take 3

/-- toy AEAD -/
def aead (k iv aad p : Bytes) : Bytes := p ++ tag (k ++ iv ++ aad) p

/-- toy AEAD decryption -/
def unaead (k iv aad c : Bytes) : Option Bytes :=
  let p := c.take (c.length - 3)
  if 3 ≤ c.length ∧ c = aead k iv aad p then some p else none

/-- What one party is given. -/
structure Party where
  /-- own credential and static private key -/
  cred : Cred
  sk : Bytes
  /-- ephemeral private key -/
  eph : Bytes
  /-- the credential database: identified credential to full credential and public key -/
  db : Cred → Option (Cred × Bytes)
  /-- EAD to send -/
  ead : Msg → List EadTok
  /-- sizes for which an allocation fails -/
  noMem : Nat → Bool

/-- Key identifiers are the keys themselves; the private static key is its own identifier; the
public key of a signature is the private key. No private state. -/
def env (p : Party) : Env Unit where
  alloc _ n := (!p.noMem n, ())
  importKey _ _ raw := (some raw, ())
  destroyKey _ _ := ()
  makeKeyPair _ _ := (some (p.eph, dhPub p.eph), ())
  keyAgreement _ k peer := (some (dh k peer), ())
  sign _ k m := (some (tag (dhPub k) m), ())
  verify _ k m s := (decide (s = tag k m), ())
  extract _ k salt := (some (extract k salt), ())
  expand _ k info n := (some (expand k info n), ())
  encrypt _ k iv aad m := (some (aead k iv aad m), ())
  decrypt _ k iv aad c := (unaead k iv aad c, ())
  hash _ m := (some (hash m), ())
  eadCompose _ m := (some (p.ead m), ())
  eadProcess _ _ _ := (true, ())
  credFetch _ := (some (p.cred, p.sk), ())
  credVerify _ c := ((p.db c).map fun q => (q.1, some q.2), ())

/-- configuration (values of `/repo/CMakePresets.json`) -/
def cfg : Config where
  maxSuites := 3
  maxCid := 7
  maxEccKey := 48
  maxMac := 48
  maxEad := 3
  maxKid := 4
  maxHashAlg := 1
  maxCerts := 2
  backend := .heap
  stackMax := 100000
  zeroVlaOk := true
  macCtxSize := 100
  dec := ⟨true, false, fun _ => 0, true⟩

/-- toy cipher suite -/
def suite : Suite := ⟨2, 4, 3, 3, 4, 2, 2, 3⟩

/-- Initiator's credential: `kid` -/
def credI : Cred := .kid [0x41, 0x42] false (.int 5)

/-- Responder's credential: one certificate -/
def credR : Cred := .x5chain [[1, 2, 3]]

/-- Initiator -/
def alice : Party where
  cred := credI
  sk := [0, 9]
  eph := [1, 77]
  db c := if c = credR then some (credR, dhPub [0, 23]) else none
  ead m := if m = .msg1 then [⟨1, some [7]⟩] else if m = .msg3 then [⟨-3, none⟩] else []
  noMem _ := false

/-- Responder -/
def bob : Party where
  cred := credR
  sk := [0, 23]
  eph := [0, 200]
  db c := if c = .kid [] false (.int 5) then some (credI, dhPub [0, 9]) else none
  ead m := if m = .msg4 then [⟨100, some [1, 2]⟩] else []
  noMem _ := false

/-- set-up calls common to both sides -/
def setup (method : Nat) (cid : Cid) : List Op :=
  [.init, .setMethods [method], .setSuites [suite], .setCid cid, .bindEad true true,
    .bindKeys true, .bindCrypto true, .bindCred true]

/-- run a list of calls, collecting the results -/
def run {σ : Type} (E : Env σ) (cfg : Config) : List Op → St σ → List (Res Out) × St σ
  | [], s => ([], s)
  | o :: os, s =>
    let r := step E cfg o s
    let t := run E cfg os r.2
    (r.1 :: t.1, t.2)

def start : St Unit := ⟨Ctx.zero, (), []⟩

def bytesOf : Res Out → Bytes
  | .ok (.bytes b) => b
  | _ => []

/-- states and messages of a whole handshake -/
def shake (method : Nat) : List (Res Out) × Ctx × Ctx :=
  let eI := env alice
  let eR := env bob
  let i0 := (run eI cfg (setup method (.int 5)) start).2
  let r0 := (run eR cfg (setup method (.bstr [0x18, 9])) start).2
  let m1 := step eI cfg (.compose1 100) i0
  let p1 := step eR cfg (.process1 (bytesOf m1.1)) r0
  let m2 := step eR cfg (.compose2 100) p1.2
  let p2 := step eI cfg (.process2 (bytesOf m2.1)) m1.2
  let m3 := step eI cfg (.compose3 100) p2.2
  let p3 := step eR cfg (.process3 (bytesOf m3.1)) m2.2
  let m4 := step eR cfg (.compose4 100) p3.2
  let p4 := step eI cfg (.process4 (bytesOf m4.1)) m3.2
  let o1 := step eI cfg (.exportOscore 16 8 8 8) p4.2
  let o2 := step eR cfg (.exportOscore 16 8 8 8) m4.2
  ([m1.1, p1.1, m2.1, p2.1, m3.1, p3.1, m4.1, p4.1, o1.1, o2.1], o1.2.ctx, o2.2.ctx)

example : (shake 3).2.1.prk = (shake 3).2.2.prk := by decide +kernel
end Verif.Toy
