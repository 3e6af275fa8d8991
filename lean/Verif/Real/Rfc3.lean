import Verif.Real.Algs
import Verif.ToyRun

/-!
# RFC 9529, chapter 3: the trace, replayed in the model

A test of the model, not a proof: the whole model of the library, over the model of the shipped suite and the standards'
algorithms, gives the bytes of the RFC (method 3, suite 2; the Initiator prefers suite 6 and selects suite 2). The data are those of the repository's own test:
`/repo/tests/include/test_vector_rfc9529_chapter_3.h`, `/repo/tests/integration/test_rfc9529_chapter3.c`.
-/

namespace Verif.Real.Rfc3

open Psa

/-- `X` -/
def ephI : Bytes :=
  toBytes 32 0x368ec1f69aeb659ba37d5a8d45b21bdc0299dceaa8ef235f3ca42ce3530f9525

/-- `Y` -/
def ephR : Bytes :=
  toBytes 32 0xe2f4126777205e853b437d6eaca1e1f753cdcc3e2c69fa884b0a1a640977e418

/-- `SK_I` -/
def skI : Bytes :=
  toBytes 32 0xfb13adeb6518cee5f88417660841142e830a81fe334380a953406a1305e8706b

/-- `PK_I` -/
def pkI : Bytes :=
  toBytes 32 0xac75e9ece3e50bfc8ed60399889522405c47bf16df96660a41298cb4307f7eb6

/-- `SK_R` -/
def skR : Bytes :=
  toBytes 32 0x72cc4761dbd4c78f758931aa589d348d1ef874a7e303ede2f140dcf3e6aa4aac

/-- `PK_R` -/
def pkR : Bytes :=
  toBytes 32 0xbbc34960526ea4d32e940cad2a234148ddc21791a12afbcbac93622046dd44f0

/-- `CRED_I_cborised` -/
def certI : Bytes :=
  toBytes 107 0xa2027734322d35302d33312d46462d45462d33372d33322d333908a101a5010202412b2001215820ac75e9ece3e50bfc8ed60399889522405c47bf16df96660a41298cb4307f7eb62258206e5de611388a4b8a8211334ac7d37ecb52a387d257e6db3c2a93df21ff3affc8

/-- `CRED_R_cborised` -/
def certR : Bytes :=
  toBytes 95 0xa2026b6578616d706c652e65647508a101a501020241322001215820bbc34960526ea4d32e940cad2a234148ddc21791a12afbcbac93622046dd44f02258204519e257236b2a0ce2023f0931f1f386ca7afda64fcde0108c224c51eabf6072

/-- `message_1` -/
def message1 : Bytes :=
  toBytes 39 0x0382060258208af6f430ebe18d34184017a9a11bf511c8dff8f834730b96c1b7c8dbca2fc3b637

/-- `message_2` -/
def message2 : Bytes :=
  toBytes 45 0x582b419701d7f00a26c2dc587a36dd752549f33763c893422c8ea0f955a13a4ff5d59862a1eef9e0e7e1886fcd

/-- `message_3` -/
def message3 : Bytes :=
  toBytes 19 0x52e562097bc417dd5919485ac7891ffd90a9fc

/-- `message_4` -/
def message4 : Bytes :=
  toBytes 9 0x4828c966b7ca304f83

/-- `OSCORE_Master_Secret` -/
def secret : Bytes :=
  toBytes 16 0xf9868f6a3aca78a05d1485b35030b162

/-- `OSCORE_Master_Salt` -/
def salt : Bytes :=
  toBytes 8 0xada24c7dbfc85eeb

/-- `keyUpdate_context` -/
def entropy : Bytes :=
  toBytes 16 0xa01158fdb820890cd6be169602b8bcea

/-- `keyUpdate_OSCORE_Master_Secret` -/
def secret2 : Bytes :=
  toBytes 16 0x49f72fac02b4658bda21e2dac66fc374

/-- `keyUpdate_OSCORE_Master_Salt` -/
def salt2 : Bytes :=
  toBytes 8 0xdd8b24f2aa9b011a

def credI : Cred := .kid certI true (.bstr [0x2b])
def credR : Cred := .kid certR true (.bstr [0x32])

/-- an application without EAD, whose key is the one with the first identifier -/
def app (cred peer : Cred) (pk : Bytes) : Psa.App Unit where
  alloc w _ := (true, w)
  eadCompose w _ := (none, w)
  eadProcess w _ _ := (false, w)
  credFetch w := (some (cred, kidBytes idMin), w)
  credVerify w _ := (some (peer, some pk), w)

/-- a key store with one key; the random generator gives the ephemeral key -/
def store (sk eph : Bytes) : Store where
  keys := [(idMin, ⟨attrOf suite2 .keyAgreement sk.length, sk⟩)]
  slots := 8
  clock := 0
  fault := fun _ => false
  rand := fun _ => eph

def envI : Env (World Unit) := suiteEnv algs suite2 (app credI credR pkR)
def envR : Env (World Unit) := suiteEnv algs suite2 (app credR credI pkI)

/-- `/repo/CMakePresets.json` -/
def cfg : Config := Verif.Toy.cfg

/-- set-up calls -/
def conf (suites : List Suite) (cid : Cid) : List Op :=
  [.setMethods [3], .setSuites suites, .setCid cid, .bindKeys true, .bindCrypto true, .bindCred true]

/-- the Initiator's calls -/
def opsI : List Op := conf [{ suite2.table with value := 6 }, suite2.table] (.int (-24)) ++
  [.compose1 500, .process2 message2, .compose3 500, .process4 message4, .exportOscore 16 8 1 1, .keyUpdate entropy,
    .exportOscore 16 8 1 1]

/-- the Responder's calls -/
def opsR : List Op := conf [suite2.table] (.int (-8)) ++
  [.process1 message1, .compose2 500, .process3 message3, .compose4 500, .exportOscore 16 8 1 1, .keyUpdate entropy,
    .exportOscore 16 8 1 1]

/-- the results of the calls after set-up -/
def results (E : Env (World Unit)) (w : World Unit) (ops : List Op) : List (Res Out) :=
  ((Verif.Toy.hist E cfg ops ⟨Ctx.fresh, w, []⟩).1.drop 6).map (·.2)

def expectedI : List (Res Out) :=
  [.ok (.bytes message1), .ok .unit, .ok (.bytes message3), .ok .unit, .ok (.oscore ⟨secret, salt, [0x27], [0x37]⟩), .ok .unit,
    .ok (.oscore ⟨secret2, salt2, [0x27], [0x37]⟩)]

def expectedR : List (Res Out) :=
  [.ok .unit, .ok (.bytes message2), .ok .unit, .ok (.bytes message4), .ok (.oscore ⟨secret, salt, [0x37], [0x27]⟩), .ok .unit,
    .ok (.oscore ⟨secret2, salt2, [0x37], [0x27]⟩)]

end Verif.Real.Rfc3
