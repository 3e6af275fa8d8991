import Verif.Real.Algs
import Verif.ToyRun

/-!
# RFC 9529, chapter 2: the trace, replayed in the model

A test of the model, not a proof: the whole model of the library, over the model of the shipped suite and the standards'
algorithms, gives the bytes of the RFC (method 0, suite 0). The data are those of the repository's own test:
`/repo/tests/include/test_vector_rfc9529_chapter_2.h`, `/repo/tests/integration/test_rfc9529_chapter2.c`.
-/

namespace Verif.Real.Rfc2

open Psa

/-- `X` -/
def ephI : Bytes :=
  toBytes 32 0x892ec28e5cb6669108470539500b705e60d008d347c5817ee9f3327c8a87bb03

/-- `Y` -/
def ephR : Bytes :=
  toBytes 32 0xe69c23fbf81bc435942446837fe827bf206c8fa10a39db47449e5a813421e1e8

/-- `SK_I` -/
def skI : Bytes :=
  toBytes 64 0x4c5b25878f507c6b9dae68fbd4fd3ff997533db0af00b25d324ea28e6c213bc8ed06a8ae61a829ba5fa54525c9d07f48dd44a302f43e0f23d8cc20b73085141e

/-- `PK_I` -/
def pkI : Bytes :=
  toBytes 32 0xed06a8ae61a829ba5fa54525c9d07f48dd44a302f43e0f23d8cc20b73085141e

/-- `SK_R` -/
def skR : Bytes :=
  toBytes 64 0xef140ff900b0ab03f0c08d879cbbd4b31ea71e6e7ee7ffcb7e7955777a332799a1db47b95184854ad12a0c1a354e418aace33aa0f2c662c00b3ac55de92f9359

/-- `PK_R` -/
def pkR : Bytes :=
  toBytes 32 0xa1db47b95184854ad12a0c1a354e418aace33aa0f2c662c00b3ac55de92f9359

/-- `CRED_I` -/
def certI : Bytes :=
  toBytes 241 0x3081ee3081a1a003020102020462319ea0300506032b6570301d311b301906035504030c124544484f4320526f6f742045643235353139301e170d3232303331363038323430305a170d3239313233313233303030305a30223120301e06035504030c174544484f4320496e69746961746f722045643235353139302a300506032b6570032100ed06a8ae61a829ba5fa54525c9d07f48dd44a302f43e0f23d8cc20b73085141e300506032b6570034100521241d8b3a770996bcfc9b9ead4e7e0a1c0db353a3bdf2910b39275ae48b756015981850d27db6734e37f67212267dd05eeff27b9e7a813fa574b72a00b430b

/-- `CRED_R` -/
def certR : Bytes :=
  toBytes 241 0x3081ee3081a1a003020102020462319ec4300506032b6570301d311b301906035504030c124544484f4320526f6f742045643235353139301e170d3232303331363038323433365a170d3239313233313233303030305a30223120301e06035504030c174544484f4320526573706f6e6465722045643235353139302a300506032b6570032100a1db47b95184854ad12a0c1a354e418aace33aa0f2c662c00b3ac55de92f9359300506032b6570034100b723bc01eab0928e8b2b6c98de19cc3823d46e7d6987b032478fecfaf14537a1af14cc8be829c6b73044101837eb4abc949565d86dce51cfae52ab82c152cb02

/-- `message_1` -/
def message1 : Bytes :=
  toBytes 37 0x0000582031f82c7b5b9cbbf0f194d913cc12ef1532d328ef32632a4881a1c0701e237f042d

/-- `message_2` -/
def message2 : Bytes :=
  toBytes 116 0x5872dc88d2d51da5ed67fc4616356bc8ca74ef9ebe8b387e623a360ba480b9b29d1cbc26dd270fe9c02c44ce3934794b1cc62ba22f05459f8d358c8d12275ac42c5f96ded5f13cc9084e5b201889a45e5a60a5562dc118619c3daa2fd9f4c9f4d6edad109dd4edf95962aafbaf9ab3f4a1f6b98f

/-- `message_3` -/
def message3 : Bytes :=
  toBytes 90 0x585825c345884aaaeb22c527f9b1d2b6787207e0163c69b62a0d43928150427203c31674e4514ea6e383b566eb29763efeb0afa518776ae1c65f856d84bf32af3a7836970466dcb71f76745d39d3025e7703e0c032ebad51947c

/-- `message_4` -/
def message4 : Bytes :=
  toBytes 9 0x484f0edee366e5c883

/-- `OSCORE_Master_Secret` -/
def secret : Bytes :=
  toBytes 16 0x1e1c6beac3a8a1cac435de7e2f9ae7ff

/-- `OSCORE_Master_Salt` -/
def salt : Bytes :=
  toBytes 8 0xce7ab844c0106d73

/-- `keyUpdate_context` -/
def entropy : Bytes :=
  toBytes 16 0xd6be169602b8bceaa01158fdb820890c

/-- `keyUpdate_OSCORE_Master_Secret` -/
def secret2 : Bytes :=
  toBytes 16 0xee0ff542c47eb0e09c69307649bdbbe5

/-- `keyUpdate_OSCORE_Master_Salt` -/
def salt2 : Bytes :=
  toBytes 8 0x80cede2a1e5aab48

/-- the fingerprint in `ID_CRED_I_cborised` -/
def fpI : Bytes :=
  toBytes 8 0xc24ab2fd7643c79f

/-- the fingerprint in `ID_CRED_R_cborised` -/
def fpR : Bytes :=
  toBytes 8 0x79f2a41b510c1f9b

def credI : Cred := .x5t certI fpI (.int (-15))
def credR : Cred := .x5t certR fpR (.int (-15))

/-- an application without EAD, whose key is the one with the first identifier -/
def app (cred peer : Cred) (pk : Bytes) : Psa.App Unit where
  alloc w _ := (true, w)
  eadCompose w _ := (none, w)
  eadProcess w _ _ := (false, w)
  credFetch w := (some (cred, kidBytes idMin), w)
  credVerify w _ := (some (peer, some pk), w)

/-- a key store with one key; the random generator gives the ephemeral key -/
def store (sk eph : Bytes) : Store where
  keys := [(idMin, ⟨attrOf suite0 .signature sk.length, sk⟩)]
  slots := 8
  clock := 0
  fault := fun _ => false
  rand := fun _ => eph

def envI : Env (World Unit) := suiteEnv algs suite0 (app credI credR pkR)
def envR : Env (World Unit) := suiteEnv algs suite0 (app credR credI pkI)

/-- `/repo/CMakePresets.json` -/
def cfg : Config := Verif.Toy.cfg

/-- set-up calls -/
def conf (suites : List Suite) (cid : Cid) : List Op :=
  [.setMethods [0], .setSuites suites, .setCid cid, .bindKeys true, .bindCrypto true, .bindCred true]

/-- the Initiator's calls -/
def opsI : List Op := conf [suite0.table] (.int (-14)) ++
  [.compose1 500, .process2 message2, .compose3 500, .process4 message4, .exportOscore 16 8 1 1, .keyUpdate entropy,
    .exportOscore 16 8 1 1]

/-- the Responder's calls -/
def opsR : List Op := conf [suite0.table] (.bstr [0x18]) ++
  [.process1 message1, .compose2 500, .process3 message3, .compose4 500, .exportOscore 16 8 1 1, .keyUpdate entropy,
    .exportOscore 16 8 1 1]

/-- the results of the calls after set-up -/
def results (E : Env (World Unit)) (w : World Unit) (ops : List Op) : List (Res Out) :=
  ((Verif.Toy.hist E cfg ops ⟨Ctx.fresh, w, []⟩).1.drop 6).map (·.2)

def expectedI : List (Res Out) :=
  [.ok (.bytes message1), .ok .unit, .ok (.bytes message3), .ok .unit, .ok (.oscore ⟨secret, salt, [0x18], [0x2d]⟩), .ok .unit,
    .ok (.oscore ⟨secret2, salt2, [0x18], [0x2d]⟩)]

def expectedR : List (Res Out) :=
  [.ok .unit, .ok (.bytes message2), .ok .unit, .ok (.bytes message4), .ok (.oscore ⟨secret, salt, [0x2d], [0x18]⟩), .ok .unit,
    .ok (.oscore ⟨secret2, salt2, [0x2d], [0x18]⟩)]

end Verif.Real.Rfc2
