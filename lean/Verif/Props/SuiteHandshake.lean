import Verif.Suite.Honest
import Verif.Suite.ToyShake
import Verif.Props.Complete
import Verif.Props.Suites

/-!
# C50, C51: public keys without their second coordinate, and honest handshakes over the shipped suites
-/

namespace Verif

open Spec Psa

variable {τ : Type} {A : Algs} {q : Params} {X : Psa.App τ}

/-! ## C50: decompression -/

/-- **C50**. The numbers in the code that are used as primes are prime. -/
theorem C50_primes {q : Params} (hq : q ∈ shipped) {c : Curve} (hc : q.curve = some c) : c.p.Prime :=
  (good (shipped_curve hq hc)).prime

/-- **C50**. From the x-coordinate of a point on the curve of a shipped suite the code computes a point with this
x-coordinate, in the encoding `4 ‖ X ‖ Y`. -/
theorem C50_decompress {q : Params} (hq : q ∈ shipped) {c : Curve} (hc : q.curve = some c) {x y : Bytes} (h : Point c x y) :
    ∃ y', decompress c x = 4 :: x ++ y' ∧ Point c x y' :=
  decompress_point (good (shipped_curve hq hc)) h

/-- **C50**. With the two coordinates the code computes with, there is no other point: `y'` is `y` or its negative. -/
theorem C50_either {q : Params} (hq : q ∈ shipped) {c : Curve} (hc : q.curve = some c) {x y y' : Bytes} (h : Point c x y)
    (h' : Point c x y') : beNat y' = beNat y ∨ beNat y' + beNat y = c.p := by
  have hg := good (shipped_curve hq hc)
  have : Fact c.p.Prime := ⟨hg.prime⟩
  have h1 := point_eqn.1 h.eqn
  have h2 := point_eqn.1 h'.eqn
  have h3 : (beNat y' : ZMod c.p) ^ 2 = (beNat y : ZMod c.p) ^ 2 := h2.trans h1.symm
  rcases sq_eq_sq_iff_eq_or_eq_neg.1 h3 with h4 | h4
  · left
    have := (ZMod.natCast_eq_natCast_iff' _ _ _).1 h4
    rwa [Nat.mod_eq_of_lt h.ltY, Nat.mod_eq_of_lt h'.ltY] at this
  · right
    have h5 : ((beNat y' + beNat y : Nat) : ZMod c.p) = 0 := by rw [Nat.cast_add, h4, neg_add_cancel]
    obtain ⟨k, hk⟩ := (ZMod.natCast_eq_zero_iff _ _).1 h5
    have hy := h.ltY
    have hy' := h'.ltY
    match k with
    | 0 =>
      have h0 : beNat y = 0 := by omega
      rw [h0] at h1
      have hr : ((beNat x : Nat) : ZMod c.p) ^ 3 - 3 * (beNat x : ZMod c.p) + c.b = 0 := by
        rw [← h1]; simp
      exact absurd hr (hg.noRoot _)
    | 1 => omega
    | k + 2 =>
      rw [Nat.mul_add] at hk
      omega

/-- **C50**. On the NIST curves the key agreement of the suite, with a key imported for it and a key store that does not fail,
succeeds exactly if the bytes from the peer are the x-coordinate of a point. -/
theorem C50_exact (hl : AlgLaws A q) (hq : q ∈ shipped) {c : Curve} (hc : q.curve = some c) {raw kid pk : Bytes}
    {w w1 w2 : World τ} (h1 : (suiteEnv A q X).importKey w .keyAgreement raw = (some kid, w1)) (hk : Kept w1.1 w2.1)
    (hf : ∀ n, w2.1.clock ≤ n → w2.1.fault n = false) :
    ((suiteEnv A q X).keyAgreement w2 kid pk).1 ≠ none ↔ ∃ y, Point c pk y := by
  constructor
  · intro h
    obtain ⟨o, ho⟩ := Option.ne_none_iff_exists'.1 h
    exact (C47_key_agreement hl hq h1 hk (Prod.ext ho rfl)).2 c hc
  · rintro ⟨y, hy⟩
    have hs := shaped (A := A) hq
    have he := hs.ecc c hc
    obtain ⟨h3, h4⟩ := import_find (by simp) h1
    obtain ⟨y', h5, h6⟩ := decompress_point (good (shipped_curve hq hc)) hy
    have hbits : (attrOf q .keyAgreement raw.length).bits = 8 * c.len := by simp [attrOf, hc, he.1]
    have hpt : A.ecPoint (8 * c.len) (decompress c pk) = true := ((hl.curve c hc).point _).2 ⟨_, _, h5, h6⟩
    have hpr : A.ecPriv (8 * c.len) raw = true := by
      simp only [keyOk, attrOf, hc, Bool.and_eq_true, he.1] at h4
      exact h4.2
    have hsz := (hl.curve c hc).size raw _ hpr hpt
    have := keyAgree_run_ec (A := A) (id := kidNat kid) (n := q.ecc) (peer := pk) hc hf (hk _ _ h3) (by simp [attrOf, hc])
      (by simp [attrOf, hc]) (by simp [attrOf, hc]) hy.lenX he.1 (by omega) (by rw [hbits]; exact hpt)
      (by simp only [hbits]; omega)
    show (runP (keyAgree A q (kidNat kid) pk q.ecc) w2).1 ≠ none
    rw [runP_eq this]
    exact Option.some_ne_none _

/-- The premises can be met: the base points are points, and a key can be imported. -/
example : Point p256 (Psa.Toy.base p256).1 (Psa.Toy.base p256).2 ∧ Point p384 (Psa.Toy.base p384).1 (Psa.Toy.base p384).2 :=
  ⟨Psa.Toy.base_point _ (Or.inl rfl), Psa.Toy.base_point _ (Or.inr rfl)⟩

/-! ## C51: honest handshakes -/

section
variable {k : Bounds} {me : Nat} {τI τR : Type} {XI : Psa.App τI} {XR : Psa.App τR} {JI : τI → Prop} {JR : τR → Prop}
  {cfgI cfgR : Config} {idI idR : Nat} {ownI ownR : Key} {pI pR : Identity} {gI gR : Choice}

/-- Parties with a shipped suite are parties in the sense of C12. -/
theorem suite_parties (h : SuiteParties A q k me XI XR JI JR cfgI cfgR idI idR ownI ownR pI pR gI gR) :
    Parties (primsOf A q) (validSig A q) q.table k me (Psa.Fine A q idI ownI JI) (Psa.Fine A q idR ownR JR) (suiteEnv A q XI)
      (suiteEnv A q XR) cfgI cfgR pI pR gI gR where
  method := h.method
  lawful := prims_lawful h.laws
  suite := suite_ok h.shipped
  sized := prims_sized h.laws h.shipped
  honestI := suite_honest h.laws h.shipped h.servesI.toHosts h.derive.2
  honestR := suite_honest h.laws h.shipped h.servesR.toHosts h.derive.2
  ownsI := suite_owns h.laws h.shipped h.servesI.toHosts h.kidI h.keyI
  ownsR := suite_owns h.laws h.shipped h.servesR.toHosts h.kidR h.keyR
  knowsI := suite_recognises h.laws h.shipped h.servesR h.keyI
  knowsR := suite_recognises h.laws h.shipped h.servesI h.keyR
  credI := h.credI
  credR := h.credR
  items := h.items
  derive := h.derive.1
  keystream := h.keystream
  roomI := h.roomI
  roomR := h.roomR
  choiceI := h.choiceI
  choiceR := h.choiceR
  methodI := h.methodI
  methodR := h.methodR
  suites := h.suites
  cidI := h.cidI
  cidR := h.cidR

/-- **C51**. Two applications use the same shipped suite, each with its own key store that is in order. They set up their
contexts and exchange the messages of EDHOC through buffers of at least 65000 bytes. Every call succeeds, with or without
message 4, for each method; at the end both export the same OSCORE master secret and salt, with mirrored identifiers. -/
theorem C51_completes (h : SuiteParties A q k me XI XR JI JR cfgI cfgR idI idR ownI ownR pI pR gI gR)
    {sI : St (World τI)} {sR : St (World τR)}
    (oI : InOrder A q idI ownI sI.env.1) (jI : JI sI.env.2) (oR : InOrder A q idR ownR sR.env.1) (jR : JR sR.env.2)
    {n a b : Nat} (hn : 65000 ≤ n) (ha : SecretLen q.table a) (hb : SecretLen q.table b) (four : Bool) :
    ∃ m1 m2 m3 m4 secret salt sI' sR',
      Run (suiteEnv A q XI) cfgI sI (done gI.calls ++
        [(.compose1 n, .ok (.bytes m1)), (.process2 m2, .ok .unit), (.compose3 n, .ok (.bytes m3))] ++
        (if four then [(.process4 m4, .ok .unit)] else []) ++
        [(.exportOscore a b n n, .ok (.oscore ⟨secret, salt, oscoreIdOf gR.cid, oscoreIdOf gI.cid⟩))]) sI' ∧
      Run (suiteEnv A q XR) cfgR sR (done gR.calls ++
        [(.process1 m1, .ok .unit), (.compose2 n, .ok (.bytes m2)), (.process3 m3, .ok .unit)] ++
        (if four then [(.compose4 n, .ok (.bytes m4))] else []) ++
        [(.exportOscore a b n n, .ok (.oscore ⟨secret, salt, oscoreIdOf gI.cid, oscoreIdOf gR.cid⟩))]) sR' :=
  C12_completes (suite_parties h) ⟨oI, jI⟩ ⟨oR, jR⟩ hn ha hb four

end

namespace Psa.Toy

/-- private key of a toy party: for EdDSA the seed and the public key -/
def secretOf (q : Params) (b : UInt8) (signs : Bool) : Bytes :=
  List.replicate (if signs && q.curve.isNone then 64 else q.ecc) b

/-- public key of a toy party -/
def publicOf (q : Params) (b : UInt8) : Bool → Bytes
  | true => match q.curve with
    | none => List.replicate 32 b
    | some c => algs.ecPub (8 * c.len) (secretOf q b true)
  | false => pubOf q (secretOf q b false)

/-- a toy party -/
def party (q : Params) (cred : Cred) (b : UInt8) (signs : Bool) : Identity :=
  ⟨cred, kidBytes idMin, secretOf q b signs, publicOf q b signs⟩

/-- use of its key -/
def useOf (signs : Bool) : KeyType := if signs then .signature else .keyAgreement

/-- its key store -/
def storeOf (q : Params) (b : UInt8) (signs : Bool) : Store := store q (useOf signs) (secretOf q b signs)

/-- its own key -/
def ownOf (q : Params) (b : UInt8) (signs : Bool) : Key := ⟨attrOf q (useOf signs) (secretOf q b signs).length, secretOf q b signs⟩

/-- its settings -/
def choice (q : Params) (me : Nat) (cid : Cid) : Choice := ⟨[me], [q.table], cid, some (true, true)⟩

theorem inOrder {q : Params} (hq : q ∈ shipped) (b : UInt8) (signs : Bool) :
    InOrder algs q idMin (ownOf q b signs) (storeOf q b signs) where
  calm _ _ := rfl
  free := by
    have : (storeOf q b signs).freeId = some (idMin + 1) := by
      simp only [shipped, List.mem_cons, List.not_mem_nil, or_false] at hq
      rcases hq with rfl | rfl | rfl | rfl <;> cases signs <;> rfl
    rw [this]; exact Option.some_ne_none _
  draws n _ := by
    have : (fitLen q.ecc ((storeOf q b signs).rand n)).length = q.ecc := by
      simp only [fitLen, List.length_append, List.length_take, List.length_replicate]; omega
    simp only [shipped, List.mem_cons, List.not_mem_nil, or_false] at hq
    rcases hq with rfl | rfl | rfl | rfl <;> simp_all [isPriv, suite0, suite2, suite4, suite24, algs, p256, p384]
  own := rfl

theorem serves (cred peer : Cred) (q : Params) (b b' : UInt8) (s s' : Bool) :
    Serves (app cred peer (publicOf q b' s')) Verif.Toy.bounds (fun _ => True) (party q cred b s) (party q peer b' s') where
  alloc _ _ _ := ⟨rfl, rfl, trivial⟩
  eadCompose _ _ _ := ⟨⟨[], rfl, by decide, by simp, by decide⟩, rfl, trivial⟩
  eadProcess _ _ _ _ := ⟨rfl, rfl, trivial⟩
  credFetch _ _ := ⟨rfl, rfl, trivial⟩
  credVerify _ _ _ _ := ⟨rfl, rfl, trivial⟩

theorem ownKey {q : Params} (hq : q ∈ shipped) (cred : Cred) (b : UInt8) (signs : Bool) :
    OwnKey algs q (ownOf q b signs) (party q cred b signs) signs := by
  cases signs
  · exact ⟨rfl, isPriv_ok hq b, (pubOf_eq hq).symm⟩
  · refine ⟨rfl, ?_⟩
    simp only [shipped, List.mem_cons, List.not_mem_nil, or_false] at hq
    rcases hq with rfl | rfl | rfl | rfl <;>
      simp [suite0, suite2, suite4, suite24, party, secretOf, publicOf, algs, p256, p384]

theorem suiteParties {q : Params} (hq : q ∈ shipped) {me : Nat} (hm : me < 4) :
    SuiteParties algs q Verif.Toy.bounds me
      (app credI credR (publicOf q 0x43 (responderSigns me))) (app credR credI (publicOf q 0x21 (initiatorSigns me)))
      (fun _ => True) (fun _ => True) Verif.Toy.cfg Verif.Toy.cfg idMin idMin
      (ownOf q 0x21 (initiatorSigns me)) (ownOf q 0x43 (responderSigns me))
      (party q credI 0x21 (initiatorSigns me)) (party q credR 0x43 (responderSigns me))
      (choice q me (.int 5)) (choice q me (.bstr [0x18, 9])) where
  shipped := hq
  laws := algs_laws hq
  method := hm
  servesI := serves _ _ _ _ _ _ _
  servesR := serves _ _ _ _ _ _ _
  kidI := ⟨rfl, by decide⟩
  kidR := ⟨rfl, by decide⟩
  keyI := ownKey hq _ _ _
  keyR := ownKey hq _ _ _
  credI := ⟨⟨_, .kidInt _ (by decide) (by decide)⟩, trivial, trivial, nofun,
    show (idCred credI).length + (Spec.cred credI).length ≤ 40000 by decide +kernel⟩
  credR := ⟨⟨_, .kidBstr _ (by unfold SizeOk; decide)⟩, show (encBstr [1, 2]).length ≤ 4 by decide +kernel,
    show (encBstr [1, 2]).length ≤ 4 by decide +kernel, nofun,
    show (idCred credR).length + (Spec.cred credR).length ≤ 40000 by decide +kernel⟩
  items := by decide
  derive := by
    simp only [Spec.shipped, List.mem_cons, List.not_mem_nil, or_false] at hq
    rcases hq with rfl | rfl | rfl | rfl <;> decide
  keystream := show (idCred credR).length + 2000 + 2100 ≤ 5000 by decide +kernel
  roomI := by
    simp only [Spec.shipped, List.mem_cons, List.not_mem_nil, or_false] at hq
    rcases hq with rfl | rfl | rfl | rfl <;> exact ⟨by decide, by decide, Or.inl rfl⟩
  roomR := by
    simp only [Spec.shipped, List.mem_cons, List.not_mem_nil, or_false] at hq
    rcases hq with rfl | rfl | rfl | rfl <;> exact ⟨by decide, by decide, Or.inl rfl⟩
  choiceI := ⟨by
    intro o ho
    simp only [Choice.settings, choice, List.cons_append, List.nil_append, List.mem_cons, List.not_mem_nil, or_false] at ho
    rcases ho with rfl | rfl | rfl | rfl | rfl | rfl | rfl <;> simp [documented, Verif.Toy.cfg],
    show 1 ≤ 3 by decide, fun p hp => by
      cases List.mem_singleton.1 hp
      simp only [Spec.shipped, List.mem_cons, List.not_mem_nil, or_false] at hq
      rcases hq with rfl | rfl | rfl | rfl <;> decide, rfl⟩
  choiceR := ⟨by
    intro o ho
    simp only [Choice.settings, choice, List.cons_append, List.nil_append, List.mem_cons, List.not_mem_nil, or_false] at ho
    rcases ho with rfl | rfl | rfl | rfl | rfl | rfl | rfl <;> simp [documented, Verif.Toy.cfg],
    show 1 ≤ 3 by decide, fun p hp => by
      cases List.mem_singleton.1 hp
      simp only [Spec.shipped, List.mem_cons, List.not_mem_nil, or_false] at hq
      rcases hq with rfl | rfl | rfl | rfl <;> decide, rfl⟩
  methodI := rfl
  methodR := by simp [choice]
  suites := show 1 ≤ 3 by decide
  cidI := ⟨by decide, by decide⟩
  cidR := ⟨by decide, by decide⟩

end Psa.Toy

/-- The premises of C51 can be met, for each shipped suite and each method. -/
example {q : Params} (hq : q ∈ shipped) {me : Nat} (hm : me < 4) (four : Bool) :=
  C51_completes (Psa.Toy.suiteParties hq hm)
    (sI := ⟨Ctx.fresh, (Psa.Toy.storeOf q 0x21 (initiatorSigns me), ()), []⟩)
    (sR := ⟨Ctx.fresh, (Psa.Toy.storeOf q 0x43 (responderSigns me), ()), []⟩)
    (Psa.Toy.inOrder hq _ _) trivial (Psa.Toy.inOrder hq _ _) trivial (n := 65000) (by decide)
    (a := 16) (b := 8) ⟨by decide, Or.inl (by decide)⟩ ⟨by decide, Or.inl (by decide)⟩ four

end Verif
