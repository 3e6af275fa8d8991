import Verif.Props.Complete
import Verif.Props.Safety

/-!
# Internal buffer sizes (C35)

The library computes the sizes of its buffers for CBOR items before it encodes them. For values the computation covers the
sizes suffice, and with the premises of C12 no compose or export call fails. The computation falls short in four places, each
with a witness below.
-/

namespace Verif

open M Spec

section
variable {σ : Type} {E : Env σ} {cfg cfg' : Config} {s s' : St σ}

/-- **C35 (partial), item sizes**: the computed size of an integer, of a byte string, of a KDF info structure, of a connection
identifier and of a list of EAD tokens is at least the size of the encoding. Integers reach 17 bits, lengths 16 bits. -/
theorem C35_items_partial :
    (∀ v : Int, -65536 ≤ v → v ≤ 65535 → (encInt v).length = intMemReq v) ∧
    (∀ b : Bytes, b.length < 65536 → (encBstr b).length = b.length + bstrOh b.length) ∧
    (∀ (label n : Nat) (context : Bytes), label < 65536 → context.length < 65536 → n < 65536 →
      (info label context n).length =
        intMemReq label + (context.length + bstrOh context.length) + intMemReq (i32 n)) ∧
    (∀ (cfg : Config) (c : Cid), CidOk cfg c → (cidItem c).length = cidLen c) ∧
    (∀ ts : List EadTok, (∀ t ∈ ts, -65536 ≤ t.label ∧ t.label ≤ 65535) → (ead ts).length < 65536 →
      (ead ts).length ≤ eadLen ts) :=
  ⟨fun _ => encInt_length, fun _ => encBstr_small,
    fun label n context h1 h2 h3 => by
      rw [← encInfo_spec _ _ (by omega : n < 4294967296)]
      have := encInfo_size (label := label) h1 h2 h3
      rwa [u32_small h3] at this ⊢,
    fun _ _ h => (cidLen_size h).1, fun _ h1 h2 => (eadLen_size h1 h2).1⟩

/-- **C35 (partial), MAC context**: for a credential that can be sent, the computed size of the MAC context succeeds, and the
MAC context fits into it. -/
theorem C35_mac_context_partial {c : Ctx} {cr : Cred} {su : Suite} {k : Bounds} (hs : SuiteOk su)
    (hm : c.message = .msg2 ∧ c.thState = .th2 ∨ c.message = .msg3 ∧ c.thState = .th3)
    (ht : c.th.length = su.hash) (hc : CredOk cfg cfg' cr) (he : EadOk k c.ead) (hcid : CidOk cfg' (macCid c)) :
    ∃ n m, macContextLen cfg c cr = .ok n ∧ macContext cfg c cr n = .ok m := by
  obtain ⟨i, hi⟩ := hc.sent
  obtain ⟨n, m, h1, _, h2⟩ := macContext_total hs hm ht (credSizes hi hc.room hc.hashAlg hc.size) hc.size he hcid
  exact ⟨n, m, h1, h2⟩

/-- A KDF info structure for a secret of 256 bytes or more does not fit into the exporter's buffer when the hash is of at most
255 bytes. -/
theorem info_long {label n : Nat} {c : Ctx} (h1 : c.suite.hash ≤ 255) (h2 : 256 ≤ n) (h3 : n < 4294967296) (h4 : label < 65536) :
    ¬ (encInfo label [] (u32 n)).length ≤ intMemReq (i32 label) + 1 + intMemReq (i32 c.suite.hash) := by
  have e1 : (encInt (label : Int)).length = intMemReq label := encInt_length (by omega) (by omega)
  have e2 : intMemReq (i32 c.suite.hash) ≤ 2 := by
    rw [i32_small (by omega)]
    unfold intMemReq
    repeat' split
    all_goals omega
  have e3 : u32 n = n := Nat.mod_eq_of_lt h3
  have e4 : 3 ≤ (head 0 n).length := by
    rw [head_length]
    unfold headLen
    repeat' split
    all_goals omega
  rw [i32_small h4, e3]
  unfold encInfo
  have e5 : (encBstr []).length = 1 := rfl
  simp only [List.length_append, e1, e5]
  omega

/-- **C35 is violated** by the exporter: the buffer for the KDF info structure is sized with the hash length in place of the
requested length. With a hash of at most 255 bytes, no application can export a secret of 256 bytes or more, whatever the
state, although EDHOC_Expand gives up to 255 hash lengths. -/
theorem C35_exporter_violated {label n : Nat} {out : Out} (h1 : s.ctx.suite.hash ≤ 255) (h2 : 256 ≤ n) (h3 : n < 4294967296) :
    step E cfg (.exportSecret label n) s ≠ (.ok out, s') := by
  intro h
  obtain ⟨r, h, -⟩ := mapOut_ok.1 h
  unfold exportSecret at h
  simp only [bind_ok, getCtx_ok, require_ok] at h
  obtain ⟨_, _, ⟨h4, rfl⟩, _, _, ⟨_, rfl⟩, c, _, ⟨rfl, rfl⟩, _, _, _, _, _, _, _, _, _, p, s4, _, _, s5, _, h⟩ := h
  unfold expandInfo at h
  obtain ⟨i, s6, h5, -⟩ := bind_ok.1 h
  obtain ⟨h5, -⟩ := ofOption_ok.1 h5
  simp only [Bool.and_eq_true, decide_eq_true_eq] at h4
  exact info_long h1 h2 h3 (by omega) (fits_some h5).2

end

section
variable {σI σR : Type} {P : Prims} {V : Bytes → Bytes → Bytes → Bool} {su : Suite} {k : Bounds} {me : Nat}
  {II : σI → Prop} {IR : σR → Prop} {EI : Env σI} {ER : Env σR} {cfgI cfgR : Config} {pI pR : Identity} {gI gR : Choice}

/-- **C35 (partial), compose and export calls**: with the premises of C12, the compose calls of both sides succeed, and both
sides can export a secret with each private label. -/
theorem C35_calls_partial (h : Parties P V su k me II IR EI ER cfgI cfgR pI pR gI gR) {sI : St σI} {sR : St σR}
    (jI : II sI.env) (jR : IR sR.env) {n label a : Nat} (hn : 65000 ≤ n) (hl : 32768 ≤ label ∧ label ≤ 65535) (ha : SecretLen su a) :
    ∃ m1 m2 m3 m4 x sI' sR',
      Run EI cfgI sI (done gI.calls ++
        [(.compose1 n, .ok (.bytes m1)), (.process2 m2, .ok .unit), (.compose3 n, .ok (.bytes m3)),
          (.process4 m4, .ok .unit), (.exportSecret label a, .ok (.bytes x))]) sI' ∧
      Run ER cfgR sR (done gR.calls ++
        [(.process1 m1, .ok .unit), (.compose2 n, .ok (.bytes m2)), (.process3 m3, .ok .unit),
          (.compose4 n, .ok (.bytes m4)), (.exportSecret label a, .ok (.bytes x))]) sR' := by
  have HI : Host P su k II EI cfgI := ⟨h.honestI, h.sized, h.suite, h.roomI, h.items.1, h.derive⟩
  have HR : Host P su k IR ER cfgR := ⟨h.honestR, h.sized, h.suite, h.roomR, h.items.2, h.derive⟩
  obtain ⟨m1, m2, m3, prk4, th4, cI, cR, i3, r3, kI, kR, a3, b3, sa, sb, -, -, tl, pl, w1, w2⟩ := handshake h jI jR hn
  have ha' := secretLen_oh ha
  obtain ⟨m4, r4, q7, ts4, g4, b4, w3⟩ := message4Compose_wp HR b3 tl pl sb hn ⟨rfl, w2⟩
  obtain ⟨_, i4, q8, a4, w4⟩ := message4Process_wp HI a3 tl pl sa g4 ⟨rfl, w1⟩
  obtain ⟨x, i5, e1, rfl, -⟩ := exportSecret_gets (label := label) (n := a) HI a4.live (fun _ => a4.keys.1) (Or.inl a4.keys.2)
    (by rw [a4.th]; exact tl) (by rw [a4.prk]; exact pl) (Or.inr (Or.inr hl)) ha' i4 ⟨rfl, w4⟩
  obtain ⟨y, r5, e2, e3, -⟩ := exportSecret_gets (label := label) (n := a) HR b4.live (fun _ => b4.keys.1) (Or.inl b4.keys.2)
    (by rw [b4.th]; exact tl) (by rw [b4.prk]; exact pl) (Or.inr (Or.inr hl)) ha' r4 ⟨rfl, w3⟩
  have e4 : prkOutOf P su r4.ctx = prkOutOf P su i4.ctx := by
    unfold prkOutOf
    rw [if_pos b4.keys.2, if_pos a4.keys.2, a4.prk, b4.prk, a4.th, b4.th]
  rw [e4] at e3
  subst e3
  refine ⟨m1, m2, m3, m4, exported P su (prkOutOf P su i4.ctx) label a, i5, r5, ?_, ?_⟩
  · simpa using run_snoc (run_snoc kI (o := .process4 m4) (mapOut_ok.2 ⟨(), q8, rfl⟩) defined_ok)
      (o := .exportSecret label a) (mapOut_ok.2 ⟨_, e1, rfl⟩) defined_ok
  · simpa using run_snoc (run_snoc kR (o := .compose4 n) (mapOut_ok.2 ⟨m4, q7, rfl⟩) defined_ok)
      (o := .exportSecret label a) (mapOut_ok.2 ⟨_, e2, rfl⟩) defined_ok

end

/-- Non-vacuity: the toy parties complete a handshake with message_4 and export 16 bytes with label 40000. -/
example (m : Nat) (hm : m < 4) : ∃ m1 m2 m3 m4 x sI' sR',
    Run (Toy.env Toy.alice) Toy.cfg Toy.start (done (Toy.choice m (.int 5)).calls ++
      [(.compose1 65000, .ok (.bytes m1)), (.process2 m2, .ok .unit), (.compose3 65000, .ok (.bytes m3)),
        (.process4 m4, .ok .unit), (.exportSecret 40000 16, .ok (.bytes x))]) sI' ∧
    Run (Toy.env Toy.bob) Toy.cfg Toy.start (done (Toy.choice m (.bstr [0x18, 9])).calls ++
      [(.process1 m1, .ok .unit), (.compose2 65000, .ok (.bytes m2)), (.process3 m3, .ok .unit),
        (.compose4 65000, .ok (.bytes m4)), (.exportSecret 40000 16, .ok (.bytes x))]) sR' :=
  C35_calls_partial (Toy.parties hm) trivial trivial (by decide) (by decide) ⟨by decide, Or.inl (by decide)⟩

/-- Bob with a key identifier as long as the configured maximum (CONFIG_LIBEDHOC_MAX_LEN_OF_CRED_KEY_ID) -/
def Toy.bobKid : Toy.Party := { Toy.bob with cred := .kid [0x41] false (.bstr [1, 2, 3, 4]) }
/-- Bob with an EAD label of three bytes and a value -/
def Toy.bobEad : Toy.Party := { Toy.bob with ead := fun _ => [⟨65536, some [1]⟩] }

/-- **C35 is violated** by a key identifier whose length is the configured maximum: its encoding, with the header, is held in a
buffer of that length. `edhoc_message_2_compose` fails however large the message buffer. -/
theorem C35_kid_violated : ∃ h s, Session (Toy.env Toy.bobKid) Toy.cfg () [] h s ∧
    (step (Toy.env Toy.bobKid) Toy.cfg (.compose2 65000) s).1 = .err .cbor :=
  ⟨_, _, Toy.session Toy.bobKid beforeM2 (by decide +kernel), by decide +kernel⟩

/-- One byte less, and the call succeeds. -/
example : ∃ m, (step (Toy.env { Toy.bobKid with cred := .kid [0x41] false (.bstr [1, 2, 3]) }) Toy.cfg (.compose2 65000)
    (Toy.after { Toy.bobKid with cred := .kid [0x41] false (.bstr [1, 2, 3]) } beforeM2)).1 = .ok (.bytes m) :=
  ⟨[76, 0, 120, 103, 46, 49, 121, 61, 79, 76, 19, 35, 81], by decide +kernel⟩

/-- **C35 is violated** by an EAD label outside the range of 17-bit integers: its size is taken to be 4 bytes, and it is of 5. -/
theorem C35_label_violated : intMemReq 65536 < (encInt 65536).length ∧
    ∃ h s, Session (Toy.env Toy.bobEad) Toy.cfg () [] h s ∧
      (step (Toy.env Toy.bobEad) Toy.cfg (.compose2 65000) s).1 = .err .cbor :=
  ⟨by decide, _, _, Toy.session Toy.bobEad beforeM2 (by decide +kernel), by decide +kernel⟩

/-- The exporter's hypothesis holds in a session in which a shorter secret can be exported. -/
example : (Toy.after Toy.bob waitM3).ctx.suite.hash ≤ 255 ∧
    (step (Toy.env Toy.bob) Toy.cfg (.exportSecret 40000 256) (Toy.after Toy.bob (waitM3 ++ [.process3 (Toy.msg 3 3)]))).1 =
      .err .cbor ∧
    ∃ x, (step (Toy.env Toy.bob) Toy.cfg (.exportSecret 40000 2) (Toy.after Toy.bob (waitM3 ++ [.process3 (Toy.msg 3 3)]))).1 =
      .ok (.bytes x) :=
  ⟨by decide +kernel, by decide +kernel, [225, 14], by decide +kernel⟩

end Verif
