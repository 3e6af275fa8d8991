import Verif.Gen.Fill
import Verif.Gen.Preferred

/-!
# C52, C53: the generated CBOR decoders and encoders

The functions of `/repo/backends/cbor/src`, on the model of the zcbor runtime they call. Decoders get a byte string and a zeroed
structure and return whether they accept, the rest of the input and the structure. Encoders get the size of the output buffer and
a structure and return the bytes written.
-/

namespace Verif.Gen

open Spec Spec.Cddl

variable {d : DecCfg}

/-! ## C52: decoders -/

/-- **C52**, message_1. If `cbor_decode_message_1` accepts, the input begins with a message_1 that has the method, the suites, G_X,
C_I and the EAD items of the structure. -/
theorem C52_message1 {bs rest : Bytes} {r : Msg1R} (h : cborDecodeMsg1 d bs = (true, rest, r)) :
    ∃ b t, Message1 r.value b ∧ bs = b ++ t ∧ r.value.ead.length ≤ 3 ∧ (r.eadPresent = true ↔ r.value.ead ≠ []) := by
  obtain ⟨b, rest', r', h1, h2, -, h4⟩ := cborDecodeMsg1_eq (d := d) bs
  rw [h] at h1
  obtain ⟨rfl, rfl, rfl⟩ : true = b ∧ rest = rest' ∧ r = r' := by simpa using h1
  obtain ⟨b, t, h5, h6, h7⟩ := getMsg1_sound h2.symm
  exact ⟨b, t, h5, h6, h7, by rw [h4]; cases r.value.ead <;> simp⟩

/-- **C52**, message_1. The preferred encoding of every message_1 that the CDDL admits is accepted and gives its fields; there are no
lengths without bytes. -/
theorem C52_message1_accepts {m : Msg1} (h : Msg1Fit m) (hw : m.Wire) :
    ∃ rest r, cborDecodeMsg1 d (msg1 m) = (true, rest, r) ∧ r.value = m ∧ r.overs = (0, 0, 0) := by
  obtain ⟨b, rest, r, h1, h2, h3, -⟩ := cborDecodeMsg1_eq (d := d) (msg1 m)
  rcases encMsg1_fit m with ⟨h5, -⟩ | ⟨-, h5⟩
  · rw [getMsg1_encMsg1 h5 hw] at h2
    rw [staleMsg1_encMsg1 h5 hw] at h3
    obtain ⟨rfl, rfl⟩ : b = true ∧ r.value = m := by simpa using h2
    exact ⟨rest, r, h1, rfl, h3⟩
  · exact absurd h h5

/-- what a decoder that accepts must have been equal to -/
theorem accepted {α ρ : Type} {x : Bool × Bytes × ρ} {f : ρ → α} {o : Option α} {P : Bool → Bytes → ρ → Prop}
    (h : ∃ b rest r, x = (b, rest, r) ∧ (if b then some (f r) else none) = o ∧ P b rest r) :
    (∀ rest r, x = (true, rest, r) → o = some (f r) ∧ P true rest r) ∧
      (∀ a, o = some a → ∃ rest r, x = (true, rest, r) ∧ f r = a ∧ P true rest r) := by
  obtain ⟨b, rest, r, rfl, h2, h3⟩ := h
  refine ⟨?_, ?_⟩
  · intro rest' r' h
    obtain ⟨rfl, rfl, rfl⟩ : b = true ∧ rest = rest' ∧ r = r' := by simpa using h
    exact ⟨h2.symm, h3⟩
  · intro a h
    rw [h] at h2
    cases b with
    | false => cases h2
    | true => exact ⟨rest, r, rfl, Option.some.inj h2, h3⟩

/-- **C52**, PLAINTEXT_2: if `cbor_decode_plaintext_2` accepts, the input begins with the PLAINTEXT_2 in the structure. -/
theorem C52_plaintext2 {bs rest : Bytes} {r : Ptxt2R} (h : cborDecodePtxt2 d bs = (true, rest, r)) :
    ∃ b t, Plaintext2 r.cr.cid r.rest.value b ∧ bs = b ++ t ∧ r.rest.value.ead.length ≤ 3 ∧
      (r.rest.eadPresent = true ↔ r.rest.value.ead ≠ []) := by
  obtain ⟨h1, -, h2⟩ := (accepted (cborDecodePtxt2_eq (d := d) bs)).1 _ _ h
  obtain ⟨h3, b, t, h4, h5⟩ := getPtxt2_sound h1
  refine ⟨b, t, h4, h5, h3, ?_⟩
  rw [h2]
  show _ ↔ toks r.rest.ead ≠ []
  cases toks r.rest.ead <;> simp

/-- **C52**, PLAINTEXT_3 -/
theorem C52_plaintext3 {bs rest : Bytes} {r : PtxtR} (h : cborDecodePtxt3 d bs = (true, rest, r)) :
    ∃ b t, Plaintext3 r.value b ∧ bs = b ++ t ∧ r.value.ead.length ≤ 3 ∧ (r.eadPresent = true ↔ r.value.ead ≠ []) := by
  obtain ⟨h1, -, h2⟩ := (accepted (cborDecodePtxt3_eq (d := d) bs)).1 _ _ h
  obtain ⟨h3, b, t, h4, h5⟩ := getPtxt3_sound h1
  refine ⟨b, t, h4, h5, h3, ?_⟩
  rw [h2]
  show _ ↔ toks r.ead ≠ []
  cases toks r.ead <;> simp

/-- **C52**, PLAINTEXT_4: `cbor_decode_plaintext_4` accepts every input; it begins with the EAD items in the structure. -/
theorem C52_plaintext4 (bs : Bytes) :
    ∃ rest r, cborDecodePtxt4 d bs = (true, rest, r) ∧ (toks r.ead).length ≤ 3 ∧ (r.present = true ↔ toks r.ead ≠ []) ∧
      ∃ b t, Plaintext4 (toks r.ead) b ∧ bs = b ++ t := by
  obtain ⟨rest, r, h1, h2, -, h3⟩ := cborDecodePtxt4_eq (d := d) bs
  obtain ⟨h4, b, t, h5, h6⟩ := getPtxt4_sound (d := d) bs
  refine ⟨rest, r, h1, by rw [h2]; exact h4, ?_, b, t, by rw [h2]; exact h5, h6⟩
  rw [h3]
  cases toks r.ead <;> simp

/-- **C52**, the byte strings that are message_2, message_3 and message_4 -/
theorem C52_bstr {bs rest : Bytes} {z : ZStr} (h : cborDecodeBstr d bs = (true, rest, z)) :
    ∃ b t, BstrItem z.bytes b ∧ bs = b ++ t := by
  obtain ⟨b, rest', r, h1, h2⟩ := cborDecodeBstr_eq (d := d) bs
  obtain ⟨h3, -⟩ := (accepted (P := fun _ _ _ => True) ⟨b, rest', r, h1, h2, trivial⟩).1 _ _ h
  exact getMsgBstr_sound h3

/-- **C52**, a connection identifier: what is left of the input is known. -/
theorem C52_cid {bs rest : Bytes} {r : IntStr} (h : cborDecodeCid d bs = (true, rest, r)) :
    ∃ b, CidItem r.cid b ∧ bs = b ++ rest := by
  obtain ⟨b, rest', r', h1, h2⟩ := cborDecodeCid_eq (d := d) bs
  rw [h] at h1
  obtain ⟨rfl, rfl, rfl⟩ : true = b ∧ rest = rest' ∧ r = r' := by simpa using h1
  exact getCid_sound h2.symm

/-- **C52**, an integer -/
theorem C52_int {bs rest : Bytes} {v : Int} (h : cborDecodeInt d bs = (true, rest, v)) :
    ∃ b, IntItem v b ∧ bs = b ++ rest := by
  obtain ⟨b, rest', r', h1, h2⟩ := cborDecodeInt_eq (d := d) bs
  rw [h] at h1
  obtain ⟨rfl, rfl, rfl⟩ : true = b ∧ rest = rest' ∧ v = r' := by simpa using h1
  exact getInt_sound h2.symm

/-- **C52**, the error message: if `cbor_decode_message_error` accepts, the input begins with the error code, and, if ERR_INFO is
present, with the error code and that ERR_INFO. -/
theorem C52_error {bs rest : Bytes} {r : ErrMsgR} (h : cborDecodeErrMsg d bs = (true, rest, r)) :
    ∃ b t, IntItem r.value.1 b ∧ bs = b ++ t ∧ ∀ i, r.value.2 = some i → ∃ c u, ErrInfoItem i c ∧ t = c ++ u := by
  obtain ⟨b, rest', r', h1, h2⟩ := cborDecodeErrMsg_eq (d := d) bs
  obtain ⟨h3, -⟩ := (accepted (P := fun _ _ _ => True) ⟨b, rest', r', h1, h2, trivial⟩).1 _ _ h
  unfold getErrMsg at h3
  cases hi : getInt d bs with
  | none => rw [hi] at h3; cases h3
  | some x =>
    obtain ⟨c, t⟩ := x
    rw [hi] at h3
    simp only at h3
    obtain ⟨b, h4, h5⟩ := getInt_sound hi
    cases he : getErrInfo d t with
    | none =>
      rw [he] at h3
      have h6 : (c, none) = r.value := Option.some.inj h3
      rw [← h6]
      exact ⟨b, t, h4, h5, by simp⟩
    | some y =>
      obtain ⟨i, u⟩ := y
      rw [he] at h3
      have h6 : (c, some i) = r.value := Option.some.inj h3
      rw [← h6]
      obtain ⟨e, h7, h8⟩ := getErrInfo_sound he
      refine ⟨b, t, h4, h5, ?_⟩
      intro j hj
      cases hj
      exact ⟨e, u, h7, h8⟩

/-- **C52**, PLAINTEXT_3: preferred encodings are accepted and give their fields. -/
theorem C52_plaintext3_accepts {p : Ptxt} (h : PtxtFit p) (hi : p.idCred.Wire) (hs : SizeOk p.sig) (he : ∀ t ∈ p.ead, t.Wire) :
    ∃ rest r, cborDecodePtxt3 d (ptxt3 p) = (true, rest, r) ∧ r.value = p ∧ overs r.ead = 0 := by
  rcases encIdCred_fit p.idCred with ⟨h1, -⟩ | ⟨-, h1⟩
  · obtain ⟨rest, r, h2, h3, h4, -⟩ := (accepted (cborDecodePtxt3_eq (d := d) (ptxt3 p))).2 p (getPtxt3_enc h1 hi hs he h.2)
    exact ⟨rest, r, h2, h3, (h4 rfl).trans (stalePtxt3_enc h1 hi hs he)⟩
  · exact absurd h.1 h1

/-- **C52**, PLAINTEXT_2: preferred encodings are accepted and give their fields. -/
theorem C52_plaintext2_accepts {c : Cid} {p : Ptxt} (hc : CidFit c) (hc' : ∀ b, c = .bstr b → SizeOk b) (h : PtxtFit p)
    (hi : p.idCred.Wire) (hs : SizeOk p.sig) (he : ∀ t ∈ p.ead, t.Wire) :
    ∃ rest r, cborDecodePtxt2 d (ptxt2 c p) = (true, rest, r) ∧ r.cr.cid = c ∧ r.rest.value = p ∧ overs r.rest.ead = 0 := by
  rcases encIdCred_fit p.idCred with ⟨h1, -⟩ | ⟨-, h1⟩
  · rcases encCid_fit c with ⟨h2, -⟩ | ⟨-, h2⟩
    · obtain ⟨rest, r, h3, h4, h5, -⟩ := (accepted (cborDecodePtxt2_eq (d := d) (ptxt2 c p))).2 (c, p)
        (getPtxt2_enc h2 hc' (getPtxt3_enc h1 hi hs he h.2))
      have h6 : (r.cr.cid, r.rest.value) = (c, p) := h4
      obtain ⟨h7, h8⟩ := Prod.mk.inj h6
      exact ⟨rest, r, h3, h7, h8, (h5 rfl).trans (stalePtxt2_enc h2 hc' (stalePtxt3_enc h1 hi hs he))⟩
    · exact absurd hc h2
  · exact absurd h.1 h1

/-- **C52**, PLAINTEXT_4: preferred encodings give their items. -/
theorem C52_plaintext4_accepts {ts : List EadTok} (he : ∀ t ∈ ts, t.Wire) (hl : ts.length ≤ 3) :
    ∃ rest r, cborDecodePtxt4 d (ead ts) = (true, rest, r) ∧ toks r.ead = ts ∧ overs r.ead = 0 := by
  obtain ⟨rest, r, h1, h2, h3, -⟩ := cborDecodePtxt4_eq (d := d) (ead ts)
  exact ⟨rest, r, h1, h2.trans (getPtxt4_enc he hl), h3.trans (staleEad_enc he 3)⟩

/-- **C52**, byte strings: preferred encodings are accepted. -/
theorem C52_bstr_accepts {b : Bytes} (h : b.length < 2 ^ 64) :
    ∃ rest z, cborDecodeBstr d (encBstr b) = (true, rest, z) ∧ z.bytes = b := by
  obtain ⟨x, rest, r, h1, h2⟩ := cborDecodeBstr_eq (d := d) (encBstr b)
  obtain ⟨rest, r, h3, h4, -⟩ := (accepted (P := fun _ _ _ => True) ⟨x, rest, r, h1, h2, trivial⟩).2 b (getMsgBstr_enc h)
  exact ⟨rest, r, h3, h4⟩

/-- **C52**, integers: preferred encodings are accepted, whatever follows. -/
theorem C52_int_accepts {v : Int} (h : Int32Range v) (t : Bytes) : cborDecodeInt d (encInt v ++ t) = (true, t, v) := by
  obtain ⟨b, rest, r, h1, h2⟩ := cborDecodeInt_eq (d := d) (encInt v ++ t)
  rw [getInt_encInt t h] at h2
  cases b with
  | false => cases h2
  | true =>
    obtain ⟨rfl, rfl⟩ := Prod.mk.inj (Option.some.inj h2)
    exact h1

/-- **C52**, error messages: preferred encodings are accepted and give their fields. -/
theorem C52_error_accepts {c : Int} {i : Option ErrInfo} (h : ∀ j, i = some j → ErrInfoFit j) (hc : Int32Range c)
    (h1 : ∀ t, i = some (.text t) → SizeOk t) (h2 : ∀ s, i = some (.suites s) → ∀ v ∈ suiteValues s, Int32Range v) :
    ∃ rest r, cborDecodeErrMsg d (errMsg c i) = (true, rest, r) ∧ r.value = (c, i) := by
  rcases encErrMsg_fit c i with ⟨h3, -⟩ | ⟨-, h3⟩
  · obtain ⟨x, rest, r, h4, h5⟩ := cborDecodeErrMsg_eq (d := d) (errMsg c i)
    obtain ⟨rest, r, h6, h7, -⟩ := (accepted (P := fun _ _ _ => True) ⟨x, rest, r, h4, h5, trivial⟩).2 (c, i)
      (getErrMsg_enc h3 hc h1 h2)
    exact ⟨rest, r, h6, h7⟩
  · exact absurd h h3

/-- **C52**, connection identifiers: the preferred encoding is accepted, whatever follows it, and what follows is left. -/
theorem C52_cid_accepts {c : Cid} (hc : CidFit c) (hc' : ∀ b, c = .bstr b → SizeOk b) (t : Bytes) :
    ∃ r, cborDecodeCid d (cidItem c ++ t) = (true, t, r) ∧ r.cid = c := by
  rcases encCid_fit c with ⟨h2, -⟩ | ⟨-, h2⟩
  · obtain ⟨x, rest, r, h4, h5⟩ := cborDecodeCid_eq (d := d) (cidItem c ++ t)
    rw [getCid_encCid h2 hc'] at h5
    cases x with
    | false => cases h5
    | true =>
      obtain ⟨h6, rfl⟩ := Prod.mk.inj (Option.some.inj h5)
      exact ⟨r, h4, h6⟩
  · exact absurd hc h2

/-! The decoders at work: a message_1 with a list of suites and two EAD items; a truncated one; a PLAINTEXT_2 whose ID_CRED is a map
with a chain of two certificates; an error message. -/

example : (let x := cborDecodeMsg1 ⟨false, true, fun _ => 0, true⟩ [3, 0x82, 6, 2, 0x43, 1, 2, 3, 0x24, 1, 0x41, 7, 0x21]; (x.1, x.2.2.value)) =
    (true, ⟨3, .list [6, 2], [1, 2, 3], .int (-5), [⟨1, some [7]⟩, ⟨-2, none⟩]⟩) := by decide +kernel

example : (cborDecodeMsg1 ⟨false, true, fun _ => 0, true⟩ [3, 0x82, 6, 2, 0x43, 1, 2]).1 = false := by decide +kernel

example : (let x := cborDecodePtxt2 ⟨false, true, fun _ => 0, true⟩ [5, 0xA1, 0x18, 33, 0x82, 0x41, 9, 0x41, 8, 0x42, 1, 2, 0x20];
    (x.1, x.2.2.value)) = (true, .int 5, ⟨.map ⟨none, some (.list [[9], [8]]), none⟩, [1, 2], [⟨-1, none⟩]⟩) := by decide +kernel

example : (let x := cborDecodeErrMsg ⟨false, true, fun _ => 0, true⟩ [2, 0x82, 2, 3]; (x.1, x.2.2.value)) =
    (true, 2, some (.suites (.list [2, 3]))) := by decide +kernel

example : Msg1Fit ⟨3, .list [6, 2], [1, 2, 3], .int (-5), [⟨1, some [7]⟩, ⟨-2, none⟩]⟩ ∧
    msg1 ⟨3, .list [6, 2], [1, 2, 3], .int (-5), [⟨1, some [7]⟩, ⟨-2, none⟩]⟩ =
      [3, 0x82, 6, 2, 0x43, 1, 2, 3, 0x24, 1, 0x41, 7, 0x21] :=
  ⟨⟨⟨by decide, by decide⟩, ⟨by decide, by decide⟩, by decide⟩, by decide +kernel⟩

/-! ## C53: encoders -/

/-- **C53**, message_1. `cbor_encode_message_1` succeeds exactly if the CDDL admits the values and the preferred encoding fits in the
buffer. It then writes that encoding. -/
theorem C53_message1 {r : Msg1R} (h : r.Ok) (cap : Nat) :
    Output (cborEncodeMsg1 cap r) (Msg1Fit r.input) cap (msg1 r.input) := by
  rw [cborEncodeMsg1_eq h]
  exact writes_of (encMsg1_fit _) cap

/-- **C53**, EAD items -/
theorem C53_ead {a : EadArr} (h : EadOk a) (cap : Nat) :
    Output (cborEncodeEad cap a) (1 ≤ (items a).length ∧ (items a).length ≤ 3) cap (ead (items a)) := by
  rw [cborEncodeEad_eq h]
  exact writes_of (encEad_fit _) cap

/-- **C53**, PLAINTEXT_4 -/
theorem C53_plaintext4 {r : Ptxt4R} (h : EadOk r.ead) (hp : r.present = decide (r.ead.2 ≠ 0)) (cap : Nat) :
    Output (cborEncodePtxt4 cap r) ((items r.ead).length ≤ 3) cap (ead (items r.ead)) := by
  rw [cborEncodePtxt4_eq h hp]
  exact writes_of (encEadOpt_fit _) cap

/-- **C53**, connection identifiers -/
theorem C53_cid {r : IntStr} (h : r.isInt = false → r.str.Full) (cap : Nat) :
    Output (cborEncodeCid cap r) (CidFit r.cid) cap (cidItem r.cid) := by
  rw [cborEncodeCid_eq h]
  exact writes_of (encCid_fit _) cap

/-- **C53**, ID_CRED -/
theorem C53_idCred {r : MapR} (h : r.Ok) (cap : Nat) :
    Output (cborEncodeIdCred cap r) (∀ x, r.value.x5chain = some x → ChainFit x) cap (Cddl.credMap r.value) := by
  rw [cborEncodeIdCred_eq h]
  exact writes_of (encCredMap_fit _) cap

/-- **C53**, error messages -/
theorem C53_error {r : ErrMsgR} (h : r.info.1 = true → r.info.2.Ok) (cap : Nat) :
    Output (cborEncodeErrMsg cap r) (∀ j, r.value.2 = some j → ErrInfoFit j) cap (errMsg r.value.1 r.value.2) := by
  rw [cborEncodeErrMsg_eq h]
  exact writes_of (encErrMsg_fit _ _) cap

theorem writes_fits (b : Bytes) (cap : Nat) : Output (fits cap b) True cap b :=
  writes_of (x := some b) (Or.inl ⟨rfl, trivial⟩) cap

/-- **C53**, byte strings (and message_2, message_3, message_4), integers -/
theorem C53_bstr {z : ZStr} (h : z.Full) (cap : Nat) : Output (cborEncodeBstr cap z) True cap (encBstr z.bytes) := by
  rw [cborEncodeBstr_eq h]
  exact writes_fits _ cap

@[inherit_doc C53_bstr] theorem C53_int (v : Int) (cap : Nat) : Output (cborEncodeInt cap v) True cap (encInt v) := by
  rw [cborEncodeInt_eq]
  exact writes_fits _ cap

/-- **C53**, info = ( label, context, length ) of the key derivation -/
theorem C53_info {label : Nat} {context : ZStr} {length : Nat} (h : context.Full) (cap : Nat) :
    Output (cborEncodeInfo cap label context length) True cap (info label context.bytes length) := by
  rw [cborEncodeInfo_eq h, show info label context.bytes length = encInfo label context.bytes length by simp [encInfo, info, encInt]]
  exact writes_fits _ cap

/-- **C53**, Enc_structure, for an empty protected header -/
theorem C53_encStructure {aad : ZStr} (h : aad.Full) (cap : Nat) :
    Output (cborEncodeEncStructure cap .zero aad) True cap (encStructure aad.bytes) := by
  rw [cborEncodeEncStructure_eq (by rfl) h, show encStructure aad.bytes = encEncStructure ZStr.zero.bytes aad.bytes by
    simp [encEncStructure, encStructure, encListHead, arrayHead, ascii, ZStr.bytes, ZStr.zero]]
  exact writes_fits _ cap

/-- **C53**, Sig_structure -/
theorem C53_sigStructure {prot aad payload : ZStr} (h1 : prot.Full) (h2 : aad.Full) (h3 : payload.Full) (cap : Nat) :
    Output (cborEncodeSigStructure cap prot aad payload) True cap
      (arrayHead 4 ++ encTstr (ascii "Signature1") ++ encBstr prot.bytes ++ encBstr aad.bytes ++ encBstr payload.bytes) := by
  rw [cborEncodeSigStructure_eq h1 h2 h3, show arrayHead 4 ++ encTstr (ascii "Signature1") ++ encBstr prot.bytes ++ encBstr aad.bytes ++
    encBstr payload.bytes = encSigStructure prot.bytes aad.bytes payload.bytes by simp [encSigStructure, encListHead, arrayHead]]
  exact writes_fits _ cap

/-- **C53**: what the encoder of message_1 writes, the decoder of message_1 reads back. -/
theorem C53_message1_back {r : Msg1R} (h : r.Ok) (hw : r.input.Wire) {cap : Nat} {b : Bytes} (he : cborEncodeMsg1 cap r = some b) :
    ∃ rest r', cborDecodeMsg1 d b = (true, rest, r') ∧ r'.value = r.input := by
  have hf := C53_message1 h cap
  by_cases hc : Msg1Fit r.input ∧ (msg1 r.input).length ≤ cap
  · rw [hf.1.2 hc] at he
    cases he
    obtain ⟨rest, r', h1, h2, -⟩ := C52_message1_accepts (d := d) hc.1 hw
    exact ⟨rest, r', h1, h2⟩
  · rw [hf.2.2 hc] at he
    cases he

/-- **C53**: what the encoder of error messages writes, the decoder reads back. -/
theorem C53_error_back {r : ErrMsgR} (h : r.info.1 = true → r.info.2.Ok) (hc : Int32Range r.value.1)
    (h1 : ∀ t, r.value.2 = some (.text t) → SizeOk t) (h2 : ∀ s, r.value.2 = some (.suites s) → ∀ v ∈ suiteValues s, Int32Range v)
    {cap : Nat} {b : Bytes} (he : cborEncodeErrMsg cap r = some b) :
    ∃ rest r', cborDecodeErrMsg d b = (true, rest, r') ∧ r'.value = r.value := by
  have hf := C53_error h cap
  by_cases hx : (∀ j, r.value.2 = some j → ErrInfoFit j) ∧ (errMsg r.value.1 r.value.2).length ≤ cap
  · rw [hf.1.2 hx] at he
    cases he
    exact C52_error_accepts (d := d) hx.1 hc h1 h2
  · rw [hf.2.2 hx] at he
    cases he

/-- The structures the library fills meet the hypotheses: every message_1, every ID_CRED, every error message, any EAD items. -/
example (m : Msg1) (c : CredMap) (e : Int) (i : Option ErrInfo) (ts : List EadTok) :
    ((Msg1R.of m).Ok ∧ (Msg1R.of m).input = m) ∧ ((MapR.of c).Ok ∧ (MapR.of c).value = c) ∧
      (((ErrMsgR.of e i).info.1 = true → (ErrMsgR.of e i).info.2.Ok) ∧ (ErrMsgR.of e i).value = (e, i)) ∧
      (EadOk (eadOf ts) ∧ items (eadOf ts) = ts) :=
  ⟨⟨Msg1R.of_ok m, Msg1R.of_input m⟩, ⟨MapR.of_ok c, MapR.of_value c⟩, ⟨ErrMsgR.of_ok e i, ErrMsgR.of_value e i⟩,
    eadOf_ok ts, eadOf_items ts⟩

/-- An encoding that fits exactly, and the same with one byte less. -/
example : cborEncodeMsg1 13 (.of ⟨3, .list [6, 2], [1, 2, 3], .int (-5), [⟨1, some [7]⟩, ⟨-2, none⟩]⟩) =
      some [3, 0x82, 6, 2, 0x43, 1, 2, 3, 0x24, 1, 0x41, 7, 0x21] ∧
    cborEncodeMsg1 12 (.of ⟨3, .list [6, 2], [1, 2, 3], .int (-5), [⟨1, some [7]⟩, ⟨-2, none⟩]⟩) = none ∧
    cborEncodeMsg1 99 (.of ⟨3, .list [6, 2], [1, 2, 3], .int 24, []⟩) = none := by decide +kernel

/-! ## The model of the handshake uses these coders -/

/-- **C52**: what `edhoc_message_1_process` takes from the decoder in the model of the handshake is what `cbor_decode_message_1` gives,
also when it fails. -/
theorem C52_handshake_message1 (bs : Bytes) :
    getMsg1 d bs = ((cborDecodeMsg1 d bs).1, (cborDecodeMsg1 d bs).2.2.value) ∧
      staleMsg1 d bs = (cborDecodeMsg1 d bs).2.2.overs := by
  obtain ⟨b, rest, r, h1, h2, h3, -⟩ := cborDecodeMsg1_eq (d := d) bs
  rw [h1]
  exact ⟨h2.symm, h3.symm⟩

/-- **C52**, the same for the other messages -/
theorem C52_handshake (bs : Bytes) :
    getPtxt2 d bs = (if (cborDecodePtxt2 d bs).1 then some (cborDecodePtxt2 d bs).2.2.value else none) ∧
      getPtxt3 d bs = (if (cborDecodePtxt3 d bs).1 then some (cborDecodePtxt3 d bs).2.2.value else none) ∧
      getPtxt4 d bs = toks (cborDecodePtxt4 d bs).2.2.ead ∧
      getMsgBstr d bs = (if (cborDecodeBstr d bs).1 then some (cborDecodeBstr d bs).2.2.bytes else none) ∧
      getErrMsg d bs = (if (cborDecodeErrMsg d bs).1 then some (cborDecodeErrMsg d bs).2.2.value else none) ∧
      getCid d bs = (if (cborDecodeCid d bs).1 then some ((cborDecodeCid d bs).2.2.cid, (cborDecodeCid d bs).2.1) else none) := by
  obtain ⟨_, _, _, h1, h1', -⟩ := cborDecodePtxt2_eq (d := d) bs
  obtain ⟨_, _, _, h2, h2', -⟩ := cborDecodePtxt3_eq (d := d) bs
  obtain ⟨_, _, h3, h3', -⟩ := cborDecodePtxt4_eq (d := d) bs
  obtain ⟨_, _, _, h4, h4'⟩ := cborDecodeBstr_eq (d := d) bs
  obtain ⟨_, _, _, h5, h5'⟩ := cborDecodeErrMsg_eq (d := d) bs
  obtain ⟨_, _, _, h6, h6'⟩ := cborDecodeCid_eq (d := d) bs
  rw [h1, h2, h3, h4, h5, h6]
  exact ⟨h1'.symm, h2'.symm, h3'.symm, h4'.symm, h5'.symm, h6'.symm⟩

/-- **C53**: what the model of the handshake writes as message_1, ID_CRED, EAD, PLAINTEXT_4 and error message is what the encoders
write from the structures the library fills. -/
theorem C53_handshake (cap : Nat) (m : Msg1) (c : CredMap) (e : Int) (i : Option ErrInfo) (ts : List EadTok) :
    (encMsg1 m).bind (fits cap) = cborEncodeMsg1 cap (.of m) ∧
      (encCredMap c).bind (fits cap) = cborEncodeIdCred cap (.of c) ∧
      (encErrMsg e i).bind (fits cap) = cborEncodeErrMsg cap (.of e i) ∧
      (encEad ts).bind (fits cap) = cborEncodeEad cap (eadOf ts) ∧
      (encEadOpt ts).bind (fits cap) = cborEncodePtxt4 cap (.of ts) := by
  refine ⟨?_, ?_, ?_, ?_, ?_⟩
  · rw [cborEncodeMsg1_eq (Msg1R.of_ok m), Msg1R.of_input]
  · rw [cborEncodeIdCred_eq (MapR.of_ok c), MapR.of_value]
  · rw [cborEncodeErrMsg_eq (ErrMsgR.of_ok e i), ErrMsgR.of_value]
  · rw [cborEncodeEad_eq (eadOf_ok ts), eadOf_items]
  · rw [cborEncodePtxt4_eq (r := Ptxt4R.of ts) (eadOf_ok ts) (isEmpty_len ts)]
    show _ = (encEadOpt (items (eadOf ts))).bind _
    rw [eadOf_items]

end Verif.Gen
