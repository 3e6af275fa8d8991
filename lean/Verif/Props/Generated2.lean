import Verif.Gen.Invert
import Verif.SpecCodec2
import Verif.Props.Generated

/-!
# C52, C53: the generated coders the library does not call itself

The decoders of EAD, ID_CRED_x, info, Enc_structure and Sig_structure; the encoders of PLAINTEXT_2 and PLAINTEXT_3.
-/

namespace Verif.Gen

open Spec Spec.Cddl

variable {d : DecCfg}

/-! ## Decoders -/

/-- **C52**, EAD: if `cbor_decode_ead` accepts, the input begins with one to three EAD items, those in the structure. -/
theorem C52_ead {bs rest : Bytes} {a : EadArr} (h : cborDecodeEad d bs = (true, rest, a)) :
    ∃ b t, SeqOf EadItem (toks a) b ∧ bs = b ++ t ∧ 1 ≤ (toks a).length ∧ (toks a).length ≤ 3 := by
  obtain ⟨x, s, a', h1, h2, -, h3⟩ := decodeEad_eq (d := d) (bs := bs) (e := 6) (i := false) (B := []) (R := 2 - 2) (by omega)
  unfold cborDecodeEad entry at h
  rw [h1] at h
  simp only [Prod.mk.injEq] at h
  obtain ⟨rfl, rfl, rfl⟩ := h
  obtain ⟨b, h4, h5⟩ := getEad_sound (d := d) bs
  have h6 := getEad_length (d := d) bs
  rw [← h2] at h4 h6
  refine ⟨b, _, h4, h5, ?_, h6⟩
  cases ht : toks a' with
  | nil => rw [ht] at h3; simp at h3
  | cons => simp

/-- **C52**, EAD: the preferred encoding of one to three items is accepted and gives the items. -/
theorem C52_ead_accepts {ts : List EadTok} (he : ∀ t ∈ ts, t.Wire) (h1 : 1 ≤ ts.length) (h3 : ts.length ≤ 3) :
    ∃ rest a, cborDecodeEad d (ead ts) = (true, rest, a) ∧ toks a = ts ∧ overs a = 0 := by
  obtain ⟨x, s, a, h4, h5, h6, h7⟩ := decodeEad_eq (d := d) (bs := ead ts) (e := 6) (i := false) (B := []) (R := 2 - 2) (by omega)
  rw [getEad_enc he h3] at h5
  have hx : x = true := by
    rw [h7, h5]
    cases ts with
    | nil => simp at h1
    | cons => rfl
  subst hx
  exact ⟨_, a, by unfold cborDecodeEad entry; rw [h4], h5, h6.trans (staleEad_enc he 3)⟩

/-- **C52**, ID_CRED_x: if `cbor_decode_id_cred_x` accepts, the input is an ID_CRED map with the entries of the structure, and then what
is left. -/
theorem C52_idCred {bs rest : Bytes} {r : MapR} (h : cborDecodeIdCred d bs = (true, rest, r)) :
    ∃ b, CredMapItem r.value b ∧ bs = b ++ rest := by
  have h1 := decodeMap_reads (d := d) bs 1 false [] (5 - 2) (by omega) (by simp)
  unfold cborDecodeIdCred entry at h
  cases hg : getCredMap d bs with
  | none =>
    rw [hg] at h1
    obtain ⟨s, x, h2⟩ := h1
    rw [h2] at h
    cases h
  | some y =>
    obtain ⟨m, t⟩ := y
    rw [hg] at h1
    obtain ⟨x, h2, h3⟩ := h1
    rw [h2] at h
    simp only [Prod.mk.injEq, true_and] at h
    obtain ⟨rfl, rfl⟩ := h
    rw [h3]
    exact getCredMap_sound hg

/-- **C52**, ID_CRED_x: the preferred encoding is accepted, whatever follows, and what follows is left. -/
theorem C52_idCred_accepts {m : CredMap} (h : ∀ x, m.x5chain = some x → ChainFit x) (hw : m.Wire) (t : Bytes) :
    ∃ r, cborDecodeIdCred d (Cddl.credMap m ++ t) = (true, t, r) ∧ r.value = m := by
  rcases encCredMap_fit m with ⟨h1, -⟩ | ⟨-, h1⟩
  · have h2 := decodeMap_reads (d := d) (Cddl.credMap m ++ t) 1 false [] (5 - 2) (by omega) (by simp)
    rw [getCredMap_enc h1 hw t] at h2
    obtain ⟨x, h3, h4⟩ := h2
    exact ⟨x, by unfold cborDecodeIdCred entry; rw [h3], h4⟩
  · exact absurd h h1

/-- **C52**, info: if `cbor_decode_info` accepts, the input is the label, the context and the length of the structure, and then what is
left. -/
theorem C52_info {bs rest : Bytes} {r : InfoR} (h : cborDecodeInfo d bs = (true, rest, r)) :
    ∃ b, InfoSeq r.label r.context.bytes r.length b ∧ bs = b ++ rest := by
  obtain ⟨r1, r2, h1, h2, h3⟩ := cborDecodeInfo_inv h
  obtain ⟨x, i1, rfl⟩ := getInt_sound h1
  obtain ⟨y, i2, rfl⟩ := getBstr_sound h2
  obtain ⟨z, i3, rfl⟩ := getHead_sound h3
  exact ⟨x ++ y ++ z, ⟨x, y, z, i1, i2, Or.inl ⟨by omega, by simpa using i3⟩, rfl⟩, by simp⟩

theorem uint32_enc {n e : Nat} {i : Bool} {B : List Frame} {R x : Nat} (he : e ≠ 0) (hn : n < 2 ^ 32) (t : Bytes) :
    uint32 d ⟨⟨head 0 n ++ t, e, i⟩, B, R⟩ x = (true, ⟨⟨t, e - 1, i⟩, B, R⟩, n) := by
  have := getHead_head (strict := d.strict) (maxLen := 4) (m := 0) (a := n) t (by omega) (Or.inl ⟨by omega, by omega⟩)
  simp [uint32, he, this, State.eat]

theorem tstr_enc {ρ : Type} {v : Bytes} {e : Nat} {i : Bool} {B : List Frame} {R : Nat} {x : ρ} (he : e ≠ 0) (hv : SizeOk v)
    (t : Bytes) : tstrExpect d v ⟨⟨encTstr v ++ t, e, i⟩, B, R⟩ x = (true, ⟨⟨t, e - 1, i⟩, B, R⟩, x) := by
  have : getStr d 3 (encTstr v ++ t) = some (v, t) := getTstr_encTstr t hv
  simp [tstrExpect, he, this, State.eat]

theorem bstr_enc {v : Bytes} {e : Nat} {i : Bool} {B : List Frame} {R : Nat} {x : ZStr} (he : e ≠ 0) (hv : SizeOk v)
    (t : Bytes) : str d 2 ⟨⟨encBstr v ++ t, e, i⟩, B, R⟩ x = (true, ⟨⟨t, e - 1, i⟩, B, R⟩, zstr v) :=
  str_some he (getBstr_encBstr t hv)

/-- **C52**, info: the preferred encoding is accepted, whatever follows, and what follows is left. -/
theorem C52_info_accepts {label : Int} {context : Bytes} {length : Nat} (hl : Int32Range label) (hc : SizeOk context)
    (hn : length < 2 ^ 32) (t : Bytes) :
    ∃ r, cborDecodeInfo d (encInt label ++ encBstr context ++ encInt length ++ t) = (true, t, r) ∧
      r.label = label ∧ r.context.bytes = context ∧ r.length = length := by
  refine ⟨⟨label, zstr context, length⟩, ?_, rfl, bytes_some _, rfl⟩
  have hi : encInt (length : Int) = head 0 length := by simp [encInt]
  unfold cborDecodeInfo entry decodeInfo
  rw [List.append_assoc, List.append_assoc, seq_true (into_eq (int32_some (by decide) (getInt_encInt _ hl))),
    seq_true (into_eq (bstr_enc (by decide) hc _)), hi, into_eq (uint32_enc (by decide) hn t)]

/-- **C52**, Enc_structure: if `cbor_decode_enc_structure` accepts, the input is the Enc_structure with the fields of the structure, and
then what is left. -/
theorem C52_encStructure {bs rest : Bytes} {r : EncStructureR} (h : cborDecodeEncStructure d bs = (true, rest, r)) :
    ∃ b, EncStructureItem r.prot.bytes r.aad.bytes b ∧ bs = b ++ rest := cborDecodeEncStructure_sound h

/-- **C52**, Sig_structure: the same for `cbor_decode_sig_structure`. -/
theorem C52_sigStructure {bs rest : Bytes} {r : SigStructureR} (h : cborDecodeSigStructure d bs = (true, rest, r)) :
    ∃ b, SigStructureItem r.prot.bytes r.aad.bytes r.payload.bytes b ∧ bs = b ++ rest := cborDecodeSigStructure_sound h

/-- **C52**, Enc_structure: the preferred encoding is accepted, whatever follows, and what follows is left. -/
theorem C52_encStructure_accepts {prot aad : Bytes} (h1 : SizeOk prot) (h2 : SizeOk aad) (t : Bytes) :
    ∃ r, cborDecodeEncStructure d (arrayHead 3 ++ encTstr (ascii "Encrypt0") ++ encBstr prot ++ encBstr aad ++ t) = (true, t, r) ∧
      r.prot.bytes = prot ∧ r.aad.bytes = aad := by
  refine ⟨⟨zstr prot, zstr aad⟩, ?_, bytes_some _, bytes_some _⟩
  have h0 : SizeOk (ascii "Encrypt0") := by unfold SizeOk; decide
  have hend : ∀ (f : Frame) (x : EncStructureR), containerEnd ⟨⟨t, 0, false⟩, [f], 1⟩ x = (true, ⟨{ f with payload := t }, [], 1⟩, x) :=
    fun f x => containerEnd_some (c := 1) (n := some 0) (k := 0) ⟨rfl, rfl⟩ rfl
  unfold cborDecodeEncStructure entry decodeEncStructure listStart arrayHead
  simp only [List.append_assoc]
  rw [seq_true (containerStart_some (by decide) (by decide) (getContainer_head (by omega) (by omega) _)),
    seq_true (orForce_true ((seq_true (tstr_enc (by decide) h0 _)).trans
      ((seq_true (into_eq (bstr_enc (by decide) h1 _))).trans (into_eq (bstr_enc (by decide) h2 _)))))]
  exact congrArg (fun x : Bool × State × EncStructureR => (x.1, x.2.1.cur.payload, x.2.2)) (hend _ _)

/-- **C52**, Sig_structure: the preferred encoding is accepted, whatever follows, and what follows is left. -/
theorem C52_sigStructure_accepts {prot aad payload : Bytes} (h1 : SizeOk prot) (h2 : SizeOk aad) (h3 : SizeOk payload) (t : Bytes) :
    ∃ r, cborDecodeSigStructure d
        (arrayHead 4 ++ encTstr (ascii "Signature1") ++ encBstr prot ++ encBstr aad ++ encBstr payload ++ t) = (true, t, r) ∧
      r.prot.bytes = prot ∧ r.aad.bytes = aad ∧ r.payload.bytes = payload := by
  refine ⟨⟨zstr prot, zstr aad, zstr payload⟩, ?_, bytes_some _, bytes_some _, bytes_some _⟩
  have h0 : SizeOk (ascii "Signature1") := by unfold SizeOk; decide
  have hend : ∀ (f : Frame) (x : SigStructureR), containerEnd ⟨⟨t, 0, false⟩, [f], 1⟩ x = (true, ⟨{ f with payload := t }, [], 1⟩, x) :=
    fun f x => containerEnd_some (c := 1) (n := some 0) (k := 0) ⟨rfl, rfl⟩ rfl
  unfold cborDecodeSigStructure entry decodeSigStructure listStart arrayHead
  simp only [List.append_assoc]
  rw [seq_true (containerStart_some (by decide) (by decide) (getContainer_head (by omega) (by omega) _)),
    seq_true (orForce_true ((seq_true (tstr_enc (by decide) h0 _)).trans
      ((seq_true (into_eq (bstr_enc (by decide) h1 _))).trans ((seq_true (into_eq (bstr_enc (by decide) h2 _))).trans
        (into_eq (bstr_enc (by decide) h3 _))))))]
  exact congrArg (fun x : Bool × State × SigStructureR => (x.1, x.2.1.cur.payload, x.2.2)) (hend _ _)

/-! The decoders at work: an info; an Enc_structure of definite and of indefinite length; one with an element too many; one with the
wrong context string; two EAD items; an ID_CRED map. -/

example : (let x := cborDecodeInfo ⟨false, true, fun _ => 0, true⟩ [6, 0x42, 8, 9, 0x18, 32, 0xAA]; (x.1, x.2.1, x.2.2.value)) =
    (true, [0xAA], 6, [8, 9], 32) := by decide +kernel

example : (let x := cborDecodeEncStructure ⟨false, true, fun _ => 0, true⟩ ([0x83, 0x68] ++ ascii "Encrypt0" ++ [0x40, 0x42, 8, 9]);
     (x.1, x.2.1, x.2.2.prot.bytes, x.2.2.aad.bytes)) =
    (true, [], [], [8, 9]) := by decide +kernel

example : (let x := cborDecodeEncStructure ⟨false, true, fun _ => 0, true⟩ ([0x9F, 0x68] ++ ascii "Encrypt0" ++ [0x40, 0x42, 8, 9, 0xFF, 7]);
     (x.1, x.2.1, x.2.2.prot.bytes, x.2.2.aad.bytes)) =
    (true, [7], [], [8, 9]) := by decide +kernel

example : (cborDecodeEncStructure ⟨false, true, fun _ => 0, true⟩
      ([0x84, 0x68] ++ ascii "Encrypt0" ++ [0x40, 0x42, 8, 9, 0x40])).1 = false ∧
    (cborDecodeEncStructure ⟨false, true, fun _ => 0, true⟩ ([0x83, 0x68] ++ ascii "Encrypt1" ++ [0x40, 0x42, 8, 9])).1 = false ∧
    (cborDecodeSigStructure ⟨false, true, fun _ => 0, true⟩ ([0x84, 0x6A] ++ ascii "Signature1" ++ [0x40, 0x41, 8, 0x41, 9])).1 = true ∧
    (cborDecodeSigStructure ⟨false, true, fun _ => 0, true⟩ ([0x83, 0x6A] ++ ascii "Signature1" ++ [0x40, 0x41, 8, 0x41, 9])).1 = false := by
  decide +kernel

example : (let x := cborDecodeEad ⟨false, true, fun _ => 0, true⟩ [1, 0x41, 7, 0x21]; (x.1, toks x.2.2)) =
    (true, [⟨1, some [7]⟩, ⟨-2, none⟩]) ∧ (cborDecodeEad ⟨false, true, fun _ => 0, true⟩ []).1 = false := by decide +kernel

example : (let x := cborDecodeIdCred ⟨false, true, fun _ => 0, true⟩ [0xA1, 0x18, 33, 0x82, 0x41, 9, 0x41, 8, 5]; (x.1, x.2.1, x.2.2.value)) =
    (true, [5], ⟨none, some (.list [[9], [8]]), none⟩) := by decide +kernel

/-! ## Encoders -/

/-- What the encoder of a plaintext is given. -/
def PtxtR.input (r : PtxtR) : Ptxt := ⟨r.id.value, r.sig.bytes, items r.ead⟩

/-- A structure filled as the encoder expects: strings with all their bytes, arrays with as many elements as announced, EAD present if
there are items. -/
def PtxtR.Ok (r : PtxtR) : Prop :=
  ((r.id.choice = .bstr → r.id.str.Full) ∧ (r.id.choice = .map → r.id.map.Ok)) ∧ r.sig.Full ∧ EadOk r.ead ∧
    r.eadPresent = decide (r.ead.2 ≠ 0)

theorem encodePtxtId_writes {r : IdCredR} (h1 : r.choice = .bstr → r.str.Full) (h2 : r.choice = .map → r.map.Ok) :
    Writes (encodePtxtId r) (encIdCred r.value) 1 2 := by
  unfold encodePtxtId IdCredR.value
  cases hc : r.choice with
  | int => exact (int_writes _).mono (by omega)
  | bstr => exact (bstr_writes (h1 hc)).mono (by omega)
  | map => exact encodeMap_writes (h2 hc)

theorem bind_fit {x y : Option Bytes} {a b : Bytes} {p q : Prop} (h1 : (x = some a ∧ p) ∨ (x = none ∧ ¬ p))
    (h2 : (y = some b ∧ q) ∨ (y = none ∧ ¬ q)) :
    ((x.bind fun u => y.bind fun v => some (u ++ v)) = some (a ++ b) ∧ (p ∧ q)) ∨
      ((x.bind fun u => y.bind fun v => some (u ++ v)) = none ∧ ¬ (p ∧ q)) := by
  rcases h1 with ⟨rfl, h1⟩ | ⟨rfl, h1⟩
  · rcases h2 with ⟨rfl, h2⟩ | ⟨rfl, h2⟩
    · exact Or.inl ⟨rfl, h1, h2⟩
    · exact Or.inr ⟨rfl, fun h => h2 h.2⟩
  · exact Or.inr ⟨rfl, fun h => h1 h.1⟩

theorem encodePtxt_writes {r : PtxtR} (h : r.Ok) :
    ∃ x n, Writes (encodePtxt r) x n 2 ∧ ((x = some (ptxt3 r.input) ∧ PtxtFit r.input) ∨ (x = none ∧ ¬ PtxtFit r.input)) := by
  obtain ⟨⟨h1, h2⟩, h3, h4, h5⟩ := h
  obtain ⟨n, h6⟩ := encodeEadOpt_writes h4 h5
  refine ⟨_, _, (encodePtxtId_writes h1 h2).seq ((bstr_writes h3).seq h6), ?_⟩
  have := bind_fit (encIdCred_fit r.id.value)
    (bind_fit (x := some (encBstr r.sig.bytes)) (p := True) (Or.inl ⟨rfl, trivial⟩) (encEadOpt_fit (items r.ead)))
  simpa only [true_and, ptxt3, PtxtFit, PtxtR.input, List.append_assoc] using this

/-- **C53**, PLAINTEXT_3: `cbor_encode_plaintext_3` succeeds exactly if the CDDL admits the values and the preferred encoding fits in the
buffer. It then writes that encoding. -/
theorem C53_plaintext3 {r : PtxtR} (h : r.Ok) (cap : Nat) :
    Output (cborEncodePtxt3 cap r) (PtxtFit r.input) cap (ptxt3 r.input) := by
  obtain ⟨x, n, h1, h2⟩ := encodePtxt_writes h
  unfold cborEncodePtxt3
  rw [h1.entry (by decide)]
  exact writes_of h2 cap

/-- **C53**, PLAINTEXT_2 -/
theorem C53_plaintext2 {r : Ptxt2R} (hc : r.cr.isInt = false → r.cr.str.Full) (h : r.rest.Ok) (cap : Nat) :
    Output (cborEncodePtxt2 cap r) (CidFit r.cr.cid ∧ PtxtFit r.rest.input) cap (ptxt2 r.cr.cid r.rest.input) := by
  obtain ⟨x, n, h1, h2⟩ := encodePtxt_writes h
  unfold cborEncodePtxt2
  rw [((encodeCid_writes hc).seq h1).entry (by decide)]
  exact writes_of (bind_fit (encCid_fit _) h2) cap

/-- **C53**: what the encoder of PLAINTEXT_3 writes, the decoder reads back. -/
theorem C53_plaintext3_back {r : PtxtR} (h : r.Ok) (hi : r.input.idCred.Wire) (hs : SizeOk r.input.sig)
    (he : ∀ t ∈ r.input.ead, t.Wire) {cap : Nat} {b : Bytes} (hb : cborEncodePtxt3 cap r = some b) :
    ∃ rest r', cborDecodePtxt3 d b = (true, rest, r') ∧ r'.value = r.input := by
  have hf := C53_plaintext3 h cap
  by_cases hx : PtxtFit r.input ∧ (ptxt3 r.input).length ≤ cap
  · rw [hf.1.2 hx] at hb
    cases hb
    obtain ⟨rest, r', h1, h2, -⟩ := C52_plaintext3_accepts (d := d) hx.1 hi hs he
    exact ⟨rest, r', h1, h2⟩
  · rw [hf.2.2 hx] at hb
    cases hb

/-- **C53**: what the encoder of PLAINTEXT_2 writes, the decoder reads back. -/
theorem C53_plaintext2_back {r : Ptxt2R} (hc : r.cr.isInt = false → r.cr.str.Full) (h : r.rest.Ok)
    (hc' : ∀ b, r.cr.cid = .bstr b → SizeOk b) (hi : r.rest.input.idCred.Wire) (hs : SizeOk r.rest.input.sig)
    (he : ∀ t ∈ r.rest.input.ead, t.Wire) {cap : Nat} {b : Bytes} (hb : cborEncodePtxt2 cap r = some b) :
    ∃ rest r', cborDecodePtxt2 d b = (true, rest, r') ∧ r'.cr.cid = r.cr.cid ∧ r'.rest.value = r.rest.input := by
  have hf := C53_plaintext2 hc h cap
  by_cases hx : (CidFit r.cr.cid ∧ PtxtFit r.rest.input) ∧ (ptxt2 r.cr.cid r.rest.input).length ≤ cap
  · rw [hf.1.2 hx] at hb
    cases hb
    obtain ⟨rest, r', h1, h2, h3, -⟩ := C52_plaintext2_accepts (d := d) hx.1.1 hc' hx.1.2 hi hs he
    exact ⟨rest, r', h1, h2, h3⟩
  · rw [hf.2.2 hx] at hb
    cases hb

/-- **C53**: what the encoder of info writes, the decoder reads back. -/
theorem C53_info_back {label : Nat} {context : ZStr} {length : Nat} (h : context.Full) (hl : label < 2 ^ 31)
    (hc : SizeOk context.bytes) (hn : length < 2 ^ 32) {cap : Nat} {b : Bytes} (hb : cborEncodeInfo cap label context length = some b) :
    ∃ r, cborDecodeInfo d b = (true, [], r) ∧ r.label = label ∧ r.context.bytes = context.bytes ∧ r.length = length := by
  have hf := C53_info (label := label) (length := length) h cap
  by_cases hx : True ∧ (info label context.bytes length).length ≤ cap
  · rw [hf.1.2 hx] at hb
    cases hb
    obtain ⟨r, h1, h2⟩ := C52_info_accepts (d := d) (label := label) (length := length) (by unfold Int32Range; omega) hc hn []
    rw [List.append_nil] at h1
    exact ⟨r, h1, h2⟩
  · rw [hf.2.2 hx] at hb
    cases hb

/-- **C53**, Enc_structure, for any protected header -/
theorem C53_encStructure_any {prot aad : ZStr} (h1 : prot.Full) (h2 : aad.Full) (cap : Nat) :
    Output (cborEncodeEncStructure cap prot aad) True cap
      (arrayHead 3 ++ encTstr (ascii "Encrypt0") ++ encBstr prot.bytes ++ encBstr aad.bytes) := by
  rw [cborEncodeEncStructure_eq h1 h2, show arrayHead 3 ++ encTstr (ascii "Encrypt0") ++ encBstr prot.bytes ++ encBstr aad.bytes =
    encEncStructure prot.bytes aad.bytes by simp [encEncStructure, encListHead, arrayHead]]
  exact writes_fits _ cap

/-- **C53**: what the encoder of Enc_structure writes, the decoder reads back. -/
theorem C53_encStructure_back {prot aad : ZStr} (h1 : prot.Full) (h2 : aad.Full) (i1 : SizeOk prot.bytes) (i2 : SizeOk aad.bytes)
    {cap : Nat} {b : Bytes} (hb : cborEncodeEncStructure cap prot aad = some b) :
    ∃ r, cborDecodeEncStructure d b = (true, [], r) ∧ r.prot.bytes = prot.bytes ∧ r.aad.bytes = aad.bytes := by
  have hf := C53_encStructure_any h1 h2 cap
  by_cases hx : True ∧ (arrayHead 3 ++ encTstr (ascii "Encrypt0") ++ encBstr prot.bytes ++ encBstr aad.bytes).length ≤ cap
  · rw [hf.1.2 hx] at hb
    cases hb
    obtain ⟨r, h1, h2⟩ := C52_encStructure_accepts (d := d) i1 i2 []
    rw [List.append_nil] at h1
    exact ⟨r, h1, h2⟩
  · rw [hf.2.2 hx] at hb
    cases hb

/-- **C53**: what the encoder of Sig_structure writes, the decoder reads back. -/
theorem C53_sigStructure_back {prot aad payload : ZStr} (h1 : prot.Full) (h2 : aad.Full) (h3 : payload.Full) (i1 : SizeOk prot.bytes)
    (i2 : SizeOk aad.bytes) (i3 : SizeOk payload.bytes) {cap : Nat} {b : Bytes}
    (hb : cborEncodeSigStructure cap prot aad payload = some b) :
    ∃ r, cborDecodeSigStructure d b = (true, [], r) ∧ r.prot.bytes = prot.bytes ∧ r.aad.bytes = aad.bytes ∧
      r.payload.bytes = payload.bytes := by
  have hf := C53_sigStructure h1 h2 h3 cap
  by_cases hx : True ∧ (arrayHead 4 ++ encTstr (ascii "Signature1") ++ encBstr prot.bytes ++ encBstr aad.bytes ++
      encBstr payload.bytes).length ≤ cap
  · rw [hf.1.2 hx] at hb
    cases hb
    obtain ⟨r, h1, h2⟩ := C52_sigStructure_accepts (d := d) i1 i2 i3 []
    rw [List.append_nil] at h1
    exact ⟨r, h1, h2⟩
  · rw [hf.2.2 hx] at hb
    cases hb

/-- Structures that meet the hypotheses: for every PLAINTEXT there is one. -/
def PtxtR.of (p : Ptxt) : PtxtR where
  id := match p.idCred with
    | .int v => ⟨v, .zero, .zero, .int⟩
    | .bstr b => ⟨0, .of b, .zero, .bstr⟩
    | .map m => ⟨0, .zero, .of m, .map⟩
  sig := .of p.sig
  ead := eadOf p.ead
  eadPresent := !p.ead.isEmpty

example (p : Ptxt) : (PtxtR.of p).Ok ∧ (PtxtR.of p).input = p := by
  obtain ⟨i, s, e⟩ := p
  refine ⟨⟨?_, ZStr.of_full _, eadOf_ok _, isEmpty_len _⟩, ?_⟩
  · cases i with
    | int v => exact ⟨fun h => (by cases h), fun h => (by cases h)⟩
    | bstr b => exact ⟨fun _ => ZStr.of_full _, fun h => by cases h⟩
    | map m => exact ⟨fun h => (by cases h), fun _ => MapR.of_ok m⟩
  · cases i <;> simp [PtxtR.of, PtxtR.input, IdCredR.value, eadOf_items, MapR.of_value]

/-- A PLAINTEXT_2 that fits exactly, the same with one byte less, and a chain of four certificates. -/
example : cborEncodePtxt2 13 ⟨.ofCid (.int 5), .of ⟨.map ⟨none, some (.list [[9], [8]]), none⟩, [1, 2], [⟨-1, none⟩]⟩⟩ =
      some [5, 0xA1, 0x18, 33, 0x82, 0x41, 9, 0x41, 8, 0x42, 1, 2, 0x20] ∧
    cborEncodePtxt2 12 ⟨.ofCid (.int 5), .of ⟨.map ⟨none, some (.list [[9], [8]]), none⟩, [1, 2], [⟨-1, none⟩]⟩⟩ = none ∧
    cborEncodePtxt2 99 ⟨.ofCid (.int 5), .of ⟨.map ⟨none, some (.list [[9], [8], [7], [6]]), none⟩, [1, 2], []⟩⟩ = none := by
  decide +kernel

end Verif.Gen
