import Verif.Demand2

/-!
# Memory for the MAC, the signature and the plaintexts
-/

namespace Verif

open M Spec

variable {σ α β : Type} {E : Env σ} {cfg : Config} {su : Suite} {Z : Prop} {ms : Msg} {k : Bool} {d e : Nat}

/-- the result has `Q`; the only undefined behaviour is not about the stack -/
def Yields (r : Res α) (Q : α → Prop) : Prop :=
  match r with
  | .ok a => Q a
  | .err _ => True
  | .ub u => u ≠ .stack ∧ u ≠ .zeroVla

namespace Yields

theorem bind {r : Res α} {f : α → Res β} {Q : α → Prop} {R : β → Prop} (h : Yields r Q) (hf : ∀ a, Q a → Yields (f a) R) :
    Yields (r >>= f) R := by
  cases r with
  | ok a => exact hf a h
  | err e => trivial
  | ub u => exact h

theorem bind' {r : Res α} {f : α → Res β} {Q : α → Prop} {R : β → Prop} (h : Yields r Q) (hf : ∀ a, Q a → Yields (f a) R) :
    Yields (Res.bind r f) R := h.bind hf

theorem mono {r : Res α} {Q R : α → Prop} (h : Yields r Q) (hq : ∀ a, Q a → R a) : Yields r R := by
  cases r with
  | ok a => exact hq a h
  | err e => trivial
  | ub u => exact h

theorem any {r : Res α} {Q : α → Prop} (h : Yields r Q) : Yields r (fun _ => True) := h.mono fun _ _ => trivial

theorem ok (a : α) : Yields (Res.ok a) (fun x => x = a) := rfl
theorem pure (a : α) : Yields (Pure.pure a : Res α) (fun x => x = a) := rfl

theorem require (b : Bool) (e : Err) : Yields (Res.require b e) (fun _ => b = true) := by
  cases b
  · trivial
  · rfl

theorem oob (b : Bool) : Yields (Res.guardUB b .oob) (fun _ => b = true) := by
  cases b
  · exact ⟨by simp, by simp⟩
  · rfl

theorem ofOption (e : Err) (o : Option α) : Yields (Res.ofOption e o) (fun a => o = some a) := by
  cases o
  · trivial
  · rfl

theorem mapErr {r : Res α} {Q : α → Prop} (e : Err) (h : Yields r Q) : Yields (Res.mapErr e r) Q := by
  cases r <;> exact h

theorem self {r : Res α} {Q : α → Prop} (h : Yields r Q) : Yields r (fun a => r = .ok a ∧ Q a) := by
  cases r with
  | ok a => exact ⟨rfl, h⟩
  | err e => trivial
  | ub u => exact h

end Yields

theorem Costs.ofYields {I : Ctx → Prop} {r : Res α} {Q : α → Prop} (h : Yields r Q) :
    Costs cfg Z I 0 (M.ofRes r : M σ α) I Q := by
  refine Costs.free fun s => ⟨rfl, ?_⟩
  unfold M.ofRes
  cases r <;> exact h

/-! ## MAC context -/

theorem sum_heads (l : List Bytes) : (l.map fun c => c.length + bstrOh c.length).sum ≤ (l.map List.length).sum + 5 * l.length := by
  induction l with
  | nil => simp
  | cons a l ih =>
    have := bstrOh_max a.length
    simp only [List.map_cons, List.sum_cons, List.length_cons]
    omega

theorem idCredLen_yields (cr : Cred) : Yields (idCredLen cfg cr) (fun n => n ≤ credBytes cr + 5 * cfg.maxCerts + 14) := by
  cases cr with
  | any i c b => simp only [idCredLen, Yields, credBytes]; omega
  | kid c b i =>
    cases i with
    | int v => have := intMemReq_max v; simp only [idCredLen, Yields, credBytes, mapOh]; omega
    | bstr x => have := bstrOh_max x.length; simp only [idCredLen, Yields, credBytes, mapOh, nameBytes]; omega
  | x5chain certs =>
    simp only [idCredLen]
    split
    · exact ⟨by simp, by simp⟩
    · rename_i h
      have h1 := sum_heads certs
      have h2 := arrayOh_max certs.length
      simp only [Yields, credBytes, mapOh]
      split <;> omega
  | x5t c fp i =>
    have h1 : arrayOh 1 = 1 := rfl
    have h2 := bstrOh_max fp.length
    cases i with
    | int v => have := intMemReq_max v; simp only [idCredLen, Yields, credBytes, mapOh, nameBytes, h1]; omega
    | bstr x => have := bstrOh_max x.length; simp only [idCredLen, Yields, credBytes, mapOh, nameBytes, h1]; omega
  | other => trivial

theorem thLen_yields (n : Nat) : Yields (thLen n) (fun l => l ≤ n + 5 ∧ 0 < l) := by
  have h1 := bstrOh_max n
  have h2 := bstrOh_pos n
  unfold thLen
  split
  · trivial
  · exact ⟨by omega, by omega⟩

theorem headD_le (l : List Bytes) : (l.headD []).length ≤ (l.map List.length).sum := by
  cases l <;> simp

theorem credLen_yields (cr : Cred) : Yields (credLen cr) (fun n => n ≤ credBytes cr + 5) := by
  cases cr with
  | any i c b => simp only [credLen, Yields, credBytes]; omega
  | kid c b i => have := bstrOh_max c.length; simp only [credLen, Yields, credBytes]; omega
  | x5chain certs =>
    have h1 := headD_le certs
    have h2 := bstrOh_max (certs.headD []).length
    simp only [credLen, Yields, credBytes]; omega
  | x5t c fp i => have := bstrOh_max c.length; simp only [credLen, Yields, credBytes]; omega
  | other => trivial

theorem eadLen_le (ts : List EadTok) : eadLen ts ≤ eadBytes ts + 9 * ts.length := by
  unfold eadLen eadBytes
  induction ts with
  | nil => simp
  | cons t ts ih =>
    have h1 := intMemReq_max t.label
    have h2 := bstrOh_max t.valueLen
    simp only [List.map_cons, List.sum_cons, List.length_cons, EadTok.valueLen] at *
    omega

theorem macContextLen_yields {c : Ctx} {cr : Cred} {n a : Nat} (hc : Sized cfg su ms true d (a + 27) c)
    (ht : c.th.length ≤ cfg.maxMac) (hn : credBytes cr ≤ n) :
    Yields (macContextLen cfg c cr) (fun l => l ≤ contextSize cfg n a ∧ 0 < l) := by
  unfold macContextLen
  refine (Yields.require _ _).bind fun _ _ => (idCredLen_yields cr).bind fun l2 h2 => ?_
  refine (thLen_yields _).bind fun l3 h3 => (credLen_yields cr).bind fun l4 h4 => (Yields.pure _).mono ?_
  rintro _ rfl
  have h5 : (if c.message = .msg2 then cidLen (macCid c) else 0) ≤ cfg.maxCid + 6 := by
    split
    · rename_i hm
      have := cidLen_bound (macCid c)
      have := hc.mac rfl (hc.message ▸ hm)
      omega
    · omega
  have h6 := hc.ead
  unfold contextSize
  omega

/-- the compact form of ID_CRED is short -/
def CompShort (cfg : Config) (o : Option Comp) : Prop := ∀ x, o = some x → x.idBstr.length ≤ cfg.maxKid + 1

theorem kidCompact_yields (b : Bool) (i : IntOrBytes) :
    Yields (kidCompact cfg b i) (fun x => x.idBstr.length ≤ cfg.maxKid + 1) := by
  cases i with
  | int v =>
    unfold kidCompact
    repeat' split
    all_goals first | trivial | exact Nat.zero_le _
  | bstr x =>
    unfold kidCompact
    repeat' split
    all_goals first | trivial | exact ⟨by simp, by simp⟩ | exact Nat.zero_le _ | skip
    · rename_i h
      have := fits_le h
      show List.length _ ≤ _
      simp only
      omega

theorem macComp_yields (cr : Cred) : Yields (macComp cfg cr) (CompShort cfg) := by
  cases cr with
  | kid c b i =>
    refine Yields.bind (Yields.mapErr _ (kidCompact_yields b i)) fun x hx => ?_
    rintro y ⟨⟩
    exact hx
  | any i c b =>
    rcases c with _ | ⟨t, b⟩
    · intro x hx; cases hx
    · cases t
      · show Yields (if _ then _ else _) _
        split
        · rintro y ⟨⟩; exact Nat.zero_le _
        · exact ⟨by simp, by simp⟩
      · show Yields (if _ then _ else _) _
        split
        · rename_i h; rintro y ⟨⟩; exact h
        · exact ⟨by simp, by simp⟩
  | x5chain _ => intro x hx; cases hx
  | x5t _ _ _ => intro x hx; cases hx
  | other _ => intro x hx; cases hx

/-- the parts of a MAC context of at most `n` bytes -/
structure MacFits (cfg : Config) (n : Nat) (m : MacCtx) : Prop where
  buf : m.buf.length ≤ n
  id : idCredPtxtLen m ≤ m.idCred.length + cfg.maxKid + 6

theorem macContext_yields (c : Ctx) (cr : Cred) (n : Nat) : Yields (macContext cfg c cr n) (MacFits cfg n) := by
  unfold macContext
  refine (Yields.require _ _).bind fun _ _ => (Yields.require _ _).bind fun _ _ => (Yields.require _ _).bind fun _ _ => ?_
  refine Yields.bind (Q := fun _ => True) ?_ fun connId hc => ?_
  · split
    · refine (Yields.oob _).bind' fun _ _ => ?_
      split <;> exact (Yields.ofOption _ _).any
    · trivial
  refine (idCredLen_yields cr).bind fun l2 _ => (Yields.oob _).bind fun _ _ => ?_
  refine Yields.bind (Q := fun _ => True) ?_ fun idc hid => (macComp_yields cr).bind fun comp hcomp => ?_
  · unfold macIdCred
    refine Yields.bind (Q := fun _ => True) ?_ fun m _ => ?_
    · cases cr with
      | x5chain certs =>
        unfold credMap
        repeat' split
        all_goals trivial
      | _ => trivial
    · split
      · trivial
      · exact (Yields.ofOption _ _).any
  refine (thLen_yields _).bind fun l3 h3 => (Yields.oob _).bind fun _ _ => (Yields.ofOption _ _).bind fun th hth => ?_
  refine (credLen_yields cr).bind fun l4 _ => (Yields.oob _).bind fun _ _ => ?_
  refine Yields.bind (Q := fun _ => True) ?_ fun cred hcr => ?_
  · cases cr with
    | kid c b i => cases b <;> first | trivial | exact (Yields.ofOption _ _).any
    | any i e c => trivial
    | x5chain certs => exact (Yields.ofOption _ _).any
    | x5t c fp i => exact (Yields.ofOption _ _).any
    | other => trivial
  refine Yields.bind (Q := fun _ => True) ?_ fun ead _ => ?_
  · split
    · trivial
    · exact (Yields.oob _).bind' fun _ _ => (Yields.oob _).bind' fun _ _ => (Yields.ofOption _ _).any
  refine (Yields.require _ _).bind fun _ hq => (Yields.pure _).mono ?_
  rintro _ rfl
  simp only [decide_eq_true_eq] at hq
  refine ⟨?_, ?_⟩
  · simp only [MacCtx.buf, List.length_append]; omega
  · simp only [idCredPtxtLen]
    rcases comp with _ | x
    · simp
      omega
    · have h1 := hcomp x rfl
      have h2 := bstrOh_max x.idBstr.length
      simp only [Option.isSome_some, if_true, Option.map_some, Option.getD_some]
      cases x.encType
      · have := intMemReq_max (leInt x.idInt)
        simp only
        omega
      · simp only
        omega

theorem Costs.buildMacCtx {cr : Cred} {n a : Nat} (eLen : Option Err) (hn : credBytes cr ≤ n) :
    Costs cfg Z (Sized cfg su ms true d (a + 27)) (cfg.macCtxSize + contextSize cfg n a) (Verif.buildMacCtx E cfg eLen cr)
      (Sized cfg su ms true d (a + 27)) (MacFits cfg (contextSize cfg n a)) := by
  unfold Verif.buildMacCtx
  refine Costs.getCtx.seq fun c hc => ?_
  refine (Costs.ofYields (Q := fun l => l ≤ contextSize cfg n a ∧ 0 < l) ?_).seq fun l hl => ?_
  · cases eLen with
    | none => exact macContextLen_yields hc.1 hc.2 hn
    | some e => exact (macContextLen_yields hc.1 hc.2 hn).mapErr e
  refine Costs.le (Costs.bind (Costs.memAlloc (by omega)) fun _ _ => Costs.ofYields ((macContext_yields c cr l).mono fun m hm => ?_)) ?_
  · exact ⟨Nat.le_trans hm.buf hl.1, hm.id⟩
  · omega

/-! ## MAC and signature -/

theorem Costs.compMac (b : Bytes) (n : Nat) : Costs cfg Z (Sized cfg su ms k d e) (b.length + 13) (Verif.compMac E cfg b n)
    (Sized cfg su ms k d e) (fun r => r.length = n) := by
  unfold Verif.compMac
  refine Costs.getCtx.seq fun c hc => (Costs.require _ _).seq fun _ _ => (Costs.require _ _).seq fun _ _ => ?_
  refine (Costs.require _ _).seq fun _ _ => (Costs.require _ _).seq fun _ _ => ?_
  have h1 := bstrOh_max b.length
  have h2 := intMemReq_max (macLabel c)
  have h3 := intMemReq_max (i32 n)
  have h4 := intMemReq_pos (macLabel c)
  refine Costs.le (Costs.bind (Costs.memAlloc (by omega)) fun _ _ => (Costs.ofOption _ _).seq fun _ _ =>
    (Costs.require _ _).seq fun _ _ => (Costs.withKey fun k => Costs.expand _ _ _).seq fun _ hr => 
    (Costs.ofOption _ _).res fun x hx => hr x hx) (by omega)

theorem sigBufLen_le (m : MacCtx) (n : Nat) : sigBufLen m n ≤ m.buf.length + n + 26 ∧ 0 < sigBufLen m n := by
  have h1 : bstrOh 11 = 1 := rfl
  have h2 := bstrOh_max m.idCred.length
  have h3 := bstrOh_max m.aad.length
  have h4 := intMemReq_max (i32 n)
  simp only [sigBufLen, MacCtx.buf, MacCtx.aad, List.length_append] at *
  omega

theorem Costs.signCose {I : Ctx → Prop} (key : Bytes) (m : MacCtx) (mac : Bytes) (n : Nat) :
    Costs cfg Z I (m.buf.length + mac.length + 26) (Verif.signCose E cfg key m mac n) I (fun s => s.length ≤ n) := by
  unfold Verif.signCose
  have h := sigBufLen_le m mac.length
  refine Costs.le (Costs.bind (B2 := 0) (Costs.memAlloc (by omega)) fun _ _ => ?_) (Nat.le_trans (Nat.le_of_eq (Nat.add_zero _)) h.1)
  refine (Costs.ofOption _ _).seq fun _ _ => (Costs.sign _ _).seq fun _ _ => (Costs.ofOption _ _).seq fun s _ => ?_
  refine (Costs.callback _).seq fun _ hg => (Costs.pure s).res ?_
  rintro _ rfl
  simpa using hg

theorem Costs.verifyCose {I : Ctx → Prop} (m : MacCtx) (pk mac sig : Bytes) :
    Costs cfg Z I (m.buf.length + mac.length + 26) (Verif.verifyCose E cfg m pk mac sig) I (fun _ => True) := by
  unfold Verif.verifyCose
  have h := sigBufLen_le m mac.length
  refine Costs.le (Costs.bind (B2 := 0) (Costs.memAlloc (by omega)) fun _ _ => ?_) (Nat.le_trans (Nat.le_of_eq (Nat.add_zero _)) h.1)
  refine (Costs.ofOption _ _).seq fun _ _ => ?_
  exact (Costs.withKey fun k => Costs.verify _ _ _).seq fun _ _ => (Costs.require _ _).any

theorem Costs.compSignOrMac {I : Ctx → Prop} (key : Bytes) (m : MacCtx) (mac : Bytes) (n : Nat) :
    Costs cfg Z I (m.buf.length + mac.length + 26) (Verif.compSignOrMac E cfg key m mac n) I (fun s => s.length ≤ n) := by
  unfold Verif.compSignOrMac
  refine Costs.getCtx.seq fun c hc => (Costs.require _ _).seq fun _ _ => ?_
  split
  · exact Costs.signCose _ _ _ _
  · refine Costs.le ((Costs.oob _).seq fun _ hg => (Costs.pure mac).res ?_) (Nat.zero_le _)
    rintro _ rfl
    simpa using hg
  · refine Costs.le (B := 0) ?_ (Nat.zero_le _)
    exact Costs.free fun s => ⟨rfl, trivial⟩

theorem Costs.verifySignOrMac {I : Ctx → Prop} (m : MacCtx) (pk : Option Bytes) (sig mac : Bytes) :
    Costs cfg Z I (m.buf.length + mac.length + 26) (Verif.verifySignOrMac E cfg m pk sig mac) I (fun _ => True) := by
  unfold Verif.verifySignOrMac
  refine Costs.getCtx.seq fun c hc => (Costs.ofOption _ _).seq fun p _ => (Costs.require _ _).seq fun _ _ => ?_
  split
  · exact Costs.verifyCose _ _ _ _
  · exact Costs.le (Costs.require _ _).any (Nat.zero_le _)
  · exact Costs.le (Costs.fail _) (Nat.zero_le _)

theorem macLength_yields (hz : ¬ Suite.Positive su → Z) {c : Ctx} (hc : c.suite = su) :
    Yields (macLength c) (fun n => n ≤ su.hash + su.mac ∧ (n = 0 → Z)) := by
  unfold macLength
  rw [hc]
  split
  · exact ⟨by omega, fun h => hz fun p => p.1 h⟩
  · exact ⟨by omega, fun h => hz fun p => p.2.1 h⟩
  · trivial

theorem signOrMacLength_yields (hz : ¬ Suite.Positive su → Z) {c : Ctx} (hc : c.suite = su) :
    Yields (signOrMacLength c) (fun n => n ≤ su.eccSign + su.mac ∧ (n = 0 → Z)) := by
  unfold signOrMacLength
  rw [hc]
  split
  · exact ⟨by omega, fun h => hz fun p => p.2.2.2.1 h⟩
  · exact ⟨by omega, fun h => hz fun p => p.2.1 h⟩
  · trivial

/-! ## EAD and credentials -/

theorem Costs.eadCompose {L : Nat} (hE : Modest E L) (hm : cfg.maxEad ≤ 3) (h0 : e ≤ L + 27) :
    Costs cfg Z (Sized cfg su ms k d e) 0 (Verif.eadCompose E cfg) (Sized cfg su ms k d (L + 27)) (fun _ => True) := by
  unfold Verif.eadCompose
  refine Costs.getCtx.seq fun c hc => ?_
  have hw : ∀ c, Sized cfg su ms k d e c → Sized cfg su ms k d (L + 27) c := fun c h =>
    ⟨h.suite, h.message, h.own, h.mac, h.pub, Nat.le_trans h.ead h0⟩
  refine Costs.pre hw (Costs.whenM (φ := fun _ => True) _ fun _ => ?_)
  refine (Costs.call _ _ fun _ => rfl).seq fun r hr => (Costs.ofOption _ _).seq fun ts hts => ?_
  obtain ⟨x, hx⟩ := hr
  have h1 := hE.ead x c.message ts (hx.trans hts)
  have h2 := eadLen_le ts
  by_cases hl : ts.length ≤ cfg.maxEad
  · refine (Costs.mod (J := Sized cfg su ms k d (L + 27)) ?_).seq fun _ _ => (Costs.require _ _).any
    exact fun c h => ⟨h.suite, h.message, h.own, h.mac, h.pub, by show eadLen ts ≤ _; omega⟩
  · refine (Costs.mod (J := fun _ => True) (fun _ _ => trivial)).seq fun _ _ => ?_
    rw [decide_eq_false hl]
    exact fun s hi ht => ⟨[], by simp [M.require], by simp [requested], by simp [requested], ht, trivial⟩

theorem Costs.verifyCred {L : Nat} (hE : Modest E L) (cr : Cred) : Costs cfg Z (Sized cfg su ms k d e) 0
    (Verif.verifyCred E cr) (Sized cfg su ms k d e) (fun v => credBytes v.1 ≤ credBytes cr + L) := by
  unfold Verif.verifyCred
  refine (Costs.credVerify _).seq fun r hr => ?_
  refine (Costs.whenM (φ := fun _ => True) _ fun _ => Costs.mod ?_).seq fun _ _ => (Costs.ofOption _ _).res fun v hv => ?_
  · exact fun c h => ⟨h.suite, h.message, h.own, h.mac, h.pub, h.ead⟩
  · obtain ⟨x, hx⟩ := hr
    exact hE.verify x cr v (hx.trans hv)

/-! ## Plaintexts -/

theorem ptxt2Len_yields {c : Ctx} {m : MacCtx} {n q a : Nat} (hc : Sized cfg su ms k d e c) (hm : MacFits cfg (contextSize cfg q a) m)
    (hn : n ≤ su.eccSign + su.mac) : Yields (ptxt2Len c m n) (fun l => l ≤ plaintextSize cfg su q a ∧ 0 < l) := by
  unfold ptxt2Len
  split
  · trivial
  have h1 := hc.own
  have h2 := hm.buf
  have h3 := hm.id
  have h4 := bstrOh_max n
  have h5 := bstrOh_pos n
  simp only [MacCtx.buf, List.length_append] at h2
  simp only [Yields, plaintextSize]
  cases hcid : c.cid with
  | int v =>
    have := intMemReq_max v
    simp only
    omega
  | bstr b =>
    have := bstrOh_max b.length
    rw [hcid] at h1
    simp only [cidBytes] at h1
    simp only
    omega

theorem encBstr_pos (b : Bytes) : 0 < (encBstr b).length := by
  rw [encBstr_length]
  have : 0 < headLen b.length := by
    unfold headLen
    repeat' split
    all_goals omega
  omega

theorem ptxtTail_yields (m : MacCtx) (sig : Bytes) (off n : Nat) :
    Yields (ptxtTail m sig off n) (fun b => off + b.length ≤ n ∧ 0 < b.length) := by
  unfold ptxtTail
  refine (Yields.oob _).bind fun _ _ => (Yields.ofOption _ _).bind fun s hs => (Yields.oob _).bind fun _ _ => ?_
  refine (Yields.oob _).bind fun _ hg => (Yields.pure _).mono ?_
  rintro _ rfl
  obtain ⟨rfl, _⟩ := fits_some hs
  have := encBstr_pos sig
  simp only [decide_eq_true_eq] at hg
  simp only [List.length_append]
  omega

theorem preparePtxt2_yields (c : Ctx) (m : MacCtx) (sig : Bytes) (n : Nat) :
    Yields (preparePtxt2 c m sig n) (fun b => b.length ≤ n ∧ 0 < b.length) := by
  unfold preparePtxt2
  refine (Yields.ofOption _ _).bind fun x hx => (ptxtTail_yields m sig x.length n).bind fun t ht => (Yields.pure _).mono ?_
  rintro _ rfl
  simp only [List.length_append]
  omega

theorem preparePtxt3_yields (m : MacCtx) (sig : Bytes) (n : Nat) :
    Yields (preparePtxt3 m sig n) (fun b => b.length ≤ n ∧ 0 < b.length) := by
  unfold preparePtxt3
  refine (Yields.require _ _).bind fun _ _ => (ptxtTail_yields m sig 0 n).mono fun b hb => ?_
  omega

theorem Costs.prepareMsg2 (b : Bytes) (n : Nat) : Costs cfg Z (Sized cfg su ms k d e) (d + b.length)
    (Verif.prepareMsg2 E cfg b n) (Sized cfg su ms k d e) (fun _ => True) := by
  unfold Verif.prepareMsg2
  refine Costs.getCtx.seq fun c hc => (Costs.require _ _).seq fun _ hq => ?_
  simp only [Bool.and_eq_true, bne_iff_ne, ne_eq] at hq
  have := hc.1.pub
  exact Costs.le (Costs.bind (Costs.memAlloc (by omega)) fun _ _ => (Costs.ofOption _ _).any) (by omega)

/-! ## What a received plaintext holds -/

/-- bytes in the strings of an ID_CRED -/
def idBytes : IdCred → Nat
  | .int _ => 0
  | .bstr b => b.length
  | .map m => (match m.x5chain with
      | some (.one c) => c.length
      | some (.list l) => (l.map List.length).sum
      | none => 0) + (match m.x5t with
      | some (a, fp) => nameBytes a + fp.length
      | none => 0)

theorem BstrItem.le {s b : Bytes} (h : BstrItem s b) : s.length ≤ b.length := by
  obtain ⟨hd, _, rfl⟩ := h; simp
theorem TstrItem.le {s b : Bytes} (h : TstrItem s b) : s.length ≤ b.length := by
  obtain ⟨hd, _, rfl⟩ := h; simp

theorem Each.le {R : α → Bytes → Prop} {f : α → Nat} (hR : ∀ {a b}, R a b → f a ≤ b.length) {l : List α} {bs : List Bytes}
    (h : Each R l bs) : (l.map f).sum ≤ bs.flatten.length := by
  induction h with
  | nil => simp
  | cons h1 _ ih =>
    have := hR h1
    simp only [List.map_cons, List.sum_cons, List.flatten_cons, List.length_append]
    omega

theorem Container.le {m : Nat} {l : List Bytes} {b : Bytes} (h : Container m l b) : l.flatten.length ≤ b.length := by
  rcases h with ⟨hd, _, rfl⟩ | rfl
  · simp
  · simp; omega

theorem AlgItem.le {a : IntOrBytes} {b : Bytes} (h : AlgItem a b) : nameBytes a ≤ b.length := by
  cases a with
  | int v => exact Nat.zero_le _
  | bstr s => exact TstrItem.le h

theorem CredMapItem.le {m : CredMap} {b : Bytes} (h : CredMapItem m b) : idBytes (.map m) ≤ b.length := by
  obtain ⟨x, y, z, _, hy, hz, hb⟩ := h
  have h1 : ((x ++ y ++ z).map fun p => p.1 ++ p.2).flatten.length ≤ b.length := by
    rcases hb with ⟨hd, _, rfl⟩ | rfl
    · rw [List.length_append]; omega
    · rw [List.length_cons, List.length_append]; omega
  have h2 : (match m.x5chain with | some (.one c) => c.length | some (.list l) => (l.map List.length).sum | none => 0) ≤
      (y.map fun p => p.1 ++ p.2).flatten.length := by
    rcases hm : m.x5chain with _ | ⟨c⟩ | ⟨l⟩
    · exact Nat.zero_le _
    · rw [hm] at hy
      obtain ⟨k, v, _, hv, rfl⟩ := hy
      have := BstrItem.le hv
      simp; omega
    · rw [hm] at hy
      obtain ⟨k, v, _, ⟨_, bs, he, hc⟩, rfl⟩ := hy
      have h3 := Each.le (f := List.length) BstrItem.le he
      have h4 := Container.le hc
      simp only [List.map_cons, List.map_nil, List.flatten_cons, List.flatten_nil, List.append_nil, List.length_append]
      omega
  have h3 : (match m.x5t with | some (a, fp) => nameBytes a + fp.length | none => 0) ≤
      (z.map fun p => p.1 ++ p.2).flatten.length := by
    rcases hm : m.x5t with _ | ⟨a, fp⟩
    · exact Nat.zero_le _
    · rw [hm] at hz
      obtain ⟨k, v, _, ⟨x, y, ha, hp, hc⟩, rfl⟩ := hz
      have h4 : nameBytes a ≤ _ := AlgItem.le ha
      have h5 : fp.length ≤ _ := BstrItem.le hp
      have h6 := Container.le hc
      simp only [List.flatten_cons, List.flatten_nil, List.append_nil, List.length_append] at h6
      simp only [List.map_cons, List.map_nil, List.flatten_cons, List.flatten_nil, List.append_nil, List.length_append]
      omega
  simp only [List.map_append, List.flatten_append, List.length_append] at h1
  simp only [idBytes]
  omega

theorem IdCredItem.le {i : IdCred} {b : Bytes} (h : IdCredItem i b) : idBytes i ≤ b.length := by
  cases i with
  | int v => exact Nat.zero_le _
  | bstr s => exact BstrItem.le h
  | map m => exact CredMapItem.le h

theorem SeqEad.le {ts : List EadTok} {b : Bytes} (h : SeqOf EadItem ts b) : eadBytes ts ≤ b.length := by
  obtain ⟨bs, he, rfl⟩ := h
  refine Each.le (f := fun t => (t.value.getD []).length) ?_ he
  rintro t b ⟨x, y, _, rfl, hy⟩
  rcases ht : t.value with _ | v
  · simp
  · rw [ht] at hy
    have := BstrItem.le hy
    simp; omega

theorem Plaintext3.le {p : Ptxt} {b : Bytes} (h : Plaintext3 p b) : idBytes p.idCred + eadBytes p.ead ≤ b.length := by
  obtain ⟨i, s, e, hi, _, he, rfl⟩ := h
  have h1 := IdCredItem.le hi
  have h2 := SeqEad.le he
  simp only [List.length_append]
  omega

theorem recvChain_yields (l : List Bytes) : Yields (recvChain cfg l) (fun c => credBytes c ≤ (l.map List.length).sum) := by
  unfold recvChain
  repeat' split
  · exact ⟨by simp, by simp⟩
  · exact Nat.le_refl _
  · trivial

theorem recvHash_yields (a fp : Bytes) : Yields (recvHash cfg a fp) (fun c => credBytes c ≤ a.length + fp.length) := by
  unfold recvHash
  repeat' split
  · exact ⟨by simp, by simp⟩
  · simp only [Yields, credBytes, nameBytes, List.length_nil]; omega
  · trivial

theorem credOfMap2_yields (m : CredMap) : Yields (credOfMap2 cfg m) (fun c => credBytes c ≤ idBytes (.map m)) := by
  obtain ⟨kid, x5chain, x5t⟩ := m
  unfold credOfMap2 idBytes
  refine Yields.bind (Q := fun c => credBytes c ≤ match x5chain with
      | some (.one c) => c.length | some (.list l) => (l.map List.length).sum | none => 0) ?_ fun c1 h1 => ?_
  · rcases x5chain with _ | c | l
    · exact Nat.zero_le _
    · simp [Yields, credBytes]
    · exact recvChain_yields _
  · rcases x5t with _ | ⟨_ | _, fp⟩
    · exact Nat.le_trans h1 (Nat.le_add_right _ _)
    · simp only [Yields, credBytes, nameBytes, List.length_nil]; omega
    · exact (recvHash_yields _ _).mono fun c h => by simp only [nameBytes]; omega

theorem credOfMap3_yields (m : CredMap) : Yields (credOfMap3 cfg m) (fun c => credBytes c ≤ idBytes (.map m)) := by
  obtain ⟨kid, x5chain, x5t⟩ := m
  unfold credOfMap3 idBytes
  rcases x5chain with _ | c | l
  · rcases x5t with _ | ⟨_ | _, fp⟩
    · exact Nat.zero_le _
    · simp only [Yields, credBytes, nameBytes, List.length_nil]; omega
    · exact (recvHash_yields _ _).mono fun c h => by simp only [nameBytes]; omega
  · simp only [Yields, credBytes, List.map_cons, List.map_nil, List.sum_cons, List.sum_nil]; omega
  · exact (recvChain_yields _).mono fun c h => Nat.le_trans h (Nat.le_add_right _ _)

theorem credOfIdCred_yields {f : Config → CredMap → Res Cred}
    (hf : ∀ m, Yields (f cfg m) (fun c => credBytes c ≤ idBytes (.map m))) (i : IdCred) :
    Yields (credOfIdCred cfg f i) (fun c => credBytes c ≤ idBytes i) := by
  cases i with
  | int v => exact Nat.zero_le _
  | bstr b =>
    show Yields (if b.length ≤ cfg.maxKid + 1 then Res.ok _ else Res.ub _) _
    split
    · simp [Yields, credBytes, nameBytes, idBytes]
    · exact ⟨by simp, by simp⟩
  | map m => exact hf m

theorem Costs.handOver {I : Ctx → Prop} (n : Nat) : Costs cfg Z I 0 (Verif.handOver cfg n : M σ Unit) I (fun _ => True) := by
  unfold Verif.handOver
  exact Costs.getCtx.seq fun _ _ => (Costs.oob _).any

theorem Costs.storeEad {ts : List EadTok} {n e' : Nat} (h : eadLen ts ≤ e') (he : e ≤ e') : Costs cfg Z (Sized cfg su ms k d e) 0
    (Verif.storeEad cfg ts n : M σ Unit) (Sized cfg su ms k d e') (fun _ => True) := by
  unfold Verif.storeEad
  have hw : ∀ c, Sized cfg su ms k d e c → Sized cfg su ms k d e' c := fun c h =>
    ⟨h.suite, h.message, h.own, h.mac, h.pub, Nat.le_trans h.ead he⟩
  refine Costs.pre hw (Costs.whenM (φ := fun _ => True) _ fun _ => ?_)
  refine (Costs.oob _).seq fun _ _ => (Costs.mod ?_).seq fun _ _ => Costs.handOver _
  exact fun c hc => ⟨hc.suite, hc.message, hc.own, hc.mac, hc.pub, h⟩

theorem Costs.storePeerCid (x : Err) (ci : Cid) :
    Costs cfg Z (Sized cfg su ms k d e) 0 (Verif.storePeerCid cfg x ci : M σ Unit) (Sized cfg su ms true d e) (fun _ => True) := by
  unfold Verif.storePeerCid
  have key : cidBytes ci ≤ cfg.maxCid + 1 →
      Costs cfg Z (Sized cfg su ms k d e) 0 (M.modCtx fun c => { c with peerCid := ci } : M σ Unit)
        (Sized cfg su ms true d e) (fun _ => True) := fun hq => Costs.mod fun c h => by
    refine ⟨h.suite, h.message, h.own, fun _ _ => ?_, h.pub, h.ead⟩
    unfold macCid
    split
    · exact hq
    · exact h.own
  cases ci with
  | int v => exact (Costs.require _ _).seq fun _ _ => key (Nat.zero_le _)
  | bstr b =>
    exact (Costs.require _ _).seq fun _ _ => (Costs.oob _).seq fun _ hb => key (of_decide_eq_true hb)

end Verif
