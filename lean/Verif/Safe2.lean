import Verif.Safe
import Verif.Sent
import Verif.Received

/-!
# Runs without undefined behaviour: MAC contexts, plaintexts and credentials
-/

namespace Verif

open M Spec

variable {σ α β : Type}

/-- no undefined behaviour, and a result has `Q` -/
def Gives (r : Res α) (Q : α → Prop) : Prop :=
  match r with
  | .ok a => Q a
  | .err _ => True
  | .ub _ => False

namespace Gives

theorem bind {r : Res α} {f : α → Res β} {Q : α → Prop} {R : β → Prop} (h : Gives r Q) (hf : ∀ a, Q a → Gives (f a) R) :
    Gives (r >>= f) R := by
  cases r with
  | ok a => exact hf a h
  | err e => trivial
  | ub u => exact h.elim

theorem bind' {r : Res α} {f : α → Res β} {Q : α → Prop} {R : β → Prop} (h : Gives r Q) (hf : ∀ a, Q a → Gives (f a) R) :
    Gives (Res.bind r f) R := bind h hf

theorem mono {r : Res α} {Q R : α → Prop} (h : Gives r Q) (hq : ∀ a, Q a → R a) : Gives r R := by
  cases r with
  | ok a => exact hq a h
  | err e => trivial
  | ub u => exact h

theorem any {r : Res α} {Q : α → Prop} (h : Gives r Q) : Gives r (fun _ => True) := h.mono fun _ _ => trivial

theorem ok (a : α) : Gives (Res.ok a) (fun x => x = a) := rfl
theorem pure (a : α) : Gives (Pure.pure a : Res α) (fun x => x = a) := rfl
theorem err (e : Err) : Gives (Res.err e : Res α) (fun _ => True) := trivial

theorem require (b : Bool) (e : Err) : Gives (Res.require b e) (fun _ => b = true) := by
  cases b
  · trivial
  · exact rfl

theorem guardUB {b : Bool} (u : UB) (h : b = true) : Gives (Res.guardUB b u) (fun _ => True) := by
  subst h; trivial

theorem ofOption (e : Err) (o : Option α) : Gives (Res.ofOption e o) (fun a => o = some a) := by
  cases o with
  | none => trivial
  | some a => exact rfl

theorem mapErr {r : Res α} {Q : α → Prop} (e : Err) (h : Gives r Q) : Gives (Res.mapErr e r) Q := by
  cases r <;> exact h

theorem fact {r : Res α} {Q : α → Prop} {a : α} (h : Gives r Q) (hr : r = .ok a) : Q a := by
  subst hr; exact h

/-- a result of which nothing but its value is known -/
theorem self {r : Res α} {Q : α → Prop} (h : Gives r Q) : Gives r (fun a => r = .ok a ∧ Q a) := by
  cases r with
  | ok a => exact ⟨rfl, h⟩
  | err e => trivial
  | ub u => exact h

end Gives

theorem Keep.ofGives {I : Ctx → Prop} {L : UB → Prop} {r : Res α} {Q : α → Prop} (h : Gives r Q) :
    Keep I L (M.ofRes r : M σ α) Q := by
  intro s hi
  cases r with
  | ok a => exact ⟨hi, h⟩
  | err e => trivial
  | ub u => exact h.elim

theorem Keep.modThen {I : Ctx → Prop} {L : UB → Prop} {b : Bool} {e : Err} {f : Ctx → Ctx}
    (h : b = true → ∀ c, I c → I (f c)) : Keep I L (M.modCtx f >>= fun _ => (M.require b e : M σ Unit)) (fun _ => True) := by
  intro s hi
  cases b
  · trivial
  · exact ⟨h rfl s.ctx hi, trivial⟩

section

variable {E : Env σ} {cfg : Config} {su : Suite} {me : Nat} {ms : Msg}

theorem idCredLen_gives {cr : Cred} (h : CredFits cfg cr) : Gives (idCredLen cfg cr) (fun _ => True) := by
  cases cr with
  | any => trivial
  | kid c b i => cases i <;> trivial
  | x5chain certs =>
    show Gives (if _ then _ else _) _
    rw [if_neg (Nat.not_lt.2 h)]
    trivial
  | x5t c fp i => cases i <;> trivial
  | other => trivial

theorem thLen_gives (n : Nat) : Gives (thLen n) (fun l => l = n + bstrOh n) := by
  unfold thLen
  split
  · trivial
  · exact rfl

theorem credLen_gives (cr : Cred) : Gives (credLen cr) (fun _ => True) := by
  cases cr <;> trivial

theorem macContextLen_gives {cr : Cred} (c : Ctx) (h : CredFits cfg cr) :
    Gives (macContextLen cfg c cr) (fun n => ∃ l2 l4, idCredLen cfg cr = .ok l2 ∧ credLen cr = .ok l4 ∧
      n = (if c.message = .msg2 then cidLen (macCid c) else 0) + l2 + (c.th.length + bstrOh c.th.length) + l4 + eadLen c.ead) := by
  unfold macContextLen
  refine (Gives.require _ _).bind fun _ _ => (idCredLen_gives h).self.bind fun l2 h2 => ?_
  refine (thLen_gives _).bind fun l3 h3 => (credLen_gives cr).self.bind fun l4 h4 => ?_
  refine (Gives.pure _).mono ?_
  rintro _ rfl
  exact ⟨l2, l4, h2.1, h4.1, by rw [h3]⟩

theorem fits_le {n : Nat} {b x : Bytes} (h : fits n b = some x) : x.length ≤ n := by
  obtain ⟨rfl, h⟩ := fits_some h
  exact h

theorem macIdCred_gives {cr : Cred} {l2 : Nat} (h : idCredLen cfg cr = .ok l2) :
    Gives (macIdCred l2 cr) (fun b => b.length ≤ l2) := by
  unfold macIdCred
  have hm : Gives (credMap cr) (fun _ => True) := by
    cases cr with
    | x5chain certs =>
      unfold credMap
      repeat' split
      all_goals trivial
    | _ => trivial
  refine hm.bind fun m _ => ?_
  split
  · cases h
    exact Nat.le_refl _
  · refine (Gives.ofOption _ _).mono fun b hb => ?_
    rw [Option.bind_eq_some_iff] at hb
    obtain ⟨x, _, hx⟩ := hb
    exact fits_le hx

theorem kidCompact_gives {b : Bool} {i : IntOrBytes} (h : ∀ x, b = true → i = .bstr x → x.length ≤ cfg.maxKid + 1) :
    Gives (kidCompact cfg b i) (fun _ => True) := by
  cases i with
  | int v =>
    unfold kidCompact
    repeat' split
    all_goals trivial
  | bstr x =>
    cases b with
    | true =>
      have := h x rfl rfl
      unfold kidCompact
      simp only [if_pos this, if_true]
      repeat' split
      all_goals trivial
    | false =>
      unfold kidCompact
      simp only [Bool.false_eq_true, if_false]
      split <;> trivial

theorem macComp_gives {cr : Cred} (h : CredFits cfg cr) : Gives (macComp cfg cr) (fun _ => True) := by
  cases cr with
  | kid c b i =>
    refine Gives.bind (Gives.mapErr _ (kidCompact_gives ?_)) fun _ _ => trivial
    rintro x rfl rfl
    exact h
  | any i e c =>
    rcases e with _ | ⟨t, b⟩
    · trivial
    · cases t
      · show Gives (if _ then _ else _) _
        rw [if_pos (by exact h)]; trivial
      · show Gives (if _ then _ else _) _
        rw [if_pos (by exact h)]; trivial
  | _ => trivial

theorem macCred_gives {cr : Cred} {l4 : Nat} (h : credLen cr = .ok l4) : Gives (macCred l4 cr) (fun b => b.length ≤ l4) := by
  cases cr with
  | kid c b i =>
    cases h
    cases b with
    | true => exact Nat.le_add_right _ _
    | false => exact (Gives.ofOption _ _).mono fun _ hb => fits_le hb
  | any i e c => cases h; exact Nat.le_refl _
  | x5chain certs => exact (Gives.ofOption _ _).mono fun _ hb => fits_le hb
  | x5t c fp i => exact (Gives.ofOption _ _).mono fun _ hb => fits_le hb
  | other => trivial

/-- the MAC context fits the buffer of the computed length -/
theorem macContext_gives {cr : Cred} {c : Ctx} {n : Nat} (h : CredFits cfg cr) (he : c.ead.length ≤ 3)
    (hn : macContextLen cfg c cr = .ok n) : Gives (macContext cfg c cr n) (fun _ => True) := by
  obtain ⟨l2, l4, h2, h4, hn⟩ := (macContextLen_gives c h).fact hn
  unfold macContext
  refine (Gives.require _ _).bind fun _ _ => (Gives.require _ _).bind fun _ _ => (Gives.require _ _).bind fun _ _ => ?_
  refine Gives.bind (Q := fun b => b.length ≤ if c.message = .msg2 then cidLen (macCid c) else 0) ?_ fun connId hc => ?_
  · by_cases hm : c.message = .msg2
    · rw [if_pos hm] at hn ⊢
      rw [if_pos hm]
      refine (Gives.guardUB _ (decide_eq_true (by omega))).bind' fun _ _ => ?_
      split
      · rename_i v hv
        refine (Gives.ofOption _ _).mono fun _ hb => ?_
        rw [hv]
        exact fits_le hb
      · rename_i b hv
        refine (Gives.ofOption _ _).mono fun _ hb => ?_
        rw [hv]
        exact fits_le hb
    · rw [if_neg hm, if_neg hm]
      exact Nat.le_refl _
  generalize (if c.message = .msg2 then cidLen (macCid c) else 0) = l1 at hc hn
  refine (idCredLen_gives h).self.bind fun l2' h2' => ?_
  rw [h2] at h2'
  obtain ⟨⟨⟩, _⟩ := h2'
  refine (Gives.guardUB _ (decide_eq_true (by omega))).bind fun _ _ => ?_
  refine (macIdCred_gives h2).bind fun idc hid => (macComp_gives h).bind fun comp _ => ?_
  refine (thLen_gives _).bind fun l3 h3 => ?_
  subst h3
  refine (Gives.guardUB _ (decide_eq_true (by omega))).bind fun _ _ => ?_
  refine (Gives.ofOption _ _).bind fun th hth => ?_
  have hth := fits_le hth
  refine (credLen_gives cr).self.bind fun l4' h4' => ?_
  rw [h4] at h4'
  obtain ⟨⟨⟩, _⟩ := h4'
  refine (Gives.guardUB _ (decide_eq_true (by omega))).bind fun _ _ => ?_
  refine (macCred_gives h4).bind fun cred hcr => ?_
  refine Gives.bind (Q := fun _ => True) ?_ fun ead _ => ?_
  · split
    · trivial
    · refine (Gives.guardUB _ (decide_eq_true he)).bind' fun _ _ => ?_
      refine (Gives.guardUB _ (decide_eq_true (by omega))).bind' fun _ _ => ?_
      exact (Gives.ofOption _ _).any
  exact (Gives.require _ _).bind fun _ _ => trivial

theorem Runs.buildMacCtx {cr : Cred} (eLen : Option Err) (h : CredFits cfg cr) :
    Runs cfg su me ms (Verif.buildMacCtx E cfg eLen cr) (fun _ => True) := by
  unfold Verif.buildMacCtx
  refine Keep.getCtx.bind fun c hc => ?_
  refine Keep.bind (Q := fun n => macContextLen cfg c cr = .ok n) ?_ fun n hn => ?_
  · have h1 := (macContextLen_gives c h).self.mono fun _ h => h.1
    cases eLen with
    | none => exact Keep.ofGives h1
    | some e => exact Keep.ofGives (Gives.mapErr e h1)
  exact (Runs.memAlloc _).bind fun _ _ => Keep.ofGives (macContext_gives h hc.ead hn)

theorem Runs.compMac (b : Bytes) (n : Nat) : Runs cfg su me ms (Verif.compMac E cfg b n) (fun r => r.length = n) := by
  unfold Verif.compMac
  refine Keep.getCtx.bind fun c hc => (Keep.require _ _).bind fun _ _ => (Keep.require _ _).bind fun _ _ => ?_
  refine (Keep.require _ _).bind fun _ _ => (Keep.require _ _).bind fun _ _ => (Runs.memAlloc _).bind fun _ _ => ?_
  refine (Keep.ofOption _ _).bind fun _ _ => (Keep.require _ _).bind fun _ _ => ?_
  exact (Runs.withKey fun k => Runs.expand _ _ _).bind fun _ hr => (Keep.ofOption _ _).mono fun x hx => hr x hx

theorem Runs.signCose (hE : Tame E cfg su) (k : Bytes) (m : MacCtx) (mac : Bytes) {n : Nat} (hn : su.eccSign ≤ n) :
    Runs cfg su me ms (Verif.signCose E cfg k m mac n) (fun _ => True) := by
  unfold Verif.signCose
  generalize sigBufLen m mac.length = l
  generalize encSigStructure m.idCred m.aad mac = x
  refine (Runs.memAlloc _).bind fun _ _ => (Keep.ofOption _ _).bind fun _ _ => (Runs.sign _ _).bind fun r hr => ?_
  refine (Keep.ofOption _ _).bind fun x hx => (Keep.guardUB _ ?_).bind fun _ _ => (Keep.pure _).any
  obtain ⟨e, he⟩ := hr
  exact decide_eq_true (Nat.le_trans (hE.sign _ _ _ _ (he.trans hx)) hn)

theorem Runs.verifyCose (m : MacCtx) (a b c : Bytes) :
    Runs cfg su me ms (Verif.verifyCose E cfg m a b c) (fun _ => True) := by
  unfold Verif.verifyCose
  generalize sigBufLen m b.length = l
  generalize encSigStructure m.idCred m.aad b = x
  refine (Runs.memAlloc _).bind fun _ _ => (Keep.ofOption _ _).bind fun _ _ => ?_
  exact (Runs.withKey fun k => Runs.verify _ _ _).bind fun _ _ => (Keep.require _ _).any

theorem Runs.verifySignOrMac (m : MacCtx) (pk : Option Bytes) (a b : Bytes) :
    Runs cfg su me ms (Verif.verifySignOrMac E cfg m pk a b) (fun _ => True) := by
  unfold Verif.verifySignOrMac
  refine Keep.getCtx.bind fun c hc => (Keep.ofOption _ _).bind fun _ _ => (Keep.require _ _).bind fun _ _ => ?_
  split
  · exact Runs.verifyCose _ _ _ _
  · exact (Keep.require _ _).any
  · exact Keep.fail _

theorem Able.usesSign {c c' : Ctx} (h : Able cfg su me ms c) (h' : Able cfg su me ms c') : usesSign c' = Verif.usesSign c := by
  unfold Verif.usesSign
  rw [h.method, h'.method, h.message, h'.message]

theorem macLength_gives (c : Ctx) : Gives (macLength c) (fun n => macLength c = .ok n) := by
  unfold macLength
  split <;> trivial

theorem signOrMacLength_gives (c : Ctx) : Gives (signOrMacLength c) (fun n => signOrMacLength c = .ok n) := by
  unfold signOrMacLength
  split <;> trivial

theorem Runs.compSignOrMac (hE : Tame E cfg su) {c : Ctx} (hc : Able cfg su me ms c) (k : Bytes) (m : MacCtx) {mac : Bytes}
    {n l : Nat} (hl : macLength c = .ok l) (hm : mac.length = l) (hn : signOrMacLength c = .ok n) :
    Runs cfg su me ms (Verif.compSignOrMac E cfg k m mac n) (fun _ => True) := by
  unfold Verif.compSignOrMac
  refine Keep.getCtx.bind fun c' hc' => (Keep.require _ _).bind fun _ _ => ?_
  have hu := Able.usesSign hc hc'
  unfold macLength at hl
  unfold signOrMacLength at hn
  split
  · rename_i h
    rw [← hu, h] at hn hl
    cases hn
    rw [hc.suite]
    exact Runs.signCose hE _ _ _ (Nat.le_refl _)
  · rename_i h
    rw [← hu, h] at hn hl
    cases hn; cases hl
    exact (Keep.guardUB _ (decide_eq_true (Nat.le_of_eq hm))).bind fun _ _ => (Keep.pure _).any
  · exact Keep.fail _

theorem Runs.eadCompose (hm : cfg.maxEad ≤ 3) : Runs cfg su me ms (Verif.eadCompose E cfg) (fun _ => True) := by
  unfold Verif.eadCompose
  refine Keep.getCtx.bind fun c hc => Keep.whenM (Q := fun _ => True) _ fun _ => (Keep.call _ _).bind fun r hr =>
    (Keep.ofOption _ _).bind fun ts _ => ?_
  refine Keep.modThen fun hb c h => ?_
  exact ⟨h.keys, h.crypto, h.cred, h.suite, h.method, h.message, h.th, Nat.le_trans (of_decide_eq_true hb) hm, h.cid⟩

theorem Runs.eadProcess : Runs cfg su me ms (Verif.eadProcess E cfg) (fun _ => True) := by
  unfold Verif.eadProcess
  refine Keep.getCtx.bind fun c hc => Keep.whenM _ fun _ => (Keep.call _ _).bind fun _ _ => (Keep.require _ _).any

theorem Runs.verifyCred (hE : Tame E cfg su) (cr : Cred) :
    Runs cfg su me ms (Verif.verifyCred E cr) (fun v => CredFits cfg v.1) := by
  unfold Verif.verifyCred
  refine (Runs.credVerify _).bind fun r hr => (Keep.whenM _ fun _ => Keep.modCtx ?_).bind fun _ _ => ?_
  · exact fun c h => ⟨h.keys, h.crypto, h.cred, h.suite, h.method, h.message, h.th, h.ead, h.cid⟩
  · obtain ⟨e, he⟩ := hr
    exact (Keep.ofOption _ _).mono fun x hx => hE.verify _ _ _ (he.trans hx)

theorem Runs.storePeerCid (e : Err) (ci : Cid) : Runs cfg su me ms (Verif.storePeerCid cfg e ci : M σ Unit) (fun _ => True) := by
  have h : ∀ c : Ctx, Able cfg su me ms c → Able cfg su me ms { c with peerCid := ci } :=
    fun c h => ⟨h.keys, h.crypto, h.cred, h.suite, h.method, h.message, h.th, h.ead, h.cid⟩
  unfold Verif.storePeerCid
  cases ci with
  | int v => exact (Keep.require _ _).bind fun _ _ => Keep.modCtx h
  | bstr b => exact (Keep.require _ _).bind fun _ hb => (Keep.guardUB _ hb).bind fun _ _ => Keep.modCtx h

theorem Runs.handOver : Runs cfg su me ms (Verif.handOver cfg 0 : M σ Unit) (fun _ => True) := by
  unfold Verif.handOver
  exact Keep.getCtx.bind fun _ _ => (Keep.guardUB _ rfl).any

theorem Runs.storeEad (hm : 2 ≤ cfg.maxEad) {ts : List EadTok} (h : ts.length ≤ 3) :
    Runs cfg su me ms (Verif.storeEad cfg ts 0 : M σ Unit) (fun _ => True) := by
  unfold Verif.storeEad
  refine Keep.whenM _ fun _ => (Keep.guardUB _ (decide_eq_true (by omega))).bind fun _ _ => (Keep.modCtx ?_).bind fun _ _ => Runs.handOver
  exact fun c hc => ⟨hc.keys, hc.crypto, hc.cred, hc.suite, hc.method, hc.message, hc.th, h, hc.cid⟩

theorem Runs.expandInfo (n : Nat) (p : Bytes) (l : Nat) (b : Bytes) (i j : Nat) :
    Runs cfg su me ms (Verif.expandInfo E n p l b i j) (fun _ => True) := by
  unfold Verif.expandInfo
  exact (Keep.ofOption _ _).bind fun _ _ => (Runs.withKey fun k => Runs.expand _ _ _).bind fun _ _ => (Keep.ofOption _ _).any

theorem Runs.keyIvAad (a b : Nat) : Runs cfg su me ms (Verif.keyIvAad E cfg a b) (fun _ => True) := by
  unfold Verif.keyIvAad
  refine Keep.getCtx.bind fun c hc => (Runs.memAlloc _).bind fun _ _ => (Runs.expandInfo _ _ _ _ _ _).bind fun _ _ => ?_
  exact (Runs.expandInfo _ _ _ _ _ _).bind fun _ _ => (Keep.ofOption _ _).bind fun _ _ => (Keep.pure _).any

theorem Runs.keyIvAad3 : Runs cfg su me ms (Verif.keyIvAad3 E cfg) (fun _ => True) := by
  unfold Verif.keyIvAad3
  refine Keep.getCtx.bind fun c hc => (Runs.memAlloc _).bind fun _ _ => (Runs.memAlloc _).bind fun _ _ => ?_
  refine (Runs.memAlloc _).bind fun _ _ => Keep.mapErr _ ?_
  exact (Keep.require _ _).bind fun _ _ => (Keep.require _ _).bind fun _ _ => Runs.keyIvAad _ _

theorem Runs.keyIvAad4 : Runs cfg su me ms (Verif.keyIvAad4 E cfg) (fun _ => True) := by
  unfold Verif.keyIvAad4
  refine Keep.getCtx.bind fun c hc => (Runs.memAlloc _).bind fun _ _ => (Runs.memAlloc _).bind fun _ _ => ?_
  refine (Runs.memAlloc _).bind fun _ _ => Keep.mapErr _ ?_
  exact (Keep.require _ _).bind fun _ _ => (Keep.require _ _).bind fun _ _ => Runs.keyIvAad _ _

theorem Runs.aeadEncrypt (hE : Tame E cfg su) (k iv aad p : Bytes) {n : Nat} (hn : p.length + su.aeadTag ≤ n) :
    Runs cfg su me ms (Verif.aeadEncrypt E k iv aad p n) (fun _ => True) := by
  unfold Verif.aeadEncrypt
  refine (Runs.withKey (Q := fun r => ∀ x, r = some x → x.length ≤ n) fun k => (Runs.encrypt _ _ _ _).mono ?_).bind fun r hr => ?_
  · rintro r ⟨e, rfl⟩ x hx
    exact Nat.le_trans (hE.encrypt _ _ _ _ _ _ hx) hn
  refine (Keep.ofOption _ _).bind fun x hx => (Keep.guardUB _ (decide_eq_true (hr x hx))).bind fun _ _ => (Keep.pure _).any

theorem Runs.aeadDecrypt (k iv aad c : Bytes) (n : Nat) : Runs cfg su me ms (Verif.aeadDecrypt E k iv aad c n) (fun _ => True) := by
  unfold Verif.aeadDecrypt
  refine (Runs.withKey fun k => Runs.decrypt _ _ _ _).bind fun r hr => ?_
  exact (Keep.ofOption _ _).bind fun x hx => (Keep.require _ _).bind fun _ _ => (Keep.pure _).any

/-- the own connection identifier takes the bytes that were counted -/
theorem cid_small (hl : Limits cfg su) {c : Ctx} (h : OwnCid cfg c) :
    (match c.cid with | .int v => encInt v | .bstr b => encBstr b).length ≤
      (match c.cid with | .int v => intMemReq v | .bstr b => b.length + bstrOh b.length) := by
  have h := h
  unfold OwnCid at h
  cases hc : c.cid with
  | int v =>
    rw [hc] at h
    obtain ⟨h1, h2⟩ : -24 ≤ v ∧ v ≤ 23 := h
    have : intMemReq v = 1 := by unfold intMemReq; rw [if_pos ⟨h1, h2⟩]
    show (encInt v).length ≤ intMemReq v
    rw [this, encInt_small h1 h2]; exact Nat.le_refl 1
  | bstr b =>
    rw [hc] at h
    obtain ⟨_, h2⟩ : 1 ≤ b.length ∧ b.length ≤ cfg.maxCid := h
    exact Nat.le_of_eq (encBstr_small (Nat.lt_of_le_of_lt h2 hl.small.2))

theorem idCredPtxt_len (m : MacCtx) : (idCredPtxt m).length ≤ idCredPtxtLen m := by
  unfold idCredPtxt idCredPtxtLen
  split
  · split
    · rw [List.length_take]
      unfold intMemReq
      repeat' split
      all_goals omega
    · omega
  · omega

theorem ptxtTail_gives (m : MacCtx) (sig : Bytes) {off n : Nat}
    (h : off + (idCredPtxtLen m + (sig.length + bstrOh sig.length) + m.ead.length) ≤ n) :
    Gives (ptxtTail m sig off n) (fun _ => True) := by
  have h1 := idCredPtxt_len m
  unfold ptxtTail
  refine (Gives.guardUB _ (decide_eq_true (by omega))).bind fun _ _ => (Gives.ofOption _ _).bind fun s hs => ?_
  have h2 := fits_le hs
  refine (Gives.guardUB _ (decide_eq_true (by omega))).bind fun _ _ => ?_
  exact (Gives.guardUB _ (decide_eq_true (by omega))).bind fun _ _ => trivial

theorem ptxt2Len_gives (c : Ctx) (m : MacCtx) (n : Nat) : Gives (ptxt2Len c m n) (fun l => l =
    (match c.cid with
      | .int v => intMemReq v
      | .bstr b => b.length + bstrOh b.length) +
      idCredPtxtLen m + (n + bstrOh n) + m.ead.length) := by
  unfold ptxt2Len
  split
  · trivial
  · exact rfl

theorem preparePtxt2_gives (hl : Limits cfg su) {c : Ctx} (h : OwnCid cfg c) (m : MacCtx) (sig : Bytes) {n : Nat}
    (hn : n = (match c.cid with
      | .int v => intMemReq v
      | .bstr b => b.length + bstrOh b.length) +
      idCredPtxtLen m + (sig.length + bstrOh sig.length) + m.ead.length) :
    Gives (preparePtxt2 c m sig n) (fun _ => True) := by
  unfold preparePtxt2
  refine (Gives.ofOption _ _).bind fun x hx => ?_
  obtain ⟨rfl, _⟩ := fits_some hx
  refine (ptxtTail_gives m sig ?_).bind fun _ _ => trivial
  rw [hn, Nat.add_assoc _ (idCredPtxtLen m), Nat.add_assoc _ (idCredPtxtLen m + _)]
  exact Nat.add_le_add_right (cid_small hl h) _

theorem preparePtxt3_gives (m : MacCtx) (sig : Bytes) {n : Nat}
    (hn : idCredPtxtLen m + (sig.length + bstrOh sig.length) + m.ead.length ≤ n) :
    Gives (preparePtxt3 m sig n) (fun _ => True) := by
  unfold preparePtxt3
  exact (Gives.require _ _).bind fun _ _ => ptxtTail_gives m sig (by omega)

theorem encEadOpt_gives (c : Ctx) (n : Nat) : Gives (preparePtxt4 c n) (fun b => b.length ≤ n) := by
  unfold preparePtxt4
  refine (Gives.require _ _).bind fun _ _ => (Gives.ofOption _ _).mono fun b hb => ?_
  rw [Option.bind_eq_some_iff] at hb
  obtain ⟨x, _, hx⟩ := hb
  exact fits_le hx

theorem Runs.prepareMsg2 (b : Bytes) (n : Nat) : Runs cfg su me ms (Verif.prepareMsg2 E cfg b n) (fun _ => True) := by
  unfold Verif.prepareMsg2
  refine Keep.getCtx.bind fun c hc => (Keep.require _ _).bind fun _ _ => (Runs.memAlloc _).bind fun _ _ => (Keep.ofOption _ _).any

theorem Runs.genMsg4 (b : Bytes) (n : Nat) : Runs cfg su me ms (Verif.genMsg4 b n : M σ Bytes) (fun _ => True) := by
  unfold Verif.genMsg4
  exact (Keep.require _ _).bind fun _ _ => (Keep.ofOption _ _).any

/-- a map never names too long a key identifier -/
theorem credOfMap2_gives (m : CredMap) : Gives (credOfMap2 cfg m) (fun _ => True) := by
  unfold credOfMap2
  simp only [recvChain_eq, recvHash_eq]
  refine Gives.bind (Q := fun _ => True) ?_ fun c _ => ?_
  · repeat' split
    all_goals trivial
  · repeat' split
    all_goals trivial

theorem credOfMap3_gives (m : CredMap) : Gives (credOfMap3 cfg m) (fun _ => True) := by
  unfold credOfMap3
  simp only [recvChain_eq, recvHash_eq]
  repeat' split
  all_goals trivial

theorem credOfIdCred_ub {f : Config → CredMap → Res Cred} (hf : ∀ m, Gives (f cfg m) (fun _ => True)) {i : IdCred} {u : UB}
    (h : credOfIdCred cfg f i = .ub u) : LongKid cfg i := by
  cases i with
  | int v => cases h
  | bstr b =>
    refine ⟨b, rfl, ?_⟩
    replace h : (if b.length ≤ cfg.maxKid + 1 then Res.ok (Cred.kid [] false (.bstr b)) else .ub .oob) = .ub u := h
    split at h
    · cases h
    · rename_i hb
      exact Nat.lt_of_not_le hb
  | map m =>
    have := hf m
    rw [show f cfg m = .ub u from h] at this
    exact this.elim

end

end Verif
