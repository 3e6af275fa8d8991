import Verif.Eval7
import Verif.Export

/-!
# Runs that succeed: exporter
-/

namespace Verif

open M Spec

variable {σ : Type} {E : Env σ} {I : σ → Prop} {cfg cfg' : Config} {P : Prims} {V : Bytes → Bytes → Bytes → Bool} {su : Suite} {k : Bounds} {me : Nat}
  {c c0 : Ctx}

theorem expandInfo_gets' (H : Host P su k I E cfg) (hc : Live su c) {prk : Bytes} (hk : prk.length = su.hash) {label len n : Nat}
    {context : Bytes} (h1 : label < 65536) (h2 : context.length < 65536) (h0 : 0 < len) (h3 : len ≤ 1000)
    (h4 : bstrOh label + (context.length + bstrOh context.length) + bstrOh len ≤ n) :
    Gets I (expandInfo E n prk label context len len) c (P.expand prk (info label context len) len) c := by
  have h5 := encInfo_size (label := label) (n := len) (context := context) h1 h2 (by omega)
  rw [intMemReq_nat h1, i32_small (by omega), intMemReq_nat (by omega)] at h5
  unfold expandInfo
  refine (Gets.ofOption (fits_of (by omega))).bind ((expand_gets H hc hk (encInfo_ne _ _ _) h0
    (by have := H.derive; omega)).bind (Gets.ofOption ?_))
  rw [encInfo_spec _ _ (by omega)]

/-- the exported secret for a label, from PRK_out -/
def exported (P : Prims) (su : Suite) (prkOut : Bytes) (label n : Nat) : Bytes :=
  P.expand (P.expand prkOut (info 10 [] su.hash) su.hash) (info label [] n) n

/-- PRK_out, in a state after message_3 -/
def prkOutOf (P : Prims) (su : Suite) (c : Ctx) : Bytes :=
  if c.prkState = .prk4e3m then P.expand c.prk (info 7 c.th su.hash) su.hash else c.prk

theorem ensurePrkOut_gets (H : Host P su k I E cfg) (hc : Live su c) (ht : c.prkState = .prk4e3m → c.thState = .th4)
    (hp : c.prkState = .prk4e3m ∨ c.prkState = .out)
    (hl : c.th.length = su.hash) (hk : c.prk.length = su.hash) :
    Gets I (ensurePrkOut E cfg) c () { c with prk := prkOutOf P su c, prkState := .out } := by
  have z := H.suite.hash
  have z3 := bstrOh_le3 (n := su.hash) (by omega)
  unfold ensurePrkOut
  refine Gets.getCtx.bind ?_
  rcases hp with hp | hp
  · refine Gets.whenM_true (by rw [hp]; rfl) (Gets.mapErr ?_)
    unfold compPrkOut
    refine Gets.getCtx.bind ((Gets.require (by simp [hp, ht hp])).bind ?_)
    rw [hc.suite, hl, hk, i32_small (by omega), intMemReq_nat (by omega)]
    refine (memAlloc_gets H.honest H.room (by omega)).bind ?_
    refine (expandInfo_gets H hc hk (by omega) (by omega) (by omega) (by omega) (by rw [hl]; omega)).bind (Gets.modCtx.cast ?_)
    unfold prkOutOf
    rw [if_pos hp]
  · refine (Gets.whenM_false (by rw [hp]; rfl)).cast ?_
    unfold prkOutOf
    rw [if_neg (by rw [hp]; exact nofun), ← hp]

theorem exportSecret_gets (H : Host P su k I E cfg) (hc : Live su c) (ht : c.prkState = .prk4e3m → c.thState = .th4)
    (hp : c.prkState = .prk4e3m ∨ c.prkState = .out)
    (hl : c.th.length = su.hash) (hk : c.prk.length = su.hash) {label n : Nat}
    (hb : label = 0 ∨ label = 1 ∨ 32768 ≤ label ∧ label ≤ 65535) (hn : 0 < n ∧ n ≤ 1000 ∧ bstrOh n ≤ bstrOh su.hash) :
    Gets I (exportSecret E cfg label n) c (exported P su (prkOutOf P su c) label n)
      { c with prk := prkOutOf P su c, prkState := .out } := by
  have z := H.suite.hash
  have z3 := bstrOh_le3 (n := su.hash) (by omega)
  unfold exportSecret
  refine (Gets.require ?_).bind ((Gets.require ?_).bind (Gets.getCtx.bind ((Gets.require ?_).bind ?_)))
  · simp only [Bool.and_eq_true, decide_eq_true_eq, bne_iff_ne, ne_eq]; omega
  · simp only [Bool.or_eq_true, decide_eq_true_eq, beq_iff_eq]; omega
  · have h1 : c.status.toNat ≤ Status.persisted.toNat := by cases c.status <;> decide
    have h2 : PrkState.prk4e3m.toNat ≤ c.prkState.toNat := by rcases hp with h | h <;> rw [h] <;> decide
    simp only [Bool.and_eq_true, decide_eq_true_eq]
    exact ⟨h1, h2⟩
  refine (ensurePrkOut_gets H hc ht hp hl hk).bind ?_
  rw [hc.suite]
  generalize hd : ({ c with prk := prkOutOf P su c, prkState := .out } : Ctx) = d
  have l : Live su d := by rw [← hd]; exact ⟨hc.keys, hc.crypto, hc.cred, hc.suite⟩
  have k1 : d.prk = prkOutOf P su c := by rw [← hd]
  have k3 : (prkOutOf P su c).length = su.hash := by
    unfold prkOutOf
    split
    · exact H.sized.expand _ _ _
    · exact hk
  have k2 : d.prkState = .out := by rw [← hd]
  refine (memAlloc_gets H.honest H.room (by omega)).bind ?_
  refine Gets.bind (a := P.expand (prkOutOf P su c) (info 10 [] su.hash) su.hash) (c1 := d) (Gets.mapErr ?_) ?_
  · unfold compPrkExporter
    refine Gets.getCtx.bind ((Gets.require (by rw [k2]; rfl)).bind ?_)
    rw [l.suite, i32_small (by omega), intMemReq_nat (by omega), k1]
    refine (memAlloc_gets H.honest H.room (by omega)).bind ?_
    refine expandInfo_gets H l k3 (by omega) (by simp) (by omega) (by omega) ?_
    simp only [List.length_nil]
    rw [show bstrOh 0 = 1 from rfl]
    omega
  · have hb' : label < 65536 := by omega
    have z4 := bstrOh_le3 hb'
    dsimp only
    rw [i32_small hb', intMemReq_nat hb', i32_small (by omega : su.hash < 65536), intMemReq_nat (by omega)]
    refine (memAlloc_gets H.honest H.room (by omega)).bind ?_
    refine expandInfo_gets' H l (H.sized.expand _ _ _) hb' (by simp) hn.1 hn.2.1 ?_
    simp only [List.length_nil]
    rw [show bstrOh 0 = 1 from rfl]
    omega

theorem oscoreId_of {cid : Cid} (h : CidOk cfg cid) {n : Nat} (hn : 1003 ≤ n) : oscoreId n cid = .ok (oscoreIdOf cid) := by
  have h1 := (encCid_total h).2
  cases cid with
  | int v =>
    simp only [oscoreId, Res.ofOption_ok]
    have h1' : (encInt v).length ≤ 1003 := h1
    exact fits_of (by omega)
  | bstr b =>
    simp only [oscoreId, Res.ofOption_ok]
    have := h.2
    exact fits_of (by omega)

theorem exportOscore_wp (H : Host P su k I E cfg) (hc : Live su c) (ht : c.thState = .th4) (hp : c.prkState = .prk4e3m)
    (hl : c.th.length = su.hash) (hk : c.prk.length = su.hash) (hs : c.status = .completed ∨ c.status = .persisted)
    (ho : c.oscoreAllowed = true) (hcid : CidOk cfg' c.cid) (hpc : CidOk cfg c.peerCid)
    {a b n : Nat} (ha : 0 < a ∧ a ≤ 1000 ∧ bstrOh a ≤ bstrOh su.hash) (hb : 0 < b ∧ b ≤ 1000 ∧ bstrOh b ≤ bstrOh su.hash)
    (hn : 1003 ≤ n) {s : St σ} (hs' : At I s c) :
    Wp (exportOscore E cfg a b n n) s fun o s' => I s'.env ∧
      o = ⟨exported P su (P.expand c.prk (info 7 c.th su.hash) su.hash) 0 a,
        exported P su (P.expand c.prk (info 7 c.th su.hash) su.hash) 1 b, oscoreIdOf c.peerCid, oscoreIdOf c.cid⟩ := by
  unfold exportOscore
  refine Wp.go hs' (Gets.require ?_) fun s1 hs1 => ?_
  · simp only [Bool.and_eq_true, bne_iff_ne, ne_eq]; omega
  refine Wp.go hs1 Gets.getCtx fun s2 hs2 => ?_
  refine Wp.go hs2 (Gets.require ho) fun s3 hs3 => ?_
  refine Wp.go hs3 (Gets.require ?_) fun s4 hs4 => ?_
  · have h1 : Status.completed.toNat ≤ c.status.toNat := by rcases hs with h | h <;> rw [h] <;> decide
    have h2 : PrkState.prk4e3m.toNat ≤ c.prkState.toNat := by rw [hp]; exact Nat.le_refl _
    simp only [Bool.and_eq_true, decide_eq_true_eq]
    exact ⟨h1, h2⟩
  refine Wp.new hs4 Gets.modCtx fun c5 s5 hc5 hs5 => ?_
  have l5 : Live su c5 := by rw [hc5]; exact ⟨hc.keys, hc.crypto, hc.cred, hc.suite⟩
  have p5 : c5.prk = c.prk ∧ c5.prkState = .prk4e3m ∧ c5.th = c.th ∧ c5.thState = .th4 := by
    rw [hc5]; exact ⟨rfl, hp, rfl, ht⟩
  have o5 : prkOutOf P su c5 = P.expand c.prk (info 7 c.th su.hash) su.hash := by
    unfold prkOutOf
    rw [if_pos p5.2.1, p5.1, p5.2.2.1]
  clear hc5
  refine Wp.new hs5 (exportSecret_gets H l5 (fun _ => p5.2.2.2) (Or.inl p5.2.1) (by rw [p5.2.2.1]; exact hl)
    (by rw [p5.1]; exact hk) (Or.inl rfl) ha).mapErr fun c6 s6 hc6 hs6 => ?_
  rw [o5] at hc6 ⊢
  have l6 : Live su c6 := by rw [hc6]; exact ⟨l5.keys, l5.crypto, l5.cred, l5.suite⟩
  have p6 : c6.prkState = .out := by rw [hc6]
  have o6 : prkOutOf P su c6 = P.expand c.prk (info 7 c.th su.hash) su.hash := by
    unfold prkOutOf
    rw [if_neg (by rw [p6]; exact nofun), hc6]
  refine Wp.new hs6 (exportSecret_gets H l6 (fun h => by rw [p6] at h; cases h) (Or.inr p6)
    (by rw [hc6]; simp only [p5.2.2.1]; exact hl)
    (by rw [hc6]; exact H.sized.expand _ _ _) (Or.inr (Or.inl rfl)) hb).mapErr fun c7 s7 hc7 hs7 => ?_
  rw [o6]
  refine Wp.go hs7 (Gets.ofRes (oscoreId_of hpc hn)) fun s8 hs8 => ?_
  refine Wp.go hs8 (Gets.ofRes (oscoreId_of hcid hn)) fun s9 hs9 => ?_
  refine Wp.new hs9 Gets.modCtx fun c10 s10 hc10 hs10 => ?_
  exact ⟨_, s10, rfl, hs10.2, rfl⟩

end Verif
