import Verif.Success
import Verif.CborLemmas

/-!
# What a successful run of an inner function did, continued

Transcript hashes 3 and 4, MAC, signatures, EAD, plaintexts, AEAD, exporter.
-/

namespace Verif

open M

variable {σ α β γ : Type}

theorem bstrOh_le (n : Nat) : bstrOh n ≤ headLen n := by
  unfold bstrOh headLen
  split
  · exact Nat.le_refl _
  split
  · rw [if_pos (by omega)]; exact Nat.le_refl _
  split
  · rw [if_neg (by omega), if_pos (by omega)]; exact Nat.le_refl _
  split
  · rw [if_neg (by omega), if_neg (by omega), if_pos (by omega)]; omega
  · rw [if_neg (by omega), if_neg (by omega), if_neg (by omega)]; omega

/-- A transcript buffer that holds its parts is filled by them. -/
theorem fill_th {th ptxt cred : Bytes}
    (h : (encBstr th).length + ptxt.length + cred.length ≤
      (th.length + bstrOh th.length) + ptxt.length + cred.length) :
    fitLen ((th.length + bstrOh th.length) + ptxt.length + cred.length) (encBstr th ++ ptxt ++ cred) =
      encBstr th ++ ptxt ++ cred := by
  apply fitLen_self
  have h1 := bstrOh_le th.length
  have h2 := encBstr_length th
  simp only [List.length_append]
  omega

section inner

variable {E : Env σ} {cfg : Config} {s s' : St σ}

theorem compTh3_ok {cred ptxt : Bytes} {u : Unit} (h : compTh3 E cfg cred ptxt s = (.ok u, s')) :
    s.ctx.thState = .th2 ∧ ptxt ≠ [] ∧ ∃ t, t.length ≤ s.ctx.suite.hash ∧
      s'.ctx = { s.ctx with th := overlay s.ctx.suite.hash t s.ctx.th, thState := .th3 } ∧
      Saw [.hash (encBstr s.ctx.th ++ ptxt ++ cred) (some t)] s s' := by
  simp only [compTh3, hash, bind_ok, getCtx_ok, ofOption_ok, modCtx_ok, require_ok, guardUB_ok,
    needCrypto_ok, call_ok] at h
  obtain ⟨_, _, ⟨rfl, rfl⟩, _, _, ⟨h0, rfl⟩, _, _, ⟨h1, rfl⟩, _, s1, h2, a, _, ⟨ha, rfl⟩, _, _,
    ⟨hg, rfl⟩, _, _, ⟨hm, rfl⟩, r, _, ⟨_, _, ⟨_, rfl⟩, h3, rfl⟩, t, _, ⟨rfl, rfl⟩, _, _, ⟨hl, rfl⟩,
    rfl⟩ := h
  obtain ⟨c1, g1⟩ := memAlloc_ok h2
  obtain ⟨rfl, _⟩ := fits_some ha
  simp only [decide_eq_true_eq] at hg hl
  refine ⟨by simpa using h1, by intro h; subst h; simp at h0, t, hl, by simp only [c1], ?_⟩
  rw [fill_th hg]
  exact g1.right (saw_ext rfl)

theorem compTh4_ok {cred ptxt : Bytes} {u : Unit} (h : compTh4 E cfg cred ptxt s = (.ok u, s')) :
    s.ctx.thState = .th3 ∧ ptxt ≠ [] ∧ ∃ t, t.length = s.ctx.suite.hash ∧ s.ctx.suite.hash ≤ cfg.maxMac ∧
      s'.ctx = { s.ctx with th := t, thState := .th4 } ∧
      Saw [.hash (encBstr s.ctx.th ++ ptxt ++ cred) (some t)] s s' := by
  simp only [compTh4, bind_ok, getCtx_ok, ofOption_ok, modCtx_ok, require_ok, guardUB_ok] at h
  obtain ⟨_, _, ⟨rfl, rfl⟩, _, _, ⟨h0, rfl⟩, _, _, ⟨h1, rfl⟩, _, s1, h2, a, _, ⟨ha, rfl⟩, _, _,
    ⟨hg, rfl⟩, t, s2, h3, rfl⟩ := h
  obtain ⟨c1, g1⟩ := memAlloc_ok h2
  obtain ⟨c2, l2, x2, g2⟩ := hashTh_ok h3
  obtain ⟨rfl, _⟩ := fits_some ha
  simp only [decide_eq_true_eq] at hg
  rw [fill_th hg] at g2
  refine ⟨by simpa using h1, by intro h; subst h; simp at h0, t, by rw [l2, c1], c1 ▸ x2,
    by simp only [c2, c1], g1.right ?_⟩
  exact (saw_ext g2).left (grow_of_log rfl)

/-! ## MAC and signature -/

theorem compMac_ok {buf r : Bytes} {n : Nat} (h : compMac E cfg buf n s = (.ok r, s')) :
    n ≠ 0 ∧ (s.ctx.message = .msg2 ∧ s.ctx.prkState = .prk3e2m ∨
      s.ctx.message = .msg3 ∧ s.ctx.prkState = .prk4e3m) ∧ s'.ctx = s.ctx ∧ r.length = n ∧
      ∃ kid, Saw (evExpand kid s.ctx.prk (encInfo (macLabel s.ctx) buf (u32 n)) n r) s s' := by
  simp only [compMac, bind_ok, getCtx_ok, ofOption_ok, require_ok] at h
  obtain ⟨_, _, ⟨rfl, rfl⟩, _, _, ⟨h0, rfl⟩, _, _, ⟨h1, rfl⟩, _, _, ⟨h2, rfl⟩, _, _, ⟨h3, rfl⟩,
    _, s1, h4, info, _, ⟨h5, rfl⟩, _, _, ⟨h6, rfl⟩, m, s3, h7, h8, rfl⟩ := h
  obtain ⟨c1, g1⟩ := memAlloc_ok h4
  obtain ⟨c2, l, kid, g2⟩ := withExpand_ok (e' := .crypto) h7 (ofOption_ok.2 ⟨h8, rfl⟩)
  obtain ⟨rfl, _⟩ := fits_some h5
  refine ⟨by simpa using h0, ?_, c2.trans c1, l, kid, g1.right (saw_ext g2)⟩
  cases hm : s.ctx.message <;> simp [hm] at h1 h2 h3 h6 ⊢ <;> assumption

theorem signCose_ok {k : Bytes} {m : MacCtx} {mac r : Bytes} {n : Nat}
    (h : signCose E cfg k m mac n s = (.ok r, s')) :
    s'.ctx = s.ctx ∧ r.length ≤ n ∧
      Saw [.sign k (encSigStructure m.idCred m.aad mac) (some r)] s s' := by
  simp only [signCose, sign, bind_ok, ofOption_ok, guardUB_ok, pure_ok, needCrypto_ok, call_ok] at h
  obtain ⟨_, s1, h1, i, _, ⟨h2, rfl⟩, x, _, ⟨_, _, ⟨_, rfl⟩, h3, rfl⟩, y, _, ⟨rfl, rfl⟩, _, _, ⟨h4, rfl⟩,
    rfl, rfl⟩ := h
  obtain ⟨c1, g1⟩ := memAlloc_ok h1
  obtain ⟨rfl, _⟩ := fits_some h2
  exact ⟨c1, by simpa using h4, g1.right (saw_ext rfl)⟩

theorem verifyCose_ok {m : MacCtx} {pk mac sig : Bytes} {u : Unit}
    (h : verifyCose E cfg m pk mac sig s = (.ok u, s')) :
    s'.ctx = s.ctx ∧ ∃ kid, Saw (evVerify kid pk (encSigStructure m.idCred m.aad mac) sig) s s' := by
  simp only [verifyCose, verify, bind_ok, ofOption_ok, require_ok] at h
  obtain ⟨_, s1, h1, i, _, ⟨h2, rfl⟩, x, s2, h3, h4, rfl⟩ := h
  obtain ⟨c1, g1⟩ := memAlloc_ok h1
  obtain ⟨rfl, _⟩ := fits_some h2
  obtain ⟨c2, kid, e1, _, h5, g2⟩ := withKey_crypto_ok h3
  subst h4
  exact ⟨c2.trans c1, kid, g1.right (saw_ext g2)⟩

theorem compSignOrMac_ok {k : Bytes} {m : MacCtx} {mac r : Bytes} {n : Nat}
    (h : compSignOrMac E cfg k m mac n s = (.ok r, s')) :
    mac ≠ [] ∧ s'.ctx = s.ctx ∧ Grow s s' ∧ r.length ≤ n ∧
      ((usesSign s.ctx = some true ∧
          Saw [.sign k (encSigStructure m.idCred m.aad mac) (some r)] s s') ∨
        (usesSign s.ctx = some false ∧ r = mac)) := by
  simp only [compSignOrMac, bind_ok, getCtx_ok, require_ok] at h
  obtain ⟨_, _, ⟨rfl, rfl⟩, _, _, ⟨h0, rfl⟩, h⟩ := h
  refine ⟨by intro h; subst h; simp at h0, ?_⟩
  rcases hu : usesSign s.ctx with _ | _ | _ <;> simp only [hu] at h
  · simp [fail_ok] at h
  · simp only [bind_ok, guardUB_ok, pure_ok] at h
    obtain ⟨_, _, ⟨h1, rfl⟩, rfl, rfl⟩ := h
    exact ⟨rfl, Saw.refl _, by simpa using h1, Or.inr ⟨rfl, rfl⟩⟩
  · obtain ⟨c, l, g⟩ := signCose_ok h
    exact ⟨c, g.grow, l, Or.inl ⟨rfl, g⟩⟩

theorem verifySignOrMac_ok {m : MacCtx} {pk : Option Bytes} {mac sig : Bytes} {u : Unit}
    (h : verifySignOrMac E cfg m pk sig mac s = (.ok u, s')) :
    s'.ctx = s.ctx ∧ Grow s s' ∧ ∃ key, pk = some key ∧ key ≠ [] ∧ sig ≠ [] ∧ mac ≠ [] ∧
      ((usesSign s.ctx = some true ∧
          ∃ kid, Saw (evVerify kid key (encSigStructure m.idCred m.aad mac) sig) s s') ∨
        (usesSign s.ctx = some false ∧ sig = mac)) := by
  simp only [verifySignOrMac, bind_ok, getCtx_ok, require_ok, ofOption_ok] at h
  obtain ⟨_, _, ⟨rfl, rfl⟩, key, _, ⟨rfl, rfl⟩, _, _, ⟨h0, rfl⟩, h⟩ := h
  simp only [Bool.and_eq_true, bne_iff_ne, ne_eq, List.length_eq_zero_iff] at h0
  rcases hu : usesSign s.ctx with _ | _ | _ <;> simp only [hu] at h
  · simp [fail_ok] at h
  · rw [require_ok] at h
    obtain ⟨h1, rfl⟩ := h
    simp only [Bool.and_eq_true, decide_eq_true_eq] at h1
    exact ⟨rfl, Saw.refl _, key, rfl, h0.1.1, h0.1.2, h0.2, Or.inr ⟨rfl, h1.2⟩⟩
  · obtain ⟨c, kid, g⟩ := verifyCose_ok h
    exact ⟨c, g.grow, key, rfl, h0.1.1, h0.1.2, h0.2, Or.inl ⟨rfl, kid, g⟩⟩

theorem macLength_ok {c : Ctx} {n : Nat} (h : macLength c = .ok n) :
    (usesSign c = some true ∧ n = c.suite.hash) ∨ (usesSign c = some false ∧ n = c.suite.mac) := by
  unfold macLength at h
  split at h <;> simp_all

theorem signOrMacLength_ok {c : Ctx} {n : Nat} (h : signOrMacLength c = .ok n) :
    (usesSign c = some true ∧ n = c.suite.eccSign) ∨ (usesSign c = some false ∧ n = c.suite.mac) := by
  unfold signOrMacLength at h
  split at h <;> simp_all

/-! ## EAD -/

/-- are EAD tokens composed? -/
def composesEad (cfg : Config) (c : Ctx) : Bool := c.hasEadCompose && cfg.maxEad != 0

/-- are EAD tokens processed? -/
def processesEad (cfg : Config) (c : Ctx) : Bool := c.hasEadProcess && cfg.maxEad != 0

theorem eadCompose_ok {u : Unit} (h : eadCompose E cfg s = (.ok u, s')) :
    ∃ ts, s'.ctx = { s.ctx with ead := ts } ∧
      ((composesEad cfg s.ctx = true ∧ ts.length ≤ cfg.maxEad ∧
          s'.log = s.log ++ [.eadCompose s.ctx.message (some ts)]) ∨
        (composesEad cfg s.ctx = false ∧ ts = s.ctx.ead ∧ s'.log = s.log)) := by
  simp only [eadCompose, bind_ok, getCtx_ok, whenM_ok, call_ok, ofOption_ok, modCtx_ok, require_ok] at h
  obtain ⟨_, _, ⟨rfl, rfl⟩, h | ⟨h, rfl⟩⟩ := h
  · obtain ⟨hf, r, _, ⟨h1, rfl⟩, ts, _, ⟨rfl, rfl⟩, _, _, rfl, h2, rfl⟩ := h
    exact ⟨ts, rfl, Or.inl ⟨hf, by simpa using h2, rfl⟩⟩
  · exact ⟨s.ctx.ead, rfl, Or.inr ⟨h, rfl, rfl⟩⟩

theorem eadCompose_grow {u : Unit} (h : eadCompose E cfg s = (.ok u, s')) : Grow s s' := by
  obtain ⟨ts, _, ⟨_, _, h⟩ | ⟨_, _, h⟩⟩ := eadCompose_ok h
  · exact (saw_ext h).grow
  · exact grow_of_log h

theorem eadProcess_ok {u : Unit} (h : eadProcess E cfg s = (.ok u, s')) :
    s'.ctx = s.ctx ∧
      ((processesEad cfg s.ctx = true ∧ s.ctx.ead ≠ [] ∧
          s'.log = s.log ++ [.eadProcess s.ctx.message s.ctx.ead true]) ∨
        ((processesEad cfg s.ctx = false ∨ s.ctx.ead = []) ∧ s'.log = s.log)) := by
  simp only [eadProcess, bind_ok, getCtx_ok, whenM_ok, call_ok, require_ok] at h
  obtain ⟨_, _, ⟨rfl, rfl⟩, h | ⟨h, rfl⟩⟩ := h
  · obtain ⟨hf, r, _, ⟨h1, rfl⟩, h2, rfl⟩ := h
    simp only [Bool.and_eq_true, Bool.not_eq_true', List.isEmpty_eq_false_iff] at hf
    subst h2
    exact ⟨rfl, Or.inl ⟨by simpa [processesEad] using hf.1, hf.2, rfl⟩⟩
  · refine ⟨rfl, Or.inr ⟨?_, rfl⟩⟩
    cases hp : processesEad cfg s.ctx
    · exact Or.inl rfl
    · unfold processesEad at hp
      rw [hp] at h
      right
      simpa using h

theorem eadProcess_grow {u : Unit} (h : eadProcess E cfg s = (.ok u, s')) : Grow s s' := by
  obtain ⟨_, ⟨_, _, h⟩ | ⟨_, h⟩⟩ := eadProcess_ok h
  · exact (saw_ext h).grow
  · exact grow_of_log h

theorem processEad1_ok {ts : List EadTok} {n : Nat} {u : Unit} (h : processEad1 E cfg ts n s = (.ok u, s')) :
    (s.ctx.hasEadProcess = true ∧ ts ≠ [] ∧ ts.length ≤ cfg.maxEad ∧
        s'.ctx = { s.ctx with ead := [] } ∧ s'.log = s.log ++ [.eadProcess .msg1 ts true]) ∨
      ((s.ctx.hasEadProcess = false ∨ ts = []) ∧ s'.ctx = s.ctx ∧ s'.log = s.log) := by
  simp only [processEad1, clearEad, bind_ok, getCtx_ok, whenM_ok, call_ok, require_ok, guardUB_ok, modCtx_ok] at h
  obtain ⟨_, _, ⟨rfl, rfl⟩, h | ⟨h, rfl⟩⟩ := h
  · obtain ⟨hf, _, _, ⟨h1, rfl⟩, _, _, ⟨_, rfl⟩, _, _, rfl, _, _, ⟨_, rfl⟩, r, _, ⟨h2, rfl⟩, _, _, rfl, h3, rfl⟩ := h
    simp only [Bool.and_eq_true, Bool.not_eq_true', List.isEmpty_eq_false_iff] at hf
    subst h3
    exact Or.inl ⟨hf.2, hf.1, by simpa using h1, rfl, rfl⟩
  · refine Or.inr ⟨?_, rfl, rfl⟩
    cases hp : s.ctx.hasEadProcess
    · exact Or.inl rfl
    · rw [hp] at h
      right
      simpa using h

/-! ## Received plaintexts -/

/-- a connection identifier the context can hold -/
def CidFits (cfg : Config) : Cid → Prop
  | .int v => -24 ≤ v ∧ v ≤ 23
  | .bstr b => b.length ≤ cfg.maxCid + 1

theorem storePeerCid_ok {e : Err} {ci : Cid} {u : Unit} (h : storePeerCid cfg e ci s = (.ok u, s')) :
    s' = { s with ctx := { s.ctx with peerCid := ci } } ∧ CidFits cfg ci := by
  unfold storePeerCid at h
  cases ci <;> simp only [bind_ok, require_ok, guardUB_ok, modCtx_ok] at h
  · obtain ⟨_, _, ⟨h1, rfl⟩, rfl⟩ := h
    simp_all [CidFits]
  · obtain ⟨_, _, ⟨h1, rfl⟩, _, _, ⟨_, rfl⟩, rfl⟩ := h
    simp_all [CidFits]

theorem handOver_ok {n : Nat} {u : Unit} (h : handOver cfg n s = (.ok u, s')) : s' = s := by
  simp only [handOver, bind_ok, getCtx_ok, guardUB_ok] at h
  obtain ⟨_, _, ⟨rfl, rfl⟩, _, rfl⟩ := h
  rfl

theorem storeEad_ok {ts : List EadTok} {n : Nat} {u : Unit} (h : storeEad cfg ts n s = (.ok u, s')) :
    s' = { s with ctx := { s.ctx with ead := if ts.isEmpty then s.ctx.ead else ts } } := by
  simp only [storeEad, whenM_ok, bind_ok, guardUB_ok, modCtx_ok] at h
  obtain ⟨h1, _, _, ⟨_, rfl⟩, _, _, rfl, h2⟩ | ⟨h1, rfl⟩ := h
  · simp only [Bool.not_eq_true'] at h1
    rw [handOver_ok h2]
    simp [h1]
  · simp only [Bool.not_eq_false'] at h1
    simp [h1]

theorem parsePtxt2_ok {ptxt : Bytes} {r : Cred × Bytes} (h : parsePtxt2 cfg ptxt s = (.ok r, s')) :
    ∃ ci p, getPtxt2 cfg.dec ptxt = some (ci, p) ∧ credOfIdCred cfg credOfMap2 p.idCred = .ok r.1 ∧
      r.2 = p.sig ∧
      s' = { s with ctx := { s.ctx with
        peerCid := ci, ead := if p.ead.isEmpty then s.ctx.ead else p.ead } } := by
  simp only [parsePtxt2, bind_ok, require_ok, ofOption_ok, ofRes_ok, pure_ok] at h
  obtain ⟨_, _, ⟨_, rfl⟩, p, _, ⟨h1, rfl⟩, _, s1, h2, cr, _, ⟨h3, rfl⟩, _, s2, h4, rfl, rfl⟩ := h
  obtain ⟨rfl, _⟩ := storePeerCid_ok h2
  have := storeEad_ok h4
  exact ⟨p.1, p.2, h1, h3, rfl, this⟩

theorem parsePtxt3_ok {ptxt : Bytes} {r : Cred × Bytes} (h : parsePtxt3 cfg ptxt s = (.ok r, s')) :
    ∃ p, getPtxt3 cfg.dec ptxt = some p ∧ credOfIdCred cfg credOfMap3 p.idCred = .ok r.1 ∧
      r.2 = p.sig ∧
      s' = { s with ctx := { s.ctx with ead := if p.ead.isEmpty then s.ctx.ead else p.ead } } := by
  simp only [parsePtxt3, bind_ok, require_ok, ofOption_ok, ofRes_ok, pure_ok] at h
  obtain ⟨_, _, ⟨_, rfl⟩, p, _, ⟨h1, rfl⟩, cr, _, ⟨h3, rfl⟩, _, s2, h4, rfl, rfl⟩ := h
  exact ⟨p, h1, h3, rfl, storeEad_ok h4⟩

theorem parsePtxt4_ok {ptxt : Bytes} {u : Unit} (h : parsePtxt4 cfg ptxt s = (.ok u, s')) :
    s' = { s with ctx := { s.ctx with ead := getPtxt4 cfg.dec ptxt } } := by
  simp only [parsePtxt4, bind_ok, guardUB_ok, modCtx_ok] at h
  obtain ⟨_, _, ⟨_, rfl⟩, _, _, rfl, h2⟩ := h
  exact handOver_ok h2

theorem verifyCred_ok {cr : Cred} {v : Cred × Option Bytes} (h : verifyCred E cr s = (.ok v, s')) :
    s'.ctx = s.ctx ∧ s'.log = s.log ++ [.credVerify cr (some v)] := by
  simp only [verifyCred, credVerify, bind_ok, whenM_ok, modCtx_ok, ofOption_ok, needCred_ok, call_ok] at h
  obtain ⟨r, _, ⟨_, _, ⟨_, rfl⟩, h1, rfl⟩, _, _, h2, rfl, rfl⟩ := h
  obtain ⟨h2, _⟩ | ⟨_, rfl⟩ := h2
  · simp at h2
  · exact ⟨rfl, rfl⟩

theorem fetch_ok {f : Cred × Bytes} {r : Option (Cred × Bytes)} {e : Err} {s1 : St σ}
    (h : credFetch E s = (.ok r, s1)) (h' : (M.ofOption e r : M σ _) s1 = (.ok f, s')) :
    s'.ctx = s.ctx ∧ s'.log = s.log ++ [.credFetch (some f)] := by
  rw [ofOption_ok] at h'
  obtain ⟨rfl, rfl⟩ := h'
  rw [credFetch, cred_ok] at h
  obtain ⟨_, _, rfl⟩ := h
  exact ⟨rfl, rfl⟩

theorem parseMsg2_ok {msg r : Bytes} (h : parseMsg2 E cfg msg s = (.ok r, s')) :
    ∃ b, getMsgBstr cfg.dec msg = some b ∧ s.ctx.suite.eccKey ≤ b.length ∧
      r = b.drop s.ctx.suite.eccKey ∧ Grow s s' ∧
      s'.ctx = { s.ctx with dhPeerPub := b.take s.ctx.suite.eccKey } := by
  simp only [parseMsg2, bind_ok, getCtx_ok, ofOption_ok, guardUB_ok, modCtx_ok, pure_ok] at h
  obtain ⟨_, _, ⟨rfl, rfl⟩, b, _, ⟨h1, rfl⟩, _, s1, h2, _, _, ⟨_, rfl⟩, _, _, ⟨h3, rfl⟩, _, _, rfl, rfl,
    rfl⟩ := h
  obtain ⟨c1, g1⟩ := memAlloc_ok h2
  refine ⟨b, h1, by simpa using h3, rfl, g1.left (grow_of_log rfl), by simp only [c1]⟩

theorem prepareMsg2_ok {ctxt r : Bytes} {n : Nat} (h : prepareMsg2 E cfg ctxt n s = (.ok r, s')) :
    s'.ctx = s.ctx ∧ Grow s s' ∧ r = encBstr (s.ctx.dhPub ++ ctxt) ∧ r.length ≤ n ∧ ctxt ≠ [] := by
  simp only [prepareMsg2, bind_ok, getCtx_ok, ofOption_ok, require_ok] at h
  obtain ⟨_, _, ⟨rfl, rfl⟩, _, _, ⟨h0, rfl⟩, _, s1, h2, h3, rfl⟩ := h
  obtain ⟨c1, g1⟩ := memAlloc_ok h2
  obtain ⟨rfl, hl⟩ := fits_some h3
  exact ⟨c1, g1, rfl, hl, by intro h; subst h; simp at h0⟩

theorem genMsg3_ok {ctxt r : Bytes} {n : Nat} (h : genMsg3 ctxt n s = (.ok r, s')) :
    s' = s ∧ r = encBstr ctxt ∧ r.length ≤ n ∧ ctxt ≠ [] := by
  simp only [genMsg3, bind_ok, ofOption_ok, require_ok, guardUB_ok, pure_ok] at h
  obtain ⟨_, _, ⟨h0, rfl⟩, x, _, ⟨h1, rfl⟩, _, _, ⟨h2, rfl⟩, rfl, rfl⟩ := h
  obtain ⟨rfl, hl⟩ := fits_some h1
  exact ⟨rfl, rfl, by simpa using h2, by intro h; subst h; simp at h0⟩

theorem genMsg4_ok {ctxt r : Bytes} {n : Nat} (h : genMsg4 ctxt n s = (.ok r, s')) :
    s' = s ∧ r = encBstr ctxt ∧ r.length ≤ n ∧ ctxt ≠ [] := by
  simp only [genMsg4, bind_ok, ofOption_ok, require_ok] at h
  obtain ⟨_, _, ⟨h0, rfl⟩, h1, rfl⟩ := h
  obtain ⟨rfl, hl⟩ := fits_some h1
  exact ⟨rfl, rfl, hl, by intro h; subst h; simp at h0⟩

/-! ## MAC context -/

theorem buildMacCtx_ok {e : Option Err} {cr : Cred} {m : MacCtx}
    (h : buildMacCtx E cfg e cr s = (.ok m, s')) :
    s'.ctx = s.ctx ∧ Grow s s' ∧
      ∃ n, macContextLen cfg s.ctx cr = .ok n ∧ macContext cfg s.ctx cr n = .ok m := by
  simp only [buildMacCtx, bind_ok, getCtx_ok, ofRes_ok] at h
  obtain ⟨_, _, ⟨rfl, rfl⟩, n, _, ⟨h1, rfl⟩, _, s1, h2, h3, rfl⟩ := h
  obtain ⟨c1, g1⟩ := memAlloc_ok h2
  refine ⟨c1, g1, n, ?_, h3⟩
  cases e with
  | none => exact h1
  | some e => exact Res.mapErr_ok.1 h1

/-! ## AEAD -/

/-- The encryption key, IV and additional data were derived. -/
def KeyIvAad (labelK labelIv : Nat) (c : Ctx) (k iv aad : Bytes) (s s' : St σ) : Prop :=
  k.length = c.suite.aeadKey ∧ iv.length = c.suite.aeadIv ∧ aad = encEncStructure [] c.th ∧
    ∃ k1 k2, Saw (evExpand k1 c.prk (encInfo labelK c.th (u32 c.suite.aeadKey)) c.suite.aeadKey k) s s' ∧
      Saw (evExpand k2 c.prk (encInfo labelIv c.th (u32 c.suite.aeadIv)) c.suite.aeadIv iv) s s'

theorem encEncStructure_length (th : Bytes) :
    (encEncStructure [] th).length = 11 + headLen th.length + th.length := by
  simp [encEncStructure, encListHead, encTstr, encBstr_length, ascii, head_length, headLen]
  omega

theorem aadLen_le (th : Bytes) : aadLen th.length ≤ (encEncStructure [] th).length := by
  rw [encEncStructure_length]
  have := bstrOh_le th.length
  unfold aadLen
  have h9 : bstrOh 9 = 1 := by decide
  rw [h9]
  omega

theorem keyIvAad_ok {a b : Nat} {r : Bytes × Bytes × Bytes}
    (h : keyIvAad E cfg a b s = (.ok r, s')) :
    s'.ctx = s.ctx ∧ Grow s s' ∧ KeyIvAad a b s.ctx r.1 r.2.1 r.2.2 s s' := by
  simp only [keyIvAad, bind_ok, getCtx_ok, ofOption_ok, pure_ok] at h
  obtain ⟨_, _, ⟨rfl, rfl⟩, _, s1, h1, k, s2, h2, iv, s3, h3, aad, _, ⟨h4, rfl⟩, rfl, rfl⟩ := h
  obtain ⟨c1, g1⟩ := memAlloc_ok h1
  obtain ⟨c2, l2, k1, g2⟩ := expandInfo_ok h2
  obtain ⟨c3, l3, k2, g3⟩ := expandInfo_ok h3
  obtain ⟨rfl, hl⟩ := fits_some h4
  have g2' := saw_ext g2
  have g3' := saw_ext g3
  refine ⟨c3.trans (c2.trans c1), (g1.left g2'.grow).left g3'.grow, l2, l3, ?_, k1, k2, ?_, ?_⟩
  · exact fitLen_self (Nat.le_antisymm hl (aadLen_le _))
  · exact g1.right (g2'.left g3'.grow)
  · exact (g1.left g2'.grow).right g3'

theorem keyIvAad3_ok {r : Bytes × Bytes × Bytes} (h : keyIvAad3 E cfg s = (.ok r, s')) :
    s'.ctx = s.ctx ∧ Grow s s' ∧ KeyIvAad 3 4 s.ctx r.1 r.2.1 r.2.2 s s' := by
  simp only [keyIvAad3, bind_ok, getCtx_ok, require_ok, mapErr_ok] at h
  obtain ⟨_, _, ⟨rfl, rfl⟩, _, s1, h1, _, s2, h2, _, s3, h3, _, _, ⟨_, rfl⟩, _, _, ⟨_, rfl⟩, h4⟩ := h
  obtain ⟨c1, g1⟩ := memAlloc_ok h1
  obtain ⟨c2, g2⟩ := memAlloc_ok h2
  obtain ⟨c3, g3⟩ := memAlloc_ok h3
  obtain ⟨c4, g4, l, m, n, k1, k2, g5, g6⟩ := keyIvAad_ok h4
  have g := (g1.left g2).left g3
  have hc : s3.ctx = s.ctx := c3.trans (c2.trans c1)
  rw [hc] at l m n g5 g6 c4
  exact ⟨c4, g.left g4, l, m, n, k1, k2, g.right g5, g.right g6⟩

theorem keyIvAad4_ok {r : Bytes × Bytes × Bytes} (h : keyIvAad4 E cfg s = (.ok r, s')) :
    s'.ctx = s.ctx ∧ Grow s s' ∧ KeyIvAad 8 9 s.ctx r.1 r.2.1 r.2.2 s s' := by
  simp only [keyIvAad4, bind_ok, getCtx_ok, require_ok, mapErr_ok] at h
  obtain ⟨_, _, ⟨rfl, rfl⟩, _, s1, h1, _, s2, h2, _, s3, h3, _, _, ⟨_, rfl⟩, _, _, ⟨_, rfl⟩, h4⟩ := h
  obtain ⟨c1, g1⟩ := memAlloc_ok h1
  obtain ⟨c2, g2⟩ := memAlloc_ok h2
  obtain ⟨c3, g3⟩ := memAlloc_ok h3
  obtain ⟨c4, g4, l, m, n, k1, k2, g5, g6⟩ := keyIvAad_ok h4
  have g := (g1.left g2).left g3
  have hc : s3.ctx = s.ctx := c3.trans (c2.trans c1)
  rw [hc] at l m n g5 g6 c4
  exact ⟨c4, g.left g4, l, m, n, k1, k2, g.right g5, g.right g6⟩

theorem aeadEncrypt_ok {key iv aad ptxt r : Bytes} {n : Nat}
    (h : aeadEncrypt E key iv aad ptxt n s = (.ok r, s')) :
    s'.ctx = s.ctx ∧ r.length ≤ n ∧ ∃ kid, Saw (evEncrypt kid key iv aad ptxt r) s s' := by
  simp only [aeadEncrypt, encrypt, bind_ok, ofOption_ok, guardUB_ok, pure_ok] at h
  obtain ⟨x, s1, h1, y, _, ⟨rfl, rfl⟩, _, _, ⟨h2, rfl⟩, rfl, rfl⟩ := h
  obtain ⟨c, kid, e1, _, _, g⟩ := withKey_crypto_ok h1
  exact ⟨c, by simpa using h2, kid, saw_ext g⟩

theorem aeadDecrypt_ok {key iv aad ctxt r : Bytes} {n : Nat}
    (h : aeadDecrypt E key iv aad ctxt n s = (.ok r, s')) :
    s'.ctx = s.ctx ∧ r.length = n ∧ ∃ kid, Saw (evDecrypt kid key iv aad ctxt r) s s' := by
  simp only [aeadDecrypt, decrypt, bind_ok, ofOption_ok, require_ok, pure_ok] at h
  obtain ⟨x, s1, h1, y, _, ⟨rfl, rfl⟩, _, _, ⟨h2, rfl⟩, rfl, rfl⟩ := h
  obtain ⟨c, kid, e1, _, _, g⟩ := withKey_crypto_ok h1
  exact ⟨c, by simpa using h2, kid, saw_ext g⟩

/-! ## Exporter -/

/-- PRK_out was derived from PRK_4e3m, unless it was there already. -/
def OutStep (c : Ctx) (p : Bytes) (s s' : St σ) : Prop :=
  (c.prkState = .prk4e3m ∧ c.thState = .th4 ∧
      ∃ kid, Saw (evExpand kid c.prk (encInfo 7 c.th (u32 c.suite.hash)) c.prk.length p) s s') ∨
    (c.prkState ≠ .prk4e3m ∧ p = c.prk)

theorem compPrkOut_ok {u : Unit} (h : compPrkOut E cfg s = (.ok u, s')) :
    s.ctx.thState = .th4 ∧ s.ctx.prkState = .prk4e3m ∧ ∃ p kid, p.length = s.ctx.prk.length ∧
      s'.ctx = { s.ctx with prk := p, prkState := .out } ∧
      Saw (evExpand kid s.ctx.prk (encInfo 7 s.ctx.th (u32 s.ctx.suite.hash)) s.ctx.prk.length p) s s' := by
  simp only [compPrkOut, bind_ok, getCtx_ok, require_ok, modCtx_ok] at h
  obtain ⟨_, _, ⟨rfl, rfl⟩, _, _, ⟨h0, rfl⟩, _, s1, h1, p, s2, h2, rfl⟩ := h
  obtain ⟨c1, g1⟩ := memAlloc_ok h1
  obtain ⟨c2, l2, kid, g2⟩ := expandInfo_ok h2
  simp only [Bool.and_eq_true, beq_iff_eq] at h0
  exact ⟨h0.1, h0.2, p, kid, l2, by simp only [c2, c1], g1.right ((saw_ext g2).left (grow_of_log rfl))⟩

theorem compNewPrkOut_ok {entropy : Bytes} {u : Unit} (h : compNewPrkOut E cfg entropy s = (.ok u, s')) :
    s.ctx.prkState = .out ∧ ∃ p kid, p.length = s.ctx.prk.length ∧
      s'.ctx = { s.ctx with prk := p, prkState := .out } ∧
      Saw (evExpand kid s.ctx.prk (encInfo 11 entropy (u32 s.ctx.suite.hash)) s.ctx.prk.length p) s s' := by
  simp only [compNewPrkOut, bind_ok, getCtx_ok, require_ok, modCtx_ok] at h
  obtain ⟨_, _, ⟨rfl, rfl⟩, _, _, ⟨h0, rfl⟩, _, s1, h1, p, s2, h2, rfl⟩ := h
  obtain ⟨c1, g1⟩ := memAlloc_ok h1
  obtain ⟨c2, l2, kid, g2⟩ := expandInfo_ok h2
  exact ⟨by simpa using h0, p, kid, l2, by simp only [c2, c1],
    g1.right ((saw_ext g2).left (grow_of_log rfl))⟩

theorem compPrkExporter_ok {r : Bytes} (h : compPrkExporter E cfg s = (.ok r, s')) :
    s.ctx.prkState = .out ∧ s'.ctx = s.ctx ∧ r.length = s.ctx.suite.hash ∧ ∃ kid,
      Saw (evExpand kid s.ctx.prk (encInfo 10 [] (u32 s.ctx.suite.hash)) s.ctx.suite.hash r) s s' := by
  simp only [compPrkExporter, bind_ok, getCtx_ok, require_ok] at h
  obtain ⟨_, _, ⟨rfl, rfl⟩, _, _, ⟨h0, rfl⟩, _, s1, h1, h2⟩ := h
  obtain ⟨c1, g1⟩ := memAlloc_ok h1
  obtain ⟨c2, l2, kid, g2⟩ := expandInfo_ok h2
  exact ⟨by simpa using h0, c2.trans c1, l2, kid, g1.right (saw_ext g2)⟩

theorem ensurePrkOut_ok {u : Unit} (h : ensurePrkOut E cfg s = (.ok u, s')) :
    Grow s s' ∧ ∃ p, p.length = s.ctx.prk.length ∧ OutStep s.ctx p s s' ∧
      s'.ctx = { s.ctx with
        prk := p, prkState := if s.ctx.prkState = .prk4e3m then .out else s.ctx.prkState } := by
  simp only [ensurePrkOut, bind_ok, getCtx_ok, whenM_ok, mapErr_ok] at h
  obtain ⟨_, _, ⟨rfl, rfl⟩, ⟨h0, h⟩ | ⟨h0, rfl⟩⟩ := h
  · obtain ⟨h1, h2, p, kid, l, c, g⟩ := compPrkOut_ok h
    exact ⟨g.grow, p, l, Or.inl ⟨h2, h1, kid, g⟩, by simp [c, h2]⟩
  · simp only [beq_eq_false_iff_ne, ne_eq] at h0
    exact ⟨Saw.refl _, s.ctx.prk, rfl, Or.inr ⟨h0, rfl⟩, by simp [h0]⟩

theorem exportSecret_ok {label n : Nat} {r : Bytes} (h : exportSecret E cfg label n s = (.ok r, s')) :
    n ≠ 0 ∧ label ≤ 65535 ∧ (label = 0 ∨ label = 1 ∨ 32768 ≤ label) ∧ r.length = n ∧ Grow s s' ∧
      (s.ctx.prkState = .prk4e3m ∧ s.ctx.thState = .th4 ∨ s.ctx.prkState = .out) ∧ ∃ p x,
      OutStep s.ctx p s s' ∧ p.length = s.ctx.prk.length ∧
      s'.ctx = { s.ctx with prk := p, prkState := .out } ∧
      (∃ k1, x.length = s.ctx.suite.hash ∧
        Saw (evExpand k1 p (encInfo 10 [] (u32 s.ctx.suite.hash)) s.ctx.suite.hash x) s s') ∧
      (∃ k2, Saw (evExpand k2 x (encInfo label [] (u32 n)) n r) s s') := by
  simp only [exportSecret, bind_ok, getCtx_ok, require_ok, mapErr_ok] at h
  obtain ⟨_, _, ⟨h0, rfl⟩, _, _, ⟨h1, rfl⟩, _, _, ⟨rfl, rfl⟩, _, _, ⟨h2, rfl⟩, _, s1, h3, _, s2, h4, x, s3, h5,
    _, s4, h6, h7⟩ := h
  obtain ⟨g1, p, l1, o1, c1⟩ := ensurePrkOut_ok h3
  obtain ⟨c2, g2⟩ := memAlloc_ok h4
  obtain ⟨q, c3, l3, k1, g3⟩ := compPrkExporter_ok h5
  obtain ⟨c4, g4⟩ := memAlloc_ok h6
  obtain ⟨c5, l5, k2, g5⟩ := expandInfo_ok h7
  rw [c2, c1] at g3 q l3
  simp only [Ctx.suite] at g3 q l3
  have g5' := saw_ext g5
  simp only [Bool.and_eq_true, decide_eq_true_eq, bne_iff_ne, ne_eq, Bool.or_eq_true, beq_iff_eq] at h0 h1
  have hp : s1.ctx = { s.ctx with prk := p, prkState := .out } := by
    rw [c1]
    simp only [Ctx.mk.injEq, and_true, true_and]
    exact q
  refine ⟨h0.2, h0.1, by omega, l5, (((g1.left g2).left g3.grow).left g4).left g5'.grow, ?_, p, x, ?_, l1, ?_,
    ⟨k1, l3, ?_⟩, ⟨k2, ?_⟩⟩
  · obtain ⟨a, b, _⟩ | ⟨a, _⟩ := o1
    · exact Or.inl ⟨a, b⟩
    · rw [if_neg a] at q; exact Or.inr q
  · obtain ⟨a, b, k, g⟩ | ⟨a, b⟩ := o1
    · exact Or.inl ⟨a, b, k, (((g.left g2).left g3.grow).left g4).left g5'.grow⟩
    · exact Or.inr ⟨a, b⟩
  · rw [c5, c4, c3, c2, hp]
  · exact (g1.left g2).right ((g3.left g4).left g5'.grow)
  · exact (((g1.left g2).left g3.grow).left g4).right g5'

end inner

end Verif
