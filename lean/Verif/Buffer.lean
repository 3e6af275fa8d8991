import Verif.Message3
import Verif.Export
import Verif.Eval

/-!
# Sizes of the caller's buffers

`Buffer short F s`: if `F` succeeds from `s` for one size, it succeeds with the same result and state for every size that
suffices, and fails as `short` says for every other size but 0.
-/

namespace Verif

open M

variable {σ : Type} {E : Env σ} {cfg : Config} {s s' : St σ}

theorem bind_run {α β : Type} {m : M σ α} {a : α} (h : m s = (.ok a, s')) (f : α → M σ β) : (m >>= f) s = f a s' := by
  show M.bind m f s = _
  simp only [M.bind, h]

theorem bind_err {α β : Type} {m : M σ α} {e : Err} (h : m s = (.err e, s')) (f : α → M σ β) :
    (m >>= f) s = (.err e, s') := by
  show M.bind m f s = _
  simp only [M.bind, h]

theorem bind_ub {α β : Type} {m : M σ α} {u : UB} (h : m s = (.ub u, s')) (f : α → M σ β) :
    (m >>= f) s = (.ub u, s') := by
  show M.bind m f s = _
  simp only [M.bind, h]

/-- how a call with a buffer of `n` bytes fails whose message is `b` -/
abbrev Short := Bytes → Nat → Res Bytes

/-- messages 1, 2 and 4 -/
def short : Short := fun _ _ => .err .cbor

/-- message 3 -/
def short3 : Short := fun b n => if n + 1 = b.length then .ub .oob else .err .cbor

def Buffer (S : Short) (F : Nat → M σ Bytes) (s : St σ) : Prop :=
  ∀ n b s', F n s = (.ok b, s') → b ≠ [] ∧ ∀ n', n' ≠ 0 →
    (b.length ≤ n' → F n' s = (.ok b, s')) ∧ (n' < b.length → ∃ s'', F n' s = (S b n', s''))

theorem Buffer.bind {S : Short} {α : Type} {m : M σ α} {G : Nat → α → M σ Bytes}
    (h : ∀ a s1, m s = (.ok a, s1) → Buffer S (fun n => G n a) s1) : Buffer S (fun n => m >>= G n) s := by
  intro n b s' hr
  obtain ⟨a, s1, h1, h2⟩ := bind_ok.1 hr
  have := h a s1 h1 n b s' h2
  simp only [bind_run h1]
  exact this

/-- the check for an empty buffer -/
theorem Buffer.require {S : Short} {e : Err} {G : Nat → Unit → M σ Bytes} (h : Buffer S (fun n => G n ()) s) :
    Buffer S (fun n => M.require (n != 0) e >>= G n) s := by
  intro n b s' hr
  obtain ⟨_, s1, h1, h2⟩ := bind_ok.1 hr
  obtain ⟨_, rfl⟩ := require_ok.1 h1
  refine ⟨(h n b s' h2).1, fun n' hn => ?_⟩
  have hq : (M.require (n' != 0) e : M σ Unit) s = (.ok (), s) := require_ok.2 ⟨by simp [hn], rfl⟩
  have := (h n b s' h2).2 n' hn
  simp only [bind_run hq]
  exact this

theorem Buffer.require' {S : Short} {p : Bool} {e : Err} {G : Nat → Unit → M σ Bytes} (h : Buffer S (fun n => G n ()) s) :
    Buffer S (fun n => M.require (p && n != 0) e >>= G n) s := by
  intro n b s' hr
  obtain ⟨_, s1, h1, h2⟩ := bind_ok.1 hr
  obtain ⟨hp, rfl⟩ := require_ok.1 h1
  simp only [Bool.and_eq_true] at hp
  refine ⟨(h n b s' h2).1, fun n' hn => ?_⟩
  have hq : (M.require (p && n' != 0) e : M σ Unit) s = (.ok (), s) := require_ok.2 ⟨by simp [hn, hp.1], rfl⟩
  have := (h n b s' h2).2 n' hn
  simp only [bind_run hq]
  exact this

/-- what follows the encoding of the message does not depend on the size and returns the message -/
theorem Buffer.last {S : Short} (hS : ∀ b n, (∃ e, S b n = .err e) ∨ ∃ u, S b n = .ub u) {F : Nat → M σ Bytes} {g : Bytes → M σ Bytes}
    (h : Buffer S F s) (hg : ∀ a s1 b s', g a s1 = (.ok b, s') → b = a) : Buffer S (fun n => F n >>= g) s := by
  intro n b s' hr
  obtain ⟨a, s1, h1, h2⟩ := bind_ok.1 hr
  obtain rfl := hg _ _ _ _ h2
  refine ⟨(h n b s1 h1).1, fun n' hn => ?_⟩
  obtain ⟨x, y⟩ := (h n b s1 h1).2 n' hn
  refine ⟨fun hl => ?_, fun hl => ?_⟩
  · simp only [bind_run (x hl)]
    exact h2
  · obtain ⟨s'', hz⟩ := y hl
    rcases hS b n' with ⟨e, he⟩ | ⟨u, he⟩
    · rw [he] at hz ⊢
      exact ⟨s'', bind_err hz g⟩
    · rw [he] at hz ⊢
      exact ⟨s'', bind_ub hz g⟩

theorem Buffer.mapErr {S : Short} (hS : ∀ b n, S b n = .err .cbor ∨ ∃ u, S b n = .ub u) {F : Nat → M σ Bytes} (h : Buffer S F s) :
    Buffer S (fun n => M.mapErr .cbor (F n)) s := by
  intro n b s' hr
  refine ⟨(h n b s' (mapErr_ok.1 hr)).1, fun n' hn => ?_⟩
  obtain ⟨x, y⟩ := (h n b s' (mapErr_ok.1 hr)).2 n' hn
  refine ⟨fun hl => mapErr_ok.2 (x hl), fun hl => ?_⟩
  obtain ⟨s'', hz⟩ := y hl
  refine ⟨s'', ?_⟩
  rcases hS b n' with he | ⟨u, he⟩ <;> rw [he] at hz ⊢ <;> simp only [M.mapErr, hz]

theorem short_err (b : Bytes) (n : Nat) : short b n = .err .cbor ∨ ∃ u, short b n = .ub u := Or.inl rfl

theorem short3_err (b : Bytes) (n : Nat) : short3 b n = .err .cbor ∨ ∃ u, short3 b n = .ub u := by
  unfold short3
  split
  · exact Or.inr ⟨_, rfl⟩
  · exact Or.inl rfl

theorem any_err {S : Short} (h : ∀ b n, S b n = .err .cbor ∨ ∃ u, S b n = .ub u) (b : Bytes) (n : Nat) :
    (∃ e, S b n = .err e) ∨ ∃ u, S b n = .ub u := (h b n).imp (fun h => ⟨_, h⟩) id

theorem Buffer.fits (x : Option Bytes) (hx : ∀ b, x = some b → b ≠ []) :
    Buffer short (fun n => M.ofOption .cbor (x.bind (Verif.fits n))) s := by
  intro n b s' hr
  obtain ⟨h1, rfl⟩ := ofOption_ok.1 hr
  cases x with
  | none => cases h1
  | some v =>
    simp only [Option.bind_some, Verif.fits] at h1 ⊢
    split at h1 <;> cases h1
    refine ⟨hx _ rfl, fun n' _ => ⟨fun hl => ?_, fun hl => ⟨s, ?_⟩⟩⟩
    · simp [hl, M.ofOption]
    · rw [if_neg (by omega)]
      rfl

theorem encMsg1_ne {m : Msg1} {b : Bytes} (h : encMsg1 m = some b) : b ≠ [] := by
  obtain ⟨su, ci, ea, _, _, _, rfl⟩ := encMsg1_ok h
  intro h0
  simp only [List.append_eq_nil_iff] at h0
  exact encBstr_ne _ h0.1.1.2

theorem Buffer.message1Compose : Buffer short (Verif.message1Compose E cfg) s := by
  unfold Verif.message1Compose
  refine Buffer.require ?_
  repeat (refine Buffer.bind fun _ _ _ => ?_)
  refine Buffer.last (any_err short_err) (Buffer.fits _ fun _ => encMsg1_ne) ?_
  intro a s1 b s' h
  simp only [bind_ok, modCtx_ok, pure_ok] at h
  obtain ⟨_, _, _, _, _, _, rfl, _⟩ := h
  rfl

theorem Buffer.message2Compose : Buffer short (Verif.message2Compose E cfg) s := by
  unfold Verif.message2Compose
  refine Buffer.require ?_
  repeat (refine Buffer.bind fun _ _ _ => ?_)
  refine Buffer.last (any_err short_err) (Buffer.mapErr short_err ?_) ?_
  · unfold prepareMsg2
    refine Buffer.bind fun c _ _ => ?_
    refine Buffer.require' ?_
    refine Buffer.bind fun _ _ _ => ?_
    exact Buffer.fits (some _) (by rintro _ ⟨⟩; exact encBstr_ne _)
  · intro a s1 b s' h
    simp only [bind_ok, modCtx_ok, pure_ok] at h
    obtain ⟨_, _, _, rfl, _⟩ := h
    rfl

theorem Buffer.tail3 (x : Bytes) (hx : x ≠ []) : Buffer short3 (fun n => do
    let msg ← M.ofOption .cbor (Verif.fits (n + 1) x)
    M.guardUB (msg.length ≤ n) .oob
    pure msg) s := by
  intro n b s' hr
  simp only [bind_ok, ofOption_ok, guardUB_ok, pure_ok] at hr
  obtain ⟨_, _, ⟨h1, rfl⟩, _, _, ⟨h2, rfl⟩, rfl, rfl⟩ := hr
  unfold Verif.fits at h1
  split at h1 <;> cases h1
  refine ⟨hx, fun n' _ => ⟨fun hl => ?_, fun hl => ⟨s, ?_⟩⟩⟩
  · simp only [bind_ok, ofOption_ok, guardUB_ok, pure_ok]
    refine ⟨x, s, ⟨?_, rfl⟩, (), s, ⟨?_, rfl⟩, rfl, rfl⟩
    · unfold Verif.fits
      rw [if_pos (by omega)]
    · simpa using hl
  · unfold short3
    split
    · refine (bind_run (a := x) (s' := s) (ofOption_ok.2 ⟨?_, rfl⟩) _).trans ?_
      · unfold Verif.fits
        rw [if_pos (by omega)]
      · refine bind_ub ?_ _
        have hf : decide (x.length ≤ n') = false := by simp; omega
        rw [hf]
        rfl
    · refine bind_err ?_ _
      unfold Verif.fits
      rw [if_neg (by omega)]
      rfl

theorem Buffer.message3Compose : Buffer short3 (Verif.message3Compose E cfg) s := by
  unfold Verif.message3Compose
  refine Buffer.require ?_
  repeat (refine Buffer.bind fun _ _ _ => ?_)
  refine Buffer.last (any_err short3_err) (Buffer.mapErr short3_err ?_) ?_
  · unfold genMsg3
    refine Buffer.require' ?_
    exact Buffer.tail3 _ (encBstr_ne _)
  · intro a s1 b s' h
    simp only [bind_ok, modCtx_ok, pure_ok] at h
    obtain ⟨_, _, _, rfl, _⟩ := h
    rfl

theorem Buffer.message4Compose : Buffer short (Verif.message4Compose E cfg) s := by
  unfold Verif.message4Compose
  refine Buffer.require ?_
  repeat (refine Buffer.bind fun _ _ _ => ?_)
  refine Buffer.last (any_err short_err) (Buffer.mapErr short_err ?_) ?_
  · unfold genMsg4
    refine Buffer.require' ?_
    exact Buffer.fits (some _) (by rintro _ ⟨⟩; exact encBstr_ne _)
  · intro a s1 b s' h
    simp only [bind_ok, modCtx_ok, pure_ok] at h
    obtain ⟨_, _, _, rfl, _⟩ := h
    rfl

theorem oscoreId_short {n : Nat} {c : Cid} (h : n < (oscoreIdOf c).length) :
    ∃ e ∈ [Err.cbor, Err.bufferTooSmall], oscoreId n c = .err e := by
  cases c <;> simp only [oscoreIdOf] at h <;> simp only [oscoreId, Verif.fits] <;> rw [if_neg (by omega)]
  · exact ⟨_, by simp, rfl⟩
  · exact ⟨_, by simp, rfl⟩

theorem oscoreId_fits {n : Nat} {c : Cid} (h : (oscoreIdOf c).length ≤ n) : oscoreId n c = .ok (oscoreIdOf c) := by
  cases c <;> simp only [oscoreIdOf] at h ⊢ <;> simp only [oscoreId, Verif.fits, if_pos h] <;> rfl

/-- the sizes of the buffers for the identifiers decide only whether the export succeeds -/
theorem exportOscore_size {a b c d : Nat} {o : Oscore} (h : exportOscore E cfg a b c d s = (.ok o, s')) {c' d' : Nat}
    (hc : c' ≠ 0) (hd : d' ≠ 0) :
    (o.sid.length ≤ c' → o.rid.length ≤ d' → exportOscore E cfg a b c' d' s = (.ok o, s')) ∧
    (c' < o.sid.length ∨ d' < o.rid.length → ∃ e ∈ [Err.cbor, Err.bufferTooSmall], ∃ s'',
      exportOscore E cfg a b c' d' s = (.err e, s'') ∧ s''.ctx.status = .aborted) := by
  simp only [exportOscore, bind_ok, getCtx_ok, require_ok, mapErr_ok, modCtx_ok, ofRes_ok, pure_ok] at h
  obtain ⟨_, _, ⟨h0, rfl⟩, _, _, ⟨rfl, rfl⟩, _, _, ⟨h1, rfl⟩, _, _, ⟨h2, rfl⟩, _, _, rfl, x1, s1, h3, x2, s2, h4,
    x3, _, ⟨h5, rfl⟩, x4, _, ⟨h6, rfl⟩, _, _, rfl, rfl, rfl⟩ := h
  obtain ⟨i1, _⟩ := oscoreId_ok h5
  obtain ⟨i2, _⟩ := oscoreId_ok h6
  have h0' : (a != 0 && b != 0 && c' != 0 && d' != 0) = true := by
    simp only [Bool.and_eq_true] at h0
    simp [h0.1.1.1, h0.1.1.2, hc, hd]
  have hs : s2.ctx.status = .aborted := by
    obtain ⟨_, _, _, _, _, _, p, x, _, _, c1, _⟩ := exportSecret_ok h3
    obtain ⟨_, _, _, _, _, _, p', y, _, _, c2, _⟩ := exportSecret_ok h4
    rw [c2, c1]
  dsimp only
  rw [i1, i2]
  refine ⟨fun hl hr => ?_, fun hs' => ?_⟩
  · simp only [exportOscore, bind_ok, getCtx_ok, require_ok, mapErr_ok, modCtx_ok, ofRes_ok, pure_ok]
    exact ⟨(), _, ⟨h0', rfl⟩, _, _, ⟨rfl, rfl⟩, (), _, ⟨h1, rfl⟩, (), _, ⟨h2, rfl⟩, (), _, rfl, _, _, h3, _, _, h4,
      _, _, ⟨oscoreId_fits hl, rfl⟩, _, _, ⟨oscoreId_fits hr, rfl⟩, (), _, rfl, rfl, rfl⟩
  · simp only [exportOscore]
    rw [bind_run (a := ()) (require_ok.2 ⟨h0', rfl⟩), bind_run (getCtx_ok.2 ⟨rfl, rfl⟩), bind_run (a := ()) (require_ok.2 ⟨h1, rfl⟩),
      bind_run (a := ()) (require_ok.2 ⟨h2, rfl⟩), bind_run (a := ()) (modCtx_ok.2 rfl), bind_run (mapErr_ok.2 h3), bind_run (mapErr_ok.2 h4)]
    by_cases hl : (oscoreIdOf s.ctx.peerCid).length ≤ c'
    · obtain ⟨e, he, hx⟩ := oscoreId_short (hs'.resolve_left (by omega))
      refine ⟨e, he, s2, ?_, hs⟩
      rw [bind_run (ofRes_ok.2 ⟨oscoreId_fits hl, rfl⟩), hx]
      rfl
    · obtain ⟨e, he, hx⟩ := oscoreId_short (Nat.lt_of_not_le hl)
      refine ⟨e, he, s2, ?_, hs⟩
      rw [hx]
      rfl

end Verif
