import Verif.SpecCalls
import Verif.Received
import Verif.CborSound
import Verif.Phase

/-!
# From the internal predicates to the specification's
-/

namespace Verif

open M Spec

variable {σ : Type} {s s' : St σ}

theorem Saw.made {L : List Ev} (h : Saw L s s') : Made L (during s s') := by
  obtain ⟨l1, l2, h⟩ := h
  unfold Made during
  rw [h, List.drop_left]
  exact ⟨l1, l2, by simp⟩

theorem Saw.mem {e : Ev} (h : Saw [e] s s') : e ∈ during s s' := by
  obtain ⟨l1, l2, h⟩ := h.made
  rw [← h]; simp

theorem Hashed.call {i o : Bytes} (h : Hashed i o s s') : HashCall (during s s') i o := Saw.mem h

theorem Expanded.call {p c o : Bytes} {l n : Nat} (h : Expanded p l c n o s s') (hn : n < 2 ^ 32) :
    ExpandCall (during s s') p l c n o := by
  obtain ⟨h1, k, h2⟩ := h
  rw [encInfo_spec l c hn] at h2
  exact ⟨h1, k, Saw.made h2⟩

theorem Extracted.call {p c o : Bytes} (h : Extracted p c o s s') : ExtractCall (during s s') p c o := by
  obtain ⟨k, h⟩ := h; exact ⟨k, Saw.made h⟩

theorem AgreedRaw.call {p c o : Bytes} (h : AgreedRaw p c o s s') : AgreeCall (during s s') p c o := by
  obtain ⟨k, h⟩ := h; exact ⟨k, Saw.made h⟩

theorem AgreedStatic.call {p c o : Bytes} (h : AgreedStatic p c o s s') : AgreeStaticCall (during s s') p c o :=
  Saw.mem h

theorem Encrypted.call {k i d p c : Bytes} (h : Encrypted k i d p c s s') : EncryptCall (during s s') k i d p c := by
  obtain ⟨k, h⟩ := h; exact ⟨k, Saw.made h⟩

theorem Decrypted.call {k i d p c : Bytes} (h : Decrypted k i d p c s s') : DecryptCall (during s s') k i d p c := by
  obtain ⟨k, h⟩ := h; exact ⟨k, Saw.made h⟩

theorem Verified.call {k i d : Bytes} (h : Verified k i d s s') : VerifyCall (during s s') k i d := by
  obtain ⟨k, h⟩ := h; exact ⟨k, Saw.made h⟩

theorem NextPrk.call {l n : Nat} {x : Bool} {p t q : Bytes} {A : Bytes → St σ → St σ → Prop} {B : Bytes → Prop}
    (h : NextPrk l x p t n A q s s') (hn : n < 2 ^ 32) (hA : ∀ g, A g s s' → B g) :
    NextKey (during s s') l x p t n B q := by
  unfold NextKey
  obtain ⟨rfl, h⟩ | ⟨rfl, _, salt, dh, h1, h2, h3⟩ := h
  · exact h
  · exact ⟨salt, dh, h1.call hn, hA _ h2, h3.call⟩

theorem Authenticated.call {x : Bool} {k t m g : Bytes} {cr : Cred} {e : List EadTok}
    (h : Authenticated x k cr t e m g s s') :
    SignatureOrMac x cr t e m g (VerifyCall (during s s') k) := by
  unfold SignatureOrMac
  obtain ⟨rfl, h⟩ | ⟨rfl, h⟩ := h
  · exact h.call
  · exact h

theorem Signed.call {x : Bool} {k t m g : Bytes} {cr : Cred} {e : List EadTok}
    (h : Signed x k cr t e m g s s') :
    SignatureOrMac x cr t e m g (SignCall (during s s') k) := by
  unfold SignatureOrMac
  obtain ⟨rfl, h⟩ | ⟨rfl, h⟩ := h
  · exact Saw.mem h
  · exact h

theorem macLen_lt {x : Bool} {su : Suite} (h : SuiteSmall su) : macLen x su < 2 ^ 32 := by
  unfold macLen; obtain ⟨_, _, h1, h2⟩ := h; cases x
  · exact h2
  · exact h1

theorem credOfIdCred2 {cfg : Config} {i : IdCred} {c : Cred}
    (h : credOfIdCred cfg credOfMap2 i = .ok c) : Identifies i c := by
  cases i with
  | int v => simp only [credOfIdCred, Res.ok.injEq] at h; subst h; exact .kidInt v
  | bstr b =>
    simp only [credOfIdCred] at h
    split at h
    · simp only [Res.ok.injEq] at h; subst h; exact .kidBstr b
    · simp at h
  | map m =>
    simp only [credOfIdCred, credOfMap2, recvChain_eq, recvHash_eq, Res.bind_ok] at h
    obtain ⟨c1, h1, h2⟩ := h
    split at h2
    · rename_i a fp ht
      simp only [Res.ok.injEq] at h2; subst h2; exact .hash ht
    · rename_i a fp ht
      split at h2
      · simp only [Res.ok.injEq] at h2; subst h2; exact .hash ht
      · simp at h2
    · rename_i ht
      simp only [Res.ok.injEq] at h2; subst h2
      split at h1
      · rename_i hx
        simp only [Res.ok.injEq] at h1; subst h1; exact .cert hx
      · rename_i hx
        split at h1
        · simp only [Res.ok.injEq] at h1; subst h1; exact .chain hx
        · simp at h1
      · rename_i hx
        simp only [Res.ok.injEq] at h1; subst h1; exact .nothing hx ht

theorem credOfIdCred3 {cfg : Config} {i : IdCred} {c : Cred}
    (h : credOfIdCred cfg credOfMap3 i = .ok c) : Identifies i c := by
  cases i with
  | int v => simp only [credOfIdCred, Res.ok.injEq] at h; subst h; exact .kidInt v
  | bstr b =>
    simp only [credOfIdCred] at h
    split at h
    · simp only [Res.ok.injEq] at h; subst h; exact .kidBstr b
    · simp at h
  | map m =>
    simp only [credOfIdCred, credOfMap3, recvChain_eq, recvHash_eq] at h
    split at h
    · rename_i hx
      simp only [Res.ok.injEq] at h; subst h; exact .cert hx
    · rename_i hx
      split at h
      · simp only [Res.ok.injEq] at h; subst h; exact .chain hx
      · simp at h
    · rename_i hx
      split at h
      · rename_i ht
        simp only [Res.ok.injEq] at h; subst h; exact .hash ht
      · rename_i ht
        split at h
        · simp only [Res.ok.injEq] at h; subst h; exact .hash ht
        · simp at h
      · rename_i ht
        simp only [Res.ok.injEq] at h; subst h; exact .nothing hx ht

/-- no EAD tokens are left over from an earlier message in a live session -/
theorem ead_eq {c : Ctx} {ts v : List EadTok} (h0 : c.ead = []) (h : v = if ts.isEmpty then c.ead else ts) :
    v = ts := by
  rw [h, h0]
  cases ts <;> rfl

end Verif
