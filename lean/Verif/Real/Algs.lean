import Verif.Real.Ed25519Laws
import Verif.Suite.Honest

/-!
# The standards' algorithms meet the laws
-/

namespace Verif.Real

open Spec Psa

/-- the algorithms of the standards -/
def algs : Algs where
  hash := hash
  hkdfExtract := hkdfExtract
  hkdfExpand := hkdfExpand
  enc a t key nonce aad p := (aead a t key nonce).enc t aad p
  dec a t key nonce aad c := (aead a t key nonce).dec t aad c
  ecPriv bits := (nistOf bits).isPriv
  ecPub bits := (nistOf bits).pub
  ecPoint bits b := ((nistOf bits).decode b).isSome
  ecdh bits := (nistOf bits).ecdh
  ecdsaSign _ bits := (nistOf bits).sign
  ecdsaVerify _ bits := (nistOf bits).verify
  x25519 := x25519
  ed25519Sign := ed25519Sign
  ed25519Verify := ed25519Verify

/-- the curve of a suite -/
theorem nistOf_good {q : Params} (hq : q ∈ shipped) {c : Curve} (hc : q.curve = some c) :
    (nistOf (8 * c.len)).Good ∧ (nistOf (8 * c.len)).c = c := by
  rcases shipped_curve hq hc with rfl | rfl
  · exact ⟨nist256_good, rfl⟩
  · exact ⟨nist384_good, rfl⟩

theorem algs_laws {q : Params} (hq : q ∈ shipped) : AlgLaws algs q where
  hash b := hash_length _ _
  extract salt ikm := hmac_length _ _ _
  expand prk info n := hkdfExpand_length _ _ _ _
  enc k iv aad p := (aead_stream _ _ _ _).enc_length _ _ _
  dec k iv aad p := (aead_stream _ _ _ _).dec_enc _ _ _
  curve c hc := by
    obtain ⟨hN, he⟩ := nistOf_good hq hc
    have : Fact (nistOf (8 * c.len)).w.p.Prime := ⟨hN.w.prime⟩
    constructor
    · intro x hx
      have := ((Nist.isPriv_iff x).1 hx).1
      rwa [he] at this
    · intro b
      have := Nist.decode_iff hN b
      rwa [he] at this
    · intro x hx
      obtain ⟨B, hB, _, ho⟩ := Nist.base hN
      obtain ⟨P, hP, _⟩ := Nist.pub_point hN hB ho hx
      show ((nistOf (8 * c.len)).decode ((nistOf (8 * c.len)).pub x)).isSome = true
      rw [hP]
      rfl
    · intro x X Y Y' hx h h'
      rw [← he] at h h'
      exact Nist.ecdh_same hN hx h h'
    · intro x y hx hy
      exact Nist.ecdh_dh hN hx hy
    · intro x b hx _
      have : ∀ P, ((nistOf (8 * c.len)).xOf P).length = c.len := by
        intro P
        rcases P with _ | ⟨x, y⟩ <;> simp only [Nist.xOf, beBytes_length, he]
      show ((nistOf (8 * c.len)).ecdh x b).length = _
      unfold Nist.ecdh
      rw [force_eq]
      exact this _
  ecdsa c hc x d r hx hd := by
    obtain ⟨hN, he⟩ := nistOf_good hq hc
    have : Fact (nistOf (8 * c.len)).w.p.Prime := ⟨hN.w.prime⟩
    obtain ⟨h1, h2⟩ := Nist.ecdsa hN hx (digest := d) r
    refine ⟨?_, h2⟩
    have h3 : 2 * c.len = q.sign := by
      simp only [Spec.shipped, List.mem_cons, List.not_mem_nil, or_false] at hq
      rcases hq with rfl | rfl | rfl | rfl <;> simp [suite0, suite2, suite4, suite24] at hc ⊢ <;> subst hc <;> rfl
    rw [he, h3] at h1
    exact h1
  x25519 _ := ⟨x25519_length, fun x y hx hy => x25519_dh hx hy⟩
  ed25519 _ := ed25519Sign_length

end Verif.Real
