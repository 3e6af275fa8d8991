import Verif.Suite.Computes
import Verif.SpecHonest

/-!
# The primitives of a shipped suite are lawful and have the lengths of its table
-/

namespace Verif.Psa

open P Spec

variable {A : Algs} {q : Params}

theorem pub_point (hl : AlgLaws A q) {c : Curve} (hc : q.curve = some c) {y : Bytes} (hy : isPriv A q y) :
    ∃ Y, A.ecPub (8 * c.len) y = 4 :: (primsOf A q).pub y ++ Y ∧ Point c ((primsOf A q).pub y) Y := by
  simp only [isPriv, hc] at hy
  obtain ⟨X, Y, h1, h2, -⟩ := pub_length (hl.curve c hc) hy.2
  refine ⟨Y, ?_⟩
  have : (primsOf A q).pub y = X := by
    simp only [primsOf, hc, h1, List.cons_append, List.drop_succ_cons, List.drop_zero]
    exact List.take_left' h2.lenX
  rw [this]; exact ⟨h1, h2⟩

theorem dh_pub (hl : AlgLaws A q) {c : Curve} (hc : q.curve = some c) {x y : Bytes} (hx : isPriv A q x) (hy : isPriv A q y) :
    (primsOf A q).dh x ((primsOf A q).pub y) = A.ecdh (8 * c.len) x (A.ecPub (8 * c.len) y) := by
  obtain ⟨Y, h1, h2⟩ := pub_point hl hc hy
  have hex : ∃ Y, Point c ((primsOf A q).pub y) Y := ⟨Y, h2⟩
  simp only [isPriv, hc] at hx
  rw [h1]
  generalize (primsOf A q).pub y = pk at *
  simp only [primsOf, hc, hex, dif_pos]
  exact (hl.curve c hc).same _ _ _ _ hx.2 hex.choose_spec h2

theorem prims_lawful (hl : AlgLaws A q) : (primsOf A q).Lawful where
  dh x y hx hy := by
    cases hc : q.curve with
    | none =>
      have hx : isPriv A q x := hx
      have hy : isPriv A q y := hy
      simp only [isPriv, hc] at hx hy
      simp only [primsOf, hc]
      exact (hl.x25519 hc).2 x y hx hy
    | some c =>
      rw [dh_pub hl hc hx hy, dh_pub hl hc hy hx]
      have hx : isPriv A q x := hx
      have hy : isPriv A q y := hy
      simp only [isPriv, hc] at hx hy
      exact (hl.curve c hc).dh x y hx.2 hy.2
  aead := hl.dec

theorem prims_sized (hl : AlgLaws A q) (hq : q ∈ shipped) : (primsOf A q).Sized q.table where
  hash b := (hl.hash b).trans (shaped (A := A) hq).hash.symm
  extract salt ikm := (hl.extract salt ikm).trans (shaped (A := A) hq).hash.symm
  expand := hl.expand
  pub x hx := by
    cases hc : q.curve with
    | none =>
      simp only [primsOf, hc]
      exact ((hl.x25519 hc).1 _ _).trans ((shaped (A := A) hq).ecx hc).symm
    | some c =>
      obtain ⟨Y, -, h⟩ := pub_point hl hc hx
      exact h.lenX.trans ((shaped (A := A) hq).ecc c hc).1.symm
  dh x y hx hy := by
    cases hc : q.curve with
    | none =>
      simp only [primsOf, hc]
      exact ((hl.x25519 hc).1 _ _).trans ((shaped (A := A) hq).ecx hc).symm
    | some c =>
      rw [dh_pub hl hc hx hy]
      have hx : isPriv A q x := hx
      have hy : isPriv A q y := hy
      simp only [isPriv, hc] at hx hy
      exact ((hl.curve c hc).size _ _ hx.2 ((hl.curve c hc).pub y hy.2)).trans ((shaped (A := A) hq).ecc c hc).1.symm
  enc := hl.enc

theorem suite_ok (hq : q ∈ shipped) : SuiteOk q.table := by
  simp only [shipped, List.mem_cons, List.not_mem_nil, or_false] at hq
  rcases hq with rfl | rfl | rfl | rfl <;> constructor <;>
    simp [suite0, suite2, suite4, suite24, Params.table]

end Verif.Psa
