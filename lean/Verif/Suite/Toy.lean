import Verif.Suite.Prims

/-!
# Algorithms for examples

Not secure, but lawful: with them the premises about algorithms are met.
-/

namespace Verif.Psa.Toy

open Spec

/-- the curve with this size -/
def curve (bits : Nat) : Curve := if bits = 384 then p384 else p256

/-- decides `Point` -/
def isPoint (c : Curve) (X Y : Bytes) : Bool :=
  X.length == c.len && Y.length == c.len && decide (beNat X < c.p) && decide (beNat Y < c.p) &&
    ((beNat Y : Int) ^ 2 - ((beNat X : Int) ^ 3 - 3 * (beNat X : Int) + c.b)) % c.p == 0

/-- the base points of P-256 and P-384 -/
def base (c : Curve) : Bytes × Bytes :=
  if c.len = 48 then
    (beBytes 48 0xaa87ca22be8b05378eb1c71ef320ad746e1d3b628ba79b9859f741e082542a385502f25dbf55296c3a545e3872760ab7,
      beBytes 48 0x3617de4a96262c6f5d9e98bf9292dc29f8f41dbd289a147ce9da3113b5f0b8c00a60b1ce1d7e819d7a431d7c90ea0e5f)
  else
    (beBytes 32 0x6b17d1f2e12c4247f8bce6e563a440f277037d812deb33a0f4a13945d898c296,
      beBytes 32 0x4fe342e2fe1a7f9b8ee7eb4a7c0f9e162bce33576b315ececbb6406837bf51f5)

/-- a sum of bytes -/
def mix (b : Bytes) : UInt8 := b.foldl (fun a x => a * 31 + x + 1) 7

/-- bytes that depend on the input -/
def stretch (n : Nat) (b : Bytes) : Bytes := (List.range n).map fun i => mix b + UInt8.ofNat i

/-- toy algorithms -/
def algs : Algs where
  hash h b := stretch h.len b
  hkdfExtract h salt ikm := stretch h.len (salt ++ ikm)
  hkdfExpand _ prk info n := stretch n (prk ++ info)
  enc _ t k iv ad p := p ++ stretch t (k ++ iv ++ ad)
  dec _ t k iv ad c :=
    if c.drop (c.length - t) == stretch t (k ++ iv ++ ad) then some (c.take (c.length - t)) else none
  ecPriv bits x := 8 * x.length == bits
  ecPub bits _ := 4 :: (base (curve bits)).1 ++ (base (curve bits)).2
  ecPoint bits b := match b with
    | 4 :: r => isPoint (curve bits) (r.take (curve bits).len) (r.drop (curve bits).len)
    | _ => false
  ecdh bits _ b := (b.drop 1).take (curve bits).len
  ecdsaSign _ bits _ d _ := fitLen (bits / 4) d
  ecdsaVerify _ bits _ d sig := sig == fitLen (bits / 4) d
  x25519 u k := (List.range 32).map fun i => u.getD i 0 + k.getD i 0
  ed25519Sign _ m := stretch 64 m
  ed25519Verify _ m sig := sig == stretch 64 m

theorem isPoint_iff (c : Curve) (X Y : Bytes) : isPoint c X Y = true ↔ Point c X Y := by
  simp only [isPoint, Bool.and_eq_true, beq_iff_eq, decide_eq_true_eq]
  constructor
  · rintro ⟨⟨⟨⟨h1, h2⟩, h3⟩, h4⟩, h5⟩; exact ⟨h1, h2, h3, h4, h5⟩
  · rintro ⟨h1, h2, h3, h4, h5⟩; exact ⟨⟨⟨⟨h1, h2⟩, h3⟩, h4⟩, h5⟩

theorem stretch_length (n : Nat) (b : Bytes) : (stretch n b).length = n := by simp [stretch]

theorem base_point (c : Curve) (h : c = p256 ∨ c = p384) : Point c (base c).1 (base c).2 := by
  rw [← isPoint_iff]
  rcases h with rfl | rfl <;> decide +kernel

theorem curve_len (c : Curve) (h : c = p256 ∨ c = p384) : curve (8 * c.len) = c := by
  rcases h with rfl | rfl <;> rfl

theorem algs_curve (c : Curve) (h : c = p256 ∨ c = p384) : CurveLaws algs c where
  priv x hx := by simp [algs] at hx; omega
  point b := by
    simp only [algs, curve_len c h]
    constructor
    · intro hb
      split at hb
      · next r =>
        exact ⟨_, _, by rw [List.cons_append, List.take_append_drop], (isPoint_iff _ _ _).1 hb⟩
      · cases hb
    · rintro ⟨X, Y, rfl, hp⟩
      simp only [List.cons_append]
      rw [List.take_left' hp.lenX, List.drop_left' hp.lenX, isPoint_iff]
      exact hp
  pub x hx := by
    have hb := base_point c h
    simp only [algs, curve_len c h, List.cons_append]
    rw [List.take_left' hb.lenX, List.drop_left' hb.lenX, isPoint_iff]
    exact hb
  same x X Y Y' hx hp hp' := by
    simp only [algs, curve_len c h, List.cons_append, List.drop_succ_cons, List.drop_zero]
    rw [List.take_left' hp.lenX, List.take_left' hp.lenX]
  dh x y hx hy := rfl
  size x b hx hb := by
    simp only [algs, curve_len c h] at hb ⊢
    split at hb
    · next r =>
      have := ((isPoint_iff _ _ _).1 hb).lenX
      simpa using this
    · cases hb

theorem algs_laws {q : Params} (hq : q ∈ shipped) : AlgLaws algs q where
  hash b := stretch_length _ _
  extract salt ikm := stretch_length _ _
  expand prk info n := stretch_length _ _
  enc k iv aad p := by simp [algs, stretch_length]
  dec k iv aad p := by simp [algs, stretch_length]
  curve c hc := by
    apply algs_curve
    simp only [shipped, List.mem_cons, List.not_mem_nil, or_false] at hq
    rcases hq with rfl | rfl | rfl | rfl <;> simp_all [suite0, suite2, suite4, suite24]
  ecdsa c hc x d r hx hd := by
    constructor
    · rw [(shaped (A := algs) hq).sig c hc]
      simp only [algs, fitLen, List.length_append, List.length_take, List.length_replicate]
      omega
    · simp [algs]
  x25519 hc := by
    refine ⟨fun u k => by simp [algs], fun x y hx hy => ?_⟩
    simp only [algs]
    apply List.map_congr_left
    intro i hi
    simp only [List.getD_eq_getElem?_getD, List.getElem?_map]
    rw [List.getElem?_range (List.mem_range.1 hi)]
    simp only [Option.map_some, Option.getD_some]
    rw [UInt8.add_assoc, UInt8.add_assoc, UInt8.add_comm ((clamp y)[i]?.getD 0)]
  ed25519 _ sk m := stretch_length _ _

/-- an application without EAD, whose key is the one with the first identifier -/
def app (cred peer : Cred) (pk : Bytes) : App Unit where
  alloc w _ := (true, w)
  eadCompose w _ := (some [], w)
  eadProcess w _ _ := (true, w)
  credFetch w := (some (cred, kidBytes idMin), w)
  credVerify w _ := (some (peer, some pk), w)

/-- a key store with one key, for this use -/
def store (q : Params) (t : KeyType) (sk : Bytes) : Store where
  keys := [(idMin, ⟨attrOf q t sk.length, sk⟩)]
  slots := 8
  clock := 0
  fault := fun _ => false
  rand := fun n => [UInt8.ofNat n, 1, 2, 3]

end Verif.Psa.Toy
