import Verif.ToyCheck
import Verif.SpecPrims
import Verif.CborLemmas

/-!
# The toy applications are peers
-/

namespace Verif.Toy

open Verif Spec

/-- the toy primitives -/
def prims : Prims where
  hash := hash
  extract salt ikm := extract ikm salt
  expand := expand
  priv _ := True
  pub := dhPub
  dh := dh
  enc := aead
  dec := unaead

theorem lawful : prims.Lawful := by
  refine ⟨fun x y _ _ => ?_, fun k iv aad p => ?_⟩
  · simp only [prims, dh, dhPub]
    have lt : ∀ n : Nat, n % 257 % 256 ^ 2 = n % 257 := fun n =>
      Nat.mod_eq_of_lt (Nat.lt_of_lt_of_le (Nat.mod_lt n (by decide)) (by decide))
    rw [beNat_beBytes, beNat_beBytes, lt, lt, ← Nat.pow_mod, ← Nat.pow_mod, ← Nat.pow_mul, ← Nat.pow_mul, Nat.mul_comm]
  · have ht : ∀ q, (tag q p).length = 3 := fun q => by simp [tag, hash, beBytes]
    have hl : (aead k iv aad p).length - 3 = p.length := by simp [aead, ht]
    have hp : (aead k iv aad p).take p.length = p := by simp [aead]
    simp only [prims, unaead]
    rw [hl, hp, if_pos ⟨by simp [aead, ht], rfl⟩]

/-- the event is what the toy primitives compute -/
def evB : Ev → Bool
  | .importKey _ k (some kid) => kid == k
  | .hash i (some o) => o == hash i
  | .extract kid salt (some o) => o == extract kid salt
  | .expand kid info n (some o) => o == expand kid info n
  | .makeKeyPair _ (some (priv, pub)) => pub == dhPub priv
  | .keyAgreement kid pk (some o) => o == dh kid pk
  | .encrypt kid iv aad p (some c) => c == aead kid iv aad p
  | .decrypt kid iv aad c (some p) => unaead kid iv aad c == some p
  | _ => true

theorem made {es L : List Ev} (h : L.all evB = true) (hm : Made es L) : es.all evB = true := by
  obtain ⟨a, b, rfl⟩ := hm
  rw [List.all_append, List.all_append] at h
  simp only [Bool.and_eq_true] at h
  exact h.1.2

theorem faithful_of {L : List Ev} (h : L.all evB = true) : Faithful prims id L := by
  have hm : ∀ {e}, e ∈ L → evB e = true := fun he => List.all_eq_true.1 h _ he
  refine ⟨fun hc => ?_, fun hc => ?_, fun hc => ?_, fun hc => ?_, fun hc => ?_, fun _ hc => ?_, fun hc => ?_, fun hc => ?_⟩
  · have := hm hc
    simp only [evB, beq_iff_eq] at this
    exact this
  · obtain ⟨kid, hc⟩ := hc
    have h1 := made h hc
    simp only [List.all_cons, evB, Bool.and_eq_true, beq_iff_eq] at h1
    rw [h1.1] at h1
    exact h1.2.1
  · obtain ⟨_, kid, hc⟩ := hc
    have h1 := made h hc
    simp only [List.all_cons, evB, Bool.and_eq_true, beq_iff_eq] at h1
    rw [h1.1] at h1
    exact h1.2.1
  · obtain ⟨kid, hc⟩ := hc
    have h1 := made h hc
    simp only [List.all_cons, evB, Bool.and_eq_true, beq_iff_eq] at h1
    exact ⟨h1.1, trivial⟩
  · obtain ⟨kid, hc⟩ := hc
    have h1 := made h hc
    simp only [List.all_cons, evB, Bool.and_eq_true, beq_iff_eq] at h1
    rw [h1.1] at h1
    exact h1.2.1
  · have := hm hc
    simp only [evB, beq_iff_eq] at this
    exact this
  · obtain ⟨kid, hc⟩ := hc
    have h1 := made h hc
    simp only [List.all_cons, evB, Bool.and_eq_true, beq_iff_eq] at h1
    rw [h1.1] at h1
    exact h1.2.1
  · obtain ⟨kid, hc⟩ := hc
    have h1 := made h hc
    simp only [List.all_cons, evB, Bool.and_eq_true, beq_iff_eq] at h1
    rw [h1.1] at h1
    exact h1.2.1

def deliveredB (hI hR : History) : Bool :=
  hI.all fun p => hR.all fun q => match p, q with
    | (.compose1 _, .ok (.bytes m)), (.process1 m', .ok .unit) => m' == m
    | (.process2 m', .ok .unit), (.compose2 _, .ok (.bytes m)) => m' == m
    | (.compose3 _, .ok (.bytes m)), (.process3 m', .ok .unit) => m' == m
    | _, _ => true

theorem delivered_of {hI hR : History} (h : deliveredB hI hR = true) : Delivered hI hR := by
  have hm : ∀ p ∈ hI, ∀ q ∈ hR, _ := fun p hp q hq => List.all_eq_true.1 (List.all_eq_true.1 h p hp) q hq
  refine ⟨fun a b => ?_, fun a b => ?_, fun a b => ?_⟩
  · simpa using hm _ a _ b
  · simpa using hm _ b _ a
  · simpa using hm _ a _ b

def knowsB (static : Bool) (L L' : List Ev) : Bool :=
  L.all fun p => L'.all fun q => match p, q with
    | .credFetch (some (c, kid)), .credVerify _ (some (c', some pk)) =>
      decide (Spec.cred c' = Spec.cred c) && (!static || pk == dhPub kid)
    | _, _ => true

theorem knows_of {static : Bool} {L L' : List Ev} (h : knowsB static L L' = true) : Knows prims id static L L' := by
  have hm : ∀ p ∈ L, ∀ q ∈ L', _ := fun p hp q hq => List.all_eq_true.1 (List.all_eq_true.1 h p hp) q hq
  intro c kid i c' pk h1 h2
  have := hm _ h1 _ h2
  simp only [Bool.and_eq_true, decide_eq_true_eq, Bool.or_eq_true, Bool.not_eq_true', beq_iff_eq] at this
  refine ⟨this.1, fun hs => ?_⟩
  rw [hs] at this
  rcases this.2 with h | h
  · cases h
  · exact ⟨h, trivial⟩

/-- all hypotheses about the two sessions -/
def peersB (method : Nat) (opsI opsR : List Op) : Bool :=
  let lI := sessionCalls [] (after alice opsI)
  let lR := sessionCalls [] (after bob opsR)
  lI.all evB && lR.all evB && deliveredB (hst alice opsI) (hst bob opsR) &&
    knowsB (!responderSigns method) lR lI && knowsB (!initiatorSigns method) lI lR

theorem peers_of {method : Nat} {opsI opsR : List Op} (h : peersB method opsI opsR = true) :
    Peers prims id id method (sessionCalls [] (after alice opsI)) (sessionCalls [] (after bob opsR))
      (hst alice opsI) (hst bob opsR) := by
  simp only [peersB, Bool.and_eq_true] at h
  obtain ⟨⟨⟨⟨h1, h2⟩, h3⟩, h4⟩, h5⟩ := h
  exact ⟨lawful, faithful_of h1, faithful_of h2, delivered_of h3, knows_of h4, knows_of h5⟩

theorem proper_of {p : Party} {ops : List Op} (h : checkB p ops = true) :
    Proper (env p) cfg () [] (hst p ops) (after p ops) := by
  obtain ⟨h1, h2, h3, h4, h5⟩ := check h
  exact ⟨h1, h2, h3, h4, h5⟩

theorem proper_last {p : Party} {ops : List Op} {o : Op} {x : Out} (h : checkB p (ops ++ [o]) = true)
    (hx : (step (env p) cfg o (after p ops)).1 = .ok x) :
    Proper (env p) cfg () [] (hst p ops ++ [(o, .ok x)]) (after p (ops ++ [o])) := by
  obtain ⟨h1, h2, h3, h4, h5⟩ := check_last h hx
  exact ⟨h1, h2, h3, h4, h5⟩

theorem peers : (methods.all fun m => peersB m (callsI m ++ exports) (callsR m ++ exports)) = true := by
  decide +kernel

end Verif.Toy
