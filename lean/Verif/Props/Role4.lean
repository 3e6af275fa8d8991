import Verif.Props.Wire
import Verif.Props.Ead

/-!
# The sender of message 4 (C39)
-/

namespace Verif

open M Spec

variable {σ : Type}

/-- **C39**. A message-4 call succeeds only on a side that completed messages 1 to 3. Missing: that the side that composes
message 4 is the Responder and the side that processes it is the Initiator (`C39_violated`). -/
theorem C39_completed_partial {E : Env σ} {cfg : Config} {e : σ} {log : List Ev} {h : History} {s s' : St σ}
    (hs : Session E cfg e log h s) {o : Op} {k : Call} (hk : callOf o = some k) (h4 : k = .compose4 ∨ k = .process4) {a : Out}
    (ho : step E cfg o s = (.ok a, s')) :
    messages h = [.compose1, .process2, .compose3] ∨ messages h = [.process1, .compose2, .process3] := by
  refine Classical.byContradiction fun hn => ?_
  have hr : Refused E cfg o s := by
    refine C03_message_out_of_order hs hk fun q hq hp => hn ?_
    have hlen := hp.length_le
    obtain ⟨t, ht⟩ := hp
    simp only [roleSequences, List.mem_cons, List.not_mem_nil, or_false] at hq
    rcases hm : messages h with _ | ⟨a, _ | ⟨b, _ | ⟨c, _ | ⟨d, l⟩⟩⟩⟩ <;> rw [hm] at ht hlen <;>
      rcases hq with rfl | rfl | rfl | rfl <;> rcases h4 with rfl | rfl <;> simp_all
  unfold Refused at hr
  rw [hr] at ho
  simp at ho

/-- **C39** fails: the Initiator may compose message 4, and the Responder accepts it. If both sides compose it, the two
encrypt different plaintexts under the same key and IV. -/
theorem C39_violated :
    let I := Toy.after Toy.alice (beforeM3 ++ [.compose3 100])
    let R := Toy.after Toy.bob beforeM4
    Session (Toy.env Toy.alice) Toy.cfg () [] (Toy.hst Toy.alice (beforeM3 ++ [.compose3 100])) I ∧
    Session (Toy.env Toy.bob) Toy.cfg () [] (Toy.hst Toy.bob beforeM4) R ∧
    (step (Toy.env Toy.alice) Toy.cfg (.compose4 100) I).1 = .ok (.bytes [67, 52, 162, 52]) ∧
    (step (Toy.env Toy.bob) Toy.cfg (.process4 [67, 52, 162, 52]) R).1 = .ok .unit ∧
    ∃ k iv a p a' p' r r', Ev.encrypt k iv a p r ∈ (step (Toy.env Toy.alice) Toy.cfg (.compose4 100) I).2.log.drop I.log.length ∧
      Ev.encrypt k iv a' p' r' ∈ (step (Toy.env Toy.bob) Toy.cfg (.compose4 100) R).2.log.drop R.log.length ∧ p ≠ p' := by
  refine ⟨Toy.session Toy.alice _ (by decide +kernel), Toy.session Toy.bob _ (by decide +kernel), by decide +kernel,
    by decide +kernel, [228, 230, 232, 249], [203, 205, 222],
    [131, 104, 69, 110, 99, 114, 121, 112, 116, 48, 64, 68, 138, 224, 138, 224], [],
    [131, 104, 69, 110, 99, 114, 121, 112, 116, 48, 64, 68, 138, 224, 138, 224], [24, 100, 66, 1, 2],
    some [52, 162, 52], some [24, 100, 66, 1, 2, 146, 17, 146], by decide +kernel, by decide +kernel, by decide⟩

/-- Non-vacuity of the partial theorem. -/
example := C39_completed_partial (Toy.session Toy.bob beforeM4 (by decide +kernel)) (o := .compose4 100) rfl (Or.inl rfl)
  (a := .bytes (Toy.msg 3 4)) (eq_of_fst (by decide +kernel))

end Verif
