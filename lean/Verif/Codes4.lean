import Verif.Codes3

/-!
# Return codes: the API functions
-/

namespace Verif

open M Spec

variable {σ : Type} (E : Env σ) (cfg : Config)

/-- the table of a call -/
def causes (o : Op) : Table := Callback.all.map fun k => (k, cause o k)

theorem causes_get (o : Op) (k : Callback) : (causes o).lookup k = some (cause o k) := by
  cases k <;> rfl

abbrev allowed (o : Op) : List Err := retvals o ++ exceptions o

theorem does_message1Compose (n : Nat) : Does (causes (.compose1 0)) (allowed (.compose1 0)) fine (message1Compose E cfg n) := by
  unfold message1Compose
  refine Does.bind (by does!) fun _ => Does.bind (by does!) fun _ => Does.bind (by does!) fun _ => Does.bind (by does!) fun _ => ?_
  refine Does.getCtx.bind fun c => ?_
  refine Does.bindOpt (Does.importKey E _ _) (by decide +kernel) (by decide +kernel) fun kid => ?_
  refine Does.bind (by does!) fun _ => ?_
  refine Does.bindOptVia (Does.makeKeyPair E kid) (by decide +kernel) (by decide +kernel) (fun _ => NeverFails.destroyKey E kid)
    (fun _ => (Does.destroyKey E kid).mono (by decide +kernel) (by decide +kernel)) fun _ => ?_
  does!

theorem does_message1Process (b : Bytes) : Does (causes (.process1 [])) (allowed (.process1 [])) fine (message1Process E cfg b) := by
  unfold message1Process
  does!

theorem does_message2Compose (n : Nat) : Does (causes (.compose2 0)) (allowed (.compose2 0)) fine (message2Compose E cfg n) := by
  unfold message2Compose
  does!
theorem does_message2Process (b : Bytes) : Does (causes (.process2 [])) (allowed (.process2 [])) fine (message2Process E cfg b) := by
  unfold message2Process
  does!
theorem does_message3Compose (n : Nat) : Does (causes (.compose3 0)) (allowed (.compose3 0)) fine (message3Compose E cfg n) := by
  unfold message3Compose
  does!
theorem does_decrypt3 (a b c d : Bytes) (n : Nat) : Does (anyOf [.importKey, .destroyKey, .decrypt]) Err.all fine
    (do require (d.length != 0 && n != 0) .invalidArgument; aeadDecrypt E a b c d n : M σ Bytes) := by
  does!
macro_rules | `(tactic| does_fn) => `(tactic| with_reducible exact does_decrypt3 _ _ _ _ _ _)
theorem does_message3Process (b : Bytes) : Does (causes (.process3 [])) (allowed (.process3 [])) fine (message3Process E cfg b) := by
  unfold message3Process
  does!
theorem does_message4Compose (n : Nat) : Does (causes (.compose4 0)) (allowed (.compose4 0)) fine (message4Compose E cfg n) := by
  unfold message4Compose
  does!
theorem does_message4Process (b : Bytes) : Does (causes (.process4 [])) (allowed (.process4 [])) fine (message4Process E cfg b) := by
  unfold message4Process
  does!
theorem does_exportSecret (l n : Nat) :
    Does (causes (.exportSecret 0 0)) (allowed (.exportSecret 0 0)) fine (exportSecret E cfg l n) := by
  unfold exportSecret
  does!
theorem does_keyUpdate (b : Bytes) : Does (causes (.keyUpdate [])) (allowed (.keyUpdate [])) fine (keyUpdate E cfg b) := by
  unfold keyUpdate
  does!
theorem does_exportSecret' (l n : Nat) : Does (anyOf [.alloc, .importKey, .destroyKey, .expand]) Err.all fine
    (exportSecret E cfg l n) := by
  unfold exportSecret
  does!
macro_rules | `(tactic| does_fn) => `(tactic| with_reducible exact does_exportSecret' _ _ _ _)
theorem does_exportOscore (a b c d : Nat) :
    Does (causes (.exportOscore 0 0 0 0)) (allowed (.exportOscore 0 0 0 0)) fine (exportOscore E cfg a b c d) := by
  unfold exportOscore
  does!

theorem Does.mapOut {α : Type} {T : Table} {S : List Err} {f : α → Out} {m : M σ α} (h : Does T S fine m) :
    Does T S fine (M.mapOut f m) := h.bind fun _ => Does.pure _

theorem does_step (o : Op) : Does (causes o) (allowed o) fine (step E cfg o) := by
  cases o with
  | nullArg => exact Does.fail (by decide)
  | init => exact Does.mapOut Does.modCtx
  | deinit => refine Does.mapOut ?_; unfold contextDeinit; does!
  | setMethods ms => refine Does.mapOut ?_; show Does (causes (.setMethods [])) (allowed (.setMethods [])) fine _; unfold setMethods; does!
  | setSuites l => refine Does.mapOut ?_; show Does (causes (.setSuites [])) (allowed (.setSuites [])) fine _; unfold setSuites; does!
  | setCid c => refine Does.mapOut ?_; show Does (causes (.setCid (.int 0))) (allowed (.setCid (.int 0))) fine _; unfold setCid; does!
  | setUserCtx => refine Does.mapOut ?_; unfold setUserCtx; does!
  | bindEad a b => refine Does.mapOut ?_; show Does (causes (.bindEad true true)) (allowed (.bindEad true true)) fine _; unfold bindEad; does!
  | bindKeys b => refine Does.mapOut ?_; show Does (causes (.bindKeys true)) (allowed (.bindKeys true)) fine _; unfold bindKeys; does!
  | bindCrypto b => refine Does.mapOut ?_; show Does (causes (.bindCrypto true)) (allowed (.bindCrypto true)) fine _; unfold bindCrypto; does!
  | bindCred b => refine Does.mapOut ?_; show Does (causes (.bindCred true)) (allowed (.bindCred true)) fine _; unfold bindCred; does!
  | getCode => refine Does.mapOut ?_; unfold errorGetCode; does!
  | getSuites a b => refine Does.mapOut ?_; show Does (causes (.getSuites 0 0)) (allowed (.getSuites 0 0)) fine _; unfold errorGetSuites; does!
  | compose1 n => exact (does_message1Compose E cfg n).mapOut
  | process1 b => exact (does_message1Process E cfg b).mapOut
  | compose2 n => exact (does_message2Compose E cfg n).mapOut
  | process2 b => exact (does_message2Process E cfg b).mapOut
  | compose3 n => exact (does_message3Compose E cfg n).mapOut
  | process3 b => exact (does_message3Process E cfg b).mapOut
  | compose4 n => exact (does_message4Compose E cfg n).mapOut
  | process4 b => exact (does_message4Process E cfg b).mapOut
  | exportSecret l n => exact (does_exportSecret E cfg l n).mapOut
  | keyUpdate b => exact (does_keyUpdate E cfg b).mapOut
  | exportOscore a b c d => exact (does_exportOscore E cfg a b c d).mapOut

end Verif
