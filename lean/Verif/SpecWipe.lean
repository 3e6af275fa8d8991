/-
Specification for C83: key material in the working memory.
-/
import Verif.WipeSkeleton

namespace Verif.Spec

open Verif.Mem (Buf Fn)

/-- The working buffers of the library that hold keys or secrets from which keys are derived:
the Diffie-Hellman secrets of static keys G_RX (library/edhoc_message_2.c:556) and G_IY
(library/edhoc_message_3.c:317), PRK_2e (library/edhoc_message_2.c:1490), KEYSTREAM_2
(library/edhoc_message_2.c:1681, 1858), the AEAD keys K_3 and K_4 (library/edhoc_message_3.c:1267, 1617;
library/edhoc_message_4.c:660, 815) and PRK_exporter (library/edhoc_exporter.c:354). -/
def keyMaterial : List Buf := [.grx, .giy, .prk_2e, .keystream, .key, .prk_exporter]

/-- `Leaves f ok X`: function `f` of the library can return, successfully or not as `ok` says, after it or a
function it called has released the buffers `X` with content: accessed, and not set to zero since. -/
def Leaves (f : Fn) (ok : Bool) (X : List Buf) : Prop :=
  Wipe.Run Wipe.code (Wipe.code f) .begin (.done ok X)

/-- No key material is left in released working memory. -/
def WipesKeys : Prop :=
  ∀ f ok X, Leaves f ok X → ∀ b, b ∈ keyMaterial → b ∉ X

/-- The key material that the functions of the library leave behind, depending on their success. -/
def leftBehind : Fn → Bool → List Buf
  -- the Diffie-Hellman secrets: only if their computation fails
  | .comp_prk_3e2m, false => [.grx]
  | .comp_prk_4e3m, false => [.giy]
  -- PRK_2e: only if composing message_2 fails
  | .edhoc_message_2_compose, false => [.keystream, .grx, .prk_2e]
  | .edhoc_message_2_compose, true => [.keystream]
  | .edhoc_message_2_process, false => [.keystream, .grx]
  | .edhoc_message_2_process, true => [.keystream]
  | .edhoc_message_3_compose, false => [.key, .giy]
  | .edhoc_message_3_compose, true => [.key]
  | .edhoc_message_3_process, false => [.key, .giy]
  | .edhoc_message_3_process, true => [.key]
  | .edhoc_message_4_compose, _ => [.key]
  | .edhoc_message_4_process, _ => [.key]
  | .edhoc_export_prk_exporter, _ => [.prk_exporter]
  | .edhoc_export_oscore_session, _ => [.prk_exporter]
  | _, _ => []

end Verif.Spec
