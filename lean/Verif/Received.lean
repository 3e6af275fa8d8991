import Verif.Msg3

/-!
# A received chain or hash name that passes its check fits its array
-/

namespace Verif

theorem recvChain_eq (cfg : Config) (l : List Bytes) :
    recvChain cfg l = if l.length ≤ cfg.maxCerts then .ok (.x5chain l) else .err .bufferTooSmall := by
  unfold recvChain
  split
  · rw [if_neg (by omega)]
  · rfl

theorem recvHash_eq (cfg : Config) (a fp : Bytes) :
    recvHash cfg a fp = if a.length ≤ cfg.maxHashAlg + 1 then .ok (.x5t [] fp (.bstr a)) else .err .bufferTooSmall := by
  unfold recvHash
  split
  · rw [if_neg (by omega)]
  · rfl

end Verif
