import Verif.Spec.Chance

/-!
Questions to somebody who knows a key for HMAC, and to a hash function.
-/

namespace Cryptopy.Spec

/-- A question for the hash value of a string or for the tag of a message. -/
inductive HmacAsk where
  | hash (x : Bytes)
  | mac (m : Bytes)
  deriving DecidableEq

/-- The number of hash values asked for. -/
def HmacAsk.hashes : HmacAsk → ℕ
  | .hash _ => 1
  | .mac _ => 0

/-- The number of tags asked for. -/
def HmacAsk.macs : HmacAsk → ℕ
  | .hash _ => 0
  | .mac _ => 1

end Cryptopy.Spec
