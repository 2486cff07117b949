import Verif.Model.Protocol
/-!
# Vocabulary for the answer to a test request
-/
namespace Owamp.Spec.TestRequest
open Owamp.Ctl

/-- Two socket addresses name the same host: same family and same IP address. -/
def SameHost : SockAddr → SockAddr → Prop
  | .v4 a _, .v4 b _ => a = b
  | .v6 a _ _, .v6 b _ _ => a = b
  | _, _ => False

instance (a b : SockAddr) : Decidable (SameHost a b) := by
  unfold SameHost; split <;> infer_instance

end Owamp.Spec.TestRequest
