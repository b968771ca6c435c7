import Verif.Spec.VerifierTasks
/-!
# What can be told about some sessions of the example verifier
-/

set_option autoImplicit false

namespace Oid4vp.Spec
open VerifierTasks

/-- The request is about the session: it asks for its request object or its status, delivers a response for it, or
is one for a new session that gets this id. -/
def Concerns (v : Uuid) (x : Arrival) : Prop :=
  Asks v x.2.2 ∨ Polls v x.2.2 ∨ (∃ r, Submits v r x.2.2) ∨ (Begins x.2.2 ∧ x.1 = v)

/-- The request is about none of the sessions. -/
def Elsewhere (mine : Uuid → Prop) (x : Arrival) : Prop := ∀ v, mine v → ¬ Concerns v x

/-- Two moves between which there is no difference but in a request about none of the sessions. -/
def LikeMove (mine : Uuid → Prop) : Move → Move → Prop
  | .arrive x, .arrive y => x = y ∨ (Elsewhere mine x ∧ Elsewhere mine y)
  | .step i b, .step j c => i = j ∧ b = c
  | .abandon i, .abandon j => i = j
  | _, _ => False

end Oid4vp.Spec
