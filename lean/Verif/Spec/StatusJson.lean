import Verif.Spec.WalletStore
import Verif.Model.Session
/-!
# The status of a session as JSON

A status without data is its name (or an object whose one member is that name, with the value
`null`); a finished session is an object whose one member `Complete` says how it ended.
-/

set_option autoImplicit false

namespace Oid4vp.Spec

/-- The three statuses without data. -/
inductive StatusName : Str → Status → Prop
  | byReference : StatusName c!"SentRequestByReference" .sentRequestByReference
  | sent : StatusName c!"SentRequest" .sentRequest
  | received : StatusName c!"ReceivedResponse" .receivedResponse

/-- An outcome, given how the fields of a structure and free values are written. -/
inductive OutcomeDoc (fields : List Str → Json → (Str → Option Json) → Prop) (value : Json → Json → Prop) :
    Json → Outcome → Prop
  | error {j f cause} : fields [c!"cause"] j f → Mandatory f c!"cause" IsText cause →
      OutcomeDoc fields value (.obj [(c!"Error", j)]) (.error cause)
  | failure {j f reason} : fields [c!"reason"] j f → Mandatory f c!"reason" IsText reason →
      OutcomeDoc fields value (.obj [(c!"Failure", j)]) (.failure reason)
  | success {j f info} : fields [c!"info"] j f → Mandatory f c!"info" value info →
      OutcomeDoc fields value (.obj [(c!"Success", j)]) (.success info)

/-- A status, likewise. -/
inductive StatusDoc (fields : List Str → Json → (Str → Option Json) → Prop) (value : Json → Json → Prop) :
    Json → Status → Prop
  | name {s st} : StatusName s st → StatusDoc fields value (.str s) st
  | nameNull {s st} : StatusName s st → StatusDoc fields value (.obj [(s, .null)]) st
  | complete {j o} : OutcomeDoc fields value j o → StatusDoc fields value (.obj [(c!"Complete", j)]) (.complete o)

/-- In a JSON value the fields are the members of an object. -/
def MemberFields (_ : List Str) (j : Json) (field : Str → Option Json) : Prop :=
  ∃ m, j = .obj m ∧ field = fun k => mget k m

/-- A status as a JSON value. -/
def StatusValue : Json → Status → Prop := StatusDoc MemberFields Eq

/-- A status as a JSON text. -/
def StatusText (t : Str) (s : Status) : Prop := ∃ j, RawText t j ∧ StatusDoc FieldsOnce Settles j s

end Oid4vp.Spec
