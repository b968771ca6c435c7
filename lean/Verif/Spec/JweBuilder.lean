import Verif.Model.JweBuilder
import Verif.Spec.Builder
import Verif.Spec.Jwe

/-! # What the calls of a JWE builder say -/

set_option autoImplicit false

namespace Oid4vp.Spec

/-- The payload a call gives. -/
def payloadGiven : JweCall → Option Json
  | .payload p => some p
  | _ => none

/-- The key a call gives, as a key or as JSON of one. -/
def keyGiven : JweCall → Option (List (Str × Json))
  | .key k => some k
  | .keyJson (.obj k) => some k
  | _ => none

/-- The key agreement algorithm a call gives. -/
def algGiven : JweCall → Option Str
  | .alg a => some a
  | _ => none

/-- The content encryption a call gives. -/
def encGiven : JweCall → Option Str
  | .enc e => some e
  | _ => none

/-- The key id a call gives. -/
def kidGiven : JweCall → Option Str
  | .kid k => some k
  | _ => none

/-- The call gives JSON as it comes out of a document, if any. -/
def ProperCall : JweCall → Prop
  | .keyJson j => j.WF FltLit ∧ j.depth ≤ 127
  | _ => True

end Oid4vp.Spec
