import Verif.Spec.Delivery
import Verif.Spec.Example
/-!
# Clients that are known by the address they are answered at

OpenID4VP 1.0, section 5.9.3: with the prefix `redirect_uri`, the rest of the client identifier is the
address that responses are sent to.
-/

set_option autoImplicit false

namespace Oid4vp.Spec

/-- A client known by a redirect address is answered at that address. -/
def KeepsRedirectRule (a : RequestObject) : Prop := ∀ u, RedirectClient a u → a.returnUri.print = u

/-- The verifier is known by the redirect address `c`. -/
def KnownBy (v : Verifier) (c : Str) : Prop := v.client.id.val = c!"redirect_uri:" ++ c

/-- The wallet's check of such clients accepts only requests that keep the rule. -/
def ChecksRedirects (w : Wallet) : Prop :=
  ∀ a jwt, w.verifier .redirectUri a jwt = .ok () → KeepsRedirectRule a

/-- One of the verifier's sessions, with responses to be posted. -/
def PostedSession (v : Verifier) (s : Session) : Prop :=
  (∃ b, Built v b s) ∧ IsDirectPost s.requestObject.responseMode

end Oid4vp.Spec
