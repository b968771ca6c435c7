import Verif.Spec.RequestUrl
import Verif.Spec.Codec
/-!
# What a request URL shows of its session
-/

set_option autoImplicit false

namespace Oid4vp.Spec

/-- Whoever has the request URL can read this text off it: it is what follows the last `/` of the path of the address
under `request_uri`. -/
def ShowsId (url : Url) (t : Str) : Prop :=
  ∃ q l s addr dir, url.query = some q ∧ FormList (q.flatMap String.utf8EncodeChar) l ∧
    OnlyParam c!"request_uri" l s ∧ Url.parse s = some addr ∧ addr.path = dir ++ '/' :: t ∧ '/' ∉ t

/-- The same for the text of a request URL. -/
def TextShowsId (auth t : Str) : Prop := ∃ url, Url.parse auth = some url ∧ ShowsId url t

/-- The body of a response without any credential, which anyone can write. -/
def emptyBody : Bytes := utf8 c!"vp_token=%7B%7D"

end Oid4vp.Spec
