import Verif.Model.VerifierMain
import Verif.Spec.CliHttp
import Verif.Spec.ExampleFlow
import Verif.Spec.JsonText
import Verif.Spec.Signed
/-!
# What the example verifier prints when it starts
-/

set_option autoImplicit false

namespace Oid4vp.Spec
open VerifierApp VerifierMain

/-- The program was started with these arguments, after any earlier starts on the same cache directory,
and printed these lines. As for `Started`, certificates are drawn for the host of the public address,
can be read from and written as DER, and the keys sign with ES256. -/
structure Launched (p : Pki) (numbers : Signer → KeyNumbers) (rs : List Run) (draw : Draw) (w : Bool)
    (key : EncKey) (args : Args) (host : Str) (app : App) (out : List Str) : Prop where
  der : ∀ c, ∃ b, p.x509.toDer c = .ok b ∧ p.x509.fromDer b = some c
  names : ∀ r ∈ rs ++ [⟨host, draw, w⟩], DrawsName p r
  es256 : ∀ b s, p.key b = .ok s → s.alg = .ok c!"ES256"
  address : args.publicUrl.WF
  host : HostIs args.publicUrl host
  ran : (VerifierMain.main p numbers draw w key args (runs p [] rs).1).2 = .ok (app, out)

/-- The box has a line with this label and this value, and no other line with this label. -/
def BoxShows (out : List Str) (label value : Str) : Prop :=
  (∃ gap, (∀ c ∈ gap, c = ' ') ∧ c!"║  " ++ label ++ value ++ gap ++ c!" ║" ∈ out) ∧
    ∀ t, c!"║  " ++ label ++ t ∈ out → ∃ gap, (∀ c ∈ gap, c = ' ') ∧ t = value ++ gap ++ c!" ║"

/-- An endpoint of sessions is listed: the method, and the address with `{session_id}` for the id. -/
def Lists (out : List Str) (method address : Str) : Prop :=
  c!"║    " ++ method ++ address ++ c!"{session_id}" ∈ out

/-- The lines from the first that is an opening brace to the first that is a closing brace after it. -/
def BlockIs (out block : List Str) : Prop :=
  ∃ before inner after, out = before ++ block ++ after ∧ block = c!"{" :: (inner ++ [c!"}"]) ∧
    c!"{" ∉ before ∧ c!"}" ∉ inner

/-- The configuration for the conformance suite: the key with its private number, and its certificate. -/
def suiteConfig (n : KeyNumbers) (der : Bytes) : Json :=
  .obj [(c!"d", .str (base64 base64Url n.d)), (c!"x", .str (base64 base64Url n.x)),
    (c!"x5c", .arr [.str (base64Padded der)]), (c!"y", .str (base64 base64Url n.y))]

/-- A compact JWS with this header and a signature made with this function. -/
def SignedWith (sign : Bytes → Bytes) (header : Json) (jwt : Str) : Prop :=
  ∃ h p, JsonPart header h ∧
    jwt = h ++ c!"." ++ p ++ c!"." ++
      base64 base64Url (sign ((h ++ c!"." ++ p).flatMap String.utf8EncodeChar))

/-- An address that ends in one `/` (or has no path), with neither query nor fragment. -/
def PlainBase (u : Url) : Prop :=
  u.query = none ∧ u.fragment = none ∧
    (u.path = [] ∨ ∃ d, u.path = d ++ ['/'] ∧ ∀ e, d ≠ e ++ ['/'])

/-- A text without the slashes it ends in. -/
def WithoutSlashes (s t : Str) : Prop :=
  (∃ n, s = t ++ List.replicate n '/') ∧ ∀ e, t ≠ e ++ ['/']

end Oid4vp.Spec
