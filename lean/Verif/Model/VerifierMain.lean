import Verif.Model.VerifierApp
/-!
# The start of the example verifier, and what it prints

examples/verifier-conformance-adapter/main.rs and the display configuration of
examples/verifier-conformance-adapter/server/state.rs. Not modelled: the reading of the command line and
of the environment, logging, and the socket (main.rs:15-37, 43-49, 57-63).
-/

set_option autoImplicit false

namespace Oid4vp.VerifierMain
open VerifierApp

/-- The numbers of a P-256 key as bytes: the point and the private number (`to_encoded_point`,
`to_bytes`, crate `p256`, as used in examples/verifier-conformance-adapter/server/state.rs:271-276). -/
structure KeyNumbers where
  x : Bytes
  y : Bytes
  d : Bytes

/-- `OidfConfig` (examples/verifier-conformance-adapter/server/state.rs:43-50). -/
structure Oidf where
  x : Str
  y : Str
  d : Str
  x5c : Str
  clientId : Str

/-- `build_oidf_config` (examples/verifier-conformance-adapter/server/state.rs:270-281). The numbers of
the key are given instead of the key. -/
def buildOidf (n : KeyNumbers) (der : Bytes) (domain : Str) : Oidf where
  x := b64Enc .url n.x
  y := b64Enc .url n.y
  d := b64Enc .url n.d
  x5c := b64EncPad .std der
  clientId := domain

/-- The arguments that matter here (`Args`, examples/verifier-conformance-adapter/main.rs:26-36). -/
structure Args where
  publicUrl : Url
  responseMode : Str

/-- `use_encrypted_response` (examples/verifier-conformance-adapter/main.rs:51). -/
def encrypted (args : Args) : Bool := args.responseMode == c!"direct_post.jwt"

/-- `{:<60}`: filled up with spaces to 60 characters (examples/verifier-conformance-adapter/main.rs:77-79). -/
def pad60 (s : Str) : Str := s ++ List.replicate (60 - s.length) ' '

/-- A line of the box with text padded to 60 characters
(examples/verifier-conformance-adapter/main.rs:77-79). -/
def field (label value : Str) : Str := c!"║  " ++ (label ++ (pad60 value ++ c!" ║"))

/-- A horizontal line or an empty line of the box (examples/verifier-conformance-adapter/main.rs:73-90). -/
def rule (left fill right : Char) : Str := left :: (List.replicate 78 fill ++ [right])

/-- `print_startup_banner` (examples/verifier-conformance-adapter/main.rs:68-100), line by line. -/
def banner (args : Args) (o : Oidf) : List Str :=
  let base := trimEndChar '/' args.publicUrl.print
  [[],
   rule '╔' '═' '╗',
   c!"║                      OID4VP 1.0 Verifier Adapter                             ║",
   rule '╠' '═' '╣',
   rule '║' ' ' '║',
   field c!"Public URL:    " base,
   field c!"Client ID:     " o.clientId,
   field c!"Response Mode: " args.responseMode,
   rule '║' ' ' '║',
   rule '╠' '═' '╣',
   c!"║  Endpoints:                                                                  ║",
   c!"║    POST " ++ (base ++ c!"/initiate"),
   c!"║    GET  " ++ (base ++ c!"/request/{session_id}"),
   c!"║    POST " ++ (base ++ c!"/response/{session_id}"),
   c!"║    GET  " ++ (base ++ c!"/status/{session_id}"),
   rule '║' ' ' '║',
   rule '╠' '═' '╣',
   c!"║  OIDF Test Configuration (signing_jwk) - Copy the JSON below:               ║",
   rule '╚' '═' '╝',
   [],
   c!"{",
   c!"  \"x\": \"" ++ (o.x ++ c!"\","),
   c!"  \"y\": \"" ++ (o.y ++ c!"\","),
   c!"  \"d\": \"" ++ (o.d ++ c!"\","),
   c!"  \"x5c\": [\"" ++ (o.x5c ++ c!"\"]"),
   c!"}",
   [],
   []]

/-- `main` up to the socket (examples/verifier-conformance-adapter/main.rs:51-55): the state and the lines
printed. The display configuration, which `AppState::new` makes from the domain and the certificate it
uses (examples/verifier-conformance-adapter/server/state.rs:74-83), is made here. `numbers` are those of a
key. -/
def main (p : Pki) (numbers : Signer → KeyNumbers) (draw : Draw) (writable : Bool) (key : EncKey)
    (args : Args) (f : Files) : Files × Res (App × List Str) :=
  match start p draw writable key args.publicUrl (encrypted args) f with
  | (f', .error e) => (f', .error e)
  | (f', .ok app) => (f', match hostStr args.publicUrl with
    | none => .error .missing
    | some domain => match (getOrGenerate p draw writable domain f).2 with
      | .error e => .error e
      | .ok i => .ok (app, banner args (buildOidf (numbers i.key) i.der domain)))

end Oid4vp.VerifierMain
