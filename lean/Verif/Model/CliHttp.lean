import Verif.Model.Cli
import Verif.Model.JsonPretty
import Verif.Model.VerifierHttp
/-!
# The command-line verifier as a program: its HTTP server and what it prints
(examples/cli-verifier/main.rs)
-/

set_option autoImplicit false

namespace Oid4vp.CliHttp
open WalletApp (Call)
open VerifierHttp (segmentAfter sessionOf maxBody)
open Cli (Display)

/-! ## What is printed -/

/-- `println!`. -/
def line (s : Str) : Str := s ++ ['\n']

/-- The rule around results (examples/cli-verifier/main.rs:611). -/
def rule : Str := c!"========================================"

/-- `print_status_update` (examples/cli-verifier/main.rs:636-676). -/
def statusText : Display → Str
  | .initializing => line c!"[*] Initializing..."
  | .waitingForWallet => line c!"[*] Status: WAITING FOR WALLET"
  | .requestFetched => line [] ++ line c!"[*] Status: REQUEST FETCHED" ++
      line c!"[*] Wallet retrieved the authorization request" ++
      line c!"[*] Waiting for presentation submission..."
  | .responseReceived => line [] ++ line c!"[*] Status: PROCESSING RESPONSE" ++
      line c!"[*] Verifying presentation..."
  | .success info => line [] ++ line rule ++ line c!"[+] Status: SUCCESS" ++ line rule ++ line [] ++
      line c!"Verification completed successfully!" ++ line [] ++ line (jPretty 0 info) ++ line []
  | .failed reason => line [] ++ line rule ++ line c!"[-] Status: FAILED" ++ line rule ++ line [] ++
      line (c!"Verification failed: " ++ reason) ++ line []

/-- `args.credential.join(", ")` (examples/cli-verifier/main.rs:695). -/
def joinComma : List Str → Str
  | [] => []
  | [p] => p
  | p :: ps => p ++ (c!", " ++ joinComma ps)

/-- The command line (examples/cli-verifier/main.rs:59-81). -/
structure Args where
  port : Nat
  publicUrl : Url
  credential : List Str
  noQr : Bool

/-- Printed first (examples/cli-verifier/main.rs:609-615,691-696). -/
def preamble (args : Args) : Str :=
  line [] ++ line rule ++ line c!"   OID4VP CLI Verifier - Protocol Test" ++ line rule ++ line [] ++
  line c!"[*] Initializing verifier..." ++ line (c!"[*] Public URL: " ++ args.publicUrl.print) ++
  line (c!"[*] Listening on port: " ++ natStr args.port) ++
  line (c!"[*] Credential types: " ++ joinComma args.credential) ++ line []

/-- Printed when the request is built (examples/cli-verifier/main.rs:756-770). `qr` draws the QR code
of a text (crate `qrcode`), if that is possible (examples/cli-verifier/main.rs:617-634). -/
def waitingText (qr : Str → Option Str) (args : Args) (uuid : Uuid) (desc : Str) (url : Url) : Str :=
  line (c!"[*] Session ID: " ++ uuid.print) ++ line (c!"[*] Requesting: " ++ desc) ++ line [] ++
  (if args.noQr then [] else
    line c!"Scan this QR code with your wallet app:" ++ line [] ++
      (match qr url.print with
        | none => []
        | some code => line code)) ++
  line c!"Authorization URL:" ++ line url.print ++ line [] ++
  line c!"----------------------------------------" ++ statusText .waitingForWallet

/-- Printed at the end (examples/cli-verifier/main.rs:789-790). -/
def farewell : Str := line [] ++ line c!"[*] Verification complete. Shutting down..."

/-! ## The server -/

/-- The body of an answer; `none` also stands for the plain texts of `axum`'s refusals. -/
inductive Body where
  | none
  | text (t : Str)
  | json (doc : Json)
  | jwt (t : Str)
deriving DecidableEq, Repr

/-- Status and body of an answer. -/
structure Reply where
  status : Nat
  body : Body
deriving DecidableEq, Repr

/-- `AppError` as an answer (examples/cli-verifier/main.rs:278-289): only the outermost context is
told. -/
def failure (context : Str) : Reply := ⟨500, .text (c!"Error: " ++ context)⟩

/-- `GET /request/:session_id` (examples/cli-verifier/main.rs:194-217): the store, what is printed
and the answer. -/
def fetch (segment : Str) (σ : Store) : Store × List Display × Reply :=
  match sessionOf segment with
  | none => (σ, [], ⟨400, .none⟩)
  | some session => match Uuid.parse session with
    | none => (σ, [], failure c!"Invalid session ID")
    | some u => match retrieve u σ with
      | (σ, .error _) => (σ, [], failure c!"Failed to retrieve authorization request")
      | (σ, .ok jwt) => (σ, [.requestFetched], ⟨200, .jwt jwt⟩)

/-- `POST /response/:session_id` (examples/cli-verifier/main.rs:220-272) behind the extractor
`String`. The session is looked up before the outcome is decided, printed and notified. -/
def respond (ord : MapOrder) (c : Call) (segment : Str) (σ : Store) : Store × List Display × Reply :=
  match sessionOf segment with
  | none => (σ, [], ⟨400, .none⟩)
  | some session =>
    if maxBody < c.body.length then (σ, [], ⟨413, .none⟩)
    else match utf8Dec c.body with
      | none => (σ, [], ⟨400, .none⟩)
      | some _ => match Uuid.parse session with
        | none => (σ, [], failure c!"Invalid session ID")
        | some u => match AuthorizationResponse.ofForm c.body with
          | .error _ => (σ, [.responseReceived], failure c!"Failed to parse authorization response")
          | .ok r => match σ.get u with
            | none => (σ, [.responseReceived], failure c!"Failed to verify response")
            | some _ => match verifyResponse u r (fun _ r => Cli.outcome ord r) σ with
              | (σ, .error _) => (σ, [.responseReceived, Cli.displayOf (Cli.outcome ord r)],
                  failure c!"Failed to verify response")
              | (σ, .ok ()) => (σ, [.responseReceived, Cli.displayOf (Cli.outcome ord r)],
                  ⟨200, .json (.obj [])⟩)

/-- The router with its layers (examples/cli-verifier/main.rs:304-311): an unknown path is 404,
another method 405, HEAD is GET without the body (`axum`), every OPTIONS request is a preflight
request (`tower_http`). -/
def serve (ord : MapOrder) (c : Call) (σ : Store) : Store × List Display × Reply :=
  if c.method = c!"OPTIONS" then (σ, [], ⟨200, .none⟩)
  else match segmentAfter c!"/request/" c.path with
    | some seg =>
      if c.method = c!"GET" then fetch seg σ
      else if c.method = c!"HEAD" then
        match fetch seg σ with
        | (σ, shown, rep) => (σ, shown, { rep with body := .none })
      else (σ, [], ⟨405, .none⟩)
    | none => match segmentAfter c!"/response/" c.path with
      | some seg => if c.method = c!"POST" then respond ord c seg σ else (σ, [], ⟨405, .none⟩)
      | none => (σ, [], ⟨404, .none⟩)

/-- Printing one of these notifies completion (examples/cli-verifier/main.rs:248-250,259-261). -/
def final : Display → Bool
  | .success _ => true
  | .failed _ => true
  | _ => false

/-- The server until completion is notified (examples/cli-verifier/main.rs:782-796): the store, what
was printed, and whether it has stopped. Requests are handled one after the other; `CliTasks` interleaves
them. -/
def run (ord : MapOrder) (σ : Store) : List Call → Store × List Display × Bool
  | [] => (σ, [], false)
  | c :: cs => match serve ord c σ with
    | (σ, shown, _) =>
      if shown.any final then (σ, shown, true)
      else match run ord σ cs with
        | (σ, shown', stopped) => (σ, shown ++ shown', stopped)

/-- The program (examples/cli-verifier/main.rs:682-799): everything it prints, given the id and the
nonce it draws and the requests its server gets. Log output, the failure to bind the port and
interruption are not modelled. -/
def program (qr : Str → Option Str) (ord : MapOrder) (args : Args) (uuid : Uuid) (nonce : Str)
    (calls : List Call) : Str :=
  match Cli.start args.publicUrl args.credential uuid nonce, Cli.dcqlForTypes args.credential with
  | .ok (_, σ, url), .ok (_, desc) => match run ord σ calls with
    | (_, shown, stopped) => preamble args ++ waitingText qr args uuid desc url ++
        shown.flatMap statusText ++ if stopped then farewell else []
  | _, _ => preamble args

end Oid4vp.CliHttp
