import Verif.Model.CliHttp
import Verif.Spec.CliFlow
import Verif.Spec.VerifierHttp
import Verif.Spec.CacheFile
/-!
# The command-line verifier as a program: its HTTP server and its console
-/

set_option autoImplicit false

namespace Oid4vp.Spec
open CliHttp
open Cli (Display)
open WalletApp (Call)

/-! ## The server -/

/-- What the program concludes from a response, and what it displays. -/
inductive CliVerdict (ord : MapOrder) : AuthorizationResponse → Outcome → Display → Prop
  | plain {r ids info} : ids = (ord r.vpToken.map).map Prod.fst →
      ObjectOf [(c!"credentials_received", .int r.vpToken.map.length),
        (c!"credential_query_ids", .arr (ids.map .str))] info →
      CliVerdict ord (.unencoded r) (.success info) (.success info)
  | encrypted {jwe reason} :
      reason = c!"Encrypted responses (direct_post.jwt) not supported in this example" →
      CliVerdict ord (.jwt jwe) (.failure reason) (.failed reason)

/-- What GET does: the sessions afterwards, what is displayed and the answer. -/
inductive CliGets (c : Call) (σ σ' : Store) : List Display → Nat → Body → Prop
  | undecodable {seg} : Under c!"/request/" c.path seg → (∀ t, ¬ SegmentText seg t) → Unchanged σ σ' →
      CliGets c σ σ' [] 400 .none
  | noId {seg t} : Under c!"/request/" c.path seg → SegmentText seg t → NoUuid t → Unchanged σ σ' →
      CliGets c σ σ' [] 500 (.text c!"Error: Invalid session ID")
  | unknown {seg t} : Under c!"/request/" c.path seg → SegmentText seg t → Unknown σ t → Unchanged σ σ' →
      CliGets c σ σ' [] 500 (.text c!"Error: Failed to retrieve authorization request")
  | firstFetch {seg t u s} : Under c!"/request/" c.path seg → SegmentText seg t → Known σ t u s →
      s.status = .sentRequestByReference → Became σ σ' u { s with status := .sentRequest } →
      CliGets c σ σ' [.requestFetched] 200 (.jwt s.jwt)
  | fetch {seg t u s} : Under c!"/request/" c.path seg → SegmentText seg t → Known σ t u s →
      s.status ≠ .sentRequestByReference → Unchanged σ σ' →
      CliGets c σ σ' [.requestFetched] 200 (.jwt s.jwt)

/-- What POST does. -/
inductive CliPosts (ord : MapOrder) (c : Call) (σ σ' : Store) : List Display → Nat → Body → Prop
  | undecodable {seg} : Under c!"/response/" c.path seg → (∀ t, ¬ SegmentText seg t) → Unchanged σ σ' →
      CliPosts ord c σ σ' [] 400 .none
  | large {seg t} : Under c!"/response/" c.path seg → SegmentText seg t → 2097152 < c.body.length →
      Unchanged σ σ' → CliPosts ord c σ σ' [] 413 .none
  | notText {seg t} : Under c!"/response/" c.path seg → SegmentText seg t → c.body.length ≤ 2097152 →
      (∀ t, c.body ≠ utf8 t) → Unchanged σ σ' → CliPosts ord c σ σ' [] 400 .none
  | noId {seg t b} : Under c!"/response/" c.path seg → SegmentText seg t → c.body.length ≤ 2097152 →
      c.body = utf8 b → NoUuid t → Unchanged σ σ' →
      CliPosts ord c σ σ' [] 500 (.text c!"Error: Invalid session ID")
  | noResponse {seg t u b} : Under c!"/response/" c.path seg → SegmentText seg t →
      c.body.length ≤ 2097152 → c.body = utf8 b → UuidText t u → (∀ r, ¬ Carries c.body r) → Unchanged σ σ' →
      CliPosts ord c σ σ' [.responseReceived] 500
        (.text c!"Error: Failed to parse authorization response")
  | unknown {seg t r} : Under c!"/response/" c.path seg → SegmentText seg t → c.body.length ≤ 2097152 →
      Unknown σ t → Carries c.body r → Unchanged σ σ' →
      CliPosts ord c σ σ' [.responseReceived] 500 (.text c!"Error: Failed to verify response")
  | taken {seg t u s r o d doc} : Under c!"/response/" c.path seg → SegmentText seg t →
      c.body.length ≤ 2097152 → Known σ t u s → Carries c.body r → CliVerdict ord r o d →
      Became σ σ' u { s with status := .complete o } → ObjectOf [] doc →
      CliPosts ord c σ σ' [.responseReceived, d] 200 (.json doc)

/-- What the server does with a request. -/
inductive CliServes (ord : MapOrder) (c : Call) (σ σ' : Store) : List Display → Reply → Prop
  | preflight : c.method = c!"OPTIONS" → Unchanged σ σ' → CliServes ord c σ σ' [] ⟨200, .none⟩
  | get {shown status body} : c.method = c!"GET" → CliGets c σ σ' shown status body →
      CliServes ord c σ σ' shown ⟨status, body⟩
  | head {shown status body} : c.method = c!"HEAD" → CliGets c σ σ' shown status body →
      CliServes ord c σ σ' shown ⟨status, .none⟩
  | post {shown status body} : c.method = c!"POST" → CliPosts ord c σ σ' shown status body →
      CliServes ord c σ σ' shown ⟨status, body⟩
  | otherMethod {seg} : c.method ≠ c!"OPTIONS" →
      (Under c!"/request/" c.path seg ∧ c.method ∉ [c!"GET", c!"HEAD"]) ∨
        (Under c!"/response/" c.path seg ∧ c.method ≠ c!"POST") →
      Unchanged σ σ' → CliServes ord c σ σ' [] ⟨405, .none⟩
  | nowhere : c.method ≠ c!"OPTIONS" → (∀ seg, ¬ Under c!"/request/" c.path seg) →
      (∀ seg, ¬ Under c!"/response/" c.path seg) → Unchanged σ σ' → CliServes ord c σ σ' [] ⟨404, .none⟩

/-! ## A run -/

/-- The request brings some text for a session id, as a response. -/
def Tries (c : Call) : Prop :=
  c.method = c!"POST" ∧ (∃ u, ForSession c!"/response/" u c) ∧ c.body.length ≤ 2097152 ∧ ∃ t, c.body = utf8 t

/-- The request delivers a response for a stored session. -/
def Concludes (σ : Store) (c : Call) : Prop := ∃ u r, σ.get u ≠ none ∧ Submits u r c

/-- What is displayed for a request that is not an answer, with these sessions stored. -/
inductive Told (σ : Store) (c : Call) : List Display → Prop
  | fetched {u} : Asks u c → σ.get u ≠ none → Told σ c [.requestFetched]
  | tried : Tries c → Told σ c [.responseReceived]
  | nothing : (∀ u, Asks u c → σ.get u = none) → ¬ Tries c → Told σ c []

/-! ## The console -/

/-- The text of lines. -/
def Lines (l : List Str) : Str := l.flatMap fun s => s ++ ['\n']

/-- The lines displayed for a status. The information of a success may fill several lines. -/
inductive StatusLines : Display → List Str → Prop
  | initializing : StatusLines .initializing [c!"[*] Initializing..."]
  | waiting : StatusLines .waitingForWallet [c!"[*] Status: WAITING FOR WALLET"]
  | fetched : StatusLines .requestFetched [c!"", c!"[*] Status: REQUEST FETCHED",
      c!"[*] Wallet retrieved the authorization request", c!"[*] Waiting for presentation submission..."]
  | received : StatusLines .responseReceived [c!"", c!"[*] Status: PROCESSING RESPONSE",
      c!"[*] Verifying presentation..."]
  | success {info t} : RawText t info → StatusLines (.success info) [c!"",
      c!"========================================", c!"[+] Status: SUCCESS",
      c!"========================================", c!"", c!"Verification completed successfully!", c!"", t, c!""]
  | failed {reason} : StatusLines (.failed reason) [c!"",
      c!"========================================", c!"[-] Status: FAILED",
      c!"========================================", c!"", c!"Verification failed: " ++ reason, c!""]

/-- Numbers in decimal. -/
def Decimal (n : Nat) : Str := (toString n).toList

/-- The lines of a list of texts in JSON: all but the last one end with a comma. -/
def ItemLines : List Str → List Str
  | [] => []
  | [s] => [c!"    " ++ Quoted s]
  | s :: t :: l => (c!"    " ++ Quoted s ++ c!",") :: ItemLines (t :: l)

/-- The lines of the information about a plain response. -/
def InfoLines (ids : List Str) : List Str :=
  [c!"{"] ++
  (if ids = [] then [c!"  \"credential_query_ids\": [],"]
    else [c!"  \"credential_query_ids\": ["] ++ ItemLines ids ++ [c!"  ],"]) ++
  [c!"  \"credentials_received\": " ++ Decimal ids.length, c!"}"]

/-- What the program says at the beginning. -/
def FirstLines (args : Args) : List Str :=
  [c!"", c!"========================================", c!"   OID4VP CLI Verifier - Protocol Test",
    c!"========================================", c!"", c!"[*] Initializing verifier...",
    c!"[*] Public URL: " ++ args.publicUrl.print, c!"[*] Listening on port: " ++ Decimal args.port,
    c!"[*] Credential types: " ++ List.intercalate c!", " args.credential, c!""]

/-- What the program says when it waits. -/
def WaitingLines (qr : Str → Option Str) (args : Args) (uuid : Uuid) (desc : Str) (url : Url) : List Str :=
  [c!"[*] Session ID: " ++ uuid.print, c!"[*] Requesting: " ++ desc, c!""] ++
  (if args.noQr then [] else [c!"Scan this QR code with your wallet app:", c!""] ++ (qr url.print).toList) ++
  [c!"Authorization URL:", url.print, c!"", c!"----------------------------------------",
    c!"[*] Status: WAITING FOR WALLET"]

/-- What the program says when it stops. -/
def LastLines : List Str := [c!"", c!"[*] Verification complete. Shutting down..."]

end Oid4vp.Spec
