import Verif.Model.WalletApp
/-!
# The start of the example wallet, and what it prints

examples/wallet-conformance-adapter/main.rs. Not modelled: the reading of the command line and of the
environment, logging, the delay, and the socket (main.rs:18-52, 65-68, 87-106).
-/

set_option autoImplicit false

namespace Oid4vp.WalletMain
open Example WalletApp

/-- The arguments that matter here (`Cli`, examples/wallet-conformance-adapter/main.rs:18-44). -/
structure Args where
  port : UInt16
  host : Str
  publicUrl : Option Str
  noAutoConsent : Bool

/-- What the program takes from elsewhere: HTTP, text comparison, clock and signature of the holder, `josekit`,
the version, the coordinates of the holder's key, error texts, and which texts `SocketAddr` reads
(crate `std`; as used in examples/wallet-conformance-adapter/main.rs:80). -/
structure Parts where
  wallet : Wallet
  lower : Str → Str
  holder : Holder
  jose : Josekit
  text : HttpResponse → Option Str
  version : Str
  x : Bytes
  y : Bytes
  describe : Params → Answer → Str
  socket : Str → Bool

/-- `Config` (examples/wallet-conformance-adapter/config.rs:5-17), without port and host, which are not
used again. -/
structure Config where
  endpoint : Url
  publicUrl : Url

/-- The public address as text (examples/wallet-conformance-adapter/main.rs:53-57). -/
def publicText (args : Args) : Str :=
  match args.publicUrl with
  | some t => t
  | none => c!"http://" ++ (args.host ++ ':' :: natStr args.port.toNat)

/-- The configuration (examples/wallet-conformance-adapter/main.rs:59-65). -/
def config (args : Args) : Res Config :=
  match endpointOf args.publicUrl args.host (natStr args.port.toNat) with
  | none => .error .parse
  | some e => match Url.parse (publicText args) with
    | none => .error .parse
    | some u => .ok ⟨e, u⟩

/-- `{:<40}`: filled up with spaces to 40 characters
(examples/wallet-conformance-adapter/main.rs:118-123). -/
def pad40 (s : Str) : Str := s ++ List.replicate (40 - s.length) ' '

/-- A line of the box with text padded to 40 characters
(examples/wallet-conformance-adapter/main.rs:118-123). -/
def boxed (label value : Str) : Str := c!"║  " ++ (label ++ (pad40 value ++ c!" ║"))

/-- A horizontal line or an empty line of the box (examples/wallet-conformance-adapter/main.rs:114-131). -/
def bar (left fill right : Char) : Str := left :: (List.replicate 66 fill ++ [right])

/-- `print_startup_banner` (examples/wallet-conformance-adapter/main.rs:109-133), line by line. -/
def banner (c : Config) (count : Nat) : List Str :=
  let base := trimEndChar '/' c.publicUrl.print
  [[],
   bar '╔' '═' '╗',
   c!"║                   OID4VP 1.0 Wallet Adapter                      ║",
   bar '╠' '═' '╣',
   bar '║' ' ' '║',
   boxed c!"Public URL:           " base,
   boxed c!"Authorization:        " c.endpoint.print,
   boxed c!"Mock Credentials:     " (natStr count),
   bar '║' ' ' '║',
   bar '╠' '═' '╣',
   c!"║  Endpoints:                                                      ║",
   c!"║    " ++ (base ++ c!"/authorize"),
   c!"║    " ++ (base ++ c!"/.well-known/openid-configuration"),
   c!"║    " ++ (base ++ c!"/.well-known/jwks.json"),
   bar '║' ' ' '║',
   bar '╚' '═' '╝',
   []]

/-- The state (examples/wallet-conformance-adapter/main.rs:67-77,
examples/wallet-conformance-adapter/engine/headless.rs:40-46,
examples/wallet-conformance-adapter/server/state.rs:13-17). -/
def appOf (parts : Parts) (args : Args) (c : Config) (store : List Credential) : App where
  adapter := {
    wallet := parts.wallet
    endpoint := c.endpoint
    consent := !args.noAutoConsent
    store := store
    lower := parts.lower
    holder := parts.holder
    jose := parts.jose
    text := parts.text }
  publicUrl := c.publicUrl
  version := parts.version
  x := parts.x
  y := parts.y
  describe := parts.describe

/-- `main` up to the socket (examples/wallet-conformance-adapter/main.rs:46-84): the state and the lines
printed. The panic on an embedded file that cannot be read becomes an error. -/
def main (parts : Parts) (args : Args) : Res (App × List Str) :=
  match config args with
  | .error e => .error e
  | .ok c => match loadStore embeddedText with
    | .error e => .error e
    | .ok store =>
      if parts.socket (args.host ++ ':' :: natStr args.port.toNat) then
        .ok (appOf parts args c store, banner c store.length)
      else .error .parse

end Oid4vp.WalletMain
