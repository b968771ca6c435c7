import Verif.Model.WalletMain
import Verif.Spec.Shipped
import Verif.Spec.WalletApp
import Verif.Spec.VerifierMain
/-!
# What the example wallet does and prints when it starts
-/

set_option autoImplicit false

namespace Oid4vp.Spec
open WalletMain

/-- The public address is this text: the one given, or `http` with host and port. -/
def PublicText (args : WalletMain.Args) (t : Str) : Prop :=
  args.publicUrl = some t ∨
    (args.publicUrl = none ∧ t = c!"http://" ++ args.host ++ c!":" ++ Decimal args.port.toNat)

/-- The text is a web address without query and fragment, written as `Url` writes it, except that the path
may be left out. -/
def PlainAddress (t scheme auth path : Str) : Prop :=
  t = scheme ++ c!"://" ++ auth ++ path ∧ auth ≠ [] ∧ ∃ whole,
    UrlText t ⟨scheme, some auth, whole, none, none⟩ ∧ (whole = path ∨ (path = [] ∧ whole = c!"/"))

/-- The wallet's program was started with these arguments and printed these lines. -/
def WalletLaunched (parts : Parts) (args : WalletMain.Args) (app : WalletApp.App) (out : List Str) : Prop :=
  WalletMain.main parts args = .ok (app, out)

/-- An address is listed. -/
def ListsAddress (out : List Str) (address : Str) : Prop := c!"║    " ++ address ∈ out

/-- A GET request for a path, without a body. -/
def Visit (c : WalletApp.Call) (path : Str) : Prop := c.method = c!"GET" ∧ c.path = path ∧ c.body = []

end Oid4vp.Spec
