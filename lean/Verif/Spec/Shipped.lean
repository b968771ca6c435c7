import Verif.Spec.ExampleFlow
import Verif.Spec.WalletStore
/-!
# What the two examples must do with each other
-/

set_option autoImplicit false

namespace Oid4vp.Spec

open Oid4vp.Example Oid4vp.WalletApp

/-- The wallet can open requests signed with ES256 and a certificate chain; its own address has no
query. Nothing is said about what it holds and whether it may present it. -/
structure OpensRequests (a : Adapter) : Prop where
  header : ∀ chain : List Str, a.wallet.ssiHeader (utf8 (jPrint (.obj [(c!"alg", .str c!"ES256"),
    (c!"typ", .str c!"oauth-authz-req+jwt"), (c!"x5c", .arr (chain.map .str))]))) = .ok (c!"ES256", true)
  endpoint : a.endpoint.query = none ∨ a.endpoint.query = some []

/-- The wallet holds a PID. -/
def HoldsPid (a : Adapter) : Prop := ∃ c ∈ a.store, IsPid a.lower c

/-- The wallet holds what the file in the repository says. -/
def Shipped (a : Adapter) : Prop := IsStore embeddedText a.store

/-- The wallet sends nothing and answers that it may not or cannot present. -/
def Denied (ord : MapOrder) (a : Adapter) (prm : Params) : Prop :=
  posts (a.process ord prm).1 = [] ∧ (a.process ord prm).2 = .failure 400 c!"access_denied" prm.state

end Oid4vp.Spec
