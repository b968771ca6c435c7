import Verif.Model.AuthRequest

/-! # The members of a request object that decide about it -/

set_option autoImplicit false

namespace Oid4vp.Spec

/-- The names of the members that a decision about a request looks at. -/
def decisive : List Str :=
  [c!"client_id", c!"client_metadata", c!"nonce", c!"redirect_uri", c!"response_mode", c!"response_type",
    c!"response_uri"]

/-- The same members, be it none, under all of these names. -/
def Alike (o o' : UntypedObject) : Prop := ∀ k ∈ decisive, mget k o' = mget k o

/-- The same except under one name. -/
def DifferOnlyIn (k : Str) (o o' : UntypedObject) : Prop := ∀ k', k' ≠ k → mget k' o' = mget k' o

/-- The method does not tell the two requests apart. -/
def SameToMethods (w : Wallet) (a a' : RequestObject) (jwt jwt' : Option Str) : Prop :=
  ∀ m, w.verifier m a' jwt' = w.verifier m a jwt

/-- The wallet's methods look at a request only by its client identifier and its token. -/
def ByClientId (w : Wallet) : Prop :=
  ∀ m a a' jwt, a'.clientId = a.clientId → w.verifier m a' jwt = w.verifier m a jwt

/-- The same outcome: both refused, for the same reason, or both accepted. -/
inductive SameVerdict : Res RequestObject → Res RequestObject → Prop
  | accepted (a a' : RequestObject) : SameVerdict (.ok a) (.ok a')
  | refused (e : Err) : SameVerdict (.error e) (.error e)

end Oid4vp.Spec
