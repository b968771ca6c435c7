import Verif.Spec.Request
import Verif.Spec.Codec
/-!
# Request URLs and query strings
-/

set_option autoImplicit false

namespace Oid4vp.Spec

/-- No parameter is called `k`. -/
def NoParam (k : Str) (l : List (Str × Str)) : Prop := ∀ v, (k, v) ∉ l

/-- There is exactly one parameter called `k`, and it has the value `v`. -/
def OnlyParam (k : Str) (l : List (Str × Str)) (v : Str) : Prop :=
  ∃ a b, l = a ++ (k, v) :: b ∧ NoParam k a ∧ NoParam k b

/-- `v` is the value of the last parameter called `k`. -/
def LastParam (k : Str) (l : List (Str × Str)) (v : Str) : Prop :=
  ∃ a b, l = a ++ (k, v) :: b ∧ NoParam k b

/-- The object holds exactly the parameters, as texts, the last of duplicates winning; the
parameter `client_id` is left out. -/
def HoldsParams (l : List (Str × Str)) (o : UntypedObject) : Prop :=
  Sorted o ∧ ∀ k j, mget k o = some j ↔ k ≠ c!"client_id" ∧ ∃ v, LastParam k l v ∧ j = .str v

/-- What a request URL with the parameters `l` means. -/
def MeansIndirection (l : List (Str × Str)) : RequestIndirection → Prop
  | .byValue jwt => OnlyParam c!"request" l jwt
  | .byReference uri => (¬ ∃ v, OnlyParam c!"request" l v) ∧
      ∃ s, OnlyParam c!"request_uri" l s ∧ Url.parse s = some uri
  | .direct o => (¬ ∃ v, OnlyParam c!"request" l v) ∧
      (¬ ∃ s uri, OnlyParam c!"request_uri" l s ∧ Url.parse s = some uri) ∧ HoldsParams l o

/-- The client identifier in the parameters: absent, or given once. -/
def MeansClientId (l : List (Str × Str)) : Option Str → Prop
  | none => NoParam c!"client_id" l
  | some c => OnlyParam c!"client_id" l c

/-- The requests a URL can carry. By value and by reference: all of them. Direct parameters:
texts only, none of them called `client_id` or `request`, and `request_uri` is not an address. -/
def Renderable : RequestIndirection → Prop
  | .byValue _ => True
  | .byReference _ => True
  | .direct o => (∀ p ∈ o, ∃ s, p.2 = .str s) ∧ mget c!"client_id" o = none ∧
      mget c!"request" o = none ∧ ∀ s u, mget c!"request_uri" o = some (.str s) → Url.parse s ≠ some u

/-- What the Rust types guarantee: a `Url` is a parsed URL, an object is a map. -/
def IndirectionRep : RequestIndirection → Prop
  | .byValue _ => True
  | .byReference u => u.WF
  | .direct o => Sorted o

/-- The text of a value that a form can hold. -/
def FormValue : Json → Str → Prop
  | .str t, s => s = t
  | .bool b, s => (b = true ∧ s = c!"true") ∨ (b = false ∧ s = c!"false")
  | .int i, s => IntegerText i s
  | .flt t, s => s = t
  | .null, _ => False
  | .arr _, _ => False
  | .obj _, _ => False

/-- The fields of a request in a URL: the client identifier, then the request, its address, or the
members of the object. -/
def RequestFields (r : AuthorizationRequest) (l : List (Str × Str)) : Prop :=
  ∃ rest, l = (r.clientId.toList.map fun c => (c!"client_id", c)) ++ rest ∧
    match r.indirection with
    | .byValue jwt => rest = [(c!"request", jwt)]
    | .byReference uri => rest = [(c!"request_uri", uri.print)]
    | .direct o => rest.map Prod.fst = o.map Prod.fst ∧
        ∀ p ∈ (o.map Prod.snd).zip (rest.map Prod.snd), FormValue p.1 p.2

end Oid4vp.Spec
