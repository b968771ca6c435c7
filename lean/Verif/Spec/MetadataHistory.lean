import Verif.Model.Params
/-!
# Histories of wallet metadata
-/

set_option autoImplicit false

namespace Oid4vp.Spec

/-- What the owner of wallet metadata can do with it. -/
inductive MetaOp where
  /-- replace the formats through `vp_formats_supported_mut` -/
  | formats (f : VpFormatsSupported)
  | addAlg (alg : Str)
  | addPrefixes (ps : List ClientIdScheme)
  /-- change the parameters through `DerefMut` -/
  | edit (f : UntypedObject → UntypedObject)
  /-- convert to parameters and back (what serialising and deserialising does) -/
  | convert

/-- One step. -/
def MetaOp.run : MetaOp → WalletMetadata → Res WalletMetadata
  | .formats f, w => .ok (w.setVpFormats f)
  | .addAlg a, w => w.addSigningAlg a
  | .addPrefixes ps, w => w.addClientIdPrefixes ps
  | .edit f, w => .ok (w.setInner (f w.inner))
  | .convert, w => WalletMetadata.ofObject w.toObject

/-- A history: the steps one after the other; one that fails ends it. -/
inductive Becomes : List MetaOp → WalletMetadata → WalletMetadata → Prop where
  | done (w : WalletMetadata) : Becomes [] w w
  | step {op : MetaOp} {ops : List MetaOp} {w w' w'' : WalletMetadata}
      (h : op.run w = .ok w') (t : Becomes ops w' w'') : Becomes (op :: ops) w w''

/-- The parameters name the endpoint that the accessor reports. -/
def EndpointAgrees (w : WalletMetadata) : Prop :=
  UntypedObject.get AuthorizationEndpoint w.inner = some (.ok w.authorizationEndpoint)

/-- The step leaves the member with the endpoint alone. -/
def MetaOp.SparesEndpoint : MetaOp → Prop
  | .edit f => ∀ o, mget c!"authorization_endpoint" (f o) = mget c!"authorization_endpoint" o
  | _ => True

/-- Two addresses for which a wallet takes requests alike: no authority counts as the empty one. -/
def SamePlace (u v : Url) : Prop := u.authority.getD [] = v.authority.getD [] ∧ u.path = v.path

end Oid4vp.Spec
