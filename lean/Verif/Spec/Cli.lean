import Verif.Spec.Uuid
import Verif.Model.Cli
/-!
# What the command-line verifier must ask for
-/

set_option autoImplicit false

namespace Oid4vp.Spec

/-- The credential types of the command line, and what each of them asks for: one of these
credential queries, by id and format. -/
def credentialTypes : List (Str × Str × ClaimFormatDesignation) :=
  [(c!"mdl", c!"mdl_0", .msoMDoc),
   (c!"ldp_vc", c!"ldp_vc_0", .ldpVc),
   (c!"jwt_vc", c!"jwt_vc_0", .jwtVcJson),
   (c!"vcdm2_sd_jwt", c!"vcdm2_sd_jwt_0", .other c!"vcdm2_sd_jwt"),
   (c!"ldp_or_mdl", c!"ldp_vc_0", .ldpVc),
   (c!"ldp_or_mdl", c!"mdl_0", .msoMDoc)]

/-- The type asks for (at least one of) this credential. -/
def AsksFor (type id : Str) (format : ClaimFormatDesignation) : Prop :=
  (type, id, format) ∈ credentialTypes

/-- The type is known. -/
def KnownType (type : Str) : Prop := ∃ id format, AsksFor type id format

/-- What a type is called. -/
inductive TypeName : Str → Str → Prop
  | mdl : TypeName c!"mdl" c!"mDL"
  | ldp : TypeName c!"ldp_vc" c!"LDP VC"
  | jwt : TypeName c!"jwt_vc" c!"JWT VC"
  | sdJwt : TypeName c!"vcdm2_sd_jwt" c!"VCDM2 SD-JWT"
  | either : TypeName c!"ldp_or_mdl" c!"(LDP VC OR mDL)"

/-- The two types ask for a credential under the same id. -/
def Overlap (a b : Str) : Prop := ∃ id f g, AsksFor a id f ∧ AsksFor b id g

/-- The credential sets of a query are satisfied by the available answers: every required set has an
option all of whose credentials are available (OpenID4VP 1.0, section 6.2). -/
def SetsSatisfied (sets : List CredentialSetQuery) (avail : Str → Prop) : Prop :=
  ∀ s ∈ sets, s.isRequired = true → ∃ o ∈ s.options.vec, ∀ id ∈ o, avail id

/-- The security methods named for a format. -/
def methodsFor : ClaimFormatDesignation → List Str
  | .ldpVc => [c!"Ed25519Signature2018", c!"Ed25519Signature2020", c!"JsonWebSignature2020",
      c!"DataIntegrityProof", c!"ecdsa-rdfc-2019", c!"ecdsa-sd-2023", c!"ecdsa-jcs-2019"]
  | .jwtVcJson => [c!"ES256", c!"ES384", c!"ES512", c!"EdDSA"]
  | .other name => if name = c!"vcdm2_sd_jwt" then [c!"ES256", c!"ES384", c!"EdDSA"] else []
  | _ => []

end Oid4vp.Spec
