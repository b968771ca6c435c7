import Verif.Model.Session
import Verif.Model.Verification
import Verif.Model.JweBuilder
import Verif.Model.Iso
import Verif.Model.StatusJson

/-! # Which functions of the model never panic

`NoPanic r` says that a result is not the error that stands for a panic. It is a class, so that the
instances below compose. -/

set_option autoImplicit false

namespace Oid4vp

/-- The result does not stand for a panic. -/
class NoPanic {α : Type} (r : Res α) : Prop where
  out : r ≠ .error .panic

namespace NoPanic

variable {α β : Type}

instance ok (a : α) : NoPanic (.ok a : Res α) := ⟨nofun⟩

instance pure (a : α) : NoPanic (Pure.pure a : Res α) := ⟨nofun⟩

theorem err {e : Err} (h : e ≠ .panic) : NoPanic (.error e : Res α) := ⟨fun x => h (by injection x)⟩

theorem of_eq {x : Res α} {e : Err} (h : x = .error e) (i : NoPanic x) : NoPanic (.error e : Res β) :=
  err fun he => i.out (by rw [h, he])

theorem of_snd {γ : Type} {x : γ × Res α} {t : γ} {e : Err} (h : x = (t, .error e)) (i : NoPanic x.2) :
    NoPanic (.error e : Res β) := err fun he => i.out (by rw [h, he])

instance map (f : α → β) (x : Res α) [i : NoPanic x] : NoPanic (x.map f) := by
  cases x with
  | ok a => exact ok _
  | error e => exact of_eq rfl i

instance bind (x : Res α) (f : α → Res β) [i : NoPanic x] [j : ∀ a, NoPanic (f a)] : NoPanic (x >>= f) := by
  cases x with
  | ok a => exact j a
  | error e => exact of_eq rfl i

instance ite (c : Prop) [Decidable c] (x y : Res α) [i : NoPanic x] [j : NoPanic y] :
    NoPanic (if c then x else y) := by
  split
  · exact i
  · exact j

end NoPanic

/-- Close a goal `NoPanic _` by the instances, by an error that is not a panic, by an error handed on from
a result that is no panic, or by cases. -/
macro "np" : tactic => `(tactic| repeat' (first
  | infer_instance
  | exact NoPanic.err (by decide)
  | (refine NoPanic.of_eq (by assumption) ?_; infer_instance)
  | (refine NoPanic.of_snd (by assumption) ?_; infer_instance)
  | assumption
  | split))

instance {α : Type} (o : Option α) : NoPanic (orErr .parse o) := by unfold orErr; np
instance {α : Type} (o : Option α) : NoPanic (orErr .decode o) := by unfold orErr; np

instance {α β : Type} (f : α → Res β) [h : ∀ a, NoPanic (f a)] (l : List α) : NoPanic (mapR f l) := by
  induction l with
  | nil => unfold mapR; np
  | cons a l ih => unfold mapR; np

/-! ## JSON -/

instance (c : Char) (r : Res (Str × Str)) [NoPanic r] : NoPanic (consR c r) := by unfold consR; np

instance np_pStr (f : Nat) (s : Str) : NoPanic (pStr f s) := by
  induction f generalizing s with
  | zero => unfold pStr; np
  | succ f ih =>
    cases s with
    | nil => unfold pStr; np
    | cons c cs => unfold pStr; np

instance (neg : Bool) (s : Str) : NoPanic (pUNum neg s) := by unfold pUNum; dsimp only; np
instance (s : Str) : NoPanic (pNum s) := by unfold pNum; np
instance (w : Str) (j : Json) (s : Str) : NoPanic (pWord w j s) := by unfold pWord; np
instance (b : Bool) (c : Char) (s : Str) : NoPanic (pSep b c s) := by unfold pSep; np

instance np_pElems (p : Str → Res (Json × Str)) [∀ s, NoPanic (p s)] (f : Nat) (b : Bool) (s : Str) :
    NoPanic (pElems p f b s) := by
  induction f generalizing b s with
  | zero => unfold pElems; np
  | succ f ih => unfold pElems; np

instance np_pMembers (p : Str → Res (Json × Str)) [∀ s, NoPanic (p s)] (f : Nat) (b : Bool) (s : Str) :
    NoPanic (pMembers p f b s) := by
  induction f generalizing b s with
  | zero => unfold pMembers; np
  | succ f ih => unfold pMembers; np

instance (s : Str) : NoPanic (pVal none s) := by unfold pVal; np
instance np_pVal (p : Str → Res (Json × Str)) [∀ s, NoPanic (p s)] (s : Str) :
    NoPanic (pVal (some p) s) := by unfold pVal; simp only; np

instance np_pJson (d : Nat) (s : Str) : NoPanic (pJson d s) := by
  induction d generalizing s with
  | zero => unfold pJson; np
  | succ d ih => unfold pJson; np

instance (s : Str) : NoPanic (jParseRaw s) := by unfold jParseRaw; np
instance (s : Str) : NoPanic (jParse s) := by unfold jParse; np
instance (b : Bytes) : NoPanic (jParseBytes b) := by unfold jParseBytes; np

/-! ## Typed values -/

instance (j : Json) : NoPanic (strOfJson j) := by unfold strOfJson; np
instance (j : Json) : NoPanic (boolOfJson j) := by unfold boolOfJson; np
instance (j : Json) : NoPanic (objOfJson j) := by unfold objOfJson; np
instance {α : Type} (f : Json → Res α) [∀ j, NoPanic (f j)] (j : Json) : NoPanic (vecOfJson f j) := by
  unfold vecOfJson; np
instance (j : Json) : NoPanic (strsOfJson j) := by unfold strsOfJson; np
instance (l : List Str) (j : Json) : NoPanic (structFields l j) := by unfold structFields; np
instance {α : Type} (k : Str) (f : Json → Res α) [∀ j, NoPanic (f j)] (m : List (Str × Json)) :
    NoPanic (fieldReq k f m) := by unfold fieldReq; np
instance {α : Type} (k : Str) (f : Json → Res α) [∀ j, NoPanic (f j)] (m : List (Str × Json)) :
    NoPanic (fieldOpt k f m) := by unfold fieldOpt; np

instance {α : Type} (l : List α) : NoPanic (NonEmptyVec.tryFrom l) := by unfold NonEmptyVec.tryFrom; np
instance {α : Type} (f : Json → Res α) [∀ j, NoPanic (f j)] (j : Json) : NoPanic (NonEmptyVec.ofJson f j) := by
  unfold NonEmptyVec.ofJson; np
instance (j : Json) : NoPanic (PathElem.ofJson j) := by unfold PathElem.ofJson; np
instance (j : Json) : NoPanic (ClaimValue.ofJson j) := by unfold ClaimValue.ofJson; np
instance (j : Json) : NoPanic (TrustedAuthorityType.ofJson j) := by unfold TrustedAuthorityType.ofJson; np
instance (j : Json) : NoPanic (ClaimsQuery.ofJson j) := by unfold ClaimsQuery.ofJson; np
instance (j : Json) : NoPanic (TrustedAuthoritiesQuery.ofJson j) := by unfold TrustedAuthoritiesQuery.ofJson; np
instance (j : Json) : NoPanic (CredentialSetQuery.ofJson j) := by unfold CredentialSetQuery.ofJson; np
instance (j : Json) : NoPanic (ClaimFormatDesignation.ofJson j) := by unfold ClaimFormatDesignation.ofJson; np
instance (m : List (Str × Json)) : NoPanic (metaField m) := by unfold metaField; np
instance (j : Json) : NoPanic (CredentialQuery.ofJson j) := by unfold CredentialQuery.ofJson; np
instance (j : Json) : NoPanic (DcqlQuery.ofJson j) := by unfold DcqlQuery.ofJson; np
instance (j : Json) : NoPanic (ClaimFormatMap.ofJson j) := by unfold ClaimFormatMap.ofJson; np
instance (j : Json) : NoPanic (Url.ofJson j) := by unfold Url.ofJson; np
instance (j : Json) : NoPanic (ClientIdScheme.ofJson j) := by unfold ClientIdScheme.ofJson; np
instance (j : Json) : NoPanic (VpTokenItem.ofJson j) := by unfold VpTokenItem.ofJson; np
instance (p : Str × Json) : NoPanic (VpToken.memberOfJson p) := by unfold VpToken.memberOfJson; np
instance (j : Json) : NoPanic (VpToken.ofJson j) := by unfold VpToken.ofJson; np

/-! ## Parameters -/

/-- Reading the parameter never panics. -/
class CalmParameter (α : Type) [TypedParameter α] : Prop where
  calm : ∀ j, NoPanic (TypedParameter.ofJson j : Res α)

instance (α : Type) [TypedParameter α] [i : CalmParameter α] (j : Json) :
    NoPanic (TypedParameter.ofJson j : Res α) := i.calm j

instance : CalmParameter ClientId := ⟨fun _ => by simp only [TypedParameter.ofJson]; np⟩
instance : CalmParameter ClientMetadata := ⟨fun _ => by simp only [TypedParameter.ofJson]; np⟩
instance : CalmParameter Nonce := ⟨fun _ => by simp only [TypedParameter.ofJson]; np⟩
instance : CalmParameter Audience := ⟨fun _ => by simp only [TypedParameter.ofJson]; np⟩
instance : CalmParameter RedirectUri := ⟨fun _ => by simp only [TypedParameter.ofJson]; np⟩
instance : CalmParameter ResponseUri := ⟨fun _ => by simp only [TypedParameter.ofJson]; np⟩
instance : CalmParameter ResponseMode := ⟨fun _ => by simp only [TypedParameter.ofJson]; np⟩
instance : CalmParameter ResponseType := ⟨fun _ => by simp only [TypedParameter.ofJson]; np⟩
instance : CalmParameter State := ⟨fun _ => by simp only [TypedParameter.ofJson]; np⟩
instance : CalmParameter ExpectedOrigins := ⟨fun _ => by simp only [TypedParameter.ofJson]; np⟩
instance : CalmParameter TransactionData := ⟨fun _ => by simp only [TypedParameter.ofJson]; np⟩
instance : CalmParameter VerifierInfo := ⟨fun _ => by simp only [TypedParameter.ofJson]; np⟩
instance : CalmParameter RequestUriMethod := ⟨fun _ => by simp only [TypedParameter.ofJson]; np⟩
instance : CalmParameter IdToken := ⟨fun _ => by simp only [TypedParameter.ofJson]; np⟩
instance : CalmParameter VpToken := ⟨fun _ => by simp only [TypedParameter.ofJson]; np⟩
instance : CalmParameter DcqlQuery := ⟨fun _ => by simp only [TypedParameter.ofJson]; np⟩
instance : CalmParameter VpFormats := ⟨fun _ => by simp only [TypedParameter.ofJson]; np⟩
instance : CalmParameter JWKs := ⟨fun _ => by simp only [TypedParameter.ofJson]; np⟩
instance : CalmParameter EncryptedResponseEncValuesSupported := ⟨fun _ => by simp only [TypedParameter.ofJson]; np⟩
instance : CalmParameter Issuer := ⟨fun _ => by simp only [TypedParameter.ofJson]; np⟩
instance : CalmParameter AuthorizationEndpoint := ⟨fun _ => by simp only [TypedParameter.ofJson]; np⟩
instance : CalmParameter ResponseTypesSupported := ⟨fun _ => by simp only [TypedParameter.ofJson]; np⟩
instance : CalmParameter ClientIdPrefixesSupported := ⟨fun _ => by simp only [TypedParameter.ofJson]; np⟩
instance : CalmParameter RequestObjectSigningAlgValuesSupported :=
  ⟨fun _ => by simp only [TypedParameter.ofJson]; np⟩
instance : CalmParameter VpFormatsSupported := ⟨fun _ => by simp only [TypedParameter.ofJson]; np⟩
instance : CalmParameter AuthorizationEncryptionAlgValuesSupported :=
  ⟨fun _ => by simp only [TypedParameter.ofJson]; np⟩
instance : CalmParameter AuthorizationEncryptionEncValuesSupported :=
  ⟨fun _ => by simp only [TypedParameter.ofJson]; np⟩

variable {α : Type} [TypedParameter α] [CalmParameter α]

theorem np_get {o : UntypedObject} {r : Res α} (h : UntypedObject.get α o = some r) : NoPanic r := by
  unfold UntypedObject.get at h
  split at h
  · cases h
  · cases h; infer_instance

instance (o : UntypedObject) : NoPanic (parsingError (UntypedObject.get α o)) := by
  unfold parsingError
  split
  · np
  · exact np_get (by assumption)

instance (o : UntypedObject) : NoPanic (transposeGet (UntypedObject.get α o)) := by
  unfold transposeGet
  split
  · np
  · np
  · exact NoPanic.of_eq rfl (np_get (by assumption))

instance [RDefault α] (o : UntypedObject) : NoPanic (UntypedObject.getOrDefault α o) := by
  unfold UntypedObject.getOrDefault; np

/-! ## Requests -/

instance np_returnAddress (o : UntypedObject) (m : ResponseMode) :
    NoPanic (returnAddress (UntypedObject.get RedirectUri o) (UntypedObject.get ResponseUri o) m) := by
  unfold returnAddress
  split
  all_goals first
    | np; done
    | (have := np_get (α := ResponseUri) ‹UntypedObject.get ResponseUri o = some _›; infer_instance)

instance (o : UntypedObject) : NoPanic (RequestObject.ofObject o) := by unfold RequestObject.ofObject; np
instance (a : RequestObject) : NoPanic a.clientMetadata := by
  unfold RequestObject.clientMetadata
  split
  · np
  · exact np_get (by assumption)
instance (a : RequestObject) : NoPanic a.vpFormats := by
  unfold RequestObject.vpFormats
  split
  · np
  · split
    · np
    · exact np_get (by assumption)
instance (a : RequestObject) : NoPanic (ClientMetadata.resolve a) := by
  unfold ClientMetadata.resolve
  split
  · exact np_get (by assumption)
  · np

instance (j : Json) : NoPanic (formValue j) := by unfold formValue; np
instance (o : UntypedObject) : NoPanic (formMembers o) := by unfold formMembers; np
instance (r : AuthorizationRequest) : NoPanic r.fields := by unfold AuthorizationRequest.fields; dsimp only; np
instance (r : AuthorizationRequest) (u : Url) : NoPanic (r.toUrl u) := by unfold AuthorizationRequest.toUrl; np
instance (q : Str) : NoPanic (AuthorizationRequest.fromQueryParams q) := by
  unfold AuthorizationRequest.fromQueryParams; dsimp only; np
instance (u e : Url) : NoPanic (AuthorizationRequest.fromUrl u e) := by
  unfold AuthorizationRequest.fromUrl; np
instance (s : Str) : NoPanic (splitJws s) := by unfold splitJws; np
instance (s : Str) : NoPanic (b64url s) := by unfold b64url; np
instance (b : Bytes) : NoPanic (jsonMap b) := by unfold jsonMap; np
instance (s : Str) : NoPanic (jwsHeader s) := by unfold jwsHeader; np
instance (s : Str) (b : Bool) : NoPanic (validateRequestObjectTyp s b) := by
  unfold validateRequestObjectTyp; np
instance (hdr : SsiHeader) [∀ b, NoPanic (hdr b)] (s : Str) : NoPanic (decodeUnverified hdr s) := by
  unfold decodeUnverified; np
instance (hdr : SsiHeader) [∀ b, NoPanic (hdr b)] (l : Bool) (s : Str) : NoPanic (resolveJwt hdr l s) := by
  unfold resolveJwt; np
instance (w : Wallet) [∀ b, NoPanic (w.ssiHeader b)] [∀ r, NoPanic (w.http r)] (r : AuthorizationRequest) :
    NoPanic (r.resolve w).2 := by
  unfold AuthorizationRequest.resolve; dsimp only; np

theorem np_checkSupported (l : List Str) {f : α → List Str} (o : UntypedObject) :
    NoPanic (checkSupported l ((UntypedObject.get α o).map (fun r => r.map f))) := by
  cases h : UntypedObject.get α o with
  | none => simp only [Option.map_none, checkSupported]; np
  | some r =>
    have := np_get h
    cases r with
    | ok a => simp only [Option.map_some, Except.map, checkSupported]; np
    | error e => simp only [Option.map_some, Except.map, checkSupported]; exact NoPanic.of_eq rfl this

instance (wm : WalletMetadata) (cm : ClientMetadata) : NoPanic (checkEncryption wm cm) := by
  unfold checkEncryption
  have h1 := fun l => np_checkSupported l (f := AuthorizationEncryptionAlgValuesSupported.val) wm.inner
  have h2 := fun l => np_checkSupported l (f := AuthorizationEncryptionEncValuesSupported.val) wm.inner
  dsimp only
  np
instance (wm : WalletMetadata) (a : RequestObject) : NoPanic (checkPrefix wm a) := by unfold checkPrefix; np
instance (m : ResponseMode) : NoPanic m.isJarm := by unfold ResponseMode.isJarm; np
instance (wm : WalletMetadata) (a : RequestObject) : NoPanic (validateAgainstMetadata wm a) := by
  unfold validateAgainstMetadata; np
instance (w : Wallet) [∀ m a j, NoPanic (w.verifier m a j)] (a : RequestObject) (j : Option Str) :
    NoPanic (verifyRequest w a j).2 := by unfold verifyRequest; np
instance (w : Wallet) [∀ b, NoPanic (w.ssiHeader b)] [∀ r, NoPanic (w.http r)]
    [∀ m a j, NoPanic (w.verifier m a j)] (r : AuthorizationRequest) : NoPanic (r.validate w).2 := by
  unfold AuthorizationRequest.validate; np
instance (w : Wallet) [∀ b, NoPanic (w.ssiHeader b)] [∀ r, NoPanic (w.http r)]
    [∀ m a j, NoPanic (w.verifier m a j)] (u : Url) : NoPanic (w.validateRequest u).2 := by
  unfold Wallet.validateRequest; np

/-! ## Verification methods and clients -/

instance (k : Str) (m : List (Str × Json)) : NoPanic (headerStr k m) := by unfold headerStr; np
instance (wm : WalletMetadata) (s : Str) : NoPanic (checkAlg wm s) := by unfold checkAlg; np
instance (ssi : Ssi) [∀ b, NoPanic (ssi.header b)] (s : Str) (k : Jwk) : NoPanic (decodeVerify ssi s k) := by
  unfold decodeVerify; np
instance (ssi : Ssi) [∀ b, NoPanic (ssi.header b)] (resolver : Str → Res Jwk) [∀ k, NoPanic (resolver k)]
    (t : Option (List Str)) (wm : WalletMetadata) (a : RequestObject) (s : Str) :
    NoPanic (didVerify ssi resolver t wm a s) := by unfold didVerify; np
instance (m : List (Str × Json)) : NoPanic (x5cFirst m) := by unfold x5cFirst; np
instance (x : X509) (m : List (Str × Json)) : NoPanic (leafCert x m) := by unfold leafCert; np
instance (x : X509) (v : SigVerifier) (c : x.Cert) (a h b g : Str) : NoPanic (checkCertSig x v c a h b g) := by
  unfold checkCertSig; np
instance (x : X509) (v : SigVerifier) (roots : Option (List x.Cert)) (wm : WalletMetadata) (a : RequestObject)
    (s : Str) : NoPanic (x509SanVerify x v roots wm a s) := by unfold x509SanVerify; np
instance (x : X509) (v : SigVerifier) (roots : Option (List x.Cert)) (wm : WalletMetadata) (a : RequestObject)
    (s : Str) : NoPanic (x509HashVerify x v roots wm a s) := by unfold x509HashVerify; np
instance (x : X509) [∀ c, NoPanic (x.toDer c)] (l : List x.Cert) (s : Signer) [NoPanic s.alg]
    (a : RequestObject) : NoPanic (x5cGenerate x l s a) := by unfold x5cGenerate; np
instance (id : ClientId) (vm : Str) (s : Signer) [NoPanic s.alg] (a : RequestObject) :
    NoPanic ((didClient id vm s).generate a) := by unfold didClient; np
instance (vm : Str) (s : Signer) [NoPanic s.jwk] (resolver : Str → Res Jwk) [∀ k, NoPanic (resolver k)] :
    NoPanic (didClientNew vm s resolver) := by unfold didClientNew; np

/-! ## Encrypted responses, responses -/

instance (jk : Josekit) (m : List (Str × Json)) : NoPanic (joseJwk jk m) := by unfold joseJwk; np
instance np_findEncryptionJwk (jk : Josekit) (l : List (List (Str × Json))) :
    NoPanic (findEncryptionJwk jk l) := by
  induction l with
  | nil => unfold findEncryptionJwk; np
  | cons m l ih => unfold findEncryptionJwk; np
instance (jk : Josekit) [∀ a b c, NoPanic (jk.encrypt a b c)] (b : JweBuilder) : NoPanic (b.build jk) := by
  unfold JweBuilder.build; np
instance (cm : ClientMetadata) : NoPanic (parsingError cm.jwks) := by unfold ClientMetadata.jwks; np
instance (cm : ClientMetadata) : NoPanic cm.encValues := by
  unfold ClientMetadata.encValues
  split
  · np
  · exact np_get (by assumption)
instance (jk : Josekit) [∀ a b c, NoPanic (jk.encrypt a b c)] (a : RequestObject) (t : VpToken)
    (s : Option State) : NoPanic (buildEncryptedResponse jk a t s) := by unfold buildEncryptedResponse; np
instance (jk : Josekit) (j : Json) (b : JweBuilder) : NoPanic (b.setRecipientKeyJson jk j) := by
  unfold JweBuilder.setRecipientKeyJson; np
instance (jk : Josekit) (b : JweBuilder) (c : JweCall) : NoPanic (c.run jk b) := by unfold JweCall.run; np
instance np_runAll (jk : Josekit) (l : List JweCall) (b : JweBuilder) : NoPanic (JweCall.runAll jk l b) := by
  induction l generalizing b with
  | nil => unfold JweCall.runAll; np
  | cons c l ih => unfold JweCall.runAll; np

instance (k : Str) (l : List (Str × Str)) : NoPanic (formReq k l) := by unfold formReq; np
instance (k : Str) (l : List (Str × Str)) : NoPanic (formOpt k l) := by unfold formOpt; np
instance (s : Str) : NoPanic (VpToken.ofText s) := by unfold VpToken.ofText; np
instance (b : Bytes) : NoPanic (AuthorizationResponse.ofForm b) := by
  unfold AuthorizationResponse.ofForm; dsimp only; np
instance (j : Json) : NoPanic (UnencodedResponse.ofJson j) := by unfold UnencodedResponse.ofJson; np
instance (j : Json) : NoPanic (AuthorizationResponse.ofJson j) := by unfold AuthorizationResponse.ofJson; np
instance (r : HttpResponse) : NoPanic (redirectOf r) := by unfold redirectOf; np
instance (w : Wallet) [∀ r, NoPanic (w.http r)] (u : Url) (b : Str) : NoPanic (postAndRead w u b).2 := by
  unfold postAndRead; np
instance (ord : MapOrder) (w : Wallet) [∀ r, NoPanic (w.http r)] (a : RequestObject)
    (r : AuthorizationResponse) : NoPanic (w.submitResponse ord a r).2 := by
  unfold Wallet.submitResponse; np

/-! ## Wallet metadata -/

instance (s : Str) (w : WalletMetadata) : NoPanic (w.addSigningAlg s) := by unfold WalletMetadata.addSigningAlg; np
instance (l : List ClientIdScheme) (w : WalletMetadata) : NoPanic (w.addClientIdPrefixes l) := by
  unfold WalletMetadata.addClientIdPrefixes; np
instance (o : UntypedObject) : NoPanic (WalletMetadata.ofObject o) := by unfold WalletMetadata.ofObject; np

/-! ## Verifiers -/

instance (b : Bool) (s : Session) (σ : Store) : NoPanic (σ.initiate b s).2 := by unfold Store.initiate; np
instance (b : Bool) (u : Uuid) (s : Status) (σ : Store) : NoPanic (σ.updateStatus b u s).2 := by
  unfold Store.updateStatus; np
instance (b : Bool) (u : Uuid) (σ : Store) : NoPanic (σ.getSession b u) := by unfold Store.getSession; np
instance (b : Bool) (u : Uuid) (σ : Store) : NoPanic (σ.removeSession b u).2 := by unfold Store.removeSession; np
instance (b : VerifierBuilder) : NoPanic b.build := by unfold VerifierBuilder.build; np
instance (e : Url) (u : Uuid) (m : ResponseMode) (o : UntypedObject) :
    NoPanic (RequestBuilder.setResponseUri e u m o) := by unfold RequestBuilder.setResponseUri; np
instance (v : Verifier) (b : RequestBuilder) (u : Uuid) : NoPanic (b.prepare v u) := by
  unfold RequestBuilder.prepare; dsimp only; np
instance (v : Verifier) (u : Uuid) (s : Str) : NoPanic (RequestBuilder.indirection v u s) := by
  unfold RequestBuilder.indirection; np
instance (v : Verifier) [∀ a, NoPanic (v.client.generate a)] (b : RequestBuilder) (u : Uuid)
    (wm : WalletMetadata) : NoPanic (b.construct v u wm) := by unfold RequestBuilder.construct; np
instance (v : Verifier) [∀ a, NoPanic (v.client.generate a)] (b : RequestBuilder) (u : Uuid)
    (wm : WalletMetadata) (busy : Bool) (σ : Store) : NoPanic (b.buildWithSessionId v u wm busy σ).2 := by
  unfold RequestBuilder.buildWithSessionId; np
instance (v : Verifier) [∀ a, NoPanic (v.client.generate a)] (b : RequestBuilder) (u : Uuid) :
    NoPanic (b.constructDcApi v u) := by unfold RequestBuilder.constructDcApi; np
instance (v : Verifier) [∀ a, NoPanic (v.client.generate a)] (b : RequestBuilder) (u : Uuid) (busy : Bool)
    (σ : Store) : NoPanic (b.buildDcApi v u busy σ).2 := by unfold RequestBuilder.buildDcApi; np
instance (u : Uuid) (σ : Store) : NoPanic (pollStatus u σ) := by unfold pollStatus; np
instance (u : Uuid) (σ : Store) : NoPanic (retrieve u σ).2 := by unfold retrieve; np
instance (u : Uuid) (r : AuthorizationResponse) (f : Validator) (σ : Store) :
    NoPanic (verifyResponse u r f σ).2 := by unfold verifyResponse; np

/-! ## Handovers and thumbprints -/

instance (n : Nat) (b : Bytes) : NoPanic (takeN n b) := by unfold takeN; np
instance (b : Bytes) : NoPanic (cborPull b) := by unfold cborPull; dsimp only; np
instance np_cborTyped (f : Nat) (b : Bytes) : NoPanic (cborTyped f b) := by
  induction f generalizing b with
  | zero => unfold cborTyped; np
  | succ f ih => unfold cborTyped; np
instance np_cborPieces (m f d : Nat) (b : Bytes) : NoPanic (cborPieces m f d b) := by
  induction f generalizing d b with
  | zero => unfold cborPieces; np
  | succ f ih => unfold cborPieces; np
instance (m : Nat) (a : Option Nat) (b : Bytes) : NoPanic (cborBody m a b) := by unfold cborBody; np
instance (m : Nat) (b : Bytes) : NoPanic (cborReadPieces m b) := by unfold cborReadPieces; np
instance (b : Bytes) : NoPanic (cborReadText b) := by unfold cborReadText; np
instance (b : Bytes) : NoPanic (cborReadArray b) := by unfold cborReadArray; np
instance (n : Option Nat) (b : Bytes) : NoPanic (cborMore n b) := by unfold cborMore; np
instance np_cborReadU8 (f : Nat) (b : Bytes) : NoPanic (cborReadU8 f b) := by
  induction f generalizing b with
  | zero => unfold cborReadU8; np
  | succ f ih => unfold cborReadU8; np
instance np_cborReadNumbers (f : Nat) (n : Option Nat) (b : Bytes) : NoPanic (cborReadNumbers f n b) := by
  induction f generalizing n b with
  | zero => unfold cborReadNumbers; np
  | succ f ih => unfold cborReadNumbers; np
instance (b : Bytes) : NoPanic (cborReadBytes b) := by unfold cborReadBytes; np
instance (b : Bytes) : NoPanic (cborReadUnit b) := by unfold cborReadUnit; np
instance (H : Type) [IsHandover H] (b : Bytes) : NoPanic (handoverOfBytes H b) := by unfold handoverOfBytes; np
instance (n : Option Nat) (b : Bytes) : NoPanic (cborOptUnit n b) := by unfold cborOptUnit; np
instance (H : Type) [IsHandover H] (b : Bytes) : NoPanic (SessionTranscript.ofBytes H b) := by
  unfold SessionTranscript.ofBytes; np
instance (b : Bytes) : NoPanic (cborReadHead b) := by unfold cborReadHead; np
theorem np_elems (f : Nat) (h : ∀ r, NoPanic (cborDec f r)) (n : Nat) (r : Bytes) :
    NoPanic (cborDec.elems f n r) := by
  induction n generalizing r with
  | zero => unfold cborDec.elems; np
  | succ n ih => unfold cborDec.elems; np
instance np_cborDec (f : Nat) (b : Bytes) : NoPanic (cborDec f b) := by
  induction f generalizing b with
  | zero => unfold cborDec; np
  | succ f ih =>
    have := np_elems f ih
    unfold cborDec; np
instance (H : Type) [IsHandover H] (s : SessionTranscript H) : NoPanic s.toCborBytes := by
  unfold SessionTranscript.toCborBytes; np
instance (j : Json) : NoPanic (thumbprintInput j) := by unfold thumbprintInput; np
instance (sha : Bytes → Bytes) (j : Json) : NoPanic (computeJwkThumbprint sha j) := by
  unfold computeJwkThumbprint; np

/-! ## Statuses -/

instance (j : Json) : NoPanic (Outcome.ofJson j) := by unfold Outcome.ofJson; np
instance (s : Str) : NoPanic (Status.ofName s) := by unfold Status.ofName; np
instance (j : Json) : NoPanic (Status.ofJson j) := by unfold Status.ofJson; np
instance (l : List Str) (j : Json) : NoPanic (WalletApp.structText l j) := by unfold WalletApp.structText; np
instance (j : Json) : NoPanic (Outcome.ofRaw j) := by unfold Outcome.ofRaw; np
instance (j : Json) : NoPanic (Status.ofRaw j) := by unfold Status.ofRaw; np
instance (s : Str) : NoPanic (Status.ofText s) := by unfold Status.ofText; np

end Oid4vp
