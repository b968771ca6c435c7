import Verif.Spec.RequestInputs
import Verif.Props.Decision

/-! # C99: what of a request object decides about it -/

set_option autoImplicit false

namespace Oid4vp

open Spec AuthorizationRequest

theorem get_alike {o o' : UntypedObject} (h : Alike o o') (α : Type) [TypedParameter α]
    (hk : TypedParameter.key α ∈ decisive) : UntypedObject.get α o' = UntypedObject.get α o := by
  simp only [UntypedObject.get, h _ hk]

theorem getOrDefault_alike {o o' : UntypedObject} (h : Alike o o') (α : Type) [TypedParameter α] [RDefault α]
    (hk : TypedParameter.key α ∈ decisive) :
    UntypedObject.getOrDefault α o' = UntypedObject.getOrDefault α o := by
  simp only [UntypedObject.getOrDefault, h _ hk]

/-- **C99** Whether an object is a request object, and every field it has as one, depends on six of its
members only. (The seventh, `client_metadata`, matters when the request is checked against the wallet.) -/
theorem C99_reading {o o' : UntypedObject} (h : Alike o o') :
    RequestObject.ofObject o' = (RequestObject.ofObject o).map fun a => { a with inner := o' } := by
  unfold RequestObject.ofObject
  rw [get_alike h ClientId (by decide), getOrDefault_alike h ResponseMode (by decide),
    get_alike h RedirectUri (by decide), get_alike h ResponseUri (by decide),
    get_alike h ResponseType (by decide), get_alike h Nonce (by decide)]
  repeat' split
  all_goals first
    | rfl
    | simp_all [Except.map]

theorem against_alike {a a' : RequestObject} (h : Alike a.inner a'.inner)
    (hs : a'.clientIdScheme = a.clientIdScheme) (wm : WalletMetadata) :
    validateAgainstMetadata wm a' = validateAgainstMetadata wm a := by
  simp only [validateAgainstMetadata, checkPrefix, hs, ClientMetadata.resolve,
    get_alike h ClientMetadata (by decide), get_alike h ResponseMode (by decide)]

/-- **C99** Two requests with the same outer client identifier whose request objects have the same seven
members get the same verdict, unless the wallet's own verification method tells them apart. So no other member
plays a part: not the query, `state`, `aud`, `scope`, `expected_origins`, `transaction_data`, `verifier_info`,
nor any unknown one. -/
theorem C99_decision (w : Wallet) (r r' : AuthorizationRequest) (a a' : RequestObject) (jwt jwt' : Option Str)
    (hc : r'.clientId = r.clientId) (hr : ResolvesTo w r a jwt) (hr' : ResolvesTo w r' a' jwt')
    (h : Alike a.inner a'.inner) (hm : SameToMethods w a a' jwt jwt') :
    SameVerdict (r.validate w).2 (r'.validate w).2 := by
  have h1 := resolvesTo_iff.mpr hr
  have h2 := resolvesTo_iff.mpr hr'
  have hs : a'.clientIdScheme = a.clientIdScheme := by
    have e1 := (resolve_reports h1).1
    have e2 := (resolve_reports h2).1
    have hcid : a'.clientId = a.clientId := by
      have c1 := e1.clientId
      have c2 := e2.clientId
      simp only [ClientIdIs, HasText, Absent, h c!"client_id" (by decide)] at c1 c2
      cases hx : a.clientId with
      | none =>
        cases hy : a'.clientId with
        | none => rfl
        | some y => rw [hx] at c1; rw [hy] at c2; rw [c1] at c2; cases c2
      | some x =>
        cases hy : a'.clientId with
        | none => rw [hx] at c1; rw [hy] at c2; rw [c1] at c2; cases c2
        | some y =>
          rw [hx] at c1; rw [hy] at c2; rw [c1] at c2
          obtain ⟨x⟩ := x
          obtain ⟨y⟩ := y
          cases c2; rfl
    have s2 := e2.scheme
    rw [hcid] at s2
    exact prefixIs_unique s2 e1.scheme
  rw [validate_eq, validate_eq, h1, h2]
  simp only [verifyRequest, against_alike h hs, hs]
  cases validateAgainstMetadata w.metadata a with
  | error e => exact .refused e
  | ok u =>
    cases selectMethod a.clientIdScheme with
    | none => exact .refused _
    | some m =>
      simp only [hm m]
      cases w.verifier m a jwt with
      | error e => exact .refused e
      | ok u =>
        simp only [get_alike h ClientId (by decide), hc]
        cases transposeGet (UntypedObject.get ClientId a.inner) with
        | error e => exact .refused e
        | ok i =>
          cases r.clientId with
          | none => exact .accepted ..
          | some x =>
            cases i with
            | none => exact .accepted ..
            | some y =>
              simp only
              split
              · exact .refused _
              · exact .accepted ..

/-- **C99** The methods that come with the library look at a request object only by its client identifier
(and at its token). -/
theorem C99_methods (wm : WalletMetadata) (a a' : RequestObject) (jwt : Str) (h : a'.clientId = a.clientId) :
    (∀ ssi resolver trusted, didVerify ssi resolver trusted wm a' jwt = didVerify ssi resolver trusted wm a jwt) ∧
    (∀ x v roots, x509SanVerify x v roots wm a' jwt = x509SanVerify x v roots wm a jwt) ∧
    ∀ x v roots, x509HashVerify x v roots wm a' jwt = x509HashVerify x v roots wm a jwt := by
  refine ⟨fun _ _ _ => ?_, fun _ _ _ => ?_, fun _ _ _ => ?_⟩
  · simp only [didVerify, h]
  · simp only [x509SanVerify, h]
  · simp only [x509HashVerify, h]

theorem read_alike (w : Wallet) (hw : ByClientId w) (r r' : AuthorizationRequest) (hc : r'.clientId = r.clientId)
    {p p' : UntypedObject} (h : Alike p p')
    (hr : (r.resolve w).2 = (RequestObject.ofObject p).map fun a => (a, none))
    (hr' : (r'.resolve w).2 = (RequestObject.ofObject p').map fun a => (a, none)) :
    SameVerdict (r.validate w).2 (r'.validate w).2 := by
  rw [C99_reading h] at hr'
  cases hp : RequestObject.ofObject p with
  | error e =>
    rw [hp] at hr hr'
    rw [validate_eq, validate_eq, hr, hr']
    exact .refused e
  | ok a =>
    rw [hp] at hr hr'
    have hi : a.inner = p := (ofObject_iff.mp hp).1
    refine C99_decision w r r' a { a with inner := p' } none none hc (resolvesTo_iff.mp hr) (resolvesTo_iff.mp hr')
      (by rw [hi]; exact h) fun m => hw m _ _ _ rfl

/-- **C99** In particular for requests whose parameters are given directly, whether or not they are request
objects: the seven members decide. -/
theorem C99_direct (w : Wallet) (hw : ByClientId w) (c : Option Str) {o o' : UntypedObject} (h : Alike o o') :
    SameVerdict ((⟨c, .direct o⟩ : AuthorizationRequest).validate w).2
      ((⟨c, .direct o'⟩ : AuthorizationRequest).validate w).2 := by
  cases c with
  | none =>
    refine read_alike w hw _ _ rfl h ?_ ?_
    · simp only [resolve]; cases RequestObject.ofObject o <;> rfl
    · simp only [resolve]; cases RequestObject.ofObject o' <;> rfl
  | some c =>
    have h' : Alike (UntypedObject.put (ClientId.mk c) o) (UntypedObject.put (ClientId.mk c) o') := by
      intro k hk
      show mget k (mset _ _ o') = mget k (mset _ _ o)
      simp only [mget_mset, h k hk]
    refine read_alike w hw _ _ rfl h' ?_ ?_
    · simp only [resolve]; cases RequestObject.ofObject (UntypedObject.put (ClientId.mk c) o) <;> rfl
    · simp only [resolve]; cases RequestObject.ofObject (UntypedObject.put (ClientId.mk c) o') <;> rfl

/-- **C99** So giving a request any other member, or taking it away, changes nothing. -/
theorem C99_other_member (w : Wallet) (hw : ByClientId w) (c : Option Str) (o : UntypedObject) (ho : Sorted o)
    (k : Str) (hk : k ∉ decisive) :
    (∀ v, SameVerdict ((⟨c, .direct o⟩ : AuthorizationRequest).validate w).2
      ((⟨c, .direct (mset k v o)⟩ : AuthorizationRequest).validate w).2) ∧
    SameVerdict ((⟨c, .direct o⟩ : AuthorizationRequest).validate w).2
      ((⟨c, .direct (mdel k o)⟩ : AuthorizationRequest).validate w).2 := by
  refine ⟨fun v => C99_direct w hw c fun k' hk' => ?_, C99_direct w hw c fun k' hk' => ?_⟩
  · have : k' ≠ k := fun e => hk (e ▸ hk')
    simp [mget_mset, this]
  · have : k' ≠ k := fun e => hk (e ▸ hk')
    simp [mget_mdel ho, this]

/-- **C99** Among those are members with a meaning in the standard. -/
theorem C99_without_part : ∀ k ∈ [c!"dcql_query", c!"scope", c!"state", c!"aud", c!"iss", c!"expected_origins",
    c!"transaction_data", c!"verifier_info", c!"request_uri_method", c!"wallet_nonce", c!"exp", c!"nbf"],
    k ∉ decisive := by decide

/-- An acceptable request given directly, without query and without state. -/
def decisiveSample : UntypedObject :=
  [(c!"client_id", .str c!"x509_san_dns:v.example"), (c!"client_metadata", .obj []), (c!"nonce", .str c!"n"),
    (c!"response_mode", .str c!"direct_post"), (c!"response_type", .str c!"vp_token"),
    (c!"response_uri", .str c!"https://v.example/r")]

/-- Whether a request given directly is accepted by the wallet that trusts every method. -/
def takes (o : UntypedObject) : Bool :=
  match ((⟨none, .direct o⟩ : AuthorizationRequest).validate walletSample).2 with
  | .ok _ => true
  | .error _ => false

theorem takes_iff (o : UntypedObject) : takes o = true ↔
    ∃ a, ((⟨none, .direct o⟩ : AuthorizationRequest).validate walletSample).2 = .ok a := by
  unfold takes
  split
  · rename_i a h; exact ⟨fun _ => ⟨a, h⟩, fun _ => rfl⟩
  · rename_i e h; exact ⟨nofun, fun ⟨a, ha⟩ => by rw [h] at ha; cases ha⟩

/-- **C99** And each of the seven is needed: there are two requests that differ in nothing else, of which a
wallet whose methods accept everything accepts one and refuses the other. -/
theorem C99_all_needed : ∀ k ∈ decisive, ∃ w : Wallet, (∀ m a jwt, w.verifier m a jwt = .ok ()) ∧
    ∃ o o', DifferOnlyIn k o o' ∧
      (∃ a, ((⟨none, .direct o⟩ : AuthorizationRequest).validate w).2 = .ok a) ∧
      ¬ ∃ a, ((⟨none, .direct o'⟩ : AuthorizationRequest).validate w).2 = .ok a := by
  have key : ∀ k v, takes (mset k v decisiveSample) = false → ∃ w : Wallet,
      (∀ m a jwt, w.verifier m a jwt = .ok ()) ∧
      ∃ o o', DifferOnlyIn k o o' ∧
        (∃ a, ((⟨none, .direct o⟩ : AuthorizationRequest).validate w).2 = .ok a) ∧
        ¬ ∃ a, ((⟨none, .direct o'⟩ : AuthorizationRequest).validate w).2 = .ok a := by
    intro k v h
    refine ⟨walletSample, fun _ _ _ => rfl, decisiveSample, mset k v decisiveSample, fun k' hk' => ?_, ?_, ?_⟩
    · simp [mget_mset, hk']
    · exact (takes_iff _).mp (by decide +kernel)
    · rw [← takes_iff, h]; nofun
  intro k hk
  simp only [decisive, List.mem_cons, List.not_mem_nil, or_false] at hk
  rcases hk with rfl | rfl | rfl | rfl | rfl | rfl | rfl
  · exact key _ (.str c!"did:v") (by decide +kernel)
  · exact key _ (.bool true) (by decide +kernel)
  · exact key _ .null (by decide +kernel)
  · exact key _ (.str c!"https://v.example/r") (by decide +kernel)
  · exact key _ (.str c!"fragment") (by decide +kernel)
  · exact key _ (.bool true) (by decide +kernel)
  · exact key _ (.str c!"no address") (by decide +kernel)

/-- A request with no query at all is accepted; so is one for other origins than the wallet's, and one with
transaction data, which a wallet must not ignore. -/
example : takes decisiveSample = true := by decide +kernel

example : SameVerdict ((⟨none, .direct decisiveSample⟩ : AuthorizationRequest).validate walletSample).2
    ((⟨none, .direct (mset c!"transaction_data" (.arr [.str c!"e30"]) decisiveSample)⟩ :
      AuthorizationRequest).validate walletSample).2 :=
  (C99_other_member walletSample (fun _ _ _ _ _ => rfl) none decisiveSample (by
    simp only [decisiveSample, Sorted, and_true]; decide) _
    (C99_without_part _ (by decide))).1 _

/-- Not so for one of the seven. -/
example : takes (mdel c!"nonce" decisiveSample) = false ∧
    takes (mdel c!"response_mode" decisiveSample) = false := by decide +kernel

end Oid4vp
