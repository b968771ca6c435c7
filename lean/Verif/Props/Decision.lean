import Verif.Spec.Decision
import Verif.Props.Fits
/-!
# C13, C87: the whole decision of a wallet, and what it does to reach it
-/

set_option autoImplicit false

namespace Oid4vp

open Spec AuthorizationRequest

theorem isRequest_iff {o : UntypedObject} {a : RequestObject} :
    RequestObject.ofObject o = .ok a ↔ IsRequest o a := by
  rw [ofObject_iff]
  constructor
  · rintro ⟨h1, h2, h3, h4⟩
    refine ⟨h1, h2, h3, fun h => ⟨(h4 h).1, ?_⟩⟩
    rw [← h3.dcApi h]
    exact Url.parse_print (h4 h).2
  · rintro ⟨h1, h2, h3, h4⟩
    exact ⟨h1, h2, h3, fun h => ⟨(h4 h).1, Url.parse_wf (h4 h).2⟩⟩

theorem resolvesTo_iff {w : Wallet} {r : AuthorizationRequest} {a : RequestObject} {jwt : Option Str} :
    (r.resolve w).2 = .ok (a, jwt) ↔ ResolvesTo w r a jwt := by
  rw [resolve_ok]
  constructor
  · rintro ⟨h1, ⟨o, ho, ha⟩, h3⟩
    exact ⟨h1, h3, o, ho, isRequest_iff.mp ha⟩
  · rintro ⟨h1, h3, o, ho, ha⟩
    exact ⟨h1, ⟨o, ho, isRequest_iff.mpr ha⟩, h3⟩

theorem fetches_iff {w : Wallet} {r : AuthorizationRequest} {tr : List Event} :
    FetchEvents w r.indirection tr ↔ (r.resolve w).1 = tr := by
  rw [resolve_trace]
  have hf : ∀ uri, fetchRequest uri = ⟨c!"GET", uri.print, [(c!"prefer", c!"OID4VP-1.0.0")], []⟩ :=
    fun _ => rfl
  cases hi : r.indirection with
  | byValue j => exact ⟨by rintro ⟨⟩; rfl, by rintro rfl; exact .value j⟩
  | direct o => exact ⟨by rintro ⟨⟩; rfl, by rintro rfl; exact .direct o⟩
  | byReference uri =>
    simp only
    constructor
    · intro h
      cases h with
      | refused h => simp [h]
      | reference h => simp [h, hf]
    · rintro rfl
      cases h : w.uriOk uri.print with
      | false => exact .refused h
      | true => rw [if_pos rfl, hf]; exact .reference h

/-- **C87** Exactly what a wallet accepts: requests that come to the verification method their client
identifier asks for, are accepted by it, and do not have two different client identifiers. -/
theorem C87_accepted_iff (w : Wallet) (r : AuthorizationRequest) (a : RequestObject) :
    (r.validate w).2 = .ok a ↔
      ∃ m jwt, ReachesMethod w r m a jwt ∧ w.verifier m a jwt = .ok () ∧ SameClient r a := by
  rw [C15_validation_iff]
  constructor
  · rintro ⟨jwt, m, h1, h2, h3, h4, h5⟩
    exact ⟨m, jwt, ⟨resolvesTo_iff.mp h1, h2, h3⟩, h4, h5⟩
  · rintro ⟨m, jwt, ⟨h1, h2, h3⟩, h4, h5⟩
    exact ⟨jwt, m, resolvesTo_iff.mpr h1, h2, h3, h4, h5⟩

/-- **C87** The object, the JWT and the method a request comes to are determined by it. -/
theorem C87_reaches_unique {w : Wallet} {r : AuthorizationRequest} {m m' : VerifyMethod}
    {a a' : RequestObject} {jwt jwt' : Option Str} (h : ReachesMethod w r m a jwt)
    (h' : ReachesMethod w r m' a' jwt') : m = m' ∧ a = a' ∧ jwt = jwt' := by
  have h1 := resolvesTo_iff.mpr h.resolves
  rw [resolvesTo_iff.mpr h'.resolves] at h1
  simp only [Except.ok.injEq, Prod.mk.injEq] at h1
  obtain ⟨rfl, rfl⟩ := h1
  exact ⟨C12_method_unique h.method h'.method, rfl, rfl⟩

/-- **C87** What a wallet does, in order: it fetches the request if that is passed by reference, and then
calls the verification method exactly if the request comes to one. Nothing else is done, whatever the
outcome. -/
theorem C87_effects (w : Wallet) (r : AuthorizationRequest) :
    ∃ fetched, FetchEvents w r.indirection fetched ∧
      (∀ m a jwt, ReachesMethod w r m a jwt → (r.validate w).1 = fetched ++ [.verify m a jwt]) ∧
      ((∀ m a jwt, ¬ ReachesMethod w r m a jwt) → (r.validate w).1 = fetched) := by
  refine ⟨_, fetches_iff.mpr rfl, ?_, ?_⟩
  · intro m a jwt h
    have hr := resolvesTo_iff.mpr h.resolves
    have hrep := (resolve_reports hr).1
    obtain ⟨p, hp, hs⟩ := methodFor_select h.method
    rw [prefixIs_unique hp hrep.scheme] at hs
    rw [validate_eq, hr]
    simp only [verifyRequest, (C15_fits_iff w.metadata a hrep).mpr h.fits, hs]
  · intro hn
    rw [validate_eq]
    cases hr : (r.resolve w).2 with
    | error e => simp
    | ok p =>
      obtain ⟨a, jwt⟩ := p
      have hrep := (resolve_reports hr).1
      simp only [verifyRequest]
      cases hv : validateAgainstMetadata w.metadata a with
      | error e => simp
      | ok u =>
        simp only
        cases hs : selectMethod a.clientIdScheme with
        | none => simp
        | some m =>
          exact absurd ⟨resolvesTo_iff.mp hr, (C15_fits_iff w.metadata a hrep).mp hv,
            methodFor_iff hrep.scheme hs⟩ (hn m a jwt)

/-- **C87** (a finding) The client identifiers are compared last: the verification method is also called
for a request with two different ones, which is then refused whatever the method says. -/
theorem C87_compared_last (w : Wallet) (r : AuthorizationRequest) (m : VerifyMethod) (a : RequestObject)
    (jwt : Option Str) (h : ReachesMethod w r m a jwt) (hd : ¬ SameClient r a) :
    (.verify m a jwt ∈ (r.validate w).1) ∧ ∀ a', (r.validate w).2 ≠ .ok a' := by
  constructor
  · obtain ⟨f, -, h1, -⟩ := C87_effects w r
    rw [h1 m a jwt h]
    simp
  · intro a' ha
    obtain ⟨m', jwt', h', -, hs⟩ := (C87_accepted_iff w r a').mp ha
    obtain ⟨rfl, rfl, rfl⟩ := C87_reaches_unique h h'
    exact hd hs

/-- **C87** (a finding) Direct parameters never have two different client identifiers: the one outside
replaces the one among the parameters. -/
theorem C87_direct_same_client (w : Wallet) (r : AuthorizationRequest) (d : UntypedObject)
    (hd : r.indirection = .direct d) (a : RequestObject) (jwt : Option Str) (h : ResolvesTo w r a jwt) :
    SameClient r a := by
  intro x y hx hy
  have hs := h.source
  rw [hd] at hs
  simp only [JwtOf] at hs
  subst hs
  obtain ⟨o, ⟨d', hd', ho⟩, ha⟩ := h.params
  rw [hx] at ho
  have hc := ha.reports.clientId
  rw [hy, ho] at hc
  simp only [ClientIdIs, HasText, mget_mset_self, Option.some.injEq, Json.str.injEq] at hc
  exact hc

/-- **C13** A client_id whose prefix the wallet does not support (only `pre-registered` if it announces
none) is refused before any verification method is called. -/
theorem C13_unsupported_prefix (w : Wallet) (r : AuthorizationRequest) (a : RequestObject)
    (jwt : Option Str) (hr : ResolvesTo w r a jwt) (p : ClientIdScheme)
    (hp : PrefixIs a.clientId (some p)) (hn : ¬ SupportsPrefix w.metadata.inner p.val) :
    (∀ a', (r.validate w).2 ≠ .ok a') ∧ verifyCalls (r.validate w).1 = [] := by
  have hno : ∀ m a' jwt', ¬ ReachesMethod w r m a' jwt' := by
    intro m a' jwt' h
    have h1 := resolvesTo_iff.mpr h.resolves
    rw [resolvesTo_iff.mpr hr] at h1
    simp only [Except.ok.injEq, Prod.mk.injEq] at h1
    obtain ⟨rfl, rfl⟩ := h1
    exact hn (h.fits.pre p hp)
  refine ⟨fun a' h => ?_, ?_⟩
  · obtain ⟨m, jwt', h, -⟩ := (C87_accepted_iff w r a').mp h
    exact hno _ _ _ h
  · obtain ⟨f, hf, -, h2⟩ := C87_effects w r
    rw [h2 hno]
    generalize r.2 = ind at hf
    cases hf <;> rfl

/-! ## Cases -/

-- a wallet that announces no prefixes refuses the sample before calling any method
example (w : Wallet) (hw : w.metadata.inner = []) (hs : w.ssiHeader = walletSample.ssiHeader) :
    verifyCalls ((byValueSample none jwsHeaderSample explicitSample).validate w).1 = [] := by
  have hr : ((byValueSample none jwsHeaderSample explicitSample).resolve w).2 = _ :=
    resolve_ok.mpr ⟨rfl, ⟨_, compactJws_payload (by rw [hs]; rfl) explicitSample_wf (by decide),
      explicitSample_ok⟩, fun _ e => .inl (by cases e; exact typed_sample _)⟩
  refine (C13_unsupported_prefix w _ _ _ (resolvesTo_iff.mp hr) ⟨c!"x509_san_dns"⟩
    ⟨by decide, c!"verifier.example", rfl⟩ ?_).2
  rw [hw]
  rintro (⟨-, h⟩ | ⟨l, h, -⟩)
  · exact absurd h (by decide)
  · simp [mget] at h

-- the sample comes to the method of its prefix, which is called although the client_id outside differs
example (x : Str) (hx : x ≠ c!"x509_san_dns:verifier.example") :
    ∃ jwt, .verify .x509SanDns explicitObject jwt ∈
      ((byValueSample (some x) jwsHeaderSample explicitSample).validate walletSample).1 := by
  have hr := resolve_sample (some x)
  have hrep := (resolve_reports hr).1
  refine ⟨_, (C87_compared_last walletSample _ _ _ _ ⟨resolvesTo_iff.mp hr,
    (C15_fits_iff _ _ hrep).mp metadata_sample.1, .sanDns c!"verifier.example"⟩ ?_).1⟩
  intro h
  exact hx (h _ _ rfl rfl)

-- and is refused; with the right one it is accepted
example : ∃ m jwt, ReachesMethod walletSample
    (byValueSample (some c!"x509_san_dns:verifier.example") jwsHeaderSample explicitSample) m explicitObject jwt :=
  let ⟨m, jwt, h, _⟩ := (C87_accepted_iff _ _ _).mp validate_sample
  ⟨m, jwt, h⟩

end Oid4vp
