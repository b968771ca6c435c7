import Verif.Spec.Builder
import Verif.Props.Object
/-!
# C67: a verifier and a request are what the builder was told last
-/

set_option autoImplicit false

namespace Oid4vp
open Spec

theorem lastSaid_snoc {α : Type _} {β : Type _} (f : α → Option β) (ops : List α) (op : α) :
    lastSaid f (ops ++ [op]) = (f op).or (lastSaid f ops) := by
  unfold lastSaid
  rw [List.filterMap_append]
  cases h : f op <;> simp [h]

theorem builder_induction {α : Type _} {P : List α → Prop} (h0 : P [])
    (h1 : ∀ l a, P l → P (l ++ [a])) (l : List α) : P l := by
  rw [← List.reverse_reverse l]
  induction l.reverse with
  | nil => exact h0
  | cons a l ih => rw [List.reverse_cons]; exact h1 _ _ ih

/-- The builder after a history of calls, field by field. -/
theorem config_fields (ops : List ConfigOp) :
    let b := ops.foldl ConfigOp.run {}
    b.client = lastSaid ConfigOp.clientOf ops ∧
    (b.hasStore = true ↔ ConfigOp.store ∈ ops) ∧
    b.submissionEndpoint = lastSaid ConfigOp.endpointOf ops ∧
    b.passByReference = (lastSaid ConfigOp.modeOf ops).getD .no ∧
    b.defaults = runOps (ops.filterMap ConfigOp.parameterOf) [] := by
  induction ops using builder_induction with
  | h0 => simp [lastSaid, runOps]
  | h1 ops op ih =>
    obtain ⟨h1, h2, h3, h4, h5⟩ := ih
    simp only [List.foldl_append, List.foldl_cons, List.foldl_nil, lastSaid_snoc, List.filterMap_append,
      runOps, List.mem_append] at *
    cases op <;>
      simp [ConfigOp.run, ConfigOp.clientOf, ConfigOp.endpointOf, ConfigOp.modeOf, ConfigOp.parameterOf,
        VerifierBuilder.withClient, VerifierBuilder.withSessionStore, VerifierBuilder.byValue,
        VerifierBuilder.byReference, VerifierBuilder.withSubmissionEndpoint,
        VerifierBuilder.withDefaultRequestParameter, List.filterMap_cons, ObjOp.run, UntypedObject.put, h1, h2, h3, h4, h5]

/-- **C67** After any history of calls, `build` succeeds exactly if a client, a session store and a
submission endpoint have been given. -/
theorem C67_build_succeeds_iff (ops : List ConfigOp) :
    (∃ v, (ops.foldl ConfigOp.run {}).build = .ok v) ↔
      (∃ c, ConfigOp.client c ∈ ops) ∧ ConfigOp.store ∈ ops ∧ ∃ u, ConfigOp.endpoint u ∈ ops := by
  obtain ⟨h1, h2, h3, -⟩ := config_fields ops
  have hc : (∃ c, ConfigOp.client c ∈ ops) ↔ lastSaid ConfigOp.clientOf ops ≠ none := by
    simp only [lastSaid, ne_eq, List.getLast?_eq_none_iff, List.filterMap_eq_nil_iff, not_forall]
    constructor
    · rintro ⟨c, hc⟩; exact ⟨_, hc, by simp [ConfigOp.clientOf]⟩
    · rintro ⟨op, hm, h⟩
      cases op with
      | client c => exact ⟨c, hm⟩
      | _ => simp [ConfigOp.clientOf] at h
  have he : (∃ u, ConfigOp.endpoint u ∈ ops) ↔ lastSaid ConfigOp.endpointOf ops ≠ none := by
    simp only [lastSaid, ne_eq, List.getLast?_eq_none_iff, List.filterMap_eq_nil_iff, not_forall]
    constructor
    · rintro ⟨c, hc⟩; exact ⟨_, hc, by simp [ConfigOp.endpointOf]⟩
    · rintro ⟨op, hm, h⟩
      cases op with
      | endpoint c => exact ⟨c, hm⟩
      | _ => simp [ConfigOp.endpointOf] at h
  rw [hc, ← h2, he, ← h1, ← h3]
  unfold VerifierBuilder.build
  cases (ops.foldl ConfigOp.run {}).client with
  | none => simp
  | some c =>
    cases (ops.foldl ConfigOp.run {}).hasStore <;>
      cases (ops.foldl ConfigOp.run {}).submissionEndpoint <;> simp

/-- **C67** The verifier built uses the client and the endpoint given last, passes requests as was said
last (by value if nothing was said), and each default parameter has the value given last. -/
theorem C67_last_call_decides (ops : List ConfigOp) (v : Verifier)
    (h : (ops.foldl ConfigOp.run {}).build = .ok v) :
    lastSaid ConfigOp.clientOf ops = some v.client ∧
    lastSaid ConfigOp.endpointOf ops = some v.submissionEndpoint ∧
    v.passByReference = (lastSaid ConfigOp.modeOf ops).getD .no ∧
    ∀ k, mget k v.defaults = valueAfter (ops.filterMap ConfigOp.parameterOf) [] k := by
  obtain ⟨h1, h2, h3, h4, h5⟩ := config_fields ops
  unfold VerifierBuilder.build at h
  rw [h1, h3] at h
  split at h
  · cases h
  · split at h
    · split at h
      · cases h
      · cases h
        rename_i hc _ _ _ he
        refine ⟨hc, he, h4, fun k => ?_⟩
        rw [h5]
        exact runOps_mget _ (by simp [Sorted]) k
    · cases h

/-- **C67** A request under construction has the query given last, and every parameter has the value
given last, by the request builder or else as a default by the verifier's builder. -/
theorem C67_request_parameters (ops : List ConfigOp) (v : Verifier)
    (h : (ops.foldl ConfigOp.run {}).build = .ok v) (rops : List RequestOp) :
    let b := rops.foldl RequestOp.run (RequestBuilder.new v)
    b.dcqlQuery = lastSaid RequestOp.queryOf rops ∧
    ∀ k, mget k b.params = valueAfter
      (ops.filterMap ConfigOp.parameterOf ++ rops.filterMap RequestOp.parameterOf) [] k := by
  obtain ⟨-, -, -, -, h5⟩ := config_fields ops
  have hv : v.defaults = (ops.foldl ConfigOp.run {}).defaults := by
    unfold VerifierBuilder.build at h
    split at h
    · cases h
    · split at h
      · split at h <;> cases h
        rfl
      · cases h
  have key : (rops.foldl RequestOp.run (RequestBuilder.new v)).dcqlQuery = lastSaid RequestOp.queryOf rops ∧
      (rops.foldl RequestOp.run (RequestBuilder.new v)).params =
        runOps (ops.filterMap ConfigOp.parameterOf ++ rops.filterMap RequestOp.parameterOf) [] := by
    induction rops using builder_induction with
    | h0 => exact ⟨rfl, by simp [RequestBuilder.new, hv, h5]⟩
    | h1 rops op ih =>
      obtain ⟨h1, h2⟩ := ih
      simp only [List.foldl_append, List.foldl_cons, List.foldl_nil, lastSaid_snoc, List.filterMap_append,
        runOps] at *
      cases op <;>
        simp [RequestOp.run, RequestOp.queryOf, RequestOp.parameterOf, RequestBuilder.withDcqlQuery,
          RequestBuilder.withRequestParameter, List.filterMap_cons, UntypedObject.put, ObjOp.run, h1, h2]
  refine ⟨key.1, fun k => ?_⟩
  rw [key.2]
  exact runOps_mget _ (by simp [Sorted]) k

/-- A history in which everything is said twice. -/
def configSample (c : Client) (u w : Url) : List ConfigOp :=
  [.byReference u, .client c, .parameter (State.mk c!"a"), .endpoint u, .store, .byValue,
   .parameter (Nonce.mk c!"n"), .endpoint w, .parameter (State.mk c!"b")]

/-- The verifier it gives. -/
example (c : Client) (u w : Url) : ((configSample c u w).foldl ConfigOp.run {}).build =
    .ok ⟨c, [(c!"nonce", .str c!"n"), (c!"state", .str c!"b")], .no, w⟩ := rfl

/-- Without a store there is none. -/
example (c : Client) (u w : Url) : (((configSample c u w).take 4).foldl ConfigOp.run {}).build =
    .error .missing := rfl

end Oid4vp
