import Verif.Props.Vocabulary
import Verif.Props.RequestObject
/-!
# C05: what a request object reads from its parameters when asked

Unlike the cached fields these are right after every edit (C06).
-/

set_option autoImplicit false

namespace Oid4vp
open Spec

/-- **C05** The `state` and the query, at any time, of any request object. -/
theorem C05_state_and_query (a : RequestObject) :
    (a.state = none ↔ Absent a.toObject c!"state") ∧
    (∀ s, a.state = some (.ok s) ↔ HasText a.toObject c!"state" s.val) ∧
    (a.dcqlQuery = none ↔ Absent a.toObject c!"dcql_query") ∧
    (∀ q, a.dcqlQuery = some (.ok q) ↔ ∃ j, mget c!"dcql_query" a.toObject = some j ∧ IsQuery j q) := by
  have hs := C74_texts.2.2.2.1
  refine ⟨hs.absent _, fun s => ?_, ?_, fun q => C75_query_read _ q⟩
  · rw [RequestObject.state, hs.read]
    simp [HasText, RequestObject.toObject]
  · exact (paramMeans_of (α := DcqlQuery) (name := c!"dcql_query") (json := DcqlQuery.toJson) rfl
      (fun _ _ => query_means) (fun _ => rfl)).absent _

/-- **C05** The client metadata are the object under that name; for a wallet's checks none are the same as
empty ones, while the accessor reports them as missing. -/
theorem C05_client_metadata (a : RequestObject) (cm : ClientMetadata) :
    (a.clientMetadata = .ok cm ↔ mget c!"client_metadata" a.toObject = some (.obj cm.val)) ∧
    (ClientMetadata.resolve a = .ok cm ↔ mget c!"client_metadata" a.toObject = some (.obj cm.val) ∨
      (Absent a.toObject c!"client_metadata" ∧ cm.val = [])) := by
  have hc := C74_objects.1
  have h1 := hc.read a.inner cm
  have h2 := hc.absent a.inner
  simp only [exists_eq_right] at h1
  simp only [RequestObject.clientMetadata, ClientMetadata.resolve, RequestObject.toObject, ← h1, Absent, ← h2]
  cases UntypedObject.get ClientMetadata a.inner with
  | none =>
    obtain ⟨v⟩ := cm
    simp [eq_comm]
  | some r => simp

/-- **C05** The formats are those of the client metadata, under the names they have there. -/
theorem C05_vp_formats (a : RequestObject) (cm ms : List (Str × Json)) (hs : Sorted ms)
    (hc : mget c!"client_metadata" a.toObject = some (.obj cm))
    (hf : mget c!"vp_formats_supported" cm = some (.obj ms)) :
    ∃ f, a.vpFormats = .ok f ∧ ∀ d p,
      ClaimFormatMap.get d f.val = some p ↔ ∃ s j, (s, j) ∈ ms ∧ FormatName s d ∧ IsPayload j p := by
  obtain ⟨⟨f, h1, h2⟩, -⟩ := C74_formats cm ms hs hf
  refine ⟨f, ?_, h2⟩
  rw [RequestObject.vpFormats, (C05_client_metadata a ⟨cm⟩).1.2 hc]
  simp only [h1]

/-- **C05** There are no formats without client metadata that have an object of them. -/
theorem C05_no_vp_formats (a : RequestObject)
    (h : ∀ cm ms, mget c!"client_metadata" a.toObject = some (.obj cm) →
      mget c!"vp_formats_supported" cm ≠ some (.obj ms)) (f : VpFormats) : a.vpFormats ≠ .ok f := by
  intro hf
  rw [RequestObject.vpFormats] at hf
  split at hf
  · cases hf
  · rename_i cm hcm
    have hc := (C05_client_metadata a cm).1.1 hcm
    split at hf
    · cases hf
    · rename_i r hr
      subst hf
      cases hm : mget c!"vp_formats_supported" cm.val with
      | none => simp [UntypedObject.get, TypedParameter.key, hm] at hr
      | some j => exact (C74_formats_refused cm.val j (fun m e => h _ m hc (e ▸ hm)) hm).1 f hr

/-- **C05** Asked directly, client metadata has the formats a request object reports of it: those of its
object of formats, and an error if it has none. -/
theorem C05_metadata_formats (c : ClientMetadata) :
    (∀ a : RequestObject, mget c!"client_metadata" a.toObject = some (.obj c.val) → c.vpFormats = a.vpFormats) ∧
    ((∃ f, c.vpFormats = .ok f) → ∃ ms, mget c!"vp_formats_supported" c.val = some (.obj ms)) := by
  have h1 : ∀ a : RequestObject, mget c!"client_metadata" a.toObject = some (.obj c.val) →
      c.vpFormats = a.vpFormats := fun a h => by
    rw [RequestObject.vpFormats, (C05_client_metadata a c).1.2 h, ClientMetadata.vpFormats]
    rfl
  refine ⟨h1, fun ⟨f, hf⟩ => ?_⟩
  have hno := C74_formats_refused c.val
  cases hm : mget c!"vp_formats_supported" c.val with
  | none => simp [ClientMetadata.vpFormats, UntypedObject.get, TypedParameter.key, hm] at hf
  | some j =>
    by_contra hne
    have := (hno j (fun m e => hne ⟨m, by rw [e]⟩) hm).1 f
    rw [ClientMetadata.vpFormats] at hf
    split at hf
    · cases hf
    · exact this (by rw [← hf]; assumption)

/-- A request object with everything, whose formats were changed after it was read. -/
def readSample : RequestObject := requestSampleObject.edit (fun o =>
  mset c!"client_metadata" (.obj [(c!"vp_formats_supported", .obj [(c!"mso_mdoc", .obj []), (c!"x", .null)])])
    (mset c!"state" (.str c!"s") o))

example : readSample.state = some (.ok ⟨c!"s"⟩) ∧ readSample.dcqlQuery = none ∧
    ∃ f, readSample.vpFormats = .ok f ∧ (ClaimFormatMap.get .msoMDoc f.val).isSome = true := by
  obtain ⟨h1, h2, h3, h4⟩ := C05_state_and_query readSample
  refine ⟨(h2 ⟨c!"s"⟩).2 (by rfl), h3.2 (by rfl), ?_⟩
  obtain ⟨f, hf, hg⟩ := C05_vp_formats readSample _ [(c!"mso_mdoc", .obj []), (c!"x", .null)]
    (by simp [Sorted]; decide) rfl rfl
  exact ⟨f, hf, Option.isSome_iff_exists.2 ⟨_, (hg _ _).2 ⟨c!"mso_mdoc", .obj [], by simp,
    formatName_iff.1 (by decide), payload_means.1 rfl⟩⟩⟩

example : (∃ ms, mget c!"vp_formats_supported" [(c!"vp_formats_supported", Json.obj [(c!"mso_mdoc", .obj [])])] =
      some (.obj ms)) ∧ (ClientMetadata.mk [(c!"jwks", .obj [])]).vpFormats = .error .missing :=
  ⟨(C05_metadata_formats ⟨[(c!"vp_formats_supported", .obj [(c!"mso_mdoc", .obj [])])]⟩).2 ⟨_, rfl⟩, rfl⟩

end Oid4vp
