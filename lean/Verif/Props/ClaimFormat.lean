import Verif.Props.Vocabulary
import Verif.Props.Formats
import Verif.Spec.ClaimFormat
/-!
# Claim formats with their parameters (C84)
-/

set_option autoImplicit false

namespace Oid4vp
open Spec

theorem oneField_iff {k : Str} {v : Json} {l : List Str} :
    ClaimFormat.oneField k v = .ok l ↔ ListUnder k l v := by
  have strs : ∀ (v : Json) (l : List Str), strsOfJson v = .ok l ↔ v = .arr (l.map .str) := by
    intro v l
    simp only [strsOfJson, vec_means (fun _ _ => text_means), texts_array]
  have req : ∀ m, fieldReq k strsOfJson m = .ok l ↔ mget k m = some (.arr (l.map .str)) := by
    intro m
    unfold fieldReq
    cases mget k m <;> simp [strs]
  unfold ClaimFormat.oneField ListUnder
  cases v with
  | obj m => simp [structFields, req]
  | arr a =>
    simp only [structFields, List.length_cons, List.length_nil]
    match a with
    | [] => simp
    | [x] => simp [req, mget]
    | _ :: _ :: _ => simp
  | _ => simp [structFields]

theorem oneField_none {k : Str} {v : Json} {e : Err} (h : ClaimFormat.oneField k v = .error e) (l : List Str) :
    ¬ ListUnder k l v := fun hl => by rw [oneField_iff.2 hl] at h; cases h

theorem known_read {j : Json} {f : ClaimFormat} (h : IsKnownFormat j f) : ClaimFormat.ofJson j = f := by
  cases h with
  | jwt h => simp [ClaimFormat.ofJson, formatJwtVcJson, oneField_iff.2 h]
  | ldp h => simp [ClaimFormat.ofJson, formatJwtVcJson, formatLdpVc, oneField_iff.2 h]
  | mdoc => rfl
  | sdJwt => rfl

theorem read_means (j : Json) : IsClaimFormat j (ClaimFormat.ofJson j) := by
  unfold ClaimFormat.ofJson
  split
  · rename_i k v
    split
    · rename_i hk; subst hk
      split
      · rename_i h; exact .known (.jwt (oneField_iff.1 h))
      · rename_i h; exact .other fun f hf => by
          generalize hj : Json.obj [(formatJwtVcJson, v)] = j at hf
          cases hf <;> simp [formatJwtVcJson] at hj
          rename_i h'; subst hj; exact oneField_none h _ h'
    split
    · rename_i hk; subst hk
      split
      · rename_i h; exact .known (.ldp (oneField_iff.1 h))
      · rename_i h; exact .other fun f hf => by
          generalize hj : Json.obj [(formatLdpVc, v)] = j at hf
          cases hf <;> simp [formatLdpVc] at hj
          rename_i h'; subst hj; exact oneField_none h _ h'
    split
    · rename_i hk; subst hk; exact .known .mdoc
    split
    · rename_i hk; subst hk; exact .known .sdJwt
    · rename_i h1 h2 h3 h4
      exact .other fun f hf => by
        generalize hj : Json.obj [(k, v)] = j at hf
        cases hf <;> simp only [Json.obj.injEq, List.cons.injEq, Prod.mk.injEq] at hj
        · exact h1 hj.1.1
        · exact h2 hj.1.1
        · exact h3 hj.1.1
        · exact h4 hj.1.1
  · rename_i h
    exact .other fun f hf => by cases hf <;> exact h _ _ rfl

/-- **C84** Every JSON value is read, as the format it is a document of. -/
theorem C84_reading (j : Json) (f : ClaimFormat) : ClaimFormat.ofJson j = f ↔ IsClaimFormat j f := by
  constructor
  · rintro rfl; exact read_means j
  · intro h
    cases h with
    | known h => exact known_read h
    | other h =>
      have := read_means j
      generalize ClaimFormat.ofJson j = f at this
      cases this with
      | known h' => exact (h _ h').elim
      | other => rfl

/-- **C84** What is written is a document of the format, unless an unknown format has the form of a known one. -/
theorem C84_roundtrip (f : ClaimFormat) :
    ClaimFormat.ofJson f.toJson = f ↔ ∀ j, f = .other j → ∀ g, ¬ IsKnownFormat j g := by
  rw [C84_reading]
  cases f with
  | jwtVcJson l =>
    simp only [reduceCtorEq, false_implies, implies_true, iff_true]
    exact .known (.jwt (.inl ⟨_, rfl, rfl⟩))
  | ldpVc l =>
    simp only [reduceCtorEq, false_implies, implies_true, iff_true]
    exact .known (.ldp (.inl ⟨_, rfl, rfl⟩))
  | msoMDoc l =>
    simp only [reduceCtorEq, false_implies, implies_true, iff_true]
    exact .known .mdoc
  | dcSdJwt l =>
    simp only [reduceCtorEq, false_implies, implies_true, iff_true]
    exact .known .sdJwt
  | other j =>
    constructor
    · rintro h _ ⟨⟩ g hg
      rw [← C84_reading] at h
      rw [show (ClaimFormat.other j).toJson = j from rfl, known_read hg] at h
      subst h; cases hg
    · intro h; exact .other (h j rfl)

/-- **C84** A value is written again as it was read, except for what accompanies the list of the two formats that have
one. -/
theorem C84_rewritten (j : Json) (h : ∀ v, j ≠ .obj [(c!"jwt_vc_json", v)] ∧ j ≠ .obj [(c!"ldp_vc", v)]) :
    (ClaimFormat.ofJson j).toJson = j := by
  have := read_means j
  generalize ClaimFormat.ofJson j = f at this
  cases this with
  | known hk =>
    cases hk with
    | jwt => exact ((h _).1 rfl).elim
    | ldp => exact ((h _).2 rfl).elim
    | _ => rfl
  | other => rfl

/-- **C84** The designation of a format that was read bears the name its document goes by. -/
theorem C84_designation_name (j : Json) : GoesBy j (ClaimFormat.ofJson j).designation.name := by
  have := read_means j
  generalize ClaimFormat.ofJson j = f at this
  cases this with
  | known hk => cases hk <;> exact .member
  | other =>
    cases j with
    | obj m =>
      cases m with
      | nil => exact .nothing (by simp)
      | cons e m => exact .member
    | _ => exact .nothing (by simp)

/-- **C84** It is the designation of that name exactly if the name is not that of a known format or the document is one
of a known format. -/
theorem C84_designation (j : Json) (k : Str) (hk : GoesBy j k) :
    FormatName k (ClaimFormat.ofJson j).designation ↔
      (k ∈ [c!"jwt_vc_json", c!"ldp_vc", c!"mso_mdoc", c!"dc+sd-jwt"] → ∃ f, IsKnownFormat j f) := by
  have hn : (ClaimFormat.ofJson j).designation.name = k := by
    have := C84_designation_name j
    generalize (ClaimFormat.ofJson j).designation.name = k' at this
    cases this <;> cases hk
    · rfl
    · rename_i h; exact (h _ _ _ rfl).elim
    · rename_i h; exact (h _ _ _ rfl).elim
    · rfl
  have hr := read_means j
  constructor
  · intro h hm
    generalize ClaimFormat.ofJson j = f at *
    cases hr with
    | known h' => exact ⟨_, h'⟩
    | other h' =>
      have : ∃ s, (ClaimFormat.other j).designation = .other s := by
        unfold ClaimFormat.designation; split <;> simp at *
      obtain ⟨s, hs⟩ := this
      rw [hs] at h hn
      subst hn
      cases h with
      | other h => exact (h hm).elim
  · intro h
    generalize ClaimFormat.ofJson j = f at *
    cases hr with
    | known h' =>
      subst hn
      cases h' <;> constructor
    | other h' =>
      have : ∃ s, (ClaimFormat.other j).designation = .other s := by
        unfold ClaimFormat.designation; split <;> simp at *
      obtain ⟨s, hs⟩ := this
      rw [hs] at hn ⊢
      subst hn
      exact .other fun hm => (h hm).elim fun f hf => h' f hf

/-- **C84** Two formats at once are taken for one that is not known, under the name of a known one. -/
theorem C84_two_formats : (ClaimFormat.ofJson (.obj [(c!"ldp_vc", .obj [(c!"proof_type", .arr [])]),
      (c!"mso_mdoc", .obj [])])).designation = .other c!"ldp_vc" ∧
    ClaimFormatDesignation.fromName c!"ldp_vc" = .ldpVc := ⟨rfl, rfl⟩

/-- **C84** Parameters: an algorithm is added at the end of a list of algorithms, a proof type at the end of one of
proof types, and nothing else changes. -/
theorem C84_parameters (p : ClaimFormatPayload) (t : Str) :
    (∀ l, p = .algValues l → (p.addAlg t) = .algValues (l ++ [t])) ∧
    (∀ l, p = .proofTypeValues l → (p.addProofType t) = .proofTypeValues (l ++ [t])) ∧
    ((∀ l, p ≠ .algValues l) → p.addAlg t = p) ∧ ((∀ l, p ≠ .proofTypeValues l) → p.addProofType t = p) := by
  cases p <;> simp [ClaimFormatPayload.addAlg, ClaimFormatPayload.addProofType]

example : IsClaimFormat (.obj [(c!"jwt_vc_json", .obj [(c!"alg_values_supported", .arr [.str c!"ES256"]),
    (c!"x", .null)])]) (.jwtVcJson [c!"ES256"]) := .known (.jwt (.inl ⟨_, rfl, by decide⟩))

example : ClaimFormat.ofJson (.obj [(c!"jwt_vc_json", .arr [.arr [.str c!"ES256"]])]) = .jwtVcJson [c!"ES256"] :=
  (C84_reading _ _).2 (.known (.jwt (.inr rfl)))

/-- A document under a known name that is not one of the format. -/
example : ¬ FormatName c!"ldp_vc" (ClaimFormat.ofJson (.obj [(c!"ldp_vc", .null)])).designation := by
  rw [C84_designation _ _ .member]
  intro h
  obtain ⟨f, hf⟩ := h (by simp)
  generalize hj : Json.obj [(c!"ldp_vc", .null)] = j at hf
  cases hf <;> simp at hj
  rename_i h; subst hj
  simp [ListUnder] at h

end Oid4vp
