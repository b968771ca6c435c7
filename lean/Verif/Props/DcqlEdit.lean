import Verif.Props.Dcql
import Verif.Props.Vocabulary
import Verif.Spec.DcqlEdit
/-!
# Editing queries (C83)
-/

set_option autoImplicit false

namespace Oid4vp
open Spec

/-- The member `k` of a chain of `mset` and `msetOpt` changes and nothing else does. -/
macro "edited" : tactic =>
  `(tactic| (refine ⟨_, _, rfl, rfl, by lookup, ?_⟩
             intro k' hk
             simp only [mget_msetOpt, mget_mset, if_neg hk]
             try rfl))

/-- **C83** Every setter of a credential query changes its member of the document and no other. -/
theorem C83_credential (q : CredentialQuery) (e : CredentialEdit) :
    Edited q.toJson e.says.1 e.says.2 (e.run q).toJson := by
  cases e <;> simp only [CredentialEdit.says, CredentialEdit.run] <;> edited

theorem editedBy_after {doc doc' : Json} {es : List (Str × Option Json)} (h : EditedBy doc es doc') :
    ∀ m, doc = .obj m → ∃ m', doc' = .obj m' ∧ ∀ k v, mget k m' = v ↔ After (fun k => mget k m) es k v := by
  induction h with
  | nil =>
    intro m hm
    refine ⟨m, hm, fun k v => ⟨?_, ?_⟩⟩
    · rintro rfl; exact .untouched (es := []) (by simp)
    · generalize he : ([] : List (Str × Option Json)) = es
      intro h
      cases h with
      | untouched => rfl
      | last => simp at he
  | @cons doc d1 doc' k0 v0 es he _ ih =>
    rintro m rfl
    obtain ⟨m0, m1, h1, rfl, h2, h3⟩ := he
    cases h1
    obtain ⟨m', h4, h5⟩ := ih m1 rfl
    refine ⟨m', h4, fun k v => (h5 k v).trans ⟨?_, ?_⟩⟩
    · intro h
      cases h with
      | untouched h =>
        by_cases hk : k = k0
        · subst hk; try dsimp only
          rw [h2]; exact .last (pre := []) h
        · try dsimp only
          rw [h3 k hk]
          exact .untouched (by simpa using ⟨fun h => hk h.symm, fun a b hab => h (a, b) hab⟩)
      | @last pre post _ _ h => exact .last (pre := (k0, v0) :: pre) h
    · generalize he : (k0, v0) :: es = es'
      intro h
      cases h with
      | untouched h =>
        subst he
        have hk : k ≠ k0 := fun e => h (k0, v0) (by simp) e.symm
        have := After.untouched (before := fun k => mget k m1) (es := es) (k := k) fun e he => h e (by simp [he])
        try dsimp only at this ⊢
        rwa [h3 k hk] at this
      | @last pre post _ _ h =>
        cases pre with
        | nil =>
          simp only [List.nil_append, List.cons.injEq, Prod.mk.injEq] at he
          obtain ⟨⟨rfl, rfl⟩, rfl⟩ := he
          have := After.untouched (before := fun k => mget k m1) (es := es) (k := k0) h
          try dsimp only at this
          rwa [h2] at this
        | cons p pre =>
          simp only [List.cons_append, List.cons.injEq] at he
          obtain ⟨-, rfl⟩ := he
          exact .last h

/-- **C83** After any sequence of edits each member of the document is as the last edit of it says, and as before if
there is none. -/
theorem C83_history (q : CredentialQuery) (es : List CredentialEdit) : ∃ m m', q.toJson = .obj m ∧
    (es.foldl (fun q e => e.run q) q).toJson = .obj m' ∧
    ∀ k v, mget k m' = v ↔ After (fun k => mget k m) (es.map CredentialEdit.says) k v := by
  have h : ∀ (es : List CredentialEdit) (q : CredentialQuery), EditedBy (CredentialQuery.toJson q) (es.map CredentialEdit.says)
      (es.foldl (fun q e => CredentialEdit.run e q) q).toJson := by
    intro es
    induction es with
    | nil => exact fun q => .nil
    | cons e es ih => exact fun q => .cons (C83_credential q e) (ih _)
  obtain ⟨m', h1, h2⟩ := editedBy_after (h es q) _ rfl
  exact ⟨_, m', rfl, h1, h2⟩

/-- **C83** The setters of the other parts of a query. -/
theorem C83_parts (q : DcqlQuery) (t : TrustedAuthoritiesQuery) (s : CredentialSetQuery) (c : ClaimsQuery) :
    (∀ v, Edited q.toJson c!"credentials" (some (list CredentialQuery.toJson v)) (q.setCredentials v).toJson) ∧
    (∀ v, Edited q.toJson c!"credential_sets" (v.map (list CredentialSetQuery.toJson))
      (q.setCredentialSets v).toJson) ∧
    (∀ v, Edited t.toJson c!"type" (some v.toJson) (t.setType v).toJson) ∧
    (∀ v, Edited t.toJson c!"values" (some (list .str v)) (t.setValues v).toJson) ∧
    (∀ v, Edited s.toJson c!"options" (some (list (fun ids => .arr (ids.map .str)) v)) (s.setOptions v).toJson) ∧
    (∀ v, Edited s.toJson c!"required" (v.map .bool) (s.setRequired v).toJson) ∧
    (∀ v, Edited c.toJson c!"id" (v.map .str) (c.setId v).toJson) ∧
    (∀ v, Edited c.toJson c!"path" (some (list PathElem.toJson v)) (c.setPath v).toJson) ∧
    (∀ v, Edited c.toJson c!"values" (v.map (list ClaimValue.toJson)) (c.setValues v).toJson) ∧
    (∀ v, Edited c.toJson c!"intent_to_retain" (v.map .bool) (c.setIntentToRetain v).toJson) := by
  refine ⟨?_, ?_, ?_, ?_, ?_, ?_, ?_, ?_, ?_, ?_⟩ <;> intro v <;> edited

/-- **C83** New queries have the members they are made of and no others. -/
theorem C83_new (id : Str) (f : ClaimFormatDesignation) (cs : NonEmptyVec CredentialQuery)
    (os : NonEmptyVec (List Str)) (p : NonEmptyVec PathElem) :
    (CredentialQuery.new id f).toJson = .obj [(c!"format", f.toJson), (c!"id", .str id), (c!"meta", .obj [])] ∧
    (DcqlQuery.new cs).toJson = .obj [(c!"credentials", list CredentialQuery.toJson cs)] ∧
    (CredentialSetQuery.new os).toJson = .obj [(c!"options", list (fun ids => .arr (ids.map .str)) os)] ∧
    (ClaimsQuery.new p).toJson = .obj [(c!"path", list PathElem.toJson p)] := ⟨rfl, rfl, rfl, rfl⟩

/-- **C83** Lists: made of one element or of a list that is not empty, and extended at the end only. -/
theorem C83_lists {α : Type} (x : α) (v : NonEmptyVec α) (l : List α) :
    (NonEmptyVec.new x).vec = [x] ∧ (v.push x).vec = v.vec ++ [x] ∧ v.intoInner = v.vec ∧
    (∀ w, NonEmptyVec.tryFrom l = .ok w ↔ l ≠ [] ∧ w.vec = l) ∧
    (∀ w, NonEmptyVec.maybeNew l = some w ↔ l ≠ [] ∧ w.vec = l) := by
  refine ⟨rfl, rfl, rfl, ?_, ?_⟩ <;> rintro ⟨w⟩ <;> cases l <;>
    simp [NonEmptyVec.maybeNew, NonEmptyVec.tryFrom, eq_comm]

/-- Two edits of the same member and one of another. -/
example : ∃ m', ([CredentialEdit.multiple (some true), .id c!"b", .multiple none].foldl (fun q e => e.run q)
      (CredentialQuery.new c!"a" .ldpVc)).toJson = .obj m' ∧
    mget c!"id" m' = some (.str c!"b") ∧ mget c!"multiple" m' = none ∧
    mget c!"format" m' = some (.str c!"ldp_vc") := by
  obtain ⟨m, m', h0, h1, h2⟩ := C83_history (CredentialQuery.new c!"a" .ldpVc)
    [.multiple (some true), .id c!"b", .multiple none]
  refine ⟨m', h1, (h2 _ _).2 (.last (pre := [_]) (post := [_]) (by simp [CredentialEdit.says])),
    (h2 _ _).2 (.last (pre := [_, _]) (post := []) (by simp)), (h2 _ _).2 ?_⟩
  rw [(C83_new _ _ ⟨[]⟩ ⟨[]⟩ ⟨[]⟩).1] at h0
  cases h0
  exact .untouched (by simp [CredentialEdit.says])

end Oid4vp
