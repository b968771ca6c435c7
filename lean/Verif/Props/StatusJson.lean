import Verif.Model.StatusJson
import Verif.Spec.StatusJson
import Verif.Props.WalletStore
/-!
# The status of a session as JSON (C81)
-/

set_option autoImplicit false

namespace Oid4vp
open Spec WalletApp

theorem statusName_iff {s : Str} {st : Status} : Status.ofName s = .ok st ↔ StatusName s st := by
  unfold Status.ofName
  constructor
  · intro h
    split at h
    · rename_i e; cases h; subst e; exact .byReference
    split at h
    · rename_i e; cases h; subst e; exact .sent
    split at h
    · rename_i e; cases h; subst e; exact .received
    · cases h
  · rintro (_ | _ | _) <;> rfl

theorem statusName_ne {st : Status} : ¬ StatusName c!"Complete" st := by
  rw [← statusName_iff]; simp [Status.ofName]

theorem except_map_ok {α β : Type} {f : α → β} {x : Res α} {b : β} :
    x.map f = .ok b ↔ ∃ a, x = .ok a ∧ f a = b := by
  cases x <;> simp [Except.map]

theorem outcome_value {j : Json} {o : Outcome} : Outcome.ofJson j = .ok o ↔ OutcomeDoc MemberFields Eq j o := by
  constructor
  · intro h
    unfold Outcome.ofJson at h
    split at h
    · rename_i k m
      split at h
      · rename_i e; subst e
        obtain ⟨a, h', rfl⟩ := except_map_ok.1 h
        exact .error ⟨_, rfl, rfl⟩ ((required_means fun _ _ => text_means).1 h')
      split at h
      · rename_i e; subst e
        obtain ⟨a, h', rfl⟩ := except_map_ok.1 h
        exact .failure ⟨_, rfl, rfl⟩ ((required_means fun _ _ => text_means).1 h')
      split at h
      · rename_i e; subst e
        obtain ⟨a, h', rfl⟩ := except_map_ok.1 h
        exact .success ⟨_, rfl, rfl⟩ ((required_means (f := .ok) (means := Eq) (by simp)).1 h')
      · cases h
    · cases h
  · rintro (⟨⟨m, rfl, rfl⟩, h⟩ | ⟨⟨m, rfl, rfl⟩, h⟩ | ⟨⟨m, rfl, rfl⟩, h⟩)
    · rw [← required_means (fun _ _ => text_means)] at h
      simp [Outcome.ofJson, h, Except.map]
    · rw [← required_means (fun _ _ => text_means)] at h
      simp [Outcome.ofJson, h, Except.map]
    · rw [← required_means (f := .ok) (by simp)] at h
      simp [Outcome.ofJson, h, Except.map]

theorem status_value {fields value} {ofO : Json → Res Outcome}
    (ho : ∀ j o, ofO j = .ok o ↔ OutcomeDoc fields value j o) {rd : Json → Res Status}
    (h1 : ∀ s, rd (.str s) = Status.ofName s)
    (h2 : ∀ k j, rd (.obj [(k, j)]) = if k = c!"Complete" then (ofO j).map .complete else
      match j with
      | .null => Status.ofName k
      | _ => .error .parse)
    (h3 : ∀ j s, rd j = .ok s → (∃ t, j = .str t) ∨ ∃ k v, j = .obj [(k, v)]) (j : Json) (s : Status) :
    rd j = .ok s ↔ StatusDoc fields value j s := by
  constructor
  · intro h
    rcases h3 j s h with ⟨t, rfl⟩ | ⟨k, v, rfl⟩
    · rw [h1, statusName_iff] at h; exact .name h
    · rw [h2] at h
      split at h
      · rename_i e; subst e
        obtain ⟨o, h', rfl⟩ := except_map_ok.1 h
        exact .complete ((ho _ _).1 h')
      · split at h
        · exact .nameNull (statusName_iff.1 h)
        · cases h
  · rintro (h | h | h)
    · rw [h1, statusName_iff]; exact h
    · rw [h2, if_neg (by rintro rfl; exact statusName_ne h)]
      exact statusName_iff.2 h
    · rw [h2, if_pos rfl, (ho _ _).2 h]; rfl

theorem single_cases {rd : Json → Res Status} (hr : rd = Status.ofJson ∨ rd = Status.ofRaw) (j : Json) (s : Status)
    (h : rd j = .ok s) : (∃ t, j = .str t) ∨ ∃ k v, j = .obj [(k, v)] := by
  cases j with
  | str t => exact .inl ⟨t, rfl⟩
  | obj m =>
    match m with
    | [(k, v)] => exact .inr ⟨k, v, rfl⟩
    | [] => rcases hr with rfl | rfl <;> simp [Status.ofJson, Status.ofRaw] at h
    | _ :: _ :: _ => rcases hr with rfl | rfl <;> simp [Status.ofJson, Status.ofRaw] at h
  | _ => rcases hr with rfl | rfl <;> simp [Status.ofJson, Status.ofRaw] at h

/-- **C81** Exactly the JSON values that stand for a status are read, each as that status. -/
theorem C81_value (j : Json) (s : Status) : Status.ofJson j = .ok s ↔ StatusValue j s :=
  status_value (fun _ _ => outcome_value) (fun _ => rfl) (fun _ _ => rfl) (single_cases (.inl rfl)) j s

example : StatusValue (.obj [(c!"Complete", .obj [(c!"Failure", .obj [(c!"reason", .str c!"expired"),
    (c!"when", .int 5)])])]) (.complete (.failure c!"expired")) :=
  .complete (.failure ⟨_, rfl, rfl⟩ ⟨_, rfl, rfl⟩)
example : ∀ s, ¬ StatusValue (.str c!"Complete") s := fun s h => by
  rw [← C81_value] at h; simp [Status.ofJson, Status.ofName] at h

theorem structField {α : Type} {name : Str} {f : Json → Res α} {means : Json → α → Prop}
    (hm : ∀ j v, f j = .ok v ↔ means j v) {j : Json} {v : α} :
    (∃ m, structText [name] j = .ok m ∧ fieldReq name f m = .ok v) ↔
      ∃ field, FieldsOnce [name] j field ∧ Mandatory field name means v := by
  have hn : [name].Nodup := by simp
  constructor
  · rintro ⟨m, h1, h2⟩
    exact ⟨_, fieldsOnce_means hn h1, (required_means hm).1 h2⟩
  · rintro ⟨field, h1, h2⟩
    obtain ⟨m, h3, e⟩ := fieldsOnce_read hn h1
    rw [mandatory_congr (g := fun k => mget k m) (e _ (by simp)), ← required_means hm] at h2
    exact ⟨m, h3, h2⟩

theorem outcome_raw {j : Json} {o : Outcome} : Outcome.ofRaw j = .ok o ↔ OutcomeDoc FieldsOnce Settles j o := by
  have hs : ∀ j v : Json, (Except.ok j.norm : Res Json) = .ok v ↔ Settles j v := fun j v => by
    rw [settles_iff, Except.ok.injEq, eq_comm]
  constructor
  · intro h
    unfold Outcome.ofRaw at h
    split at h
    · rename_i k j
      split at h
      · rename_i e; subst e
        split at h
        · cases h
        rename_i m hm
        obtain ⟨a, h', rfl⟩ := except_map_ok.1 h
        obtain ⟨f, h1, h2⟩ := (structField fun _ _ => text_means).1 ⟨m, hm, h'⟩
        exact .error h1 h2
      split at h
      · rename_i e; subst e
        split at h
        · cases h
        rename_i m hm
        obtain ⟨a, h', rfl⟩ := except_map_ok.1 h
        obtain ⟨f, h1, h2⟩ := (structField fun _ _ => text_means).1 ⟨m, hm, h'⟩
        exact .failure h1 h2
      split at h
      · rename_i e; subst e
        split at h
        · cases h
        rename_i m hm
        obtain ⟨a, h', rfl⟩ := except_map_ok.1 h
        obtain ⟨f, h1, h2⟩ := (structField hs).1 ⟨m, hm, h'⟩
        exact .success h1 h2
      · cases h
    · cases h
  · rintro (⟨h1, h2⟩ | ⟨h1, h2⟩ | ⟨h1, h2⟩)
    · obtain ⟨m, h3, h4⟩ := (structField fun _ _ => text_means).2 ⟨_, h1, h2⟩
      simp [Outcome.ofRaw, h3, h4, Except.map]
    · obtain ⟨m, h3, h4⟩ := (structField fun _ _ => text_means).2 ⟨_, h1, h2⟩
      simp [Outcome.ofRaw, h3, h4, Except.map]
    · obtain ⟨m, h3, h4⟩ := (structField hs).2 ⟨_, h1, h2⟩
      simp [Outcome.ofRaw, h3, h4, Except.map]

/-- **C81** Exactly the JSON texts that stand for a status are read, each as that status. -/
theorem C81_text (t : Str) (s : Status) : Status.ofText t = .ok s ↔ StatusText t s := by
  have h := status_value (fun _ _ => outcome_raw) (fun _ => rfl) (fun _ _ => rfl) (single_cases (.inr rfl))
  unfold Status.ofText StatusText
  constructor
  · intro h'
    split at h'
    · cases h'
    exact ⟨_, RawJson.jParseRaw_iff.1 (by assumption), (h _ _).1 h'⟩
  · rintro ⟨j, h1, h2⟩
    rw [RawJson.jParseRaw_iff.2 h1]
    exact (h _ _).2 h2

example : StatusText c!"{\"Complete\": {\"Error\": [\"no\"]}}" (.complete (.error c!"no")) :=
  (C81_text _ _).1 (by decide +kernel)
example : ¬ StatusText c!"{\"SentRequest\": null, \"SentRequest\": null}" .sentRequest := fun h =>
  absurd ((C81_text _ _).2 h) (by decide +kernel)

/-- **C81** What is written for a status stands for it, and is read as it. -/
theorem C81_round_trip (s : Status) : StatusValue s.toJson s ∧ Status.ofJson s.toJson = .ok s := by
  have h : StatusValue s.toJson s := by
    cases s with
    | complete o =>
      refine .complete ?_
      cases o with
      | error c => exact .error ⟨_, rfl, rfl⟩ ⟨_, by simp [mget], rfl⟩
      | failure c => exact .failure ⟨_, rfl, rfl⟩ ⟨_, by simp [mget], rfl⟩
      | success c => exact .success ⟨_, rfl, rfl⟩ ⟨_, by simp [mget], rfl⟩
    | sentRequestByReference => exact .name .byReference
    | sentRequest => exact .name .sent
    | receivedResponse => exact .name .received
  exact ⟨h, (C81_value _ _).2 h⟩

/-- **C81** The text that is written for each status. -/
theorem C81_wire : jPrint Status.sentRequestByReference.toJson = c!"\"SentRequestByReference\"" ∧
    jPrint Status.sentRequest.toJson = c!"\"SentRequest\"" ∧
    jPrint Status.receivedResponse.toJson = c!"\"ReceivedResponse\"" ∧
    (∀ cause, jPrint (Status.complete (.error cause)).toJson =
      c!"{\"Complete\":{\"Error\":{\"cause\":" ++ jPrint (.str cause) ++ c!"}}}") ∧
    (∀ reason, jPrint (Status.complete (.failure reason)).toJson =
      c!"{\"Complete\":{\"Failure\":{\"reason\":" ++ jPrint (.str reason) ++ c!"}}}") ∧
    ∀ info, jPrint (Status.complete (.success info)).toJson =
      c!"{\"Complete\":{\"Success\":{\"info\":" ++ jPrint info ++ c!"}}}" := by
  have hk : jStr c!"Complete" = c!"\"Complete\"" ∧ jStr c!"Error" = c!"\"Error\"" ∧
      jStr c!"Failure" = c!"\"Failure\"" ∧ jStr c!"Success" = c!"\"Success\"" ∧
      jStr c!"cause" = c!"\"cause\"" ∧ jStr c!"reason" = c!"\"reason\"" ∧ jStr c!"info" = c!"\"info\"" := by
    decide +kernel
  obtain ⟨h1, h2, h3, h4, h5, h6, h7⟩ := hk
  refine ⟨by decide +kernel, by decide +kernel, by decide +kernel, ?_, ?_, ?_⟩ <;> intro x <;>
    simp only [Status.toJson, Outcome.toJson, jPrint, jPrintM, h1, h2, h3, h4, h5, h6, h7, List.cons_append,
      List.append_assoc, List.nil_append]

/-- **C81** The text that is written is read as the same status, unless what was found out about the
credential is nested so deep that the text has more than 127 nested brackets. -/
theorem C81_text_round_trip (s : Status) (h : ∀ info, s = .complete (.success info) → info.WF FloatText) :
    Status.ofText (jPrint s.toJson) = .ok s ↔ ∀ info, s = .complete (.success info) → info.depth ≤ 124 := by
  have hd : (∀ info, s = .complete (.success info) → info.depth ≤ 124) ↔ s.toJson.depth ≤ jsonMaxDepth := by
    cases s with
    | complete o => cases o <;> simp [Status.toJson, Outcome.toJson, Json.depth, Json.depthM, jsonMaxDepth]
    | _ => simp [Status.toJson, Json.depth]
  have h : ∀ info, s = .complete (.success info) → info.WF FltLit := fun info e =>
    wf_mono (fun _ => fltLit_of_floatText) info (h info e)
  have hf : s.toJson.NumOk := by
    cases s with
    | complete o =>
      cases o with
      | success info => simp [Status.toJson, Outcome.toJson, Json.NumOk, Json.NumOkM, numOk_of_WF info (h info rfl)]
      | _ => simp [Status.toJson, Outcome.toJson, Json.NumOk, Json.NumOkM]
    | _ => simp [Status.toJson, Json.NumOk]
  rw [hd]
  unfold Status.ofText
  constructor
  · intro h'
    by_contra hc
    rw [jParseRaw_deep (by omega) hf] at h'
    cases h'
  · intro hd
    rw [jParseRaw_jPrint hd hf]
    cases s with
    | complete o =>
      cases o with
      | success info =>
        have : info.norm = info := norm_of_WF info (h info rfl)
        simp [Status.toJson, Outcome.toJson, Status.ofRaw, Outcome.ofRaw, structText, structFields, fieldsOnce, fieldReq,
          mget, Except.map, this]
      | _ =>
        simp [Status.toJson, Outcome.toJson, Status.ofRaw, Outcome.ofRaw, structText, structFields, fieldsOnce, fieldReq,
          mget, Except.map, strOfJson]
    | _ => rfl

example : Status.ofText (jPrint (Status.complete (.success (.arr [.int 1]))).toJson) =
    .ok (.complete (.success (.arr [.int 1]))) := by decide +kernel

/-- **C81** Statuses that the code takes for equal are written differently: equality looks only at
how a session ended, not at what is recorded with it. -/
theorem C81_equal_written_differently : ∃ a b : Status, a.eq b = true ∧ a.toJson ≠ b.toJson ∧
    a.toJson.WF FloatText ∧ b.toJson.WF FloatText :=
  ⟨.complete (.failure c!"expired"), .complete (.failure c!"revoked"), by decide, by decide, by
    simp [Status.toJson, Outcome.toJson, Json.WF, Json.WFM, Sorted], by
    simp [Status.toJson, Outcome.toJson, Json.WF, Json.WFM, Sorted]⟩

end Oid4vp
