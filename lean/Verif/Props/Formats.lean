import Verif.Spec.Format
import Verif.Props.Dcql
import Verif.Lemmas.Url
/-!
# C49, C50: format capabilities and wallet metadata
-/

set_option autoImplicit false

namespace Oid4vp

open Spec

/-! ## C49 -/

theorem name_fromName (s : Str) : (ClaimFormatDesignation.fromName s).name = s := by
  simp only [ClaimFormatDesignation.fromName]
  by_cases h1 : s = formatJwtVcJson
  · rw [if_pos h1, h1]; rfl
  by_cases h2 : s = formatLdpVc
  · rw [if_neg h1, if_pos h2, h2]; rfl
  by_cases h3 : s = formatMsoMdoc
  · rw [if_neg h1, if_neg h2, if_pos h3, h3]; rfl
  by_cases h4 : s = formatDcSdJwt
  · rw [if_neg h1, if_neg h2, if_neg h3, if_pos h4, h4]; rfl
  rw [if_neg h1, if_neg h2, if_neg h3, if_neg h4]; rfl

theorem fromName_name {d : ClaimFormatDesignation} :
    ClaimFormatDesignation.fromName d.name = d ↔ FormatOk d := by
  have := format_roundtrip d
  simpa [ClaimFormatDesignation.ofJson, ClaimFormatDesignation.toJson] using this

theorem payload_roundtrip (p : ClaimFormatPayload) :
    ClaimFormatPayload.ofJson p.toJson = p ↔ PayloadOk p := by
  cases p with
  | algValues l =>
    simp only [ClaimFormatPayload.toJson, ClaimFormatPayload.ofJson, strs_roundtrip, PayloadOk]
    simp
  | proofTypeValues l =>
    simp only [ClaimFormatPayload.toJson, ClaimFormatPayload.ofJson, strs_roundtrip, PayloadOk]
    simp
  | other j =>
    simp only [ClaimFormatPayload.toJson, PayloadOk, TextsUnder]
    constructor
    · intro h l
      constructor
      · rintro rfl
        have : ClaimFormatPayload.ofJson (.obj [(c!"alg_values", strsToJson l)]) = .algValues l := by
          simp only [ClaimFormatPayload.ofJson, strs_roundtrip]; simp
        rw [strsToJson] at this
        rw [this] at h; simp at h
      · rintro rfl
        have : ClaimFormatPayload.ofJson (.obj [(c!"proof_type_values", strsToJson l)]) =
            .proofTypeValues l := by
          simp only [ClaimFormatPayload.ofJson, strs_roundtrip]; simp
        rw [strsToJson] at this
        rw [this] at h; simp at h
    · intro h
      unfold ClaimFormatPayload.ofJson
      split
      · rename_i k v
        split
        · rename_i hk
          split
          · rename_i l hl
            exfalso
            rw [hk, strsOfJson_ok.mp hl] at h
            exact (h l).1 rfl
          · rfl
        · split
          · rename_i hk
            split
            · rename_i l hl
              exfalso
              rw [hk, strsOfJson_ok.mp hl] at h
              exact (h l).2 rfl
            · rfl
          · rfl
      · rfl

theorem payload_of_json (j : Json) : (ClaimFormatPayload.ofJson j).toJson = j := by
  unfold ClaimFormatPayload.ofJson
  split
  · split
    · rename_i hk
      split
      · rename_i hl; rw [ClaimFormatPayload.toJson, hk, strsOfJson_ok.mp hl]
      · rfl
    · split
      · rename_i hk
        split
        · rename_i hl; rw [ClaimFormatPayload.toJson, hk, strsOfJson_ok.mp hl]
        · rfl
      · rfl
  · rfl

theorem get_insert (d e : ClaimFormatDesignation) (p : ClaimFormatPayload) (m : ClaimFormatMap) :
    ClaimFormatMap.get d (ClaimFormatMap.insert e p m) =
      if d = e then some p else ClaimFormatMap.get d m := by
  induction m with
  | nil => simp only [ClaimFormatMap.insert, ClaimFormatMap.get]
  | cons x m ih =>
    obtain ⟨d', p'⟩ := x
    simp only [ClaimFormatMap.insert]
    split
    · rename_i h
      simp only [ClaimFormatMap.get]
      by_cases h1 : d = e
      · simp [h1]
      · simp [h1, ← h]
    · rename_i h
      simp only [ClaimFormatMap.get, ih]
      by_cases h1 : d = d'
      · have : ¬ d' = e := fun h2 => h h2.symm
        simp [h1, this]
      · simp [h1]

/-- Entries of a map read from JSON members with different names. -/
theorem get_foldl (d : ClaimFormatDesignation) (ms : List (Str × Json)) (acc : ClaimFormatMap)
    (hs : Sorted ms) :
    ClaimFormatMap.get d (ms.foldl (fun acc kv => ClaimFormatMap.insert
        (ClaimFormatDesignation.fromName kv.1) (ClaimFormatPayload.ofJson kv.2) acc) acc) =
      match (if ClaimFormatDesignation.fromName d.name = d then mget d.name ms else none) with
      | some j => some (ClaimFormatPayload.ofJson j)
      | none => ClaimFormatMap.get d acc := by
  induction ms generalizing acc with
  | nil => simp [mget]
  | cons x ms ih =>
    obtain ⟨k, j⟩ := x
    simp only [Sorted] at hs
    rw [List.foldl_cons, ih _ hs.2, get_insert]
    by_cases hd : ClaimFormatDesignation.fromName d.name = d
    · simp only [if_pos hd, mget]
      by_cases hk : d.name = k
      · have hn : mget d.name ms = none := by
          refine mget_none_of_notMem fun v hv => ?_
          have := hs.1 _ hv
          rw [← hk, strLt_irrefl] at this
          simp at this
        rw [hn, if_pos hk]
        have : d = ClaimFormatDesignation.fromName k := by rw [← hk, hd]
        simp [this]
      · rw [if_neg hk]
        have : d ≠ ClaimFormatDesignation.fromName k := by
          rintro rfl; exact hk (name_fromName k)
        rw [if_neg this]
    · simp only [if_neg hd]
      have : d ≠ ClaimFormatDesignation.fromName k := by
        rintro rfl; exact hd (by rw [name_fromName])
      rw [if_neg this]

open Classical in
/-- A map read from a JSON object, entry by entry. -/
theorem get_ofJson {ms : List (Str × Json)} (hs : Sorted ms) {m : ClaimFormatMap}
    (h : ClaimFormatMap.ofJson (.obj ms) = .ok m) (d : ClaimFormatDesignation) :
    ClaimFormatMap.get d m =
      if FormatOk d then (mget d.name ms).map ClaimFormatPayload.ofJson else none := by
  simp only [ClaimFormatMap.ofJson, Except.ok.injEq] at h
  rw [← h, get_foldl d ms [] hs]
  by_cases hd : FormatOk d
  · rw [if_pos hd, if_pos (fromName_name.mpr hd)]
    cases mget d.name ms <;> rfl
  · rw [if_neg hd, if_neg (fun h => hd (fromName_name.mp h))]; rfl

theorem get_of_mem {m : ClaimFormatMap} (hm : DistinctKeys m) {e : ClaimFormatDesignation × ClaimFormatPayload}
    (he : e ∈ m) : ClaimFormatMap.get e.1 m = some e.2 := by
  induction m with
  | nil => simp at he
  | cons x m ih =>
    obtain ⟨d, p⟩ := x
    simp only [DistinctKeys] at hm
    rcases List.mem_cons.mp he with rfl | he
    · simp [ClaimFormatMap.get]
    · simp only [ClaimFormatMap.get, if_neg (hm.1 e he)]
      exact ih hm.2 he

theorem mem_of_get {m : ClaimFormatMap} {d : ClaimFormatDesignation} {p : ClaimFormatPayload}
    (h : ClaimFormatMap.get d m = some p) : (d, p) ∈ m := by
  induction m with
  | nil => simp [ClaimFormatMap.get] at h
  | cons x m ih =>
    obtain ⟨d', p'⟩ := x
    simp only [ClaimFormatMap.get] at h
    split at h
    · rename_i hd; cases h; simp [hd]
    · exact List.mem_cons_of_mem _ (ih h)

/-- The members of a printed map whose keys are proper. -/
theorem mget_toJson {m : ClaimFormatMap} (hm : DistinctKeys m) (hok : ∀ e ∈ m, FormatOk e.1)
    (k : Str) :
    mget k (mofList (m.map (fun e => (e.1.name, e.2.toJson)))) =
      (ClaimFormatMap.get (ClaimFormatDesignation.fromName k) m).map ClaimFormatPayload.toJson := by
  have hnd : NoDupKeys (m.map (fun e => (e.1.name, e.2.toJson))) := by
    induction m with
    | nil => exact List.Pairwise.nil
    | cons x m ih =>
      simp only [DistinctKeys] at hm
      simp only [List.map_cons, NoDupKeys, List.nodup_cons]
      refine ⟨?_, ih hm.2 fun e he => hok e (List.mem_cons_of_mem _ he)⟩
      intro hp
      obtain ⟨p, hp, hne⟩ := List.mem_map.mp hp
      obtain ⟨e, he, rfl⟩ := List.mem_map.mp hp
      apply hm.1 e he
      have h1 := fromName_name.mpr (hok e (List.mem_cons_of_mem _ he))
      have h2 := fromName_name.mpr (hok x (List.mem_cons_self ..))
      rw [← h1, ← h2]
      exact congrArg _ hne
  rw [mget_mofList, ← mget_perm hnd (List.reverse_perm _).symm]
  clear hnd
  induction m with
  | nil => rfl
  | cons x m ih =>
    simp only [DistinctKeys] at hm
    obtain ⟨d, p⟩ := x
    have hd := fromName_name.mpr (hok _ (List.mem_cons_self ..))
    simp only at hd
    simp only [List.map_cons, mget, ClaimFormatMap.get]
    by_cases h : k = d.name
    · have : ClaimFormatDesignation.fromName k = d := by rw [h, hd]
      rw [if_pos h, if_pos this]; rfl
    · have : ClaimFormatDesignation.fromName k ≠ d := by
        rintro rfl; exact h (name_fromName k).symm
      rw [if_neg h, if_neg this]
      exact ih hm.2 fun e he => hok e (List.mem_cons_of_mem _ he)

/-- **C49** A capability map survives the trip through JSON exactly if its catch-all names do
not spell known formats and its catch-all payloads do not look like known payloads. -/
theorem C49_format_map_roundtrip (m : ClaimFormatMap) (hm : DistinctKeys m) :
    (∃ m', ClaimFormatMap.ofJson (ClaimFormatMap.toJson m) = .ok m' ∧ SameMap m' m) ↔
      ∀ e ∈ m, FormatOk e.1 ∧ PayloadOk e.2 := by
  have hs := mofList_sorted (m.map (fun e => (e.1.name, e.2.toJson)))
  constructor
  · rintro ⟨m', h, hsame⟩
    have hok : ∀ e ∈ m, FormatOk e.1 := by
      intro e he
      have h1 := hsame e.1
      rw [get_of_mem hm he, get_ofJson hs h] at h1
      exact Classical.byContradiction fun hn => by rw [if_neg hn] at h1; simp at h1
    intro e he
    refine ⟨hok e he, ?_⟩
    have h1 := hsame e.1
    rw [get_of_mem hm he, get_ofJson hs h, if_pos (hok e he), mget_toJson hm hok,
      fromName_name.mpr (hok e he), get_of_mem hm he] at h1
    exact (payload_roundtrip e.2).mp (by simpa using h1)
  · intro hok
    refine ⟨_, rfl, fun d => ?_⟩
    rw [get_ofJson hs rfl]
    by_cases hd : FormatOk d
    · rw [if_pos hd, mget_toJson hm (fun e he => (hok e he).1), fromName_name.mpr hd]
      cases hg : ClaimFormatMap.get d m with
      | none => rfl
      | some p => simp [(payload_roundtrip p).mpr (hok _ (mem_of_get hg)).2]
    · rw [if_neg hd]
      cases hg : ClaimFormatMap.get d m with
      | none => rfl
      | some p => exact absurd (hok _ (mem_of_get hg)).1 hd

/-- **C49** Reading a JSON object as a capability map and printing the map gives the same
object. -/
theorem C49_format_json_roundtrip (ms : List (Str × Json)) (hs : Sorted ms) :
    ∃ m, ClaimFormatMap.ofJson (.obj ms) = .ok m ∧ DistinctKeys m ∧ (∀ e ∈ m, FormatOk e.1) ∧
      ClaimFormatMap.toJson m = .obj ms := by
  have key : ∀ (ms : List (Str × Json)) (acc : ClaimFormatMap), DistinctKeys acc →
      (∀ e ∈ acc, FormatOk e.1) →
      DistinctKeys (ms.foldl (fun acc kv => ClaimFormatMap.insert
        (ClaimFormatDesignation.fromName kv.1) (ClaimFormatPayload.ofJson kv.2) acc) acc) ∧
      ∀ e ∈ (ms.foldl (fun acc kv => ClaimFormatMap.insert
        (ClaimFormatDesignation.fromName kv.1) (ClaimFormatPayload.ofJson kv.2) acc) acc),
        FormatOk e.1 := by
    intro ms
    induction ms with
    | nil => intro acc h1 h2; exact ⟨h1, h2⟩
    | cons x ms ih =>
      intro acc h1 h2
      have hmem : ∀ (d : ClaimFormatDesignation) (p : ClaimFormatPayload) (acc : ClaimFormatMap),
          ∀ e ∈ ClaimFormatMap.insert d p acc, e.1 = d ∨ e ∈ acc := by
        intro d p acc
        induction acc with
        | nil => intro e he; simp [ClaimFormatMap.insert] at he; simp [he]
        | cons y acc ih =>
          intro e he
          simp only [ClaimFormatMap.insert] at he
          split at he
          · rcases List.mem_cons.mp he with rfl | he
            · exact .inl rfl
            · exact .inr (List.mem_cons_of_mem _ he)
          · rcases List.mem_cons.mp he with rfl | he
            · exact .inr (List.mem_cons_self ..)
            · rcases ih e he with h | h
              · exact .inl h
              · exact .inr (List.mem_cons_of_mem _ h)
      have hdist : ∀ (d : ClaimFormatDesignation) (p : ClaimFormatPayload) (acc : ClaimFormatMap),
          DistinctKeys acc → DistinctKeys (ClaimFormatMap.insert d p acc) := by
        intro d p acc
        induction acc with
        | nil => intro _; simp [ClaimFormatMap.insert, DistinctKeys]
        | cons y acc ih =>
          intro h
          simp only [DistinctKeys] at h
          simp only [ClaimFormatMap.insert]
          split
          · rename_i hd
            exact ⟨by rw [hd]; exact h.1, h.2⟩
          · rename_i hd
            refine ⟨fun e he => ?_, ih h.2⟩
            rcases hmem _ _ _ e he with h' | h'
            · rw [h']; exact hd
            · exact h.1 e h'
      refine ih _ (hdist _ _ _ h1) fun e he => ?_
      rcases hmem _ _ _ e he with h' | h'
      · rw [h']; exact fromName_ok _
      · exact h2 e h'
  obtain ⟨h1, h2⟩ := key ms [] trivial (by simp)
  refine ⟨_, rfl, h1, h2, ?_⟩
  simp only [ClaimFormatMap.toJson, Json.obj.injEq]
  refine map_ext (mofList_sorted _) hs fun k => ?_
  rw [mget_toJson h1 h2, get_ofJson hs rfl, if_pos (fromName_ok k), name_fromName]
  cases mget k ms with
  | none => rfl
  | some j => simp [payload_of_json]

/-- **C49** A verifier supports a security method for a format exactly if the method is among
the listed algorithms or proof types of that format. -/
theorem C49_supports_security_method (f : VpFormats) (d : ClaimFormatDesignation) (method : Str) :
    f.supportsSecurityMethod d method = true ↔
      ∃ l, (ClaimFormatMap.get d f.val = some (.algValues l) ∨
        ClaimFormatMap.get d f.val = some (.proofTypeValues l)) ∧ method ∈ l := by
  simp only [VpFormats.supportsSecurityMethod]
  cases ClaimFormatMap.get d f.val with
  | none => simp
  | some p => cases p <;> simp

/-- **C49** The same for formats read from JSON, in terms of the JSON document: under the
name of the format there is an object with the single member `alg_values` (or
`proof_type_values`), an array of texts that contains the method. -/
theorem C49_supports_security_method_json {ms : List (Str × Json)} (hs : Sorted ms) {f : VpFormats}
    (h : TypedParameter.ofJson (.obj ms) = (.ok f : Res VpFormats)) (name method : Str) :
    f.supportsSecurityMethod (ClaimFormatDesignation.fromName name) method = true ↔
      ∃ l j, mget name ms = some j ∧ method ∈ l ∧
        (TextsUnder c!"alg_values" l j ∨ TextsUnder c!"proof_type_values" l j) := by
  rw [C49_supports_security_method]
  have h' : ClaimFormatMap.ofJson (.obj ms) = .ok f.val := by
    simp only [TypedParameter.ofJson] at h
    obtain ⟨m, hm, rfl⟩ := map_ok_iff.mp h
    exact hm
  rw [get_ofJson hs h', if_pos (fromName_ok name), name_fromName]
  cases hg : mget name ms with
  | none => simp
  | some j =>
    simp only [Option.map_some, Option.some.injEq]
    have hj := payload_of_json j
    constructor
    · rintro ⟨l, h1 | h1, hl⟩
      · rw [h1] at hj
        exact ⟨l, j, rfl, hl, .inl hj.symm⟩
      · rw [h1] at hj
        exact ⟨l, j, rfl, hl, .inr hj.symm⟩
    · rintro ⟨l, _, rfl, hl, h1 | h1⟩
      · refine ⟨l, .inl ?_, hl⟩
        rw [TextsUnder] at h1
        rw [h1]
        simpa [ClaimFormatPayload.toJson, strsToJson] using
          (payload_roundtrip (.algValues l)).mpr trivial
      · refine ⟨l, .inr ?_, hl⟩
        rw [TextsUnder] at h1
        rw [h1]
        simpa [ClaimFormatPayload.toJson, strsToJson] using
          (payload_roundtrip (.proofTypeValues l)).mpr trivial

/-- A proper capability map. -/
def formatSample : ClaimFormatMap :=
  [(.msoMDoc, .other (.obj [])), (.jwtVcJson, .algValues [c!"ES256", c!"EdDSA"]),
   (.other c!"acme", .other (.obj [(c!"alg_values", .int 1)])), (.ldpVc, .proofTypeValues [c!"x"])]

theorem formatSample_ok : DistinctKeys formatSample ∧ ∀ e ∈ formatSample, FormatOk e.1 ∧ PayloadOk e.2 := by
  constructor
  · simp [formatSample, DistinctKeys]
  · simp [formatSample, FormatOk, PayloadOk, TextsUnder]

example : ∃ m', ClaimFormatMap.ofJson (ClaimFormatMap.toJson formatSample) = .ok m' ∧
    SameMap m' formatSample :=
  (C49_format_map_roundtrip _ formatSample_ok.1).mpr formatSample_ok.2

example : (VpFormats.mk formatSample).supportsSecurityMethod .jwtVcJson c!"EdDSA" = true ∧
    (VpFormats.mk formatSample).supportsSecurityMethod .ldpVc c!"ES256" = false ∧
    (VpFormats.mk formatSample).supportsSecurityMethod .msoMDoc c!"ES256" = false := by decide

/-- A catch-all payload with the shape of a known one does not survive. -/
theorem C49_collision : ∃ p : ClaimFormatPayload, ClaimFormatPayload.ofJson p.toJson ≠ p :=
  ⟨.other (.obj [(c!"alg_values", .arr [.str c!"ES256"])]), by decide⟩

/-! ## C50 -/

theorem put_eq {α : Type} [TypedParameter α] {t : α} {j : Json}
    (h : TypedParameter.toJson t = .ok j) (o : UntypedObject) :
    UntypedObject.put t o = mset (TypedParameter.key α) j o := by
  simp only [UntypedObject.put, UntypedObject.insert, h]

theorem url_roundtrip {u : Url} (h : u.WF) : Url.ofJson (.str u.print) = .ok u := by
  simp [Url.ofJson, Url.parse_print h, orErr]

theorem endpoint_key_ne :
    TypedParameter.key AuthorizationEndpoint ≠ TypedParameter.key VpFormatsSupported := by decide

/-- Two format values report the same under every format. -/
def SameFormats (f f' : VpFormatsSupported) : Prop := SameMap f.val f'.val

/-- A format value a hash map can hold and JSON can carry. -/
def FormatsOk (f : VpFormatsSupported) : Prop :=
  DistinctKeys f.val ∧ ∀ e ∈ f.val, FormatOk e.1 ∧ PayloadOk e.2

/-- The object holds the endpoint and formats `e`, `f` and agrees with `o` on all other keys. -/
structure Holds (e : AuthorizationEndpoint) (f : VpFormatsSupported) (o p : UntypedObject) : Prop where
  endpoint : UntypedObject.get AuthorizationEndpoint p = some (.ok e)
  formats : ∃ f', UntypedObject.get VpFormatsSupported p = some (.ok f') ∧ SameFormats f' f
  others : ∀ k, k ≠ c!"authorization_endpoint" → k ≠ c!"vp_formats_supported" → mget k p = mget k o

theorem holds_put (e : AuthorizationEndpoint) (f : VpFormatsSupported) (o : UntypedObject)
    (he : e.val.WF) (hf : FormatsOk f) :
    Holds e f o (UntypedObject.put f (UntypedObject.put e o)) := by
  rw [put_eq (t := f) rfl, put_eq (t := e) rfl]
  refine ⟨?_, ?_, ?_⟩
  · simp only [UntypedObject.get]
    rw [mget_mset_ne endpoint_key_ne, mget_mset_self]
    simp only [TypedParameter.ofJson, url_roundtrip he]
    rfl
  · simp only [UntypedObject.get]
    rw [mget_mset_self]
    obtain ⟨m', h1, h2⟩ := (C49_format_map_roundtrip f.val hf.1).mpr hf.2
    refine ⟨⟨m'⟩, ?_, h2⟩
    simp only [TypedParameter.ofJson, h1]
    rfl
  · intro k h1 h2
    exact (mget_mset_ne h2 _ _).trans (mget_mset_ne h1 _ _)

/-- **C50** Newly built metadata reports the endpoint and formats it was given, both through
the accessors and in its parameters, and keeps every other parameter. -/
theorem C50_new_reports (e : AuthorizationEndpoint) (f : VpFormatsSupported)
    (other : Option UntypedObject) (he : e.val.WF) (hf : FormatsOk f) :
    (WalletMetadata.new e f other).authorizationEndpoint = e ∧
    (WalletMetadata.new e f other).vpFormatsSupported = f ∧
    Holds e f (other.getD []) (WalletMetadata.new e f other).inner := by
  refine ⟨rfl, rfl, ?_⟩
  have : other.getD [] = unwrapOr [] other := by cases other <;> rfl
  rw [this]
  exact holds_put e f _ he hf

/-- **C50** Parameters parse as metadata exactly if they hold a readable endpoint and readable
formats, and then these are what the accessors report. -/
theorem C50_parsed_reports (o : UntypedObject) (w : WalletMetadata) :
    WalletMetadata.ofObject o = .ok w ↔
      w.inner = o ∧
      UntypedObject.get AuthorizationEndpoint o = some (.ok w.authorizationEndpoint) ∧
      UntypedObject.get VpFormatsSupported o = some (.ok w.vpFormatsSupported) := by
  obtain ⟨i, e, f⟩ := w
  simp only [WalletMetadata.ofObject, WalletMetadata.authorizationEndpoint,
    WalletMetadata.vpFormatsSupported]
  cases h1 : UntypedObject.get AuthorizationEndpoint o with
  | none => simp [parsingError]
  | some r1 =>
    cases r1 with
    | error x => simp [parsingError]
    | ok e' =>
      cases h2 : UntypedObject.get VpFormatsSupported o with
      | none => simp [parsingError]
      | some r2 =>
        cases r2 with
        | error x => simp [parsingError]
        | ok f' => simp [parsingError, eq_comm]

/-- An addition to wallet metadata. -/
inductive AddOp where
  | alg (a : Str)
  | prefixes (ps : List ClientIdScheme)

/-- A history of additions, stopping at the first refused one. -/
def runAdds : List AddOp → WalletMetadata → Res WalletMetadata
  | [], w => .ok w
  | .alg a :: ops, w => (w.addSigningAlg a).bind (runAdds ops)
  | .prefixes ps :: ops, w => (w.addClientIdPrefixes ps).bind (runAdds ops)

/-- The algorithms of a history, in order. -/
def addedAlgs (ops : List AddOp) : List Str :=
  ops.flatMap (fun | .alg a => [a] | .prefixes _ => [])

/-- The prefixes of a history, in order. -/
def addedPrefixes (ops : List AddOp) : List ClientIdScheme :=
  ops.flatMap (fun | .alg _ => [] | .prefixes ps => ps)

/-- What metadata says about signing algorithms (the default if it says nothing). -/
def readAlgs (w : WalletMetadata) : Res (List Str) :=
  match mget c!"request_object_signing_alg_values_supported" w.inner with
  | none => .ok []
  | some j => strsOfJson j

/-- What metadata says about client identifier prefixes (the default if it says nothing). -/
def readPrefixes (w : WalletMetadata) : Res (List Str) :=
  match mget c!"client_id_prefixes_supported" w.inner with
  | none => .ok [c!"pre-registered"]
  | some j => strsOfJson j

theorem algs_getOrDefault (w : WalletMetadata) :
    UntypedObject.getOrDefault RequestObjectSigningAlgValuesSupported w.inner =
      (readAlgs w).map .mk := by
  simp only [UntypedObject.getOrDefault, readAlgs, TypedParameter.key, TypedParameter.ofJson]
  cases mget c!"request_object_signing_alg_values_supported" w.inner <;> rfl

theorem schemes_ofJson (xs : List Json) :
    mapR ClientIdScheme.ofJson xs = (mapR strOfJson xs).map (List.map .mk) := by
  induction xs with
  | nil => rfl
  | cons x xs ih =>
    simp only [mapR, ih, ClientIdScheme.ofJson]
    cases strOfJson x with
    | error e => rfl
    | ok s => cases mapR strOfJson xs <;> rfl

theorem prefixes_getOrDefault (w : WalletMetadata) :
    UntypedObject.getOrDefault ClientIdPrefixesSupported w.inner =
      (readPrefixes w).map (fun l => .mk (l.map .mk)) := by
  simp only [UntypedObject.getOrDefault, readPrefixes, TypedParameter.key, TypedParameter.ofJson]
  cases mget c!"client_id_prefixes_supported" w.inner with
  | none => rfl
  | some j =>
    cases j <;> try rfl
    simp only [strsOfJson, vecOfJson, schemes_ofJson]
    rename_i xs
    cases mapR strOfJson xs <;> rfl

theorem prefixes_toJson (l : List Str) (ps : List ClientIdScheme) :
    (TypedParameter.toJson (ClientIdPrefixesSupported.mk (l.map .mk ++ ps)) : Res Json) =
      .ok (strsToJson (l ++ ps.map ClientIdScheme.val)) := by
  simp only [TypedParameter.toJson, strsToJson, Except.ok.injEq, Json.arr.injEq, List.map_append,
    List.map_map]
  rfl

theorem addSigningAlg_eq (a : Str) (w : WalletMetadata) :
    w.addSigningAlg a = (readAlgs w).map (fun l => { w with
      inner := mset c!"request_object_signing_alg_values_supported" (strsToJson (l ++ [a])) w.inner }) := by
  simp only [WalletMetadata.addSigningAlg, algs_getOrDefault]
  cases readAlgs w with
  | error e => rfl
  | ok l => simp only [Except.map]; rw [put_eq (t := RequestObjectSigningAlgValuesSupported.mk _) rfl]; rfl

theorem addClientIdPrefixes_eq (ps : List ClientIdScheme) (w : WalletMetadata) :
    w.addClientIdPrefixes ps = (readPrefixes w).map (fun l => { w with
      inner := mset c!"client_id_prefixes_supported"
        (strsToJson (l ++ ps.map ClientIdScheme.val)) w.inner }) := by
  simp only [WalletMetadata.addClientIdPrefixes, prefixes_getOrDefault]
  cases readPrefixes w with
  | error e => rfl
  | ok l => simp only [Except.map]; rw [put_eq (prefixes_toJson l ps)]; rfl

theorem algs_prefixes_ne : (c!"request_object_signing_alg_values_supported" : Str) ≠
    c!"client_id_prefixes_supported" := by decide

/-- **C50** After any history of additions the metadata lists what it listed before, followed
by exactly what was added, in order; endpoint, formats and every other parameter are
untouched. -/
theorem C50_additions (ops : List AddOp) (w : WalletMetadata) (as ps : List Str)
    (ha : readAlgs w = .ok as) (hp : readPrefixes w = .ok ps) :
    ∃ w', runAdds ops w = .ok w' ∧
      readAlgs w' = .ok (as ++ addedAlgs ops) ∧
      readPrefixes w' = .ok (ps ++ (addedPrefixes ops).map ClientIdScheme.val) ∧
      w'.authorizationEndpoint = w.authorizationEndpoint ∧
      w'.vpFormatsSupported = w.vpFormatsSupported ∧
      ∀ k, k ≠ c!"request_object_signing_alg_values_supported" →
        k ≠ c!"client_id_prefixes_supported" → mget k w'.inner = mget k w.inner := by
  induction ops generalizing w as ps with
  | nil =>
    exact ⟨w, rfl, by simp [ha, addedAlgs], by simp [hp, addedPrefixes], rfl, rfl,
      fun _ _ _ => rfl⟩
  | cons op ops ih =>
    cases op with
    | alg a =>
      rw [runAdds, addSigningAlg_eq, ha]
      simp only [Except.map, Except.bind]
      obtain ⟨w', h1, h2, h3, h4, h5, h6⟩ := ih { w with
        inner := mset c!"request_object_signing_alg_values_supported" (strsToJson (as ++ [a])) w.inner }
        (as ++ [a]) ps
        (by simp only [readAlgs, mget_mset_self, strs_roundtrip])
        (by rw [← hp]; simp only [readPrefixes]; rw [mget_mset_ne algs_prefixes_ne.symm])
      refine ⟨w', h1, ?_, ?_, h4, h5, fun k k1 k2 => ?_⟩
      · rw [h2]; simp [addedAlgs]
      · rw [h3]; simp [addedPrefixes]
      · rw [h6 k k1 k2]; exact mget_mset_ne k1 _ _
    | prefixes qs =>
      rw [runAdds, addClientIdPrefixes_eq, hp]
      simp only [Except.map, Except.bind]
      obtain ⟨w', h1, h2, h3, h4, h5, h6⟩ := ih { w with
        inner := mset c!"client_id_prefixes_supported" (strsToJson (ps ++ qs.map ClientIdScheme.val)) w.inner }
        as (ps ++ qs.map ClientIdScheme.val)
        (by rw [← ha]; simp only [readAlgs]; rw [mget_mset_ne algs_prefixes_ne])
        (by simp only [readPrefixes, mget_mset_self, strs_roundtrip])
      refine ⟨w', h1, ?_, ?_, h4, h5, fun k k1 k2 => ?_⟩
      · rw [h2]; simp [addedAlgs]
      · rw [h3]; simp [addedPrefixes]
      · rw [h6 k k1 k2]; exact mget_mset_ne k2 _ _

/-- **C50** An addition is refused exactly if the metadata already lists something unreadable
there. -/
theorem C50_addition_refused (w : WalletMetadata) (a : Str) (ps : List ClientIdScheme) :
    ((∃ e, w.addSigningAlg a = .error e) ↔ ∃ e, readAlgs w = .error e) ∧
    ((∃ e, w.addClientIdPrefixes ps = .error e) ↔ ∃ e, readPrefixes w = .error e) := by
  rw [addSigningAlg_eq, addClientIdPrefixes_eq]
  constructor
  · cases readAlgs w <;> simp [Except.map]
  · cases readPrefixes w <;> simp [Except.map]

/-- **C50** Converting metadata to parameters and back gives metadata with the same endpoint,
the same formats and the same other parameters, whatever edits were made through
`vp_formats_supported_mut` or on the underlying parameters before. -/
theorem C50_conversion (w : WalletMetadata) (he : w.endpoint.val.WF) (hf : FormatsOk w.formats) :
    ∃ w', WalletMetadata.ofObject w.toObject = .ok w' ∧
      w'.authorizationEndpoint = w.authorizationEndpoint ∧
      SameFormats w'.vpFormatsSupported w.vpFormatsSupported ∧
      ∀ k, k ≠ c!"authorization_endpoint" → k ≠ c!"vp_formats_supported" →
        mget k w'.inner = mget k w.inner := by
  obtain ⟨h1, ⟨f', h2, h3⟩, h4⟩ := holds_put w.endpoint w.formats w.inner he hf
  refine ⟨⟨w.toObject, w.endpoint, f'⟩, ?_, rfl, h3, h4⟩
  exact (C50_parsed_reports _ _).mpr ⟨rfl, h1, h2⟩

/-- Until that conversion the parameters still show the formats from before an edit made
through `vp_formats_supported_mut`. -/
theorem C50_formats_edit_stale (w : WalletMetadata) (f : VpFormatsSupported) :
    (w.setVpFormats f).vpFormatsSupported = f ∧ (w.setVpFormats f).inner = w.inner := ⟨rfl, rfl⟩

/-- **C50** An edit of the underlying parameters shows in the parameters and nowhere else: the
accessors still report the endpoint and formats from before, and these come back with the next
conversion, which keeps all else of the edit. -/
theorem C50_parameters_edit (w : WalletMetadata) (o : UntypedObject) (he : w.endpoint.val.WF)
    (hf : FormatsOk w.formats) :
    (∀ k, mget k (w.setInner o).inner = mget k o) ∧
    (w.setInner o).authorizationEndpoint = w.authorizationEndpoint ∧
    (w.setInner o).vpFormatsSupported = w.vpFormatsSupported ∧
    UntypedObject.get AuthorizationEndpoint (w.setInner o).toObject = some (.ok w.endpoint) ∧
    (∃ f, UntypedObject.get VpFormatsSupported (w.setInner o).toObject = some (.ok f) ∧
      SameFormats f w.formats) ∧
    ∀ k, k ≠ c!"authorization_endpoint" → k ≠ c!"vp_formats_supported" →
      mget k (w.setInner o).toObject = mget k o := by
  obtain ⟨h1, h2, h4⟩ := holds_put w.endpoint w.formats o he hf
  exact ⟨fun _ => rfl, rfl, rfl, h1, h2, h4⟩

/-- The endpoint of the static metadata. -/
def staticEndpoint : AuthorizationEndpoint := ⟨⟨c!"openid4vp", none, [], none, none⟩⟩

/-- **C50** The built-in static metadata exists and reports the endpoint `openid4vp:`, ES256
for request objects and JWT credentials signed with ES256, and only the default prefix; its document has
these, the response type `vp_token` and nothing else. -/
theorem C50_static : ∃ w, WalletMetadata.openid4vpSchemeStatic = .ok w ∧
    w.authorizationEndpoint = staticEndpoint ∧
    w.vpFormatsSupported = ⟨[(.jwtVcJson, .algValues [c!"ES256"])]⟩ ∧
    readAlgs w = .ok [c!"ES256"] ∧ readPrefixes w = .ok [c!"pre-registered"] ∧
    w.toObject = [(c!"authorization_endpoint", .str c!"openid4vp:"),
      (c!"request_object_signing_alg_values_supported", .arr [.str c!"ES256"]),
      (c!"response_types_supported", .arr [.str c!"vp_token"]),
      (c!"vp_formats_supported", .obj [(c!"jwt_vc_json", .obj [(c!"alg_values", .arr [.str c!"ES256"])])])] := by
  refine ⟨⟨_, staticEndpoint, ⟨[(.jwtVcJson, .algValues [c!"ES256"])]⟩⟩, rfl, rfl, rfl, rfl, rfl, rfl⟩

/-- A sample: an endpoint edited in the parameters is shown there only. -/
example : ∃ w w', WalletMetadata.openid4vpSchemeStatic = .ok w ∧
    WalletMetadata.ofObject (w.setInner [(c!"authorization_endpoint", .str c!"https://other.example/"),
      (c!"scope", .str c!"s")]).toObject = .ok w' ∧
    w'.authorizationEndpoint = staticEndpoint ∧ mget c!"scope" w'.inner = some (.str c!"s") ∧
    mget c!"authorization_endpoint" w'.inner = some (.str c!"openid4vp:") := by
  refine ⟨⟨_, staticEndpoint, ⟨[(.jwtVcJson, .algValues [c!"ES256"])]⟩⟩,
    ⟨_, staticEndpoint, ⟨[(.jwtVcJson, .algValues [c!"ES256"])]⟩⟩, rfl, rfl, rfl, rfl, rfl⟩

/-- A sample: two additions to the static metadata. -/
example : ∃ w w', WalletMetadata.openid4vpSchemeStatic = .ok w ∧
    runAdds [.prefixes [⟨c!"x509_hash"⟩], .alg c!"EdDSA", .prefixes [⟨c!"origin"⟩]] w = .ok w' ∧
    readAlgs w' = .ok [c!"ES256", c!"EdDSA"] ∧
    readPrefixes w' = .ok [c!"pre-registered", c!"x509_hash", c!"origin"] := by
  obtain ⟨w, h, -, -, ha, hp, -⟩ := C50_static
  obtain ⟨w', h1, h2, h3, -⟩ := C50_additions
    [.prefixes [⟨c!"x509_hash"⟩], .alg c!"EdDSA", .prefixes [⟨c!"origin"⟩]] w _ _ ha hp
  exact ⟨w, w', h, h1, h2, h3⟩

example : staticEndpoint.val.WF ∧ FormatsOk ⟨formatSample⟩ :=
  ⟨by exact Url.parse_wf (s := c!"openid4vp:") rfl, formatSample_ok⟩

end Oid4vp
