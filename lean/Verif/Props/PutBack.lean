import Verif.Spec.PutBack
import Verif.Props.Params
import Verif.Lemmas.JsonWf
/-!
# C102: reading is stable, and what was read can be put back
-/

set_option autoImplicit false

namespace Oid4vp

open Spec

theorem get_ok_iff {α : Type} [TypedParameter α] {o : UntypedObject} {v : α} :
    UntypedObject.get α o = some (.ok v) ↔
      ∃ j, mget (TypedParameter.key α) o = some j ∧ TypedParameter.ofJson j = .ok v := by
  simp only [UntypedObject.get]
  cases mget (TypedParameter.key α) o <;> simp

theorem url_read_wf {j : Json} {u : Url} (h : Url.ofJson j = .ok u) : u.WF := by
  cases j with
  | str s =>
    simp only [Url.ofJson] at h
    cases hp : Url.parse s with
    | none => rw [hp] at h; cases h
    | some w => rw [hp] at h; cases h; exact Url.parse_wf hp
  | _ => cases h

theorem mode_read_proper (s : Str) : (AnyParam.responseMode (ResponseMode.ofStr s)).Proper := by
  rw [← mode_ofStr_print]
  simp only [ResponseMode.ofStr]
  split
  · rfl
  split
  · rfl
  split
  · rfl
  split
  · rfl
  rename_i h1 h2 h3 h4
  simp [ResponseMode.print, h1, h2, h3, h4]

theorem type_read_proper (s : Str) : (AnyParam.responseType (ResponseType.ofStr s)).Proper := by
  rw [← type_ofStr_print]
  simp only [ResponseType.ofStr]
  split
  · rfl
  split
  · rfl
  rename_i h1 h2
  simp [ResponseType.print, h1, h2]

/-- A map of formats read from a JSON value is one the library can write. -/
theorem formats_read {j : Json} (hj : j.WF (fun _ => True)) {m : ClaimFormatMap}
    (h : ClaimFormatMap.ofJson j = .ok m) :
    DistinctKeys m ∧ ∀ e ∈ m, FormatOk e.1 ∧ PayloadOk e.2 := by
  cases j with
  | obj ms =>
    simp only [Json.WF] at hj
    obtain ⟨m', h1, h2, h3, -⟩ := C49_format_json_roundtrip ms hj.1
    rw [h] at h1; cases h1
    refine ⟨h2, fun e he => ⟨h3 e he, ?_⟩⟩
    have hg := get_of_mem h2 he
    rw [get_ofJson hj.1 h, if_pos (h3 e he)] at hg
    obtain ⟨p, -, hp⟩ := Option.map_eq_some_iff.mp hg
    rw [← payload_roundtrip, ← hp, payload_of_json]
  | _ => cases h

/-- A VP token read from a JSON value is one the library can hold. -/
theorem token_read {j : Json} (hj : j.WF (fun _ => True)) {t : VpToken}
    (h : VpToken.ofJson j = .ok t) : (AnyParam.vpToken t).Rep := by
  cases j with
  | obj ms =>
    simp only [Json.WF] at hj
    simp only [VpToken.ofJson] at h
    split at h
    · cases h
    · rename_i l hl
      cases h
      refine ⟨mofList_sorted _, fun p hp m hm => ?_⟩
      obtain ⟨x, hx, hxp⟩ := (mapR_mem hl).1 p (mem_mofList hp)
      obtain ⟨items, hi, rfl⟩ := map_ok_iff.mp hxp
      have hxw := wfM_iff.mp hj.2 x hx
      revert hi hxw
      cases x.2 with
      | arr xs =>
        intro hi hxw
        obtain ⟨y, hy, hym⟩ := (mapR_mem hi).1 _ hm
        simp only [Json.WF] at hxw
        have hyw := wfL_iff.mp hxw y hy
        revert hym hyw
        cases y with
        | obj z =>
          intro hym hyw
          simp only [VpTokenItem.ofJson, Except.ok.injEq, VpTokenItem.jsonObject.injEq] at hym
          have hz := hyw
          simp only [Json.WF] at hz
          rw [← hym, normM_of_WF z hz.2, mofList_self hz.1]
          exact hyw
        | _ => intro hym; cases hym
      | _ => intro hi; cases hi
  | _ => cases h

theorem types_read {j : Json} {l : List ResponseType}
    (h : vecOfJson (fun j => (strOfJson j).map ResponseType.ofStr) j = .ok l) (s : Str)
    (hs : ResponseType.unsupported s ∈ l) : s ∉ [c!"vp_token", c!"vp_token id_token"] := by
  cases j with
  | arr xs =>
    obtain ⟨x, -, hx⟩ := (mapR_mem h).1 _ hs
    obtain ⟨t, -, ht⟩ := map_ok_iff.mp hx
    have := type_read_proper t
    rw [ht] at this
    exact this
  | _ => cases h

/-- **C102** Whatever is read from an object has the form that survives printing: the catch-all
variants carry no known name, and reading the printed value gives it back. -/
theorem C102_read_stable {o : UntypedObject} (ho : (Json.obj o).WF (fun _ => True)) (p : AnyParam)
    (h : p.ReadIn o) : p.Rep ∧ p.Proper ∧ p.Survives := by
  have key : p.Rep ∧ p.Proper := by
    have hjw : ∀ k j, mget k o = some j → j.WF (fun _ => True) := by
      intro k j hk
      simp only [Json.WF] at ho
      exact wfM_iff.mp ho.2 _ (mem_of_mget hk)
    cases p with
    | redirectUri v | responseUri v | endpoint v =>
      obtain ⟨j, -, hj⟩ := get_ok_iff.mp h
      obtain ⟨u, hu, rfl⟩ := map_ok_iff.mp hj
      exact ⟨url_read_wf hu, trivial⟩
    | responseMode v =>
      obtain ⟨j, -, hj⟩ := get_ok_iff.mp h
      obtain ⟨u, -, rfl⟩ := map_ok_iff.mp hj
      exact ⟨trivial, mode_read_proper u⟩
    | responseType v =>
      obtain ⟨j, -, hj⟩ := get_ok_iff.mp h
      obtain ⟨u, -, rfl⟩ := map_ok_iff.mp hj
      exact ⟨trivial, type_read_proper u⟩
    | responseTypes v =>
      obtain ⟨j, -, hj⟩ := get_ok_iff.mp h
      obtain ⟨u, hu, rfl⟩ := map_ok_iff.mp hj
      exact ⟨trivial, types_read hu⟩
    | dcqlQuery v =>
      obtain ⟨j, -, hj⟩ := get_ok_iff.mp h
      exact ⟨trivial, dcqlOk_of_json hj⟩
    | vpToken v =>
      obtain ⟨j, hk, hj⟩ := get_ok_iff.mp h
      exact ⟨token_read (hjw _ _ hk) hj, trivial⟩
    | vpFormats v | vpFormatsSupported v =>
      obtain ⟨j, hk, hj⟩ := get_ok_iff.mp h
      obtain ⟨u, hu, rfl⟩ := map_ok_iff.mp hj
      exact formats_read (hjw _ _ hk) hu
    | _ => exact ⟨trivial, trivial⟩
  exact ⟨key.1, key.2, (C02_params_roundtrip p key.1).mpr key.2⟩

theorem put_of_json {α : Type} [TypedParameter α] {t : α} {j : Json} (h : TypedParameter.toJson t = .ok j)
    (o : UntypedObject) : UntypedObject.put t o = mset (TypedParameter.key α) j o := by
  simp only [UntypedObject.put, UntypedObject.insert, h]

/-- A value that survives JSON and was written is read. -/
theorem read_put {α : Type} [TypedParameter α] {t : α} (h : Spec.Survives t) (o : UntypedObject) :
    UntypedObject.get α (UntypedObject.put t o) = some (.ok t) := by
  obtain ⟨j, h1, h2⟩ := h
  rw [put_of_json h1]
  exact get_ok_iff.mpr ⟨j, mget_mset_self .., h2⟩

theorem other_put {α β : Type} [TypedParameter α] [TypedParameter β] {t : α} {j : Json}
    (h : TypedParameter.toJson t = .ok j) (o : UntypedObject)
    (hk : TypedParameter.key β ≠ TypedParameter.key α) :
    UntypedObject.get β (UntypedObject.put t o) = UntypedObject.get β o := by
  rw [put_of_json h]
  simp only [UntypedObject.get, mget_mset_ne hk]

/-- **C102** A value read from an object and written back is read again, and readers of other
members, whatever their type, read what they read before. -/
theorem C102_put_back {o : UntypedObject} (ho : (Json.obj o).WF (fun _ => True)) (p : AnyParam)
    (h : p.ReadIn o) :
    (∃ p', p'.ReadIn (p.putIn o) ∧ p.SameValue p') ∧
    (∀ (β : Type) [TypedParameter β], TypedParameter.key β ≠ p.member →
      UntypedObject.get β (p.putIn o) = UntypedObject.get β o) ∧
    ∀ k, k ≠ p.member → mget k (p.putIn o) = mget k o := by
  obtain ⟨-, -, hs⟩ := C102_read_stable ho p h
  cases p with
  | vpFormats v =>
    obtain ⟨j, t', h1, h2, h3⟩ := hs
    refine ⟨⟨.vpFormats t', ?_, t', rfl, fun d => (h3 d).symm⟩, fun β _ hk => other_put h1 o hk, fun k hk => ?_⟩
    · simp only [AnyParam.ReadIn, AnyParam.putIn, put_of_json h1]
      exact get_ok_iff.mpr ⟨j, mget_mset_self .., h2⟩
    · simp only [AnyParam.putIn, put_of_json h1]
      exact mget_mset_ne hk _ _
  | vpFormatsSupported v =>
    obtain ⟨j, t', h1, h2, h3⟩ := hs
    refine ⟨⟨.vpFormatsSupported t', ?_, t', rfl, fun d => (h3 d).symm⟩, fun β _ hk => other_put h1 o hk, fun k hk => ?_⟩
    · simp only [AnyParam.ReadIn, AnyParam.putIn, put_of_json h1]
      exact get_ok_iff.mpr ⟨j, mget_mset_self .., h2⟩
    · simp only [AnyParam.putIn, put_of_json h1]
      exact mget_mset_ne hk _ _
  | clientId v | clientMetadata v | nonce v | audience v | redirectUri v | responseUri v | responseMode v
  | responseType v | state v | expectedOrigins v | transactionData v | verifierInfo v | requestUriMethod v
  | dcqlQuery v | idToken v | vpToken v | jwks v | encValues v | issuer v | endpoint v | responseTypes v
  | prefixes v | signingAlgs v | encryptionAlgs v | encryptionEncs v =>
    refine ⟨⟨_, And.symm ⟨rfl, read_put hs o⟩⟩, ?_, ?_⟩
    · obtain ⟨j, h1, -⟩ := hs
      exact fun β _ hk => other_put h1 o hk
    · obtain ⟨j, h1, -⟩ := hs
      intro k hk
      simp only [AnyParam.putIn, put_of_json h1]
      exact mget_mset_ne hk _ _

/-- **C102** The two parameters that share a member are read and written alike. -/
theorem C102_shared_member (o : UntypedObject) (m : ClaimFormatMap) :
    ((AnyParam.vpFormats ⟨m⟩).ReadIn o ↔ (AnyParam.vpFormatsSupported ⟨m⟩).ReadIn o) ∧
    (AnyParam.vpFormats ⟨m⟩).putIn o = (AnyParam.vpFormatsSupported ⟨m⟩).putIn o := by
  refine ⟨?_, rfl⟩
  simp only [AnyParam.ReadIn, get_ok_iff]
  refine exists_congr fun j => and_congr Iff.rfl ?_
  constructor
  · intro h
    obtain ⟨u, hu, hv⟩ := map_ok_iff.mp h
    cases hv
    exact map_ok_iff.mpr ⟨_, hu, rfl⟩
  · intro h
    obtain ⟨u, hu, hv⟩ := map_ok_iff.mp h
    cases hv
    exact map_ok_iff.mpr ⟨_, hu, rfl⟩

/-- **C102** The text of the member may differ afterwards: a URL is written in its normal form,
and members of a query that the library does not know are gone. -/
theorem C102_text_differs :
    (∃ v o, (AnyParam.responseUri v).ReadIn o ∧ (Json.obj o).WF (fun _ => True) ∧
      mget c!"response_uri" o = some (.str c!"https://a.b") ∧
      mget c!"response_uri" ((AnyParam.responseUri v).putIn o) = some (.str c!"https://a.b/")) ∧
    ∃ v o q, (AnyParam.dcqlQuery v).ReadIn o ∧ (Json.obj o).WF (fun _ => True) ∧
      mget c!"dcql_query" o = some (.obj q) ∧ (mget c!"x" q).isSome ∧
      ∃ q', mget c!"dcql_query" ((AnyParam.dcqlQuery v).putIn o) = some (.obj q') ∧
        mget c!"x" q' = none := by
  constructor
  · refine ⟨⟨⟨c!"https", some c!"a.b", c!"/", none, none⟩⟩, [(c!"response_uri", .str c!"https://a.b")],
      ?_, ?_, by decide, by decide⟩
    · show UntypedObject.get ResponseUri _ = _
      decide
    · simp [Json.WF, Json.WFM, Sorted]
  · refine ⟨⟨⟨[⟨c!"i", .msoMDoc, [], none, none, none, none, none⟩]⟩, none⟩,
      [(c!"dcql_query", .obj [(c!"credentials", .arr [.obj [(c!"format", .str c!"mso_mdoc"), (c!"id", .str c!"i"),
        (c!"meta", .obj [])]]), (c!"x", .int 1)])],
      [(c!"credentials", .arr [.obj [(c!"format", .str c!"mso_mdoc"), (c!"id", .str c!"i"),
        (c!"meta", .obj [])]]), (c!"x", .int 1)], ?_, ?_, rfl, rfl, ?_⟩
    · show UntypedObject.get DcqlQuery _ = _
      decide
    · simp only [Json.WF, Json.WFM, Json.WFL, Sorted, and_true]
      decide
    · exact ⟨_, rfl, by decide⟩

/-- The member holds formats, one of them unknown to the library, with a payload of an unknown
shape; the object has another member. -/
example :
    let o : UntypedObject := [(c!"vp_formats_supported", .obj [(c!"mso_mdoc", .obj [(c!"alg_values", .arr [.str c!"ES256"])]),
      (c!"new", .obj [(c!"alg_values", .arr [.int 1])])]), (c!"z", .bool true)]
    let p := AnyParam.vpFormatsSupported ⟨[(.msoMDoc, .algValues [c!"ES256"]),
      (.other c!"new", .other (.obj [(c!"alg_values", .arr [.int 1])]))]⟩
    (Json.obj o).WF (fun _ => True) ∧ p.ReadIn o ∧ mget c!"z" (p.putIn o) = some (.bool true) := by
  refine ⟨?_, ?_, by decide⟩
  · simp only [Json.WF, Json.WFM, Json.WFL, Sorted, and_true]
    decide
  · show UntypedObject.get VpFormatsSupported _ = _
    decide

end Oid4vp
