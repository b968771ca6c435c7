import Verif.Spec.JweBuilder
import Verif.Props.Jwe
import Verif.Props.Builder

/-! # C95: the builder of encrypted tokens -/

set_option autoImplicit false

namespace Oid4vp

open Spec

/-- What a builder holds after a history of calls. -/
structure Holding (cs : List JweCall) (b : JweBuilder) : Prop where
  payload : b.payload = lastSaid payloadGiven cs
  key : b.recipientKey = lastSaid keyGiven cs
  alg : b.alg = lastSaid algGiven cs
  enc : b.enc = lastSaid encGiven cs
  kid : b.kid = lastSaid kidGiven cs

theorem keyJson_ok {jk : Josekit} {j : Json} (hj : j.WF FltLit ∧ j.depth ≤ 127) {b b' : JweBuilder} :
    b.setRecipientKeyJson jk j = .ok b' ↔
      ∃ m, j = .obj m ∧ jk.jwkOk m = true ∧ b' = { b with recipientKey := some m } := by
  simp only [JweBuilder.setRecipientKeyJson, jParse_jPrint hj.2 hj.1]
  cases j with
  | obj m =>
    constructor
    · intro h
      by_cases hm : jk.jwkOk m = true
      · simp only [hm, if_true, Except.ok.injEq] at h
        exact ⟨m, rfl, hm, h.symm⟩
      · simp [hm] at h
    · rintro ⟨m', hm', hm, rfl⟩
      injection hm' with hm'
      subst hm'
      simp only [hm, if_true]
  | _ =>
    constructor
    · intro h; cases h
    · rintro ⟨m', hm', -⟩; cases hm'

theorem runAll_snoc (jk : Josekit) (cs : List JweCall) (c : JweCall) (b : JweBuilder) :
    JweCall.runAll jk (cs ++ [c]) b = match JweCall.runAll jk cs b with
      | .error e => .error e
      | .ok b => c.run jk b := by
  induction cs generalizing b with
  | nil =>
    simp only [List.nil_append, JweCall.runAll]
    cases c.run jk b <;> rfl
  | cons x cs ih =>
    simp only [List.cons_append, JweCall.runAll]
    cases x.run jk b with
    | error e => rfl
    | ok b => exact ih b

theorem runAll_ok (jk : Josekit) (cs : List JweCall) (hp : ∀ c ∈ cs, ProperCall c) (b : JweBuilder)
    (h : JweCall.runAll jk cs .new = .ok b) :
    Holding cs b ∧ ∀ j, .keyJson j ∈ cs → ∃ m, j = .obj m ∧ jk.jwkOk m = true := by
  induction cs using builder_induction generalizing b with
  | h0 =>
    simp only [JweCall.runAll, Except.ok.injEq] at h
    subst h
    exact ⟨⟨rfl, rfl, rfl, rfl, rfl⟩, fun j hj => absurd hj List.not_mem_nil⟩
  | h1 cs c ih =>
    rw [runAll_snoc] at h
    cases h1 : JweCall.runAll jk cs .new with
    | error e => rw [h1] at h; cases h
    | ok b1 =>
      rw [h1] at h
      simp only at h
      obtain ⟨⟨i1, i2, i3, i4, i5⟩, i6⟩ := ih (fun c hc => hp c (by simp [hc])) b1 h1
      have hc : ProperCall c := hp c (by simp)
      cases c with
      | keyJson j =>
        obtain ⟨m, rfl, hm, rfl⟩ := (keyJson_ok hc).mp h
        refine ⟨⟨?_, ?_, ?_, ?_, ?_⟩, fun j hj => ?_⟩ <;> try (rw [lastSaid_snoc]; first | rfl | assumption)
        rcases List.mem_append.mp hj with hj | hj
        · exact i6 j hj
        · simp only [List.mem_singleton, JweCall.keyJson.injEq] at hj
          exact ⟨m, hj, hm⟩
      | _ =>
        simp only [JweCall.run, Except.ok.injEq] at h
        subst h
        refine ⟨⟨?_, ?_, ?_, ?_, ?_⟩, fun j hj => ?_⟩ <;> try (rw [lastSaid_snoc]; first | rfl | assumption)
        rcases List.mem_append.mp hj with hj | hj
        · exact i6 j hj
        · simp at hj

/-- **C95** A chain of calls goes through exactly if every key given as JSON is an object the JOSE library
accepts as a key. -/
theorem C95_calls_succeed_iff (jk : Josekit) (cs : List JweCall) (hp : ∀ c ∈ cs, ProperCall c) :
    (∃ b, JweCall.runAll jk cs .new = .ok b) ↔
      ∀ j, .keyJson j ∈ cs → ∃ m, j = .obj m ∧ jk.jwkOk m = true := by
  refine ⟨fun ⟨b, h⟩ => (runAll_ok jk cs hp b h).2, fun h => ?_⟩
  induction cs using builder_induction with
  | h0 => exact ⟨_, rfl⟩
  | h1 cs c ih =>
    obtain ⟨b, hb⟩ := ih (fun c hc => hp c (by simp [hc])) (fun j hj => h j (by simp [hj]))
    rw [runAll_snoc, hb]
    cases c with
    | keyJson j =>
      obtain ⟨m, rfl, hm⟩ := h j (by simp)
      exact ⟨_, (keyJson_ok (hp (.keyJson (.obj m)) (by simp))).mpr ⟨m, rfl, hm, rfl⟩⟩
    | _ => exact ⟨_, rfl⟩

/-- **C95** What is built after a chain of calls: an encryption of the payload given last, which must be an
object of acceptable claims, to the key given last, if the algorithm given last is ECDH-ES. The protected
header has that algorithm, the content encryption given last (A128GCM if none was), the key id given last
(that of the key if none was) and the type JWT. Nothing else is built. -/
theorem C95_built_iff (jk : Josekit) (cs : List JweCall) (hp : ∀ c ∈ cs, ProperCall c) (b : JweBuilder)
    (h : JweCall.runAll jk cs .new = .ok b) (jwe : Str) :
    b.build jk = .ok jwe ↔ ∃ claims key,
      lastSaid payloadGiven cs = some (.obj claims) ∧ lastSaid keyGiven cs = some key ∧
      lastSaid algGiven cs = some c!"ECDH-ES" ∧ (∀ p ∈ claims, jk.claimOk p.1 p.2 = true) ∧
      jk.encrypt key (encHeader ((lastSaid encGiven cs).getD c!"A128GCM")
        ((lastSaid kidGiven cs).or (kidOf key))) claims = .ok jwe := by
  obtain ⟨⟨h1, h2, h3, h4, h5⟩, -⟩ := runAll_ok jk cs hp b h
  rw [← h1, ← h2, ← h3, ← h4, ← h5]
  obtain ⟨p, k, a, e, d⟩ := b
  simp only [JweBuilder.build, kidOf_eq]
  cases p with
  | none => simp
  | some p =>
    cases k with
    | none => simp
    | some k =>
      cases a with
      | none => simp
      | some a =>
        simp only [Option.some.injEq]
        by_cases ha : a = c!"ECDH-ES"
        · subst ha
          have he : unwrapOr defaultEnc e = e.getD c!"A128GCM" := by cases e <;> rfl
          simp only [ecdhEs, ne_eq, not_true_eq_false, if_false, header_eq, he]
          cases p with
          | obj m =>
            simp only
            by_cases hc : ∀ p ∈ m, jk.claimOk p.1 p.2 = true
            · rw [if_pos (List.all_eq_true.mpr hc)]
              refine ⟨fun h => ⟨m, k, rfl, rfl, trivial, hc, by cases d <;> exact h⟩, ?_⟩
              rintro ⟨m', k', hm, rfl, -, -, h⟩
              injection hm with hm
              subst hm
              cases d <;> exact h
            · rw [if_neg (fun h => hc (List.all_eq_true.mp h))]
              refine ⟨fun h => by simp at h, ?_⟩
              rintro ⟨m', k', hm, -, -, hc', -⟩
              injection hm with hm
              subst hm
              exact absurd hc' hc
          | _ => simp
        · have : a ≠ ecdhEs := ha
          rw [if_pos this]
          refine ⟨fun h => by simp at h, ?_⟩
          rintro ⟨_, _, -, -, h, -⟩
          exact absurd h ha

/-- **C95** Without a payload, a key or an algorithm the error is that something is missing, and with another
algorithm that it is not supported; the JOSE library is not asked. -/
theorem C95_refused (jk : Josekit) (cs : List JweCall) (hp : ∀ c ∈ cs, ProperCall c) (b : JweBuilder)
    (h : JweCall.runAll jk cs .new = .ok b) :
    ((∀ p, .payload p ∉ cs) ∨ (∀ k, .key k ∉ cs ∧ .keyJson (.obj k) ∉ cs) ∨ (∀ a, .alg a ∉ cs) →
      b.build jk = .error .missing) ∧
    (∀ p k a, lastSaid payloadGiven cs = some p → lastSaid keyGiven cs = some k →
      lastSaid algGiven cs = some a → a ≠ c!"ECDH-ES" → b.build jk = .error .unsupported) := by
  obtain ⟨⟨h1, h2, h3, h4, h5⟩, -⟩ := runAll_ok jk cs hp b h
  constructor
  · have none_of : ∀ {β : Type} (f : JweCall → Option β), (∀ c ∈ cs, f c = none) → lastSaid f cs = none := by
      intro β f hf
      simp [lastSaid, List.filterMap_eq_nil_iff.mpr hf]
    rintro (hn | hn | hn)
    · have : b.payload = none := by
        rw [h1]
        refine none_of _ fun c hc => ?_
        cases c <;> first | rfl | exact absurd hc (hn _)
      simp [JweBuilder.build, this]
    · have : b.recipientKey = none := by
        rw [h2]
        refine none_of _ fun c hc => ?_
        cases c with
        | key k => exact absurd hc (hn k).1
        | keyJson j =>
          cases j with
          | obj k => exact absurd hc (hn k).2
          | _ => rfl
        | _ => rfl
      simp only [JweBuilder.build, this]
      cases b.payload <;> rfl
    · have : b.alg = none := by
        rw [h3]
        refine none_of _ fun c hc => ?_
        cases c <;> first | rfl | exact absurd hc (hn _)
      simp only [JweBuilder.build, this]
      cases b.payload <;> [rfl; (cases b.recipientKey <;> rfl)]
  · intro p k a hp hk ha hne
    rw [hp] at h1
    rw [hk] at h2
    rw [ha] at h3
    simp only [JweBuilder.build, h1, h2, h3]
    rw [if_pos]
    exact hne

/-- **C95** An encrypted response is built by the calls `payload`, `recipient_key_json`, `alg`, `enc` and,
if the selected key has a key id, `kid`. -/
theorem C95_response_calls (jk : Josekit) (a : RequestObject) (t : VpToken) (s : Option State)
    (cm : ClientMetadata) (keys : JWKs) (info : EncryptionJwkInfo) (encs : EncryptedResponseEncValuesSupported)
    (h1 : ClientMetadata.resolve a = .ok cm) (h2 : parsingError cm.jwks = .ok keys)
    (h3 : findEncryptionJwk jk keys.keys = .ok info) (h4 : cm.encValues = .ok encs) :
    buildEncryptedResponse jk a t s =
      match JweCall.runAll jk ([.payload (responsePayload t s), .keyJson (.obj info.jwk), .alg info.alg,
          .enc (chosenEnc encs.val)] ++ info.kid.toList.map .kid) .new with
      | .error e => .error e
      | .ok b => match b.build jk with
        | .error e => .error e
        | .ok jwe => .ok (.jwt jwe) := by
  simp only [buildEncryptedResponse, h1, h2, h3, h4, List.cons_append, List.nil_append, JweCall.runAll,
    JweCall.run, JweBuilder.setRecipientKeyJson, joseJwk]
  cases jParse (jPrint (.obj info.jwk)) with
  | error e => rfl
  | ok j =>
    cases j with
    | obj m =>
      by_cases hm : jk.jwkOk m = true
      · simp only [hm, if_true]
        cases hk : info.kid <;> rfl
      · simp [hm]
    | _ => rfl

/-- A history in which everything is given twice, one way or another. -/
def jweCallSample : List JweCall :=
  [.kid c!"k0", .keyJson (.obj encKey), .payload .null, .alg c!"RSA-OAEP", .enc c!"A256GCM",
    .payload (.obj [(c!"a", .int 1)]), .alg c!"ECDH-ES", .key encKey]

example : ∃ b, JweCall.runAll toyJose jweCallSample .new = .ok b ∧
    b.build toyJose = toyJose.encrypt encKey (encHeader c!"A256GCM" (some c!"k0")) [(c!"a", .int 1)] :=
  ⟨_, rfl, rfl⟩

example : JweCall.runAll toyJose [.keyJson (.arr [])] .new = .error .parse := rfl

end Oid4vp
