import Verif.Spec.CacheFile
import Verif.Props.CertCache
import Verif.Props.WalletStore
import Verif.Props.Codec
/-!
# C66: which files the certificate cache accepts, and what it writes
-/

set_option autoImplicit false

namespace Oid4vp
open Spec VerifierApp

theorem b64Std_iff {s : Str} {b : Bytes} : b64Std s = .ok b ↔ s = base64Padded b := by
  rw [← C52_base64_padded]
  constructor
  · intro h
    unfold b64Std at h
    split at h
    · cases h
    · split at h
      · rename_i h'; cases h; exact h'.symm
      · cases h
  · rintro rfl; exact b64Std_pad b

theorem str_iff {j : Json} {s : Str} : strOfJson j = .ok s ↔ j = .str s := by
  cases j <;> simp [strOfJson]

theorem fieldStr_iff {k s : Str} {m : List (Str × Json)} :
    fieldReq k strOfJson m = .ok s ↔ mget k m = some (.str s) := by
  unfold fieldReq
  cases mget k m <;> simp [str_iff]

/-- **C66** Exactly the files that have a key and certificate for the domain are used, for these. -/
theorem C66_file_iff (p : Pki) (content d : Str) (i : Identity p) :
    loadCached p content d = .ok i ↔ CacheFile p content d i := by
  have hn : [c!"domain", c!"cert_der_b64", c!"key_pkcs8_b64"].Nodup := by decide
  constructor
  · intro h
    unfold loadCached at h
    split at h
    · cases h
    rename_i j hj
    split at h
    · cases h
    rename_i m hm
    split at h
    · cases h
    rename_i d' hd
    split at h
    · cases h
    rename_i c64 hc
    split at h
    · cases h
    rename_i k64 hk
    split at h
    · cases h
    rename_i hdd
    split at h
    · cases h
    rename_i pkcs8 h1
    split at h
    · cases h
    rename_i s h2
    split at h
    · cases h
    rename_i der h3
    split at h
    · cases h
    rename_i c h4
    cases h
    rw [ne_eq, not_not] at hdd
    subst hdd
    rw [b64Std_iff] at h1 h3
    subst h1 h3
    exact ⟨j, _, pkcs8, RawJson.jParseRaw_iff.1 hj, fieldsOnce_means hn hm, fieldStr_iff.1 hd, fieldStr_iff.1 hc,
      fieldStr_iff.1 hk, h2, h4⟩
  · rintro ⟨j, field, pkcs8, hj, hf, h1, h2, h3, h4, h5⟩
    obtain ⟨m, hm, he⟩ := fieldsOnce_read hn hf
    rw [he _ (by simp)] at h1 h2 h3
    unfold loadCached
    rw [RawJson.jParseRaw_iff.2 hj]
    simp only [hm, fieldStr_iff.2 h1, fieldStr_iff.2 h2, fieldStr_iff.2 h3, b64Std_iff.2 rfl, h4, h5]
    simp

theorem jStr_plain {s : Str} (h : NoEscapes s) : jStr s = Quoted s := by
  have : s.flatMap jEsc = s := by
    induction s with
    | nil => rfl
    | cons c cs ih =>
      obtain ⟨h1, h2, h3⟩ := h c (by simp)
      rw [List.flatMap_cons, ih fun c hc => h c (by simp [hc])]
      have e : jEsc c = [c] := by
        unfold jEsc
        rw [if_neg h2, if_neg h3]
        iterate 6 rw [if_neg (by omega)]
      rw [e]; rfl
  rw [jStr, Quoted, this]

theorem base64_noEscapes (b : Bytes) : NoEscapes (base64Padded b) := by
  rw [← C52_base64_padded]
  intro c hc
  simp only [b64EncPad, List.mem_append, List.mem_replicate] at hc
  rcases hc with hc | ⟨-, rfl⟩
  · have h := b64Enc_alpha .std b c hc
    refine ⟨?_, ?_, ?_⟩
    · by_contra hlt
      have e : b64Val .std c = none := by
        have h1 : c ≠ '+' := by rintro rfl; exact hlt (by decide)
        have h2 : c ≠ '/' := by rintro rfl; exact hlt (by decide)
        simp only [b64Val]
        rw [if_neg (by omega), if_neg (by omega), if_neg (by omega), if_neg h1, if_neg h2]
      simp [b64Alpha, e] at h
    · rintro rfl; revert h; decide
    · rintro rfl; revert h; decide
  · decide

/-- **C66** The file written for a domain, and that it has what was written. -/
theorem C66_file_written (p : Pki) (draw : Draw) (d : Str) (f f' : Files) (i : Identity p) (hd : NoEscapes d)
    (name : Str) (hn : FileOf d name)
    (h : freshIdentity p draw true d f = (f', .ok i)) : ∃ der pkcs8, draw d = .ok (der, pkcs8) ∧
    mget name f' = some (List.flatten [
      c!"{\n  \"domain\": ", Quoted d, c!",\n  \"cert_der_b64\": ", Quoted (base64Padded i.der),
      c!",\n  \"key_pkcs8_b64\": ", Quoted (base64Padded pkcs8), c!"\n}"]) ∧
    (p.x509.fromDer i.der = some i.cert → ∀ content, mget name f' = some content →
      CacheFile p content d i) ∧ ∀ other, other ≠ name → mget other f' = mget other f := by
  rw [fileOf_iff] at hn
  subst hn
  rcases fresh_cases p ⟨d, draw, true⟩ f with ⟨e, he⟩ | ⟨j, der0, pkcs8, h1, h2, h3, h4, h5⟩
  · rw [he] at h; cases h
  · rw [h5] at h
    cases h
    refine ⟨der0, pkcs8, h1, ?_, ?_, fun o ho => by simp only [if_true]; exact mget_mset_ne ho _ _⟩
    · simp only [if_true, mget_mset_self, cachedJson, jPretty, jPrettyM, jPrint, jStr_plain hd]
      rw [C52_base64_padded, C52_base64_padded, jStr_plain (base64_noEscapes _), jStr_plain (base64_noEscapes _)]
      rfl
    · intro hder content hc
      simp only [if_true, mget_mset_self, Option.some.injEq] at hc
      subst hc
      rw [← C66_file_iff, loadCached_written]
      simp only [ne_eq, not_true, if_false, h3, hder]

/-- A file with its members in another order, more of them, and other white space. -/
example : CacheFile cachePki c!"{\"key_pkcs8_b64\":\"Bw==\", \"note\": [],\t\"cert_der_b64\":\"AWE=\", \"domain\":\"a\"}"
    c!"a" ⟨toySigner, [1, 97], [1, 97]⟩ := (C66_file_iff _ _ _ _).1 (by rfl)

/-- One that names the domain twice. -/
example (i : Identity cachePki) : ¬ CacheFile cachePki
    c!"{\"domain\":\"a\",\"domain\":\"a\",\"cert_der_b64\":\"AWE=\",\"key_pkcs8_b64\":\"Bw==\"}" c!"a" i := by
  rw [← C66_file_iff]
  intro h
  have : loadCached cachePki
    c!"{\"domain\":\"a\",\"domain\":\"a\",\"cert_der_b64\":\"AWE=\",\"key_pkcs8_b64\":\"Bw==\"}" c!"a" = .error .parse := by rfl
  rw [this] at h
  cases h

set_option maxRecDepth 8000 in
/-- What is written for a domain. -/
example : ∃ i : Identity cachePki, (freshIdentity cachePki (fun _ => .ok ([1, 97], [7])) true c!"a.b" []) =
    ([(c!"a_b.json", c!"{\n  \"domain\": \"a.b\",\n  \"cert_der_b64\": \"AWE=\",\n  \"key_pkcs8_b64\": \"Bw==\"\n}")],
      .ok i) := ⟨_, rfl⟩

end Oid4vp
