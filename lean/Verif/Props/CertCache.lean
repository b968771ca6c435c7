import Verif.Props.UrlText
import Verif.Spec.CertCache
import Verif.Props.Verify
import Verif.Lemmas.JsonPretty
/-!
# C66: the certificate cache of the example verifier
-/

set_option autoImplicit false

namespace Oid4vp
open Spec VerifierApp

theorem fileOf_iff {d n : Str} : FileOf d n ↔ n = cacheName d := by
  have key : ∀ (d t : Str), (t.length = d.length ∧
      ∀ p ∈ d.zip t, (p.1 = '.' ∧ p.2 = '_') ∨ (p.1 ≠ '.' ∧ p.2 = p.1)) ↔
      t = d.map (fun c => if c = '.' then '_' else c) := by
    intro d
    induction d with
    | nil => intro t; simp
    | cons c cs ih =>
      intro t
      cases t with
      | nil => simp
      | cons x xs =>
        simp only [List.length_cons, Nat.add_right_cancel_iff, List.zip_cons_cons, List.mem_cons,
          forall_eq_or_imp, List.map_cons, List.cons.injEq, ← ih xs]
        split <;> simp_all [and_left_comm]
  constructor
  · rintro ⟨t, rfl, h⟩
    rw [(key d t).1 h, cacheName]
  · rintro rfl
    exact ⟨_, rfl, (key d _).2 rfl⟩

theorem shareFile_iff {d d' : Str} : ShareFile d d' ↔ cacheName d = cacheName d' := by
  simp only [ShareFile, fileOf_iff]
  exact ⟨fun ⟨_, h, h'⟩ => h.symm.trans h', fun h => ⟨_, rfl, h⟩⟩

theorem b64Std_pad (b : Bytes) : b64Std (b64EncPad .std b) = .ok b := by
  simp only [b64Std, trim_b64EncPad, b64Dec_b64Enc, if_true]

theorem cached_raw (d : Str) (der pkcs8 : Bytes) :
    jParseRaw (jPretty 0 (cachedJson d der pkcs8)) = .ok (cachedJson d der pkcs8) := by
  refine jParseRaw_pretty ?_ ?_
  · simp [cachedJson, Json.depth, Json.depthM, jsonMaxDepth]
  · simp [cachedJson, Json.NumOk, Json.NumOkM]

/-- What is read from a file that was written for a domain. -/
theorem loadCached_written (p : Pki) (d d' : Str) (der pkcs8 : Bytes) :
    loadCached p (jPretty 0 (cachedJson d der pkcs8)) d' =
      if d ≠ d' then .error .mismatch
      else match p.key pkcs8 with
        | .error e => .error e
        | .ok s => match p.x509.fromDer der with
          | none => .error .decode
          | some c => .ok ⟨s, c, der⟩ := by
  have h1 : mget c!"domain" [(c!"domain", Json.str d), (c!"cert_der_b64", .str (b64EncPad .std der)),
    (c!"key_pkcs8_b64", .str (b64EncPad .std pkcs8))] = some (.str d) := rfl
  have h2 : mget c!"cert_der_b64" [(c!"domain", Json.str d), (c!"cert_der_b64", .str (b64EncPad .std der)),
    (c!"key_pkcs8_b64", .str (b64EncPad .std pkcs8))] = some (.str (b64EncPad .std der)) := rfl
  have h3 : mget c!"key_pkcs8_b64" [(c!"domain", Json.str d), (c!"cert_der_b64", .str (b64EncPad .std der)),
    (c!"key_pkcs8_b64", .str (b64EncPad .std pkcs8))] = some (.str (b64EncPad .std pkcs8)) := rfl
  simp only [loadCached, cached_raw]
  have h0 : WalletApp.structText [c!"domain", c!"cert_der_b64", c!"key_pkcs8_b64"] (cachedJson d der pkcs8) =
    .ok [(c!"domain", Json.str d), (c!"cert_der_b64", .str (b64EncPad .std der)),
      (c!"key_pkcs8_b64", .str (b64EncPad .std pkcs8))] := rfl
  simp only [h0, fieldReq, h1, h2, h3, strOfJson, b64Std_pad]
  split
  · rfl
  · cases p.key pkcs8 with
    | error e => rfl
    | ok s => cases p.x509.fromDer der <;> rfl

/-- A file written for a domain of an earlier run. -/
structure Written (p : Pki) (r : Run) (name content : Str) (der pkcs8 : Bytes) (k : Signer) : Prop where
  name : name = cacheName r.domain
  content : content = jPretty 0 (cachedJson r.domain der pkcs8)
  key : p.key pkcs8 = .ok k
  drawn : ∃ der0 c, r.draw r.domain = .ok (der0, pkcs8) ∧ p.x509.fromDer der0 = some c ∧
    p.x509.toDer c = .ok der

/-- The files are those written in the given runs. -/
def FilesFrom (p : Pki) (rs : List Run) (f : Files) : Prop :=
  ∀ name content, mget name f = some content → ∃ r ∈ rs, ∃ der pkcs8 k, Written p r name content der pkcs8 k

theorem filesFrom_mono {p : Pki} {rs rs' : List Run} {f : Files} (h : FilesFrom p rs f)
    (hs : ∀ r ∈ rs, r ∈ rs') : FilesFrom p rs' f := by
  intro n c hc
  obtain ⟨r, hr, x⟩ := h n c hc
  exact ⟨r, hs r hr, x⟩

/-- The two ways a new identity can go. -/
theorem fresh_cases (p : Pki) (r : Run) (f : Files) :
    (∃ e, freshIdentity p r.draw r.writable r.domain f = (f, .error e)) ∨
    ∃ i der0 pkcs8, r.draw r.domain = .ok (der0, pkcs8) ∧ p.x509.fromDer der0 = some i.cert ∧
      p.key pkcs8 = .ok i.key ∧ p.x509.toDer i.cert = .ok i.der ∧
      freshIdentity p r.draw r.writable r.domain f =
        (if r.writable then mset (cacheName r.domain) (jPretty 0 (cachedJson r.domain i.der pkcs8)) f else f,
          .ok i) := by
  simp only [freshIdentity, generateCert]
  cases hd : r.draw r.domain with
  | error e => exact .inl ⟨e, rfl⟩
  | ok x =>
    obtain ⟨der0, pkcs8⟩ := x
    cases hc : p.x509.fromDer der0 with
    | none => left; exact ⟨.decode, by simp only [hc]⟩
    | some c =>
      cases hk : p.key pkcs8 with
      | error e => left; exact ⟨e, by simp only [hc, hk]⟩
      | ok s =>
        cases ht : p.x509.toDer c with
        | error e => left; exact ⟨e, by simp only [hc, hk, ht]⟩
        | ok der =>
          right
          refine ⟨⟨s, c, der⟩, der0, pkcs8, rfl, hc, hk, ht, ?_⟩
          simp only [hc, hk, ht, saveCached]

theorem generatedIn_fresh {p : Pki} {r : Run} {f f' : Files} {i : Identity p}
    (h : freshIdentity p r.draw r.writable r.domain f = (f', .ok i)) : GeneratedIn p r i := by
  rcases fresh_cases p r f with ⟨e, he⟩ | ⟨j, der0, pkcs8, h1, h2, h3, h4, h5⟩
  · rw [he] at h; simp at h
  · rw [h5] at h
    simp only [Prod.mk.injEq, Except.ok.injEq] at h
    obtain ⟨-, rfl⟩ := h
    exact ⟨der0, pkcs8, _, h1, h2, h3, h4, .inl rfl⟩

theorem filesFrom_fresh {p : Pki} {r : Run} {rs : List Run} {f : Files} (h : FilesFrom p rs f) :
    FilesFrom p (rs ++ [r]) (freshIdentity p r.draw r.writable r.domain f).1 := by
  have h' : FilesFrom p (rs ++ [r]) f := filesFrom_mono h (fun _ hr => List.mem_append_left _ hr)
  rcases fresh_cases p r f with ⟨e, he⟩ | ⟨i, der0, pkcs8, h1, h2, h3, h4, h5⟩
  · rw [he]; exact h'
  · rw [h5]
    simp only
    split
    · intro n c hc
      by_cases hn : n = cacheName r.domain
      · subst hn
        rw [mget_mset_self] at hc
        cases hc
        exact ⟨r, by simp, i.der, pkcs8, i.key, rfl, rfl, h3, der0, i.cert, h1, h2, h4⟩
      · rw [mget_mset_ne hn] at hc
        exact h' n c hc
    · exact h'

/-- One run: where its identity comes from, and the files afterwards. -/
theorem run_once {p : Pki} {rs : List Run} {f : Files} (h : FilesFrom p rs f) (r : Run) :
    FilesFrom p (rs ++ [r]) (getOrGenerate p r.draw r.writable r.domain f).1 ∧
    ∀ i, (getOrGenerate p r.draw r.writable r.domain f).2 = .ok i →
      ∃ r' ∈ rs ++ [r], r'.domain = r.domain ∧ GeneratedIn p r' i := by
  have hfr : ∀ i, (freshIdentity p r.draw r.writable r.domain f).2 = .ok i →
      ∃ r' ∈ rs ++ [r], r'.domain = r.domain ∧ GeneratedIn p r' i := by
    intro i hi
    exact ⟨r, by simp, rfl, generatedIn_fresh (f := f) (f' := (freshIdentity p r.draw r.writable r.domain f).1)
      (by rw [← hi])⟩
  have h' : FilesFrom p (rs ++ [r]) f := filesFrom_mono h (fun _ hr => List.mem_append_left _ hr)
  simp only [getOrGenerate]
  cases hm : mget (cacheName r.domain) f with
  | none => exact ⟨filesFrom_fresh h, hfr⟩
  | some content =>
    simp only
    cases hl : loadCached p content r.domain with
    | error e => exact ⟨filesFrom_fresh h, hfr⟩
    | ok i =>
      simp only
      refine ⟨h', ?_⟩
      rintro i' ⟨⟩
      obtain ⟨r', hr', der, pkcs8, k, hn, hc, hk, der0, c, h1, h2, h3⟩ := h _ _ hm
      rw [hc, loadCached_written] at hl
      by_cases hd : r'.domain = r.domain
      · rw [if_neg (not_not.2 hd), hk] at hl
        simp only at hl
        cases hx : p.x509.fromDer der with
        | none => rw [hx] at hl; simp at hl
        | some c' =>
          rw [hx] at hl
          simp only [Except.ok.injEq] at hl
          subst hl
          exact ⟨r', List.mem_append_left _ hr', hd, der0, pkcs8, c, h1, h2, hk, h3, .inr hx⟩
      · rw [if_pos hd] at hl; simp at hl

theorem runs_from {p : Pki} (rs : List Run) (before : List Run) (f : Files) (h : FilesFrom p before f)
    (k : Nat) (r : Run) (i : Identity p) (hr : rs[k]? = some r) (hi : (runs p f rs).2[k]? = some (.ok i)) :
    ∃ r' ∈ before ++ rs.take (k + 1), r'.domain = r.domain ∧ GeneratedIn p r' i := by
  induction rs generalizing before f k with
  | nil => simp at hr
  | cons x xs ih =>
    obtain ⟨h1, h2⟩ := run_once h x
    cases k with
    | zero =>
      simp only [List.getElem?_cons_zero, Option.some.injEq, runs] at hr hi
      subst hr
      obtain ⟨r', hr', h3⟩ := h2 i hi
      exact ⟨r', by simpa using hr', h3⟩
    | succ k =>
      simp only [List.getElem?_cons_succ, runs] at hr hi
      obtain ⟨r', hr', h3⟩ := ih (before ++ [x]) _ h1 k hr hi
      exact ⟨r', by simpa using hr', h3⟩

/-- **C66** Over any number of starts of the program on a directory that was empty at first, whatever
domains they are for and whether or not the directory can be written: the key and certificate a
start uses were drawn for that same domain, in that start or an earlier one. -/
theorem C66_identity_of_own_domain (p : Pki) (rs : List Run) (k : Nat) (r : Run) (i : Identity p)
    (hr : rs[k]? = some r) (hi : (runs p [] rs).2[k]? = some (.ok i)) :
    ∃ r' ∈ rs.take (k + 1), r'.domain = r.domain ∧ GeneratedIn p r' i := by
  have := runs_from rs [] [] (fun _ _ h => by simp [mget] at h) k r i hr hi
  simpa using this

/-- The cache has this identity for the domain. -/
def CacheHolds (p : Pki) (f : Files) (d : Str) (i : Identity p) : Prop :=
  ∃ content, mget (cacheName d) f = some content ∧ loadCached p content d = .ok i

theorem holds_used {p : Pki} {f : Files} {d : Str} {i : Identity p} (h : CacheHolds p f d i) (draw : Draw)
    (w : Bool) : getOrGenerate p draw w d f = (f, .ok i) := by
  obtain ⟨c, h1, h2⟩ := h
  simp only [getOrGenerate, h1, h2]

theorem holds_kept {p : Pki} {f : Files} {d : Str} {i : Identity p} (h : CacheHolds p f d i) (r : Run)
    (hr : cacheName r.domain = cacheName d → r.domain = d) :
    CacheHolds p (getOrGenerate p r.draw r.writable r.domain f).1 d i := by
  by_cases hd : r.domain = d
  · rw [hd, holds_used h]; exact h
  · obtain ⟨c, h1, h2⟩ := h
    have hn : cacheName d ≠ cacheName r.domain := fun e => hd (hr e.symm)
    have hfresh : CacheHolds p (freshIdentity p r.draw r.writable r.domain f).1 d i := by
      rcases fresh_cases p r f with ⟨e, he⟩ | ⟨i', der0, pkcs8, -, -, -, -, h5⟩
      · rw [he]; exact ⟨c, h1, h2⟩
      · rw [h5]
        simp only
        split
        · exact ⟨c, by rw [mget_mset_ne hn]; exact h1, h2⟩
        · exact ⟨c, h1, h2⟩
    simp only [getOrGenerate]
    cases mget (cacheName r.domain) f with
    | none => exact hfresh
    | some content =>
      simp only
      cases loadCached p content r.domain with
      | error e => exact hfresh
      | ok j => exact ⟨c, h1, h2⟩

theorem holds_after {p : Pki} {f : Files} {r : Run} {i : Identity p}
    (hder : ∀ c der, p.x509.toDer c = .ok der → p.x509.fromDer der = some c) (hw : r.writable = true)
    (hi : (getOrGenerate p r.draw r.writable r.domain f).2 = .ok i) :
    CacheHolds p (getOrGenerate p r.draw r.writable r.domain f).1 r.domain i := by
  have hfresh : (freshIdentity p r.draw r.writable r.domain f).2 = .ok i →
      CacheHolds p (freshIdentity p r.draw r.writable r.domain f).1 r.domain i := by
    intro h
    rcases fresh_cases p r f with ⟨e, he⟩ | ⟨i', der0, pkcs8, h1, h2, h3, h4, h5⟩
    · rw [he] at h; simp at h
    · rw [h5] at h ⊢
      simp only [Except.ok.injEq] at h
      subst h
      simp only [hw, if_true]
      refine ⟨_, mget_mset_self .., ?_⟩
      rw [loadCached_written, if_neg (by simp), h3]
      simp only [hder _ _ h4]
  simp only [getOrGenerate] at hi ⊢
  cases hm : mget (cacheName r.domain) f with
  | none => rw [hm] at hi; exact hfresh hi
  | some content =>
    rw [hm] at hi
    simp only at hi ⊢
    cases hl : loadCached p content r.domain with
    | error e => rw [hl] at hi; exact hfresh hi
    | ok j =>
      rw [hl] at hi
      simp only [Except.ok.injEq] at hi
      subst hi
      exact ⟨content, hm, hl⟩

theorem runs_holds {p : Pki} {d : Str} {i : Identity p} (rs : List Run) (f : Files) (h : CacheHolds p f d i)
    (hr : ∀ r ∈ rs, cacheName r.domain = cacheName d → r.domain = d) : CacheHolds p (runs p f rs).1 d i := by
  induction rs generalizing f with
  | nil => exact h
  | cons x xs ih =>
    exact ih _ (holds_kept h x (hr x List.mem_cons_self)) (fun r h => hr r (List.mem_cons_of_mem _ h))

theorem runs_append (p : Pki) (xs ys : List Run) (f : Files) :
    runs p f (xs ++ ys) = ((runs p (runs p f xs).1 ys).1, (runs p f xs).2 ++ (runs p (runs p f xs).1 ys).2) := by
  induction xs generalizing f with
  | nil => rfl
  | cons x xs ih => simp only [List.cons_append, runs, ih]

/-- **C66** After a start that could write the directory, every later start for the same domain uses
the same key and certificate and draws nothing, whatever was started in between, unless that was for
another domain with the same file name. (Reading back the DER form of a certificate must give the
certificate.) -/
theorem C66_identity_is_stable (p : Pki) (pre mid : List Run) (r r' : Run) (f : Files) (i : Identity p)
    (hder : ∀ c der, p.x509.toDer c = .ok der → p.x509.fromDer der = some c)
    (hd : r'.domain = r.domain) (hw : r.writable = true)
    (hmid : ∀ x ∈ mid, ShareFile x.domain r.domain → x.domain = r.domain)
    (hi : (runs p f (pre ++ [r])).2.getLast? = some (.ok i)) :
    (runs p f (pre ++ r :: (mid ++ [r']))).2.getLast? = some (.ok i) ∧
      (runs p f (pre ++ r :: (mid ++ [r']))).1 = (runs p f (pre ++ r :: mid)).1 := by
  have hi' : (getOrGenerate p r.draw r.writable r.domain (runs p f pre).1).2 = .ok i := by
    rw [runs_append] at hi
    simpa [runs] using hi
  have hh := runs_holds mid _ (holds_after hder hw hi') (fun x hx h => hmid x hx (shareFile_iff.2 h))
  have hu := holds_used hh r'.draw r'.writable
  rw [← hd] at hu
  constructor
  · rw [runs_append]
    simp only [runs]
    rw [runs_append]
    simp only [runs, hd] at hu ⊢
    rw [hu]
    simp only [List.getLast?_append, List.getLast?_cons, Option.some_or, Option.getD_some]
    rfl
  · rw [runs_append, runs_append]
    simp only [runs]
    rw [runs_append]
    simp only [runs, hd] at hu ⊢
    rw [hu]

/-! ## The client id -/

theorem hostStr_of {u : Url} {h : Str} (hu : HostIs u h) : hostStr u = some h := by
  obtain ⟨user, port, ha, hne, h1, h2, hus, hpo, h3⟩ := hu
  have hn : '@' ∉ h ++ port := by simp [h1, h2]
  have hr : rsplitOnce '@' (h ++ port) = none := rsplitOnce_eq_none.2 hn
  have hb : hostOfAuthority (h ++ port) = h := by
    simp only [hostOfAuthority, hr]
    rcases h3 with ⟨h3, h4⟩ | ⟨x, rfl, hx⟩
    · cases h with
      | nil => exact absurd rfl hne
      | cons c cs =>
        have hc : c ≠ '[' := fun e => h4 (e ▸ List.mem_cons_self)
        split
        · next heq => injection heq with h5 _; exact absurd h5 hc
        · rcases hpo with rfl | ⟨n, rfl⟩
          · rw [List.append_nil, splitOnce_eq_none.2 h3]
          · rw [splitOnce_append h3]
    · have e : '[' :: (x ++ [']']) ++ port = ('[' :: x) ++ ']' :: port := by simp
      rw [e]
      simp only [List.cons_append]
      rw [← List.cons_append, splitOnce_append (by simp [hx])]
      rfl
  have hsplit : hostOfAuthority (user ++ (h ++ port)) = h := by
    rcases hus with rfl | ⟨x, rfl⟩
    · exact hb
    · have h' : rsplitOnce '@' (x ++ ['@'] ++ (h ++ port)) = some (x, h ++ port) :=
        rsplitOnce_eq_some.2 ⟨by simp, hn⟩
      refine Eq.trans ?_ hb
      simp only [hostOfAuthority, h', hr]
  simp only [hostStr, ha, hsplit]

/-- **C66** Every public address with a special scheme, as it is read, has exactly one host. -/
theorem C66_host_of_address {s : Str} {u : Url} (h : UrlText s u) (hs : Special u.scheme) :
    ∃ h, HostIs u h ∧ ∀ h', HostIs u h' → h' = h := by
  have hw := Url.parse_wf ((C70_url_iff s u).mpr h)
  rw [special_iff] at hs
  obtain ⟨hauth, -⟩ := hw.special hs
  cases ha : u.authority with
  | none => exact absurd ha hauth
  | some a =>
    obtain ⟨user, hp, h, p, host, port, -, -, -, hh, hpt, e⟩ := normAuthority_eq.mp (hw.auth_ok a ha)
    rw [isSpecial] at hs
    obtain ⟨-, hok, hne⟩ := hostFor_spec hh
    obtain ⟨q, hq, -, hqc⟩ := portText_spec hpt
    have hI : HostIs u host := by
      refine ⟨credText user, port, by rw [ha, e], fun e => ?_, fun hm => (hok.chars _ hm).2 rfl,
        fun hm => (hqc _ hm).2 rfl, ?_, ?_, ?_⟩
      · have := (hne e).2
        rw [hs] at this
        cases this
      · cases user with
        | none => exact .inl rfl
        | some w =>
          rcases userText_spec w with h | ⟨t, h, -⟩
          · exact .inl h
          · exact .inr ⟨t, h⟩
      · rw [hq]
        cases q with
        | none => exact .inl rfl
        | some n => exact .inr ⟨n, rfl⟩
      · cases hok with
        | plain hp =>
          left
          have hc := fun c hc => plain_char c (hp.chars c hc).1 (hp.chars c hc).2
          exact ⟨fun hm => (hc _ hm).2.2.2.2 rfl, fun hm => (hc _ hm).2.2.1 rfl⟩
        | brackets ps hl hp =>
          exact .inr ⟨printIpv6 ps, rfl, fun h => (isHexLower_char _ (printIpv6_chars ps _ h)).2.2.2 rfl⟩
    refine ⟨host, hI, fun h' hh' => ?_⟩
    have := hostStr_of hI
    rw [hostStr_of hh'] at this
    exact Option.some.inj this

theorem runs_files {p : Pki} (rs before : List Run) (f : Files) (h : FilesFrom p before f) :
    FilesFrom p (before ++ rs) (runs p f rs).1 := by
  induction rs generalizing before f with
  | nil => simpa [runs] using h
  | cons x xs ih =>
    have := ih (before ++ [x]) _ (run_once h x).1
    simpa [runs] using this

theorem discards {p : Pki} {rs : List Run} {f : Files} {r r' : Run} {i : Identity p}
    (hf : FilesFrom p rs f)
    (hder : ∀ c der, p.x509.toDer c = .ok der → p.x509.fromDer der = some c)
    (hw : r.writable = true) (hi : (getOrGenerate p r.draw r.writable r.domain f).2 = .ok i)
    (hn : cacheName r.domain = cacheName r'.domain) (hne : r.domain ≠ r'.domain) :
    getOrGenerate p r'.draw r'.writable r'.domain (getOrGenerate p r.draw r.writable r.domain f).1 =
      freshIdentity p r'.draw r'.writable r'.domain (getOrGenerate p r.draw r.writable r.domain f).1 := by
  obtain ⟨c, h1, h2⟩ := holds_after hder hw hi
  obtain ⟨r₀, -, der, pkcs8, k, h3, h4, -⟩ := (run_once hf r).1 _ _ h1
  have : loadCached p c r'.domain = .error .mismatch := by
    rw [h4, loadCached_written] at h2 ⊢
    by_cases hd : r₀.domain = r.domain
    · rw [if_pos (by rw [hd]; exact hne)]
    · rw [if_pos hd] at h2; simp at h2
  rw [hn] at h1
  generalize (getOrGenerate p r.draw r.writable r.domain f).1 = f' at h1 ⊢
  simp only [getOrGenerate, h1, this]

theorem runs_length (p : Pki) (rs : List Run) (f : Files) : (runs p f rs).2.length = rs.length := by
  induction rs generalizing f with
  | nil => rfl
  | cons x xs ih => simp only [runs, List.length_cons, ih]

/-- **C66** (a finding) Two domains can share a file: `.` and `_` are not told apart. A start for one
of them then does not use what the file has for the other, and what it uses is drawn anew; a third
start, for the first domain again, draws anew too although nothing went wrong. -/
theorem C66_shared_file_discards (p : Pki) (pre : List Run) (r r' r'' : Run) (i i' i'' : Identity p)
    (hn : ShareFile r.domain r'.domain) (hne : r.domain ≠ r'.domain)
    (hd : r''.domain = r.domain) (hw' : r'.writable = true)
    (hder : ∀ c der, p.x509.toDer c = .ok der → p.x509.fromDer der = some c)
    (hw : r.writable = true)
    (hi : (runs p [] (pre ++ [r, r', r''])).2.drop pre.length = [.ok i, .ok i', .ok i'']) :
    GeneratedIn p r' i' ∧ GeneratedIn p r'' i'' := by
  rw [shareFile_iff] at hn
  have hf := runs_files (p := p) pre [] [] (fun _ _ h => by simp [mget] at h)
  rw [List.nil_append] at hf
  rw [runs_append] at hi
  simp only [runs] at hi
  rw [List.drop_append_of_le_length (Nat.le_of_eq (runs_length ..).symm), ← runs_length p pre [], List.drop_length,
    List.nil_append] at hi
  simp only [List.cons.injEq, and_true] at hi
  obtain ⟨h1, h2, h3⟩ := hi
  have k1 := discards hf hder hw h1 hn hne
  have hf1 := (run_once hf r).1
  have k2 := discards hf1 hder hw' h2 (hn.symm.trans (by rw [hd])) (by rw [hd]; exact hne.symm)
  rw [k1] at h2
  rw [k2] at h3
  exact ⟨generatedIn_fresh (Prod.ext rfl h2), generatedIn_fresh (Prod.ext rfl h3)⟩

/-- **C66** A start never fails because of what is in the directory: if a certificate can be drawn, it
has an identity, whatever the files contain. -/
theorem C66_bad_files_ignored (p : Pki) (f : Files) (r : Run) (der pkcs8 der' : Bytes)
    (c : p.x509.Cert) (k : Signer) (h1 : r.draw r.domain = .ok (der, pkcs8))
    (h2 : p.x509.fromDer der = some c) (h3 : p.key pkcs8 = .ok k) (h4 : p.x509.toDer c = .ok der') :
    ∃ i, (getOrGenerate p r.draw r.writable r.domain f).2 = .ok i := by
  have hfr : ∃ i, (freshIdentity p r.draw r.writable r.domain f).2 = .ok i := by
    simp only [freshIdentity, generateCert, h1, h2, h3, h4]
    exact ⟨_, rfl⟩
  simp only [getOrGenerate]
  cases mget (cacheName r.domain) f with
  | none => exact hfr
  | some content =>
    simp only
    cases loadCached p content r.domain with
    | error e => exact hfr
    | ok i => exact ⟨i, rfl⟩

/-- A public-key world for the examples: a certificate is a number and a name. -/
def cacheX509 : X509 where
  Cert := Bytes
  fromDer := some
  toDer := .ok
  sanExts c := [some [.dns (c.tail.map (fun x => Char.ofNat x.toNat))]]
  spki := id
  sha256 := id

/-- Keys of one byte. -/
def cachePki : Pki where
  x509 := cacheX509
  key := fun b => if b.length = 1 then .ok toySigner else .error .decode

/-- Draws the given number. -/
def cacheDraw (n : UInt8) : Draw := fun d => .ok (n :: d.map (fun x => x.toNat.toUInt8), [n])

/-- Starts for `a.b`, again for `a.b`, for `a_b`, for `a.b` in a directory that cannot be written, and
again for `a.b`. -/
def cacheRuns : List Run := [⟨c!"a.b", cacheDraw 1, true⟩, ⟨c!"a.b", cacheDraw 2, true⟩,
  ⟨c!"a_b", cacheDraw 3, true⟩, ⟨c!"a.b", cacheDraw 4, false⟩, ⟨c!"a.b", cacheDraw 5, true⟩]

/-- What they use: the second start uses what the first drew, the others draw. -/
example : (runs cachePki [] cacheRuns).2.map (fun r => match r with
      | .ok i => i.der
      | .error _ => []) =
    [[1, 97, 46, 98], [1, 97, 46, 98], [3, 97, 95, 98], [4, 97, 46, 98], [5, 97, 46, 98]] := by
  decide +kernel

/-- Those two names share a file. -/
example : ShareFile c!"a.b" c!"a_b" ∧ c!"a.b" ≠ c!"a_b" ∧ ¬ ShareFile c!"a.b" c!"a-b" := by
  simp only [shareFile_iff]; decide

/-- Their draws name the domain; hosts of public addresses. -/
example : (∀ r ∈ cacheRuns, DrawsName cachePki r) ∧
    (∀ c der, cachePki.x509.toDer c = .ok der → cachePki.x509.fromDer der = some c) ∧
    HostIs ⟨c!"https", some c!"me@a.b:8443", c!"/x", none, none⟩ c!"a.b" ∧
    HostIs ⟨c!"https", some c!"a.b", c!"/x", none, none⟩ c!"a.b" ∧
    HostIs ⟨c!"https", some c!"[::1]:8443", c!"/x", none, none⟩ c!"[::1]" := by
  refine ⟨?_, fun c der h => by cases h; rfl, ⟨c!"me@", c!":8443", by decide, by decide, by decide, by decide, .inr ⟨c!"me", rfl⟩,
    .inr ⟨_, rfl⟩, .inl (by decide)⟩, ⟨[], [], by decide, by decide, by decide, by decide, .inl rfl,
    .inl rfl, .inl (by decide)⟩, ⟨[], c!":8443", by decide, by decide, by decide, by decide, .inl rfl,
    .inr ⟨_, rfl⟩, .inr ⟨c!"::1", by decide, by decide⟩⟩⟩
  intro r hr der pkcs8 c h1 h2
  simp only [cacheRuns, List.mem_cons, List.not_mem_nil, or_false] at hr
  rcases hr with rfl | rfl | rfl | rfl | rfl <;>
    (simp only [cacheDraw, Except.ok.injEq, Prod.mk.injEq] at h1
     obtain ⟨rfl, -⟩ := h1
     cases h2
     rfl)

/-- **C66** After any earlier starts, the client id of a verifier that starts is `x509_san_dns:`
and the host of its public address. (Certificates are drawn for the name asked for, and reading back
the DER form of a certificate gives the certificate.) -/
theorem C66_client_id (p : Pki) (rs : List Run) (draw : Draw) (w : Bool) (key : EncKey) (u : Url)
    (encrypted : Bool) (h : Str) (f' : Files) (app : App)
    (hder : ∀ c der, p.x509.toDer c = .ok der → p.x509.fromDer der = some c)
    (hn : ∀ r ∈ rs ++ [⟨h, draw, w⟩], DrawsName p r) (hu : HostIs u h)
    (hs : start p draw w key u encrypted (runs p [] rs).1 = (f', .ok app)) :
    app.verifier.client.id = ⟨c!"x509_san_dns:" ++ h⟩ := by
  have hf := runs_files (p := p) rs [] [] (fun _ _ h => by simp [mget] at h)
  rw [List.nil_append] at hf
  have hx := (run_once hf ⟨h, draw, w⟩).2
  simp only [start, hostStr_of hu] at hs
  cases hw : Url.parse walletEndpoint with
  | none => rw [hw] at hs; simp at hs
  | some we =>
    rw [hw] at hs
    simp only at hs hx
    generalize hg : getOrGenerate p draw w h (runs p [] rs).1 = g at hs hx
    obtain ⟨f2, ri⟩ := g
    cases ri with
    | error e => simp at hs
    | ok i =>
      obtain ⟨r', hr', hd, der, pkcs8, c, h1, h2, h3, h4, h5⟩ := hx i rfl
      have hc : i.cert = c := by
        rcases h5 with h5 | h5
        · exact h5
        · rw [hder _ _ h4] at h5; exact (Option.some.inj h5).symm
      have hsan := hn r' hr' der pkcs8 c h1 h2
      have hdns : dnsNames p.x509 i.cert = [h] := by
        rw [hc, dnsNames, hsan, hd]; rfl
      simp only [sanClientNew, hdns] at hs
      cases hj : (orErr .parse (u.join c!"response") : Res Url) with
      | error e => rw [hj] at hs; simp at hs
      | ok sub =>
        cases hk : (orErr .parse (u.join c!"request") : Res Url) with
        | error e => rw [hj, hk] at hs; simp at hs
        | ok base =>
          rw [hj, hk] at hs
          simp only [buildVerifier, VerifierBuilder.build, VerifierBuilder.withDefaultRequestParameter,
            VerifierBuilder.byReference, VerifierBuilder.withSubmissionEndpoint,
            VerifierBuilder.withSessionStore, VerifierBuilder.withClient, if_true, Prod.mk.injEq,
            Except.ok.injEq] at hs
          obtain ⟨-, rfl⟩ := hs
          rfl

/-- A second start of the verifier at that address. -/
example : ∃ app f', start cachePki (cacheDraw 9) true ⟨[], fun _ => .error .decode⟩
      ⟨c!"https", some c!"a.b", c!"/", none, none⟩ true (runs cachePki [] (cacheRuns.take 1)).1 =
        (f', .ok app) ∧
    app.verifier.client.id = ⟨c!"x509_san_dns:a.b"⟩ := by
  refine ⟨_, _, rfl, rfl⟩

end Oid4vp
