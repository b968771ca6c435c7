import Verif.Spec.VerifierMain
import Verif.Props.ExampleFlow
import Verif.Props.JsonGrammar
import Verif.Props.Signed
/-!
# C121: what the example verifier prints when it starts
-/

set_option autoImplicit false

namespace Oid4vp
open Spec VerifierApp VerifierMain

/-- The started program is the one of the other properties, and the printed lines are of its identity. -/
theorem launched_started {p : Pki} {numbers : Signer → KeyNumbers} {rs : List Run} {draw : Draw} {w : Bool}
    {key : EncKey} {args : Args} {host : Str} {app : App} {out : List Str}
    (hl : Launched p numbers rs draw w key args host app out) :
    Started p rs draw w key args.publicUrl (encrypted args) host app ∧
    ∃ (i : Identity p) (sub base : Url), p.x509.toDer i.cert = .ok i.der ∧ i.key.alg = .ok c!"ES256" ∧
      app = ⟨appVerifier p i host sub base (encrypted args) key, walletMetadata demoUrl, args.publicUrl,
        key.decrypt⟩ ∧
      out = banner args (buildOidf (numbers i.key) i.der host) := by
  have hran := hl.ran
  simp only [VerifierMain.main, hostStr_of hl.host] at hran
  generalize hst : start p draw w key args.publicUrl (encrypted args) (runs p [] rs).1 = st at hran
  obtain ⟨f', ra⟩ := st
  cases ra with
  | error e => simp at hran
  | ok app' =>
    simp only at hran
    have hder : ∀ c der, p.x509.toDer c = .ok der → p.x509.fromDer der = some c := by
      intro c der h1
      obtain ⟨b, h2, h3⟩ := hl.der c
      rw [h1] at h2; cases h2; exact h3
    have hf := runs_files (p := p) rs [] [] (fun _ _ h => by simp [mget] at h)
    rw [List.nil_append] at hf
    have hx := (run_once hf ⟨host, draw, w⟩).2
    simp only [start, hostStr_of hl.host, demoUrl_parse] at hst
    simp only at hx
    generalize getOrGenerate p draw w host (runs p [] rs).1 = g at hst hx hran
    obtain ⟨f2, ri⟩ := g
    cases ri with
    | error e => simp at hran
    | ok i =>
      simp only [Except.ok.injEq, Prod.mk.injEq] at hran
      obtain ⟨rfl, hout⟩ := hran
      have hS : Started p rs draw w key args.publicUrl (encrypted args) host app' := by
        refine ⟨hl.der, hl.names, hl.es256, hl.address, hl.host, ?_⟩
        have := hl.ran
        simp only [VerifierMain.main, hostStr_of hl.host] at this
        generalize start p draw w key args.publicUrl (encrypted args) (runs p [] rs).1 = st at this
        obtain ⟨f3, rb⟩ := st
        cases rb with
        | error e => simp at this
        | ok app2 =>
          simp only at this
          split at this
          · cases this
          · cases this; rfl
      obtain ⟨r', hr', hd, der, pkcs8, c, h1, h2, h3, h4, h5⟩ := hx i rfl
      have hc : i.cert = c := by
        rcases h5 with h5 | h5
        · exact h5
        · rw [hder _ _ h4] at h5; exact (Option.some.inj h5).symm
      have hsan := hl.names r' hr' der pkcs8 c h1 h2
      have hdns : dnsNames p.x509 i.cert = [host] := by
        rw [hc, dnsNames, hsan, hd]; rfl
      have ha := host_authority hl.host
      obtain ⟨sub, hsub, hb1⟩ := join_ok (seg := c!"response") hl.address ha (by decide)
        (by cases isSpecial args.publicUrl.scheme <;> exact ⟨by decide, by decide, by decide⟩) (by decide)
      obtain ⟨base, hbase, hb2⟩ := join_ok (seg := c!"request") hl.address ha (by decide)
        (by cases isSpecial args.publicUrl.scheme <;> exact ⟨by decide, by decide, by decide⟩) (by decide)
      simp only [sanClientNew, hdns, hsub, hbase, buildVerifier_eq, Prod.mk.injEq, Except.ok.injEq] at hst
      exact ⟨hS, i, sub, base, by rw [hc]; exact h4, hl.es256 _ _ h3, hst.2.symm, hout.symm⟩

/-! ## The box -/

theorem only_of_filter {out : List Str} {n : Nat} {c : Char} {l0 l : Str}
    (h : out.filter (fun l => l[n]? == some c) = [l0]) (hm : l ∈ out) (hc : l[n]? = some c) : l = l0 := by
  have : l ∈ out.filter (fun l => l[n]? == some c) := by simp [hm, hc]
  rw [h] at this
  simpa using this

theorem none_of_filter {out : List Str} {n : Nat} {c : Char} {l : Str}
    (h : out.filter (fun l => l[n]? == some c) = []) (hc : l[n]? = some c) : l ∉ out := by
  intro hm
  have : l ∈ out.filter (fun l => l[n]? == some c) := by simp [hm, hc]
  rw [h] at this
  cases this

theorem boxShows_of {out : List Str} {label value : Str} {c : Char}
    (h : out.filter (fun l => l[3]? == some c) = [field label value]) (hc : label.head? = some c) :
    BoxShows out label value := by
  have hf : field label value = c!"║  " ++ label ++ value ++ List.replicate (60 - value.length) ' ' ++ c!" ║" := by
    simp [field, pad60]
  refine ⟨⟨List.replicate (60 - value.length) ' ', fun c h => (List.mem_replicate.mp h).2, ?_⟩, ?_⟩
  · rw [← hf]
    have : field label value ∈ out.filter (fun l => l[3]? == some c) := by rw [h]; simp
    exact (List.mem_filter.mp this).1
  · intro t ht
    refine ⟨List.replicate (60 - value.length) ' ', fun c h => (List.mem_replicate.mp h).2, ?_⟩
    have := only_of_filter h ht (by
      cases label with
      | nil => cases hc
      | cons a r => cases hc; rfl)
    rw [hf] at this
    simpa using this

theorem banner_public (args : Args) (o : Oidf) :
    (banner args o).filter (fun l => l[3]? == some 'P') =
      [field c!"Public URL:    " (trimEndChar '/' args.publicUrl.print)] := by
  rfl

theorem banner_client (args : Args) (o : Oidf) :
    (banner args o).filter (fun l => l[3]? == some 'C') = [field c!"Client ID:     " o.clientId] := by
  rfl

theorem banner_mode (args : Args) (o : Oidf) :
    (banner args o).filter (fun l => l[3]? == some 'R') = [field c!"Response Mode: " args.responseMode] := by
  rfl

/-- The lines of the configuration. -/
def configLines (o : Oidf) : List Str :=
  [c!"  \"x\": \"" ++ (o.x ++ c!"\","), c!"  \"y\": \"" ++ (o.y ++ c!"\","),
   c!"  \"d\": \"" ++ (o.d ++ c!"\","), c!"  \"x5c\": [\"" ++ (o.x5c ++ c!"\"]")]

theorem banner_block (args : Args) (o : Oidf) :
    BlockIs (banner args o) (c!"{" :: (configLines o ++ [c!"}"])) := by
  refine ⟨(banner args o).take 20, configLines o, (banner args o).drop 26, rfl, rfl, ?_, ?_⟩
  · exact none_of_filter (n := 0) (c := '{') rfl rfl
  · exact none_of_filter (n := 0) (c := '}') rfl rfl

theorem strText_self {s : Str} (h : ∀ c ∈ s, 32 ≤ c.toNat ∧ c ≠ '"' ∧ c ≠ '\\') : StrText s s := by
  induction s with
  | nil => exact .nil
  | cons c s ih =>
    obtain ⟨h1, h2, h3⟩ := h c (by simp)
    exact StrText.cons (t := [c]) (.plain h1 h2 h3) (ih (fun c hc => h c (by simp [hc])))

theorem b64_plain {a : B64} {c : Char} (h : b64Alpha a c = true) : 32 ≤ c.toNat ∧ c ≠ '"' ∧ c ≠ '\\' := by
  refine ⟨?_, ?_, ?_⟩
  · by_contra hn
    have : ∀ n : Nat, n < 32 → b64Alpha .url (Char.ofNat n) = false ∧ b64Alpha .std (Char.ofNat n) = false := by
      decide
    have h' := this c.toNat (by omega)
    rw [Char.ofNat_toNat] at h'
    cases a
    · rw [h] at h'; cases h'.2
    · rw [h] at h'; cases h'.1
  · rintro rfl; cases a <;> revert h <;> decide
  · rintro rfl; cases a <;> revert h <;> decide

theorem strText_b64 (a : B64) (b : Bytes) : StrText (b64Enc a b) (b64Enc a b) :=
  strText_self fun c hc => b64_plain (b64Enc_alpha a b c hc)

theorem strText_b64Pad (a : B64) (b : Bytes) : StrText (b64EncPad a b) (b64EncPad a b) := by
  refine strText_self fun c hc => ?_
  rcases List.mem_append.mp hc with hc | hc
  · exact b64_plain (b64Enc_alpha a b c hc)
  · rw [(List.mem_replicate.mp hc).2]; decide

theorem strMember {P : Str → Json → Prop} {w n k v w3 : Str} {s : Str} (hw : Space w) (hw3 : Space w3)
    (hn : StrText n k) {j : Json} (hv : P v j)
    (e : s = w ++ '"' :: (n ++ '"' :: ([] ++ ':' :: (c!" " ++ (v ++ w3))))) : MemberText P s k j :=
  ⟨w, n, [], c!" ", v, w3, hw, by simp [Space], by simp [Space], hw3, hn, hv, e⟩

theorem config_text (n : KeyNumbers) (der : Bytes) (dom : Str) :
    JsonText (Lines (c!"{" :: (configLines (buildOidf n der dom) ++ [c!"}"]))) (suiteConfig n der) := by
  have hx := strText_b64 .url n.x
  have hy := strText_b64 .url n.y
  have hd := strText_b64 .url n.d
  have hc := strText_b64Pad .std der
  simp only [configLines, buildOidf, suiteConfig, ← C52_base64_padded,
    show base64Url = B64.alphabet .url from rfl, ← C52_base64_rfc4648]
  generalize b64Enc .url n.x = x at hx ⊢
  generalize b64Enc .url n.y = y at hy ⊢
  generalize b64Enc .url n.d = d at hd ⊢
  generalize b64EncPad .std der = c at hc ⊢
  have hsp : Space c!"\n  " := by simp [Space]
  have hnl : Space c!"\n" := by simp [Space]
  have hnil : Space [] := by simp [Space]
  have hname : ∀ s : Str, (∀ c ∈ s, 32 ≤ c.toNat ∧ c ≠ '"' ∧ c ≠ '\\') → StrText s s := fun _ => strText_self
  have hstr : ∀ s : Str, StrText s s → NestedText 126 ('"' :: s ++ ['"']) (.str s) := fun s h => .str h
  have harr : NestedText 126 ('[' :: ([] ++ ('"' :: c ++ ['"']) ++ []) ++ [']']) (.arr [.str c]) :=
    .arr (P := NestedText 125) rfl (.one hnil (.str hc) hnil)
  refine ⟨[], '{' :: ((c!"\n  " ++ '"' :: (c!"x" ++ '"' :: ([] ++ ':' :: (c!" " ++ (('"' :: x ++ ['"']) ++ []))))) ++ ',' ::
    ((c!"\n  " ++ '"' :: (c!"y" ++ '"' :: ([] ++ ':' :: (c!" " ++ (('"' :: y ++ ['"']) ++ []))))) ++ ',' ::
    ((c!"\n  " ++ '"' :: (c!"d" ++ '"' :: ([] ++ ':' :: (c!" " ++ (('"' :: d ++ ['"']) ++ []))))) ++ ',' ::
    (c!"\n  " ++ '"' :: (c!"x5c" ++ '"' :: ([] ++ ':' :: (c!" " ++ (('[' :: ([] ++ ('"' :: c ++ ['"']) ++ []) ++ [']'])
      ++ c!"\n")))))))) ++ ['}'],
    c!"\n", ?_, hnil, hnl, ?_⟩
  · simp [Lines]
  · refine ValueText.obj (P := NestedText 126) rfl
      (.more (strMember hsp hnil (hname _ (by decide)) (hstr x hx) rfl)
      (.more (strMember hsp hnil (hname _ (by decide)) (hstr y hy) rfl)
      (.more (strMember hsp hnil (hname _ (by decide)) (hstr d hd) rfl)
      (.one (strMember hsp hnl (hname _ (by decide)) harr rfl))))) ?_
    rw [lastMembers_iff]
    rfl

theorem line_cut {x : Str} {a b c d : List Str} (h : x ∉ a) (h' : x ∉ c) (e : a ++ x :: b = c ++ x :: d) :
    a = c ∧ b = d := by
  induction a generalizing c with
  | nil =>
    cases c with
    | nil => simpa using e
    | cons y c =>
      simp only [List.nil_append, List.cons_append, List.cons.injEq] at e
      exact absurd (by rw [e.1]; simp) h'
  | cons z a ih =>
    cases c with
    | nil =>
      simp only [List.nil_append, List.cons_append, List.cons.injEq] at e
      exact absurd (by rw [e.1]; simp) h
    | cons y c =>
      simp only [List.cons_append, List.cons.injEq] at e
      obtain ⟨rfl, rfl⟩ := ih (fun hm => h (by simp [hm])) (fun hm => h' (by simp [hm])) e.2
      exact ⟨by rw [e.1], rfl⟩

theorem blockIs_unique {out b b' : List Str} (h : BlockIs out b) (h' : BlockIs out b') : b = b' := by
  obtain ⟨l, m, r, rfl, rfl, h1, h2⟩ := h
  obtain ⟨l', m', r', e, rfl, h1', h2'⟩ := h'
  simp only [List.append_assoc, List.cons_append] at e
  obtain ⟨-, e⟩ := line_cut h1 h1' e
  simp only [List.nil_append] at e
  obtain ⟨rfl, -⟩ := line_cut h2 h2' e
  rfl

/-- **C121** The lines between the braces are, as one text, the JSON of the configuration for the
conformance suite: the two coordinates of the key, its private number, and the certificate. It is the key
that signs every request, and the certificate in the header of every request. -/
theorem C121_config {p : Pki} {numbers : Signer → KeyNumbers} {rs : List Run} {draw : Draw} {w : Bool}
    {key : EncKey} {args : Args} {host : Str} {app : App} {out : List Str}
    (hl : Launched p numbers rs draw w key args host app out) :
    ∃ (k : Signer) (der : Bytes), (∃ block, BlockIs out block) ∧
      (∀ block, BlockIs out block → JsonText (Lines block) (suiteConfig (numbers k) der)) ∧
      ∀ nonce uuid drawn σ σ' r, initiate app nonce uuid drawn σ = (σ', .ok r) →
        ∃ s, StoredOne σ σ' uuid s ∧ SignedWith k.sign (certHeader c!"ES256" [der]) s.jwt := by
  obtain ⟨-, i, sub, base, hd, halg, rfl, rfl⟩ := launched_started hl
  refine ⟨i.key, i.der, ⟨_, banner_block _ _⟩, ?_, ?_⟩
  · intro block hb
    rw [blockIs_unique hb (banner_block _ _)]
    exact config_text _ _ _
  · intro nonce uuid drawn σ σ' r h
    obtain ⟨url, hb, -⟩ := appInitiate_ok h
    obtain ⟨s, hst, hf⟩ := C23_build_stores_one _ _ _ _ _ _ _ _ hb
    refine ⟨s, hst, ?_⟩
    have hg := hf.signed
    change x5cGenerate p.x509 [i.cert] i.key s.requestObject = .ok s.jwt at hg
    simp only [x5cGenerate, halg, mapR, hd, Except.ok.injEq] at hg
    rw [← hg]
    have hc : x5cHeader c!"ES256" [i.der] = certHeader c!"ES256" [i.der] := by
      simp only [x5cHeader, certHeader, requestObjectTyp, List.map_cons, List.map_nil, C52_base64_padded]
    have hwf := x5cMembers_wf c!"ES256" [i.der]
    rw [show Json.obj (x5cMembers c!"ES256" [i.der]) = x5cHeader c!"ES256" [i.der] from rfl, hc] at hwf
    rw [makeJwt, hc]
    refine ⟨_, b64Enc .url (utf8 (jPrint (.obj s.requestObject.toObject))),
      jsonPart_of hwf.1 (Nat.lt_of_le_of_lt hwf.2 (by decide)), ?_⟩
    generalize b64Enc .url (utf8 (jPrint (certHeader c!"ES256" [i.der]))) = a
    generalize b64Enc .url (utf8 (jPrint (.obj s.requestObject.toObject))) = b
    rw [signingInput, C10_utf8_standard, C52_base64_rfc4648]
    simp [B64.alphabet]

/-- **C121** The client id that is printed is the host of the public address; the client id in every
request has `x509_san_dns:` before it. -/
theorem C121_client {p : Pki} {numbers : Signer → KeyNumbers} {rs : List Run} {draw : Draw} {w : Bool}
    {key : EncKey} {args : Args} {host : Str} {app : App} {out : List Str}
    (hl : Launched p numbers rs draw w key args host app out) :
    BoxShows out c!"Client ID:     " host ∧
    ∀ nonce uuid drawn σ σ' r, initiate app nonce uuid drawn σ = (σ', .ok r) →
      ∃ s, StoredOne σ σ' uuid s ∧ s.requestObject.clientId = some ⟨c!"x509_san_dns:" ++ host⟩ := by
  obtain ⟨hS, i, sub, base, -, -, -, rfl⟩ := launched_started hl
  refine ⟨boxShows_of (banner_client _ _) rfl, ?_⟩
  rintro nonce uuid drawn σ σ' ⟨sid, auth, st⟩ h
  obtain ⟨s, -, -, -, hst, hp, -⟩ := C62_initiate hS h
  exact ⟨s, hst, hp.clientId⟩

/-- **C121** The response mode that is printed is the argument, whatever it is. Requests ask for
`direct_post.jwt` if it is this text, and for `direct_post` for every other text. So the printed mode is
the one of the requests exactly if the argument is one of the two. -/
theorem C121_mode {p : Pki} {numbers : Signer → KeyNumbers} {rs : List Run} {draw : Draw} {w : Bool}
    {key : EncKey} {args : Args} {host : Str} {app : App} {out : List Str}
    (hl : Launched p numbers rs draw w key args host app out) :
    BoxShows out c!"Response Mode: " args.responseMode ∧
    ∀ nonce uuid drawn σ σ' r, initiate app nonce uuid drawn σ = (σ', .ok r) →
      ∃ s, StoredOne σ σ' uuid s ∧
        (args.responseMode = c!"direct_post.jwt" → s.requestObject.responseMode = .directPostJwt) ∧
        (args.responseMode ≠ c!"direct_post.jwt" → s.requestObject.responseMode = .directPost) ∧
        (KnownMode args.responseMode s.requestObject.responseMode ↔
          args.responseMode = c!"direct_post" ∨ args.responseMode = c!"direct_post.jwt") := by
  obtain ⟨hS, i, sub, base, -, -, -, rfl⟩ := launched_started hl
  refine ⟨boxShows_of (banner_mode _ _) rfl, ?_⟩
  rintro nonce uuid drawn σ σ' ⟨sid, auth, st⟩ h
  obtain ⟨s, -, -, -, hst, hp, -⟩ := C62_initiate hS h
  refine ⟨s, hst, ?_⟩
  rw [hp.mode]
  by_cases e : args.responseMode = c!"direct_post.jwt"
  · simp only [encrypted, e, beq_self_eq_true, if_true, implies_true, ne_eq, not_true_eq_false, false_imp_iff,
      true_and, or_true, iff_true]
    exact .directPostJwt
  · have e' : (args.responseMode == c!"direct_post.jwt") = false := by simpa using e
    simp only [encrypted, e', e, Bool.false_eq_true, if_false, false_imp_iff, true_and, ne_eq, not_false_eq_true,
      implies_true, or_false]
    constructor
    · intro h; generalize args.responseMode = t at h; cases h; rfl
    · intro h; rw [h]; exact .directPost

/-! ## The endpoints -/

theorem trim_without (s : Str) : WithoutSlashes s (trimEndChar '/' s) := by
  refine ⟨trimEndChar_spec _ _, ?_⟩
  intro e h
  have h2 : (s.reverse.dropWhile (· == '/')) = '/' :: e.reverse := by
    have := congrArg List.reverse h
    simpa [trimEndChar] using this
  have : ∀ l r : Str, l.dropWhile (· == '/') ≠ '/' :: r := by
    intro l r hr
    induction l with
    | nil => cases hr
    | cons x l ih =>
      rw [List.dropWhile_cons] at hr
      split at hr
      · exact ih hr
      · rename_i hx
        cases hr
        exact hx rfl
  exact this _ _ h2

theorem without_unique {s t t' : Str} (h : WithoutSlashes s t) (h' : WithoutSlashes s t') : t = t' := by
  obtain ⟨⟨n, e⟩, hn⟩ := h
  obtain ⟨⟨m, e'⟩, hm⟩ := h'
  rw [e] at e'
  clear e
  induction n generalizing m with
  | zero =>
    cases m with
    | zero => simpa using e'
    | succ m =>
      rw [List.replicate_succ', List.replicate_zero, List.append_nil, ← List.append_assoc] at e'
      exact absurd e' (hn _)
  | succ n ih =>
    cases m with
    | zero =>
      rw [List.replicate_succ', List.replicate_zero, List.append_nil, ← List.append_assoc] at e'
      exact absurd e'.symm (hm _)
    | succ m =>
      rw [List.replicate_succ', List.replicate_succ', ← List.append_assoc, ← List.append_assoc] at e'
      exact ih m (List.append_cancel_right e')

/-- An address with a host, as text: what is before the path does not end in a slash. -/
theorem print_parts {u : Url} (hw : u.WF) {h : Str} (hh : HostIs u h) : ∃ pre : Str, (∀ e, pre ≠ e ++ ['/']) ∧
    ∀ path q f, Url.print { u with path := path, query := q, fragment := f } =
      pre ++ (path ++ (optText '?' q ++ optText '#' f)) := by
  obtain ⟨user, port, ha, hne, -⟩ := id hh
  refine ⟨u.scheme ++ ':' :: (authText u.authority), ?_, ?_⟩
  · intro e he
    rw [ha] at he
    have hl := congrArg List.getLast? he
    have hn : user ++ (h ++ port) ≠ [] := by simp [hne]
    obtain ⟨x, hx⟩ := Option.isSome_iff_exists.mp (List.getLast?_isSome.mpr hn)
    have hd := (hw.auth_delims ha).1
    obtain ⟨y, hy⟩ := List.getLast?_eq_some_iff.mp hx
    rw [hy] at hl hd
    simp only [authText, List.getLast?_append, List.getLast?_cons] at hl
    simp at hl
    exact hd (by simp [hl])
  · intro path q f
    have hg : guardText u.authority path = [] := by
      rw [ha]; cases path <;> rfl
    simp [Url.print, hg]

/-- The printed address of the sessions is the one in use exactly for plain addresses. -/
theorem shown_address {u : Url} (hw : u.WF) {h : Str} (hh : HostIs u h) {base seg : Str} {id : Uuid} {addr : Url}
    (hb : WithoutSlashes u.print base) (ha : SessionAddress u seg id addr) :
    addr.print = base ++ ('/' :: (seg ++ '/' :: id.print)) ↔ PlainBase u := by
  obtain ⟨pre, hpre, hpr⟩ := print_parts hw hh
  obtain ⟨dir, last, hp, hl, rfl⟩ := ha
  have hu : u.print = pre ++ (u.path ++ (optText '?' u.query ++ optText '#' u.fragment)) := hpr u.path u.query u.fragment
  rw [hpr]
  have e1 : pre ++ ((dir ++ '/' :: (seg ++ '/' :: id.print)) ++ (optText '?' none ++ optText '#' none)) =
      (pre ++ dir) ++ '/' :: (seg ++ '/' :: id.print) := by simp [optText]
  rw [e1]
  generalize '/' :: (seg ++ '/' :: id.print) = tail
  rw [List.append_left_inj]
  constructor
  · intro e
    obtain ⟨⟨n, hn⟩, hno⟩ := hb
    rw [← e] at hn hno
    rw [hu, List.append_assoc, List.append_right_inj] at hn
    have hrep : ∀ r, r = List.replicate n '/' → ∀ c ∈ r, c = '/' := fun r hr c hc => by
      rw [hr] at hc; exact (List.mem_replicate.mp hc).2
    have hqf : ∀ r : Str, (∀ c ∈ r ++ (optText '?' u.query ++ optText '#' u.fragment), c = '/') →
        u.query = none ∧ u.fragment = none ∧ ∀ c ∈ r, c = '/' := by
      intro r hr
      refine ⟨?_, ?_, fun c hc => hr c (by simp [hc])⟩
      · cases hq : u.query with
        | none => rfl
        | some q => exact absurd (hr '?' (by simp [hq, optText])) (by decide)
      · cases hq : u.fragment with
        | none => rfl
        | some q => exact absurd (hr '#' (by simp [hq, optText])) (by decide)
    rcases hp with hp | ⟨hp, rfl⟩
    · rw [hp, List.append_assoc, List.append_right_inj] at hn
      obtain ⟨h1, h2, h3⟩ := hqf ('/' :: last) (hrep _ hn)
      have hl0 : last = [] := by
        cases last with
        | nil => rfl
        | cons c l => exact absurd (by simp [h3 c (by simp)]) hl
      refine ⟨h1, h2, .inr ⟨dir, by rw [hp, hl0], ?_⟩⟩
      rintro x rfl
      exact hno (pre ++ x) (by simp)
    · rw [hp] at hn
      obtain ⟨h1, h2, -⟩ := hqf [] (hrep _ (by simpa using hn))
      exact ⟨h1, h2, .inl hp⟩
  · rintro ⟨h1, h2, h3⟩
    refine without_unique ?_ hb
    rw [hu, h1, h2]
    rcases h3 with h3 | ⟨d, h3, h4⟩
    · have hd : dir = [] := by
        rcases hp with hp | ⟨-, rfl⟩
        · rw [h3] at hp; simp at hp
        · rfl
      rw [h3, hd]
      exact ⟨⟨0, by simp [optText]⟩, by simpa using hpre⟩
    · have hd : dir = d := by
        rcases hp with hp | ⟨hp, -⟩
        · rw [h3] at hp
          have := congrArg (rsplitOnce '/') hp
          rw [rsplitOnce_eq_some.2 ⟨rfl, by simp⟩, rsplitOnce_eq_some.2 ⟨rfl, hl⟩] at this
          simp only [Option.some.injEq, Prod.mk.injEq] at this
          exact this.1.symm
        · rw [h3] at hp; simp at hp
      rw [h3, hd]
      refine ⟨⟨1, by simp [optText]⟩, ?_⟩
      intro e he
      rcases List.eq_nil_or_concat d with rfl | ⟨d', c, rfl⟩
      · exact hpre e (by simpa using he)
      · simp only [List.concat_eq_append, ← List.append_assoc] at he h4
        have := List.append_inj_right' he rfl
        exact h4 d' (by rw [this])

/-- **C121** The endpoints are listed below the public address without the slashes it ends in. What is
listed for a session is the address in its requests exactly if the public address ends in one slash (or has
no path) and has neither query nor fragment; and it is the status address in the answer exactly if the
public address does not end in a slash. -/
theorem C121_endpoints {p : Pki} {numbers : Signer → KeyNumbers} {rs : List Run} {draw : Draw} {w : Bool}
    {key : EncKey} {args : Args} {host : Str} {app : App} {out : List Str}
    (hl : Launched p numbers rs draw w key args host app out) :
    ∃ base, WithoutSlashes args.publicUrl.print base ∧ BoxShows out c!"Public URL:    " base ∧
    Lists out c!"GET  " (base ++ c!"/request/") ∧ Lists out c!"POST " (base ++ c!"/response/") ∧
    Lists out c!"GET  " (base ++ c!"/status/") ∧
    ∀ nonce uuid drawn σ σ' sid auth st, initiate app nonce uuid drawn σ = (σ', .ok (sid, auth, st)) →
      ∃ s url addr, StoredOne σ σ' uuid s ∧ Url.parse auth = some url ∧
        AuthorizationRequest.fromUrl url demoUrl = .ok ⟨some (c!"x509_san_dns:" ++ host), .byReference addr⟩ ∧
        (addr.print = base ++ c!"/request/" ++ uuid.print ↔ PlainBase args.publicUrl) ∧
        (s.requestObject.returnUri.print = base ++ c!"/response/" ++ uuid.print ↔ PlainBase args.publicUrl) ∧
        (st = base ++ c!"/status/" ++ uuid.print ↔ ∀ e, args.publicUrl.print ≠ e ++ ['/']) := by
  obtain ⟨hS, i, sub, b, -, -, rfl, rfl⟩ := launched_started hl
  have hb := trim_without args.publicUrl.print
  refine ⟨trimEndChar '/' args.publicUrl.print, hb, boxShows_of (banner_public _ _) rfl, ?_, ?_, ?_, ?_⟩
  · simp [Lists, banner]
  · simp [Lists, banner]
  · simp [Lists, banner]
  · intro nonce uuid drawn σ σ' sid auth st h
    obtain ⟨s, url, addr, -, hst, hp, h1, h2, h3, -⟩ := C62_initiate hS h
    obtain ⟨_, -, hr⟩ := appInitiate_ok h
    simp only [Prod.mk.injEq] at hr
    refine ⟨s, url, addr, hst, h1, h3, ?_, ?_, ?_⟩
    · rw [← shown_address hl.address hl.host hb h2]
      generalize uuid.print = t
      simp
    · rw [← shown_address hl.address hl.host hb hp.address]
      generalize uuid.print = t
      simp
    · rw [hr.2.2, List.append_assoc, List.append_left_inj]
      constructor
      · intro e
        show ∀ e, args.publicUrl.print ≠ e ++ ['/']
        rw [show args.publicUrl.print = trimEndChar '/' args.publicUrl.print from e]
        exact hb.2
      · intro hn
        exact without_unique ⟨⟨0, by simp⟩, hn⟩ hb

/-- **C121** So for a public address with one of the usual schemes, the address that is listed for requests and
the one that is listed for the status are never both those in use. -/
theorem C121_never_both {p : Pki} {numbers : Signer → KeyNumbers} {rs : List Run} {draw : Draw} {w : Bool}
    {key : EncKey} {args : Args} {host : Str} {app : App} {out : List Str}
    (hl : Launched p numbers rs draw w key args host app out) (hsp : Special args.publicUrl.scheme) :
    ∃ base, Lists out c!"GET  " (base ++ c!"/request/") ∧ Lists out c!"GET  " (base ++ c!"/status/") ∧
    ∀ nonce uuid drawn σ σ' sid auth st, initiate app nonce uuid drawn σ = (σ', .ok (sid, auth, st)) →
      ∃ url addr, Url.parse auth = some url ∧
        AuthorizationRequest.fromUrl url demoUrl = .ok ⟨some (c!"x509_san_dns:" ++ host), .byReference addr⟩ ∧
        ¬(addr.print = base ++ c!"/request/" ++ uuid.print ∧ st = base ++ c!"/status/" ++ uuid.print) := by
  obtain ⟨base, -, -, h1, -, h2, h3⟩ := C121_endpoints hl
  refine ⟨base, h1, h2, ?_⟩
  intro nonce uuid drawn σ σ' sid auth st h
  obtain ⟨s, url, addr, -, h4, h5, h6, -, h7⟩ := h3 _ _ _ _ _ _ _ _ h
  refine ⟨url, addr, h4, h5, ?_⟩
  rw [h6, h7]
  rintro ⟨⟨hq, hf, hp⟩, hn⟩
  rw [special_iff] at hsp
  rcases hp with hp | ⟨d, hp, -⟩
  · exact (hl.address.special hsp).2 hp
  · obtain ⟨pre, -, hpr⟩ := print_parts hl.address hl.host
    have := hpr args.publicUrl.path args.publicUrl.query args.publicUrl.fragment
    refine hn (pre ++ d) ?_
    rw [show args.publicUrl.print = _ from this, hp, hq, hf]
    simp [optText]

/-! ## Starts -/

/-- The numbers of every toy key. -/
def toyNumbers : Signer → KeyNumbers := fun _ => ⟨[1, 2], [3], [251, 255, 1]⟩

/-- The program started for a host with the text for the response mode. -/
theorem launchedToy (u : Url) (mode : Str) (hw : u.WF) (hh : HostIs u c!"a.b")
    (hs : ∃ app out, (VerifierMain.main cachePki toyNumbers (cacheDraw 9) true flowKey ⟨u, mode⟩
      (runs cachePki [] []).1).2 = .ok (app, out)) :
    ∃ app out, Launched cachePki toyNumbers [] (cacheDraw 9) true flowKey ⟨u, mode⟩ c!"a.b" app out := by
  obtain ⟨app, out, h⟩ := hs
  refine ⟨app, out, fun c => ⟨_, rfl, rfl⟩, ?_, ?_, hw, hh, h⟩
  · intro r hr
    simp only [List.nil_append, List.mem_cons, List.not_mem_nil, or_false] at hr
    subst hr
    rintro der pkcs8 c ⟨⟩ ⟨⟩
    rfl
  · intro b s hb
    simp only [cachePki] at hb
    split at hb
    · cases hb; rfl
    · cases hb

/-- Started with a response mode that has a typing error: the box shows it, and requests are not
encrypted. -/
example : ∃ app out s σ, Launched cachePki toyNumbers [] (cacheDraw 9) true flowKey
      ⟨flowUrl, c!"direct_post_jwt"⟩ c!"a.b" app out ∧
    BoxShows out c!"Response Mode: " c!"direct_post_jwt" ∧ StoredOne [] σ (buildId 5) s ∧
    s.requestObject.responseMode = .directPost := by
  obtain ⟨app, out, hl⟩ := launchedToy flowUrl c!"direct_post_jwt"
    (Url.parse_wf (s := c!"https://a.b/") (by decide))
    ⟨[], [], rfl, by decide, by decide, by decide, .inl rfl, .inl rfl, .inl (by decide)⟩ ⟨_, _, rfl⟩
  obtain ⟨hS, -⟩ := launched_started hl
  obtain ⟨⟨sid, auth, st⟩, h⟩ := C62_initiate_succeeds hS none (buildId 5) c!"drawn" []
  obtain ⟨hb, hm⟩ := C121_mode hl
  obtain ⟨s, h1, -, h2, -⟩ := hm none (buildId 5) c!"drawn" [] _ _ (Prod.ext rfl h)
  exact ⟨app, out, s, _, hl, hb, h1, h2 (by decide)⟩

/-- The configuration that is printed, for those numbers: the private number is in it. -/
example : ∃ app out block, Launched cachePki toyNumbers [] (cacheDraw 9) true flowKey
      ⟨flowUrl, c!"direct_post"⟩ c!"a.b" app out ∧ BlockIs out block ∧
    ∃ der, JsonText (Lines block) (.obj [(c!"d", .str c!"-_8B"), (c!"x", .str c!"AQI"),
      (c!"x5c", .arr [.str (base64Padded der)]), (c!"y", .str c!"Aw")]) := by
  obtain ⟨app, out, hl⟩ := launchedToy flowUrl c!"direct_post"
    (Url.parse_wf (s := c!"https://a.b/") (by decide))
    ⟨[], [], rfl, by decide, by decide, by decide, .inl rfl, .inl rfl, .inl (by decide)⟩ ⟨_, _, rfl⟩
  obtain ⟨k, der, ⟨block, hb⟩, hj, -⟩ := C121_config hl
  exact ⟨app, out, block, hl, hb, der, hj block hb⟩

/-- An address whose sessions are listed elsewhere than they are, and one where only the status is. -/
example : ¬PlainBase ⟨c!"https", some c!"a.b", c!"/x", none, none⟩ ∧
    PlainBase ⟨c!"https", some c!"a.b", c!"/x/", none, none⟩ ∧
    ¬PlainBase ⟨c!"https", some c!"a.b", c!"/x//", none, none⟩ := by
  refine ⟨?_, ?_, ?_⟩
  · rintro ⟨-, -, h | ⟨d, h, -⟩⟩
    · cases h
    · have := congrArg List.getLast? h
      simp at this
  · refine ⟨rfl, rfl, .inr ⟨c!"/x", rfl, ?_⟩⟩
    intro e h
    have := congrArg List.getLast? h
    simp at this
  · rintro ⟨-, -, h | ⟨d, h, h'⟩⟩
    · cases h
    · have : d = c!"/x/" := List.append_cancel_right (show d ++ ['/'] = c!"/x/" ++ ['/'] from h.symm)
      exact h' c!"/x" (by rw [this]; rfl)

end Oid4vp
