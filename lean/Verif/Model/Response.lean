import Verif.Model.AuthRequest
/-!
# Authorization responses (src/core/response/mod.rs) and their submission (src/wallet.rs)
-/

set_option autoImplicit false

namespace Oid4vp

/-! ## Form bodies as bytes -/

/-- `splitOn` for bytes. -/
def splitOnB (c : UInt8) : Bytes → List Bytes
  | [] => [[]]
  | x :: xs =>
    if x = c then [] :: splitOnB c xs
    else match splitOnB c xs with
      | [] => [[x]]
      | p :: ps => (x :: p) :: ps

/-- `splitOnce` for bytes. -/
def splitOnceB (c : UInt8) : Bytes → Option (Bytes × Bytes)
  | [] => none
  | x :: xs =>
    if x = c then some ([], xs)
    else match splitOnceB c xs with
      | some (a, b) => some (x :: a, b)
      | none => none

/-- One piece of a form body (`form_urlencoded::Parse::next`). -/
def formPieceB (s : Bytes) : Str × Str :=
  match splitOnceB 61 s with
  | some (k, v) => (utf8Lossy (pctDec k), utf8Lossy (pctDec v))
  | none => (utf8Lossy (pctDec s), [])

/-- `form_urlencoded::parse` of arbitrary bytes (as reached from
`serde_urlencoded::from_bytes`, src/core/response/mod.rs:33,38). -/
def formParseB (b : Bytes) : List (Str × Str) :=
  ((splitOnB 38 b).filter (fun p => !p.isEmpty)).map formPieceB

/-! ## Responses -/

/-- `UnencodedAuthorizationResponse` (src/core/response/mod.rs:71-82). -/
structure UnencodedResponse where
  vpToken : VpToken
  state : Option State
deriving DecidableEq, Repr

/-- `AuthorizationResponse` (src/core/response/mod.rs:18-23). -/
inductive AuthorizationResponse where
  | unencoded (r : UnencodedResponse)
  | jwt (response : Str)
deriving DecidableEq, Repr

/-- `UnencodedAuthorizationResponse::new` (src/core/response/mod.rs:86-91). -/
def UnencodedResponse.new (t : VpToken) : UnencodedResponse := ⟨t, none⟩

/-- `UnencodedAuthorizationResponse::with_state` (src/core/response/mod.rs:94-99). -/
def UnencodedResponse.withState (t : VpToken) (s : State) : UnencodedResponse := ⟨t, some s⟩

/-- The order in which a `HashMap` enumerates its entries: arbitrary. -/
abbrev MapOrder := List (Str × List VpTokenItem) → List (Str × List VpTokenItem)

/-- `serde_json::to_string(&vp_token)` (src/core/response/mod.rs:122): the members in the
enumeration order of the hash map. -/
def VpToken.text (ord : MapOrder) (t : VpToken) : Str := jPrint (VpToken.toJson ⟨ord t.map⟩)

/-- The form fields of an unencoded response (src/core/response/mod.rs:53-61,120-130). -/
def UnencodedResponse.fields (ord : MapOrder) (r : UnencodedResponse) : List (Str × Str) :=
  (c!"vp_token", r.vpToken.text ord) ::
    match r.state with
    | some s => [(c!"state", s.val)]
    | none => []

/-- `UnencodedAuthorizationResponse::into_x_www_form_urlencoded`
(src/core/response/mod.rs:102-107). -/
def UnencodedResponse.toForm (ord : MapOrder) (r : UnencodedResponse) : Str :=
  formSer (r.fields ord)

/-- `JwtAuthorizationResponse::into_x_www_form_urlencoded`
(src/core/response/mod.rs:140-143). -/
def jwtToForm (response : Str) : Str := formSer [(c!"response", response)]

/-- A required field of a struct read from form fields: it must occur exactly once. -/
def formReq (k : Str) (l : List (Str × Str)) : Res Str :=
  match AuthorizationRequest.valuesOf k l with
  | [v] => .ok v
  | [] => .error .missing
  | _ => .error .parse

/-- An optional field of a struct read from form fields: it must not occur twice. -/
def formOpt (k : Str) (l : List (Str × Str)) : Res (Option Str) :=
  match AuthorizationRequest.valuesOf k l with
  | [v] => .ok (some v)
  | [] => .ok none
  | _ => .error .parse

/-- `serde_json::from_str::<VpToken>` (src/core/response/mod.rs:42). -/
def VpToken.ofText (s : Str) : Res VpToken :=
  match jParseRaw s with
  | .error e => .error e
  | .ok j => VpToken.ofJson j

/-- `AuthorizationResponse::from_x_www_form_urlencoded` (src/core/response/mod.rs:31-50). -/
def AuthorizationResponse.ofForm (body : Bytes) : Res AuthorizationResponse :=
  let l := formParseB body
  match formReq c!"response" l with
  | .ok r => .ok (.jwt r)
  | .error _ =>
    match formReq c!"vp_token" l with
    | .error e => .error e
    | .ok t => match formOpt c!"state" l with
      | .error e => .error e
      | .ok st => match VpToken.ofText t with
        | .error e => .error e
        | .ok tok => .ok (.unencoded ⟨tok, st.map .mk⟩)

/-- Derived `Deserialize` of `UnencodedAuthorizationResponse` from a JSON value
(src/core/response/mod.rs:70-82); also `TryFrom<UntypedObject>`
(src/core/response/mod.rs:146-152). -/
def UnencodedResponse.ofJson (j : Json) : Res UnencodedResponse :=
  match structFields [c!"vp_token", c!"state"] j with
  | .error e => .error e
  | .ok m => match fieldReq c!"vp_token" VpToken.ofJson m with
    | .error e => .error e
    | .ok t => match fieldOpt c!"state" strOfJson m with
      | .error e => .error e
      | .ok s => .ok ⟨t, s.map .mk⟩

/-- Derived `Serialize` of `UnencodedAuthorizationResponse` to a JSON value
(src/core/response/mod.rs:70-82). -/
def UnencodedResponse.toJson (r : UnencodedResponse) : Json :=
  .obj (msetOpt c!"state" (r.state.map (fun s => .str s.val)) [(c!"vp_token", r.vpToken.toJson)])

/-- Derived, untagged `Deserialize` of `AuthorizationResponse` from a JSON value
(src/core/response/mod.rs:18-23,132-136): unencoded first, then `{response}`. -/
def AuthorizationResponse.ofJson (j : Json) : Res AuthorizationResponse :=
  match UnencodedResponse.ofJson j with
  | .ok r => .ok (.unencoded r)
  | .error _ => match structFields [c!"response"] j with
    | .error e => .error e
    | .ok m => (fieldReq c!"response" strOfJson m).map .jwt

/-- Derived, untagged `Serialize` of `AuthorizationResponse` to a JSON value
(src/core/response/mod.rs:18-23,132-136). -/
def AuthorizationResponse.toJson : AuthorizationResponse → Json
  | .unencoded r => r.toJson
  | .jwt s => .obj [(c!"response", .str s)]

/-! ## Submission -/

/-- `char::is_whitespace` (Unicode White_Space), used by `str::trim` (src/wallet.rs:92). -/
def isWhite (c : Char) : Bool :=
  let n := c.toNat
  (9 ≤ n && n ≤ 13) || n = 0x20 || n = 0x85 || n = 0xA0 || n = 0x1680
    || (0x2000 ≤ n && n ≤ 0x200A) || n = 0x2028 || n = 0x2029 || n = 0x202F || n = 0x205F
    || n = 0x3000

/-- The headers of the POST (src/core/util/mod.rs:14-16, src/wallet.rs:40-42,51-53). -/
def postHeaders : List (Str × Str) :=
  baseHeaders ++ [(c!"content-type", c!"application/x-www-form-urlencoded")]

/-- The POST request of `submit_response` (src/wallet.rs:36,40-42,70-72). -/
def postRequest (uri : Url) (body : Str) : HttpRequest :=
  ⟨c!"POST", uri.print, postHeaders, utf8 body⟩

/-- What is made of the HTTP response (src/wallet.rs:79-106). -/
def redirectOf (resp : HttpResponse) : Res (Option Url) :=
  match utf8Dec resp.body with
  | none => .error .decode
  | some body =>
    if resp.isSuccess then
      if body.all isWhite then .ok none
      else match jParse body with
        | .error e => .error e
        | .ok j => match (j.get? c!"redirect_uri").bind Json.asStr? with
          | none => .ok none
          | some s => match Url.parse s with
            | none => .error .parse
            | some u => .ok (some u)
    else .error .http

/-- Send the POST and read the answer (src/wallet.rs:70-106): the HTTP requests made and
the result. -/
def postAndRead (w : Wallet) (uri : Url) (body : Str) : List HttpRequest × Res (Option Url) :=
  if w.uriOk uri.print then
    ([postRequest uri body],
      match w.http (postRequest uri body) with
      | .error e => .error e
      | .ok resp => redirectOf resp)
  else ([], .error .http)

/-- `Wallet::submit_response` (src/wallet.rs:31-107): the HTTP requests made and the
result. -/
def Wallet.submitResponse (ord : MapOrder) (w : Wallet) (a : RequestObject)
    (r : AuthorizationResponse) : List HttpRequest × Res (Option Url) :=
  match a.responseMode, r with
  | .directPost, .unencoded u => postAndRead w a.returnUri (u.toForm ord)
  | .directPost, .jwt _ => ([], .error .mismatch)
  | .directPostJwt, .jwt s => postAndRead w a.returnUri (jwtToForm s)
  | .directPostJwt, .unencoded _ => ([], .error .mismatch)
  | .dcApi, _ => ([], .ok none)
  | .dcApiJwt, _ => ([], .ok none)
  | .unsupported _, _ => ([], .error .unsupported)

end Oid4vp
