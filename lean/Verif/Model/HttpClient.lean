import Verif.Model.Response
import Verif.Model.UrlJoin
/-!
# The HTTP client that comes with the library

src/core/util/mod.rs:18-68: `ReqwestClient`, a `reqwest::Client` built with `use_rustls_tls` and nothing
else, so with the redirect policy `reqwest` has by default. The crate `reqwest` (version 0.12) is
modelled for the methods the library uses, `GET` and `POST`: with other methods its releases differ on
redirects 301 and 302. Its default headers (`accept`), cookies and connections are left out.
-/

set_option autoImplicit false

namespace Oid4vp
namespace HttpClient

/-- One answer from the network. Names of headers are in lower case; the body may break off. -/
structure Answer where
  status : Nat
  headers : List (Str × Bytes)
  body : Res Bytes

/-- The surroundings of the client: the answer to the `n`-th request of one call (numbered from 0), whether the
`http` crate can use an address, and how many redirects are followed (10 by default). -/
structure Net where
  send : Nat → HttpRequest → Res Answer
  usable : Url → Bool
  limit : Nat

/-- How a `location` is resolved against the current address (`reqwest`): as UTF-8 text, with `Url::join`; an
address that the `http` crate cannot use is none. -/
def Net.join (net : Net) (cur : Url) (v : Bytes) : Option Url :=
  match utf8Dec v with
  | some s => match cur.join s with
    | some u => if net.usable u then some u else none
    | none => none
  | none => none

/-- An authority without user name and password. -/
def bare (a : Str) : Str :=
  match rsplitOnce '@' a with
  | some (_, h) => h
  | none => a

/-- The `referer` for the next address (`reqwest`, `make_referer`): the current one without credentials and fragment,
and none from `https` to `http`. -/
def referer (next cur : Url) : Option Str :=
  if next.scheme = c!"http" ∧ cur.scheme = c!"https" then none
  else some (Url.print { cur with authority := cur.authority.map bare, fragment := none })

/-- `Url::host_str` and `Url::port_or_known_default` (crate `url`). -/
def hostPort (u : Url) : Option (Str × Option Nat) :=
  match u.authority with
  | some a =>
    let (h, p) := splitPort false (bare a)
    some (h, match p with
      | none => mget u.scheme specialPorts
      | some [] => mget u.scheme specialPorts
      | some ds => some (digitsVal ds))
  | none => none

/-- Two addresses have different hosts or ports (`reqwest`, `remove_sensitive_headers`). -/
def crossHost (next cur : Url) : Bool := hostPort next != hostPort cur

/-- The `http::Response<Vec<u8>>` made of an answer (src/core/util/mod.rs:46-65). The version and
the extensions are copied too and not modelled. -/
structure Response where
  status : Nat
  headers : List (Str × Bytes)
  body : Bytes
deriving DecidableEq, Repr

/-- Header names that `reqwest` drops together with the body. -/
def contentHeaders : List Str :=
  [c!"transfer-encoding", c!"content-encoding", c!"content-type", c!"content-length"]

/-- Header names that `reqwest` drops when the host changes. -/
def sensitiveHeaders : List Str :=
  [c!"authorization", c!"cookie", c!"cookie2", c!"proxy-authorization", c!"www-authenticate"]

/-- `HeaderMap::remove` of several names. -/
def dropHeaders (names : List Str) (h : List (Str × Str)) : List (Str × Str) :=
  h.filter (fun p => !names.contains p.1)

/-- The request after a redirect, except for its address (`reqwest`): 301, 302 and 303 lead to a
`GET` without body, 307 and 308 repeat the request, other answers are not redirects. -/
def redirected (status : Nat) (r : HttpRequest) : Option HttpRequest :=
  if status = 301 ∨ status = 302 ∨ status = 303 then
    some { r with method := c!"GET", headers := dropHeaders contentHeaders r.headers, body := [] }
  else if status = 307 ∨ status = 308 then some r
  else none

/-- The first `location` header. -/
def location (h : List (Str × Bytes)) : Option Bytes :=
  (h.find? (fun p => p.1 = c!"location")).map Prod.snd

/-- The headers of the request to the next address (`reqwest`). -/
def nextHeaders (cur next : Url) (h : List (Str × Str)) : List (Str × Str) :=
  let h := match referer next cur with
    | some v => dropHeaders [c!"referer"] h ++ [(c!"referer", v)]
    | none => h
  if crossHost next cur then dropHeaders sensitiveHeaders h else h

/-- `http` or `https`. -/
def httpScheme (u : Url) : Bool := u.scheme = c!"http" || u.scheme = c!"https"

/-- The requests made, from the `n`-th one on, and the answer that is not followed further
(`reqwest`, with at most `fuel` more redirects). -/
def chain (net : Net) : Nat → Nat → Url → HttpRequest → List HttpRequest × Res Answer
  | fuel, n, cur, r =>
    match net.send n r with
    | .error e => ([r], .error e)
    | .ok a =>
      match redirected a.status r, (location a.headers).bind (net.join cur) with
      | some r', some next =>
        match fuel with
        | 0 => ([r], .error .http)
        | fuel + 1 =>
          if httpScheme next then
            let t := chain net fuel (n + 1) next
              { r' with uri := next.print, headers := nextHeaders cur next r'.headers }
            (r :: t.1, t.2)
          else ([r], .error .http)
      | _, _ => ([r], .ok a)

/-- `ReqwestClient::execute` (src/core/util/mod.rs:38-67): the requests made and the response. -/
def execute (net : Net) (r : HttpRequest) : List HttpRequest × Res Response :=
  match Url.parse r.uri with
  | none => ([], .error .http)
  | some u =>
    if httpScheme u then
      let t := chain net net.limit 0 u { r with uri := u.print }
      (t.1, match t.2 with
        | .error e => .error e
        | .ok a => match a.body with
          | .error e => .error e
          | .ok b => .ok ⟨a.status, a.headers, b⟩)
    else ([], .error .http)

/-- A wallet's `http_client` that is a `ReqwestClient` (src/wallet.rs:20, as in
examples/wallet-conformance-adapter/server/handlers/authorization.rs:122). -/
def asHttp (net : Net) (r : HttpRequest) : Res HttpResponse :=
  match (execute net r).2 with
  | .error e => .error e
  | .ok a => .ok ⟨a.status, a.body⟩

end HttpClient
end Oid4vp
