import Verif.Model.HttpClient
import Verif.Spec.UrlJoin
/-!
# What the bundled HTTP client does on the network
-/

set_option autoImplicit false

namespace Oid4vp.Spec
open HttpClient

/-- An address of the web. -/
def WebAddress (u : Url) : Prop := u.scheme = c!"http" ∨ u.scheme = c!"https"

/-- The answer sends the client on from the address `cur` to the address `next`: a status for it and a
`location` (the first, if there are several) whose text leads from `cur` to `next`, an address that can be
used. -/
def SendsTo (net : Net) (a : Answer) (cur next : Url) : Prop :=
  a.status ∈ [301, 302, 303, 307, 308] ∧
    ∃ before text after, a.headers = before ++ (c!"location", utf8 text) :: after ∧
      (∀ p ∈ before, p.1 ≠ c!"location") ∧ Resolves cur text next ∧ net.usable next = true

/-- The authority without credentials. -/
def Bare (auth rest : Str) : Prop := '@' ∉ rest ∧ (auth = rest ∨ ∃ user, auth = user ++ c!"@" ++ rest)

/-- The text of the address without credentials and fragment. -/
def Stripped (u : Url) (text : Str) : Prop :=
  ∃ auth rest, u.authority = some auth ∧ Bare auth rest ∧
    text = Url.print { u with authority := some rest, fragment := none }

/-- The `referer` sent to `next` when coming from `cur`: none from `https` to `http`. -/
def RefererIs (next cur : Url) (text : Str) : Prop :=
  ¬ (cur.scheme = c!"https" ∧ next.scheme = c!"http") ∧ Stripped cur text

/-- Host and port of an address; without a port it is that of the scheme. -/
def ServerOf (u : Url) (host : Str) (port : Nat) : Prop :=
  ∃ auth digits text, u.authority = some auth ∧ Bare auth (host ++ marked c!":" digits) ∧ HostText true host text ∧
    ((digits.getD [] = [] ∧ PortOf u.scheme port) ∨
      ∃ ds, digits = some ds ∧ ds ≠ [] ∧ NumberIn 10 ds port)

/-- Same host and port. -/
def SameServer (u v : Url) : Prop := ∃ host port, ServerOf u host port ∧ ServerOf v host port

/-- Header names about a body, and header names with secrets of a host. -/
def bodyNames : List Str := [c!"content-type", c!"content-length", c!"content-encoding", c!"transfer-encoding"]
def secretNames : List Str :=
  [c!"cookie", c!"cookie2", c!"authorization", c!"proxy-authorization", c!"www-authenticate"]

/-- The request `r'` to `next` that follows the request `r` to `cur` after a redirect with this
status: 307 and 308 repeat method and body, the others turn it into a `GET` without body. -/
structure NextRequest (status : Nat) (cur next : Url) (r r' : HttpRequest) : Prop where
  uri : r'.uri = next.print
  again : status ∈ [307, 308] → r'.method = r.method ∧ r'.body = r.body
  get : status ∈ [301, 302, 303] → r'.method = c!"GET" ∧ r'.body = []
  headers : ∀ k v, (k, v) ∈ r'.headers ↔
    ((k = c!"referer" ∧ RefererIs next cur v) ∨
      ((k, v) ∈ r.headers ∧ (k = c!"referer" → ∀ w, ¬ RefererIs next cur w) ∧
        (status ∈ [301, 302, 303] → k ∉ bodyNames))) ∧
    (¬ SameServer next cur → k ∉ secretNames)

/-- The requests from the `n`-th one on, with the answers to all of them but the last, follow one from
the other. -/
inductive Redirects (net : Net) : Nat → Url → HttpRequest → List HttpRequest → Url → HttpRequest → Prop
  | last {n u r} : Redirects net n u r [r] u r
  | step {n u r a next r' l v z} : net.send n r = .ok a → SendsTo net a u next → WebAddress next →
      NextRequest a.status u next r r' → Redirects net (n + 1) next r' l v z →
      Redirects net n u r (r :: l) v z

/-- How a call of the client ends whose last request was the `n`-th, `r` to the address `u`: the exchange
failed; or it was sent on, but not to an address of the web or once too often; or the answer, if it
came to its end, is the response. -/
inductive Outcome (net : Net) (n : Nat) (u : Url) (r : HttpRequest) : Res Response → Prop
  | failed {e} : net.send n r = .error e → Outcome net n u r (.error e)
  | stopped {a next e} : net.send n r = .ok a → SendsTo net a u next →
      ¬ WebAddress next ∨ n = net.limit → Outcome net n u r (.error e)
  | broken {a e} : net.send n r = .ok a → (∀ next, ¬ SendsTo net a u next) → a.body = .error e →
      Outcome net n u r (.error e)
  | answered {a b} : net.send n r = .ok a → (∀ next, ¬ SendsTo net a u next) → a.body = .ok b →
      Outcome net n u r (.ok ⟨a.status, a.headers, b⟩)

/-- What is sent on the network for the requests that the library makes. -/
def OnNetwork (net : Net) (l : List HttpRequest) : List HttpRequest := l.flatMap (fun q => (execute net q).1)

end Oid4vp.Spec
