import Verif.Spec.ExampleFlow
import Verif.Spec.VerifierTasks
/-!
# The example wallet and the example verifier, amid other requests
-/

set_option autoImplicit false

namespace Oid4vp.Spec
open Example VerifierTasks
open VerifierHttp (Server Reply)
open WalletApp (Call)

/-- The public address has no directory: the server is asked for what it gives out. -/
def AtRoot (u : Url) : Prop := u.path = [] ∨ ∃ last, u.path = '/' :: last ∧ '/' ∉ last

/-- The request asks for the request object of the session at the address that the verifier gave out. -/
def AsksAt (u : Url) (v : Uuid) (c : Call) : Prop :=
  c.method = c!"GET" ∧ ∃ addr, SessionAddress u c!"request" v addr ∧ c.path = addr.path

/-- The wallet's parameters refer to the request of the session, and its HTTP client gets this text there. -/
structure Given (u : Url) (v : Uuid) (jwt : Str) (a : Adapter) (prm : Params) : Prop where
  noRequest : prm.request = none
  uri : ∃ addr, SessionAddress u c!"request" v addr ∧ prm.requestUri.bind Url.parse = some addr
  reached : ∀ addr, SessionAddress u c!"request" v addr → Fetched a.wallet addr jwt

/-- The request brings this body to this address. -/
def Brings (addr : Url) (body : Bytes) (c : Call) : Prop :=
  c.method = c!"POST" ∧ c.path = addr.path ∧ c.body = body

/-- No retrieval of the request object of the session is under way. -/
def NoneRetrieving (w : Running) (v : Uuid) : Prop :=
  ∀ z p, (z, p) ∈ w.tasks → Asks v z.2.2 → ∃ rep, p = .done rep

/-- After the execution `es1`: when the body is brought to the address, and nothing else is delivered for the
session, it is accepted, and what is shown from then on as the status of the session is reported so, whatever
else comes (`es2`); only the session store may be found locked. -/
def EndsWith (srv : Server) (σ : Store) (es1 : List Move) (v : Uuid) (addr : Url) (body : Bytes)
    (reported : Json → Prop) : Prop :=
  ∀ y es2, Brings addr body y.2.2 → DrawnOnce σ (es1 ++ .arrive y :: es2) v →
    (∀ z r, Arrives (es1 ++ es2) z → ¬ Submits v r z.2.2) →
    (∀ rep, (y, .done rep) ∈ (run srv (begin σ) (es1 ++ .arrive y :: es2)).tasks →
      rep = ⟨200, .json (.obj [])⟩ ∨
      ((∃ i, Move.step i true ∈ es1 ++ .arrive y :: es2) ∧ LockedOut y.2.2 rep)) ∧
    ∀ es3 es4, es2 = es3 ++ es4 → Granted (run srv (begin σ) (es1 ++ .arrive y :: es3)) y →
      ∀ z rep, z.2.2.method = c!"GET" → Polls v z.2.2 → ¬ Arrives (es1 ++ es3) z →
        (z, .done rep) ∈ (run srv (begin σ) (es1 ++ .arrive y :: es2)).tasks →
        (∃ doc, rep = ⟨200, .json doc⟩ ∧ reported doc) ∨
        ((∃ i, Move.step i true ∈ es1 ++ .arrive y :: es2) ∧ LockedOut z.2.2 rep)

end Oid4vp.Spec
