import Verif.Model.AnyStore
import Verif.Spec.Session
/-!
# What is asked of a session store, and what the verifier then does
-/

set_option autoImplicit false

namespace Oid4vp.Spec

/-- The documentation of the trait (src/verifier/session.rs:21-33) spelled out: there is a map of
sessions (`view`), a call that reports success has done to it what it says, a call that reports
failure has done nothing, and a lookup reports a session only if it is there. The store may fail at
any time. -/
structure Lawful {S : Type} (st : SessionStore S) (view : S → AMap) : Prop where
  initiate_ok : ∀ s x, (st.initiate s x).2 = .ok () →
    view (st.initiate s x).1 = (view x).put s.uuid (some s)
  initiate_error : ∀ s x e, (st.initiate s x).2 = .error e → view (st.initiate s x).1 = view x
  update_ok : ∀ u t x, (st.updateStatus u t x).2 = .ok () →
    ∃ s, view x u = some s ∧
      view (st.updateStatus u t x).1 = (view x).put u (some { s with status := t })
  update_error : ∀ u t x e, (st.updateStatus u t x).2 = .error e →
    view (st.updateStatus u t x).1 = view x
  get_ok : ∀ u x s, (st.getSession u x).2 = .ok s → view x u = some s
  get_keeps : ∀ u x, view (st.getSession u x).1 = view x
  remove_ok : ∀ u x, (st.removeSession u x).2 = .ok () →
    (∃ s, view x u = some s) ∧ view (st.removeSession u x).1 = (view x).put u none
  remove_error : ∀ u x e, (st.removeSession u x).2 = .error e →
    view (st.removeSession u x).1 = view x

/-- The same effects, except that failures may have other reasons. -/
inductive SameEffects : List VEvent → List VEvent → Prop where
  | nil : SameEffects [] []
  | same {e : VEvent} {l m : List VEvent} : SameEffects l m → SameEffects (e :: l) (e :: m)
  | failed {u : Uuid} {e e' : Err} {l m : List VEvent} :
    SameEffects l m → SameEffects (.failed u e :: l) (.failed u e' :: m)

/-- The same scheduling decision, whatever `try_lock` finds. -/
inductive SameMove : SessionStore.Move → Sched → Prop where
  | spawn (op : Op) : SameMove (.spawn op) (.spawn op)
  | step (i : Nat) (busy : Bool) : SameMove (.step i) (.step i busy)
  | abandon (i : Nat) : SameMove (.abandon i) (.abandon i)

/-- The same scheduling decisions. -/
inductive SameMoves : List SessionStore.Move → List Sched → Prop where
  | nil : SameMoves [] []
  | cons {m : SessionStore.Move} {s : Sched} {ms : List SessionStore.Move} {ss : List Sched} :
    SameMove m s → SameMoves ms ss → SameMoves (m :: ms) (s :: ss)

/-- The call of the store that the next step of a running operation makes. -/
def callOf : Task → List SessionStore.Call
  | .start (.build s) => [.initiate s]
  | .start (.poll u) => [.getSession u]
  | .start (.retrieve u) => [.getSession u]
  | .start (.verify u _ _) => [.getSession u]
  | .start (.remove u) => [.removeSession u]
  | .retrieveGot u _ => [.updateStatus u .sentRequest]
  | .verifyGot _ _ _ _ => []
  | .verifyDone u o => [.updateStatus u (.complete o)]
  | .finished => []

end Oid4vp.Spec
