import Verif.Model.Basic

/-! # Panics -/

set_option autoImplicit false

namespace Oid4vp

/-- The call panics. -/
def Panics {α : Type} (r : Res α) : Prop := r = .error .panic

end Oid4vp
