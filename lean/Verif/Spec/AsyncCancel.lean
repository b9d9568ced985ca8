import Verif.Spec.AsyncDb

/-! Calls on a database that keep values in the cache until they are saved. -/

namespace Aiootp.AsyncDb

variable {ρ J : Type}

/-- The calls other than `aset_tag(cache=False)`, `asave_tag(drop_cache=True)` and `apop_tag`. -/
def Keeps : Database.Op ρ J → Prop
  | .set _ _ cache _ => cache = true
  | .saveTag _ drop _ => drop = false
  | .pop .. => False
  | _ => True

end Aiootp.AsyncDb
