import Verif.Model.Py

/-
Collisions of hash functions.
-/

namespace Aiootp

/-- `x` and `y` are different inputs with the same digest. Every hash function has such inputs, so a theorem that ends with "or there is a collision" has to say where: `x` and `y` are always
messages that the calls in question hash. -/
def Collide (digest : Bytes → Bytes) (x y : Bytes) : Prop := x ≠ y ∧ digest x = digest y

end Aiootp
