import Verif.Model.Profile

/-
`aiootp/_paths.py`: the names of salt files, for all sizes. (Model/Profile.lean uses the default size.)
-/

namespace Aiootp.Profile

open Canon

/-- _paths.py:123-134 `deniable_filename` (109-120 `adeniable_filename`), with the name as code points. `FILENAME_HASH_SLICE` takes 24 bytes. -/
def deniableName (sha256 : Bytes → Bytes) (key : Bytes) (size : Int) : Except Err Name := do
  raiseIf (¬ (16 ≥ size ∧ size ≥ 1)) .value
  raiseIf (¬ ((key.length : Int) ≥ 2 * size)) .value
  let mixed ← xiMix key size.toNat
  returned (Text.bytesToFilename ((sha256 mixed).take 24))

end Aiootp.Profile
