import Verif.Model.Package

/-
`aiootp/keygens/package_signer.py`: a `PackageSigner` from its creation through any sequence of calls.
-/

namespace Aiootp.Package

open Keys

/-- package_signer.py:161: `date or self._clock.time()`, which takes today also for 0. -/
def dateOr (today : Int) : Option Int → Int
  | some d => if d = 0 then today else d
  | none => today

/-- package_signer.py:146-163 with 41-57: a new signer. `number` makes JSON of an `int`; `today` is `_clock.time()`. `extras` are the other keyword arguments; they are set first. -/
def Signer.new {Sk : Type} (number : Int → Json) (today : Int) (package version : String) (date : Option Int) (extras : Dict Json) :
    Except Err (Signer Sk) :=
  (extras.forM fun item => settable item.1).map fun _ =>
    { scope := ((((Dict.update [] extras).set "package" (.str package)).set "version" (.str version)).set "date" (number (dateOr today date))) }

/-- The calls that change a signer (package_signer.py:249-338). `scope` is `update_scope` for one name; several names are several
calls. -/
inductive Cmd (Sk : Type) where
  | connect (stored : Dict (Entry Sk))
  | scope (name : String) (value : Json)
  | credentials (items : Dict Json)
  | key (key : Given Sk)
  | file (name : String) (data : Bytes)
  | sign

/-- One call (package_signer.py:249-338). -/
def Signer.exec {Sk Pk : Type} (E : Env) (C : Curve Sk Pk) (s : Signer Sk) : Cmd Sk → Except Err (Signer Sk)
  | .connect stored => s.connect stored
  | .scope name value => s.updateScope name value
  | .credentials items => s.updateCredentials items
  | .key key => s.updateKey C key
  | .file name data => s.addFile E name data
  | .sign => s.signPackage E C

/-- One call; one that raises changes nothing (package_signer.py:249-338). -/
def Signer.step {Sk Pk : Type} (E : Env) (C : Curve Sk Pk) (s : Signer Sk) (c : Cmd Sk) : Signer Sk :=
  match s.exec E C c with
  | .ok s' => s'
  | .error _ => s

/-- Any sequence of calls (package_signer.py:249-338). -/
def Signer.run {Sk Pk : Type} (E : Env) (C : Curve Sk Pk) (s : Signer Sk) : List (Cmd Sk) → Signer Sk
  | [] => s
  | c :: cs => (s.step E C c).run E C cs

/-- The calls that did not raise (package_signer.py:249-338). -/
def Signer.succeeded {Sk Pk : Type} (E : Env) (C : Curve Sk Pk) (s : Signer Sk) : List (Cmd Sk) → List (Cmd Sk)
  | [] => []
  | c :: cs => match s.exec E C c with
    | .ok s' => c :: s'.succeeded E C cs
    | .error _ => s.succeeded E C cs

end Aiootp.Package
