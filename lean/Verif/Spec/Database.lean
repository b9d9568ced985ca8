import Verif.Model.Database

/-! What a database is for: every tag has a current value and a saved one. -/

namespace Aiootp.Database

variable {ρ J : Type}

/-- The sizes of keys that the cipher accepts. -/
def KeySize (key : Bytes) : Prop := 64 ≤ key.length ∧ key.length < 256 ^ 8

/-- Manifests that databases write: the names of files differ from each other and from those of the records "0" and "1". -/
structure Manifest.Sound (man : Manifest) : Prop where
  nodup : (man.files.map (·.1)).Nodup
  salt : ∀ p ∈ man.files, p.1 ≠ "0"
  metatags : ∀ p ∈ man.files, p.1 ≠ "1"

/-- What is assumed of the cipher and of JSON. `good` is randomness of the right sizes. -/
structure Env.Law (E : Env ρ J) (good : ρ → Prop) : Prop where
  /-- decryption undoes encryption -/
  back : ∀ key r text, KeySize key → good r → ∀ now, E.decrypt key now none (E.encrypt key r text) = .ok text
  /-- a time to live never changes the plaintext -/
  same : ∀ key r text, KeySize key → good r → ∀ now ttl x, E.decrypt key now ttl (E.encrypt key r text) = .ok x → x = text
  nonempty : ∀ key r text, KeySize key → good r → E.encrypt key r text ≠ []
  /-- the derived keys are long enough -/
  fileKey : ∀ key salt name, KeySize (E.fileKey key salt name)
  manifestKey : ∀ key, KeySize (E.manifestKey key)
  metaKey : ∀ key salt tag, 64 ≤ (E.metaKey key salt tag).length
  manifest : ∀ man, man.Sound → E.loadManifest (E.dumpManifest man) = .ok man

/-- JSON gives the value back. -/
def Storable (E : Env ρ J) (v : Value J) : Prop := ∃ text, encodeValue E v = .ok text ∧ decodeValue E text = .ok v

/-- The values that the tags have, and those that are saved. -/
structure View (J : Type) where
  current : String → Option (Value J)
  saved : String → Option (Value J)

/-- Nothing is set and nothing is saved. -/
def View.empty : View J := ⟨fun _ => none, fun _ => none⟩

/-- What a query without a time to live returns for a tag with this value. -/
def answer (silent : Bool) : Option (Value J) → Except Err (Option (Value J))
  | some x => .ok (some x)
  | none => if silent then .ok none else .error .key

/-- The function with another value in one place. -/
def setAt {β : Type} (f : String → β) (t : String) (b : β) : String → β := fun u => if u = t then b else f u

/-- What the calls are for: setting with `cache=False` also saves, a popped or deleted tag is gone, a rollback and a cleared cache go back to
the saved values, a save makes the current values the saved ones, and queries change nothing. -/
def View.after (v : View J) : Op ρ J → View J
  | .set t x true _ => { v with current := setAt v.current t (some x) }
  | .set t x false _ => ⟨setAt v.current t (some x), setAt v.saved t (some x)⟩
  | .query .. => v
  | .pop t .. => ⟨setAt v.current t none, setAt v.saved t none⟩
  | .delItem t => ⟨setAt v.current t none, setAt v.saved t none⟩
  | .rollback t .. => { v with current := setAt v.current t (v.saved t) }
  | .clearCache => { v with current := v.saved }
  | .saveTag t .. => { v with saved := setAt v.saved t (v.current t) }
  | .save _ => { v with saved := v.current }
  | .loadTags .. => v

/-- The calls that are considered: tags of `T`, values that JSON gives back, randomness of the right sizes. -/
def Op.Allowed (E : Env ρ J) (good : ρ → Prop) (T : String → Prop) : Op ρ J → Prop
  | .set t x _ r => T t ∧ Storable E x ∧ good r
  | .query t .. => T t
  | .pop t .. => T t
  | .delItem t => T t
  | .rollback t .. => T t
  | .clearCache => True
  | .saveTag t _ r => T t ∧ good r
  | .save rs => ∀ name, good (rs name)
  | .loadTags .. => True

/-- Different tags of `T` have different file names, which differ from that of the manifest and from the two reserved records of the
manifest. (The names are hashes of 24 bytes, in base 38.) -/
structure Apart (E : Env ρ J) (T : String → Prop) (key salt : Bytes) : Prop where
  inj : ∀ t u, T t → T u → E.fileName key salt t = E.fileName key salt u → t = u
  root : ∀ t, T t → E.fileName key salt t ≠ E.rootName key
  plain : ∀ t, T t → E.fileName key salt t ≠ "0" ∧ E.fileName key salt t ≠ "1"
  rootPlain : E.rootName key ≠ "0" ∧ E.rootName key ≠ "1"

/-- The tag that a call names. -/
def Op.tag? : Op ρ J → Option String
  | .set t .. => some t
  | .query t .. => some t
  | .pop t .. => some t
  | .delItem t => some t
  | .rollback t .. => some t
  | .saveTag t .. => some t
  | .clearCache => none
  | .save _ => none
  | .loadTags .. => none

end Aiootp.Database
