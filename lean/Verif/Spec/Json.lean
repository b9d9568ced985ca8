import Verif.Model.Json

/-
What a value is after `json.dumps` and `json.loads`, and which values come back as they were.
-/

namespace Aiootp.Json

variable {F : Type}

/-- A high surrogate that is followed by a low one becomes one character. -/
def joined : List Code → List Code
  | a :: b :: rest =>
    if (0xd800 ≤ a.val ∧ a.val ≤ 0xdbff) ∧ 0xdc00 ≤ b.val ∧ b.val ≤ 0xdfff then chr (0x10000 + ((a.val - 0xd800) * 1024 + (b.val - 0xdc00))) :: joined rest
    else a :: joined (b :: rest)
  | s => s

/-- The `str` that a key becomes. -/
def keyString (E : Env F) : Key F → List Code
  | .str s => joined s
  | .int n => (if n < 0 then 45 :: natText n.natAbs else natText n.natAbs).map chr
  | .float f => (E.repr f).map chr
  | .bool b => (if b then trueText else falseText).map chr
  | .none => nullText.map chr
  | .other => []

/-- Each name once, where it is first. -/
def firsts : List (List Code) → List (List Code)
  | [] => []
  | k :: ks => k :: (firsts ks).filter (· ≠ k)

/-- The value of the last pair with this name. -/
def lastValue (k : List Code) : List (List Code × Val F) → Option (Val F)
  | [] => none
  | (k', v) :: pairs => (lastValue k pairs).or (if k' = k then some v else none)

/-- A `dict` whose keys are strings. -/
def Items.ofPairs : List (List Code × Val F) → Items F
  | [] => .nil
  | (k, v) :: pairs => .cons (.str k) v (Items.ofPairs pairs)

/-- Of equal names the last value, at the place of the first. -/
def merged (pairs : List (List Code × Val F)) : List (List Code × Val F) :=
  (firsts (pairs.map (·.1))).filterMap fun k => (lastValue k pairs).map fun v => (k, v)

mutual
/-- What comes back: tuples as lists, keys as strings, and of equal keys the last value at the place of the first. -/
def back (E : Env F) : Val F → Val F
  | .str s => .str (joined s)
  | .list xs => .list (backs E xs)
  | .tuple xs => .list (backs E xs)
  | .dict items => .dict (.ofPairs (merged (backItems E items)))
  | v => v
def backs (E : Env F) : Vals F → Vals F
  | .nil => .nil
  | .cons x xs => .cons (back E x) (backs E xs)
def backItems (E : Env F) : Items F → List (List Code × Val F)
  | .nil => []
  | .cons k v items => (keyString E k, back E v) :: backItems E items
end

/-- No high surrogate stands right before a low one. -/
def NoPair (s : List Code) : Prop :=
  ∀ pre a b post, s = pre ++ a :: b :: post → ¬ ((0xd800 ≤ a.val ∧ a.val ≤ 0xdbff) ∧ 0xdc00 ≤ b.val ∧ b.val ≤ 0xdfff)

/-- The keys of a `dict`. -/
def Items.keys : Items F → List (Key F)
  | .nil => []
  | .cons k _ items => k :: items.keys

mutual
/-- No tuples, all keys of dicts are strings, and no string has two surrogates that could be one character. -/
def Faithful : Val F → Prop
  | .str s => NoPair s
  | .list xs => FaithfulAll xs
  | .tuple _ => False
  | .dict items => FaithfulItems items ∧ items.keys.Nodup
  | .other => False
  | _ => True
def FaithfulAll : Vals F → Prop
  | .nil => True
  | .cons x xs => Faithful x ∧ FaithfulAll xs
def FaithfulItems : Items F → Prop
  | .nil => True
  | .cons k v items => (∃ s, k = .str s ∧ NoPair s) ∧ Faithful v ∧ FaithfulItems items
end

mutual
/-- Nothing in the value is unknown to `json`, and its integers are not too long. -/
def Writable (limit : Nat) : Val F → Prop
  | .int n => (natText n.natAbs).length ≤ limit
  | .list xs => WritableAll limit xs
  | .tuple xs => WritableAll limit xs
  | .dict items => WritableItems limit items
  | .other => False
  | _ => True
def WritableAll (limit : Nat) : Vals F → Prop
  | .nil => True
  | .cons x xs => Writable limit x ∧ WritableAll limit xs
def WritableItems (limit : Nat) : Items F → Prop
  | .nil => True
  | .cons k v items => k ≠ .other ∧ (∀ n, k = .int n → (natText n.natAbs).length ≤ limit) ∧ Writable limit v ∧ WritableItems limit items
end

/-- Some decimal digits. -/
def Digits (t : Text) : Prop := t ≠ [] ∧ ∀ c ∈ t, 48 ≤ c ∧ c ≤ 57

/-- The form of `float.__repr__` of a finite number. -/
structure FloatText (t : Text) : Prop where
  form : ∃ sign whole fraction exponent, t = sign ++ whole ++ fraction ++ exponent ∧
    (sign = [] ∨ sign = [45]) ∧ Digits whole ∧ (whole.head? = some 48 → whole = [48]) ∧
    (fraction = [] ∨ ∃ ds, fraction = 46 :: ds ∧ Digits ds) ∧
    (exponent = [] ∨ ∃ sign ds, exponent = 101 :: (sign ++ ds) ∧ (sign = [] ∨ sign = [45] ∨ sign = [43]) ∧ Digits ds) ∧
    ¬ (fraction = [] ∧ exponent = [])

/-- Floats are written in such a way that they are read back. -/
structure Env.Law (E : Env F) : Prop where
  read : ∀ f, (E.repr f = nanText ∧ E.nan = f) ∨ (E.repr f = infText ∧ E.inf = f) ∨ (E.repr f = negInfText ∧ E.negInf = f) ∨
    (FloatText (E.repr f) ∧ E.parse (E.repr f) = f)

end Aiootp.Json
