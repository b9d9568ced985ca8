import Verif.Model.Messages

/-!
C127: the messages of exceptions tell the values they are about.
-/

namespace Aiootp.Messages

/-- Specification: `pat` occurs somewhere in `s`. -/
def Occurs (pat s : Text) : Prop := ∃ u v, s = u ++ pat ++ v

theorem prefix_cut {pat s : Text} {x : Char} {r : Text} (hx : x ∉ pat)
    (h : pat <+: s ++ x :: r) : pat <+: s := by
  rcases Nat.lt_or_ge s.length pat.length with hl | hl
  · exfalso
    have h1 : s ++ [x] <+: s ++ x :: r := ⟨r, by simp⟩
    have h2 : s ++ [x] <+: pat := List.prefix_of_prefix_length_le h1 h (by simp; omega)
    exact hx (h2.subset (by simp))
  · exact List.prefix_of_prefix_length_le h ⟨_, rfl⟩ hl

theorem subGo_cut {pat new : Text} {x : Char} (hx : x ∉ pat) (r : Text) :
    ∀ (a : Text) (k : Nat), k ≤ a.length →
      subGo pat new k (a ++ x :: r) = subGo pat new k a ++ subGo pat new 0 (x :: r) := by
  intro a
  induction a with
  | nil => intro k hk; simp at hk; subst hk; simp [subGo]
  | cons c cs ih =>
    intro k hk
    cases k with
    | succ k => simpa [subGo] using ih k (by simpa using hk)
    | zero =>
      have e : pat.isPrefixOf (c :: (cs ++ x :: r)) = pat.isPrefixOf (c :: cs) := by
        rw [Bool.eq_iff_iff, List.isPrefixOf_iff_prefix, List.isPrefixOf_iff_prefix]
        constructor
        · intro h; exact prefix_cut (s := c :: cs) hx h
        · intro h; exact h.trans ⟨x :: r, by simp⟩
      generalize subGo pat new 0 (x :: r) = z at ih ⊢
      simp only [List.cons_append, subGo, e]
      split
      · rename_i h
        have hl := (List.isPrefixOf_iff_prefix.1 h).length_le
        rw [ih _ (by simp at hl; omega)]; simp
      · rw [ih 0 (by omega)]; simp

/-- A character that is not in the pattern cuts the text (to its right). -/
theorem sub_cutR {pat new : Text} {x : Char} (hx : x ∉ pat) (a r : Text) :
    sub (a ++ x :: r) pat new = sub a pat new ++ sub (x :: r) pat new :=
  subGo_cut hx r a 0 (by omega)

theorem sub_cons {pat new : Text} (hp : pat ≠ []) {x : Char} (hx : x ∉ pat) (r : Text) :
    sub (x :: r) pat new = x :: sub r pat new := by
  cases pat with
  | nil => exact absurd rfl hp
  | cons p ps =>
    have : p ≠ x := fun h => hx (by simp [h])
    simp [sub, subGo, List.isPrefixOf, this]

/-- A text in which the pattern does not occur is left as it is. -/
theorem sub_free {pat new : Text} : ∀ {r : Text}, ¬ Occurs pat r → sub r pat new = r := by
  intro r
  induction r with
  | nil => intro _; rfl
  | cons c cs ih =>
    intro h
    have hn : pat.isPrefixOf (c :: cs) = false := by
      rw [Bool.eq_false_iff]
      intro hp
      obtain ⟨v, hv⟩ := List.isPrefixOf_iff_prefix.1 hp
      exact h ⟨[], v, by simp [hv]⟩
    have hc : ¬ Occurs pat cs := by
      rintro ⟨u, v, e⟩; exact h ⟨c :: u, v, by simp [e]⟩
    have := ih hc
    simp only [sub] at this
    simp [sub, subGo, hn, this]

/-- What is filled into the middle of a text stays as it is when the next
placeholder is filled, if that placeholder does not occur in it and the
characters around it are not in the placeholder. -/
theorem sub_around {pat new : Text} (hp : pat ≠ []) {x y : Char} (hx : x ∉ pat) (hy : y ∉ pat)
    (a r b : Text) (hr : ¬ Occurs pat r) :
    sub (a ++ x :: (r ++ y :: b)) pat new
      = sub a pat new ++ x :: (r ++ y :: sub b pat new) := by
  rw [sub_cutR hx, sub_cons hp hx, sub_cutR hy, sub_cons hp hy, sub_free hr]

theorem sub_around_end {pat new : Text} (hp : pat ≠ []) {x : Char} (hx : x ∉ pat)
    (a r : Text) (hr : ¬ Occurs pat r) :
    sub (a ++ x :: r) pat new = sub a pat new ++ x :: r := by
  rw [sub_cutR hx, sub_cons hp hx, sub_free hr]

/-- No placeholder that has a letter occurs in an int. -/
theorem int_free (pat : Text) (n : Int)
    (h : pat.any (fun p => p != '-' && !p.isDigit) = true) : ¬ Occurs pat (intText n) := by
  rintro ⟨u, v, e⟩
  obtain ⟨p, hp, hq⟩ := List.any_eq_true.1 h
  simp only [Bool.and_eq_true, bne_iff_ne, ne_eq, Bool.not_eq_true'] at hq
  have hm : p ∈ intText n := by
    rw [e]; exact List.mem_append_left _ (List.mem_append_right _ hp)
  cases n with
  | ofNat n =>
    have := Nat.isDigit_of_mem_toDigits (by decide) (by decide) hm
    simp [hq.2] at this
  | negSucc m =>
    simp only [intText, List.mem_cons] at hm
    rcases hm with h | h
    · exact hq.1 h
    · have := Nat.isDigit_of_mem_toDigits (by decide) (by decide) h
      simp [hq.2] at this

/-! ## C127 -/

set_option maxRecDepth 8000 in
/-- The number of the message of an invalid ciphertext size is the size. -/
theorem C127_ciphertext_size (n : Int) :
    invalidCiphertextSize n
      = "The given ciphertext length of ".toList ++ intText n
        ++ " isn't a valid size.".toList := rfl

set_option maxRecDepth 8000 in
/-- An expired timestamp's message tells by how much, in the clock's unit. -/
theorem C127_timestamp (units : Text) (n : Int) (h : ¬ Occurs "TIME".toList units) :
    timestampExpired units n
      = "Timestamp expired by <".toList ++ intText n ++ "> ".toList ++ units
        ++ ".".toList := by
  have e1 : sub "Timestamp expired by <TIME> UNITS.".toList "UNITS".toList units
      = "Timestamp expired by <TIME>".toList ++ ' ' :: (units ++ '.' :: []) := rfl
  have e2 : sub "Timestamp expired by <TIME>".toList "TIME".toList (intText n)
      = "Timestamp expired by <".toList ++ (intText n ++ ">".toList) := rfl
  have e3 : "> ".toList = ">".toList ++ [' '] := rfl
  have e4 : ".".toList = ['.'] := rfl
  unfold timestampExpired
  simp only [e1]
  rw [sub_around (by decide) (by decide) (by decide) _ _ _ h, e2, e3, e4]
  simp [sub, subGo]

/-- Every unit a clock can have is told correctly. -/
theorem C127_timestamp_units (n : Int) :
    ∀ u ∈ ["'years'", "'months'", "'days'", "'hours'", "'minutes'", "'seconds'",
        "'milliseconds'", "'microseconds'", "'nanoseconds'"],
      timestampExpired u.toList n
        = "Timestamp expired by <".toList ++ intText n ++ "> ".toList ++ u.toList
          ++ ".".toList := by
  intro u hu
  refine C127_timestamp _ n ?_
  rintro ⟨a, b, e⟩
  have hm : 'T' ∈ u.toList := by
    rw [e]; exact List.mem_append_left _ (List.mem_append_right _ (by decide))
  simp only [List.mem_cons, List.not_mem_nil, or_false] at hu
  rcases hu with h | h | h | h | h | h | h | h | h <;> subst h <;> revert hm <;> decide

/-- A wrong length is told with the name it belongs to. -/
theorem C127_length_partial (name : Text) (n : Int) (h : ¬ Occurs "LENGTH".toList name) :
    invalidLength name n
      = "len(".toList ++ name ++ ") != ".toList ++ intText n ++ ".".toList := by
  have e1 : sub "len(NAME) != LENGTH.".toList "NAME".toList name
      = "len".toList ++ '(' :: (name ++ ')' :: " != LENGTH.".toList) := rfl
  have e2 : sub " != LENGTH.".toList "LENGTH".toList (intText n)
      = " != ".toList ++ (intText n ++ ".".toList) := rfl
  have e3 : sub "len".toList "LENGTH".toList (intText n) = "len".toList := rfl
  have e4 : "len(".toList = "len".toList ++ ['('] := rfl
  have e5 : ") != ".toList = ')' :: " != ".toList := rfl
  unfold invalidLength
  simp only [e1]
  rw [sub_around (by decide) (by decide) (by decide) _ _ _ h, e2, e3, e4, e5]
  simp

/-- A wrong type is told with the name and the type that is needed. -/
theorem C127_type_partial (name clss : Text) (h : ¬ Occurs "TYPE".toList name) :
    mustBeType name clss
      = "The ".toList ++ name ++ " value must be a ".toList ++ clss
        ++ " object.".toList := by
  have e1 : sub "The NAME value must be a TYPE object.".toList "NAME".toList name
      = "The".toList ++ ' ' :: (name ++ ' ' :: "value must be a TYPE object.".toList) := rfl
  have e2 : sub "value must be a TYPE object.".toList "TYPE".toList clss
      = "value must be a ".toList ++ (clss ++ " object.".toList) := rfl
  have e3 : sub "The".toList "TYPE".toList clss = "The".toList := rfl
  have e4 : "The ".toList = "The".toList ++ [' '] := rfl
  have e5 : " value must be a ".toList = ' ' :: "value must be a ".toList := rfl
  unfold mustBeType
  simp only [e1]
  rw [sub_around (by decide) (by decide) (by decide) _ _ _ h, e2, e3, e4, e5]
  simp

/-- False of the code: a name that contains the next placeholder is garbled.
An attribute `FILE_TYPE` is called `FILE_<class 'int'>` in the message. -/
theorem C127_garbled :
    mustBeType "'FILE_TYPE'".toList "<class 'int'>".toList
      = "The 'FILE_<class 'int'>' value must be a <class 'int'> object.".toList
    ∧ invalidLength "LENGTH prefix".toList 3 = "len(3 prefix) != 3.".toList := ⟨rfl, rfl⟩

set_option maxRecDepth 8000 in
/-- The messages about key sizes and block ids tell the size and the limit. -/
theorem C127_sizes (n m : Int) :
    invalidKeySize n m
      = "`key` was ".toList ++ intText n ++ " bytes, but must be at least ".toList
        ++ intText m ++ " bytes.".toList
    ∧ blockIdTooSmall n m
      = "A block id of ".toList ++ intText n
        ++ " bytes is too small. It must be at least ".toList ++ intText m
        ++ " bytes to securely authenticate a block.".toList
    ∧ blockIdTooBig n m
      = "A block id of ".toList ++ intText n
        ++ " bytes is too big. It can be at most ".toList ++ intText m
        ++ " bytes.".toList := by
  refine ⟨?_, ?_, ?_⟩
  · have e1 : sub "`key` was KEY_SIZE bytes, but must be at least MIN_SIZE bytes.".toList
        "MIN_SIZE".toList (intText m)
        = "`key` was KEY_SIZE bytes, but must be at least".toList
          ++ ' ' :: (intText m ++ ' ' :: "bytes.".toList) := rfl
    have e2 : sub "`key` was KEY_SIZE bytes, but must be at least".toList "KEY_SIZE".toList
        (intText n)
        = "`key` was ".toList ++ (intText n ++ " bytes, but must be at least".toList) := rfl
    have e3 : sub "bytes.".toList "KEY_SIZE".toList (intText n) = "bytes.".toList := rfl
    have e4 : " bytes, but must be at least ".toList
        = " bytes, but must be at least".toList ++ [' '] := rfl
    have e5 : " bytes.".toList = ' ' :: "bytes.".toList := rfl
    unfold invalidKeySize
    simp only [e1]
    rw [sub_around (by decide) (by decide) (by decide) _ _ _
      (int_free "KEY_SIZE".toList m (by decide)), e2, e3, e4, e5]
    simp
  · have e1 : sub ("A block id of SIZE bytes is too small. It must be at least " ++
        "MIN bytes to securely authenticate a block.").toList "SIZE".toList (intText n)
        = "A block id of".toList ++ ' ' :: (intText n ++ ' ' ::
          "bytes is too small. It must be at least MIN bytes to securely authenticate a block.".toList) :=
      rfl
    have e2 : sub "bytes is too small. It must be at least MIN bytes to securely authenticate a block.".toList
        "MIN".toList (intText m)
        = "bytes is too small. It must be at least ".toList
          ++ (intText m ++ " bytes to securely authenticate a block.".toList) := rfl
    have e3 : sub "A block id of".toList "MIN".toList (intText m) = "A block id of".toList := rfl
    have e4 : "A block id of ".toList = "A block id of".toList ++ [' '] := rfl
    have e5 : " bytes is too small. It must be at least ".toList
        = ' ' :: "bytes is too small. It must be at least ".toList := rfl
    unfold blockIdTooSmall
    simp only [e1]
    rw [sub_around (by decide) (by decide) (by decide) _ _ _
      (int_free "MIN".toList n (by decide)), e2, e3, e4, e5]
    simp
  · have e1 : sub "A block id of SIZE bytes is too big. It can be at most MAX bytes.".toList
        "SIZE".toList (intText n)
        = "A block id of".toList ++ ' ' :: (intText n ++ ' ' ::
          "bytes is too big. It can be at most MAX bytes.".toList) := rfl
    have e2 : sub "bytes is too big. It can be at most MAX bytes.".toList
        "MAX".toList (intText m)
        = "bytes is too big. It can be at most ".toList
          ++ (intText m ++ " bytes.".toList) := rfl
    have e3 : sub "A block id of".toList "MAX".toList (intText m) = "A block id of".toList := rfl
    have e4 : "A block id of ".toList = "A block id of".toList ++ [' '] := rfl
    have e5 : " bytes is too big. It can be at most ".toList
        = ' ' :: "bytes is too big. It can be at most ".toList := rfl
    unfold blockIdTooBig
    simp only [e1]
    rw [sub_around (by decide) (by decide) (by decide) _ _ _
      (int_free "MAX".toList n (by decide)), e2, e3, e4, e5]
    simp

set_option maxRecDepth 8000 in
/-- The messages about difficulties and salt sizes of passphrase hashes tell
the value, then the limits in their order. -/
theorem C127_passcrypt (lo hi n : Int) :
    invalidMb lo hi n
      = "mb:".toList ++ intText n ++ " must be int >= ".toList ++ intText lo
        ++ " and <= ".toList ++ intText hi
    ∧ invalidCpu lo hi n
      = "cpu:".toList ++ intText n ++ " must be int >= ".toList ++ intText lo
        ++ " and <= ".toList ++ intText hi
    ∧ invalidCores lo hi n
      = "cores:".toList ++ intText n ++ " must be int >= ".toList ++ intText lo
        ++ " and <= ".toList ++ intText hi
    ∧ invalidSaltSize lo hi n
      = "salt_size:".toList ++ intText n ++ " must be int >= ".toList ++ intText lo
        ++ " and <= ".toList ++ intText hi := by
  refine ⟨?_, ?_, ?_, ?_⟩
  · have e1 : sub "mb:MB must be int >= MIN_MB and <= MAX_MB".toList "MIN_MB".toList (intText lo)
        = "mb:MB must be int >=".toList ++ ' ' :: (intText lo ++ ' ' :: "and <= MAX_MB".toList) :=
      rfl
    have e2 : sub "mb:MB must be int >=".toList "MAX_MB".toList (intText hi)
        = "mb:MB must be int >=".toList := rfl
    have e3 : sub "and <= MAX_MB".toList "MAX_MB".toList (intText hi)
        = "and <=".toList ++ ' ' :: intText hi := by
      show "and <=".toList ++ ' ' :: (intText hi ++ []) = _
      simp
    have e4 : sub "mb:MB must be int >=".toList "MB".toList (intText n)
        = "mb:".toList ++ (intText n ++ " must be int >=".toList) := rfl
    have e5 : sub "and <=".toList "MB".toList (intText n) = "and <=".toList := rfl
    have e6 : " must be int >= ".toList = " must be int >=".toList ++ [' '] := rfl
    have e7 : " and <= ".toList = ' ' :: ("and <=".toList ++ [' ']) := rfl
    unfold invalidMb
    simp only [e1]
    rw [sub_around (by decide) (by decide) (by decide) _ _ _
      (int_free "MAX_MB".toList lo (by decide)), e2, e3,
      sub_around (by decide) (by decide) (by decide) _ _ _
      (int_free "MB".toList lo (by decide)),
      sub_around_end (by decide) (by decide) _ _
      (int_free "MB".toList hi (by decide)), e4, e5, e6, e7]
    simp
  · have e1 : sub "cpu:CPU must be int >= MIN_CPU and <= MAX_CPU".toList "MIN_CPU".toList (intText lo)
        = "cpu:CPU must be int >=".toList ++ ' ' :: (intText lo ++ ' ' :: "and <= MAX_CPU".toList) :=
      rfl
    have e2 : sub "cpu:CPU must be int >=".toList "MAX_CPU".toList (intText hi)
        = "cpu:CPU must be int >=".toList := rfl
    have e3 : sub "and <= MAX_CPU".toList "MAX_CPU".toList (intText hi)
        = "and <=".toList ++ ' ' :: intText hi := by
      show "and <=".toList ++ ' ' :: (intText hi ++ []) = _
      simp
    have e4 : sub "cpu:CPU must be int >=".toList "CPU".toList (intText n)
        = "cpu:".toList ++ (intText n ++ " must be int >=".toList) := rfl
    have e5 : sub "and <=".toList "CPU".toList (intText n) = "and <=".toList := rfl
    have e6 : " must be int >= ".toList = " must be int >=".toList ++ [' '] := rfl
    have e7 : " and <= ".toList = ' ' :: ("and <=".toList ++ [' ']) := rfl
    unfold invalidCpu
    simp only [e1]
    rw [sub_around (by decide) (by decide) (by decide) _ _ _
      (int_free "MAX_CPU".toList lo (by decide)), e2, e3,
      sub_around (by decide) (by decide) (by decide) _ _ _
      (int_free "CPU".toList lo (by decide)),
      sub_around_end (by decide) (by decide) _ _
      (int_free "CPU".toList hi (by decide)), e4, e5, e6, e7]
    simp
  · have e1 : sub "cores:CORES must be int >= MIN_CORES and <= MAX_CORES".toList "MIN_CORES".toList (intText lo)
        = "cores:CORES must be int >=".toList ++ ' ' :: (intText lo ++ ' ' :: "and <= MAX_CORES".toList) :=
      rfl
    have e2 : sub "cores:CORES must be int >=".toList "MAX_CORES".toList (intText hi)
        = "cores:CORES must be int >=".toList := rfl
    have e3 : sub "and <= MAX_CORES".toList "MAX_CORES".toList (intText hi)
        = "and <=".toList ++ ' ' :: intText hi := by
      show "and <=".toList ++ ' ' :: (intText hi ++ []) = _
      simp
    have e4 : sub "cores:CORES must be int >=".toList "CORES".toList (intText n)
        = "cores:".toList ++ (intText n ++ " must be int >=".toList) := rfl
    have e5 : sub "and <=".toList "CORES".toList (intText n) = "and <=".toList := rfl
    have e6 : " must be int >= ".toList = " must be int >=".toList ++ [' '] := rfl
    have e7 : " and <= ".toList = ' ' :: ("and <=".toList ++ [' ']) := rfl
    unfold invalidCores
    simp only [e1]
    rw [sub_around (by decide) (by decide) (by decide) _ _ _
      (int_free "MAX_CORES".toList lo (by decide)), e2, e3,
      sub_around (by decide) (by decide) (by decide) _ _ _
      (int_free "CORES".toList lo (by decide)),
      sub_around_end (by decide) (by decide) _ _
      (int_free "CORES".toList hi (by decide)), e4, e5, e6, e7]
    simp
  · have e1 : sub "salt_size:SIZE must be int >= MIN_SALT_SIZE and <= MAX_SALT_SIZE".toList "MIN_SALT_SIZE".toList (intText lo)
        = "salt_size:SIZE must be int >=".toList ++ ' ' :: (intText lo ++ ' ' :: "and <= MAX_SALT_SIZE".toList) :=
      rfl
    have e2 : sub "salt_size:SIZE must be int >=".toList "MAX_SALT_SIZE".toList (intText hi)
        = "salt_size:SIZE must be int >=".toList := rfl
    have e3 : sub "and <= MAX_SALT_SIZE".toList "MAX_SALT_SIZE".toList (intText hi)
        = "and <=".toList ++ ' ' :: intText hi := by
      show "and <=".toList ++ ' ' :: (intText hi ++ []) = _
      simp
    have e4 : sub "salt_size:SIZE must be int >=".toList "SIZE".toList (intText n)
        = "salt_size:".toList ++ (intText n ++ " must be int >=".toList) := rfl
    have e5 : sub "and <=".toList "SIZE".toList (intText n) = "and <=".toList := rfl
    have e6 : " must be int >= ".toList = " must be int >=".toList ++ [' '] := rfl
    have e7 : " and <= ".toList = ' ' :: ("and <=".toList ++ [' ']) := rfl
    unfold invalidSaltSize
    simp only [e1]
    rw [sub_around (by decide) (by decide) (by decide) _ _ _
      (int_free "MAX_SALT_SIZE".toList lo (by decide)), e2, e3,
      sub_around (by decide) (by decide) (by decide) _ _ _
      (int_free "SIZE".toList lo (by decide)),
      sub_around_end (by decide) (by decide) _ _
      (int_free "SIZE".toList hi (by decide)), e4, e5, e6, e7]
    simp

/-- The message about tag sizes of passphrase hashes tells the value and the
limit. -/
theorem C127_tag_size (lo n : Int) :
    invalidTagSize lo n
      = "tag_size:".toList ++ intText n ++ " must be int >= ".toList ++ intText lo := by
  have e1 : sub "tag_size:SIZE must be int >= MIN_TAG_SIZE".toList "MIN_TAG_SIZE".toList
      (intText lo) = "tag_size:SIZE must be int >=".toList ++ ' ' :: intText lo := by
    show "tag_size:SIZE must be int >=".toList ++ ' ' :: (intText lo ++ []) = _
    simp
  have e4 : sub "tag_size:SIZE must be int >=".toList "SIZE".toList (intText n)
      = "tag_size:".toList ++ (intText n ++ " must be int >=".toList) := rfl
  have e6 : " must be int >= ".toList = " must be int >=".toList ++ [' '] := rfl
  unfold invalidTagSize
  simp only [e1]
  rw [sub_around_end (by decide) (by decide) _ _
    (int_free "SIZE".toList lo (by decide)), e4, e6]
  simp

/-- Concrete messages. -/
example : invalidMb 1 4294967295 (-5)
    = "mb:-5 must be int >= 1 and <= 4294967295".toList := by decide +kernel
example : ¬ Occurs "TYPE".toList "'passphrase'".toList := by
  rintro ⟨u, v, e⟩
  have : 'T' ∈ "'passphrase'".toList := by
    rw [e]; exact List.mem_append_left _ (List.mem_append_right _ (by decide))
  revert this; decide

end Aiootp.Messages
