import Verif.Model.PasscryptErrors
import Verif.Props.Messages

/-!
C128: what the exceptions of `Passcrypt` tell.
-/

namespace Aiootp.Messages

/-- Specification: two values an observer who sees only classes and lengths
cannot tell apart. -/
def Alike : PyVal → PyVal → Prop
  | .bytes a, .bytes b => a.length = b.length
  | .other k m _, .other l n _ => k = l ∧ m = n
  | _, _ => False

theorem Alike.meta_eq {a b : PyVal} (h : Alike a b) : a.metadata = b.metadata := by
  cases a <;> cases b <;> simp_all [Alike, PyVal.metadata]

/-- No exception depends on the contents of the passphrase, the salt or the
aad: inputs of the same classes and lengths get the same exception, with the
same message and attributes, or are all accepted. -/
theorem C128_contents_hidden (c : Limits) (p p' s s' a a' : PyVal)
    (hp : Alike p p') (hs : Alike s s') (ha : Alike a a') :
    validateInputs c p s a = validateInputs c p' s' a' := by
  have e1 : isPassphrase c p = isPassphrase c p' := by
    cases p <;> cases p' <;> simp_all [Alike, isPassphrase]
  have e2 : isSalt c s = isSalt c s' := by
    cases s <;> cases s' <;> simp_all [Alike, isSalt]
  have e3 : isAad a = isAad a' := by
    cases a <;> cases a' <;> simp_all [Alike, isAad]
  simp only [validateInputs, e1, e2, e3, hp.meta_eq, hs.meta_eq]

example : Alike (.bytes [1, 2]) (.bytes [3, 4]) := rfl

/-- A passphrase of bytes is refused exactly if it is too short; the exception
then says how many bytes are missing. -/
theorem C128_short (c : Limits) (b : List UInt8) (s a : PyVal) :
    b.length < c.minPassphrase ↔
      validateInputs c (.bytes b) s a = some
        { kind := "ImproperPassphrase"
          message := "The given passphrase is too short, at least ".toList
            ++ intText ((c.minPassphrase : Int) - b.length) ++ passphraseHelp
          missing := some ((c.minPassphrase : Int) - b.length) } := by
  have e : ∀ t : Text, sub ("The given passphrase is too short, at least NEED".toList
      ++ passphraseHelp) "NEED".toList t
      = "The given passphrase is too short, at least ".toList ++ t ++ passphraseHelp := by
    intro t
    have h1 : sub passphraseHelp "NEED".toList t = passphraseHelp := by
      apply sub_free
      rintro ⟨u, v, h⟩
      have : 'N' ∈ passphraseHelp := by
        rw [h]; exact List.mem_append_left _ (List.mem_append_right _ (by decide))
      revert this; decide +kernel
    have h2 : sub "The given passphrase is too short, at least NEED".toList "NEED".toList t
        = "The given passphrase is too short, at least ".toList ++ t := by
      show "The given passphrase is too short, at least ".toList ++ (t ++ []) = _
      simp
    have hd : passphraseHelp.head? = some ' ' := by decide +kernel
    obtain ⟨r, hr⟩ := List.head?_eq_some_iff.1 hd
    rw [hr] at h1 ⊢
    rw [sub_cutR (by decide), h1, h2]
  constructor
  · intro h
    have : isPassphrase c (.bytes b) = false := by simp [isPassphrase]; omega
    simp only [validateInputs, this, Bool.not_false, if_true, improperPassphrase,
      PyVal.metadata, Option.getD_some, e]
  · intro h
    apply Classical.byContradiction
    intro hn
    have hp : isPassphrase c (.bytes b) = true := by simp [isPassphrase]; omega
    simp only [validateInputs, hp] at h
    have k := congrArg (Option.map Exc.kind) h
    revert k
    cases isSalt c s <;> cases isAad a <;> cases s <;>
      simp [improperSalt, improperAad, PyVal.metadata]

/-- Nothing is raised exactly if passphrase, salt and aad are `bytes` within
the limits. -/
theorem C128_accepts (c : Limits) (p s a : PyVal) :
    validateInputs c p s a = none ↔
      ∃ bp bs ba, p = .bytes bp ∧ s = .bytes bs ∧ a = .bytes ba
        ∧ c.minPassphrase ≤ bp.length
        ∧ c.minSalt ≤ bs.length ∧ bs.length ≤ c.maxSalt := by
  cases p <;> cases s <;> cases a <;>
    simp [validateInputs, isPassphrase, isSalt, isAad, Nat.lt_succ_iff]
  all_goals first
    | omega
    | (split <;> simp_all <;> omega)
    | (repeat' split) <;> simp_all

/-- The number of missing bytes is positive, and it is exact: with so many
further bytes the passphrase is accepted, with fewer it is not. -/
theorem C128_missing_exact (c : Limits) (b : List UInt8) (s a : PyVal) (e : Exc) (n : Int)
    (h : validateInputs c (.bytes b) s a = some e) (hm : e.missing = some n) :
    0 < n ∧ ∀ more salt aad : List UInt8, c.minSalt ≤ salt.length → salt.length ≤ c.maxSalt →
      (validateInputs c (.bytes (b ++ more)) (.bytes salt) (.bytes aad) = none
        ↔ n ≤ more.length) := by
  have hs : b.length < c.minPassphrase := by
    apply Classical.byContradiction
    intro hn
    have hp : isPassphrase c (.bytes b) = true := by simp [isPassphrase]; omega
    simp only [validateInputs, hp] at h
    have k := congrArg (Option.map Exc.missing) h
    rw [Option.map_some, hm] at k
    revert k
    cases isSalt c s <;> cases isAad a <;> cases s <;>
      simp [improperSalt, improperAad, PyVal.metadata]
  have := (C128_short c b s a).1 hs
  rw [h] at this
  injection this with this
  subst this
  simp only [Option.some.injEq] at hm
  subst hm
  refine ⟨by omega, fun more salt aad h1 h2 => ?_⟩
  rw [C128_accepts]
  constructor
  · rintro ⟨_, _, _, e, _, _, hl, _⟩
    cases e
    simp only [List.length_append] at hl
    omega
  · intro hl
    exact ⟨_, _, _, rfl, rfl, rfl, by simp only [List.length_append]; omega, h1, h2⟩

theorem type_messages :
    mustBeType "'`passphrase`'".toList bytesClass
      = "The '`passphrase`' value must be a <class 'bytes'> object.".toList
    ∧ mustBeType "'`salt`'".toList bytesClass
      = "The '`salt`' value must be a <class 'bytes'> object.".toList
    ∧ mustBeType "'`aad`'".toList bytesClass
      = "The '`aad`' value must be a <class 'bytes'> object.".toList := by decide +kernel

/-- The first of passphrase, salt and aad that is not `bytes` is called by its
name, if the ones before it are accepted. -/
theorem C128_type (c : Limits) (k : Text) (n : Option Nat) (x : List UInt8) (p s a : PyVal) :
    validateInputs c (.other k n x) s a = some
      { kind := "TypeError"
        message := "The '`passphrase`' value must be a <class 'bytes'> object.".toList }
    ∧ (isPassphrase c p = true → validateInputs c p (.other k n x) a = some
      { kind := "TypeError"
        message := "The '`salt`' value must be a <class 'bytes'> object.".toList })
    ∧ (isPassphrase c p = true → isSalt c s = true →
      validateInputs c p s (.other k n x) = some
      { kind := "TypeError"
        message := "The '`aad`' value must be a <class 'bytes'> object.".toList }) := by
  obtain ⟨h1, h2, h3⟩ := type_messages
  rw [← h1, ← h2, ← h3]
  refine ⟨rfl, fun hp => ?_, fun hp hs => ?_⟩
  · simp only [validateInputs, hp]; rfl
  · simp only [validateInputs, hp, hs]; rfl

/-- A salt of a wrong size is refused with the limits. -/
theorem C128_salt (c : Limits) (p a : PyVal) (b : List UInt8) (hp : isPassphrase c p = true)
    (hb : ¬ (c.minSalt ≤ b.length ∧ b.length ≤ c.maxSalt)) :
    validateInputs c p (.bytes b) a = some
      { kind := "ValueError"
        message := "len(salt) must be >= ".toList ++ intText c.minSalt
          ++ " and <= ".toList ++ intText c.maxSalt } := by
  have hs : isSalt c (.bytes b) = false := by
    simp only [isSalt, Bool.and_eq_false_iff, decide_eq_false_iff_not]; omega
  have e1 : sub "len(salt) must be >= MIN_SALT_SIZE and <= MAX_SALT_SIZE".toList
      "MIN_SALT_SIZE".toList (intText c.minSalt)
      = "len(salt) must be >=".toList ++ ' ' :: (intText c.minSalt ++ ' ' ::
        "and <= MAX_SALT_SIZE".toList) := rfl
  have e2 : sub "len(salt) must be >=".toList "MAX_SALT_SIZE".toList (intText c.maxSalt)
      = "len(salt) must be >=".toList := rfl
  have e3 : sub "and <= MAX_SALT_SIZE".toList "MAX_SALT_SIZE".toList (intText c.maxSalt)
      = "and <= ".toList ++ intText c.maxSalt := by
    show "and <= ".toList ++ (intText c.maxSalt ++ []) = _
    simp
  have e4 : "len(salt) must be >= ".toList = "len(salt) must be >=".toList ++ [' '] := rfl
  have e5 : " and <= ".toList = ' ' :: "and <= ".toList := rfl
  simp only [validateInputs, hp, hs, Bool.not_true, Bool.not_false, if_true, improperSalt,
    PyVal.metadata, e1]
  rw [sub_around (by decide) (by decide) (by decide) _ _ _
    (int_free "MAX_SALT_SIZE".toList c.minSalt (by decide)), e2, e3, e4, e5]
  simp

/-- The warning about resources is raised exactly if one of them is not
allowed; it names the first of mb, cpu and cores that is not, its value, and
all the resources the hash asks for. -/
theorem C128_danger (mb cpu cores : Nat) (mbOk cpuOk coresOk : Nat → Bool) :
    (allowedResources mb cpu cores mbOk cpuOk coresOk = none ↔
      mbOk mb = true ∧ cpuOk cpu = true ∧ coresOk cores = true)
    ∧ ∀ d, allowedResources mb cpu cores mbOk cpuOk coresOk = some d →
      (d.mb = mb ∧ d.cpu = cpu ∧ d.cores = cores)
      ∧ ((d.parameter = "mb" ∧ d.value = mb ∧ mbOk mb = false)
        ∨ (d.parameter = "cpu" ∧ d.value = cpu ∧ mbOk mb = true ∧ cpuOk cpu = false)
        ∨ (d.parameter = "cores" ∧ d.value = cores ∧ mbOk mb = true ∧ cpuOk cpu = true
          ∧ coresOk cores = false)) := by
  unfold allowedResources
  cases h1 : mbOk mb <;> cases h2 : cpuOk cpu <;> cases h3 : coresOk cores <;>
    simp [untrusted]

/-- Concrete cases. -/
example : (validateInputs ⟨12, 4, 256⟩ (.bytes [1, 2, 3]) (.bytes []) (.bytes [])).map
    (fun e => (e.kind, e.missing)) = some ("ImproperPassphrase", some 9) := by decide +kernel
example : allowedResources 1024 1 1 (fun n => n < 256) (fun _ => true) (fun _ => true)
    = some ⟨"mb", 1024, 1024, 1, 1⟩ := by decide

end Aiootp.Messages
