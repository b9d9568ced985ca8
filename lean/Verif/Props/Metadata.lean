import Verif.Model.Metadata
import Verif.Props.Domains

/-!
C122: configurations are told apart by their metadata, which is hashed with every use.
-/

namespace Aiootp.Metadata

open Canon
open Database (utf8 utf8_inj)

/-! ### texts -/

theorem split_at {x : Char} {a b c d : List Char} (ha : x ∉ a) (hc : x ∉ c) (h : a ++ x :: b = c ++ x :: d) : a = c ∧ b = d := by
  induction a generalizing c with
  | nil =>
    cases c with
    | nil => simpa using h
    | cons y c =>
      simp only [List.nil_append, List.cons_append, List.cons.injEq] at h
      exact absurd (h.1 ▸ List.mem_cons_self) hc
  | cons y a ih =>
    cases c with
    | nil =>
      simp only [List.nil_append, List.cons_append, List.cons.injEq] at h
      exact absurd (h.1 ▸ List.mem_cons_self) ha
    | cons z c =>
      simp only [List.cons_append, List.cons.injEq] at h
      obtain ⟨h1, h2⟩ := ih (fun m => ha (List.mem_cons_of_mem _ m)) (fun m => hc (List.mem_cons_of_mem _ m)) h.2
      exact ⟨by rw [h.1, h1], h2⟩

theorem digit_of_mem {n : Nat} {x : Char} (h : x ∈ Nat.toDigits 10 n) : x.isDigit = true := Nat.isDigit_of_mem_toDigits (by decide) (by decide) h

theorem repr_not_mem {n : Nat} {x : Char} (hx : x.isDigit = false) : x ∉ n.repr.toList := by
  rw [Nat.toList_repr]
  intro h
  rw [digit_of_mem h] at hx
  cases hx

theorem repr_inj' {a b : Nat} (h : a.repr.toList = b.repr.toList) : a = b := by
  rw [Nat.toList_repr, Nat.toList_repr] at h
  exact Domains.digits_inj h

theorem intText_not_mem {i : Int} {x : Char} (hx : x.isDigit = false) (hm : x ≠ '-') : x ∉ (intText i).toList := by
  cases i with
  | ofNat n => exact repr_not_mem hx
  | negSucc n =>
    simp only [intText, String.toList_append]
    intro h
    rcases List.mem_append.1 h with h | h
    · exact hm (by simpa using h)
    · exact repr_not_mem hx h

theorem optText_not_mem {i : Option Int} {x : Char} (hx : x.isDigit = false) (hm : x ≠ '-') (hn : x ∉ ['N', 'o', 'n', 'e']) : x ∉ (optText i).toList := by
  cases i with
  | none => exact hn
  | some i => exact intText_not_mem hx hm

theorem intText_inj {i j : Int} (h : (intText i).toList = (intText j).toList) : i = j := by
  have clash : ∀ {n m : Nat}, (intText (.ofNat n)).toList ≠ (intText (.negSucc m)).toList := by
    intro n m h
    have : '-' ∈ (intText (.ofNat n)).toList := by rw [h]; simp [intText, String.toList_append]
    exact repr_not_mem (by decide) this
  cases i with
  | ofNat n =>
    cases j with
    | ofNat m => rw [repr_inj' (a := n) (b := m) h]
    | negSucc m => exact absurd h clash
  | negSucc n =>
    cases j with
    | ofNat m => exact absurd h.symm clash
    | negSucc m =>
      simp only [intText, String.toList_append, List.append_cancel_left_eq] at h
      have := repr_inj' h
      rw [show n = m by omega]

theorem optText_inj {i j : Option Int} (h : (optText i).toList = (optText j).toList) : i = j := by
  have clash : ∀ {n : Int}, (optText none).toList ≠ (optText (some n)).toList := by
    intro n h
    have : 'N' ∈ (intText n).toList := by
      show 'N' ∈ (optText (some n)).toList
      rw [← h]; decide
    exact intText_not_mem (by decide) (by decide) this
  cases i with
  | none =>
    cases j with
    | none => rfl
    | some m => exact absurd h clash
  | some n =>
    cases j with
    | none => exact absurd h.symm clash
    | some m => rw [intText_inj h]

theorem PySlice.bytes_inj {s t : PySlice} (h : s.bytes = t.bytes) : s = t := by
  have h := congrArg String.toList (utf8_inj h)
  simp only [PySlice.text, String.toList_append, List.append_assoc, List.append_cancel_left_eq] at h
  have hc : ∀ {i : Option Int}, ',' ∉ (optText i).toList := optText_not_mem (by decide) (by decide) (by decide)
  have hp : ∀ {i : Option Int}, ')' ∉ (optText i).toList := optText_not_mem (by decide) (by decide) (by decide)
  obtain ⟨h1, h⟩ := split_at hc hc h
  have h := (List.cons.inj h).2
  obtain ⟨h2, h⟩ := split_at hc hc h
  have h := (List.cons.inj h).2
  obtain ⟨h3, _⟩ := split_at hp hp h
  cases s; cases t
  simp only [PySlice.mk.injEq]
  exact ⟨optText_inj h1, optText_inj h2, optText_inj h3⟩

theorem sliceBytes_inj {s t : Slice} : sliceBytes s = sliceBytes t ↔ s = t := by
  constructor
  · intro h
    have := PySlice.bytes_inj h
    cases s; cases t
    simp only [PySlice.mk.injEq, and_true] at this
    simp only [Slice.mk.injEq]
    exact this
  · rintro rfl; rfl

theorem natSliceBytes_inj {a b c d : Nat} : natSliceBytes a b = natSliceBytes c d ↔ a = c ∧ b = d := by
  simp only [natSliceBytes, sliceBytes_inj, Slice.mk.injEq, Option.some.injEq, Int.natCast_inj]

theorem rangeBytes_inj {a b c d : Nat} (h : rangeBytes a b = rangeBytes c d) : a = c := by
  have h := congrArg String.toList (utf8_inj h)
  simp only [String.toList_append, List.append_assoc, List.append_cancel_left_eq] at h
  exact repr_inj' (split_at (repr_not_mem (by decide)) (repr_not_mem (by decide)) h).1

theorem be_inj {s a b : Nat} (ha : a < 256 ^ s) (hb : b < 256 ^ s) (h : beDigits s a = beDigits s b) : a = b := by
  have := congrArg fromBE h
  rwa [fromBE_beDigits_of_lt ha, fromBE_beDigits_of_lt hb] at this

theorem pack_inj {is js : List Bytes} {x : Bytes} (h : canonicalPack is 1 [0] 1 = .ok x) (h' : canonicalPack js 1 [0] 1 = .ok x) : is = js :=
  (canonicalPack_parse (r := []) (t := []) h h' rfl).1

/-! ### passcrypt -/

/-- **C122** Passcrypt configs with the same metadata agree in every value. -/
theorem C122_passcrypt {c d : Passcrypt} {x : Bytes} (h : c.metadata = .ok x) (h' : d.metadata = .ok x) : c = d := by
  simp only [Passcrypt.metadata, bind_eq_ok, toBytesBE_ok] at h h'
  obtain ⟨_, ⟨a1, rfl⟩, _, ⟨a2, rfl⟩, _, ⟨a3, rfl⟩, _, ⟨a4, rfl⟩, _, ⟨a5, rfl⟩, _, ⟨a6, rfl⟩, _, ⟨a7, rfl⟩, _, ⟨a8, rfl⟩, _, ⟨a9, rfl⟩, _, ⟨a10, rfl⟩,
    _, ⟨a11, rfl⟩, _, ⟨a12, rfl⟩, _, ⟨a13, rfl⟩, _, ⟨a14, rfl⟩, _, ⟨a15, rfl⟩, _, ⟨a16, rfl⟩, _, ⟨a17, rfl⟩, _, ⟨a18, rfl⟩, h⟩ := h
  obtain ⟨_, ⟨b1, rfl⟩, _, ⟨b2, rfl⟩, _, ⟨b3, rfl⟩, _, ⟨b4, rfl⟩, _, ⟨b5, rfl⟩, _, ⟨b6, rfl⟩, _, ⟨b7, rfl⟩, _, ⟨b8, rfl⟩, _, ⟨b9, rfl⟩, _, ⟨b10, rfl⟩,
    _, ⟨b11, rfl⟩, _, ⟨b12, rfl⟩, _, ⟨b13, rfl⟩, _, ⟨b14, rfl⟩, _, ⟨b15, rfl⟩, _, ⟨b16, rfl⟩, _, ⟨b17, rfl⟩, _, ⟨b18, rfl⟩, h'⟩ := h'
  have e := pack_inj h h'
  simp only [List.cons.injEq, natSliceBytes_inj, and_true, true_and] at e
  obtain ⟨e1, -, e3, -, e5, e6, e7, e8, e9, e10, e11, e12, e13, e14, e15, e16, e17, -, e19, e20, e21, e22, e23, e24, e25, e26, e27, e28, e29, e30⟩ := e
  have := be_inj a1 b1 e6
  have := be_inj a2 b2 e7
  have := be_inj a3 b3 e8
  have := be_inj a4 b4 e9
  have := be_inj a5 b5 e10
  have := be_inj a6 b6 e11
  have := be_inj a7 b7 e13
  have := be_inj a8 b8 e14
  have := be_inj a9 b9 e15
  have := be_inj a10 b10 e16
  have := be_inj a11 b11 e17
  have := be_inj a12 b12 e20
  have := be_inj a13 b13 e21
  have := be_inj a14 b14 e22
  have := be_inj a15 b15 e23
  have := be_inj a16 b16 e24
  have := be_inj a18 b18 e26
  have := utf8_inj e29
  cases c; cases d
  simp only [Passcrypt.mk.injEq] at *
  refine ⟨?_, ?_, ?_, ?_, ?_, ?_, ?_, ?_, ?_, ?_, ?_, ?_, ?_, ?_, ?_, ?_, ?_, ?_, ?_, ?_, ?_, ?_, ?_, ?_⟩ <;> first | assumption | omega

/-- **C122** Two sessions of passcrypt, with configs of their own, that begin with hashing the same message have the same config, unless the passphrase,
salt and aad have different lengths in all. -/
theorem C122_passcrypt_sessions_partial {E : Aiootp.Passcrypt.Env} {perSecond : String → Nat} {c d : Passcrypt} {C D : Aiootp.Passcrypt.Config}
    (hc : c.config perSecond = .ok C) (hd : d.config perSecond = .ok D) {s t : Aiootp.Passcrypt.Session} {x : Bytes}
    (hs : Aiootp.Passcrypt.parametersMessage E C s = .ok x) (ht : Aiootp.Passcrypt.parametersMessage E D t = .ok x)
    (hl : (s.passphrase ++ s.salt ++ s.aad).length = (t.passphrase ++ t.salt ++ t.aad).length) : c = d := by
  simp only [Passcrypt.config, bind_eq_ok] at hc hd
  obtain ⟨m, hm, hc⟩ := hc
  obtain ⟨n, hn, hd⟩ := hd
  injection hc with hc
  injection hd with hd
  simp only [Aiootp.Passcrypt.parametersMessage, bind_eq_ok] at hs ht
  obtain ⟨_, _, _, _, _, _, _, _, hs⟩ := hs
  obtain ⟨_, _, _, _, _, _, _, _, ht⟩ := ht
  have e := (C05_same_key_length_partial hs ht (by simp only [Option.map_some, hl])).2.2.2
  simp only [List.cons.injEq, true_and] at e
  have hmn : m = n := by
    have := e.1
    rw [← hc, ← hd] at this
    exact this
  subst hmn
  exact C122_passcrypt hm hn

/-! ### the ciphers -/

/-- Two KDFs agree in what the metadata shows of them. -/
def Kdf.Same (k l : Kdf) : Prop := k.pad = l.pad ∧ k.hasher = l.hasher ∧ k.keySlice = l.keySlice

/-- Two cipher configs agree in everything but the unit of time, the limits of the sizes of block ids, and the names and offsets of the KDFs. -/
structure Cipher.Same (c d : Cipher) : Prop where
  name : c.name = d.name
  configId : c.configId = d.configId
  sizes : { c.sizes with maxBlockIdBytes := d.sizes.maxBlockIdBytes, minBlockIdBytes := d.sizes.minBlockIdBytes } = d.sizes
  blockIdKdf : c.blockIdKdf.Same d.blockIdKdf
  shmacKdf : c.shmacKdf.Same d.shmacKdf

theorem Kdf.items_inj {k l : Kdf} {x y : List Bytes} : k.items ++ x = l.items ++ y ↔ k.Same l ∧ x = y := by
  simp only [Kdf.items, List.cons_append, List.nil_append, List.cons.injEq, Kdf.Same]
  constructor
  · rintro ⟨h1, h2, h3, h4⟩; exact ⟨⟨h1, utf8_inj h2, PySlice.bytes_inj h3⟩, h4⟩
  · rintro ⟨⟨h1, h2, h3⟩, h4⟩; exact ⟨h1, by rw [h2], by rw [h3], h4⟩

theorem firstItems_inj {c d : Cipher} {n m k l : Nat} {v w : Bytes} {i j : List Bytes} {x y : List Bytes} (h : c.firstItems n k v = .ok i)
    (h' : d.firstItems m l w = .ok j) (e : i ++ x = j ++ y) :
    (c.name = d.name ∧ c.configId = d.configId ∧
      { c.sizes with maxBlockIdBytes := d.sizes.maxBlockIdBytes, minBlockIdBytes := d.sizes.minBlockIdBytes } = d.sizes) ∧ x = y := by
  simp only [Cipher.firstItems, bind_eq_ok, toBytesBE_ok] at h h'
  obtain ⟨_, ⟨a1, rfl⟩, _, ⟨a2, rfl⟩, _, ⟨a3, rfl⟩, _, ⟨a4, rfl⟩, h⟩ := h
  obtain ⟨_, ⟨b1, rfl⟩, _, ⟨b2, rfl⟩, _, ⟨b3, rfl⟩, _, ⟨b4, rfl⟩, h'⟩ := h'
  injection h with h
  injection h' with h'
  subst h h'
  simp only [List.cons_append, List.nil_append, List.cons.injEq, natSliceBytes_inj, sliceBytes_inj, Aiootp.Cipher.Sizes.timestampSlice,
    Aiootp.Cipher.Sizes.firstDigestSlice, Slice.mk.injEq, Option.some.injEq, Int.natCast_inj, true_and, Aiootp.Cipher.Sizes.innerHeaderBytes,
    Aiootp.Cipher.Sizes.headerBytes] at e
  obtain ⟨e1, e2, e3, e4, e5, e6, e7, e8, e9, e10, e11, -, -, e14, -, -, -, e18⟩ := e
  have := be_inj a1 b1 e3
  have := be_inj a2 b2 e4
  have := be_inj a3 b3 e5
  refine ⟨⟨utf8_inj e1, e2, ?_⟩, e18⟩
  rcases c with ⟨_, _, _, ⟨⟩, _, _⟩
  rcases d with ⟨_, _, _, ⟨⟩, _, _⟩
  simp only [Aiootp.Cipher.Sizes.mk.injEq, true_and] at *
  refine ⟨?_, ?_, ?_, ?_, ?_, ?_, ?_, ?_, ?_, ?_⟩ <;> omega

/-- **C122** SHAKE-permute ciphers with the same metadata agree in everything but the unit of time, the limits of the sizes of block ids, and the names and
offsets of the KDFs. -/
theorem C122_permute_partial {V W : Vector} {c d : Cipher} {x : Bytes} (h : c.permuteMetadata V = .ok x) (h' : d.permuteMetadata W = .ok x) : c.Same d := by
  simp only [Cipher.permuteMetadata, bind_eq_ok] at h h'
  obtain ⟨k, _, i, hi, h⟩ := h
  obtain ⟨l, _, j, hj, h'⟩ := h'
  have e := pack_inj h h'
  simp only [List.append_assoc] at e
  obtain ⟨⟨h1, h2, h3⟩, e⟩ := firstItems_inj hi hj e
  simp only [List.cons_append, List.nil_append, List.cons.injEq] at e
  have e := e.2.2.2.2
  rw [Kdf.items_inj] at e
  have e2 : c.shmacKdf.items ++ [] = d.shmacKdf.items ++ [] := by simpa using e.2
  rw [Kdf.items_inj] at e2
  exact ⟨h1, h2, h3, e.1, e2.1⟩

/-- **C122** Dual-output ciphers with the same metadata agree in everything but the unit of time, the limits of the sizes of block ids, and the names and
offsets of the KDFs. -/
theorem C122_dual_partial {V W : Vector} {c d : Cipher} {l r l' r' : Kdf} {x : Bytes} (h : c.dualMetadata V l r = .ok x) (h' : d.dualMetadata W l' r' = .ok x) :
    c.Same d ∧ l.Same l' ∧ r.Same r' := by
  simp only [Cipher.dualMetadata, bind_eq_ok] at h h'
  obtain ⟨k, _, i, hi, h⟩ := h
  obtain ⟨k', _, j, hj, h'⟩ := h'
  have e := pack_inj h h'
  simp only [List.append_assoc] at e
  obtain ⟨⟨h1, h2, h3⟩, e⟩ := firstItems_inj hi hj e
  simp only [List.cons_append, List.nil_append, List.cons.injEq] at e
  have e := e.2.2.2.2.2.2.2
  rw [Kdf.items_inj, Kdf.items_inj, Kdf.items_inj] at e
  obtain ⟨e1, e2, e3, e⟩ := e
  have e4 : r.items ++ [] = r'.items ++ [] := by simpa using e
  rw [Kdf.items_inj] at e4
  exact ⟨⟨h1, h2, h3, e1, e2⟩, e3, e4.1⟩

/-- **C122** If a KDF of one cipher and a KDF of another begin with the same bytes, then the configs have the same id and metadata and the KDFs have the same name
and block size, or `shake_128` has collided. -/
theorem C122_kdfs {shake : Bytes → Nat → Bytes} (hsh : ∀ x n, (shake x n).length = n) {k l : Kdf} {b b' : Nat} {i j m n salt : Bytes}
    (h : Domains.encodeConstant shake (.str (k.name ++ "_salt")) (2 * b) i m = .ok salt)
    (h' : Domains.encodeConstant shake (.str (l.name ++ "_salt")) (2 * b') j n = .ok salt) :
    (k.name = l.name ∧ b = b' ∧ i = j ∧ m = n) ∨
    ∃ x y, (k.saltCall b i m).message = .ok x ∧ (l.saltCall b' j n).message = .ok y ∧ Collide (shake · (2 * b)) x y := by
  rcases Domains.C92_same_constant hsh h h' with ⟨h1, h2, h3, h4, _⟩ | ⟨x, y, hx, hy, hc⟩
  · left
    refine ⟨?_, by omega, h3, h4⟩
    have := congrArg String.toList (utf8_inj h1)
    simp only [String.toList_append, List.append_cancel_right_eq] at this
    exact String.toList_inj.1 this
  · exact .inr ⟨x, y, hx, hy, hc⟩

/-- **C122** The full claim fails: the unit of time is not part of the metadata of a cipher. Configs that differ in it alone have the same metadata, and so the
same KDFs, and each decrypts what the other encrypts. -/
theorem C122_time_unit (V : Vector) (c : Cipher) (l r : Kdf) (unit : String) :
    ({ c with timeUnit := unit } : Cipher).permuteMetadata V = c.permuteMetadata V ∧
    ({ c with timeUnit := unit } : Cipher).dualMetadata V l r = c.dualMetadata V l r := ⟨rfl, rfl⟩

/-- **C122** What that means for a ttl: a timestamp that was made in seconds, thirty years after the epoch, is accepted ten years later by a clock in minutes
with a ttl of one minute. -/
theorem C122_ttl_misread : ∃ made now : Int, now - made = 10 * 365 * 86400 * 1000000000 ∧ ∃ ts, Clock.makeTimestamp (Clock.unitTime 1000000000 0 made) 4 .big = .ok ts ∧
    Clock.testTimestamp (Clock.unitTime 60000000000 0 now) ts (some 1) .big = .ok () :=
  ⟨30 * 365 * 86400 * 1000000000, 40 * 365 * 86400 * 1000000000, by decide, [56, 100, 9, 0], by decide, by decide⟩

/-! ### examples -/

/-- The values of `passcrypt_spec`, with another id. -/
def samplePasscrypt : Passcrypt where
  configId := [80]
  pad := [242]
  minCores := 1
  maxCores := 256
  defaultCores := 4
  coresBytes := 1
  minCpu := 1
  maxCpu := 256
  defaultCpu := 1
  ratio := 2
  cpuBytes := 1
  minMb := 1
  maxMb := 256 ^ 3
  defaultMb := 64
  mbBytes := 3
  minSaltSize := 4
  maxSaltSize := 256
  defaultSaltSize := 8
  saltSizeBytes := 1
  minTagSize := 16
  minPassphrase := 12
  timeUnit := "nanoseconds"
  timestampBytes := 8
  epochNs := 1672531200000000000

example : ∃ x, samplePasscrypt.metadata = .ok x := by
  refine ⟨_, Domains.ok_of_isSome ?_⟩
  decide +kernel

example : samplePasscrypt.metadata ≠ ({ samplePasscrypt with defaultMb := 65 } : Passcrypt).metadata := by
  intro h
  obtain ⟨x, hx⟩ : ∃ x, samplePasscrypt.metadata = .ok x := ⟨_, Domains.ok_of_isSome (by decide +kernel)⟩
  have := C122_passcrypt hx (h ▸ hx)
  simp [samplePasscrypt] at this

/-- The values of Slick256, with another id. -/
def samplePermute : Cipher where
  name := "Slick256"
  configId := [83]
  timeUnit := "seconds"
  sizes := ⟨32, 0, 1672531200000000000, 4, 8, 24, 16, 32, 16, 8, 8, 168⟩
  blockIdKdf := ⟨"block_id_kdf", [154], 0, "shake_128", ⟨none, none, none⟩⟩
  shmacKdf := ⟨"shmac_kdf", [172], 0, "shake_128", ⟨none, none, none⟩⟩

/-- The values of Chunky2048, with another id. -/
def sampleDual : Cipher where
  name := "Chunky2048"
  configId := [67]
  timeUnit := "seconds"
  sizes := ⟨256, 0, 1672531200000000000, 4, 16, 32, 24, 32, 16, 8, 8, 168⟩
  blockIdKdf := ⟨"block_id_kdf", [172], 0, "shake_128", ⟨none, none, none⟩⟩
  shmacKdf := ⟨"shmac_kdf", [154], 0, "shake_128", ⟨none, none, none⟩⟩

example : ∃ x, samplePermute.permuteMetadata (fun _ n => List.replicate n 7) = .ok x :=
  ⟨_, Domains.ok_of_isSome (by decide +kernel)⟩

example : ∃ x, sampleDual.dualMetadata (fun _ n => List.replicate n 7) ⟨"left_kdf", [92], 0, "shake_128", ⟨some 0, none, some 2⟩⟩
    ⟨"right_kdf", [54], 0, "shake_128", ⟨some 1, none, some 2⟩⟩ = .ok x :=
  ⟨_, Domains.ok_of_isSome (by decide +kernel)⟩

end Aiootp.Metadata
