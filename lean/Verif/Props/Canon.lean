import Verif.Lemmas.Canon

/-
Properties C01 - C06: canonical packing, unpacking and hash inputs.
-/

namespace Aiootp.Canon

/-- A concrete packing used as a non-trivial witness: two items (one of them empty, one holding the
pad byte), blocksize 4, pad 0x36, 2-byte integers. -/
def sampleItems : List Bytes := [[0x36, 0, 7], []]

/-- The bytes `canonical_pack` gives for `sampleItems`. -/
def samplePacked : Bytes :=
  [2, 0, 4, 0, 2, 0, 4, 0, 1, 0x36, 0, 3, 0x36, 0, 7, 0, 0, 0x36, 0x36, 0x36]

theorem samplePacked_ok : canonicalPack sampleItems 4 [0x36] 2 = .ok samplePacked := by
  decide +kernel

/-- C01. Whatever `canonical_pack` returns, `canonical_unpack` turns it back into the packed items.
(`2 ^ 63` bounds the length of any Python `bytes` object.) -/
theorem C01_unpack_pack {items : List Bytes} {blocksize intBytes : Nat} {pad packed : Bytes}
    (h : canonicalPack items blocksize pad intBytes = .ok packed)
    (hsize : ∀ item ∈ items, item.length < 2 ^ 63) :
    canonicalUnpack packed = .ok items :=
  canonicalUnpack_canonicalPack h hsize

example : canonicalUnpack samplePacked = .ok [[0x36, 0, 7], []] :=
  C01_unpack_pack samplePacked_ok (by decide)

/-- C01, companion: `canonical_pack` does not raise on well-formed arguments (so the round trip
is about all of them): a blocksize of at least one, a single pad byte, an integer width of at most 255
bytes in which the blocksize, the number of items (plus two) and each length fit. -/
theorem C01_pack_total {items : List Bytes} {blocksize intBytes : Nat} {p : UInt8}
    (hb : 0 < blocksize) (hbs : blocksize < 256 ^ intBytes) (hs : intBytes < 256)
    (hself : intBytes < 256 ^ intBytes) (hn : items.length + 2 < 256 ^ intBytes)
    (hsize : ∀ item ∈ items, item.length < 256 ^ intBytes) :
    ∃ packed, canonicalPack items blocksize [p] intBytes = .ok packed := by
  have body : ∀ l : List Bytes, (∀ i ∈ l, i.length < 256 ^ intBytes) →
      ∃ e, encodeBody intBytes l = .ok e := by
    intro l
    induction l with
    | nil => intro _; exact ⟨[], rfl⟩
    | cons i is ih =>
      intro hl
      obtain ⟨e, he⟩ := ih (fun j hj => hl j (by simp [hj]))
      exact ⟨_, encodeBody_cons_ok.2 ⟨hl i (by simp), e, he, rfl⟩⟩
  have h1 : (1 : Nat) < 256 ^ intBytes := by omega
  obtain ⟨e, he⟩ := body (beDigits intBytes blocksize :: [p] :: items) (by
    intro i hi
    simp only [List.mem_cons] at hi
    rcases hi with rfl | rfl | hi
    · simpa using hself
    · simpa using h1
    · exact hsize i hi)
  exact ⟨_, canonicalPack_ok.2 ⟨hbs, hb, p, _, rfl,
    encodeItems_ok.2 ⟨hs, by simpa using hn, e, he, rfl⟩, rfl⟩⟩

example : ∃ packed, canonicalPack sampleItems 4 [0x36] 2 = .ok packed :=
  C01_pack_total (by decide) (by decide) (by decide) (by decide) (by decide) (by decide)

/-- C02. Equal packed strings come from equal arguments. -/
theorem C02_pack_injective {items items' : List Bytes} {blocksize blocksize' intBytes intBytes' : Nat}
    {pad pad' packed : Bytes}
    (h : canonicalPack items blocksize pad intBytes = .ok packed)
    (h' : canonicalPack items' blocksize' pad' intBytes' = .ok packed) :
    items = items' ∧ blocksize = blocksize' ∧ pad = pad' ∧ intBytes = intBytes' := by
  obtain ⟨a, b, c, d, _⟩ := canonicalPack_parse (r := []) (t := []) h h' rfl
  exact ⟨a, b, c, d⟩

example : ∃ items blocksize pad intBytes packed,
    canonicalPack items blocksize pad intBytes = .ok packed ∧ items.length = 2 :=
  ⟨_, _, _, _, _, samplePacked_ok, rfl⟩

/-! ### C03 -/

/-- C03 as a user would expect it: only outputs of `canonical_pack` are accepted. -/
def OnlyCanonicalAccepted : Prop :=
  ∀ data items, canonicalUnpack data = .ok items →
    ∃ blocksize pad intBytes, canonicalPack items blocksize pad intBytes = .ok data

/-- C03 as a user would expect it: everything else is refused with `CanonicalEncodingError`. -/
def RefusalsAreCanonicalErrors : Prop :=
  ∀ data e, canonicalUnpack data = .error e → e = .canonical

/-- A packed string followed by a further block of padding is accepted. -/
theorem C03_extra_padding_accepted :
    canonicalPack [[65]] 1 [0] 1 = .ok [1, 3, 1, 1, 1, 0, 1, 65] ∧
    canonicalUnpack [1, 3, 1, 1, 1, 0, 1, 65, 0] = .ok [[65]] := by
  decide +kernel

/-- A packed string cut short inside the length field of a final empty item is accepted. -/
theorem C03_truncation_accepted :
    canonicalPack [[65], []] 1 [0] 2 = .ok [2, 0, 4, 0, 2, 0, 1, 0, 1, 0, 0, 1, 65, 0, 0] ∧
    canonicalUnpack [2, 0, 4, 0, 2, 0, 1, 0, 1, 0, 0, 1, 65] = .ok [[65], []] := by
  decide +kernel

/-- The claim C03 is false of the code. -/
theorem C03_not_only_canonical : ¬ OnlyCanonicalAccepted := by
  intro h
  obtain ⟨b, pad, s, hp⟩ := h _ _ C03_extra_padding_accepted.2
  have := canonicalPack_parse (r := [0]) (t := []) C03_extra_padding_accepted.1 hp rfl
  exact absurd this.2.2.2.2 (by simp)

/-- Some malformed inputs escape as `ZeroDivisionError` or `OverflowError`. -/
theorem C03_wrong_exception_types : ¬ RefusalsAreCanonicalErrors ∧
    canonicalUnpack [1, 2, 1, 0, 1, 0] = .error .zeroDivision ∧
    canonicalUnpack ([8] ++ List.replicate 7 0 ++ [1] ++ List.replicate 8 0xff ++ List.replicate 8 0)
      = .error .overflow := by
  have h1 : canonicalUnpack [1, 2, 1, 0, 1, 0] = .error .zeroDivision := by decide +kernel
  refine ⟨?_, h1, ?_⟩
  · intro h
    exact absurd (h _ _ h1) (by decide)
  · decide +kernel

theorem bind_error {α β : Type} {x : Except Err α} {f : α → Except Err β} {e : Err} (h : x >>= f = .error e) :
    x = .error e ∨ ∃ a, x = .ok a ∧ f a = .error e := by
  cases x with
  | error e' => left; cases h; rfl
  | ok a => exact .inr ⟨a, rfl, h⟩

theorem read_error {n : Nat} {rest : Bytes} {e : Err} (h : read n rest = .error e) : e = .overflow ∧ 2 ^ 63 ≤ n := by
  unfold read at h
  split at h
  · cases h
  · rename_i hn
    cases h
    exact ⟨rfl, by simpa [ssizeLimit] using hn⟩

theorem take_size_lt {s : Nat} (hs : s < 8) (rest : Bytes) : fromBE (rest.take s) < 2 ^ 63 := by
  have h1 := fromBE_lt (rest.take s)
  have h2 : (rest.take s).length ≤ 7 := by rw [List.length_take]; omega
  have h3 : 256 ^ (rest.take s).length ≤ 256 ^ 7 := Nat.pow_le_pow_right (by omega) h2
  have h4 : (256 : Nat) ^ 7 < 2 ^ 63 := by decide
  omega

theorem decodeItems_error {s : Nat} : ∀ (k : Nat) (rest : Bytes) (e : Err), decodeItems s k rest = .error e → e = .canonical ∨ (e = .overflow ∧ 8 ≤ s)
  | 0, rest, e, h => by cases h
  | k + 1, rest, e, h => by
    unfold decodeItems at h
    rcases bind_error h with h | ⟨⟨blob, rest1⟩, h1, h⟩
    · obtain ⟨rfl, h⟩ := read_error h
      have : 8 < 2 ^ 63 := by decide
      exact .inr ⟨rfl, by omega⟩
    · obtain ⟨-, rfl, rfl⟩ := read_ok.1 h1
      rcases bind_error h with h | ⟨⟨item, rest2⟩, h2, h⟩
      · obtain ⟨rfl, h⟩ := read_error h
        refine .inr ⟨rfl, Classical.byContradiction fun hc => ?_⟩
        have := take_size_lt (s := s) (by omega) rest
        omega
      · dsimp only at h
        split at h
        · cases h; exact .inl rfl
        · rcases bind_error h with h | ⟨r, _, h⟩
          · exact decodeItems_error k _ _ h
          · cases h

/-- C03 (part): which exceptions a refused byte string raises. `CanonicalEncodingError`, apart from `ZeroDivisionError` (a blocksize of zero) and, if
the declared integer width is at least eight, `OverflowError`. -/
theorem C03_refusals_partial {data : Bytes} {e : Err} (h : canonicalUnpack data = .error e) :
    e = .canonical ∨ e = .zeroDivision ∨ (e = .overflow ∧ 8 ≤ fromBE (data.take 1)) := by
  unfold canonicalUnpack at h
  rcases bind_error h with h | ⟨⟨declared, rest⟩, h1, h⟩
  · obtain ⟨-, h⟩ := read_error h
    exact absurd h (by decide)
  obtain ⟨-, rfl, rfl⟩ := read_ok.1 h1
  have hs : fromBE (data.take 1) < 2 ^ 63 := take_size_lt (by decide) data
  rcases bind_error h with h | ⟨⟨count, rest⟩, h1, h⟩
  · obtain ⟨-, h⟩ := read_error h
    omega
  dsimp only at h
  split at h
  · cases h; exact .inl rfl
  · rcases bind_error h with h | ⟨⟨items, rest⟩, h1, h⟩
    · rcases decodeItems_error _ _ _ h with h | h
      · exact .inl h
      · exact .inr (.inr h)
    · dsimp only at h
      unfold testCanonicalPadding at h
      split at h
      · dsimp only at h
        split at h
        · cases h; exact .inr (.inl rfl)
        · split at h
          · cases h; exact .inl rfl
          · split at h
            · cases h; exact .inl rfl
            · cases h
      · cases h; exact .inl rfl

/-- Strings that raise each of them. -/
example : canonicalUnpack [1, 2, 1, 0, 1, 0] = .error .zeroDivision ∧ canonicalUnpack [1, 9, 1] = .error .canonical := by decide +kernel

/-- The strings accepted by `canonical_unpack` with result `items`, spelled out: an integer width
`s`, the number of items, the length-prefixed encoding of a non-zero big-endian integer `blob`
(the blocksize), of one pad byte `p` and of the items, followed by any number of pad bytes; or such an
encoding which is cut somewhere inside the length fields of the trailing empty items. In both cases the
total length is a multiple of the declared blocksize. -/
structure AcceptedEncoding (data : Bytes) (items : List Bytes) (s : Nat) (blob : Bytes) (p : UInt8) :
    Prop where
  width : 0 < s ∧ s < 256
  count : items.length + 2 < 256 ^ s
  sizes : ∀ i ∈ blob :: [p] :: items, i.length < 2 ^ 63
  minimum : s * (items.length + 3) + 3 ≤ data.length
  nonzero : 0 < fromBE blob
  aligned : data.length % fromBE blob = 0
  content : ∃ body k tail,
    (blob :: [p] :: items = body ++ List.replicate k [] ∧
      ∃ e, encodeBody s body = .ok e ∧
        data = beDigits 1 s ++ beDigits s (items.length + 2) ++ e ++ tail) ∧
    ((k = 0 ∧ tail = List.replicate tail.length p) ∨
      (tail.length < s * k ∧ tail = List.replicate tail.length 0))

theorem decodeItems_sizes {s k : Nat} {rest : Bytes} {items : List Bytes} {rest' : Bytes}
    (h : decodeItems s k rest = .ok (items, rest')) : ∀ i ∈ items, i.length < 2 ^ 63 := by
  induction k generalizing rest items with
  | zero => cases h; simp
  | succ k ih =>
    obtain ⟨_, it, its, rfl, h1, h2, h3, hk⟩ := decodeItems_succ_ok.1 h
    intro i hi
    rcases List.mem_cons.1 hi with rfl | hi
    · exact h2
    · exact ih hk i hi

/-- C03, what does hold: the exact set of accepted strings. Missing from the full claim: the width
of the blocksize field is not checked, surplus blocks of padding are accepted, and the
length fields of trailing empty items may be missing. -/
theorem C03_accepted_language_partial (data : Bytes) (items : List Bytes) :
    canonicalUnpack data = .ok items ↔ ∃ s blob p, AcceptedEncoding data items s blob p := by
  constructor
  · intro h
    simp only [canonicalUnpack, bind_eq_ok, Prod.exists, read_ok] at h
    obtain ⟨_, _, ⟨_, rfl, rfl⟩, _, _, ⟨hss, rfl, rfl⟩, h⟩ := h
    split at h
    · cases h
    rename_i hmin
    simp only [bind_eq_ok, Prod.exists] at h
    obtain ⟨all, rest, hdec, hpad⟩ := h
    generalize hsdef : fromBE (data.take 1) = s at *
    generalize hcdef : fromBE ((data.drop 1).take s) = c at *
    have hlen := decodeItems_length hdec
    cases all with
    | nil => cases hpad
    | cons blob all =>
    cases all with
    | nil => cases hpad
    | cons pad its =>
    simp only [testCanonicalPadding] at hpad
    split at hpad
    · cases hpad
    rename_i hnz
    split at hpad
    · cases hpad
    rename_i hal
    split at hpad
    · cases hpad
    rename_i hpd
    cases hpad
    simp only [not_or, Decidable.not_not] at hpd hal
    obtain ⟨hp1, hp2⟩ := hpd
    obtain ⟨p, rfl⟩ := List.length_eq_one_iff.1 hp1
    have hdl1 : 1 ≤ data.length := by omega
    have ht1 : (data.take 1).length = 1 := by simp; omega
    have hs256 : s < 256 := by
      have := fromBE_lt (data.take 1)
      rw [hsdef, ht1] at this
      simpa using this
    have hs0 : 0 < s := by
      rcases Nat.eq_zero_or_pos s with h0 | h0
      · exfalso
        rw [h0] at hcdef
        have : c = 0 := by rw [← hcdef]; simp [fromBE, fromLE]
        simp at hlen; omega
      · exact h0
    have hc2 : c = items.length + 2 := by rw [← hlen]; simp
    have hbig : s + 3 ≤ data.length := by
      have : s * 1 ≤ s * (c + 1) := Nat.mul_le_mul_left _ (by omega)
      omega
    have ht2 : ((data.drop 1).take s).length = s := by simp; omega
    have hclt : c < 256 ^ s := by
      have := fromBE_lt ((data.drop 1).take s)
      rwa [hcdef, ht2] at this
    have hd1 : beDigits 1 s = data.take 1 := by
      have := beDigits_fromBE (data.take 1)
      rwa [hsdef, ht1] at this
    have hd2 : beDigits s (items.length + 2) = (data.drop 1).take s := by
      have := beDigits_fromBE ((data.drop 1).take s)
      rwa [hcdef, ht2, hc2] at this
    have hdata : data = beDigits 1 s ++ beDigits s (items.length + 2) ++ (data.drop 1).drop s := by
      rw [hd1, hd2, List.append_assoc, List.take_append_drop, List.take_append_drop]
    refine ⟨s, blob, p, ⟨hs0, hs256⟩, by omega, decodeItems_sizes hdec, ?_, by omega, hal, ?_⟩
    · rw [hc2] at hmin
      have h3 : items.length + 2 + 1 = items.length + 3 := rfl
      rw [h3] at hmin
      omega
    · rcases decodeItems_sound hdec hs0 with ⟨e, he, hr⟩ | ⟨init, j, n, e, hi, he, hr, hn, hr'⟩
      · refine ⟨_, 0, rest, ⟨by simp, e, he, ?_⟩, Or.inl ⟨rfl, ?_⟩⟩
        · rw [hr] at hdata; rw [hdata]; simp
        · apply List.eq_replicate_iff.2
          refine ⟨rfl, ?_⟩
          intro b hb
          simp only [List.all_eq_true] at hp2
          have := hp2 b hb
          simpa using this
      · refine ⟨init, j, List.replicate n 0, ⟨hi, e, he, ?_⟩, Or.inr ⟨by simpa using hn, by simp⟩⟩
        rw [hr] at hdata; rw [hdata]; simp
  · rintro ⟨s, blob, p, ⟨hs0, hs256⟩, hcount, hsizes, hmin, hnz, hal, body, k, tail, ⟨hall, e, he, hdata⟩,
      htail⟩
    have hss : s < ssizeLimit := by unfold ssizeLimit; omega
    have hlenall : body.length + k = items.length + 2 := by
      have := congrArg List.length hall
      simpa using this.symm
    have hdec : decodeItems s (items.length + 2) (e ++ tail)
        = .ok (blob :: [p] :: items, if k = 0 then tail else []) := by
      rw [← hlenall, hall]
      apply decodeItems_append he hss
      · intro i hi; exact hsizes i (by rw [hall]; simp [hi])
      · rcases htail with ⟨rfl, ht⟩ | ⟨hlt, ht⟩
        · rfl
        · obtain ⟨r, hr, hr0⟩ := decodeItems_cut (n := tail.length) (j := k) hss (by omega)
          rw [← ht] at hr
          have hk : k ≠ 0 := by rintro rfl; simp at hlt
          rw [hr, if_neg hk, hr0]
    have r1 : read 1 data = .ok (beDigits 1 s, beDigits s (items.length + 2) ++ (e ++ tail)) := by
      rw [hdata, List.append_assoc, List.append_assoc]
      exact read_append (by simp) (by simp [ssizeLimit])
    have r2 : read s (beDigits s (items.length + 2) ++ (e ++ tail))
        = .ok (beDigits s (items.length + 2), e ++ tail) := read_append (by simp) hss
    have hf1 : fromBE (beDigits 1 s) = s := fromBE_beDigits_of_lt (by simpa using hs256)
    have hf2 : fromBE (beDigits s (items.length + 2)) = items.length + 2 := fromBE_beDigits_of_lt hcount
    simp only [canonicalUnpack, r1, bind, Except.bind, hf1, r2, hf2]
    have h3 : s * (items.length + 2 + 1) = s * (items.length + 3) := rfl
    rw [if_neg (by rw [h3]; omega)]
    simp only [hdec, testCanonicalPadding, hal]
    rw [if_neg (by omega), if_neg (by simp), if_neg]
    simp only [not_or, Decidable.not_not]
    refine ⟨rfl, ?_⟩
    split
    · rename_i hk
      rcases htail with ⟨_, ht⟩ | ⟨hlt, _⟩
      · rw [ht]; simp
      · simp [hk] at hlt
    · simp

/-- C03, consequence for messages that do not end in an empty item: an accepted string is the whole
encoding of the returned items followed by pad bytes only, so no truncation and no change of any
item byte or length goes unnoticed. -/
theorem C03_nonempty_tail_partial {data : Bytes} {items : List Bytes}
    (h : canonicalUnpack data = .ok items) (hne : items.getLast? ≠ some []) :
    ∃ s blob p n e, encodeItems (blob :: [p] :: items) s = .ok e ∧ 0 < fromBE blob ∧
      data.length % fromBE blob = 0 ∧ data = e ++ List.replicate n p := by
  obtain ⟨s, blob, p, ⟨⟨hs0, hs256⟩, hcount, _, _, hnz, hal, body, k, tail, ⟨hall, e, he, hdata⟩, htail⟩⟩ :=
    (C03_accepted_language_partial data items).1 h
  have hk : k = 0 := by
    cases k with
    | zero => rfl
    | succ k =>
      exfalso
      have hl := congrArg List.getLast? hall
      rw [List.getLast?_append, List.getLast?_replicate] at hl
      simp only [Nat.succ_ne_zero, if_false, Option.or_some, Option.getD_none, Option.some_or] at hl
      cases items with
      | nil => simp at hl
      | cons i is => simp only [List.getLast?_cons_cons] at hl; exact hne hl
  subst hk
  rcases htail with ⟨_, ht⟩ | ⟨hlt, _⟩
  · refine ⟨s, blob, p, tail.length, beDigits 1 s ++ beDigits s (items.length + 2) ++ e, ?_, hnz, hal, ?_⟩
    · refine encodeItems_ok.2 ⟨hs256, by simpa using hcount, e, ?_, by simp⟩
      rw [hall]; simpa using he
    · rw [← ht]; exact hdata
  · simp at hlt

example : ∃ data items, canonicalUnpack data = .ok items ∧ items.getLast? ≠ some [] ∧ items ≠ [] :=
  ⟨_, _, C03_extra_padding_accepted.2, by decide, by decide⟩

/-! ### C04 -/

/-- C04. Packed strings are prefix free: reading packed strings off a stream is unambiguous. -/
theorem C04_prefix_free {items items' : List Bytes} {blocksize blocksize' intBytes intBytes' : Nat}
    {pad pad' packed packed' rest rest' : Bytes}
    (h : canonicalPack items blocksize pad intBytes = .ok packed)
    (h' : canonicalPack items' blocksize' pad' intBytes' = .ok packed')
    (hcat : packed ++ rest = packed' ++ rest') :
    items = items' ∧ packed = packed' ∧ rest = rest' := by
  obtain ⟨a, b, c, d, e⟩ := canonicalPack_parse h h' hcat
  refine ⟨a, ?_, e⟩
  subst e
  exact List.append_cancel_right hcat

example : ∃ packed rest, canonicalPack sampleItems 4 [0x36] 2 = .ok packed ∧ rest ≠ [] ∧
    packed ++ rest = packed ++ rest := ⟨samplePacked, [1], samplePacked_ok, by simp, rfl⟩

/-! ### C06 -/

/-- The length of the format diagram in canon.py:221-247 without the padding. -/
def unpaddedSize (items : List Bytes) (s : Nat) : Nat :=
  1 + s + (s + s) + (s + 1) + (items.map (fun i => s + i.length)).sum

/-- C06. The packed length is a positive multiple of the blocksize, at least the unpadded
length and less than one block longer. -/
theorem C06_pack_aligned {items : List Bytes} {blocksize intBytes : Nat} {pad packed : Bytes}
    (h : canonicalPack items blocksize pad intBytes = .ok packed) :
    packed.length % blocksize = 0 ∧ 0 < packed.length ∧
      unpaddedSize items intBytes ≤ packed.length ∧
      packed.length < unpaddedSize items intBytes + blocksize := by
  obtain ⟨hbs, hb, p, e, rfl, he, rfl⟩ := canonicalPack_ok.1 h
  have hw := ceilDiv_mul_ge e.length blocksize hb
  have hw' := ceilDiv_mul_lt e.length blocksize hb
  have hsum : ∀ l : List Bytes, (l.map (fun i => intBytes + i.length)).sum
      = intBytes * l.length + (l.map List.length).sum := by
    intro l
    induction l with
    | nil => simp
    | cons i is ih => simp only [List.map_cons, List.sum_cons, ih, List.length_cons, Nat.mul_succ]; omega
  have helen : e.length = unpaddedSize items intBytes := by
    obtain ⟨hs, hil, body, hbody, rfl⟩ := encodeItems_ok.1 he
    have := length_encodeBody hbody
    simp only [List.length_append, length_beDigits, this, unpaddedSize, hsum, List.map_cons,
      List.sum_cons, List.length_cons, List.length_nil, Nat.mul_succ]
    omega
  have htot : (e ++ List.replicate (blocksize * ceilDiv e.length blocksize - e.length) p).length
      = blocksize * ceilDiv e.length blocksize := by
    simp; omega
  rw [htot, ← helen]
  refine ⟨by simp, ?_, hw, hw'⟩
  have : 0 < e.length := by rw [helen]; unfold unpaddedSize; omega
  omega

/-- C06 for the key encoding that `hash_bytes` prepends. -/
theorem C06_key_aligned {key pad encoded : Bytes} {blocksize : Nat}
    (h : encodeKey key blocksize pad = .ok encoded) :
    encoded.length % blocksize = 0 ∧ key.length + 17 ≤ encoded.length ∧
      encoded.length < key.length + 17 + blocksize ∧ key <+: encoded := by
  simp only [encodeKey] at h
  split at h
  · cases h
  simp only [bind_eq_ok, toBytesLE_ok, fullblockLjust_ok] at h
  obtain ⟨_, ⟨_, rfl⟩, _, ⟨_, rfl⟩, hb, p, rfl, rfl⟩ := h
  have hl : (key ++ leDigits 8 key.length ++ leDigits 8 blocksize ++ [p]).length = key.length + 17 := by
    simp
  have hw := ceilDiv_mul_ge (key.length + 17) blocksize hb
  have hw' := ceilDiv_mul_lt (key.length + 17) blocksize hb
  rw [List.length_append, List.length_replicate, hl]
  have : key.length + 17 + (blocksize * ceilDiv (key.length + 17) blocksize - (key.length + 17))
      = blocksize * ceilDiv (key.length + 17) blocksize := by omega
  rw [this]
  refine ⟨by simp, hw, hw', ?_⟩
  simp only [List.append_assoc]
  exact List.prefix_append _ _

example : ∃ e, encodeKey [1, 2, 3] 8 [0] = .ok e ∧ e.length = 24 := by
  refine ⟨[1, 2, 3, 3, 0, 0, 0, 0, 0, 0, 0, 8, 0, 0, 0, 0, 0, 0, 0, 0, 0, 0, 0, 0], ?_, rfl⟩
  decide +kernel

/-! ### C05 -/

/-- The digest size in effect: `size or obj.digest_size`. -/
def effectiveSize (size : Option Nat) (digestSize : Nat) : Nat :=
  if size.getD 0 = 0 then digestSize else size.getD 0

theorem hashBytesInput_ok {coll : List Bytes} {bs ds : Nat} {pad : Bytes} {size : Option Nat}
    {key : Option Bytes} {x : Bytes} :
    hashBytesInput coll bs ds pad size key = .ok x ↔
      ∃ pre packed, keyPrefix key bs pad = .ok pre ∧
        effectiveSize size ds < 256 ^ 8 ∧
        canonicalPack (beDigits 8 (effectiveSize size ds) :: coll) bs pad 8 = .ok packed ∧
        x = pre ++ packed := by
  have he : sizeOr size ds = effectiveSize size ds := by
    unfold effectiveSize sizeOr
    split <;> simp_all
  simp only [hashBytesInput, bind_eq_ok, toBytesBE_ok, he]
  constructor
  · rintro ⟨pre, hpre, _, ⟨h1, rfl⟩, packed, h2, h3⟩
    cases h3
    exact ⟨pre, packed, hpre, h1, h2, rfl⟩
  · rintro ⟨pre, packed, hpre, h1, h2, rfl⟩
    exact ⟨pre, hpre, _, ⟨h1, rfl⟩, packed, h2, rfl⟩

/-- C05 as a user would expect it: for one hash type, equal absorbed bytes mean equal keys (or no
key), sizes and collections. -/
def HashInputUnambiguous (blockSize digestSize : Nat) : Prop :=
  ∀ coll coll' pad pad' size size' key key' x,
    hashBytesInput coll blockSize digestSize pad size key = .ok x →
    hashBytesInput coll' blockSize digestSize pad' size' key' = .ok x →
    key = key' ∧ effectiveSize size digestSize = effectiveSize size' digestSize ∧ coll = coll'

/-- What stands after the key in its encoding determines where it begins, for block sizes below `2 ^ 56`. -/
theorem encodeKey_inj {k k' pad pad' encoded : Bytes} {bs : Nat} (hbs : bs < 256 ^ 7)
    (h : encodeKey k bs pad = .ok encoded) (h' : encodeKey k' bs pad' = .ok encoded) : k = k' ∧ pad = pad' := by
  have shape : ∀ {k pad : Bytes}, encodeKey k bs pad = .ok encoded →
      ∃ p n, 0 < bs ∧ pad = [p] ∧ encoded = k ++ leDigits 8 k.length ++ leDigits 8 bs ++ List.replicate (n + 1) p := by
    intro k pad h
    simp only [encodeKey] at h
    split at h
    · cases h
    simp only [bind_eq_ok, toBytesLE_ok, fullblockLjust_ok] at h
    obtain ⟨_, ⟨_, rfl⟩, _, ⟨_, rfl⟩, hb, p, rfl, rfl⟩ := h
    generalize bs * ceilDiv (k ++ leDigits 8 k.length ++ leDigits 8 bs ++ [p]).length bs - (k ++ leDigits 8 k.length ++ leDigits 8 bs ++ [p]).length = n
    refine ⟨p, n, hb, rfl, ?_⟩
    rw [List.replicate_succ, List.append_assoc _ [p], List.singleton_append]
  have behind : ∀ {k : Bytes} {p : UInt8} {n : Nat}, encoded = k ++ leDigits 8 k.length ++ leDigits 8 bs ++ List.replicate (n + 1) p →
      encoded.length = k.length + 17 + n ∧ (∀ i, i < 8 → encoded[k.length + 8 + i]? = (leDigits 8 bs)[i]?) ∧
        ∀ j, k.length + 16 ≤ j → j < encoded.length → encoded[j]? = some p := by
    intro k p n e
    have hl : encoded.length = k.length + 17 + n := by rw [e]; simp; omega
    refine ⟨hl, fun i hi => ?_, fun j hj hjl => ?_⟩
    · rw [e, List.getElem?_append_left (by simp; omega), List.getElem?_append_right (by simp)]
      congr 1
      simp
    · rw [e, List.getElem?_append_right (by simp; omega), List.getElem?_replicate, if_pos]
      simp
      omega
  obtain ⟨p, n, hb, rfl, e⟩ := shape h
  obtain ⟨p', n', _, rfl, e'⟩ := shape h'
  obtain ⟨hl, hB, hP⟩ := behind e
  obtain ⟨hl', hB', hP'⟩ := behind e'
  have hp : p = p' := by
    have h1 := hP (encoded.length - 1) (by omega) (by omega)
    have h2 := hP' (encoded.length - 1) (by omega) (by omega)
    rw [h1] at h2
    exact Option.some.inj h2
  subst hp
  have no : ∀ {l l' : Nat} {B : Bytes}, B = leDigits 8 bs → l < l' → l' + 16 < encoded.length → (∀ i, i < 8 → encoded[l + 8 + i]? = B[i]?) →
      (∀ j, l + 16 ≤ j → j < encoded.length → encoded[j]? = some p) → (∀ i, i < 8 → encoded[l' + 8 + i]? = B[i]?) → False := by
    intro l l' B hBdef hlt hend h1 h2 h3
    have all : ∀ m i, i < 8 → 8 - i ≤ m → B[i]? = some p := by
      intro m
      induction m with
      | zero => intro i hi hm; omega
      | succ m ih =>
        intro i hi hm
        rw [← h3 i hi]
        by_cases hc : l' - l + i < 8
        · have := h1 (l' - l + i) hc
          rw [show l + 8 + (l' - l + i) = l' + 8 + i by omega] at this
          rw [this]
          exact ih _ hc (by omega)
        · exact h2 _ (by omega) (by omega)
    have hrep : B = List.replicate 8 p := by
      apply List.ext_getElem?
      intro i
      by_cases hi : i < 8
      · rw [all 8 i hi (by omega), List.getElem?_replicate, if_pos hi]
      · rw [List.getElem?_eq_none (by rw [hBdef]; simp; omega), List.getElem?_replicate, if_neg hi]
    have hval : fromLE (List.replicate 8 p) = bs := by
      rw [← hrep, hBdef, fromLE_leDigits_of_lt]
      exact Nat.lt_of_lt_of_le hbs (by decide)
    simp only [List.replicate, fromLE] at hval
    omega
  have hlen : k.length = k'.length := by
    rcases Nat.lt_trichotomy k.length k'.length with hlt | heq | hgt
    · exact (no rfl hlt (by omega) hB hP hB').elim
    · exact heq
    · exact (no rfl hgt (by omega) hB' hP' hB).elim
  refine ⟨?_, rfl⟩
  have : k ++ (leDigits 8 k.length ++ leDigits 8 bs ++ List.replicate (n + 1) p) = k' ++ (leDigits 8 k'.length ++ leDigits 8 bs ++ List.replicate (n' + 1) p) := by
    simpa only [List.append_assoc] using e.symm.trans e'
  exact (List.append_inj this hlen).1

/-- The number of blocks that a key takes: the key, sixteen bytes and at least one byte of padding. -/
def keyBlocks (blockSize : Nat) (key : Bytes) : Nat := (key.length + 16) / blockSize + 1

/-- C05 holds between calls with keys that take the same number of blocks (or both without key). Missing: calls with keys that take different numbers of blocks,
see `C05_key_length_collision`, and calls with and without a key, see `C05_no_key_collision`. -/
theorem C05_same_blocks_partial {coll coll' : List Bytes} {bs ds : Nat} {pad pad' : Bytes}
    {size size' : Option Nat} {key key' : Option Bytes} {x : Bytes} (hbs : bs < 2 ^ 56)
    (h : hashBytesInput coll bs ds pad size key = .ok x)
    (h' : hashBytesInput coll' bs ds pad' size' key' = .ok x)
    (hkl : key.map (keyBlocks bs) = key'.map (keyBlocks bs)) :
    key = key' ∧ pad = pad' ∧ effectiveSize size ds = effectiveSize size' ds ∧ coll = coll' := by
  obtain ⟨pre, packed, hpre, hsz, hpk, rfl⟩ := hashBytesInput_ok.1 h
  obtain ⟨pre', packed', hpre', hsz', hpk', hx⟩ := hashBytesInput_ok.1 h'
  have key_step : key = key' ∧ packed = packed' := by
    cases key with
    | none =>
      cases key' with
      | some _ => simp at hkl
      | none =>
        cases hpre; cases hpre'
        exact ⟨rfl, by simpa using hx⟩
    | some k =>
      cases key' with
      | none => simp at hkl
      | some k' =>
        simp only [Option.map_some, Option.some.injEq, keyBlocks] at hkl
        have hpre : encodeKey k bs pad = .ok pre := hpre
        have hpre' : encodeKey k' bs pad' = .ok pre' := hpre'
        have hb : 0 < bs := (canonicalPack_ok.1 hpk).2.1
        have blocks : ∀ {k pad pre : Bytes}, encodeKey k bs pad = .ok pre → pre.length = bs * ((k.length + 16) / bs + 1) := by
          intro k pad pre h
          obtain ⟨p1, p2, p3, _⟩ := C06_key_aligned h
          have e1 := Nat.div_add_mod pre.length bs
          rw [p1, Nat.add_zero] at e1
          rw [← e1]
          congr 1
          have a1 : (k.length + 16) / bs < pre.length / bs := by
            rw [Nat.div_lt_iff_lt_mul hb, Nat.mul_comm, e1]; omega
          have a2 : pre.length / bs ≤ (k.length + 16) / bs + 1 := by
            rw [Nat.div_le_iff_le_mul_add_pred hb, Nat.mul_add, Nat.mul_one]
            have := Nat.lt_mul_div_succ (k.length + 16) hb
            rw [Nat.mul_add, Nat.mul_one] at this
            omega
          omega
        have hlen : pre.length = pre'.length := by rw [blocks hpre, blocks hpre', Nat.succ.inj hkl]
        obtain ⟨e1, e2⟩ := List.append_inj hx hlen
        subst e1
        exact ⟨by rw [(encodeKey_inj (by simpa using hbs) hpre hpre').1], e2⟩
  obtain ⟨rfl, rfl⟩ := key_step
  obtain ⟨e1, _, e3, _⟩ := C02_pack_injective hpk hpk'
  simp only [List.cons.injEq] at e1
  exact ⟨rfl, e3, beDigits_inj hsz hsz' e1.1, e1.2⟩

/-- Keys of 1 and of 50 bytes take one block of `sha3_512` each. -/
example : keyBlocks 72 [1] = keyBlocks 72 (List.replicate 50 1) ∧ (∃ x, hashBytesInput [[7]] 72 64 [0] none (some [1]) = .ok x) := by
  refine ⟨by decide +kernel, ?_⟩
  have : (hashBytesInput [[7]] 72 64 [0] none (some [1])).toOption.isSome := by decide +kernel
  generalize hashBytesInput [[7]] 72 64 [0] none (some [1]) = z at this
  cases z with
  | ok x => exact ⟨x, rfl⟩
  | error e => simp [Except.toOption] at this

/-- C05 holds between calls with keys of the same length (or both without key). Missing: calls
with keys of different lengths, see `C05_key_length_collision`. -/
theorem C05_same_key_length_partial {coll coll' : List Bytes} {bs ds : Nat} {pad pad' : Bytes}
    {size size' : Option Nat} {key key' : Option Bytes} {x : Bytes}
    (h : hashBytesInput coll bs ds pad size key = .ok x)
    (h' : hashBytesInput coll' bs ds pad' size' key' = .ok x)
    (hkl : key.map List.length = key'.map List.length) :
    key = key' ∧ pad = pad' ∧ effectiveSize size ds = effectiveSize size' ds ∧ coll = coll' := by
  obtain ⟨pre, packed, hpre, hsz, hpk, rfl⟩ := hashBytesInput_ok.1 h
  obtain ⟨pre', packed', hpre', hsz', hpk', hx⟩ := hashBytesInput_ok.1 h'
  have key_step : key = key' ∧ packed = packed' := by
    cases key with
    | none =>
      cases key' with
      | some _ => simp at hkl
      | none =>
        cases hpre; cases hpre'
        exact ⟨rfl, by simpa using hx⟩
    | some k =>
      cases key' with
      | none => simp at hkl
      | some k' =>
        simp only [Option.map_some, Option.some.injEq] at hkl
        have hpre : encodeKey k bs pad = .ok pre := hpre
        have hpre' : encodeKey k' bs pad' = .ok pre' := hpre'
        have a := C06_key_aligned hpre
        have a' := C06_key_aligned hpre'
        have hb : 0 < bs := (canonicalPack_ok.1 hpk).2.1
        have hlen : pre.length = pre'.length := by
          obtain ⟨p1, p2, p3, _⟩ := a
          obtain ⟨q1, q2, q3, _⟩ := a'
          rw [hkl] at p2 p3
          have e1 := Nat.div_add_mod pre.length bs
          have e2 := Nat.div_add_mod pre'.length bs
          rw [p1] at e1; rw [q1] at e2
          generalize pre.length / bs = u at *
          generalize pre'.length / bs = v at *
          rcases Nat.lt_trichotomy u v with hlt | heq | hgt
          · have := Nat.mul_le_mul_left bs (show u + 1 ≤ v by omega)
            rw [Nat.mul_add, Nat.mul_one] at this; omega
          · subst heq; omega
          · have := Nat.mul_le_mul_left bs (show v + 1 ≤ u by omega)
            rw [Nat.mul_add, Nat.mul_one] at this; omega
        obtain ⟨e1, e2⟩ := List.append_inj hx hlen
        obtain ⟨w, hw⟩ := a.2.2.2
        obtain ⟨w', hw'⟩ := a'.2.2.2
        have : k ++ w = k' ++ w' := by rw [hw, hw', e1]
        exact ⟨by rw [(List.append_inj this hkl).1], e2⟩
  obtain ⟨rfl, rfl⟩ := key_step
  obtain ⟨e1, _, e3, _⟩ := C02_pack_injective hpk hpk'
  simp only [List.cons.injEq] at e1
  exact ⟨rfl, e3, beDigits_inj hsz hsz' e1.1, e1.2⟩

/-! The counterexample for keys of different lengths, with the blocksize 72 of `sha3_512`. -/

/-- A one-byte key. -/
def shortKey : Bytes := [1]

/-- The encoding of the short key followed by the fixed header that `canonical_pack` puts before
an item of 158 bytes. -/
def longKey : Bytes :=
  [1] ++ leDigits 8 1 ++ leDigits 8 72 ++ List.replicate 55 0 ++
  [8] ++ beDigits 8 4 ++ beDigits 8 8 ++ beDigits 8 72 ++ beDigits 8 1 ++ [0] ++
  beDigits 8 8 ++ beDigits 8 64 ++ beDigits 8 158

/-- The item hashed under the short key: the end of the encoding of the long key and
then a complete packed message. -/
def shortItem : Bytes :=
  leDigits 8 130 ++ leDigits 8 72 ++ List.replicate 70 0 ++
  [8] ++ beDigits 8 4 ++ beDigits 8 8 ++ beDigits 8 72 ++ beDigits 8 1 ++ [0] ++
  beDigits 8 8 ++ beDigits 8 64 ++ beDigits 8 1 ++ [7] ++ List.replicate 13 0

/-- With `sha3_512`, `hash_bytes(shortItem, key=shortKey)` and `hash_bytes(b"\x07", key=longKey)` absorb
the same bytes: they are the same digest whatever the hash function computes. -/
theorem C05_key_length_collision :
    hashBytesInput [shortItem] 72 64 [0] none (some shortKey)
      = hashBytesInput [[7]] 72 64 [0] none (some longKey) ∧
    (∃ x, hashBytesInput [[7]] 72 64 [0] none (some longKey) = .ok x) ∧
    shortKey ≠ longKey := by
  have h : hashBytesInput [shortItem] 72 64 [0] none (some shortKey)
      = hashBytesInput [[7]] 72 64 [0] none (some longKey) := by decide +kernel
  refine ⟨h, ?_, by decide +kernel⟩
  have : (hashBytesInput [[7]] 72 64 [0] none (some longKey)).toOption.isSome := by decide +kernel
  generalize hashBytesInput [[7]] 72 64 [0] none (some longKey) = z at this
  cases z with
  | ok x => exact ⟨x, rfl⟩
  | error e => simp [Except.toOption] at this

/-- The fixed header that `canonical_pack` puts before an item of 158 bytes, as a key. -/
def headerKey : Bytes :=
  [8] ++ beDigits 8 4 ++ beDigits 8 8 ++ beDigits 8 72 ++ beDigits 8 1 ++ [0] ++ beDigits 8 8 ++ beDigits 8 64 ++ beDigits 8 158

/-- The end of the encoding of `headerKey` and then a complete packed message. -/
def headerItem : Bytes :=
  leDigits 8 58 ++ leDigits 8 72 ++ List.replicate 70 0 ++
  [8] ++ beDigits 8 4 ++ beDigits 8 8 ++ beDigits 8 72 ++ beDigits 8 1 ++ [0] ++
  beDigits 8 8 ++ beDigits 8 64 ++ beDigits 8 1 ++ [7] ++ List.replicate 13 0

/-- With `sha3_512`, `hash_bytes(headerItem)` without a key and `hash_bytes(b"\x07", key=headerKey)` absorb the same bytes. -/
theorem C05_no_key_collision :
    hashBytesInput [headerItem] 72 64 [0] none none = hashBytesInput [[7]] 72 64 [0] none (some headerKey) ∧
    (∃ x, hashBytesInput [[7]] 72 64 [0] none (some headerKey) = .ok x) := by
  have h : hashBytesInput [headerItem] 72 64 [0] none none = hashBytesInput [[7]] 72 64 [0] none (some headerKey) := by decide +kernel
  refine ⟨h, ?_⟩
  have : (hashBytesInput [[7]] 72 64 [0] none (some headerKey)).toOption.isSome := by decide +kernel
  generalize hashBytesInput [[7]] 72 64 [0] none (some headerKey) = z at this
  cases z with
  | ok x => exact ⟨x, rfl⟩
  | error e => simp [Except.toOption] at this

/-- The claim C05 is false of the code in full generality. -/
theorem C05_not_unambiguous : ¬ HashInputUnambiguous 72 64 := by
  intro h
  obtain ⟨heq, ⟨x, hx⟩, hne⟩ := C05_key_length_collision
  have := h [shortItem] [[7]] [0] [0] none none (some shortKey) (some longKey) x (heq.trans hx) hx
  exact hne (Option.some.inj this.1)

end Aiootp.Canon
