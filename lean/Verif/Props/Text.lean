import Verif.Lemmas.Text

/-
Properties C07 - C11 and C57: text codecs, base conversion, batch and resize.
-/

namespace Aiootp.Text

/-! ### C07 -/

/-- C07. Decoding an encoded byte string returns it. -/
theorem C07_urlsafe_round_trip (value : Bytes) : urlsafeToBytes (bytesToUrlsafe value) = .ok value := by
  have hlen := length_bytesToUrlsafe value
  have hdec := a2b_bytesToUrlsafe value 0
  have hw := ceilDiv_mul_ge (bytesToUrlsafe value).length 4 (by omega)
  have hw' := ceilDiv_mul_lt (bytesToUrlsafe value).length 4 (by omega)
  simp only [urlsafeToBytes, Canon.fullblockLjust, Canon.ljust, bind, Except.bind]
  rw [if_neg (by omega)]
  simp only
  have h3 : value.length % 3 = 0 ∨ value.length % 3 = 1 ∨ value.length % 3 = 2 := by omega
  rcases h3 with h | h | h
  · rw [h] at hlen
    have : 4 * ceilDiv (bytesToUrlsafe value).length 4 - (bytesToUrlsafe value).length = 0 := by
      simp only at hlen; omega
    rw [this]
    simpa using hdec.1 h
  · rw [h] at hlen
    have : 4 * ceilDiv (bytesToUrlsafe value).length 4 - (bytesToUrlsafe value).length = 2 := by
      simp only at hlen; omega
    rw [this]
    exact hdec.2.1 h
  · rw [h] at hlen
    have : 4 * ceilDiv (bytesToUrlsafe value).length 4 - (bytesToUrlsafe value).length = 1 := by
      simp only at hlen; omega
    rw [this]
    exact hdec.2.2 h

/-- Letters, digits, '-' and '_'. -/
def UrlsafeChar (c : UInt8) : Prop :=
  (65 ≤ c.toNat ∧ c.toNat ≤ 90) ∨ (97 ≤ c.toNat ∧ c.toNat ≤ 122) ∨ (48 ≤ c.toNat ∧ c.toNat ≤ 57) ∨
    c.toNat = 45 ∨ c.toNat = 95

instance (c : UInt8) : Decidable (UrlsafeChar c) := by unfold UrlsafeChar; infer_instance

theorem urlsafeChar_b64Char {v : Nat} (h : v < 64) : UrlsafeChar (b64Char v) := by
  have : ∀ v : Fin 64, UrlsafeChar (b64Char v.1) := by decide
  exact this ⟨v, h⟩

/-- C07. Tokens only contain letters, digits, '-' and '_'. -/
theorem C07_urlsafe_alphabet (value : Bytes) : ∀ c ∈ bytesToUrlsafe value, UrlsafeChar c := by
  fun_induction bytesToUrlsafe value with
  | case1 => simp
  | case2 a =>
    have ha := a.toNat_lt
    intro c hc
    simp only [List.mem_cons, List.not_mem_nil, or_false] at hc
    rcases hc with rfl | rfl <;> exact urlsafeChar_b64Char (by omega)
  | case3 a b =>
    have ha := a.toNat_lt
    have hb := b.toNat_lt
    intro c hc
    simp only [List.mem_cons, List.not_mem_nil, or_false] at hc
    rcases hc with rfl | rfl | rfl <;> exact urlsafeChar_b64Char (by omega)
  | case4 a b c rest ih =>
    have ha := a.toNat_lt
    have hb := b.toNat_lt
    have hc := c.toNat_lt
    intro d hd
    simp only [List.mem_cons] at hd
    rcases hd with rfl | rfl | rfl | rfl | hd
    · exact urlsafeChar_b64Char (by omega)
    · exact urlsafeChar_b64Char (by omega)
    · exact urlsafeChar_b64Char (by omega)
    · exact urlsafeChar_b64Char (by omega)
    · exact ih d hd

example : bytesToUrlsafe [0xfb, 0xff, 0, 1] = [45, 95, 56, 65, 65, 81] := by decide

/-! ### C57 -/

/-- C57 as a user would expect it: a byte string has only one token. -/
def TokensUnique : Prop :=
  ∀ t t' v, urlsafeToBytes t = .ok v → urlsafeToBytes t' = .ok v → t = t'

/-- The claim C57 is false of the code: characters outside the alphabet are skipped by the decoder and unused
bits of the last character are ignored. -/
theorem C57_tokens_not_unique : ¬ TokensUnique ∧
    urlsafeToBytes [65, 81] = .ok [1] ∧ urlsafeToBytes [65, 33, 81, 33] = .error .value ∧
    urlsafeToBytes [65, 82] = .ok [1] ∧
    urlsafeToBytes [33, 33, 33, 33, 65, 81] = .ok [1] := by
  refine ⟨?_, by decide, by decide, by decide, by decide⟩
  intro h
  have := h [65, 81] [65, 82] [1] (by decide) (by decide)
  exact absurd this (by decide)

/-- C57, what holds: among the tokens made by `bytes_to_urlsafe`, each byte string has one. -/
theorem C57_made_tokens_unique_partial {v v' x : Bytes}
    (h : urlsafeToBytes (bytesToUrlsafe v) = .ok x) (h' : urlsafeToBytes (bytesToUrlsafe v') = .ok x) :
    bytesToUrlsafe v = bytesToUrlsafe v' := by
  rw [C07_urlsafe_round_trip] at h h'
  rw [Except.ok.inj h, Except.ok.inj h']

/-! ### C10 -/

/-- C10. Converting a number to a string in a base and back returns the number; the string is not empty, only uses
the first `base` characters of the table, and does not start with the zero digit
unless the number is zero. -/
theorem C10_base_round_trip {α} [DecidableEq α] (number base : Nat) (table : List α)
    (hb : 2 ≤ base) (ht : base ≤ table.length) (hnd : (table.take base).Nodup) :
    ∃ s, intAsBase number (some base) table = .ok s ∧ s ≠ [] ∧
      (∀ c ∈ s, c ∈ table.take base) ∧
      (0 < number → s.head? ≠ table.head?) ∧
      baseAsInt s (some base) table = .ok number :=
  intAsBase_spec hb ht hnd

/-- C10 with the default base `len(table)`. -/
theorem C10_default_base_round_trip {α} [DecidableEq α] (number : Nat) (table : List α)
    (ht : 2 ≤ table.length) (hnd : table.Nodup) :
    ∃ s, intAsBase number none table = .ok s ∧ baseAsInt s none table = .ok number := by
  obtain ⟨s, h1, _, _, _, h2⟩ := intAsBase_spec (number := number) (base := table.length) (table := table)
    ht (by omega) (by simpa using hnd)
  exact ⟨s, by simpa [intAsBase] using h1, by simpa [baseAsInt] using h2⟩

example : intAsBase 255 (some 16) base38 = .ok [100, 100] := by decide +kernel
example : (base38.take 38).Nodup ∧ 38 ≤ base38.length := by decide +kernel

/-- With base 1 the real function never returns; it is outside of C10. -/
theorem C10_base_one_diverges : intAsBase 5 (some 1) base38 = .diverges := by decide +kernel

/-! ### C08 -/

theorem base38_facts : (base38.take 38).Nodup ∧ base38.length = 38 := by decide +kernel

theorem bytesToFilename_spec (value : Bytes) :
    ∃ s, bytesToFilename value = .ok s ∧ s ≠ [] ∧ (∀ c ∈ s, c ∈ base38) ∧
      baseAsInt s (some 38) base38 = .ok (fromBE value) := by
  obtain ⟨s, h1, h2, h3, _, h5⟩ := C10_base_round_trip (fromBE value) 38 base38 (by omega)
    (by rw [base38_facts.2]; omega) base38_facts.1
  exact ⟨s, h1, h2, fun c hc => List.mem_of_mem_take (h3 c hc), h5⟩

/-- C08 as a user would expect it. -/
def FilenameRoundTrip : Prop :=
  ∀ value s, bytesToFilename value = .ok s → filenameToBytes s = .ok value

/-- The claim C08 is false of the code: leading zero bytes are lost, so two byte strings share a filename. -/
theorem C08_leading_zero_lost : ¬ FilenameRoundTrip ∧
    bytesToFilename [0, 1] = bytesToFilename [1] ∧ bytesToFilename [1] = .ok [48] ∧
    filenameToBytes [48] = .ok [1] ∧ bytesToFilename [] = bytesToFilename [0] := by
  have h1 : bytesToFilename [0, 1] = .ok [48] := by decide +kernel
  have h2 : filenameToBytes [48] = .ok [1] := by decide +kernel
  refine ⟨?_, by decide +kernel, by decide +kernel, h2, by decide +kernel⟩
  intro h
  have := h _ _ h1
  rw [h2] at this
  exact absurd this (by decide)

/-- C08, what holds for every byte string: the round trip returns the string without its leading zero
bytes (so it is exact when there are none). -/
theorem C08_round_trip_partial (value : Bytes) :
    ∃ s, bytesToFilename value = .ok s ∧ (∀ c ∈ s, c ∈ base38) ∧ s ≠ [] ∧
      filenameToBytes s = .ok (value.dropWhile (· = 0)) := by
  obtain ⟨s, h1, h2, h3, h4⟩ := bytesToFilename_spec value
  refine ⟨s, h1, h3, h2, ?_⟩
  simp only [filenameToBytes, h4, bind, Except.bind]
  rw [← fromBE_dropWhile value]
  exact toBytes_minimal (head_dropWhile value)

/-- C08, what holds for byte strings of one length (all database and salt filenames are made from 24-byte
digests): distinct byte strings have distinct filenames. -/
theorem C08_fixed_length_injective_partial {value value' : Bytes} (hlen : value.length = value'.length)
    (h : bytesToFilename value = bytesToFilename value') : value = value' := by
  obtain ⟨s, h1, _, _, h4⟩ := bytesToFilename_spec value
  obtain ⟨s', h1', _, _, h4'⟩ := bytesToFilename_spec value'
  rw [h1, h1'] at h
  cases h
  rw [h4] at h4'
  exact fromBE_inj hlen (Except.ok.inj h4')

example : bytesToFilename [0, 255, 255] = .ok [48, 54, 99, 108] := by decide +kernel
example : ([0, 7, 9] : Bytes).dropWhile (· = 0) = [7, 9] := by decide

/-! ### C09 -/

/-- What the word table must satisfy: 256 distinct non-empty words without white space. -/
structure GoodTable (words : List Bytes) : Prop where
  length : words.length = 256
  nodup : words.Nodup
  nonempty : ∀ w ∈ words, w ≠ []
  noSpace : ∀ w ∈ words, ∀ b ∈ w, isSpace b = false

/-- The package's own table satisfies it (a complete check of the finite table). -/
theorem wordList256_good : GoodTable wordList256 := by
  refine ⟨by decide +kernel, by decide +kernel, by decide +kernel, by decide +kernel⟩

theorem bytesToPhrase_split {words : List Bytes} (hg : GoodTable words) {value : Bytes} (hne : value ≠ []) :
    splitSpace (bytesToPhrase words value) = value.map (fun b => words.getD b.toNat []) := by
  have hmem : ∀ b : UInt8, words.getD b.toNat [] ∈ words := by
    intro b
    have hb := b.toNat_lt
    have : b.toNat < words.length := by rw [hg.length]; exact hb
    rw [List.getD_eq_getElem?_getD, List.getElem?_eq_getElem this]
    simp
  have hns : ∀ b : UInt8, (32 : UInt8) ∉ words.getD b.toNat [] := by
    intro b h32
    have := hg.noSpace _ (hmem b) 32 h32
    exact absurd this (by decide)
  fun_induction bytesToPhrase words value with
  | case1 => exact absurd rfl hne
  | case2 b => rw [splitSpace_word (hns b)]; rfl
  | case3 b c bs ih =>
    rw [splitSpace_append (hns b), ih (by simp)]
    rfl

theorem bytesToPhrase_ends {words : List Bytes} (hg : GoodTable words) (value : Bytes) :
    (∀ a, (bytesToPhrase words value).head? = some a → isSpace a = false) ∧
    (∀ a, (bytesToPhrase words value).getLast? = some a → isSpace a = false) := by
  have hmem : ∀ b : UInt8, words.getD b.toNat [] ∈ words := by
    intro b
    have hb := b.toNat_lt
    have : b.toNat < words.length := by rw [hg.length]; exact hb
    rw [List.getD_eq_getElem?_getD, List.getElem?_eq_getElem this]
    simp
  fun_induction bytesToPhrase words value with
  | case1 => simp
  | case2 b =>
    exact ⟨fun a ha => hg.noSpace _ (hmem b) a (List.mem_of_head? ha),
      fun a ha => hg.noSpace _ (hmem b) a (List.mem_of_getLast? ha)⟩
  | case3 b c bs ih =>
    constructor
    · intro a ha
      have hne := hg.nonempty _ (hmem b)
      cases hw : words.getD b.toNat [] with
      | nil => exact absurd hw hne
      | cons x xs =>
        rw [hw] at ha
        simp at ha
        exact hg.noSpace _ (hmem b) a (by rw [hw, ← ha]; simp)
    · intro a ha
      have hne : bytesToPhrase words (c :: bs) ≠ [] := by
        intro h0
        have := bytesToPhrase_split hg (value := c :: bs) (by simp)
        rw [h0] at this
        simp only [splitSpace, List.map_cons, List.cons.injEq] at this
        exact hg.nonempty _ (hmem c) this.1.symm
      rw [List.getLast?_append] at ha
      apply ih.2 a
      cases hl : (bytesToPhrase words (c :: bs)).getLast? with
      | none => exact absurd (List.getLast?_eq_none_iff.1 hl) hne
      | some z => rw [hl] at ha; simpa using ha

theorem lookupWords_map {words : List Bytes} (hg : GoodTable words) (value : Bytes) :
    lookupWords words (value.map (fun b => words.getD b.toNat [])) = .ok value := by
  induction value with
  | nil => rfl
  | cons b bs ih =>
    have hb := b.toNat_lt
    have hlt : b.toNat < words.length := by rw [hg.length]; exact hb
    have : findIdx (words.getD b.toNat []) words = some b.toNat := by
      apply findIdx_getElem hg.nodup
      rw [List.getD_eq_getElem?_getD, List.getElem?_eq_getElem hlt]
      simp
    simp only [List.map_cons, lookupWords, this, ih, bind, Except.bind]
    simp

/-- C09 as a user would expect it. -/
def PhraseRoundTrip : Prop :=
  ∀ value, phraseToBytes wordList256 (bytesToPhrase wordList256 value) = .ok value

/-- The claim C09 is false of the code for the empty byte string (`KeyError`). -/
theorem C09_empty_phrase_raises : ¬ PhraseRoundTrip ∧
    phraseToBytes wordList256 (bytesToPhrase wordList256 []) = .error .key := by
  have h : phraseToBytes wordList256 (bytesToPhrase wordList256 []) = .error .key := by decide +kernel
  refine ⟨?_, h⟩
  intro hr
  rw [hr []] at h
  cases h

/-- C09 for every other byte string and for every good word table. -/
theorem C09_phrase_round_trip_partial {words : List Bytes} (hg : GoodTable words) {value : Bytes}
    (hne : value ≠ []) : phraseToBytes words (bytesToPhrase words value) = .ok value := by
  unfold phraseToBytes
  obtain ⟨h1, h2⟩ := bytesToPhrase_ends hg value
  rw [strip_eq_self h1 h2, bytesToPhrase_split hg hne, lookupWords_map hg]

example : phraseToBytes wordList256 (bytesToPhrase wordList256 [0, 255, 3]) = .ok [0, 255, 3] :=
  C09_phrase_round_trip_partial wordList256_good (by simp)

/-! ### C11 -/

/-- C11. The chunks of `batch` joined together are the data. -/
theorem C11_batch_join {α} (size : Nat) (hn : 0 < size) (data : List α) :
    (batch size data).flatten = data := batch_flatten size hn data

/-- C11. There are `ceil(len / size)` chunks and chunk `i` is `data[i * size : (i + 1) * size]`. -/
theorem C11_batch_chunks {α} (size : Nat) (hn : 0 < size) (data : List α) :
    (batch size data).length = ceilDiv data.length size ∧
    ∀ i, (batch size data)[i]?
      = if i * size < data.length then some ((data.drop (i * size)).take size) else none :=
  ⟨length_batch size hn data, batch_getElem? size hn data⟩

/-- C11. Every chunk but the last has exactly `size` elements, the last has between 1 and `size`. -/
theorem C11_batch_sizes {α} (size : Nat) (hn : 0 < size) (data : List α) (i : Nat) (chunk : List α)
    (h : (batch size data)[i]? = some chunk) :
    (i + 1 < (batch size data).length → chunk.length = size) ∧
      0 < chunk.length ∧ chunk.length ≤ size := by
  rw [batch_getElem? size hn] at h
  split at h
  · rename_i hlt
    cases h
    have hl : ((data.drop (i * size)).take size).length = min size (data.length - i * size) := by simp
    refine ⟨?_, by rw [hl]; omega, by rw [hl]; omega⟩
    intro hi
    have hnext : (batch size data)[i + 1]? = some ((batch size data)[i + 1]) := by simp [hi]
    rw [batch_getElem? size hn] at hnext
    split at hnext
    · rename_i hlt'
      rw [Nat.add_mul, Nat.one_mul] at hlt'
      rw [hl]; omega
    · cases hnext
  · cases h

/-- C11. `resize` without limit gives the same chunks as `batch`; with a limit, the first `blocks` of them. -/
theorem C11_resize {α} (data : List α) (size : Nat) (hn : 0 < size) :
    resize data size none = .ok (batch size data) ∧
    ∀ blocks, 0 < blocks → resize data size (some blocks) = .ok ((batch size data).take blocks) := by
  have hfull : ((pyRange 0 (data.length + size) size).zip (pyRange size (data.length + size) size)).map
      (fun p => (data.take p.2).drop p.1) = batch size data := by
    rw [resize_eq_aux data size _ hn (by omega), batch_eq_map size hn]
    congr 3
    omega
  refine ⟨?_, ?_⟩
  · unfold resize
    rw [if_neg (by omega), if_neg (by simp)]
    simp only [hfull]
  · intro blocks hb
    unfold resize
    rw [if_neg (by omega), if_neg (by simp; omega)]
    simp only
    by_cases hge : blocks * size ≥ data.length
    · rw [if_pos hge, hfull]
      congr 1
      rw [List.take_of_length_le]
      rw [length_batch size hn]
      have := ceilDiv_mul_lt data.length size hn
      rcases Nat.lt_or_ge blocks (ceilDiv data.length size) with hlt | hge'
      · exfalso
        have := Nat.mul_le_mul_left size (show blocks + 1 ≤ ceilDiv data.length size by omega)
        rw [Nat.mul_add, Nat.mul_one, Nat.mul_comm size blocks] at this
        omega
      · exact hge'
    · rw [if_neg hge]
      obtain ⟨b, rfl⟩ : ∃ b, blocks = b + 1 := ⟨blocks - 1, by omega⟩
      have e1 : (b + 1) * size + 1 - size = b * size + 1 := by rw [Nat.add_mul, Nat.one_mul]; omega
      have hle : b + 1 ≤ ceilDiv data.length size := by
        have := ceilDiv_mul_ge data.length size hn
        rcases Nat.lt_or_ge (ceilDiv data.length size) (b + 1) with hlt | h
        · exfalso
          have := Nat.mul_le_mul_left size (show ceilDiv data.length size ≤ b + 1 by omega)
          rw [Nat.mul_comm size (b + 1)] at this
          omega
        · exact h
      rw [resize_eq_aux data size _ hn (by rw [Nat.add_mul, Nat.one_mul]; omega), e1, ceilDiv_succ_mul hn,
        batch_eq_map size hn, ← List.map_take, List.take_range, Nat.min_eq_left hle]

/-- C11, the refused arguments. -/
theorem C11_resize_refuses {α} (data : List α) (blocks : Option Nat) :
    resize data 0 blocks = .error .value ∧
    ∀ size, 0 < size → resize data size (some 0) = .error .value := by
  refine ⟨by simp [resize], ?_⟩
  intro size h
  unfold resize
  rw [if_neg (by omega), if_pos rfl]

example : batch 3 [1, 2, 3, 4, 5, 6, 7] = [[1, 2, 3], [4, 5, 6], [7]] := by decide +kernel
example : resize [1, 2, 3, 4, 5, 6, 7] 3 (some 2) = .ok [[1, 2, 3], [4, 5, 6]] := by decide +kernel

end Aiootp.Text
