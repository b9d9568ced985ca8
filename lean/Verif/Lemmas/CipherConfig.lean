import Verif.Model.CipherConfig
import Verif.Lemmas.Slice

namespace Aiootp.Cipher

namespace Sizes

theorem metadataFits_ok {c : Sizes} {k : Nat} {u : Unit} : c.metadataFits k = .ok u ↔
    c.epochNs < 256 ^ 16 ∧ c.blocksize < 256 ^ 2 ∧ c.minPaddingBlocks < 256 ^ 2 ∧ c.primerKeyBytes k < 256 ^ 2 := by
  simp only [metadataFits, bind_eq_ok, toBytesBE_ok]
  constructor
  · rintro ⟨_, ⟨h1, _⟩, _, ⟨h2, _⟩, _, ⟨h3, _⟩, _, ⟨h4, _⟩, _⟩
    exact ⟨h1, h2, h3, h4⟩
  · rintro ⟨h1, h2, h3, h4⟩
    exact ⟨_, ⟨h1, rfl⟩, _, ⟨h2, rfl⟩, _, ⟨h3, rfl⟩, _, ⟨h4, rfl⟩, rfl⟩

theorem permutationKeySize_ok {i k : Nat} : permutationKeySize i = .ok k ↔ i ∈ permutationSizes ∧ k = 5 * i := by
  unfold permutationKeySize
  split
  · rename_i h; simp at h; simp [h, eq_comm]
  · rename_i h; simp at h; simp [h]

theorem permutationSizes_pos {i : Nat} (h : i ∈ permutationSizes) : 0 < i ∧ i ≤ 256 := by
  have : ∀ i ∈ permutationSizes, 0 < i ∧ i ≤ 256 := by decide
  exact this i h

/-- The remainder computed by `_ensure_inner_header_leaves_adequate_space`. -/
def space (c : Sizes) : Int := ((c.blocksize : Int) - c.innerHeaderBytes - c.sentinelBytes) % c.blocksize

theorem headerLeavesSpace_ok {c : Sizes} {u : Unit} :
    c.headerLeavesSpace = .ok u ↔ ¬ (c.space < 16 ∧ c.space ≥ 0) := by
  unfold headerLeavesSpace space
  simp only
  split <;> rename_i h
  · simp only [reduceCtorEq, false_iff, Decidable.not_not]; exact h
  · simp only [true_iff]; exact h

theorem acceptPermute_ok {c : Sizes} {u : Unit} : c.acceptPermute = .ok u ↔
    c.blocksize ∈ permutationSizes ∧
    (c.epochNs < 256 ^ 16 ∧ c.blocksize < 256 ^ 2 ∧ c.minPaddingBlocks < 256 ^ 2 ∧
      c.primerKeyBytes (5 * c.blocksize) < 256 ^ 2) ∧
    c.blocksize ≤ c.shmacBlocksize ∧ c.minBlockIdBytes ≤ c.maxBlockIdBytes ∧
    2 * c.blocksize + 32 ≤ c.shmacBlocksize ∧ ¬ (c.space < 16 ∧ c.space ≥ 0) := by
  simp only [acceptPermute, bind_eq_ok, permutationKeySize_ok, raiseIf_ok, metadataFits_ok, headerLeavesSpace_ok]
  constructor
  · rintro ⟨k, ⟨hm, rfl⟩, _, hf, _, h0, _, h1, _, h2, _, h3, h4⟩
    exact ⟨hm, hf, by omega, by omega, by omega, h4⟩
  · rintro ⟨hm, hf, h1, h2, h3, h4⟩
    have := permutationSizes_pos hm
    exact ⟨_, ⟨hm, rfl⟩, (), hf, (), by omega, (), by omega, (), by omega, (), by omega, h4⟩

theorem sentinelBytes_pos {c : Sizes} (h : 0 < c.paddingFrame) : 0 < c.sentinelBytes := by
  unfold sentinelBytes ceilDiv
  omega

theorem paddingFrame_le_sentinel (c : Sizes) : c.paddingFrame ≤ 256 ^ c.sentinelBytes := by
  have h1 : c.paddingFrame ≤ 256 * c.sentinelBytes := by
    have := ceilDiv_mul_ge c.paddingFrame 256 (by omega)
    exact this
  have h2 : ∀ n : Nat, 256 * n ≤ 256 ^ n := by
    intro n
    induction n with
    | zero => simp
    | succ n ih => rw [Nat.pow_succ]; rcases Nat.eq_zero_or_pos n with rfl | hn <;> omega
  exact Nat.le_trans h1 (h2 _)

theorem paddingFrame_pos {c : Sizes} (h : 0 < c.blocksize) : 0 < c.paddingFrame := by
  unfold paddingFrame minStreamQueue
  exact Nat.mul_pos h (by omega)

theorem sivMeasurements_ok {c : Sizes} {s : SivSample} {u : Unit} (h : c.sivMeasurements s = .ok u) :
    ∃ content : Bytes, 0 ≤ c.firstContentBytes ∧ (content.length : Int) = c.firstContentBytes ∧
      s.maskedHeader.length + content.length = c.blocksize ∧
      (c.embeddedLeftSlice.of s.key).length + c.blocksize + (c.embeddedRightSlice.of s.key).length
        = c.shmacDoubleBlocksize ∧
      (c.innerHeaderSlice.of s.block).length + s.maskedHeader.length + (c.sivDigestSlice.of s.digest).length
        = c.shmacBlocksize := by
  simp only [sivMeasurements, bind_eq_ok, raiseIf_ok] at h
  obtain ⟨content, hc, _, h1, _, h2, _, h3, _⟩ := h
  unfold toBytesSigned at hc
  split at hc; · cases hc
  rw [toBytesBE_ok] at hc
  obtain ⟨_, rfl⟩ := hc
  simp only [List.length_append, length_beDigits, Decidable.not_not] at h1 h2 h3 ⊢
  refine ⟨beDigits c.firstContentBytes.toNat 0, by omega, by rw [length_beDigits]; omega, ?_, ?_, ?_⟩
  · rw [length_beDigits]; exact h1
  · omega
  · omega

/-- What an accepted dual-output config guarantees. -/
theorem acceptDual_ok {c : Sizes} {l r : Nat} {s : SivSample} {u : Unit} (hd : s.Drawn c)
    (h : c.acceptDual l r s = .ok u) :
    c.innerHeaderBytes ∈ permutationSizes ∧
    (c.epochNs < 256 ^ 16 ∧ c.blocksize < 256 ^ 2 ∧ c.minPaddingBlocks < 256 ^ 2 ∧
      c.primerKeyBytes (5 * c.innerHeaderBytes) < 256 ^ 2) ∧
    c.innerHeaderBytes % 2 = 0 ∧ c.blocksize % 2 = 0 ∧ 0 < c.blocksize ∧ l = r ∧ c.blocksize ≤ l + r ∧
    c.minBlockIdBytes ≤ c.maxBlockIdBytes ∧ ¬ (c.space < 16 ∧ c.space ≥ 0) ∧
    c.innerHeaderBytes ≤ c.blocksize ∧ c.blocksize < c.shmacDoubleBlocksize ∧
    2 * c.innerHeaderBytes ≤ c.shmacBlocksize := by
  simp only [acceptDual, bind_eq_ok, permutationKeySize_ok, raiseIf_ok, metadataFits_ok, headerLeavesSpace_ok] at h
  obtain ⟨k, ⟨hm, rfl⟩, _, hf, _, g1, _, g2, _, g3, _, g4, _, g5, _, hsp, _, g6, _, _, h⟩ := h
  obtain ⟨content, hc0, hc1, hc2, hc3, hc4⟩ := sivMeasurements_ok h
  obtain ⟨hb, hmh, hk, hdg⟩ := hd
  have hIB : c.innerHeaderBytes ≤ c.blocksize := by omega
  refine ⟨hm, hf, by omega, by omega, by omega, by omega, by omega, by omega, hsp, hIB, ?_, ?_⟩
  · -- the capacity slices are non-empty parts of the key
    have hright : (c.embeddedRightSlice.of s.key).length ≤ c.shmacDoubleBlocksize := by
      rw [← hk]
      unfold Slice.of
      simp only [List.length_drop, List.length_take]
      omega
    refine Classical.byContradiction fun hcon => ?_
    have he : c.embeddedCapacity ≤ 0 := by unfold embeddedCapacity; omega
    have hr : (c.embeddedRightSlice.of s.key).length ≥ c.shmacDoubleBlocksize + c.embeddedCapacity := by
      unfold embeddedRightSlice
      rcases Int.lt_or_eq_of_le he with hlt | heq
      · obtain ⟨n, hn⟩ : ∃ n : Nat, -c.embeddedCapacity = n := ⟨(-c.embeddedCapacity).toNat, by omega⟩
        rw [hn, slice_nat_none, List.length_drop]
        omega
      · have : (-c.embeddedCapacity) = ((0 : Nat) : Int) := by omega
        rw [this, slice_nat_none, List.length_drop]
        omega
    have hl : (c.embeddedLeftSlice.of s.key).length ≥ c.shmacDoubleBlocksize + c.embeddedCapacity
        ∨ c.embeddedCapacity = 0 := by
      rcases Int.lt_or_eq_of_le he with hlt | heq
      · left
        unfold embeddedLeftSlice
        obtain ⟨n, hn⟩ : ∃ n : Nat, c.embeddedCapacity = -(n : Int) := ⟨(-c.embeddedCapacity).toNat, by omega⟩
        rw [hn, show (0 : Int) = ((0 : Nat) : Int) from rfl, slice_nat_neg _ _ _ (by omega), List.length_drop,
          List.length_take]
        omega
      · exact .inr heq
    have hbl : (c.blocksize : Int) ≥ c.shmacDoubleBlocksize := by omega
    have hcap : c.embeddedCapacity * 2 ≥ (c.shmacDoubleBlocksize : Int) - c.blocksize - 1 := by
      unfold embeddedCapacity; omega
    have hsd : c.shmacDoubleBlocksize = 2 * c.shmacBlocksize := rfl
    have hpos : 0 < c.innerHeaderBytes := (permutationSizes_pos hm).1
    omega
  · have h1 : (c.innerHeaderSlice.of s.block).length = c.innerHeaderBytes := by
      unfold innerHeaderSlice
      rw [slice_zero_nat, List.length_take]
      omega
    have h2 : (c.sivDigestSlice.of s.digest).length = c.shmacBlocksize - 2 * c.innerHeaderBytes := by
      unfold sivDigestSlice
      have : (2 * (c.innerHeaderBytes : Int)) = ((2 * c.innerHeaderBytes : Nat) : Int) := by omega
      rw [this, slice_nat_none, List.length_drop, hdg]
    omega

/-! ### the slices of an accepted dual-output config -/

/-- What is needed of a dual-output config for its slices to be right. -/
structure DualWF (c : Sizes) : Prop where
  header_even : c.innerHeaderBytes % 2 = 0
  block_even : c.blocksize % 2 = 0
  header_pos : 0 < c.innerHeaderBytes
  header_le : c.innerHeaderBytes ≤ c.blocksize
  block_lt : c.blocksize < c.shmacDoubleBlocksize
  header_digest : 2 * c.innerHeaderBytes ≤ c.shmacBlocksize

/-- The capacity as a natural number. -/
def cap (c : Sizes) : Nat := (c.shmacDoubleBlocksize - c.blocksize) / 2

theorem DualWF.cap_eq {c : Sizes} (h : c.DualWF) :
    c.embeddedCapacity = c.cap ∧ 0 < c.cap ∧ 2 * c.cap + c.blocksize = c.shmacDoubleBlocksize := by
  have h1 := h.block_even
  have h2 := h.block_lt
  have h3 : c.shmacDoubleBlocksize = 2 * c.shmacBlocksize := rfl
  unfold embeddedCapacity cap
  omega

theorem DualWF.left_eq {c : Sizes} (h : c.DualWF) (key : Bytes) : c.embeddedLeftSlice.of key = key.take c.cap := by
  unfold embeddedLeftSlice
  rw [h.cap_eq.1, slice_zero_nat]

theorem DualWF.right_eq {c : Sizes} (h : c.DualWF) {key : Bytes} (hk : key.length = c.shmacDoubleBlocksize) :
    c.embeddedRightSlice.of key = key.drop (c.cap + c.blocksize) := by
  unfold embeddedRightSlice
  have := h.cap_eq
  rw [this.1, slice_neg_none _ _ this.2.1, hk]
  congr 1
  omega

theorem DualWF.ciphertext_eq {c : Sizes} (h : c.DualWF) {key : Bytes} (hk : key.length = c.shmacDoubleBlocksize) :
    c.embeddedCiphertextSlice.of key = (key.drop c.cap).take c.blocksize := by
  unfold embeddedCiphertextSlice
  have := h.cap_eq
  rw [this.1, slice_nat_neg _ _ _ this.2.1, hk, List.drop_take]
  congr 1
  omega

theorem DualWF.first_key_eq {c : Sizes} (h : c.DualWF) {key : Bytes} (hk : key.length = c.shmacDoubleBlocksize) :
    c.firstKeySlice.of key
      = (key.drop (c.cap + c.innerHeaderBytes / 2)).take (c.blocksize - c.innerHeaderBytes) := by
  unfold firstKeySlice
  have := h.cap_eq
  have h2 := h.header_even
  have h3 := h.header_le
  rw [this.1, show ((c.cap : Int) + (c.innerHeaderBytes / 2 : Nat)) = ((c.cap + c.innerHeaderBytes / 2 : Nat) : Int) by omega,
    show (-(c.cap : Int) - (c.innerHeaderBytes / 2 : Nat)) = -((c.cap + c.innerHeaderBytes / 2 : Nat) : Int) by omega,
    slice_nat_neg _ _ _ (by omega), hk, List.drop_take]
  congr 1
  omega

theorem DualWF.length_left {c : Sizes} (h : c.DualWF) {key : Bytes} (hk : key.length = c.shmacDoubleBlocksize) :
    (c.embeddedLeftSlice.of key).length = c.cap := by
  rw [h.left_eq, List.length_take]; have := h.cap_eq; omega

theorem DualWF.length_right {c : Sizes} (h : c.DualWF) {key : Bytes} (hk : key.length = c.shmacDoubleBlocksize) :
    (c.embeddedRightSlice.of key).length = c.cap := by
  rw [h.right_eq hk, List.length_drop]; have := h.cap_eq; omega

theorem DualWF.length_ciphertext {c : Sizes} (h : c.DualWF) {key : Bytes}
    (hk : key.length = c.shmacDoubleBlocksize) : (c.embeddedCiphertextSlice.of key).length = c.blocksize := by
  rw [h.ciphertext_eq hk, List.length_take, List.length_drop]; have := h.cap_eq; omega

theorem DualWF.length_first_key {c : Sizes} (h : c.DualWF) {key : Bytes}
    (hk : key.length = c.shmacDoubleBlocksize) :
    (c.firstKeySlice.of key).length = c.blocksize - c.innerHeaderBytes := by
  have h2 := h.header_even
  have h3 := h.header_le
  rw [h.first_key_eq hk, List.length_take, List.length_drop]; have := h.cap_eq; omega

theorem first_content_eq (c : Sizes) (block : Bytes) :
    c.firstContentSlice.of block = block.drop c.innerHeaderBytes := by
  unfold firstContentSlice
  rw [slice_nat_none]

theorem inner_header_eq (c : Sizes) (block : Bytes) :
    c.innerHeaderSlice.of block = block.take c.innerHeaderBytes := by
  unfold innerHeaderSlice
  rw [slice_zero_nat]

theorem siv_digest_eq (c : Sizes) (digest : Bytes) :
    c.sivDigestSlice.of digest = digest.drop (2 * c.innerHeaderBytes) := by
  unfold sivDigestSlice
  have : (2 * (c.innerHeaderBytes : Int)) = ((2 * c.innerHeaderBytes : Nat) : Int) := by omega
  rw [this, slice_nat_none]

theorem xor_fromBE_lt {a b : Bytes} {n : Nat} (ha : a.length = n) (hb : b.length = n) :
    fromBE a ^^^ fromBE b < 256 ^ n := by
  have h1 := fromBE_lt a
  have h2 := fromBE_lt b
  rw [ha] at h1
  rw [hb] at h2
  have he : 256 ^ n = 2 ^ (8 * n) := by rw [Nat.pow_mul]
  rw [he] at h1 h2 ⊢
  exact Nat.xor_lt_two_pow h1 h2

theorem DualWF.measured {c : Sizes} (h : c.DualWF) {s : SivSample} (hd : s.Drawn c) :
    c.sivMeasurements s = .ok () := by
  obtain ⟨hb, hmh, hk, hdg⟩ := hd
  have hle := h.header_le
  have hcap := h.cap_eq
  have hfc : c.firstContentBytes = ((c.blocksize - c.innerHeaderBytes : Nat) : Int) := by
    unfold firstContentBytes; omega
  have hlt : fromBE (c.firstKeySlice.of s.key) ^^^ fromBE (c.firstContentSlice.of s.block)
      < 256 ^ (c.blocksize - c.innerHeaderBytes) := by
    refine xor_fromBE_lt (h.length_first_key hk) ?_
    rw [first_content_eq, List.length_drop, hb]
  have hto : toBytesSigned c.firstContentBytes
      (fromBE (c.firstKeySlice.of s.key) ^^^ fromBE (c.firstContentSlice.of s.block))
      = .ok (beDigits (c.blocksize - c.innerHeaderBytes)
          (fromBE (c.firstKeySlice.of s.key) ^^^ fromBE (c.firstContentSlice.of s.block))) := by
    unfold toBytesSigned
    rw [if_neg (by omega), hfc, Int.toNat_natCast]
    exact toBytesBE_ok.2 ⟨hlt, rfl⟩
  have e1 : (s.maskedHeader ++ beDigits (c.blocksize - c.innerHeaderBytes)
      (fromBE (c.firstKeySlice.of s.key) ^^^ fromBE (c.firstContentSlice.of s.block))).length = c.blocksize := by
    rw [List.length_append, length_beDigits, hmh]; omega
  simp only [sivMeasurements, bind_eq_ok, raiseIf_ok, Decidable.not_not]
  refine ⟨_, hto, (), e1, (), ?_, (), ?_, rfl⟩
  · rw [List.length_append, List.length_append, e1, h.length_left hk, h.length_right hk]
    omega
  · rw [List.length_append, List.length_append, hmh, siv_digest_eq, List.length_drop, hdg,
      inner_header_eq, List.length_take, hb]
    have := h.header_digest
    omega

/-- Exactly which constants the dual-output config constructor accepts; the random strings of its self test do not
matter. -/
theorem acceptDual_iff {c : Sizes} {l r : Nat} {s : SivSample} (hd : s.Drawn c) :
    c.acceptDual l r s = .ok () ↔
    c.innerHeaderBytes ∈ permutationSizes ∧
    (c.epochNs < 256 ^ 16 ∧ c.blocksize < 256 ^ 2 ∧ c.minPaddingBlocks < 256 ^ 2 ∧
      c.primerKeyBytes (5 * c.innerHeaderBytes) < 256 ^ 2) ∧
    c.innerHeaderBytes % 2 = 0 ∧ c.blocksize % 2 = 0 ∧ 0 < c.blocksize ∧ l = r ∧ c.blocksize ≤ l + r ∧
    c.minBlockIdBytes ≤ c.maxBlockIdBytes ∧ ¬ (c.space < 16 ∧ c.space ≥ 0) ∧
    c.innerHeaderBytes ≤ c.blocksize ∧ c.blocksize < c.shmacDoubleBlocksize ∧
    2 * c.innerHeaderBytes ≤ c.shmacBlocksize := by
  refine ⟨acceptDual_ok hd, ?_⟩
  rintro ⟨h1, h2, h3, h4, h5, h6, h7, h8, h9, h10, h11, h12⟩
  have hm := DualWF.measured (c := c) ⟨h3, h4, (permutationSizes_pos h1).1, h10, h11, h12⟩ hd
  simp only [acceptDual, bind_eq_ok, permutationKeySize_ok, raiseIf_ok, metadataFits_ok, headerLeavesSpace_ok]
  exact ⟨_, ⟨h1, rfl⟩, (), h2, (), by omega, (), by omega, (), by omega, (), by omega, (), by omega, (), h9, (), by omega,
    (), h9, hm⟩

end Sizes

end Aiootp.Cipher
