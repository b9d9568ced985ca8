import Verif.Lemmas.Padding

/-
Properties C20 (padding), C25 (ciphertext parser) and C32 (accepted cipher configs).
-/

namespace Aiootp.Cipher

/-- A configuration that one of the two config constructors accepts (for the second one: with the block sizes `l`, `r`
of its side hash objects and whatever random strings `s` were drawn for its self test). -/
def Accepted (c : Sizes) : Prop :=
  c.acceptPermute = .ok () ∨ ∃ l r s, s.Drawn c ∧ c.acceptDual l r s = .ok ()

theorem Accepted.blocksize_pos {c : Sizes} (h : Accepted c) : 0 < c.blocksize := by
  rcases h with h | ⟨l, r, s, hs, h⟩
  · exact (Sizes.permutationSizes_pos (Sizes.acceptPermute_ok.1 h).1).1
  · exact (Sizes.acceptDual_ok hs h).2.2.2.2.1

theorem Accepted.frame_pos {c : Sizes} (h : Accepted c) : 0 < c.paddingFrame :=
  Sizes.paddingFrame_pos h.blocksize_pos

/-- Random strings for the self test, all zero. -/
def zeroSample (c : Sizes) : Sizes.SivSample where
  block := List.replicate c.blocksize 0
  maskedHeader := List.replicate c.innerHeaderBytes 0
  key := List.replicate c.shmacDoubleBlocksize 0
  digest := List.replicate c.shmacBlocksize 0

theorem zeroSample_drawn (c : Sizes) : (zeroSample c).Drawn c := by
  simp [zeroSample, Sizes.SivSample.Drawn]

/-- The shipped `Slick256` configuration is accepted. -/
theorem slick256_accepted (epoch : Nat) (h : epoch < 256 ^ 16) : (slick256 epoch).acceptPermute = .ok () := by
  refine Sizes.acceptPermute_ok.2 ⟨?_, ⟨h, ?_, ?_, ?_⟩, ?_, ?_, ?_, ?_⟩
  · show 32 ∈ Sizes.permutationSizes; decide
  · show 32 < 256 ^ 2; decide
  · show 0 < 256 ^ 2; decide
  · show 168 * (1 + ceilDiv (5 * 32) 168) < 256 ^ 2; decide
  · show 32 ≤ 168; decide
  · show 16 ≤ 32; decide
  · show 2 * 32 + 32 ≤ 168; decide
  · have : (slick256 epoch).space = 19 := by
      show ((32 : Int) - ((4 + 8 : Nat) : Int) - ((ceilDiv (32 * 1) 256 : Nat) : Int)) % 32 = 19
      decide
    omega

/-- The shipped `Chunky2048` configuration is accepted, whatever its self test draws. -/
theorem chunky2048_accepted (epoch : Nat) (h : epoch < 256 ^ 16) (s : Sizes.SivSample)
    (hs : s.Drawn (chunky2048 epoch)) : (chunky2048 epoch).acceptDual 168 168 s = .ok () := by
  refine (Sizes.acceptDual_iff hs).2 ⟨?_, ⟨h, ?_, ?_, ?_⟩, ?_, ?_, ?_, rfl, ?_, ?_, ?_, ?_, ?_, ?_⟩
  · show 20 ∈ Sizes.permutationSizes; decide
  · show 256 < 256 ^ 2; decide
  · show 0 < 256 ^ 2; decide
  · show 168 * (1 + ceilDiv (5 * 20) 168) < 256 ^ 2; decide
  · show 20 % 2 = 0; decide
  · show 256 % 2 = 0; decide
  · show 0 < 256; decide
  · show 256 ≤ 168 + 168; decide
  · show 16 ≤ 32; decide
  · have : (chunky2048 epoch).space = 235 := by
      show ((256 : Int) - ((4 + 16 : Nat) : Int) - ((ceilDiv (256 * 1) 256 : Nat) : Int)) % 256 = 235
      decide
    omega
  · show 20 ≤ 256; decide
  · show 256 < 336; decide
  · show 2 * 20 ≤ 168; decide

/-! ### C20 -/

/-- C20, lengths. Whenever a plaintext can be padded (the clock reading fits the timestamp field), the padded length is
a positive multiple of the padding frame and leaves at least one byte of padding. -/
theorem C20_lengths {c : Sizes} (hacc : Accepted c) (reading : Int)
    (hr : 0 ≤ reading ∧ reading < 256 ^ c.timestampBytes) (sivKey extra data : Bytes)
    (hsiv : sivKey.length = c.sivKeyBytes) (hextra : extra.length = c.paddingFrame) :
    ∃ padded, c.padPlaintext reading sivKey extra data = .ok padded ∧
      c.paddingFrame ∣ padded.length ∧ 0 < padded.length ∧
      c.timestampBytes + c.sivKeyBytes + data.length + 1 ≤ padded.length := by
  have hF := hacc.frame_pos
  have hst : c.startPadding reading sivKey = .ok (beDigits c.timestampBytes reading.toNat ++ sivKey) :=
    Sizes.startPadding_ok.2 ⟨hr.1, hr.2, rfl⟩
  obtain ⟨en, hen⟩ : ∃ en, c.endPadding extra data.length = .ok en := ⟨_, Sizes.endPadding_eq hF _ _⟩
  have hlen := Sizes.length_endPadding hF hextra hen
  have hb := Sizes.padSize_bounds hF data.length
  refine ⟨_, by unfold Sizes.padPlaintext; rw [hst, hen]; rfl, ?_, ?_, ?_⟩
  · rw [Nat.dvd_iff_mod_eq_zero]
    have : (beDigits c.timestampBytes reading.toNat ++ sivKey ++ data ++ en).length
        = c.innerHeaderBytes + data.length + c.padSize data.length := by
      simp [hsiv, hlen, Sizes.innerHeaderBytes, Nat.add_assoc]
    rw [this]
    exact hb.2.2
  · simp [hlen]; omega
  · simp [hlen]; omega

/-- C20, round trip. Padding and depadding give back the plaintext, within the time to live, for every accepted
configuration, plaintext, timestamp, siv-key and random padding, *provided that the end padding is long enough to hold
the sentinel*. Missing for the full claim: plaintext lengths whose padding is shorter than the sentinel, for which the
claim is false (`C20_truncated_sentinel`). -/
theorem C20_round_trip_partial {c : Sizes} (hacc : Accepted c) (reading : Int)
    (hr : 0 ≤ reading ∧ reading < 256 ^ c.timestampBytes) (sivKey extra data : Bytes)
    (hsiv : sivKey.length = c.sivKeyBytes) (hextra : extra.length = c.paddingFrame)
    (hroom : c.sentinelBytes
      ≤ c.paddingFrame - (c.timestampBytes + c.sivKeyBytes + data.length) % c.paddingFrame) :
    ∃ padded, c.padPlaintext reading sivKey extra data = .ok padded ∧
      (∀ now, c.depadPlaintext now none padded = .ok data) ∧
      (∀ now ttl, c.depadPlaintext now (some ttl) padded
        = if now - reading > ttl then .error (.timestampExpired (now - reading - ttl)) else .ok data) := by
  have hF := hacc.frame_pos
  obtain ⟨p, hp, _⟩ := C20_lengths hacc reading hr sivKey extra data hsiv hextra
  have hback : fromBE (beDigits c.timestampBytes reading.toNat) = reading.toNat := by
    apply fromBE_beDigits_of_lt
    have h1 : ((256 ^ c.timestampBytes : Nat) : Int) = 256 ^ c.timestampBytes := by
      rw [Int.natCast_pow]; rfl
    omega
  refine ⟨p, hp, ?_, ?_⟩
  · intro now
    rw [Sizes.depad_pad hF hsiv hextra hroom hp]
    rfl
  · intro now ttl
    rw [Sizes.depad_pad hF hsiv hextra hroom hp]
    simp only [Clock.testTimestamp, Clock.delta, Clock.readTimestamp, hback]
    rw [show ((reading.toNat : Nat) : Int) = reading by omega]
    split <;> rfl

/-- C20, in full for configurations whose padding frame is at most 256 bytes, which includes both shipped ones. -/
theorem C20_round_trip_small_frame {c : Sizes} (hacc : Accepted c) (hframe : c.paddingFrame ≤ 256) (reading : Int)
    (hr : 0 ≤ reading ∧ reading < 256 ^ c.timestampBytes) (sivKey extra data : Bytes)
    (hsiv : sivKey.length = c.sivKeyBytes) (hextra : extra.length = c.paddingFrame) :
    ∃ padded, c.padPlaintext reading sivKey extra data = .ok padded ∧
      (∀ now, c.depadPlaintext now none padded = .ok data) ∧
      (∀ now ttl, c.depadPlaintext now (some ttl) padded
        = if now - reading > ttl then .error (.timestampExpired (now - reading - ttl)) else .ok data) := by
  refine C20_round_trip_partial hacc reading hr sivKey extra data hsiv hextra ?_
  have hF := hacc.frame_pos
  have h1 : c.sentinelBytes ≤ 1 := by
    unfold Sizes.sentinelBytes ceilDiv
    omega
  have := Nat.mod_lt (c.timestampBytes + c.sivKeyBytes + data.length) hF
  omega

example : Accepted (slick256 0) ∧ (slick256 0).paddingFrame ≤ 256 ∧
    Accepted (chunky2048 0) ∧ (chunky2048 0).paddingFrame ≤ 256 :=
  ⟨.inl (slick256_accepted 0 (by decide)), by decide,
    .inr ⟨168, 168, _, zeroSample_drawn _, chunky2048_accepted 0 (by decide) _ (zeroSample_drawn _)⟩, by decide⟩

example : (0 : Int) ≤ 1700000 ∧ (1700000 : Int) < 256 ^ (slick256 0).timestampBytes ∧
    (List.replicate 8 (1 : UInt8)).length = (slick256 0).sivKeyBytes := by decide

/-- The shipped block cipher with eight extra padding blocks per message. -/
def slickEightBlocks : Sizes := { slick256 0 with minPaddingBlocks := 8 }

/-- C20 is false of the code for some accepted configurations: with a two-byte sentinel and a single byte of padding
the sentinel is cut off, its missing byte is read from the plaintext and another plaintext is returned. -/
theorem C20_truncated_sentinel :
    slickEightBlocks.acceptPermute = .ok () ∧
    ∃ sivKey extra data : Bytes, sivKey.length = slickEightBlocks.sivKeyBytes ∧
      extra.length = slickEightBlocks.paddingFrame ∧ data.length = 275 ∧
      ∃ padded wrong, slickEightBlocks.padPlaintext 0 sivKey extra data = .ok padded ∧
        slickEightBlocks.depadPlaintext 0 none padded = .ok wrong ∧ wrong.length = 19 ∧ wrong ≠ data := by
  refine ⟨by decide +kernel, List.replicate 8 0, List.replicate 288 0, List.replicate 275 1, by decide, ?_, ?_,
    List.replicate 12 0 ++ List.replicate 275 1 ++ [1], List.replicate 19 1, ?_, ?_, ?_, ?_⟩
  · rw [List.length_replicate]; rfl
  · rw [List.length_replicate]
  all_goals decide +kernel

/-! ### C25 -/

/-- C25. For an accepted configuration a byte string is accepted as a ciphertext iff it is longer than the header and
the rest is a multiple of the blocksize. -/
theorem C25_accepts_exactly {c : Sizes} (hacc : Accepted c) (data : Bytes) :
    (∃ parts, Ciphertext.parse c data = .ok parts) ↔
      c.shmacBytes + c.saltBytes + c.ivBytes < data.length ∧
      c.blocksize ∣ data.length - (c.shmacBytes + c.saltBytes + c.ivBytes) := by
  have hB := hacc.blocksize_pos
  rw [show c.shmacBytes + c.saltBytes + c.ivBytes = c.headerBytes from rfl]
  unfold Ciphertext.parse
  simp only
  have hiff : ((data.length : Int) - (c.headerBytes : Int) ≤ 0 ∨
      ((data.length : Int) - (c.headerBytes : Int)) % (c.blocksize : Int) ≠ 0) ↔
      ¬ (c.headerBytes < data.length ∧
        c.blocksize ∣ data.length - c.headerBytes) := by
    by_cases hlt : c.headerBytes < data.length
    · have he : (data.length : Int) - (c.headerBytes : Int)
          = ((data.length - c.headerBytes : Nat) : Int) := by omega
      rw [he, Nat.dvd_iff_mod_eq_zero, ← Int.natCast_emod]
      constructor
      · rintro (h | h) ⟨_, h2⟩ <;> omega
      · intro h
        right
        intro h2
        exact h ⟨hlt, by omega⟩
    · constructor
      · intro _ h; exact hlt h.1
      · intro _; left; omega
  by_cases h : c.headerBytes < data.length ∧
      c.blocksize ∣ data.length - c.headerBytes
  · rw [if_neg (fun g => hiff.1 g h)]
    exact ⟨fun _ => h, fun _ => ⟨_, rfl⟩⟩
  · rw [if_pos (hiff.2 h)]
    simp only [reduceCtorEq, exists_false, false_iff]
    exact h

/-- C25. The parts of an accepted ciphertext have the sizes of the header fields and a positive multiple of the
blocksize, and concatenate to the input in the order shmac, salt, iv, body; a refusal is `InvalidCiphertextSize`. -/
theorem C25_parts {c : Sizes} (hacc : Accepted c) (data : Bytes) :
    (∀ parts, Ciphertext.parse c data = .ok parts →
      data = parts.shmac ++ parts.salt ++ parts.iv ++ parts.ciphertext ∧
      parts.shmac.length = c.shmacBytes ∧ parts.salt.length = c.saltBytes ∧ parts.iv.length = c.ivBytes ∧
      0 < parts.ciphertext.length ∧ c.blocksize ∣ parts.ciphertext.length) ∧
    (∀ e, Ciphertext.parse c data = .error e → e = .ciphertextSize) := by
  constructor
  · intro parts h
    have hsz := (C25_accepts_exactly hacc data).1 ⟨parts, h⟩
    unfold Ciphertext.parse at h
    simp only at h
    split at h
    · cases h
    · cases h
      have hlen : (List.drop c.ivBytes (List.drop c.saltBytes (List.drop c.shmacBytes data))).length
          = data.length - (c.shmacBytes + c.saltBytes + c.ivBytes) := by
        simp only [List.length_drop]; omega
      refine ⟨by simp only [List.append_assoc, List.take_append_drop], by simp; omega, by simp; omega, by simp; omega, ?_, ?_⟩
      · show 0 < (List.drop c.ivBytes (List.drop c.saltBytes (List.drop c.shmacBytes data))).length
        omega
      · show c.blocksize ∣ (List.drop c.ivBytes (List.drop c.saltBytes (List.drop c.shmacBytes data))).length
        rw [hlen]; exact hsz.2
  · intro e h
    unfold Ciphertext.parse at h
    simp only at h
    split at h
    · cases h; rfl
    · cases h

example : Accepted (slick256 0) ∧ ∃ data parts, Ciphertext.parse (slick256 0) data = .ok parts ∧ data.length = 72 :=
  ⟨.inl (slick256_accepted 0 (by decide)), List.replicate 72 7, ⟨List.replicate 24 7, List.replicate 8 7,
    List.replicate 8 7, List.replicate 32 7⟩, by decide +kernel, by decide⟩

/-! ### C32 -/

/-- C32 for both constructors. An accepted configuration has a positive padding frame, a multiple of the blocksize, and
a non-empty sentinel that can encode the padding size of every plaintext. (Missing from C32: the inner header may be
larger than the frame, `C32_header_larger_than_frame`, and the sentinel may be cut off, `C20_truncated_sentinel`.) -/
theorem C32_frame_partial {c : Sizes} (hacc : Accepted c) :
    0 < c.paddingFrame ∧ c.blocksize ∣ c.paddingFrame ∧ 0 < c.sentinelBytes ∧
    ∀ size, ∃ padding sentinel, c.dataMeasurements size = .ok (padding, sentinel) ∧
      sentinel.length = c.sentinelBytes ∧ 0 < padding ∧ padding ≤ c.paddingFrame ∧
      fromBE sentinel = if padding = c.paddingFrame then 0 else padding := by
  have hF := hacc.frame_pos
  refine ⟨hF, ⟨_, rfl⟩, Sizes.sentinelBytes_pos hF, ?_⟩
  intro size
  have hb := Sizes.padSize_bounds hF size
  refine ⟨_, _, Sizes.dataMeasurements_eq hF size, by simp, hb.1, hb.2.1, ?_⟩
  rw [fromBE_beDigits_of_lt (Nat.lt_of_lt_of_le (Nat.mod_lt _ hF) c.paddingFrame_le_sentinel)]
  split
  · rename_i h; rw [h, Nat.mod_self]
  · rw [Nat.mod_eq_of_lt (by omega)]

/-- C32 for the shake-permute ciphers. In every digest of the hash object the in-key, the out-key (one block each) and
the fed-back remainder (at least 32 bytes) cover every byte exactly once, and the first digest and the key of the
permutation are cut from different bytes of the primer key. -/
theorem C32_permute_slices_partial {c : Sizes} (hacc : c.acceptPermute = .ok ()) :
    (∀ digest : Bytes, digest.length = c.shmacBlocksize →
      c.inKeySlice.of digest ++ c.outKeySlice.of digest ++ c.permutationDigestSlice.of digest = digest ∧
      (c.inKeySlice.of digest).length = c.blocksize ∧ (c.outKeySlice.of digest).length = c.blocksize ∧
      32 ≤ (c.permutationDigestSlice.of digest).length) ∧
    ∃ keyBytes, Sizes.permutationKeySize c.blocksize = .ok keyBytes ∧ 0 < keyBytes ∧
      ∀ primer : Bytes, primer.length = c.primerKeyBytes keyBytes →
        ∃ unused, primer = c.firstDigestSlice.of primer ++ unused ++ (Sizes.permutationKeySlice keyBytes).of primer ∧
          (c.firstDigestSlice.of primer).length = c.shmacBlocksize ∧
          ((Sizes.permutationKeySlice keyBytes).of primer).length = keyBytes := by
  obtain ⟨hm, _, h1, _, h3, _⟩ := Sizes.acceptPermute_ok.1 hacc
  have hpos := (Sizes.permutationSizes_pos hm).1
  constructor
  · intro d hd
    have e1 : c.inKeySlice.of d = d.take c.blocksize := by unfold Sizes.inKeySlice; rw [slice_zero_nat]
    have e2 : c.outKeySlice.of d = (d.drop c.blocksize).take c.blocksize := by
      unfold Sizes.outKeySlice
      rw [show (2 * (c.blocksize : Int)) = ((2 * c.blocksize : Nat) : Int) by omega, slice_nat_nat, List.drop_take]
      congr 1; omega
    have e3 : c.permutationDigestSlice.of d = d.drop (2 * c.blocksize) := by
      unfold Sizes.permutationDigestSlice
      rw [show (2 * (c.blocksize : Int)) = ((2 * c.blocksize : Nat) : Int) by omega, slice_nat_nat,
        List.take_of_length_le (by omega)]
    rw [e1, e2, e3]
    refine ⟨?_, by rw [List.length_take]; omega, by rw [List.length_take, List.length_drop]; omega,
      by rw [List.length_drop]; omega⟩
    rw [List.append_assoc, show 2 * c.blocksize = c.blocksize + c.blocksize by omega, ← List.drop_drop,
      List.take_append_drop, List.take_append_drop]
  · refine ⟨_, Sizes.permutationKeySize_ok.2 ⟨hm, rfl⟩, by omega, ?_⟩
    intro p hp
    have hge := ceilDiv_mul_ge (5 * c.blocksize) c.shmacBlocksize (by omega)
    have hpl : p.length = c.shmacBlocksize + c.shmacBlocksize * ceilDiv (5 * c.blocksize) c.shmacBlocksize := by
      rw [hp, Sizes.primerKeyBytes, Nat.mul_add, Nat.mul_one]
    have e1 : c.firstDigestSlice.of p = p.take c.shmacBlocksize := by unfold Sizes.firstDigestSlice; rw [slice_zero_nat]
    have e2 : (Sizes.permutationKeySlice (5 * c.blocksize)).of p = p.drop (p.length - 5 * c.blocksize) := by
      unfold Sizes.permutationKeySlice; rw [slice_neg_none _ _ (by omega)]
    rw [e1, e2]
    refine ⟨(p.take (p.length - 5 * c.blocksize)).drop c.shmacBlocksize, ?_, by rw [List.length_take]; omega,
      by rw [List.length_drop]; omega⟩
    have : p.take c.shmacBlocksize = (p.take (p.length - 5 * c.blocksize)).take c.shmacBlocksize := by
      rw [List.take_take, Nat.min_eq_left (by omega)]
    rw [this, List.take_append_drop, List.take_append_drop]

/-- C32 for the dual-output ciphers. Of every key the left capacity, the part that encrypts the block and the right
capacity cover every byte exactly once; the encrypting part has the size of the block and both capacities are non-empty
and equally long; the part that encrypts the content of the first block lies inside of the encrypting part and fits the
content; the header fits into the block and, twice, into a digest. -/
theorem C32_dual_slices_partial {c : Sizes} {l r : Nat} {s : Sizes.SivSample} (hs : s.Drawn c)
    (hacc : c.acceptDual l r s = .ok ()) :
    0 < c.innerHeaderBytes ∧ c.innerHeaderBytes ≤ c.blocksize ∧ 2 * c.innerHeaderBytes ≤ c.shmacBlocksize ∧
    ∀ key : Bytes, key.length = c.shmacDoubleBlocksize →
      c.embeddedLeftSlice.of key ++ c.embeddedCiphertextSlice.of key ++ c.embeddedRightSlice.of key = key ∧
      (c.embeddedCiphertextSlice.of key).length = c.blocksize ∧
      0 < (c.embeddedLeftSlice.of key).length ∧
      (c.embeddedLeftSlice.of key).length = (c.embeddedRightSlice.of key).length ∧
      (c.firstKeySlice.of key).length = c.blocksize - c.innerHeaderBytes ∧
      ∃ before after : Bytes, before.length = after.length ∧
        c.embeddedCiphertextSlice.of key = before ++ c.firstKeySlice.of key ++ after := by
  obtain ⟨hm, _, g1, g2, _, _, _, _, _, g3, g4, g5⟩ := Sizes.acceptDual_ok hs hacc
  have hwf : c.DualWF := ⟨g1, g2, (Sizes.permutationSizes_pos hm).1, g3, g4, g5⟩
  refine ⟨hwf.header_pos, g3, g5, ?_⟩
  intro key hk
  have hcap := hwf.cap_eq
  refine ⟨?_, hwf.length_ciphertext hk, ?_, ?_, hwf.length_first_key hk, ?_⟩
  · rw [hwf.left_eq, hwf.ciphertext_eq hk, hwf.right_eq hk, List.append_assoc, ← List.drop_drop,
      List.take_append_drop, List.take_append_drop]
  · rw [hwf.length_left hk]; omega
  · rw [hwf.length_left hk, hwf.length_right hk]
  · rw [hwf.ciphertext_eq hk, hwf.first_key_eq hk]
    refine ⟨(key.drop c.cap).take (c.innerHeaderBytes / 2),
      ((key.drop c.cap).take c.blocksize).drop (c.blocksize - c.innerHeaderBytes / 2), ?_, ?_⟩
    · simp only [List.length_take, List.length_drop]; omega
    · have e1 : ((key.drop (c.cap + c.innerHeaderBytes / 2)).take (c.blocksize - c.innerHeaderBytes))
          = (((key.drop c.cap).take c.blocksize).drop (c.innerHeaderBytes / 2)).take
              (c.blocksize - c.innerHeaderBytes) := by
        rw [← List.drop_drop, List.drop_take, List.take_take, Nat.min_eq_left (by omega)]
      have e2 : (key.drop c.cap).take (c.innerHeaderBytes / 2)
          = ((key.drop c.cap).take c.blocksize).take (c.innerHeaderBytes / 2) := by
        rw [List.take_take, Nat.min_eq_left (by omega)]
      rw [e1, e2]
      generalize (key.drop c.cap).take c.blocksize = x
      have e3 : x.drop (c.blocksize - c.innerHeaderBytes / 2)
          = (x.drop (c.innerHeaderBytes / 2)).drop (c.blocksize - c.innerHeaderBytes) := by
        rw [List.drop_drop]; congr 1; omega
      rw [e3, List.append_assoc, List.take_append_drop, List.take_append_drop]

/-- Slick256 with a 40-byte siv-key. -/
def slickLongHeader : Sizes := { slick256 0 with sivKeyBytes := 40 }

/-- A dual-output cipher whose inner header fills its block. -/
def dualFullHeader : Sizes := { chunky2048 0 with blocksize := 32, sivKeyBytes := 28 }

/-- C32 is false in one clause: both constructors accept configurations whose inner header is not smaller than the
padding frame (the check works modulo the blocksize). -/
theorem C32_header_larger_than_frame :
    (slickLongHeader.acceptPermute = .ok () ∧ slickLongHeader.innerHeaderBytes = 44 ∧ slickLongHeader.paddingFrame = 32) ∧
    (∃ s, s.Drawn dualFullHeader ∧ dualFullHeader.acceptDual 168 168 s = .ok ()) ∧
      dualFullHeader.innerHeaderBytes = 32 ∧ dualFullHeader.paddingFrame = 32 := by
  refine ⟨by decide +kernel, ⟨zeroSample _, zeroSample_drawn _, ?_⟩, by decide, by decide⟩
  decide +kernel

end Aiootp.Cipher
