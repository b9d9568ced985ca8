import Verif.Model.Padding
import Verif.Lemmas.CipherConfig

namespace Aiootp.Cipher

namespace Sizes

/-- The number of bytes of end padding that a plaintext of `n` bytes gets. -/
def padSize (c : Sizes) (n : Nat) : Nat := c.paddingFrame - (c.innerHeaderBytes + n) % c.paddingFrame

theorem padSize_bounds {c : Sizes} (hF : 0 < c.paddingFrame) (n : Nat) :
    0 < c.padSize n ∧ c.padSize n ≤ c.paddingFrame ∧
      (c.innerHeaderBytes + n + c.padSize n) % c.paddingFrame = 0 := by
  have := Nat.mod_lt (c.innerHeaderBytes + n) hF
  refine ⟨by unfold padSize; omega, by unfold padSize; omega, ?_⟩
  have hd := Nat.div_add_mod (c.innerHeaderBytes + n) c.paddingFrame
  have : c.innerHeaderBytes + n + c.padSize n
      = c.paddingFrame * ((c.innerHeaderBytes + n) / c.paddingFrame + 1) := by
    rw [Nat.mul_add, Nat.mul_one]
    unfold padSize
    omega
  rw [this]
  exact Nat.mul_mod_right _ _

theorem dataMeasurements_eq {c : Sizes} (hF : 0 < c.paddingFrame) (n : Nat) :
    c.dataMeasurements n
      = .ok (c.padSize n, beDigits c.sentinelBytes (c.padSize n % c.paddingFrame)) := by
  unfold dataMeasurements
  rw [if_neg (by omega)]
  have h : c.padSize n % c.paddingFrame < 256 ^ c.sentinelBytes :=
    Nat.lt_of_lt_of_le (Nat.mod_lt _ hF) c.paddingFrame_le_sentinel
  unfold padSize at h ⊢
  unfold toBytesBE
  simp only [h, if_true]
  rfl

/-- The end padding consists of the last `padSize` bytes of the random bytes followed by the sentinel. -/
theorem endPadding_eq {c : Sizes} (hF : 0 < c.paddingFrame) (extra : Bytes) (n : Nat) :
    c.endPadding extra n = .ok ((extra ++ beDigits c.sentinelBytes (c.padSize n % c.paddingFrame)).drop
      (extra.length + c.sentinelBytes - c.padSize n)) := by
  unfold endPadding
  rw [dataMeasurements_eq hF]
  simp only [bind, Except.bind, pure, Except.pure]
  rw [slice_neg_none _ _ (padSize_bounds hF n).1]
  simp

theorem length_endPadding {c : Sizes} (hF : 0 < c.paddingFrame) {extra : Bytes}
    (he : extra.length = c.paddingFrame) {n : Nat} {p : Bytes} (h : c.endPadding extra n = .ok p) :
    p.length = c.padSize n := by
  rw [endPadding_eq hF] at h
  cases h
  have := padSize_bounds hF n
  simp
  omega

theorem startPadding_ok {c : Sizes} {reading : Int} {sivKey p : Bytes} :
    c.startPadding reading sivKey = .ok p ↔
      0 ≤ reading ∧ reading < 256 ^ c.timestampBytes ∧ p = beDigits c.timestampBytes reading.toNat ++ sivKey := by
  unfold startPadding
  simp only [bind_eq_ok, Clock.makeTimestamp]
  by_cases hr : reading < 0
  · simp only [hr, if_true]
    constructor
    · rintro ⟨_, h, _⟩; cases h
    · rintro ⟨h, _⟩; omega
  · simp only [hr, if_false, toBytesBE_ok]
    have hcast : reading.toNat < 256 ^ c.timestampBytes ↔ reading < 256 ^ c.timestampBytes := by
      have h1 : ((256 ^ c.timestampBytes : Nat) : Int) = 256 ^ c.timestampBytes := by
        rw [Int.natCast_pow]; rfl
      rw [← h1]
      omega
    constructor
    · rintro ⟨a, ⟨h1, rfl⟩, h2⟩
      cases h2
      exact ⟨by omega, hcast.1 h1, rfl⟩
    · rintro ⟨_, h1, rfl⟩
      exact ⟨_, ⟨hcast.2 h1, rfl⟩, rfl⟩

/-- With a sentinel that was not cut off, the end index finds the end of the data. -/
theorem depaddingEndIndex_eq {c : Sizes} (hF : 0 < c.paddingFrame) {extra pre p : Bytes} {n : Nat}
    (hlen : extra.length = c.paddingFrame)
    (hs : c.sentinelBytes ≤ c.padSize n) (h : c.endPadding extra n = .ok p) :
    c.depaddingEndIndex (pre ++ p) = -(c.padSize n : Int) := by
  have hb := padSize_bounds hF n
  have hS := sentinelBytes_pos hF
  have hp := length_endPadding hF hlen h
  rw [endPadding_eq hF] at h
  cases h
  unfold depaddingEndIndex
  have hsent : c.sentinelSlice.of (pre ++ (extra ++ beDigits c.sentinelBytes (c.padSize n % c.paddingFrame)).drop
      (extra.length + c.sentinelBytes - c.padSize n)) = beDigits c.sentinelBytes (c.padSize n % c.paddingFrame) := by
    unfold sentinelSlice
    rw [slice_neg_none _ _ hS]
    rw [List.drop_append_of_le_length (l₁ := extra) (by omega)]
    rw [← List.append_assoc]
    apply List.drop_left'
    simp
    omega
  rw [hsent, fromBE_beDigits_of_lt (Nat.lt_of_lt_of_le (Nat.mod_lt _ hF) c.paddingFrame_le_sentinel)]
  simp only
  by_cases he : c.padSize n = c.paddingFrame
  · rw [he, Nat.mod_self]; simp
  · rw [Nat.mod_eq_of_lt (by omega)]
    rw [if_neg (by omega)]

theorem depad_pad {c : Sizes} (hF : 0 < c.paddingFrame) {reading now : Int} {sivKey extra data p : Bytes}
    {ttl : Option Int} (hsiv : sivKey.length = c.sivKeyBytes) (he : extra.length = c.paddingFrame)
    (hs : c.sentinelBytes ≤ c.padSize data.length)
    (h : c.padPlaintext reading sivKey extra data = .ok p) :
    c.depadPlaintext now ttl p
      = (Clock.testTimestamp now (beDigits c.timestampBytes reading.toNat) ttl .big).map (fun _ => data) := by
  unfold padPlaintext at h
  simp only [bind_eq_ok] at h
  obtain ⟨st, hst, en, hen, h⟩ := h
  cases h
  have hlen := length_endPadding hF he hen
  have hb := padSize_bounds hF data.length
  obtain ⟨h0, h1, rfl⟩ := startPadding_ok.1 hst
  unfold depadPlaintext
  rw [depaddingEndIndex_eq hF he hs hen]
  have hts : c.timestampSlice.of (beDigits c.timestampBytes reading.toNat ++ sivKey ++ data ++ en)
      = beDigits c.timestampBytes reading.toNat := by
    unfold timestampSlice
    rw [slice_zero_nat]
    simp
  rw [hts]
  cases Clock.testTimestamp now (beDigits c.timestampBytes reading.toNat) ttl .big with
  | error e => rfl
  | ok _ =>
    simp only [bind, Except.bind, pure, Except.pure, Except.map]
    unfold depaddingStartIndex
    rw [slice_nat_neg _ _ _ hb.1]
    congr 1
    rw [List.take_left' (by simp; omega)]
    apply List.drop_left'
    simp [innerHeaderBytes, hsiv]

end Sizes

end Aiootp.Cipher
