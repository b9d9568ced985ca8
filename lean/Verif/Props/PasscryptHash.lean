import Verif.Spec.Passcrypt
import Verif.Lemmas.Py
import Verif.Lemmas.Cipher

/-!
C47: passcrypt hashes are exported and imported faithfully.
-/

namespace Aiootp.Passcrypt

theorem validateSettings_ok {c : Config} {mb cpu cores t s : Nat} {u : Unit} : c.validateSettings mb cpu cores t s = .ok u ↔
    (c.minMb ≤ mb ∧ mb ≤ c.maxMb) ∧ (c.minCpu ≤ cpu ∧ cpu ≤ c.maxCpu) ∧ (c.minCores ≤ cores ∧ cores ≤ c.maxCores) ∧ c.minTagSize ≤ t ∧
      (c.minSaltSize ≤ s ∧ s ≤ c.maxSaltSize) := by
  simp only [Config.validateSettings, bind_eq_ok, raiseIf_ok, Decidable.not_not, exists_const]

theorem validateSettings_error {c : Config} {mb cpu cores t s : Nat} {e : Err} (h : c.validateSettings mb cpu cores t s = .error e) : e = .value := by
  simp only [Config.validateSettings, raiseIf] at h
  repeat' split at h
  all_goals first | (injection h with h; exact h.symm) | cases h

theorem make_ok {c : Config} {ts : Bytes} {mb cpu cores : Nat} {salt tag : Bytes} {h : Hash} : Hash.make c ts mb cpu cores salt tag = .ok h ↔
    h.Valid c ∧ h = ⟨ts, mb, cpu, cores, salt, tag⟩ := by
  simp only [Hash.make, bind_eq_ok, validateSettings_ok]
  constructor
  · rintro ⟨_, ⟨h1, h2, h3, h4, h5⟩, h6⟩
    injection h6 with h6
    subst h6
    exact ⟨⟨h1, h2, h3, h4, h5⟩, rfl⟩
  · rintro ⟨h1, rfl⟩
    exact ⟨(), ⟨h1.mb, h1.cpu, h1.cores, h1.tag, h1.salt⟩, rfl⟩

theorem predToBytes_ok {s n : Nat} {b : Bytes} : predToBytes s n = .ok b ↔ b.length = s ∧ fromBE b + 1 = n := by
  unfold predToBytes
  split
  · rename_i h
    constructor
    · intro h; cases h
    · rintro ⟨_, h⟩; omega
  · rw [toBytesBE_ok]
    constructor
    · rintro ⟨h1, rfl⟩
      exact ⟨by simp, by rw [fromBE_beDigits_of_lt h1]; omega⟩
    · rintro ⟨rfl, rfl⟩
      exact ⟨fromBE_lt b, by simpa using (beDigits_fromBE b).symm⟩

/-- **C47** `export_hash` writes the format. -/
theorem C47_export {c : Config} (hc : c.WF) {h : Hash} (hv : h.Valid c) : ∃ b, exportHash c h = .ok b ∧ Layout c h b := by
  have get : ∀ s n M m : Nat, 1 ≤ m → M ≤ 256 ^ s → m ≤ n → n ≤ M → ∃ b, predToBytes s n = .ok b := by
    intro s n M m h1 h2 h3 h4
    have hb : (beDigits s (n - 1)).length = s := by simp
    have hlt : n - 1 < 256 ^ s := by omega
    exact ⟨beDigits s (n - 1), predToBytes_ok.2 ⟨hb, by rw [fromBE_beDigits_of_lt hlt]; omega⟩⟩
  obtain ⟨mb, hmb⟩ := get _ h.mb _ _ hc.mb.1 hc.mb.2 hv.mb.1 hv.mb.2
  obtain ⟨cpu, hcpu⟩ := get _ h.cpu _ _ hc.cpu.1 hc.cpu.2 hv.cpu.1 hv.cpu.2
  obtain ⟨cores, hcores⟩ := get _ h.cores _ _ hc.cores.1 hc.cores.2 hv.cores.1 hv.cores.2
  obtain ⟨size, hsize⟩ := get _ h.salt.length _ _ hc.salt.1 hc.salt.2 hv.salt.1 hv.salt.2
  refine ⟨h.timestamp ++ mb ++ cpu ++ cores ++ size ++ h.salt ++ h.tag, ?_, mb, cpu, cores, size, rfl, predToBytes_ok.1 hmb, predToBytes_ok.1 hcpu,
    predToBytes_ok.1 hcores, predToBytes_ok.1 hsize⟩
  simp only [exportHash, bind_eq_ok, raiseIf_ok]
  exact ⟨mb, hmb, cpu, hcpu, cores, hcores, (), by have := hv.salt.1; have := hc.salt.1; omega, size, hsize, rfl⟩

theorem layout_unique {c : Config} {h : Hash} {b b' : Bytes} (hb : Layout c h b) (hb' : Layout c h b') : b = b' := by
  obtain ⟨m, p, q, s, rfl, ⟨hm, hm'⟩, ⟨hp, hp'⟩, ⟨hq, hq'⟩, hs, hs'⟩ := hb
  obtain ⟨m2, p2, q2, s2, rfl, ⟨hm2, hm2'⟩, ⟨hp2, hp2'⟩, ⟨hq2, hq2'⟩, hs2, hs2'⟩ := hb'
  rw [fromBE_inj (hm.trans hm2.symm) (by omega), fromBE_inj (hp.trans hp2.symm) (by omega), fromBE_inj (hq.trans hq2.symm) (by omega),
    fromBE_inj (hs.trans hs2.symm) (by omega)]

/-- What has the format and is valid can be imported, whatever the limits are. -/
theorem importHash_layout {c : Config} {b : Bytes} {h : Hash} (hv : h.Valid c) (ht : h.timestamp.length = c.timestampBytes) (hl : Layout c h b) :
    importHash c b = .ok h := by
  obtain ⟨m, p, q, s, rfl, ⟨hm, hm'⟩, ⟨hp, hp'⟩, ⟨hq, hq'⟩, hs, hs'⟩ := hl
  simp only [importHash, make_ok]
  refine ⟨hv, ?_⟩
  have e0 : (h.timestamp ++ m ++ p ++ q ++ s ++ h.salt ++ h.tag).take c.timestampBytes = h.timestamp := by
    simp only [List.append_assoc]; exact List.take_left' ht
  have e0' : (h.timestamp ++ m ++ p ++ q ++ s ++ h.salt ++ h.tag).drop c.timestampBytes = m ++ p ++ q ++ s ++ h.salt ++ h.tag := by
    simp only [List.append_assoc]; exact List.drop_left' ht
  have e1 : (m ++ p ++ q ++ s ++ h.salt ++ h.tag).take c.mbBytes = m := by
    simp only [List.append_assoc]; exact List.take_left' hm
  have e1' : (m ++ p ++ q ++ s ++ h.salt ++ h.tag).drop c.mbBytes = p ++ q ++ s ++ h.salt ++ h.tag := by
    simp only [List.append_assoc]; exact List.drop_left' hm
  have e2 : (p ++ q ++ s ++ h.salt ++ h.tag).take c.cpuBytes = p := by
    simp only [List.append_assoc]; exact List.take_left' hp
  have e2' : (p ++ q ++ s ++ h.salt ++ h.tag).drop c.cpuBytes = q ++ s ++ h.salt ++ h.tag := by
    simp only [List.append_assoc]; exact List.drop_left' hp
  have e3 : (q ++ s ++ h.salt ++ h.tag).take c.coresBytes = q := by
    simp only [List.append_assoc]; exact List.take_left' hq
  have e3' : (q ++ s ++ h.salt ++ h.tag).drop c.coresBytes = s ++ h.salt ++ h.tag := by
    simp only [List.append_assoc]; exact List.drop_left' hq
  have e4 : (s ++ h.salt ++ h.tag).take c.saltSizeBytes = s := by
    simp only [List.append_assoc]; exact List.take_left' hs
  have e4' : (s ++ h.salt ++ h.tag).drop c.saltSizeBytes = h.salt ++ h.tag := by
    simp only [List.append_assoc]; exact List.drop_left' hs
  rw [e0, e0', e1, e1', e2, e2', e3, e3', e4, e4', hm', hp', hq', hs', List.take_left' rfl, List.drop_left' rfl]

/-- **C47** `import_hash` accepts exactly the byte strings in the format whose values are within the limits, and gives these values back. -/
theorem C47_import {c : Config} (hc : c.WF) (b : Bytes) (h : Hash) :
    importHash c b = .ok h ↔ h.Valid c ∧ h.timestamp.length = c.timestampBytes ∧ Layout c h b := by
  constructor
  · intro hi
    simp only [importHash, make_ok] at hi
    obtain ⟨hv, hh⟩ := hi
    have htag := hv.tag
    have := hc.tag
    rw [hh] at htag
    simp only [List.length_drop] at htag
    refine ⟨hv, ?_, ?_⟩
    · rw [hh]; simp only [List.length_take]; omega
    · generalize hd0 : b.drop c.timestampBytes = d0 at hh
      generalize hd1 : d0.drop c.mbBytes = d1 at hh
      generalize hd2 : d1.drop c.cpuBytes = d2 at hh
      generalize hd3 : d2.drop c.coresBytes = d3 at hh
      generalize hd4 : d3.drop c.saltSizeBytes = d4 at hh
      subst hd4 hd3 hd2 hd1 hd0
      subst hh
      refine ⟨(b.drop c.timestampBytes).take c.mbBytes, ((b.drop c.timestampBytes).drop c.mbBytes).take c.cpuBytes,
        (((b.drop c.timestampBytes).drop c.mbBytes).drop c.cpuBytes).take c.coresBytes,
        ((((b.drop c.timestampBytes).drop c.mbBytes).drop c.cpuBytes).drop c.coresBytes).take c.saltSizeBytes, ?_, ⟨?_, rfl⟩, ⟨?_, rfl⟩, ⟨?_, rfl⟩,
        ⟨?_, ?_⟩⟩
      · simp only [List.append_assoc, List.take_append_drop]
      · simp only [List.length_take, List.length_drop]; omega
      · simp only [List.length_take, List.length_drop]; omega
      · simp only [List.length_take, List.length_drop]; omega
      · simp only [List.length_take, List.length_drop]; omega
      · simp only [List.length_take, List.length_drop]; omega
  · rintro ⟨hv, ht, hl⟩
    exact importHash_layout hv ht hl

/-- **C47** What was exported is imported. -/
theorem C47_round_trip {c : Config} (hc : c.WF) {h : Hash} (hv : h.Valid c) (ht : h.timestamp.length = c.timestampBytes) :
    ∃ b, exportHash c h = .ok b ∧ importHash c b = .ok h := by
  obtain ⟨b, hb, hl⟩ := C47_export hc hv
  exact ⟨b, hb, (C47_import hc b h).2 ⟨hv, ht, hl⟩⟩

/-- **C47** What was imported is exported; everything else is refused with `ValueError`. -/
theorem C47_export_import {c : Config} (hc : c.WF) (b : Bytes) :
    (∃ h, importHash c b = .ok h ∧ exportHash c h = .ok b) ∨ importHash c b = .error .value := by
  cases hi : importHash c b with
  | error e =>
    right
    simp only [importHash, Hash.make] at hi
    cases hv : c.validateSettings _ _ _ _ _ with
    | error e' =>
      rw [hv] at hi
      have := validateSettings_error hv
      subst this
      injection hi with hi
      rw [← hi]
    | ok u => rw [hv] at hi; cases hi
  | ok h =>
    left
    obtain ⟨hv, _, hl⟩ := (C47_import hc b h).1 hi
    obtain ⟨b', hb', hl'⟩ := C47_export hc hv
    exact ⟨h, rfl, by rw [hb', layout_unique hl hl']⟩

/-- **C47** A hash object with a timestamp of another size is exported, but not faithfully: the size of the timestamp is not checked. -/
theorem C47_timestamp_size : ∃ h h' b, Hash.make (spec []) h.timestamp h.mb h.cpu h.cores h.salt h.tag = .ok h ∧ exportHash (spec []) h = .ok b ∧
    importHash (spec []) b = .ok h' ∧ h' ≠ h :=
  ⟨⟨[], 1, 1, 1, [0, 0, 0, 3, 1, 1, 1, 3], List.replicate 30 7⟩, ⟨[0, 0, 0, 0, 0, 7, 0, 0], 770, 2, 2, [7, 7, 7, 7], List.replicate 26 7⟩,
    [0, 0, 0, 0, 0, 7, 0, 0, 0, 3, 1, 1, 1, 3] ++ List.replicate 30 7, by decide, by decide, by decide, by decide⟩

/-! ### a sample -/

/-- A hash with the default settings. -/
def sampleHash : Hash := ⟨[0, 0, 0, 0, 0, 0, 3, 232], 64, 1, 4, [1, 2, 3, 4, 5, 6, 7, 8], List.replicate 16 9⟩

theorem sampleHash_valid (packedMetadata : Bytes) : sampleHash.Valid (spec packedMetadata) := by
  constructor <;> simp [spec, sampleHash]

example : ∃ b, exportHash (spec []) sampleHash = .ok b ∧ importHash (spec []) b = .ok sampleHash :=
  C47_round_trip (spec_wf _) (sampleHash_valid _) rfl

example : importHash (spec []) [1, 2, 3] = .error .value := by decide

end Aiootp.Passcrypt
