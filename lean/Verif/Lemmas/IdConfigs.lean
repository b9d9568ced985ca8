import Verif.Lemmas.Ids
import Verif.Lemmas.Cipher
import Verif.Spec.IdConfigs

namespace Aiootp.Ids

open Perm

theorem nextTick_mod (c : RawConfig) (t : Nat) : nextTick c t = (t + 1) % 256 ^ c.tickerBytes := by
  unfold nextTick RawConfig.tickDomain
  rw [← two_pow_eight]
  exact Nat.and_two_pow_sub_one_eq_mod (t + 1) (8 * c.tickerBytes)

theorem RawConfig.new_ok {t p n k s : Nat} {c : RawConfig} (h : RawConfig.new t p n k s = .ok c) :
    c.size = c.timestampBytes + c.prfBytes + c.nodeIdBytes + c.tickerBytes ∧ 0 < c.tickerBytes := by
  unfold RawConfig.new at h
  split at h
  · cases h
  · split at h
    · cases h
    · rename_i h1 h2
      cases h
      exact ⟨by simpa using h2, by simp only; omega⟩

/-- The raw guid of a call of an object of any configuration. -/
def rawBytesOf (c : RawConfig) (time : Nat) (token nodeId : Bytes) (tick : Nat) : Bytes :=
  beDigits c.timestampBytes time ++ token ++ nodeId ++ beDigits c.tickerBytes tick

theorem RawGuid.make_any {g : RawGuid} {time : Nat} {token : Bytes} (ht : time < 256 ^ g.config.timestampBytes) :
    g.make time token = .ok (rawBytesOf g.config time token g.nodeId ((g.tick + 1) % 256 ^ g.config.tickerBytes),
      { g with tick := (g.tick + 1) % 256 ^ g.config.tickerBytes }) := by
  have h1 : (g.tick + 1) % 256 ^ g.config.tickerBytes < 256 ^ g.config.tickerBytes := Nat.mod_lt _ (Nat.pow_pos (by omega))
  unfold RawGuid.make
  rw [nextTick_mod]
  simp only [toBytesBE, if_pos ht, if_pos h1, bind, Except.bind, pure, Except.pure]
  rfl

theorem RawGuid.make_late {g : RawGuid} {time : Nat} {token : Bytes} (ht : ¬ time < 256 ^ g.config.timestampBytes) :
    g.make time token = .error .overflow := by
  unfold RawGuid.make
  simp only [toBytesBE, if_neg ht, bind, Except.bind]

theorem CustomGuid.make_fst {g : CustomGuid} {time : Nat} {token : Bytes} :
    (g.make time token).1 = if time < 256 ^ g.raw.config.timestampBytes
      then { g with raw := { g.raw with tick := (g.raw.tick + 1) % 256 ^ g.raw.config.tickerBytes } } else g := by
  unfold CustomGuid.make
  by_cases ht : time < 256 ^ g.raw.config.timestampBytes
  · rw [RawGuid.make_any ht, if_pos ht]
  · rw [RawGuid.make_late ht, if_neg ht]

theorem CustomGuid.after_eq (calls : List (Nat × Bytes)) {g : CustomGuid} (h : g.raw.tick < 256 ^ g.raw.config.tickerBytes) :
    g.after calls = { g with raw := { g.raw with
      tick := (g.raw.tick + countedCalls g.raw.config.timestampBytes calls) % 256 ^ g.raw.config.tickerBytes } } := by
  induction calls generalizing g with
  | nil =>
    show g = _
    simp only [countedCalls, List.filter_nil, List.length_nil, Nat.add_zero]
    rw [Nat.mod_eq_of_lt h]
  | cons c calls ih =>
    obtain ⟨time, token⟩ := c
    rw [CustomGuid.after, CustomGuid.make_fst]
    by_cases ht : time < 256 ^ g.raw.config.timestampBytes
    · rw [if_pos ht, ih (by exact Nat.mod_lt _ (Nat.pow_pos (by omega)))]
      have hc : countedCalls g.raw.config.timestampBytes ((time, token) :: calls)
          = countedCalls g.raw.config.timestampBytes calls + 1 := by
        simp [countedCalls, ht]
      simp only [hc]
      rw [Nat.mod_add_mod, show g.raw.tick + 1 + countedCalls g.raw.config.timestampBytes calls
        = g.raw.tick + (countedCalls g.raw.config.timestampBytes calls + 1) by omega]
    · rw [if_neg ht, ih h]
      have hc : countedCalls g.raw.config.timestampBytes ((time, token) :: calls)
          = countedCalls g.raw.config.timestampBytes calls := by
        simp [countedCalls, ht]
      rw [hc]

theorem RawGuid.init_ok {R : Registries} {nodeId : Bytes} {id : ConfigId} {raw : RawGuid}
    (h : RawGuid.init R nodeId id = .ok raw) :
    ∃ c, R.raw id = some c ∧ raw = { config := c, nodeId, tick := 0 } ∧ nodeId.length = c.nodeIdBytes := by
  unfold RawGuid.init at h
  simp only [bind_eq_ok] at h
  obtain ⟨c, hc, h⟩ := h
  unfold lookup at hc
  split at hc
  · rename_i x hx
    cases hc
    split at h
    · cases h
    · rename_i hn
      cases h
      exact ⟨_, hx, rfl, by simpa using hn⟩
  · cases hc

theorem CustomGuid.init_ok {R : Registries} {config : GuidConfig} {key : Option Bytes} {nodeId : Bytes} {g : CustomGuid}
    (h : CustomGuid.init R config key nodeId = .ok g) :
    ∃ c a, R.raw config.configId = some c ∧ R.chain config.permutationId = some a ∧ nodeId.length = c.nodeIdBytes ∧
      Chain.new true a (if (key.getD []).isEmpty then config.defaultKey else key.getD []) = .ok g.permutation ∧
      g.config = config ∧ g.raw = { config := c, nodeId, tick := 0 } := by
  unfold CustomGuid.init at h
  simp only [bind_eq_ok] at h
  obtain ⟨raw, hraw, inner, hin, perm, hperm, he⟩ := h
  obtain ⟨c, hc, hr, hn⟩ := RawGuid.init_ok hraw
  unfold lookup at hin
  split at hin
  · rename_i x hx
    cases hin
    cases he
    exact ⟨c, _, hc, hx, hn, hperm, rfl, hr⟩
  · cases hin

theorem length_rawBytesOf {c : RawConfig} {time tick : Nat} {token nodeId : Bytes} :
    (rawBytesOf c time token nodeId tick).length = c.timestampBytes + token.length + nodeId.length + c.tickerBytes := by
  simp only [rawBytesOf, List.length_append, length_beDigits]

theorem rawRead_rawBytesOf {c : RawConfig} {time tick : Nat} {token node : Bytes}
    (hs : c.size = c.timestampBytes + c.prfBytes + c.nodeIdBytes + c.tickerBytes)
    (hk : token.length = c.prfBytes) (hn : node.length = c.nodeIdBytes) :
    rawRead c (rawBytesOf c time token node tick)
      = .ok { timestamp := beDigits c.timestampBytes time, token := token, nodeId := node, ticker := beDigits c.tickerBytes tick } := by
  have hl : (rawBytesOf c time token node tick).length = c.size := by rw [length_rawBytesOf, hk, hn, hs]
  unfold rawRead
  rw [if_neg (by simpa using hl)]
  have e1 : rawBytesOf c time token node tick = beDigits c.timestampBytes time ++ (token ++ (node ++ beDigits c.tickerBytes tick)) := by
    simp [rawBytesOf]
  have d1 : (rawBytesOf c time token node tick).drop c.timestampBytes = token ++ (node ++ beDigits c.tickerBytes tick) := by
    rw [e1, List.drop_left' (length_beDigits _ _)]
  have d2 : (rawBytesOf c time token node tick).drop (c.timestampBytes + c.prfBytes) = node ++ beDigits c.tickerBytes tick := by
    rw [← List.drop_drop, d1, List.drop_left' hk]
  have d3 : (rawBytesOf c time token node tick).drop (c.timestampBytes + c.prfBytes + c.nodeIdBytes) = beDigits c.tickerBytes tick := by
    rw [← List.drop_drop, d2, List.drop_left' hn]
  simp only [d1, d2, d3]
  rw [e1, List.take_left' (length_beDigits _ _), List.take_left' hk, List.take_left' hn,
    List.take_of_length_le (by rw [length_beDigits])]

theorem rawRead_fields {c : RawConfig} {b : Bytes} {x : Container}
    (hs : c.size = c.timestampBytes + c.prfBytes + c.nodeIdBytes + c.tickerBytes)
    (h : rawRead c b = .ok x) : b = x.timestamp ++ x.token ++ x.nodeId ++ x.ticker ∧ b.length = c.size := by
  unfold rawRead at h
  split at h
  · cases h
  · rename_i hl
    cases h
    refine ⟨?_, by simpa using hl⟩
    have hb : b.length = c.size := by simpa using hl
    have e4 : (b.drop (c.timestampBytes + c.prfBytes + c.nodeIdBytes)).take c.tickerBytes
        = b.drop (c.timestampBytes + c.prfBytes + c.nodeIdBytes) :=
      List.take_of_length_le (by rw [List.length_drop, hb, hs]; omega)
    simp only [e4]
    have e3 := List.take_append_drop c.nodeIdBytes (b.drop (c.timestampBytes + c.prfBytes))
    have e2 := List.take_append_drop c.prfBytes (b.drop c.timestampBytes)
    have e1 := List.take_append_drop c.timestampBytes b
    rw [List.drop_drop] at e3 e2
    rw [List.append_assoc, List.append_assoc, e3, e2, e1]

/-! ### values of full bytes -/

/-- All bytes are `0xff`. -/
def Full (b : Bytes) : Prop := fromBE b + 1 = 256 ^ b.length

theorem Full.append {a b : Bytes} (ha : Full a) (hb : Full b) : Full (a ++ b) := by
  unfold Full at *
  rw [fromBE_append, List.length_append, Nat.pow_add, ← ha, Nat.add_mul, Nat.one_mul, Nat.add_assoc, hb]

theorem full_top (s : Nat) : Full (beDigits s (256 ^ s - 1)) := by
  have h : 0 < 256 ^ s := Nat.pow_pos (by omega)
  unfold Full
  rw [fromBE_beDigits_of_lt (by omega), length_beDigits]
  omega

/-! ### chains -/

theorem Affine.invert_lt {a : Affine} {size y x : Nat} (h : a.WF size) (e : a.invert y = some x) : x < 256 ^ size := by
  have hm := h.config.max_eq
  rw [h.size] at hm
  unfold Affine.invert at e
  obtain ⟨k, -, -, hx, -⟩ := walk_eq_some.1 e
  omega

theorem Chain.invert_lt {c : Chain} {y x : Nat} (h : c.WF) (e : c.invert y = some x) : x < 256 ^ c.size := by
  unfold Chain.invert at e
  simp only [bind, Option.bind_eq_some_iff, pure] at e
  obtain ⟨a, -, b, -, d, hd, he⟩ := e
  cases he
  exact xor_lt (Affine.invert_lt h.affIn hd) h.inKey

/-- A key whose third part is chosen and whose other bytes are zero. -/
def outKeyed (p k : Nat) : Bytes := List.replicate (2 * p) 0 ++ (beDigits p k ++ List.replicate (2 * p) 0)

theorem length_outKeyed (p k : Nat) : (outKeyed p k).length = 5 * p := by
  simp only [outKeyed, List.length_append, List.length_replicate, length_beDigits]
  omega

/-- The chain of such a key: only the last xor depends on the choice. -/
theorem Chain.new_outKeyed (a : AffineConfig) : ∃ c : Chain, ∀ k < 256 ^ a.size,
    Chain.new true a (outKeyed a.size k) = .ok { c with outKey := k } := by
  have hd2 : ∀ k, (outKeyed a.size k).drop (2 * a.size) = beDigits a.size k ++ List.replicate (2 * a.size) 0 := fun k => by
    unfold outKeyed
    rw [List.drop_left' (by simp)]
  have hd3 : ∀ k, (outKeyed a.size k).drop (3 * a.size) = List.replicate (2 * a.size) 0 := fun k => by
    rw [show 3 * a.size = 2 * a.size + a.size by omega, ← List.drop_drop, hd2, List.drop_left' (length_beDigits _ _)]
  have ht1 : ∀ k, (outKeyed a.size k).take a.size = List.replicate a.size 0 := fun k => by
    unfold outKeyed
    rw [List.take_append_of_le_length (by rw [List.length_replicate]; omega), List.take_replicate, Nat.min_eq_left (by omega)]
  have ht2 : ∀ k, ((outKeyed a.size k).drop a.size).take a.size = List.replicate a.size 0 := fun k => by
    unfold outKeyed
    rw [List.drop_append_of_le_length (by rw [List.length_replicate]; omega),
      List.take_append_of_le_length (by rw [List.length_drop, List.length_replicate]; omega), List.drop_replicate, List.take_replicate,
      Nat.min_eq_left (by omega)]
  have haff : Affine.new a (List.replicate (2 * a.size) 0) = .ok ⟨a, fromBE (List.replicate (2 * a.size) 0)⟩ := by
    unfold Affine.new
    rw [if_pos (by simp [AffineConfig.keySize])]
  refine ⟨⟨a.size, ⟨a, fromBE (List.replicate (2 * a.size) 0)⟩, ⟨a, fromBE (List.replicate (2 * a.size) 0)⟩,
    ⟨a, fromBE (List.replicate (2 * a.size) 0)⟩, fromBE (List.replicate a.size 0),
    fromBE (List.replicate a.size 0) ^^^ repeatByte 0xa3 a.size, fromBE (List.replicate a.size 0) ^^^ repeatByte 0x1b a.size, 0,
    repeatByte 0x8d a.size⟩, fun k hk => ?_⟩
  unfold Chain.new
  have hx : ((outKeyed a.size k).drop (2 * a.size)).take a.size = beDigits a.size k := by
    rw [hd2, List.take_left' (length_beDigits _ _)]
  have hy : ((outKeyed a.size k).drop (3 * a.size)).take (2 * a.size) = List.replicate (2 * a.size) 0 := by
    rw [hd3]
    exact List.take_of_length_le (by simp)
  simp only [if_true, if_pos (length_outKeyed a.size k), hx, hy, ht1, ht2, haff, fromBE_beDigits_of_lt hk]
  rfl

/-- Every number of the block size is what some key makes of any number. -/
theorem Chain.reaches {a : AffineConfig} {size hash : Nat} (ha : AffineConfig.new size hash = .ok a) {x y : Nat}
    (hx : x < 256 ^ a.size) (hy : y < 256 ^ a.size) :
    ∃ (key : Bytes) (c : Chain), key.length = 5 * a.size ∧ Chain.new true a key = .ok c ∧ c.permute x = some y := by
  obtain ⟨hwf, he, hs⟩ := AffineConfig.new_wf ha
  obtain ⟨c, hc⟩ := Chain.new_outKeyed a
  have h0 := hc 0 (Nat.pow_pos (by omega))
  obtain ⟨w0, s0⟩ := Chain.new_wf hwf (by omega) h0
  obtain ⟨z, hz, e, -⟩ := Chain.permute_total w0 (x := x) (by rw [s0]; exact hx)
  rw [s0] at hz
  have hk : z ^^^ y < 256 ^ a.size := xor_lt hz hy
  refine ⟨outKeyed a.size (z ^^^ y), _, length_outKeyed _ _, hc _ hk, ?_⟩
  simp only [Chain.permute_eq, Chain.uncappedPermute] at e ⊢
  simp only [Option.map_eq_some_iff] at e ⊢
  obtain ⟨w, hw, hz⟩ := e
  refine ⟨w, hw, ?_⟩
  rw [Nat.xor_zero] at hz
  subst hz
  rw [← Nat.xor_assoc, Nat.xor_self, Nat.zero_xor]

end Aiootp.Ids
