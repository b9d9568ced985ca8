import Verif.Model.Ids
import Verif.Lemmas.Perm

namespace Aiootp.Ids

open Perm

/-! ### the chain behind an id object -/

theorem mask_total {c : Chain} (h : c.WF) {n : Nat} (hn : n < 256 ^ c.size) :
    ∃ v, v < 256 ^ c.size ∧ c.permute n = some v ∧ c.invert v = some n ∧
      toBytesBE c.size v = .ok (beDigits c.size v) := by
  obtain ⟨v, hv, e, i⟩ := Chain.permute_total h hn
  exact ⟨v, hv, e, i, by simp [toBytesBE, hv]⟩

theorem nextTick_eq (c : RawConfig) (h : c.tickerBytes = 1) (t : Nat) : nextTick c t = (t + 1) % 256 := by
  unfold nextTick RawConfig.tickDomain
  rw [h]
  exact Nat.and_two_pow_sub_one_eq_mod (t + 1) 8

theorem rawConfig_ok {size : Nat} {c : RawConfig} (h : rawConfig size = .ok c) :
    c = { timestampBytes := 8, prfBytes := size - 10, nodeIdBytes := 1, tickerBytes := 1, size := size } ∧
      12 ≤ size ∧ size < 33 := by
  unfold rawConfig at h
  split at h
  · rename_i hs
    unfold RawConfig.new at h
    rw [if_neg (by decide)] at h
    split at h
    · cases h
    · cases h; exact ⟨rfl, hs⟩
  · cases h

/-- The facts that hold of a `GUID` object made from a key for a size, in every state. -/
structure Guid.WF (g : Guid) (size : Nat) (permutation : Chain) (nodeId : Bytes) : Prop where
  chain : permutation.WF
  chainSize : permutation.size = size
  perm : g.permutation = permutation
  config : g.raw.config
    = { timestampBytes := 8, prfBytes := size - 10, nodeIdBytes := 1, tickerBytes := 1, size := size }
  sizeGe : 12 ≤ size
  sizeLt : size < 33
  node : g.raw.nodeId = nodeId
  nodeLen : nodeId.length = 1

theorem Guid.new_wf {size hash : Nat} {config : AffineConfig} {key nodeId : Bytes} {g : Guid}
    (hc : AffineConfig.new size hash = .ok config) (hg : Guid.new config key nodeId = .ok g) :
    g.WF size g.permutation nodeId ∧ g.raw.tick = 0 ∧ Chain.new true config key = .ok g.permutation := by
  obtain ⟨hwf, rfl, hs⟩ := AffineConfig.new_wf hc
  unfold Guid.new at hg
  simp only [bind_eq_ok] at hg
  obtain ⟨raw, hraw, perm, hperm, he⟩ := hg
  cases he
  unfold RawGuid.new at hraw
  simp only [bind_eq_ok] at hraw
  obtain ⟨rc, hrc, hraw⟩ := hraw
  obtain ⟨hrc', h12, h33⟩ := rawConfig_ok hrc
  split at hraw
  · cases hraw
  · rename_i hlen
    cases hraw
    obtain ⟨h1, h2⟩ := Chain.new_wf hwf hs hperm
    refine ⟨⟨h1, h2, rfl, hrc', h12, h33, rfl, ?_⟩, rfl, hperm⟩
    subst hrc'
    simpa using hlen

theorem toBytes_len {s n : Nat} {b : Bytes} (h : toBytesBE s n = .ok b) :
    b = beDigits s n ∧ n < 256 ^ s := by
  unfold toBytesBE at h
  split at h
  · rename_i hlt; cases h; exact ⟨rfl, hlt⟩
  · cases h

/-- The raw guid that a call makes. -/
def rawBytes (time : Nat) (token nodeId : Bytes) (tick : Nat) : Bytes :=
  beDigits 8 time ++ token ++ nodeId ++ beDigits 1 tick

theorem RawGuid.make_eq {g : RawGuid} {size time : Nat} {token : Bytes}
    (hc : g.config
      = { timestampBytes := 8, prfBytes := size - 10, nodeIdBytes := 1, tickerBytes := 1, size := size })
    (ht : time < 256 ^ 8) :
    g.make time token
      = .ok (rawBytes time token g.nodeId ((g.tick + 1) % 256), { g with tick := (g.tick + 1) % 256 }) := by
  have h1 : (g.tick + 1) % 256 < 256 ^ 1 := by have := Nat.mod_lt (g.tick + 1) (show 256 > 0 by omega); omega
  unfold RawGuid.make
  rw [nextTick_eq _ (by rw [hc])]
  simp only [hc, toBytesBE, if_pos ht, if_pos h1, bind, Except.bind, pure, Except.pure]
  rfl

theorem RawGuid.make_overflow {g : RawGuid} {size time : Nat} {token : Bytes}
    (hc : g.config
      = { timestampBytes := 8, prfBytes := size - 10, nodeIdBytes := 1, tickerBytes := 1, size := size })
    (ht : ¬ time < 256 ^ 8) : g.make time token = .error .overflow := by
  unfold RawGuid.make
  simp only [hc, toBytesBE, if_neg ht, bind, Except.bind]

theorem length_rawBytes {time tick : Nat} {token nodeId : Bytes} (hn : nodeId.length = 1) :
    (rawBytes time token nodeId tick).length = token.length + 10 := by
  simp only [rawBytes, List.length_append, length_beDigits, hn]
  omega

theorem Guid.mask_eq {g : Guid} {size : Nat} {perm : Chain} {nodeId : Bytes} (h : g.WF size perm nodeId)
    {raw : Bytes} (hl : raw.length = size) :
    ∃ v, v < 256 ^ size ∧ g.mask raw = .ok (beDigits size v) ∧
      perm.permute (fromBE raw) = some v ∧ perm.invert v = some (fromBE raw) := by
  have hlt : fromBE raw < 256 ^ perm.size := by rw [h.chainSize, ← hl]; exact fromBE_lt raw
  obtain ⟨v, hv, e, i, hb⟩ := mask_total h.chain hlt
  rw [h.chainSize] at hv hb
  refine ⟨v, hv, ?_, e, i⟩
  unfold Guid.mask
  rw [h.perm, e, h.config]
  simp only [hb]

/-- What a call returns: the masked raw guid, and the object with the next tick. -/
theorem Guid.make_ok {g : Guid} {size : Nat} {perm : Chain} {nodeId : Bytes} (h : g.WF size perm nodeId)
    {time : Nat} {token : Bytes} (ht : time < 256 ^ 8) (hk : token.length = size - 10) :
    ∃ v, v < 256 ^ size ∧
      perm.permute (fromBE (rawBytes time token nodeId ((g.raw.tick + 1) % 256))) = some v ∧
      perm.invert v = some (fromBE (rawBytes time token nodeId ((g.raw.tick + 1) % 256))) ∧
      g.make time token = .ok (beDigits size v, { g with raw := { g.raw with tick := (g.raw.tick + 1) % 256 } }) := by
  have hge := h.sizeGe
  have hl : (rawBytes time token nodeId ((g.raw.tick + 1) % 256)).length = size := by
    rw [length_rawBytes h.nodeLen, hk]; omega
  obtain ⟨v, hv, hm, e, i⟩ := Guid.mask_eq h hl
  refine ⟨v, hv, e, i, ?_⟩
  unfold Guid.make
  rw [RawGuid.make_eq h.config ht]
  rw [← h.node] at hm
  simp only [hm]

theorem Guid.make_wf {g g' : Guid} {size : Nat} {perm : Chain} {nodeId : Bytes} (h : g.WF size perm nodeId)
    {time : Nat} {token b : Bytes} (hm : g.make time token = .ok (b, g')) :
    time < 256 ^ 8 ∧ g'.WF size perm nodeId ∧ g'.raw.tick = (g.raw.tick + 1) % 256 := by
  by_cases ht : time < 256 ^ 8
  · refine ⟨ht, ?_⟩
    unfold Guid.make at hm
    rw [RawGuid.make_eq h.config ht] at hm
    simp only at hm
    split at hm
    · cases hm
      exact ⟨⟨h.chain, h.chainSize, h.perm, h.config, h.sizeGe, h.sizeLt, h.node, h.nodeLen⟩, rfl⟩
    · cases hm
    · cases hm
  · unfold Guid.make at hm
    rw [RawGuid.make_overflow h.config ht] at hm
    cases hm

theorem Guid.makeAll_cons {g : Guid} {time : Nat} {token : Bytes} {rest : List (Nat × Bytes)} {out : List Bytes}
    {g'' : Guid} (h : g.makeAll ((time, token) :: rest) = .ok (out, g'')) :
    ∃ b g' bs, g.make time token = .ok (b, g') ∧ g'.makeAll rest = .ok (bs, g'') ∧ out = b :: bs := by
  unfold Guid.makeAll at h
  split at h
  · cases h
  · cases h
  · rename_i b g' hm
    split at h
    · rename_i bs g3 hr
      cases h
      exact ⟨b, g', bs, hm, hr, rfl⟩
    · cases h
    · cases h

theorem Guid.makeAll_wf {g g' : Guid} {size : Nat} {perm : Chain} {nodeId : Bytes} (h : g.WF size perm nodeId)
    {calls : List (Nat × Bytes)} {out : List Bytes} (hm : g.makeAll calls = .ok (out, g')) :
    g'.WF size perm nodeId ∧ g'.raw.tick % 256 = (g.raw.tick + calls.length) % 256 ∧ out.length = calls.length := by
  induction calls generalizing g out with
  | nil => cases hm; exact ⟨h, rfl, rfl⟩
  | cons c rest ih =>
    obtain ⟨time, token⟩ := c
    obtain ⟨b, g1, bs, h1, h2, rfl⟩ := Guid.makeAll_cons hm
    obtain ⟨-, hw, htick⟩ := Guid.make_wf h h1
    obtain ⟨r1, r2, r3⟩ := ih hw h2
    refine ⟨r1, ?_, by simp [r3]⟩
    rw [r2, htick, List.length_cons]
    omega

/-- The `i`-th guid of a sequence is the masked raw guid of the `i`-th clock reading and token, with tick
`tick + i + 1`. -/
theorem Guid.makeAll_getElem {g g' : Guid} {size : Nat} {perm : Chain} {nodeId : Bytes}
    (h : g.WF size perm nodeId) {calls : List (Nat × Bytes)} {out : List Bytes}
    (hm : g.makeAll calls = .ok (out, g')) (htok : ∀ c ∈ calls, c.2.length = size - 10)
    (i : Nat) (hi : i < calls.length) :
    ∃ v, v < 256 ^ size ∧ out[i]? = some (beDigits size v) ∧ calls[i].1 < 256 ^ 8 ∧
      perm.permute (fromBE (rawBytes calls[i].1 calls[i].2 nodeId ((g.raw.tick + i + 1) % 256))) = some v ∧
      perm.invert v = some (fromBE (rawBytes calls[i].1 calls[i].2 nodeId ((g.raw.tick + i + 1) % 256))) := by
  induction calls generalizing g out i with
  | nil => simp at hi
  | cons c rest ih =>
    obtain ⟨time, token⟩ := c
    obtain ⟨b, g1, bs, h1, h2, rfl⟩ := Guid.makeAll_cons hm
    obtain ⟨ht, hw, htick⟩ := Guid.make_wf h h1
    cases i with
    | zero =>
      obtain ⟨v, hv, e, inv, hmk⟩ := Guid.make_ok h ht (htok (time, token) (by simp))
      rw [hmk] at h1
      cases h1
      exact ⟨v, hv, rfl, ht, e, inv⟩
    | succ i =>
      obtain ⟨v, hv, ho, ht', e, inv⟩ := ih hw h2 (fun c hc => htok c (by simp [hc])) i (by simpa using hi)
      refine ⟨v, hv, by simpa using ho, ht', ?_⟩
      rw [htick] at e inv
      have : ((g.raw.tick + 1) % 256 + i + 1) % 256 = (g.raw.tick + (i + 1) + 1) % 256 := by omega
      rw [this] at e inv
      exact ⟨e, inv⟩

theorem rawBytes_inj {time time' tick tick' : Nat} {token token' node node' : Bytes}
    (hk : token.length = token'.length) (hn : node.length = node'.length)
    (ht : time < 256 ^ 8) (ht' : time' < 256 ^ 8) (hq : tick < 256) (hq' : tick' < 256)
    (h : rawBytes time token node tick = rawBytes time' token' node' tick') :
    time = time' ∧ token = token' ∧ node = node' ∧ tick = tick' := by
  unfold rawBytes at h
  rw [List.append_assoc, List.append_assoc, List.append_assoc, List.append_assoc] at h
  obtain ⟨h1, h2⟩ := List.append_inj h (by simp [length_beDigits])
  obtain ⟨h3, h4⟩ := List.append_inj h2 hk
  obtain ⟨h5, h6⟩ := List.append_inj h4 hn
  refine ⟨beDigits_inj ht ht' h1, h3, h5, beDigits_inj (s := 1) (by omega) (by omega) h6⟩

theorem masked_inj {perm : Chain} {size : Nat} {r r' : Bytes} {v v' : Nat}
    (hv : v < 256 ^ size) (hv' : v' < 256 ^ size) (hl : r.length = r'.length)
    (i : perm.invert v = some (fromBE r)) (i' : perm.invert v' = some (fromBE r'))
    (h : beDigits size v = beDigits size v') : r = r' := by
  have := beDigits_inj hv hv' h
  subst this
  rw [i] at i'
  exact fromBE_inj hl (Option.some.inj i')

theorem rawRead_rawBytes {size time tick : Nat} {token node : Bytes} (hs : 12 ≤ size)
    (hk : token.length = size - 10) (hn : node.length = 1) :
    rawRead { timestampBytes := 8, prfBytes := size - 10, nodeIdBytes := 1, tickerBytes := 1, size := size }
      (rawBytes time token node tick)
      = .ok { timestamp := beDigits 8 time, token := token, nodeId := node, ticker := beDigits 1 tick } := by
  have hl : (rawBytes time token node tick).length = size := by rw [length_rawBytes hn, hk]; omega
  unfold rawRead
  rw [if_neg (by simpa using hl)]
  have e1 : rawBytes time token node tick = beDigits 8 time ++ (token ++ (node ++ beDigits 1 tick)) := by
    simp [rawBytes]
  have d1 : (rawBytes time token node tick).drop 8 = token ++ (node ++ beDigits 1 tick) := by
    rw [e1, List.drop_left' (length_beDigits _ _)]
  have d2 : (rawBytes time token node tick).drop (8 + (size - 10)) = node ++ beDigits 1 tick := by
    rw [← List.drop_drop, d1, List.drop_left' hk]
  have d3 : (rawBytes time token node tick).drop (8 + (size - 10) + 1) = beDigits 1 tick := by
    rw [← List.drop_drop, d2, List.drop_left' hn]
  simp only [d1, d2, d3]
  rw [e1, List.take_left' (length_beDigits _ _), List.take_left' hk, List.take_left' hn,
    List.take_of_length_le (by rw [length_beDigits])]

theorem bytesLt_append {a b x y : Bytes} (hl : a.length = b.length) :
    bytesLt (a ++ x) (b ++ y) = (bytesLt a b || (a == b && bytesLt x y)) := by
  induction a generalizing b with
  | nil =>
    cases b with
    | nil => simp [bytesLt]
    | cons => simp at hl
  | cons p ps ih =>
    cases b with
    | nil => simp at hl
    | cons q qs =>
      simp only [List.cons_append, bytesLt]
      rw [ih (by simpa using hl)]
      by_cases hpq : p = q
      · subst hpq
        simp
      · have hne : p.toNat ≠ q.toNat := fun h => hpq (UInt8.toNat_inj.1 h)
        have h1 : (p.toNat == q.toNat) = false := by simpa using hne
        have h2 : (p == q) = false := by simpa using hpq
        have h3 : (p :: ps == q :: qs) = (p == q && ps == qs) := rfl
        rw [h3, h1, h2]
        simp

theorem fromBE_append (a b : Bytes) : fromBE (a ++ b) = fromBE a * 256 ^ b.length + fromBE b := by
  unfold fromBE
  rw [List.reverse_append]
  have key : ∀ x y : Bytes, fromLE (x ++ y) = fromLE y * 256 ^ x.length + fromLE x := by
    intro x y
    induction x with
    | nil => simp [fromLE]
    | cons p ps ih =>
      simp only [List.cons_append, fromLE, ih, List.length_cons, Nat.pow_succ]
      ring
  rw [key, List.length_reverse]

theorem bytesLt_iff {a b : Bytes} (hl : a.length = b.length) :
    bytesLt a b = true ↔ fromBE a < fromBE b := by
  induction a generalizing b with
  | nil =>
    cases b with
    | nil => simp [bytesLt]
    | cons => simp at hl
  | cons p ps ih =>
    cases b with
    | nil => simp at hl
    | cons q qs =>
      have hl' : ps.length = qs.length := by simpa using hl
      have e : ∀ (x : UInt8) (xs : Bytes), fromBE (x :: xs) = x.toNat * 256 ^ xs.length + fromBE xs := by
        intro x xs
        have := fromBE_append [x] xs
        have h1 : fromBE [x] = x.toNat := by simp [fromBE, fromLE]
        rw [h1] at this
        exact this
      rw [e, e]
      have hp := fromBE_lt ps
      have hq := fromBE_lt qs
      rw [hl'] at hp ⊢
      simp only [bytesLt, Bool.or_eq_true, decide_eq_true_eq, Bool.and_eq_true, beq_iff_eq]
      rw [ih hl']
      rcases Nat.lt_trichotomy p.toNat q.toNat with h | h | h
      · have := Nat.mul_le_mul_right (256 ^ qs.length) (show p.toNat + 1 ≤ q.toNat from h)
        rw [Nat.add_mul, Nat.one_mul] at this
        constructor
        · intro _; omega
        · intro _; exact Or.inl h
      · rw [h]
        constructor
        · rintro (h1 | ⟨-, h1⟩)
          · omega
          · omega
        · intro h1; exact Or.inr ⟨rfl, by omega⟩
      · have := Nat.mul_le_mul_right (256 ^ qs.length) (show q.toNat + 1 ≤ p.toNat from h)
        rw [Nat.add_mul, Nat.one_mul] at this
        constructor
        · rintro (h1 | ⟨h1, -⟩) <;> omega
        · intro h1; omega

end Aiootp.Ids
