import Verif.Lemmas.IdConfigs

/-
C86: guids and sequence ids of configurations that users register.
-/

namespace Aiootp.Ids

open Perm

/-- An object of the configuration, for a key that fits. -/
theorem CustomGuid.init_of {R : Registries} {config : GuidConfig} {rc : RawConfig} {a : AffineConfig} {key nodeId : Bytes} {c : Chain}
    (hr : R.raw config.configId = some rc) (ha : R.chain config.permutationId = some a) (hn : nodeId.length = rc.nodeIdBytes)
    (hk : key ≠ []) (hc : Chain.new true a key = .ok c) :
    CustomGuid.init R config (some key) nodeId = .ok ⟨config, ⟨rc, nodeId, 0⟩, c⟩ := by
  have he : key.isEmpty = false := by
    cases key with
    | nil => exact absurd rfl hk
    | cons _ _ => rfl
  have h1 : RawGuid.init R nodeId config.configId = .ok ⟨rc, nodeId, 0⟩ := by
    unfold RawGuid.init lookup
    simp only [hr, bind, Except.bind, ne_eq, hn, not_true_eq_false, if_false]
    rfl
  unfold CustomGuid.init lookup
  simp only [h1, ha, Option.getD_some, he, hc, bind, Except.bind, Bool.false_eq_true, if_false]
  rfl

/-- Guids of a configuration can be read back, whatever the key, the node and the history, exactly if the raw guids that are registered under
the id of the configuration and the permutation are both of the configured size. -/
theorem C86_reads_back_iff {R : Registries} (hR : R.Accepted) {config : GuidConfig} {rc : RawConfig} {a : AffineConfig}
    (hr : R.raw config.configId = some rc) (ha : R.chain config.permutationId = some a) :
    GuidsReadBack R config ↔ rc.size = config.size ∧ a.size = config.size := by
  obtain ⟨t, p, n, k, s, hnew⟩ := hR.raw _ _ hr
  obtain ⟨hsum, htb⟩ := RawConfig.new_ok hnew
  obtain ⟨sz, hash, hac⟩ := hR.chain _ _ ha
  obtain ⟨hwf, hsz, hpos⟩ := AffineConfig.new_wf hac
  have htb256 : 256 ≤ 256 ^ rc.tickerBytes := by
    calc 256 = 256 ^ 1 := rfl
      _ ≤ _ := Nat.pow_le_pow_right (by omega) htb
  constructor
  · intro h
    -- a history that ends in a raw guid of which all bytes are 0xff
    let node := beDigits rc.nodeIdBytes (256 ^ rc.nodeIdBytes - 1)
    let token := beDigits rc.prfBytes (256 ^ rc.prfBytes - 1)
    let time := 256 ^ rc.timestampBytes - 1
    let calls : List (Nat × Bytes) := List.replicate (256 ^ rc.tickerBytes - 2) (time, token)
    have htime : time < 256 ^ rc.timestampBytes := Nat.sub_lt (Nat.pow_pos (by omega)) (by omega)
    have hcount : countedCalls rc.timestampBytes calls = 256 ^ rc.tickerBytes - 2 := by
      simp [countedCalls, calls, List.filter_replicate, htime]
    let raw := rawBytesOf rc time token node (256 ^ rc.tickerBytes - 1)
    have hfull : Full raw := ((((full_top _).append (full_top _)).append (full_top _)).append (full_top _))
    have hrawlen : raw.length = rc.size := by
      rw [hsum]; simp only [raw, token, node, length_rawBytesOf, length_beDigits]
    -- what every object of the configuration does with it
    have step : ∀ (key : Bytes) (c : Chain), key ≠ [] → Chain.new true a key = .ok c →
        ∃ v, c.permute (fromBE raw) = some v ∧ v < 256 ^ config.size ∧
          rc.size = config.size ∧ c.invert v = some (fromBE raw) := by
      intro key c hk hc
      have hi := CustomGuid.init_of (config := config) hr ha (nodeId := node) (length_beDigits _ _) hk hc
      obtain ⟨guid, hg, hl, hread⟩ := h _ _ _ hi calls time token htime (length_beDigits _ _)
      have h0 : (0 : Nat) < 256 ^ rc.tickerBytes := by omega
      rw [CustomGuid.after_eq calls (g := ⟨config, ⟨rc, node, 0⟩, c⟩) h0] at hg
      simp only [hcount, Nat.zero_add] at hg hread
      rw [show (256 ^ rc.tickerBytes - 2) % 256 ^ rc.tickerBytes = 256 ^ rc.tickerBytes - 2 from Nat.mod_eq_of_lt (by omega)] at hg
      rw [show (256 ^ rc.tickerBytes - 2 + 1) % 256 ^ rc.tickerBytes = 256 ^ rc.tickerBytes - 1 from by
        rw [Nat.mod_eq_of_lt (by omega)]; omega] at hread
      unfold CustomGuid.make at hg
      rw [RawGuid.make_any (by exact htime)] at hg
      simp only at hg
      rw [show (256 ^ rc.tickerBytes - 2 + 1) % 256 ^ rc.tickerBytes = 256 ^ rc.tickerBytes - 1 from by
        rw [Nat.mod_eq_of_lt (by omega)]; omega] at hg
      change (match c.permute (fromBE raw) with
        | none => Run.diverges
        | some v => match toBytesBE config.size v with
          | .ok b => .ok b
          | .error e => .error e) = Run.ok guid at hg
      split at hg
      · cases hg
      · rename_i v hv
        split at hg
        · rename_i b hb
          cases hg
          obtain ⟨rfl, hlt⟩ := toBytes_len hb
          unfold CustomGuid.read at hread
          simp only [length_beDigits, ne_eq, not_true_eq_false, if_false, fromBE_beDigits_of_lt hlt] at hread
          split at hread
          · cases hread
          · rename_i w hw
            split at hread
            · cases hread
            · rename_i b hb
              obtain ⟨rfl, hwlt⟩ := toBytes_len hb
              split at hread
              · rename_i x hx
                cases hread
                obtain ⟨hb1, hb2⟩ := rawRead_fields hsum hx
                have hrr : beDigits config.size w = raw := by rw [hb1]; rfl
                refine ⟨v, hv, hlt, by rw [← hb2, length_beDigits], ?_⟩
                rw [hw, ← hrr, fromBE_beDigits_of_lt hwlt]
              · cases hread
        · cases hg
    have hfulleq : fromBE raw + 1 = 256 ^ rc.size := by rw [← hrawlen]; exact hfull
    -- first with any key, then with a key that was chosen
    obtain ⟨c0, hc0⟩ := Chain.new_outKeyed a
    have hz : (0 : Nat) < 256 ^ a.size := Nat.pow_pos (by omega)
    have hne : ∀ k, outKeyed a.size k ≠ [] := fun k e => by
      have := length_outKeyed a.size k
      rw [e] at this
      simp at this
      omega
    obtain ⟨w0, s0⟩ := Chain.new_wf hwf (by omega) (hc0 0 hz)
    obtain ⟨v, hv, hvlt, hsize, hinv⟩ := step _ _ (hne 0) (hc0 0 hz)
    refine ⟨hsize, ?_⟩
    have hle := Chain.invert_lt w0 hinv
    rw [s0] at hle
    have hge : config.size ≤ a.size := by
      apply Classical.byContradiction
      intro hlt
      have : 256 ^ (a.size + 1) ≤ 256 ^ rc.size := Nat.pow_le_pow_right (by omega) (by omega)
      rw [Nat.pow_succ] at this
      omega
    apply Classical.byContradiction
    intro hne'
    have hgt : config.size + 1 ≤ a.size := by omega
    obtain ⟨key, c, hkl, hc, hp⟩ := Chain.reaches hac hle (y := 256 ^ a.size - 1) (by omega)
    have hkne : key ≠ [] := fun e => by
      rw [e] at hkl
      simp at hkl
      omega
    obtain ⟨v', hv', hlt', -, -⟩ := step key c hkne hc
    rw [hp] at hv'
    cases hv'
    have : 256 ^ (config.size + 1) ≤ 256 ^ a.size := Nat.pow_le_pow_right (by omega) hgt
    rw [Nat.pow_succ] at this
    have : 0 < 256 ^ config.size := Nat.pow_pos (by omega)
    omega
  · rintro ⟨hsr, hsa⟩ key nodeId g hi calls time token ht hk
    obtain ⟨rc', a', hr', ha', hn, hc, hcfg, hraw⟩ := CustomGuid.init_ok hi
    rw [hr] at hr'; cases hr'
    rw [ha] at ha'; cases ha'
    obtain ⟨gc, gr, gp⟩ := g
    simp only at hcfg hraw hc
    subst hcfg hraw
    simp only at ht hk ⊢
    obtain ⟨hw, hcs⟩ := Chain.new_wf hwf (by omega) hc
    rw [CustomGuid.after_eq calls (g := ⟨gc, ⟨rc, nodeId, 0⟩, gp⟩) (by simp only; omega)]
    generalize hm : countedCalls rc.timestampBytes calls = m
    have htick : ((0 + m) % 256 ^ rc.tickerBytes + 1) % 256 ^ rc.tickerBytes = (m + 1) % 256 ^ rc.tickerBytes := by
      rw [Nat.zero_add, Nat.mod_add_mod]
    have hlen : (rawBytesOf rc time token nodeId ((m + 1) % 256 ^ rc.tickerBytes)).length = gc.size := by
      rw [length_rawBytesOf, hk, hn, ← hsum, hsr]
    obtain ⟨v, hv, e, i, hb⟩ := mask_total hw (n := fromBE (rawBytesOf rc time token nodeId ((m + 1) % 256 ^ rc.tickerBytes)))
      (by rw [hcs, hsa, ← hlen]; exact fromBE_lt _)
    rw [hcs, hsa] at hv hb
    refine ⟨beDigits gc.size v, ?_, length_beDigits _ _, ?_⟩
    · unfold CustomGuid.make
      simp only
      rw [RawGuid.make_any (by exact ht)]
      simp only [htick, e, hb]
    · unfold CustomGuid.read
      simp only [length_beDigits, ne_eq, not_true_eq_false, if_false, fromBE_beDigits_of_lt hv, i]
      rw [Cipher.toBytesBE_of_lt (by rw [← hlen]; exact fromBE_lt _), Cipher.beDigits_fromBE_of_length hlen]
      simp only [rawRead_rawBytesOf hsum hk hn]

/-- Sequence ids of a configuration can be read back exactly if the permutation is of the configured size. -/
theorem C86_sequence_reads_back_iff {R : Registries} (hR : R.Accepted) {config : SidConfig} {a : AffineConfig}
    (hs : 0 < config.size) (ha : R.chain config.permutationId = some a) :
    SidsReadBack R config ↔ a.size = config.size := by
  obtain ⟨sz, hash, hac⟩ := hR.chain _ _ ha
  obtain ⟨hwf, hsz, hpos⟩ := AffineConfig.new_wf hac
  have hinit : ∀ key, config.init R key = Chain.new true a key := fun key => by
    unfold SidConfig.init lookup
    simp only [ha, bind, Except.bind]
  have hzc : 0 < 256 ^ config.size := Nat.pow_pos (by omega)
  constructor
  · intro h
    have step : ∀ (key : Bytes) (c : Chain), Chain.new true a key = .ok c → ∀ value < 256 ^ config.size,
        ∃ v, c.permute value = some v ∧ v < 256 ^ config.size ∧ c.invert v = some value := by
      intro key c hc value hval
      obtain ⟨sid, hm, hl, hread⟩ := h key c (by rw [hinit, hc]) value hval
      unfold SidConfig.make at hm
      simp only [bind, Option.bind_eq_some_iff, pure] at hm
      obtain ⟨v, hv, he⟩ := hm
      obtain ⟨rfl, hlt⟩ := toBytes_len (Option.some.inj he)
      refine ⟨v, hv, hlt, ?_⟩
      unfold sidRead at hread
      rwa [fromBE_beDigits_of_lt hlt] at hread
    obtain ⟨c0, hc0⟩ := Chain.new_outKeyed a
    have hz : (0 : Nat) < 256 ^ a.size := Nat.pow_pos (by omega)
    obtain ⟨w0, s0⟩ := Chain.new_wf hwf (by omega) (hc0 0 hz)
    obtain ⟨v, hv, hvlt, hinv⟩ := step _ _ (hc0 0 hz) (256 ^ config.size - 1) (by omega)
    have hle := Chain.invert_lt w0 hinv
    rw [s0] at hle
    have hge : config.size ≤ a.size := by
      apply Classical.byContradiction
      intro hlt
      have : 256 ^ (a.size + 1) ≤ 256 ^ config.size := Nat.pow_le_pow_right (by omega) (by omega)
      rw [Nat.pow_succ] at this
      omega
    apply Classical.byContradiction
    intro hne'
    obtain ⟨key, c, -, hc, hp⟩ := Chain.reaches hac hle (y := 256 ^ a.size - 1) (by omega)
    obtain ⟨v', hv', hlt', -⟩ := step key c hc (256 ^ config.size - 1) (by omega)
    rw [hp] at hv'
    cases hv'
    have : 256 ^ (config.size + 1) ≤ 256 ^ a.size := Nat.pow_le_pow_right (by omega) (by omega)
    rw [Nat.pow_succ] at this
    omega
  · intro hsa key c hi value hval
    rw [hinit] at hi
    obtain ⟨hw, hcs⟩ := Chain.new_wf hwf (by omega) hi
    obtain ⟨v, hv, e, i, hb⟩ := mask_total hw (n := value) (by rw [hcs, hsa]; exact hval)
    rw [hcs, hsa] at hv hb
    refine ⟨beDigits config.size v, ?_, length_beDigits _ _, ?_⟩
    · unfold SidConfig.make
      simp [e, hb]
    · unfold sidRead
      rw [fromBE_beDigits_of_lt hv, i]

/-! ### keys -/

theorem Chain.new_ok_iff {a : AffineConfig} {key : Bytes} :
    (∃ c, Chain.new true a key = .ok c) ↔ key.length = 5 * a.size := by
  constructor
  · rintro ⟨c, h⟩
    unfold Chain.new at h
    simp only [if_true] at h
    split at h
    · assumption
    · cases h
  · intro h
    have haff : Affine.new a ((key.drop (3 * a.size)).take (2 * a.size))
        = .ok ⟨a, fromBE ((key.drop (3 * a.size)).take (2 * a.size))⟩ := by
      unfold Affine.new
      rw [if_pos]
      simp only [List.length_take, List.length_drop, AffineConfig.keySize, h]
      omega
    unfold Chain.new
    simp only [if_true, if_pos h, haff]
    exact ⟨_, rfl⟩

/-- Which keys an object of a registered configuration takes: explicit ones that have five times the size of its permutation, and none exactly
if the key size that the configuration publishes is that one. The published key size belongs to the permutation that is registered under the
number `size`. -/
theorem C86_keys {R : Registries} {hash : ConfigId → Nat → Bytes} (hhash : ∀ i n, (hash i n).length = n) {id : ConfigId} {size : Nat}
    {rawId permutationId : Option ConfigId} {config : GuidConfig} (hnew : GuidConfig.new R hash id size rawId permutationId = .ok config)
    {rc : RawConfig} {a : AffineConfig} (hr : R.raw id = some rc) (ha : R.chain (permutationId.getD id) = some a)
    {nodeId : Bytes} (hn : nodeId.length = rc.nodeIdBytes) :
    (∃ b, R.chain (.int size) = some b ∧ config.keySize = 5 * b.size) ∧
    (∀ key : Bytes, key ≠ [] → ((∃ g, CustomGuid.init R config (some key) nodeId = .ok g) ↔ key.length = 5 * a.size)) ∧
    ((∃ g, CustomGuid.init R config none nodeId = .ok g) ↔ config.keySize = 5 * a.size) := by
  unfold GuidConfig.new chainKeySize at hnew
  simp only [bind_eq_ok] at hnew
  obtain ⟨ks, ⟨b, hb, hks⟩, he⟩ := hnew
  cases hks
  cases he
  have hb' : R.chain (.int size) = some b := by
    unfold lookup at hb
    split at hb
    · rename_i x hx; cases hb; exact hx
    · cases hb
  have h1 : RawGuid.init R nodeId id = .ok ⟨rc, nodeId, 0⟩ := by
    unfold RawGuid.init lookup
    simp only [hr, bind, Except.bind, ne_eq, hn, not_true_eq_false, if_false]
    rfl
  have hinit : ∀ key : Option Bytes,
      ((∃ g, CustomGuid.init R ⟨id, size, 5 * b.size, rawId.getD id, permutationId.getD id, hash id (5 * b.size)⟩ key nodeId = .ok g) ↔
        ((if (key.getD []).isEmpty then hash id (5 * b.size) else key.getD []) : Bytes).length = 5 * a.size) := by
    intro key
    rw [← Chain.new_ok_iff]
    unfold CustomGuid.init lookup
    simp only [h1, ha, bind, Except.bind]
    cases Chain.new true a (if (key.getD []).isEmpty then hash id (5 * b.size) else key.getD []) with
    | error e => simp
    | ok c => simp [pure, Except.pure]
  refine ⟨⟨b, hb', rfl⟩, fun key hk => ?_, ?_⟩
  · have := hinit (some key)
    rw [Option.getD_some, if_neg (by simpa using hk)] at this
    exact this
  · have := hinit none
    rw [Option.getD_none, if_pos (show ([] : Bytes).isEmpty = true from rfl), hhash] at this
    exact this

/-- The id that is given for the raw guids has no effect: two configurations that differ only in it make and read the same guids, and an object
needs raw guids that are registered under the id of the configuration itself. -/
theorem C86_raw_id_ignored (R : Registries) (config : GuidConfig) (other : ConfigId) (key : Option Bytes) (nodeId : Bytes) :
    (∀ g, CustomGuid.init R config key nodeId = .ok g →
      ∃ h, CustomGuid.init R { config with rawId := other } key nodeId = .ok h ∧
        ∀ (calls : List (Nat × Bytes)) (time : Nat) (token guid : Bytes),
          ((h.after calls).make time token).2 = ((g.after calls).make time token).2 ∧ h.read guid = g.read guid) ∧
    (R.raw config.configId = none → CustomGuid.init R config key nodeId = .error .key) := by
  constructor
  · intro g hg
    refine ⟨{ g with config := { config with rawId := other } }, ?_, ?_⟩
    · unfold CustomGuid.init at hg ⊢
      simp only [bind_eq_ok] at hg ⊢
      obtain ⟨raw, h1, inner, h2, perm, h3, h4⟩ := hg
      refine ⟨raw, h1, inner, h2, perm, h3, ?_⟩
      cases h4
      rfl
    · obtain ⟨c, a, -, -, -, -, hc, hr⟩ := CustomGuid.init_ok hg
      obtain ⟨gc, gr, gp⟩ := g
      simp only at hc hr
      subst hc hr
      intro calls time token guid
      have h0 : (0 : Nat) < 256 ^ c.tickerBytes := Nat.pow_pos (by omega)
      rw [CustomGuid.after_eq calls (by exact h0), CustomGuid.after_eq calls (by exact h0)]
      constructor
      · unfold CustomGuid.make
        by_cases ht : time < 256 ^ c.timestampBytes
        · rw [RawGuid.make_any (by exact ht)]
        · rw [RawGuid.make_late (by exact ht)]
      · rfl
  · intro h
    unfold CustomGuid.init RawGuid.init lookup
    simp only [h, bind, Except.bind]

/-! ### the registries of the package -/

/-- The registries as the package leaves them (raw_guid.py:52-64, fast_affine_xor_chain.py:62-74). -/
def builtin (hashes : Nat → Nat) : Registries where
  raw
    | .int n => (rawConfig n).toOption
    | .name _ => none
  chain
    | .int n => if n ∈ List.range' 1 32 ++ [48, 64, 128, 192, 256] then (AffineConfig.new n (hashes n)).toOption else none
    | .name _ => none

theorem toOption_eq_some {α ε : Type} {x : Except ε α} {a : α} (h : x.toOption = some a) : x = .ok a := by
  cases x with
  | ok b => cases h; rfl
  | error e => cases h

theorem builtin_accepted (hashes : Nat → Nat) : (builtin hashes).Accepted where
  raw id c h := by
    cases id with
    | int n =>
      have h' := toOption_eq_some (x := rawConfig n) h
      unfold rawConfig at h'
      split at h'
      · exact ⟨_, _, _, _, _, h'⟩
      · cases h'
    | name s => cases h
  chain id c h := by
    cases id with
    | int n =>
      simp only [builtin] at h
      split at h
      · exact ⟨_, _, toOption_eq_some h⟩
      · cases h
    | name s => cases h

/-- The configurations that come with the package read back (guid.py:94-108). -/
theorem C86_builtin_reads_back (hashes : Nat → Nat) (hash : ConfigId → Nat → Bytes) {size : Nat} {config : GuidConfig}
    (h : 12 ≤ size ∧ size < 33) (hc : GuidConfig.new (builtin hashes) hash (.int size) size none none = .ok config) :
    GuidsReadBack (builtin hashes) config := by
  unfold GuidConfig.new chainKeySize at hc
  simp only [bind_eq_ok] at hc
  obtain ⟨ks, ⟨b, hb, hks⟩, he⟩ := hc
  cases hks
  cases he
  have hb' : (builtin hashes).chain (.int size) = some b := by
    unfold lookup at hb
    split at hb
    · rename_i x hx; cases hb; exact hx
    · cases hb
  have hbs : b.size = size := by
    simp only [builtin] at hb'
    split at hb'
    · exact (AffineConfig.new_wf (toOption_eq_some hb')).2.1
    · cases hb'
  have hr : (builtin hashes).raw (.int size)
      = some { timestampBytes := 8, prfBytes := size - 10, nodeIdBytes := 1, tickerBytes := 1, size := size } := by
    simp only [builtin, rawConfig, RawConfig.new]
    rw [if_pos h, if_neg (by decide), if_neg (by omega)]
    rfl
  exact (C86_reads_back_iff (builtin_accepted hashes) (config := ⟨.int size, size, 5 * b.size, .int size, .int size, _⟩) hr hb').2 ⟨rfl, hbs⟩

/-- A configuration that a user adds for raw guids of 16 bytes under the name `"node"`: two bytes for the node. -/
def nodeRegistry : Registries where
  raw id := if id = .name "node" then some ⟨8, 5, 2, 1, 16⟩ else (builtin fun _ => 0).raw id
  chain := (builtin fun _ => 0).chain

theorem nodeRegistry_accepted : nodeRegistry.Accepted where
  raw id c h := by
    simp only [nodeRegistry] at h
    split at h
    · cases h; exact ⟨8, 5, 2, 1, 16, rfl⟩
    · exact (builtin_accepted _).raw id c h
  chain := (builtin_accepted _).chain

def zeros : ConfigId → Nat → Bytes := fun _ n => List.replicate n 0

/-- The raw guids are not those of `raw_guid_config_id`, and configurations that can be made do not always have a default key that fits. -/
theorem C86_configurations_not_checked : ¬ RawConfigIdUsed ∧ ¬ DefaultKeysFit := by
  constructor
  · intro h
    have hi : (CustomGuid.init nodeRegistry ⟨.int 16, 16, 80, .name "node", .int 16, List.replicate 80 0⟩ none [7]).toOption.map (·.raw.config)
        = some ⟨8, 6, 1, 1, 16⟩ := by decide +kernel
    rw [Option.map_eq_some_iff] at hi
    obtain ⟨g, hg, hc⟩ := hi
    have := h _ _ _ _ g nodeRegistry_accepted (toOption_eq_some hg)
    rw [hc] at this
    exact absurd this (by decide +kernel)
  · intro h
    have hnew : GuidConfig.new nodeRegistry zeros (.name "node") 16 none (some (.int 12))
        = .ok ⟨.name "node", 16, 80, .name "node", .int 12, List.replicate 80 0⟩ := by decide +kernel
    obtain ⟨g, hg⟩ := h nodeRegistry zeros _ _ _ _ _ [1, 2] ⟨8, 5, 2, 1, 16⟩ nodeRegistry_accepted (fun _ _ => List.length_replicate) hnew rfl rfl
      (by decide +kernel)
    have : (CustomGuid.init nodeRegistry ⟨.name "node", 16, 80, .name "node", .int 12, List.replicate 80 0⟩ none [1, 2]).toOption = none := by
      decide +kernel
    rw [hg] at this
    cases this

/-- A user's configuration that meets the criterion (its own raw guids, and the permutation of the package), with an object of it, and one that
is accepted and does not meet it. -/
example : GuidsReadBack nodeRegistry ⟨.name "node", 16, 80, .name "node", .int 16, List.replicate 80 0⟩ ∧
    (CustomGuid.init nodeRegistry ⟨.name "node", 16, 80, .name "node", .int 16, List.replicate 80 0⟩ none [1, 2]).toOption.isSome = true ∧
    GuidConfig.new nodeRegistry zeros (.name "node") 12 none (some (.int 12))
      = .ok ⟨.name "node", 12, 60, .name "node", .int 12, List.replicate 60 0⟩ ∧
    ¬ GuidsReadBack nodeRegistry ⟨.name "node", 12, 60, .name "node", .int 12, List.replicate 60 0⟩ := by
  obtain ⟨a, ha, hs⟩ : ∃ a, nodeRegistry.chain (.int 16) = some a ∧ a.size = 16 := by
    have : (nodeRegistry.chain (.int 16)).map (·.size) = some 16 := by decide +kernel
    simpa using this
  obtain ⟨b, hb, hsb⟩ : ∃ a, nodeRegistry.chain (.int 12) = some a ∧ a.size = 12 := by
    have : (nodeRegistry.chain (.int 12)).map (·.size) = some 12 := by decide +kernel
    simpa using this
  have hr : nodeRegistry.raw (.name "node") = some ⟨8, 5, 2, 1, 16⟩ := rfl
  refine ⟨(C86_reads_back_iff nodeRegistry_accepted (rc := ⟨8, 5, 2, 1, 16⟩) hr ha).2 ⟨rfl, hs⟩, by decide +kernel, by decide +kernel, ?_⟩
  rw [C86_reads_back_iff nodeRegistry_accepted (rc := ⟨8, 5, 2, 1, 16⟩) hr hb]
  rintro ⟨h, -⟩
  exact absurd h (by decide)

/-- A configuration for sequence ids that meets the criterion and one that does not. -/
example : SidsReadBack nodeRegistry ⟨16, 80, .int 16⟩ ∧ ¬ SidsReadBack nodeRegistry ⟨16, 80, .int 12⟩ := by
  obtain ⟨a, ha, hs⟩ : ∃ a, nodeRegistry.chain (.int 16) = some a ∧ a.size = 16 := by
    have : (nodeRegistry.chain (.int 16)).map (·.size) = some 16 := by decide +kernel
    simpa using this
  obtain ⟨b, hb, hsb⟩ : ∃ a, nodeRegistry.chain (.int 12) = some a ∧ a.size = 12 := by
    have : (nodeRegistry.chain (.int 12)).map (·.size) = some 12 := by decide +kernel
    simpa using this
  refine ⟨(C86_sequence_reads_back_iff nodeRegistry_accepted (by decide) ha).2 hs, ?_⟩
  rw [C86_sequence_reads_back_iff nodeRegistry_accepted (by decide) hb, hsb]
  decide

end Aiootp.Ids
