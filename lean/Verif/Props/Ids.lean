import Verif.Lemmas.Ids
import Verif.Props.Clock
import Verif.Props.Perm

/-
Properties C15 - C18: sequence ids and guids.
-/

namespace Aiootp.Ids

open Perm

/-! ### C15 -/

/-- C15 as documented: no collisions while the difference between the largest and the smallest index is at most
`256 ** size`. -/
def SequenceIdsUniqueAsDocumented : Prop :=
  ∀ size hash config key c, AffineConfig.new size hash = .ok config → sequenceId config key = .ok c →
    ∀ lo i j, lo ≤ i → i ≤ lo + 256 ^ size → lo ≤ j → j ≤ lo + 256 ^ size →
      sidNew c i = sidNew c j → i = j

/-- The claim C15 is false of the code: indexes beyond `256 ** size` are reduced before they are permuted, also when
they lie close together. (One-byte ids, key `[0, 0, 0, 0, 1]`: indexes 256 and 15 collide, and so do 513 and 529.) -/
theorem C15_documented_span_collides : ¬ SequenceIdsUniqueAsDocumented ∧
    ∃ config c, AffineConfig.new 1 1 = .ok config ∧ sequenceId config [0, 0, 0, 0, 1] = .ok c ∧
      sidNew c 256 = sidNew c 15 ∧ (∃ b, sidNew c 256 = some (.ok b)) ∧
      sidNew c 513 = sidNew c 529 ∧ (∃ b, sidNew c 513 = some (.ok b)) := by
  have hc : AffineConfig.new 1 1
      = .ok { size := 1, max := 255, prime := 257, multiplicativeKey := 17, inverseKey := 121 } := by
    decide +kernel
  have hk := rfl (a := sequenceId
    { size := 1, max := 255, prime := 257, multiplicativeKey := 17, inverseKey := 121 } [0, 0, 0, 0, 1])
  have h1 : ∃ config c, AffineConfig.new 1 1 = .ok config ∧ sequenceId config [0, 0, 0, 0, 1] = .ok c ∧
      sidNew c 256 = sidNew c 15 ∧ (∃ b, sidNew c 256 = some (.ok b)) ∧
      sidNew c 513 = sidNew c 529 ∧ (∃ b, sidNew c 513 = some (.ok b)) :=
    ⟨_, _, hc, rfl, by decide +kernel, ⟨_, rfl⟩, by decide +kernel, ⟨_, rfl⟩⟩
  refine ⟨?_, h1⟩
  obtain ⟨config, c, hc, hk, h2, -⟩ := h1
  intro h
  have := h 1 1 config _ c hc hk 0 256 15 (by omega) (by omega) (by omega) (by omega) h2
  omega

/-- C15, what holds: for indexes below `256 ** size`, `read` inverts `new` and ids have the configured size. -/
theorem C15_read_new_partial {size hash : Nat} {config : AffineConfig} {key : Bytes} {c : Chain}
    (hc : AffineConfig.new size hash = .ok config) (hk : sequenceId config key = .ok c)
    {i : Nat} (hi : i < 256 ^ size) :
    ∃ id, sidNew c i = some (.ok id) ∧ id.length = size ∧ sidRead c id = some i := by
  obtain ⟨hwf, rfl, hs⟩ := AffineConfig.new_wf hc
  obtain ⟨hw, hsz⟩ := Chain.new_wf hwf hs hk
  rw [← hsz] at hi
  obtain ⟨v, hv, e, inv, hb⟩ := mask_total hw hi
  refine ⟨beDigits c.size v, by simp [sidNew, e, hb], by rw [length_beDigits, hsz], ?_⟩
  unfold sidRead
  rw [fromBE_beDigits_of_lt hv, inv]

/-- C15, what holds: distinct indexes below `256 ** size` have distinct ids. -/
theorem C15_unique_partial {size hash : Nat} {config : AffineConfig} {key : Bytes} {c : Chain}
    (hc : AffineConfig.new size hash = .ok config) (hk : sequenceId config key = .ok c)
    {i j : Nat} (hi : i < 256 ^ size) (hj : j < 256 ^ size) (h : sidNew c i = sidNew c j) : i = j := by
  obtain ⟨id, h1, -, h2⟩ := C15_read_new_partial hc hk hi
  obtain ⟨id', h1', -, h2'⟩ := C15_read_new_partial hc hk hj
  rw [h1, h1'] at h
  cases h
  rw [h2] at h2'
  exact Option.some.inj h2'

/-- C15, what holds: the ids are all the byte strings of the configured size: every one of them reads as an index below
`256 ** size` that has this id. -/
theorem C15_onto_partial {size hash : Nat} {config : AffineConfig} {key : Bytes} {c : Chain}
    (hc : AffineConfig.new size hash = .ok config) (hk : sequenceId config key = .ok c)
    {id : Bytes} (hid : id.length = size) :
    ∃ i < 256 ^ size, sidRead c id = some i ∧ sidNew c i = some (.ok id) := by
  obtain ⟨hwf, rfl, hs⟩ := AffineConfig.new_wf hc
  obtain ⟨hw, hsz⟩ := Chain.new_wf hwf hs hk
  have hlt : fromBE id < 256 ^ c.size := by rw [hsz, ← hid]; exact fromBE_lt id
  obtain ⟨i, hi, e, p⟩ := Chain.invert_total hw hlt
  rw [hsz] at hi
  refine ⟨i, hi, e, ?_⟩
  unfold sidNew
  rw [p]
  show some (toBytesBE c.size (fromBE id)) = some (.ok id)
  rw [hsz, ← hid, toBytesBE, if_pos (fromBE_lt id), beDigits_fromBE]

/-- An index of `256 ** size` or more is never read back. -/
theorem C15_large_index_not_read_back {size hash : Nat} {config : AffineConfig} {key : Bytes} {c : Chain}
    (hc : AffineConfig.new size hash = .ok config) (hk : sequenceId config key = .ok c)
    {i : Nat} (hi : 256 ^ size ≤ i) {id : Bytes} (hid : id.length = size) : sidRead c id ≠ some i := by
  intro h
  obtain ⟨j, hj, e, -⟩ := C15_onto_partial hc hk hid
  rw [h] at e
  cases e
  omega

/-! ### C16 -/

/-- A `GUID` object made for a size from a key and a node id, after any sequence of `new()` calls. -/
def Reachable (size hash : Nat) (key nodeId : Bytes) (g : Guid) : Prop :=
  ∃ config g0 calls out, AffineConfig.new size hash = .ok config ∧ Guid.new config key nodeId = .ok g0 ∧
    g0.makeAll calls = .ok (out, g)

theorem Reachable.wf {size hash : Nat} {key nodeId : Bytes} {g : Guid} (h : Reachable size hash key nodeId g) :
    ∃ config, AffineConfig.new size hash = .ok config ∧ ∃ perm, Chain.new true config key = .ok perm ∧
      g.WF size perm nodeId := by
  obtain ⟨config, g0, calls, out, hc, hg, hm⟩ := h
  obtain ⟨hw, -, hp⟩ := Guid.new_wf hc hg
  exact ⟨config, hc, g0.permutation, hp, (Guid.makeAll_wf hw hm).1⟩

theorem Reachable.same_chain {size hash : Nat} {key nodeId nodeId' : Bytes} {g g' : Guid}
    (h : Reachable size hash key nodeId g) (h' : Reachable size hash key nodeId' g') :
    ∃ perm, g.WF size perm nodeId ∧ g'.WF size perm nodeId' := by
  obtain ⟨config, hc, perm, hp, hw⟩ := h.wf
  obtain ⟨config', hc', perm', hp', hw'⟩ := h'.wf
  rw [hc] at hc'
  cases hc'
  rw [hp] at hp'
  cases hp'
  exact ⟨perm, hw, hw'⟩

/-- C16. `new` succeeds on every clock reading that fits eight bytes, and any object with the same key (whatever its
node id and state) reads the guid back to the timestamp, token, node id and ticker it was made from. -/
theorem C16_read_new {size hash : Nat} {key nodeId nodeId' : Bytes} {maker reader : Guid}
    (hm : Reachable size hash key nodeId maker) (hr : Reachable size hash key nodeId' reader)
    {time : Nat} {token : Bytes} (ht : time < 256 ^ 8) (hk : token.length = size - 10) :
    ∃ guid maker', maker.make time token = .ok (guid, maker') ∧ guid.length = size ∧
      ∃ r, reader.read guid = .ok r ∧ fromBE r.timestamp = time ∧ r.token = token ∧ r.nodeId = nodeId ∧
        fromBE r.ticker = (maker.raw.tick + 1) % 256 ∧ maker'.raw.tick = (maker.raw.tick + 1) % 256 := by
  obtain ⟨perm, hw, hw'⟩ := hm.same_chain hr
  obtain ⟨v, hv, e, inv, hmk⟩ := Guid.make_ok hw ht hk
  refine ⟨_, _, hmk, length_beDigits _ _,
    { timestamp := beDigits 8 time, token := token, nodeId := nodeId
      ticker := beDigits 1 ((maker.raw.tick + 1) % 256) },
    ?_, fromBE_beDigits_of_lt ht, rfl, rfl, ?_, rfl⟩
  · have hl : (rawBytes time token nodeId ((maker.raw.tick + 1) % 256)).length = size := by
      rw [length_rawBytes hw.nodeLen, hk]; have := hw.sizeGe; omega
    unfold Guid.read
    rw [hw'.config]
    simp only [length_beDigits, ne_eq, not_true_eq_false, if_false]
    rw [hw'.perm, fromBE_beDigits_of_lt hv, inv]
    simp only
    have hb : toBytesBE size (fromBE (rawBytes time token nodeId ((maker.raw.tick + 1) % 256)))
        = .ok (rawBytes time token nodeId ((maker.raw.tick + 1) % 256)) := by
      have hlt := fromBE_lt (rawBytes time token nodeId ((maker.raw.tick + 1) % 256))
      rw [hl] at hlt
      rw [toBytesBE, if_pos hlt]
      congr 1
      have := beDigits_fromBE (rawBytes time token nodeId ((maker.raw.tick + 1) % 256))
      rw [hl] at this
      exact this
    rw [hb]
    simp only
    rw [rawRead_rawBytes hw.sizeGe hk hw.nodeLen]
  · apply fromBE_beDigits_of_lt
    have := Nat.mod_lt (maker.raw.tick + 1) (show 256 > 0 by omega)
    omega

/-- C16. Guids made with the same key, by objects in any states, are equal only if all their raw fields are. -/
theorem C16_equal_only_if {size hash : Nat} {key nodeId nodeId' : Bytes} {g g' : Guid}
    (hg : Reachable size hash key nodeId g) (hg' : Reachable size hash key nodeId' g')
    {time time' : Nat} {token token' guid : Bytes} {h h' : Guid}
    (hk : token.length = size - 10) (hk' : token'.length = size - 10)
    (hm : g.make time token = .ok (guid, h)) (hm' : g'.make time' token' = .ok (guid, h')) :
    time = time' ∧ token = token' ∧ nodeId = nodeId' ∧ h.raw.tick = h'.raw.tick := by
  obtain ⟨perm, hw, hw'⟩ := hg.same_chain hg'
  obtain ⟨ht, -, htk⟩ := Guid.make_wf hw hm
  obtain ⟨ht', -, htk'⟩ := Guid.make_wf hw' hm'
  obtain ⟨v, hv, -, inv, hmk⟩ := Guid.make_ok hw ht hk
  obtain ⟨v', hv', -, inv', hmk'⟩ := Guid.make_ok hw' ht' hk'
  rw [hm] at hmk
  rw [hm'] at hmk'
  have e := (Prod.mk.inj (Run.ok.inj hmk)).1
  have e' := (Prod.mk.inj (Run.ok.inj hmk')).1
  rw [e] at e'
  have hr := masked_inj hv hv' (by
    rw [length_rawBytes hw.nodeLen, length_rawBytes hw'.nodeLen, hk, hk']) inv inv' e'
  obtain ⟨h1, h2, h3, h4⟩ := rawBytes_inj (by rw [hk, hk']) (by rw [hw.nodeLen, hw'.nodeLen]) ht ht'
    (Nat.mod_lt _ (by omega)) (Nat.mod_lt _ (by omega)) hr
  exact ⟨h1, h2, h3, by rw [htk, htk', h4]⟩

theorem config12 : AffineConfig.new 12 0 = .ok
    { size := 12, max := 79228162514264337593543950335, prime := 79228162514264337593543950397,
      multiplicativeKey := 281474976710656, inverseKey := 11689401026694733719129817097 } := by
  decide +kernel

/-- An object that meets the hypotheses. -/
example : ∃ g, Reachable 12 0 (List.replicate 60 7) [5] g ∧ g.raw.tick = 0 :=
  ⟨_, ⟨_, _, [], [], config12, rfl, rfl⟩, rfl⟩

/-! ### C17 -/

/-- C17, what holds: an object used by one thread at a time does not repeat a guid, whatever the random tokens are,
provided two calls with the same clock reading are less than 256 calls apart. -/
theorem C17_sequence_partial {size hash : Nat} {key nodeId : Bytes} {g g' : Guid}
    (hg : Reachable size hash key nodeId g) {calls : List (Nat × Bytes)} {out : List Bytes}
    (htok : ∀ c ∈ calls, c.2.length = size - 10)
    (hclock : ∀ i j (hi : i < calls.length) (hj : j < calls.length), i < j →
      calls[i].1 = calls[j].1 → j - i < 256)
    (hm : g.makeAll calls = .ok (out, g')) : out.Nodup := by
  obtain ⟨config, hc, perm, hp, hw⟩ := hg.wf
  have hlen := (Guid.makeAll_wf hw hm).2.2
  rw [List.nodup_iff_getElem?_ne_getElem?]
  intro i j hij hj heq
  obtain ⟨v, hv, ho, ht, -, inv⟩ := Guid.makeAll_getElem hw hm htok i (by omega)
  obtain ⟨v', hv', ho', ht', -, inv'⟩ := Guid.makeAll_getElem hw hm htok j (by omega)
  rw [ho, ho'] at heq
  have hk := htok calls[i] (List.getElem_mem _)
  have hk' := htok calls[j] (List.getElem_mem _)
  have hr := masked_inj hv hv' (by
    rw [length_rawBytes hw.nodeLen, length_rawBytes hw.nodeLen, hk, hk']) inv inv' (Option.some.inj heq)
  obtain ⟨h1, -, -, h4⟩ := rawBytes_inj (by rw [hk, hk']) rfl ht ht'
    (Nat.mod_lt _ (by omega)) (Nat.mod_lt _ (by omega)) hr
  have := hclock i j (by omega) (by omega) hij h1
  omega

/-- C17, what holds: objects with the same key and different node ids never make the same guid. -/
theorem C17_nodes_partial {size hash : Nat} {key nodeId nodeId' : Bytes} {g g' h h' : Guid}
    (hg : Reachable size hash key nodeId g) (hg' : Reachable size hash key nodeId' g') (hne : nodeId ≠ nodeId')
    {time time' : Nat} {token token' guid guid' : Bytes}
    (hk : token.length = size - 10) (hk' : token'.length = size - 10)
    (hm : g.make time token = .ok (guid, h)) (hm' : g'.make time' token' = .ok (guid', h')) : guid ≠ guid' := by
  rintro rfl
  exact hne (C16_equal_only_if hg hg' hk hk' hm hm').2.2.1

/-- How far apart two nanoseconds with the same nanosecond reading can be (`2 ** 60` ns are 36 years). -/
theorem ns_reading_gap {n n' : Nat} (h : n < n') (hlt : n' < 2 ^ 60)
    (heq : Clock.intTrueDiv n 1 = Clock.intTrueDiv n' 1) : n' - n < 256 := by
  have near : ∀ m, m < 2 ^ 60 → Clock.intTrueDiv m 1 ≤ m + 64 ∧ m ≤ Clock.intTrueDiv m 1 + 64 := by
    intro m hm
    by_cases h0 : m < 1
    · have : m = 0 := by omega
      subst this
      decide
    · rw [Clock.intTrueDiv_of_le h0, Nat.div_one]
      by_cases he : Nat.log2 m ≤ 52
      · rw [if_pos he, Clock.roundHalfEven_exact (by omega) (Nat.mod_one _), Nat.div_one,
          Nat.mul_div_cancel _ (Nat.pow_pos (by omega))]
        omega
      · rw [if_neg he, Nat.one_mul]
        have hle : Nat.log2 m - 52 ≤ 7 := by
          have := (Nat.log2_lt (show m ≠ 0 by omega)).2 hm
          omega
        have hd : 2 ^ (Nat.log2 m - 52) ≤ 2 ^ 7 := Nat.pow_le_pow_right (by omega) hle
        have hpos : 0 < 2 ^ (Nat.log2 m - 52) := Nat.pow_pos (by omega)
        generalize 2 ^ (Nat.log2 m - 52) = d at *
        have e := Nat.div_add_mod m d
        have hr := Nat.mod_lt m hpos
        have hmul : m / d * d = d * (m / d) := Nat.mul_comm _ _
        have hmul' : (m / d + 1) * d = d * (m / d) + d := by rw [Nat.add_mul, hmul]; omega
        unfold Clock.roundHalfEven
        simp only
        split
        · rw [hmul]; omega
        · split
          · rw [hmul']; omega
          · split
            · rw [hmul]; omega
            · rw [hmul']; omega
  have h1 := near n (by omega)
  have h2 := near n' hlt
  omega

/-- C17, what holds: calls made one after the other on different nanoseconds (until the year 2059) give different
guids, although several nanoseconds share a clock reading. -/
theorem C17_different_nanoseconds_partial {size hash : Nat} {key nodeId : Bytes} {g g' : Guid}
    (hg : Reachable size hash key nodeId g) {instants : List (Nat × Bytes)} {out : List Bytes}
    (htok : ∀ c ∈ instants, c.2.length = size - 10)
    (hinc : ∀ i j (hi : i < instants.length) (hj : j < instants.length), i < j → instants[i].1 < instants[j].1)
    (hyear : ∀ c ∈ instants, c.1 < 2 ^ 60)
    (hm : g.makeAll (instants.map fun c => (Clock.intTrueDiv c.1 1, c.2)) = .ok (out, g')) : out.Nodup := by
  apply C17_sequence_partial hg _ _ hm
  · intro c hc
    obtain ⟨d, hd, rfl⟩ := List.mem_map.1 hc
    exact htok d hd
  · intro i j hi hj hij heq
    simp only [List.getElem_map] at heq
    simp only [List.length_map] at hi hj
    have hgap := ns_reading_gap (hinc i j hi hj hij) (hyear _ (List.getElem_mem _)) heq
    have hstep : ∀ k, i + k < instants.length → ∀ hk : i + k < instants.length,
        instants[i].1 + k ≤ instants[i + k].1 := by
      intro k
      induction k with
      | zero => intro _ _; simp
      | succ k ih =>
        intro h1 h2
        have := ih (by omega) (by omega)
        have := hinc (i + k) (i + (k + 1)) (by omega) (by omega) (by omega)
        omega
    have := hstep (j - i) (by omega) (by omega)
    have e : i + (j - i) = j := by omega
    simp only [e] at this
    omega

/-- C17 as a user would expect it, for one object used by several threads: the raw guids (which the mask keeps
distinct, C16) never repeat. -/
def ThreadsNeverRepeat : Prop :=
  ∀ size nodeId g threads schedule, RawGuid.new size nodeId = .ok g →
    (Sys.run { guid := g, pcs := List.replicate threads .idle, out := [] } schedule).out.Nodup

/-- The claim C17 is false of the code when threads share an object: two calls on the same clock reading, with the
same token, can both return the ticker value 2, because the incremented tick is read again after it was stored. -/
theorem C17_threads_repeat : ¬ ThreadsNeverRepeat ∧
    ∃ g, RawGuid.new 12 [0] = .ok g ∧
      (Sys.run { guid := g, pcs := [.idle, .idle], out := [] }
        [.clock 0 9, .token 0 [1, 1], .clock 1 9, .token 1 [1, 1],
         .load 0, .store 0, .load 1, .store 1, .emit 0, .emit 1]).out
      = [.ok [0, 0, 0, 0, 0, 0, 0, 9, 1, 1, 0, 2], .ok [0, 0, 0, 0, 0, 0, 0, 9, 1, 1, 0, 2]] := by
  have h2 : ∃ g, RawGuid.new 12 [0] = .ok g ∧
      (Sys.run { guid := g, pcs := [.idle, .idle], out := [] }
        [.clock 0 9, .token 0 [1, 1], .clock 1 9, .token 1 [1, 1],
         .load 0, .store 0, .load 1, .store 1, .emit 0, .emit 1]).out
      = [.ok [0, 0, 0, 0, 0, 0, 0, 9, 1, 1, 0, 2], .ok [0, 0, 0, 0, 0, 0, 0, 9, 1, 1, 0, 2]] :=
    ⟨_, rfl, by decide +kernel⟩
  refine ⟨?_, h2⟩
  obtain ⟨g, hg, ho⟩ := h2
  intro h
  have := h 12 [0] g 2 [.clock 0 9, .token 0 [1, 1], .clock 1 9, .token 1 [1, 1],
         .load 0, .store 0, .load 1, .store 1, .emit 0, .emit 1] hg
  rw [show List.replicate 2 Pc.idle = [.idle, .idle] from rfl, ho] at this
  simp at this

/-- C17 is also false as documented for two objects with the same key and node id (two processes): on the same
clock reading their first guids are equal when the random tokens are, although this is far less than 256 calls. -/
theorem C17_two_instances_repeat {size hash : Nat} {config : AffineConfig} {key nodeId : Bytes} {g h : Guid}
    (hc : AffineConfig.new size hash = .ok config)
    (hg : Guid.new config key nodeId = .ok g) (hh : Guid.new config key nodeId = .ok h)
    {time : Nat} {token : Bytes} (ht : time < 256 ^ 8) (hk : token.length = size - 10) :
    ∃ guid g' h', g.make time token = .ok (guid, g') ∧ h.make time token = .ok (guid, h') := by
  rw [hg] at hh
  cases hh
  obtain ⟨hw, -, -⟩ := Guid.new_wf hc hg
  obtain ⟨v, -, -, -, hm⟩ := Guid.make_ok hw ht hk
  exact ⟨_, _, _, hm, hm⟩

/-- C17 is false when the clock stands still (or comes back) for 257 calls: the first and the last guid are equal
when their tokens are. -/
theorem C17_ticker_wraps {size hash : Nat} {key nodeId : Bytes} {g g' : Guid}
    (hg : Reachable size hash key nodeId g) {time : Nat} {token : Bytes}
    (hk : token.length = size - 10) {out : List Bytes}
    (hm : g.makeAll (List.replicate 257 (time, token)) = .ok (out, g')) : ¬ out.Nodup := by
  obtain ⟨config, hc, perm, hp, hw⟩ := hg.wf
  have hlen := (Guid.makeAll_wf hw hm).2.2
  have htok : ∀ c ∈ List.replicate 257 (time, token), c.2.length = size - 10 := by
    intro c hc
    rw [List.eq_of_mem_replicate hc]
    exact hk
  obtain ⟨v, hv, ho, -, e, -⟩ := Guid.makeAll_getElem hw hm htok 0 (by rw [List.length_replicate]; omega)
  obtain ⟨v', hv', ho', -, e', -⟩ := Guid.makeAll_getElem hw hm htok 256 (by rw [List.length_replicate]; omega)
  simp only [List.getElem_replicate] at e e'
  rw [show (g.raw.tick + 256 + 1) % 256 = (g.raw.tick + 0 + 1) % 256 by omega] at e'
  rw [e] at e'
  cases e'
  intro hnd
  rw [List.nodup_iff_getElem?_ne_getElem?] at hnd
  exact hnd 0 256 (by omega) (by rw [hlen, List.length_replicate]; omega) (by rw [ho, ho'])

/-- Such a run of 257 calls exists for every object and every clock reading. -/
theorem makeAll_total {size : Nat} {perm : Chain} {nodeId : Bytes} {g : Guid} (hw : g.WF size perm nodeId)
    (calls : List (Nat × Bytes)) (hc : ∀ c ∈ calls, c.1 < 256 ^ 8 ∧ c.2.length = size - 10) :
    ∃ out g', g.makeAll calls = .ok (out, g') := by
  induction calls generalizing g with
  | nil => exact ⟨_, _, rfl⟩
  | cons c rest ih =>
    obtain ⟨time, token⟩ := c
    obtain ⟨h1, h2⟩ := hc (time, token) (by simp)
    obtain ⟨v, -, -, -, hm⟩ := Guid.make_ok hw h1 h2
    obtain ⟨-, hw', -⟩ := Guid.make_wf hw hm
    obtain ⟨out, g', ho⟩ := ih hw' (fun c hc' => hc c (by simp [hc']))
    refine ⟨beDigits size v :: out, g', ?_⟩
    unfold Guid.makeAll
    simp only at hm
    rw [hm]
    simp only
    rw [ho]

example : ∃ g, Reachable 12 0 (List.replicate 60 7) [5] g ∧
    ∃ out g', g.makeAll [(3, [1, 2]), (3, [1, 2]), (4, [0, 0])] = .ok (out, g') := by
  have hr : Reachable 12 0 (List.replicate 60 7) [5] _ := ⟨_, _, [], [], config12, rfl, rfl⟩
  obtain ⟨config, hc, perm, hp, hw⟩ := hr.wf
  exact ⟨_, hr, makeAll_total hw _ (by decide)⟩

/-! ### C18 -/

/-- C18. Containers read from guids of one size compare by their timestamp first: an earlier timestamp sorts before,
and what sorts before does not have a later timestamp. -/
theorem C18_sort_chronological {size : Nat} {c : RawConfig} {a b : Bytes} {x y : Container}
    (hc : rawConfig size = .ok c) (hx : rawRead c a = .ok x) (hy : rawRead c b = .ok y) :
    (fromBE x.timestamp < fromBE y.timestamp → Container.lt x y = true) ∧
    (Container.lt x y = true → fromBE x.timestamp ≤ fromBE y.timestamp) ∧
    (Container.eq x y = true ↔ x = y) := by
  obtain ⟨rfl, h12, h33⟩ := rawConfig_ok hc
  have fields : ∀ {r : Bytes} {z : Container},
      rawRead { timestampBytes := 8, prfBytes := size - 10, nodeIdBytes := 1, tickerBytes := 1, size := size } r
        = .ok z →
      z.timestamp.length = 8 ∧ z.token.length = size - 10 ∧ z.nodeId.length = 1 ∧ z.ticker.length = 1 := by
    intro r z h
    unfold rawRead at h
    split at h
    · cases h
    · rename_i hl
      have hl : r.length = size := by simpa using hl
      cases h
      refine ⟨?_, ?_, ?_, ?_⟩ <;> simp only [List.length_take, List.length_drop, hl] <;> omega
  obtain ⟨x1, x2, x3, x4⟩ := fields hx
  obtain ⟨y1, y2, y3, y4⟩ := fields hy
  have hlen : x.timestamp.length = y.timestamp.length := by omega
  have hlt : Container.lt x y = (bytesLt x.timestamp y.timestamp ||
      (x.timestamp == y.timestamp
        && bytesLt (x.nodeId ++ (x.ticker ++ x.token)) (y.nodeId ++ (y.ticker ++ y.token)))) := by
    unfold Container.lt Container.sortKey
    rw [List.append_assoc, List.append_assoc, List.append_assoc, List.append_assoc, bytesLt_append hlen]
  refine ⟨?_, ?_, ?_⟩
  · intro h
    rw [hlt, (bytesLt_iff hlen).2 h, Bool.true_or]
  · intro h
    rw [hlt, Bool.or_eq_true, Bool.and_eq_true] at h
    rcases h with h | ⟨h, -⟩
    · exact Nat.le_of_lt ((bytesLt_iff hlen).1 h)
    · rw [beq_iff_eq.1 h]
  · constructor
    · intro h
      have h := beq_iff_eq.1 h
      unfold Container.sortKey at h
      obtain ⟨h, e4⟩ := List.append_inj' h (by omega)
      obtain ⟨h, e3⟩ := List.append_inj' h (by omega)
      obtain ⟨e1, e2⟩ := List.append_inj' h (by omega)
      cases x; cases y
      simp_all
    · rintro rfl
      exact beq_self_eq_true _

/-- C18. So guids of later clock readings sort later, whatever nodes made them. -/
theorem C18_guids_sort_by_time {size hash : Nat} {key nodeId nodeId' rnode : Bytes} {g g' reader : Guid}
    (hg : Reachable size hash key nodeId g) (hg' : Reachable size hash key nodeId' g')
    (hr : Reachable size hash key rnode reader)
    {time time' : Nat} {token token' guid guid' : Bytes} {h h' : Guid}
    (hk : token.length = size - 10) (hk' : token'.length = size - 10)
    (hm : g.make time token = .ok (guid, h)) (hm' : g'.make time' token' = .ok (guid', h'))
    (hlt : time < time') :
    ∃ x y, reader.read guid = .ok x ∧ reader.read guid' = .ok y ∧ Container.lt x y = true := by
  obtain ⟨perm, hw, hw'⟩ := hg.same_chain hg'
  obtain ⟨ht, -, -⟩ := Guid.make_wf hw hm
  obtain ⟨ht', -, -⟩ := Guid.make_wf hw' hm'
  obtain ⟨q, m1, e, -, x, hx, tx, -⟩ := C16_read_new hg hr ht hk
  obtain ⟨q', m2, e', -, y, hy, ty, -⟩ := C16_read_new hg' hr ht' hk'
  rw [hm] at e
  rw [hm'] at e'
  cases e
  cases e'
  refine ⟨x, y, hx, hy, ?_⟩
  have read_raw : ∀ {gd : Bytes} {z : Container}, reader.read gd = .ok z →
      ∃ r, rawRead reader.raw.config r = .ok z := by
    intro gd z hz
    unfold Guid.read at hz
    split at hz
    · cases hz
    · split at hz
      · cases hz
      · split at hz
        · cases hz
        · split at hz
          · rename_i hrr; cases hz; exact ⟨_, hrr⟩
          · cases hz
  obtain ⟨config, -, perm2, -, hwr⟩ := hr.wf
  obtain ⟨r1, h1⟩ := read_raw hx
  obtain ⟨r2, h2⟩ := read_raw hy
  have hconf : rawConfig size = .ok reader.raw.config := by
    have h12 := hwr.sizeGe
    have h33 := hwr.sizeLt
    unfold rawConfig RawConfig.new
    rw [if_pos ⟨h12, h33⟩, if_neg (by decide), if_neg (by omega), hwr.config]
  exact (C18_sort_chronological hconf h1 h2).1 (by omega)

example : ∃ x y, rawRead { timestampBytes := 8, prfBytes := 2, nodeIdBytes := 1, tickerBytes := 1, size := 12 }
      [0, 0, 0, 0, 0, 0, 1, 9, 255, 255, 255, 255] = .ok x ∧
    rawRead { timestampBytes := 8, prfBytes := 2, nodeIdBytes := 1, tickerBytes := 1, size := 12 }
      [0, 0, 0, 0, 0, 0, 2, 0, 0, 0, 0, 0] = .ok y ∧ Container.lt x y = true :=
  ⟨_, _, rfl, rfl, by decide⟩

/-- C18, the order of two raw guids is the one of their sort keys: the first byte that differs decides, and a proper beginning comes first. -/
theorem C18_lexicographic (a b : Container) : a.lt b = true ↔
    (∃ p x y xs ys, a.sortKey = p ++ x :: xs ∧ b.sortKey = p ++ y :: ys ∧ x.toNat < y.toNat) ∨ ∃ y ys, b.sortKey = a.sortKey ++ y :: ys := by
  show bytesLt a.sortKey b.sortKey = true ↔ _
  generalize a.sortKey = u
  generalize b.sortKey = v
  induction u generalizing v with
  | nil =>
    cases v with
    | nil => simp [bytesLt]
    | cons y ys => simp [bytesLt]
  | cons x xs ih =>
    cases v with
    | nil => simp [bytesLt]
    | cons y ys =>
      simp only [bytesLt, Bool.or_eq_true, decide_eq_true_eq, Bool.and_eq_true, beq_iff_eq, ih]
      constructor
      · rintro (h | ⟨h, ⟨p, x', y', xs', ys', rfl, rfl, hlt⟩ | ⟨y', ys', rfl⟩⟩)
        · exact .inl ⟨[], x, y, xs, ys, rfl, rfl, h⟩
        · exact .inl ⟨x :: p, x', y', xs', ys', rfl, by rw [UInt8.toNat_inj.1 h]; rfl, hlt⟩
        · exact .inr ⟨y', ys', by rw [UInt8.toNat_inj.1 h]; rfl⟩
      · rintro (⟨p, x', y', xs', ys', h1, h2, hlt⟩ | ⟨y', ys', h⟩)
        · cases p with
          | nil =>
            injection h1 with h1 _
            injection h2 with h2 _
            left; rw [h1, h2]; exact hlt
          | cons z p =>
            injection h1 with h1 h1'
            injection h2 with h2 h2'
            exact .inr ⟨by rw [h1, h2], .inl ⟨p, x', y', xs', ys', h1', h2', hlt⟩⟩
        · injection h with h1 h2
          exact .inr ⟨by rw [h1], .inr ⟨y', ys', h2⟩⟩

example : ∃ a b : Container, a.lt b = true ∧ b.lt a = false := ⟨⟨[1], [9], [1], [1]⟩, ⟨[1], [3], [2], [1]⟩, by decide, by decide⟩

end Aiootp.Ids
