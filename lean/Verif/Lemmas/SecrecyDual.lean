import Verif.Lemmas.SecrecyPermute

/-
The dual-output ciphers.
-/

namespace Aiootp.Secrecy

open Oracle Cipher Perm

variable {K : Nat}

/-! ### the mask of the inner header -/

theorem piece_piece {j n i k : Nat} (h : j + n ≤ k) (b : Bytes) : piece j n (piece i k b) = piece (i + j) n b := by
  unfold piece
  rw [List.drop_take, List.take_take, Nat.min_eq_left (by omega), List.drop_drop]

theorem chain_new_fast {config : AffineConfig} {key : Bytes} {c : Chain} (h : Chain.new true config key = .ok c) :
    ∃ aff, Affine.new config (piece (3 * config.size) (2 * config.size) key) = .ok aff ∧
      c = { size := config.size, affIn := aff, affMid := aff, affOut := aff, inKey := fromBE (piece 0 config.size key)
            inMidKey := fromBE (piece config.size config.size key) ^^^ repeatByte 0xa3 config.size
            outMidKey := fromBE (piece config.size config.size key) ^^^ repeatByte 0x1b config.size
            outKey := fromBE (piece (2 * config.size) config.size key), increment := repeatByte 0x8d config.size } := by
  unfold Chain.new at h
  by_cases hl : key.length = 5 * config.size
  · simp only [hl, if_true, bind_eq_ok, pure, Except.pure] at h
    obtain ⟨aff, h1, _, h2, _, h3, h4⟩ := h
    cases h2; cases h3; cases h4
    exact ⟨_, h1, rfl⟩
  · simp only [if_true] at h
    rw [if_neg hl] at h
    cases h

/-- What a header becomes before the last key is added. -/
def unmasked (E : Env) (i x : Nat) (a : Bytes) : Nat := ((permFrom E i a).uncappedPermute (x ^^^ (permFrom E i a).inKey)).getD 0

theorem header_masked {E : Env} {i : Nat} (h : EnvWF E i) (hK : E.cfg.primerKeyBytes (5 * i) ≤ K) {x : Nat} (hx : x < 256 ^ i) (a : Digest K) :
    (permFrom E i a.1).permute x = some (fromBE (piece (E.cfg.primerKeyBytes (5 * i) - 5 * i + 2 * i) i a.1) ^^^ unmasked E i x a.1) ∧ unmasked E i x a.1 < 256 ^ i := by
  obtain ⟨hnew, hwf, hsize⟩ := permFrom_ok h hK a
  have hcs : E.permConfig.size = i := by
    obtain ⟨hash, hash_ok⟩ := h.perm
    exact (AffineConfig.new_wf hash_ok).2.1
  have hin : x ^^^ (permFrom E i a.1).inKey < 256 ^ i := xor_lt hx (by have := hwf.inKey; rwa [hsize] at this)
  obtain ⟨y, hylt, hy, _⟩ := Chain.uncapped_total hwf (x := x ^^^ (permFrom E i a.1).inKey) (by rw [hsize]; exact hin)
  have hu : unmasked E i x a.1 = y := by unfold unmasked; rw [hy]; rfl
  rw [hsize] at hylt
  rw [hu, Chain.permute_eq, hy]
  refine ⟨?_, hylt⟩
  obtain ⟨aff, _, e⟩ := chain_new_fast hnew
  have hout : (permFrom E i a.1).outKey = fromBE (piece (E.cfg.primerKeyBytes (5 * i) - 5 * i + 2 * i) i a.1) := by
    rw [e]
    simp only
    rw [hcs, piece_piece (by omega)]
  rw [Option.map_some, hout, Nat.xor_comm]

theorem unmasked_splice {E : Env} {i : Nat} (h : EnvWF E i) (hK : E.cfg.primerKeyBytes (5 * i) ≤ K) (x : Nat)
    (hle : E.cfg.primerKeyBytes (5 * i) - 5 * i + 2 * i + i ≤ K) (a : Digest K) (s : Digest i) :
    unmasked E i x (splice (E.cfg.primerKeyBytes (5 * i) - 5 * i + 2 * i) i hle a s).1 = unmasked E i x a.1 := by
  obtain ⟨hnew, _, _⟩ := permFrom_ok h hK a
  obtain ⟨hnew', _, _⟩ := permFrom_ok h hK (splice (E.cfg.primerKeyBytes (5 * i) - 5 * i + 2 * i) i hle a s)
  have hcs : E.permConfig.size = i := by
    obtain ⟨hash, hash_ok⟩ := h.perm
    exact (AffineConfig.new_wf hash_ok).2.1
  obtain ⟨aff, ha, e⟩ := chain_new_fast hnew
  obtain ⟨aff', ha', e'⟩ := chain_new_fast hnew'
  rw [hcs] at ha ha'
  rw [piece_piece (by omega), splice_after _ (by omega), ← piece_piece (k := 5 * i) (by omega), ha] at ha'
  cases ha'
  unfold unmasked
  rw [e, e']
  simp only [Chain.uncappedPermute]
  rw [hcs, piece_piece (by omega), piece_piece (by omega), splice_before _ (by omega), splice_before _ (by omega), ← piece_piece (k := 5 * i) (by omega),
    ← piece_piece (j := i) (k := 5 * i) (by omega)]

/-! ### the two sides of the keystream -/

def sides (E : DualEnv) (k : DualKeys) (r : Bytes) : HashTree K (Bytes × DualKeys) :=
  .ask (k.left ++ E.leftSlice r) fun al => .ask (k.right ++ E.rightSlice r) fun ar =>
    .done (al.1.take E.cfg.shmacBlocksize ++ ar.1.take E.cfg.shmacBlocksize, { k with left := k.left ++ E.leftSlice r, right := k.right ++ E.rightSlice r })

theorem sides_out {E : DualEnv} (hK : E.cfg.shmacBlocksize ≤ K) (k : DualKeys) (r : Bytes) :
    (sides E k r : HashTree K _).AllOut fun ks => ks.1.length = E.cfg.shmacDoubleBlocksize ∧
      ks.2 = { k with left := k.left ++ E.leftSlice r, right := k.right ++ E.rightSlice r } := by
  intro al ar
  have h1 := al.2
  have h2 := ar.2
  refine ⟨?_, rfl⟩
  show (al.1.take E.cfg.shmacBlocksize ++ ar.1.take E.cfg.shmacBlocksize).length = _
  rw [List.length_append, List.length_take, List.length_take, Sizes.shmacDoubleBlocksize]
  omega

theorem sides_piece {sb s l : Nat} (hs : s + l = sb) (hK : sb ≤ K) (al ar : Digest K) {t : Bytes} (ht : t.length = 2 * l) :
    piece s (2 * l) (al.1.take sb ++ ar.1.take sb) = t ↔ piece s l al.1 = t.take l ∧ piece 0 l ar.1 = t.drop l := by
  have h1 := al.2
  have h2 := ar.2
  have e : piece s (2 * l) (al.1.take sb ++ ar.1.take sb) = piece s l al.1 ++ piece 0 l ar.1 := by
    unfold piece
    rw [List.drop_append, List.take_append, List.length_take, List.length_drop, List.length_take, Nat.min_eq_left (by omega), show s - sb = 0 by omega, List.drop_zero,
      List.drop_zero, List.drop_take, show sb - s = l by omega, List.take_take, List.take_take, Nat.min_eq_right (by omega), show 2 * l - l = l by omega,
      Nat.min_eq_left (by omega)]
  rw [e]
  constructor
  · rintro rfl
    rw [List.take_left' (length_piece (by omega) al), List.drop_left' (length_piece (by omega) al)]
    exact ⟨rfl, rfl⟩
  · rintro ⟨e1, e2⟩
    rw [e1, e2, List.take_append_drop]

/-- Keys that are cut from both sides are uniform. -/
theorem sides_chance {γ : Type} [DecidableEq γ] {E : DualEnv} {k : DualKeys} {r : Bytes} {g : Bytes × DualKeys → γ} {o : γ} {s l : Nat} (hs : s + l = E.cfg.shmacBlocksize)
    (hK : E.cfg.shmacBlocksize ≤ K) {t : Bytes} (ht : t.length = 2 * l)
    (hg : ∀ ks : Bytes × DualKeys, ks.1.length = E.cfg.shmacDoubleBlocksize → (g ks = o ↔ piece s (2 * l) ks.1 = t)) :
    ((sides E k r : HashTree K _).map g).chance o = 1 / 256 ^ (2 * l) := by
  have key : ∀ al ar : Digest K, (if g (al.1.take E.cfg.shmacBlocksize ++ ar.1.take E.cfg.shmacBlocksize,
      { k with left := k.left ++ E.leftSlice r, right := k.right ++ E.rightSlice r }) = o then (1 : ℚ) else 0) =
      if piece s l al.1 = t.take l then (if piece 0 l ar.1 = t.drop l then (1 : ℚ) else 0) else 0 := by
    intro al ar
    have h1 := al.2
    have h2 := ar.2
    have := hg (al.1.take E.cfg.shmacBlocksize ++ ar.1.take E.cfg.shmacBlocksize, { k with left := k.left ++ E.leftSlice r, right := k.right ++ E.rightSlice r })
      (by show (al.1.take E.cfg.shmacBlocksize ++ ar.1.take E.cfg.shmacBlocksize).length = _
          rw [List.length_append, List.length_take, List.length_take, Sizes.shmacDoubleBlocksize]; omega)
    simp only [this, sides_piece hs hK al ar ht]
    by_cases a1 : piece s l al.1 = t.take l <;> simp [a1]
  show (∑ al : Digest K, (∑ ar : Digest K, (if g (al.1.take E.cfg.shmacBlocksize ++ ar.1.take E.cfg.shmacBlocksize,
      { k with left := k.left ++ E.leftSlice r, right := k.right ++ E.rightSlice r }) = o then (1 : ℚ) else 0)) / Fintype.card (Digest K)) / Fintype.card (Digest K) = _
  have inner : ∀ al : Digest K, (∑ ar : Digest K, (if g (al.1.take E.cfg.shmacBlocksize ++ ar.1.take E.cfg.shmacBlocksize,
      { k with left := k.left ++ E.leftSlice r, right := k.right ++ E.rightSlice r }) = o then (1 : ℚ) else 0)) / Fintype.card (Digest K) =
      if piece s l al.1 = t.take l then 1 / 256 ^ l else 0 := by
    intro al
    simp only [key]
    by_cases a1 : piece s l al.1 = t.take l
    · simp only [a1, if_true]
      exact sum_piece (K := K) (i := 0) (n := l) (by omega) (fun _ => t.drop l) (fun _ => by rw [List.length_drop]; omega) (fun _ _ => rfl) 1
    · simp [a1]
  simp only [inner]
  rw [sum_piece (K := K) (i := s) (n := l) (by omega) (fun _ => t.take l) (fun _ => by rw [List.length_take]; omega) (fun _ _ => rfl), div_div, ← pow_add, two_mul]

/-! ### blocks -/

def dualX (c : Sizes) (key b : Bytes) : Bytes := beDigits c.blocksize (fromBE (c.embeddedCiphertextSlice.of key) ^^^ fromBE b)

def dualU (c : Sizes) (key b : Bytes) : Bytes :=
  beDigits (c.blocksize - c.innerHeaderBytes) (fromBE (c.firstKeySlice.of key) ^^^ fromBE (b.drop c.innerHeaderBytes))

def dualMask (c : Sizes) (perm : Chain) (b : Bytes) : Bytes := beDigits c.innerHeaderBytes ((perm.permute (fromBE (b.take c.innerHeaderBytes))).getD 0)

def dualStep (E : DualEnv) : Step K DualKeys := fun m p d perm k b =>
  match k.started with
  | true => (sides E k (d ++ p)).map fun ks => (dualX E.cfg ks.1 b, m ++ embedded E.cfg ks.1 (dualX E.cfg ks.1 b), ks.2)
  | false =>
    .ask (m ++ sivBytes E d (b.take E.cfg.innerHeaderBytes) (dualMask E.cfg perm b)) fun a =>
      (sides E k (a.1.take E.cfg.shmacDoubleBlocksize)).map fun ks =>
        (dualMask E.cfg perm b ++ dualU E.cfg ks.1 b,
          m ++ sivBytes E d (b.take E.cfg.innerHeaderBytes) (dualMask E.cfg perm b) ++ embedded E.cfg ks.1 (dualMask E.cfg perm b ++ dualU E.cfg ks.1 b),
          { ks.2 with started := true })

/-- What is asked of a side up to some size. -/
def beyond (base : Bytes) (n : Nat) : Set Bytes := {q | ∃ w, q = base ++ w ∧ 0 < w.length ∧ w.length ≤ n}

theorem beyond_mono {base : Bytes} {n n' : Nat} (h : n ≤ n') : beyond base n ⊆ beyond base n' := fun _ ⟨w, e, h0, hw⟩ => ⟨w, e, h0, by omega⟩

theorem exactly.mem' {base m : Bytes} {n n' : Nat} (h : exactly base n m) (h0 : 0 < n) (hn : n ≤ n') : m ∈ beyond base n' := by
  obtain ⟨w, rfl, hw⟩ := h
  exact ⟨w, rfl, by omega, by omega⟩

theorem exactly.notMem' {base m : Bytes} {n n' : Nat} (h : exactly base n m) (hn : n' < n) : m ∉ beyond base n' := by
  obtain ⟨w, rfl, hw⟩ := h
  rintro ⟨v, e, h0, hv⟩
  rw [List.append_cancel_left_eq] at e
  subst e
  omega

/-- Nothing begins with both. -/
def Apart (x y : Bytes) : Prop := ∀ w v, x ++ w ≠ y ++ v

/-- How much the stream-hmac has absorbed after `j` blocks. -/
def absorbed (sb : Nat) : Nat → Nat
  | 0 => 0
  | j + 1 => 3 * sb + 2 * sb * j

structure DualInv (E : DualEnv) (n : Nat) (mac left right : Bytes) (j : Nat) (m : Bytes) (k : DualKeys) : Prop where
  started : k.started = decide (0 < j)
  mac : exactly mac (absorbed E.cfg.shmacBlocksize j) m
  left : exactly left (n * j) k.left
  right : exactly right (n * j) k.right

def dualPast (E : DualEnv) (n : Nat) (mac left right : Bytes) (j : Nat) : Set Bytes :=
  under mac (absorbed E.cfg.shmacBlocksize j) ∪ (beyond left (n * j) ∪ beyond right (n * j))

def dualMid (E : DualEnv) (n : Nat) (mac left right : Bytes) (j : Nat) : Set Bytes :=
  under mac (absorbed E.cfg.shmacBlocksize j + if j = 0 then E.cfg.shmacBlocksize else 0) ∪ (beyond left (n * (j + 1)) ∪ beyond right (n * (j + 1)))

section
variable {E : DualEnv} (h : DualSetup E) {n : Nat}
  (hn : ∀ r : Bytes, r.length = 2 * E.cfg.shmacBlocksize → (E.leftSlice r).length = n ∧ (E.rightSlice r).length = n) (hn0 : 0 < n)

include h

omit h in
theorem dualMask_length (c : Sizes) (perm : Chain) (b : Bytes) : (dualMask c perm b).length = c.innerHeaderBytes := length_beDigits ..

theorem siv_length {d b mask : Bytes} (hd : d.length = E.cfg.shmacBlocksize) (hb : b.length = E.cfg.blocksize) (hm : mask.length = E.cfg.innerHeaderBytes) :
    (sivBytes E d (b.take E.cfg.innerHeaderBytes) mask).length = E.cfg.shmacBlocksize := by
  have h1 := h.wf.header_le
  have h2 := h.wf.header_digest
  unfold sivBytes
  rw [Sizes.siv_digest_eq, List.length_append, List.length_append, List.length_drop, List.length_take, hm, hd]
  omega

theorem embedded_length {key X : Bytes} (hk : key.length = E.cfg.shmacDoubleBlocksize) (hX : X.length = E.cfg.blocksize) :
    (embedded E.cfg key X).length = 2 * E.cfg.shmacBlocksize := by
  have := h.wf.cap_eq
  have hdb : E.cfg.shmacDoubleBlocksize = 2 * E.cfg.shmacBlocksize := rfl
  unfold embedded
  rw [List.length_append, List.length_append, h.wf.length_left hk, h.wf.length_right hk, hX]
  omega

include hn hn0

omit h in
/-- One turn of the two sides: its questions are new. -/
theorem sides_fresh {mac left right : Bytes} (hml : Apart mac left) (hmr : Apart mac right) (hlr : Apart left right) {j : Nat} {m : Bytes} {k : DualKeys}
    (hi : DualInv E n mac left right j m k) {r : Bytes} (hr : r.length = 2 * E.cfg.shmacBlocksize) :
    (sides E k r : HashTree K _).Fresh (under mac (absorbed E.cfg.shmacBlocksize j + if j = 0 then E.cfg.shmacBlocksize else 0) ∪ (beyond left (n * j) ∪ beyond right (n * j))) ∧
    (sides E k r : HashTree K _).AllIn (beyond left (n * (j + 1)) ∪ beyond right (n * (j + 1))) := by
  obtain ⟨l1, l2⟩ := hn r hr
  have el : exactly left (n * (j + 1)) (k.left ++ E.leftSlice r) := by rw [Nat.mul_succ]; exact hi.left.append l1
  have er : exactly right (n * (j + 1)) (k.right ++ E.rightSlice r) := by rw [Nat.mul_succ]; exact hi.right.append l2
  have hlt : n * j < n * (j + 1) := by rw [Nat.mul_succ]; omega
  refine ⟨⟨?_, fun al => ⟨?_, fun _ => trivial⟩⟩, .inl (el.mem' (by omega) (Nat.le_refl _)), fun al => ⟨.inr (er.mem' (by omega) (Nat.le_refl _)), fun _ => trivial⟩⟩
  · rintro (⟨w, e, _⟩ | hq | ⟨w, e, _⟩)
    · obtain ⟨v, e', _⟩ := el
      exact hml w v (by rw [← e, ← e'])
    · exact el.notMem' hlt hq
    · obtain ⟨v, e', _⟩ := el
      exact hlr v w (by rw [← e, ← e'])
  · rintro (e0 | ⟨w, e, _⟩ | ⟨w, e, _⟩ | hq)
    · obtain ⟨v, e', _⟩ := el
      obtain ⟨w, e, _⟩ := er
      exact hlr v w (by rw [← e, ← e', e0])
    · obtain ⟨v, e', _⟩ := er
      exact hmr w v (by rw [← e, ← e'])
    · obtain ⟨v, e', _⟩ := er
      exact hlr w v (by rw [← e, ← e'])
    · exact er.notMem' hlt hq

omit hn hn0 in
theorem dual_mask {perm : Chain} (hwf : perm.WF) (hs : perm.size = E.cfg.innerHeaderBytes) {b : Bytes} (hb : b.length = E.cfg.blocksize) :
    ∃ y, y < 256 ^ E.cfg.innerHeaderBytes ∧ perm.permute (fromBE (b.take E.cfg.innerHeaderBytes)) = some y ∧ perm.invert y = some (fromBE (b.take E.cfg.innerHeaderBytes)) ∧
      dualMask E.cfg perm b = beDigits E.cfg.innerHeaderBytes y := by
  have hle := h.wf.header_le
  have hlt : fromBE (b.take E.cfg.innerHeaderBytes) < 256 ^ E.cfg.innerHeaderBytes := by
    apply fromBE_lt_of_length
    rw [List.length_take]; omega
  obtain ⟨y, hylt, hy, hinv⟩ := Chain.permute_total hwf (x := fromBE (b.take E.cfg.innerHeaderBytes)) (by rw [hs]; exact hlt)
  rw [hs] at hylt
  exact ⟨y, hylt, hy, hinv, by unfold dualMask; rw [hy]; rfl⟩

omit hn hn0 in
/-- The chance of a first block: its header is masked, and the rest is uniform. -/
theorem dual_first_chance (hK : E.cfg.primerKeyBytes (5 * E.cfg.innerHeaderBytes) ≤ K) {m p d b o : Bytes} {perm : Chain} {k : DualKeys} (hst : k.started = false)
    (hb : b.length = E.cfg.blocksize) (ho : o.length = E.cfg.blocksize) :
    ((dualStep E m p d perm k b : HashTree K _).map Prod.fst).chance o =
      if dualMask E.cfg perm b = o.take E.cfg.innerHeaderBytes then (1 : ℚ) / 256 ^ (E.cfg.blocksize - E.cfg.innerHeaderBytes) else 0 := by
  have hwf0 := h.wf
  have hle := hwf0.header_le
  have heven := hwf0.header_even
  have hbeven := hwf0.block_even
  have hcap := hwf0.cap_eq
  have hdb : E.cfg.shmacDoubleBlocksize = 2 * E.cfg.shmacBlocksize := rfl
  obtain ⟨p1, p2⟩ := primer_ge (i := E.cfg.innerHeaderBytes) (E := E.toEnv) h.usable.env
  have hsbK : E.cfg.shmacBlocksize ≤ K := by omega
  unfold dualStep
  rw [hst]
  have each : ∀ a' : Digest K, (((sides E k (a'.1.take E.cfg.shmacDoubleBlocksize) : HashTree K _).map fun ks =>
      (dualMask E.cfg perm b ++ dualU E.cfg ks.1 b,
        m ++ sivBytes E d (b.take E.cfg.innerHeaderBytes) (dualMask E.cfg perm b) ++ embedded E.cfg ks.1 (dualMask E.cfg perm b ++ dualU E.cfg ks.1 b),
        ({ ks.2 with started := true } : DualKeys))).map Prod.fst).chance o =
      if dualMask E.cfg perm b = o.take E.cfg.innerHeaderBytes then (1 : ℚ) / 256 ^ (E.cfg.blocksize - E.cfg.innerHeaderBytes) else 0 := by
    intro a'
    have hmap : ((sides E k (a'.1.take E.cfg.shmacDoubleBlocksize) : HashTree K _).map fun ks =>
      (dualMask E.cfg perm b ++ dualU E.cfg ks.1 b,
        m ++ sivBytes E d (b.take E.cfg.innerHeaderBytes) (dualMask E.cfg perm b) ++ embedded E.cfg ks.1 (dualMask E.cfg perm b ++ dualU E.cfg ks.1 b),
        ({ ks.2 with started := true } : DualKeys))).map Prod.fst =
        (sides E k (a'.1.take E.cfg.shmacDoubleBlocksize) : HashTree K _).map fun ks => dualMask E.cfg perm b ++ dualU E.cfg ks.1 b := rfl
    rw [hmap]
    by_cases hmask : dualMask E.cfg perm b = o.take E.cfg.innerHeaderBytes
    · rw [if_pos hmask]
      have hl2 : E.cfg.blocksize - E.cfg.innerHeaderBytes = 2 * (E.cfg.blocksize / 2 - E.cfg.innerHeaderBytes / 2) := by omega
      rw [hl2]
      refine sides_chance (s := E.cfg.cap + E.cfg.innerHeaderBytes / 2) (l := E.cfg.blocksize / 2 - E.cfg.innerHeaderBytes / 2) (by omega) hsbK
        (t := beDigits (E.cfg.blocksize - E.cfg.innerHeaderBytes) (fromBE (o.drop E.cfg.innerHeaderBytes) ^^^ fromBE (b.drop E.cfg.innerHeaderBytes)))
        (by rw [length_beDigits]; omega) fun ks hks => ?_
      have hod : (o.drop E.cfg.innerHeaderBytes).length = E.cfg.blocksize - E.cfg.innerHeaderBytes := by rw [List.length_drop]; omega
      have hbd : (b.drop E.cfg.innerHeaderBytes).length = E.cfg.blocksize - E.cfg.innerHeaderBytes := by rw [List.length_drop]; omega
      have e1 : dualMask E.cfg perm b ++ dualU E.cfg ks.1 b = o ↔ dualU E.cfg ks.1 b = o.drop E.cfg.innerHeaderBytes := by
        constructor
        · intro e
          rw [← e, List.drop_left' (dualMask_length ..)]
        · intro e
          rw [e, hmask, List.take_append_drop]
      rw [e1, dualU, xor_eq_iff (hwf0.length_first_key hks) hod (fromBE_lt_of_length hbd), hwf0.first_key_eq hks, ← hl2]
      rfl
    · rw [if_neg hmask]
      refine Tree.chance_zero ((sides_out hsbK k _).bind ?_)
      rintro ⟨key, k'⟩ _ e
      apply hmask
      have e' : dualMask E.cfg perm b ++ dualU E.cfg key b = o := e
      rw [← e', List.take_left' (dualMask_length ..)]
  show (∑ a' : Digest K, (((sides E k (a'.1.take E.cfg.shmacDoubleBlocksize) : HashTree K _).map _).map Prod.fst).chance o) / Fintype.card (Digest K) = _
  rw [Finset.sum_congr rfl fun a' _ => each a', Finset.sum_const, nsmul_eq_mul, Finset.card_univ, mul_comm, mul_div_assoc, div_self, mul_one]
  rw [card_digest]
  exact_mod_cast (Nat.pow_pos (by decide : 0 < 256)).ne'

theorem dual_machine (hK : E.cfg.primerKeyBytes (5 * E.cfg.innerHeaderBytes) ≤ K) {mac left right : Bytes} (hml : Apart mac left) (hmr : Apart mac right) (hlr : Apart left right) :
    Machine (K := K) E.cfg E.cfg.innerHeaderBytes (permFrom E.toEnv E.cfg.innerHeaderBytes) (dualStep E) (DualInv E n mac left right) (dualPast E n mac left right)
      (dualMid E n mac left right) := by
  have u := h.usable
  have hwf0 := h.wf
  have hle := hwf0.header_le
  have heven := hwf0.header_even
  have hbeven := hwf0.block_even
  have hhd := hwf0.header_digest
  have hhp := hwf0.header_pos
  have hcap := hwf0.cap_eq
  have hdb : E.cfg.shmacDoubleBlocksize = 2 * E.cfg.shmacBlocksize := rfl
  have hsb : 0 < E.cfg.shmacBlocksize := by omega
  obtain ⟨p1, p2⟩ := primer_ge (i := E.cfg.innerHeaderBytes) (E := E.toEnv) u.env
  have hsbK : E.cfg.shmacBlocksize ≤ K := by omega
  have hnj : ∀ j, n * j < n * (j + 1) := fun j => by rw [Nat.mul_succ]; omega
  have habs : ∀ j, absorbed E.cfg.shmacBlocksize j + (if j = 0 then E.cfg.shmacBlocksize else 0) < absorbed E.cfg.shmacBlocksize (j + 1) := by
    intro j
    cases j with
    | zero => simp [absorbed]; omega
    | succ j => simp only [absorbed, Nat.mul_succ]; simp; omega
  have hXlen : ∀ key b : Bytes, (dualX E.cfg key b).length = E.cfg.blocksize := fun _ _ => length_beDigits ..
  have hUlen : ∀ (perm : Chain) (key b : Bytes), (dualMask E.cfg perm b ++ dualU E.cfg key b).length = E.cfg.blocksize := fun perm key b => by
    rw [List.length_append, dualMask_length, dualU, length_beDigits]; omega
  have hal : ∀ a : Digest K, (a.1.take E.cfg.shmacDoubleBlocksize).length = 2 * E.cfg.shmacBlocksize := fun a => by
    have := a.2; rw [List.length_take]; omega
  have hrat : ∀ {d p : Bytes}, p.length = E.cfg.shmacBlocksize → d.length = E.cfg.shmacBlocksize → (d ++ p).length = 2 * E.cfg.shmacBlocksize := by
    intro d p hp hd; rw [List.length_append]; omega
  refine ⟨h.tag_pos, h.tag_le, by omega, fun a => (permFrom_ok u.env hK a).2, fun j => ?_, fun j => ?_, ?_, ?_, ?_, ?_, ?_⟩
  · exact Set.union_subset_union (under_mono (Nat.le_add_right _ _)) (Set.union_subset_union (beyond_mono (hnj j).le) (beyond_mono (hnj j).le))
  · exact Set.union_subset_union_left _ (under_mono (habs j).le)
  · intro j m p d perm k b hm hwf hs hp hd hb
    cases j with
    | succ j =>
      have hst : k.started = true := by rw [hm.started]; simp
      unfold dualStep
      rw [hst]
      have := (sides_fresh (K := K) hn hn0 hml hmr hlr hm (hrat hp hd)).1
      exact this.map
    | zero =>
      have hst : k.started = false := by rw [hm.started]; simp
      unfold dualStep
      rw [hst]
      have hm1 := hm.mac.append (siv_length h hd hb (dualMask_length E.cfg perm b))
      refine ⟨?_, fun a => Tree.Fresh.map ((sides_fresh (K := K) hn hn0 hml hmr hlr hm (hal a)).1.mono ?_)⟩
      · rintro (hq | ⟨w, _, h0, h1⟩ | ⟨w, _, h0, h1⟩)
        · exact hm1.notMem (by simp only [absorbed]; omega) hq
        · omega
        · omega
      · rintro q (rfl | ⟨w, rfl, h1⟩ | hq)
        · exact .inl (hm1.mem (by simp))
        · exact .inl ⟨w, rfl, by omega⟩
        · exact .inr hq
  · intro j m p d perm k b hm hwf hs hp hd hb
    cases j with
    | succ j =>
      have hst : k.started = true := by rw [hm.started]; simp
      unfold dualStep
      rw [hst]
      have := (sides_fresh (K := K) hn hn0 hml hmr hlr hm (hrat hp hd)).2
      exact (this.mono Set.subset_union_right).map
    | zero =>
      have hst : k.started = false := by rw [hm.started]; simp
      unfold dualStep
      rw [hst]
      have hm1 := hm.mac.append (siv_length h hd hb (dualMask_length E.cfg perm b))
      exact ⟨.inl (hm1.mem (by simp)), fun a => Tree.AllIn.map ((sides_fresh (K := K) hn hn0 hml hmr hlr hm (hal a)).2.mono Set.subset_union_right)⟩
  · intro j m p d perm k b hm hwf hs hp hd hb
    have fin : ∀ {m' : Bytes} {k' : DualKeys} {r : Bytes}, r.length = 2 * E.cfg.shmacBlocksize → k' = ⟨k.left ++ E.leftSlice r, k.right ++ E.rightSlice r, true⟩ →
        exactly mac (absorbed E.cfg.shmacBlocksize (j + 1)) m' →
        DualInv E n mac left right (j + 1) m' k' ∧ m' ∉ dualMid E n mac left right j ∧ m' ∈ dualPast E n mac left right (j + 1) := by
      rintro m' k' r hr rfl hm'
      obtain ⟨l1, l2⟩ := hn r hr
      refine ⟨⟨by simp, hm', by rw [Nat.mul_succ]; exact hm.left.append l1, by rw [Nat.mul_succ]; exact hm.right.append l2⟩, ?_, .inl (hm'.mem (Nat.le_refl _))⟩
      rintro (hq | ⟨w, e, _⟩ | ⟨w, e, _⟩)
      · exact hm'.notMem (habs j) hq
      · obtain ⟨v, e', _⟩ := hm'
        exact hml v w (by rw [← e, ← e'])
      · obtain ⟨v, e', _⟩ := hm'
        exact hmr v w (by rw [← e, ← e'])
    cases j with
    | succ j =>
      have hst : k.started = true := by rw [hm.started]; simp
      unfold dualStep
      rw [hst]
      refine (sides_out hsbK k (d ++ p)).bind ?_
      rintro ⟨key, k'⟩ ⟨hkey, rfl⟩
      refine ⟨hXlen _ _, fin (hrat hp hd) (by rw [hst]) ?_⟩
      have := hm.mac.append (embedded_length h hkey (hXlen key b))
      have e : absorbed E.cfg.shmacBlocksize (j + 1 + 1) = absorbed E.cfg.shmacBlocksize (j + 1) + 2 * E.cfg.shmacBlocksize := by simp only [absorbed, Nat.mul_succ]; omega
      rw [e]; exact this
    | zero =>
      have hst : k.started = false := by rw [hm.started]; simp
      unfold dualStep
      rw [hst]
      intro a
      refine (sides_out hsbK k (a.1.take E.cfg.shmacDoubleBlocksize)).bind ?_
      rintro ⟨key, k'⟩ ⟨hkey, rfl⟩
      refine ⟨hUlen _ _ _, fin (hal a) rfl ?_⟩
      have := (hm.mac.append (siv_length h hd hb (dualMask_length E.cfg perm b))).append (embedded_length h hkey (hUlen perm key b))
      have e : absorbed E.cfg.shmacBlocksize (0 + 1) = absorbed E.cfg.shmacBlocksize 0 + E.cfg.shmacBlocksize + 2 * E.cfg.shmacBlocksize := by simp only [absorbed]; omega
      rw [e]; exact this
  · intro m k b o hm hb ho
    have hst : k.started = false := by rw [hm.started]; simp
    have hpow : (256 : ℚ) ^ E.cfg.blocksize = 256 ^ (E.cfg.blocksize - E.cfg.innerHeaderBytes) * 256 ^ E.cfg.innerHeaderBytes := by rw [← pow_add]; congr 1; omega
    have hhead : fromBE (b.take E.cfg.innerHeaderBytes) < 256 ^ E.cfg.innerHeaderBytes := by
      apply fromBE_lt_of_length
      rw [List.length_take]; omega
    have hstep := fun a : Digest K => dual_first_chance (m := m) (p := a.1.take E.cfg.shmacBlocksize) (d := a.1.take E.cfg.shmacBlocksize)
      (perm := permFrom E.toEnv E.cfg.innerHeaderBytes a.1) h hK hst hb ho
    rw [Finset.sum_congr rfl fun a _ => hstep a, hpow, ← div_div, ← masked_chance (K := K) (i := E.cfg.primerKeyBytes (5 * E.cfg.innerHeaderBytes) - 5 * E.cfg.innerHeaderBytes + 2 * E.cfg.innerHeaderBytes)
      (n := E.cfg.innerHeaderBytes) (by omega) (fun a => unmasked E.toEnv E.cfg.innerHeaderBytes (fromBE (b.take E.cfg.innerHeaderBytes)) a.1)
      (fun a => (header_masked u.env hK hhead a).2) (fun a s => unmasked_splice u.env hK _ _ a s) (o := o.take E.cfg.innerHeaderBytes) (by rw [List.length_take]; omega)]
    congr 1
    refine Finset.sum_congr rfl fun a _ => ?_
    unfold dualMask
    rw [show (permFrom E.toEnv E.cfg.innerHeaderBytes a.1).permute (fromBE (b.take E.cfg.innerHeaderBytes)) = _ from (header_masked u.env hK hhead a).1]
    rfl
  · intro j m p perm k b o hm hwf hs hp hb ho
    have hst : k.started = true := by rw [hm.started]; simp
    have each : ∀ a : Digest K, ((dualStep E m p (a.1.take E.cfg.shmacBlocksize) perm k b : HashTree K _).map Prod.fst).chance o = 1 / 256 ^ E.cfg.blocksize := by
      intro a
      unfold dualStep
      rw [hst]
      have hmap : ((sides E k (a.1.take E.cfg.shmacBlocksize ++ p) : HashTree K _).map fun ks =>
          (dualX E.cfg ks.1 b, m ++ embedded E.cfg ks.1 (dualX E.cfg ks.1 b), ks.2)).map Prod.fst =
          (sides E k (a.1.take E.cfg.shmacBlocksize ++ p) : HashTree K _).map fun ks => dualX E.cfg ks.1 b := rfl
      show (((sides E k (a.1.take E.cfg.shmacBlocksize ++ p) : HashTree K _).map fun ks =>
          (dualX E.cfg ks.1 b, m ++ embedded E.cfg ks.1 (dualX E.cfg ks.1 b), ks.2)).map Prod.fst).chance o = _
      rw [hmap]
      have hl2 : E.cfg.blocksize = 2 * (E.cfg.blocksize / 2) := by omega
      rw [hl2]
      refine sides_chance (s := E.cfg.cap) (l := E.cfg.blocksize / 2) (by omega) hsbK (t := beDigits E.cfg.blocksize (fromBE o ^^^ fromBE b)) (by rw [length_beDigits]; omega)
        fun ks hks => ?_
      rw [dualX, xor_eq_iff (hwf0.length_ciphertext hks) ho (fromBE_lt_of_length hb), hwf0.ciphertext_eq hks, ← hl2]
      rfl
    rw [Finset.sum_congr rfl fun a _ => each a, Finset.sum_const, nsmul_eq_mul, Finset.card_univ, mul_comm, mul_div_assoc, div_self, mul_one]
    rw [card_digest]
    exact_mod_cast (Nat.pow_pos (by decide : 0 < 256)).ne'

end

/-! ### messages -/

/-- The cipher with another hash function. -/
def rehashDual (E : DualEnv) (x : Xof) : DualEnv :=
  { E with shmacKdf := { E.shmacKdf with xof := x }, leftKdf := { E.leftKdf with xof := x }, rightKdf := { E.rightKdf with xof := x } }

theorem rehashDual_setup {E : DualEnv} (h : DualSetup E) (x : Xof) : DualSetup (rehashDual E x) :=
  ⟨h.accepted, h.permutation, h.blocksize, h.pad, h.left_pad, h.right_pad, h.left_lt, h.tag_pos, h.tag_le, h.salt_lt, h.iv_lt⟩

/-- The constants of the three hash objects are different, and each ratchet key gives as many bytes to the one side as to the other. -/
structure Separated (E : DualEnv) (n : Nat) : Prop where
  left_length : E.leftKdf.factory.length = E.shmacKdf.factory.length
  right_length : E.rightKdf.factory.length = E.shmacKdf.factory.length
  left_ne : E.shmacKdf.factory ≠ E.leftKdf.factory
  right_ne : E.shmacKdf.factory ≠ E.rightKdf.factory
  sides_ne : E.leftKdf.factory ≠ E.rightKdf.factory
  pos : 0 < n
  bytes : ∀ r : Bytes, r.length = 2 * E.cfg.shmacBlocksize → (E.leftSlice r).length = n ∧ (E.rightSlice r).length = n

theorem sides_run {E : DualEnv} {D : Finset Bytes} (known : Xof) (T : Hash D K) (hK : E.cfg.shmacBlocksize ≤ K) (k : DualKeys) (r : Bytes)
    (hD : (sides E k r : HashTree K _).AllIn (D : Set Bytes)) : (sides E k r).run (Tree.ext T) = keystream (rehashDual E (T.xof known)) k r := by
  obtain ⟨h1, h2⟩ := hD
  obtain ⟨h2, _⟩ := h2 (Tree.ext T (k.left ++ E.leftSlice r))
  unfold keystream
  simp only [sides, Tree.run, rehashDual]
  rw [xof_digest known T (Finset.mem_coe.1 h1) hK, xof_digest known T (Finset.mem_coe.1 h2) hK]

section
variable {E : DualEnv} (h : DualSetup E) {n : Nat} (hsep : Separated E n) (hK : E.cfg.primerKeyBytes (5 * E.cfg.innerHeaderBytes) ≤ K)
include h hK

theorem dual_turns {D : Finset Bytes} (known : Xof) (T : Hash D K) (mac left right : Bytes) :
    Turns (dualCipher (rehashDual E (T.xof known))) T (dualStep E) (DualInv E n mac left right) := by
  intro j m p d perm k b hi hwf hs hp hd hb hD
  have hs : perm.size = E.cfg.innerHeaderBytes := hs
  have hp : p.length = E.cfg.shmacBlocksize := hp
  have hd : d.length = E.cfg.shmacBlocksize := hd
  have hb : b.length = E.cfg.blocksize := hb
  have hle := h.wf.header_le
  obtain ⟨p1, p2⟩ := primer_ge (i := E.cfg.innerHeaderBytes) (E := E.toEnv) h.usable.env
  have hsbK : E.cfg.shmacBlocksize ≤ K := by omega
  have hwf' : (rehashDual E (T.xof known)).cfg.DualWF := h.wf
  show dualTurn (rehashDual E (T.xof known)) (.live false .encryption m p d perm) k b = _
  unfold dualStep at hD ⊢
  cases hst : k.started with
  | true =>
    rw [hst] at hD
    have hks := sides_run known T hsbK k (d ++ p) (Tree.AllIn.left hD)
    have hlen : (keystream (rehashDual E (T.xof known)) k (d ++ p)).1.length = E.cfg.shmacDoubleBlocksize := keystream_length _ _ _
    have hlt : fromBE (E.cfg.embeddedCiphertextSlice.of (keystream (rehashDual E (T.xof known)) k (d ++ p)).1) ^^^ fromBE b < 256 ^ E.cfg.blocksize :=
      Sizes.xor_fromBE_lt (h.wf.length_ciphertext hlen) hb
    obtain ⟨_, _, _, h4, _⟩ := dual_later (E := rehashDual E (T.xof known)) (m := m) (p := p) (c := d) (perm := perm) (k := k) hwf' hst (P := b)
      (X := dualX E.cfg (keystream (rehashDual E (T.xof known)) k (d ++ p)).1 b) hb (length_beDigits ..) (fromBE_beDigits_of_lt hlt).symm
    refine (h4 false).trans ?_
    simp only [Tree.run_map, hks]
    rfl
  | false =>
    rw [hst] at hD
    obtain ⟨hm1, hD2⟩ := hD
    have hks := sides_run known T hsbK k _ (Tree.AllIn.left (hD2 (Tree.ext T (m ++ sivBytes E d (b.take E.cfg.innerHeaderBytes) (dualMask E.cfg perm b)))))
    have hsiv : sivKeystream (rehashDual E (T.xof known)) k (m ++ sivBytes E d (b.take E.cfg.innerHeaderBytes) (dualMask E.cfg perm b)) =
        keystream (rehashDual E (T.xof known)) k ((Tree.ext T (m ++ sivBytes E d (b.take E.cfg.innerHeaderBytes) (dualMask E.cfg perm b))).1.take E.cfg.shmacDoubleBlocksize) := by
      unfold sivKeystream
      show keystream _ k ((T.xof known).digest _ E.cfg.shmacDoubleBlocksize) = _
      rw [xof_digest known T (Finset.mem_coe.1 hm1) (by unfold Sizes.shmacDoubleBlocksize; omega)]
    obtain ⟨y, hylt, hy, hinv, hmask⟩ := dual_mask h hwf hs hb
    have hlen : (keystream (rehashDual E (T.xof known)) k
        ((Tree.ext T (m ++ sivBytes E d (b.take E.cfg.innerHeaderBytes) (dualMask E.cfg perm b))).1.take E.cfg.shmacDoubleBlocksize)).1.length = E.cfg.shmacDoubleBlocksize :=
      keystream_length _ _ _
    have hbd : (b.drop E.cfg.innerHeaderBytes).length = E.cfg.blocksize - E.cfg.innerHeaderBytes := by rw [List.length_drop]; omega
    have hbt : (b.take E.cfg.innerHeaderBytes).length = E.cfg.innerHeaderBytes := by rw [List.length_take]; omega
    have hmy : fromBE (dualMask E.cfg perm b) = y := by rw [hmask, fromBE_beDigits_of_lt hylt]
    have hlt : ∀ key : Bytes, key.length = E.cfg.shmacDoubleBlocksize →
        fromBE (E.cfg.firstKeySlice.of key) ^^^ fromBE (b.drop E.cfg.innerHeaderBytes) < 256 ^ (E.cfg.blocksize - E.cfg.innerHeaderBytes) :=
      fun key hk => Sizes.xor_fromBE_lt (h.wf.length_first_key hk) hbd
    obtain ⟨_, _, h3, _⟩ := dual_first (E := rehashDual E (T.xof known)) (m := m) (p := p) (c := d) (perm := perm) (k := k) hwf' hd (H := b.take E.cfg.innerHeaderBytes)
      (M := dualMask E.cfg perm b) (T := b.drop E.cfg.innerHeaderBytes)
      (U := dualU E.cfg (keystream (rehashDual E (T.xof known)) k
        ((Tree.ext T (m ++ sivBytes E d (b.take E.cfg.innerHeaderBytes) (dualMask E.cfg perm b))).1.take E.cfg.shmacDoubleBlocksize)).1 b) hbt (dualMask_length ..) hbd
      (length_beDigits ..) (by rw [hmy]; exact hy) (by rw [hmy]; exact hinv)
      (by
        show fromBE (E.cfg.firstKeySlice.of (sivKeystream (rehashDual E (T.xof known)) k (m ++ sivBytes E d (b.take E.cfg.innerHeaderBytes) (dualMask E.cfg perm b))).1) ^^^ _ = _
        rw [hsiv]
        exact (fromBE_beDigits_of_lt (hlt _ hlen)).symm)
    rw [(dualTurn_first _ false m p d perm k hst b).1]
    have e := h3 false
    rw [List.take_append_drop] at e
    refine e.trans ?_
    simp only [Tree.run, Tree.run_map, hks]
    rw [show sivBytes (rehashDual E (T.xof known)) d (b.take E.cfg.innerHeaderBytes) (dualMask E.cfg perm b) = sivBytes E d (b.take E.cfg.innerHeaderBytes) (dualMask E.cfg perm b) from rfl,
      hsiv]
    rfl

include hsep

theorem dual_scheme : Scheme (K := K) E.cfg
    (fun r => message E.cfg (dualStep E) (permFrom E.toEnv E.cfg.innerHeaderBytes) (sessionOf E.shmacKdf r) ⟨sessionOf E.leftKdf r, sessionOf E.rightKdf r, false⟩ r)
    (fun r => {q | ∃ j, q ∈ dualPast E n (sessionOf E.shmacKdf r) (sessionOf E.leftKdf r) (sessionOf E.rightKdf r) j}) := by
  have u := h.usable
  have begins : ∀ {r : Request}, r.Valid E.cfg → (∃ w, sessionOf E.shmacKdf r = E.shmacKdf.factory ++ r.key ++ w) ∧ (∃ w, sessionOf E.leftKdf r = E.leftKdf.factory ++ r.key ++ w) ∧
      ∃ w, sessionOf E.rightKdf r = E.rightKdf.factory ++ r.key ++ w := fun hv =>
    ⟨sessionOf_key u.env.kdf h.salt_lt h.iv_lt hv, sessionOf_key h.sides.1 h.salt_lt h.iv_lt hv, sessionOf_key h.sides.2 h.salt_lt h.iv_lt hv⟩
  have diff : ∀ {f g x y : Bytes}, f.length = g.length → f ≠ g → (∃ w, x = f ++ w) → (∃ w, y = g ++ w) → Apart x y := by
    rintro f g _ _ hl hne ⟨w, rfl⟩ ⟨w', rfl⟩ v v' e
    rw [List.append_assoc, List.append_assoc] at e
    exact hne (List.append_inj e hl).1
  have apart : ∀ {r r' : Request}, r.Valid E.cfg → r'.Valid E.cfg → Apart (sessionOf E.shmacKdf r) (sessionOf E.leftKdf r') ∧ Apart (sessionOf E.shmacKdf r) (sessionOf E.rightKdf r') ∧
      Apart (sessionOf E.leftKdf r) (sessionOf E.rightKdf r') := by
    intro r r' hv hv'
    obtain ⟨⟨a, ha⟩, ⟨b, hb⟩, _⟩ := begins hv
    obtain ⟨_, ⟨b', hb'⟩, ⟨c', hc'⟩⟩ := begins hv'
    rw [List.append_assoc] at ha hb hb' hc'
    exact ⟨diff hsep.left_length.symm hsep.left_ne ⟨_, ha⟩ ⟨_, hb'⟩, diff hsep.right_length.symm hsep.right_ne ⟨_, ha⟩ ⟨_, hc'⟩,
      diff (hsep.left_length.trans hsep.right_length.symm) hsep.sides_ne ⟨_, hb⟩ ⟨_, hc'⟩⟩
  have M : ∀ {r : Request}, r.Valid E.cfg → _ := fun {r} hv => dual_machine (K := K) h hsep.bytes hsep.pos hK (apart hv hv).1 (apart hv hv).2.1 (apart hv hv).2.2
  have h0 : ∀ r, DualInv E n (sessionOf E.shmacKdf r) (sessionOf E.leftKdf r) (sessionOf E.rightKdf r) 0 (sessionOf E.shmacKdf r)
      ⟨sessionOf E.leftKdf r, sessionOf E.rightKdf r, false⟩ := fun r => ⟨rfl, ⟨[], by simp, rfl⟩, ⟨[], by simp, rfl⟩, ⟨[], by simp, rfl⟩⟩
  have hin : ∀ r, sessionOf E.shmacKdf r ∈ dualPast E n (sessionOf E.shmacKdf r) (sessionOf E.leftKdf r) (sessionOf E.rightKdf r) 0 := fun r => .inl ⟨[], by simp, by simp⟩
  refine ⟨fun {r} hv => ?_, fun {r _} hv hf => ?_, fun {r _} hv hS => ?_, fun {r} hv => ?_, fun {r r'} hv hv' hl hn => ?_⟩
  · exact (M hv).message_out u.accepted hv (h0 r)
  · exact (M hv).message_chance u.accepted hv (h0 r) hf
  · refine (M hv).message_fresh u.accepted hv (h0 r) (hin r) ?_ hS
    rintro q (⟨w, rfl, hw⟩ | ⟨w, _, hw, hw'⟩ | ⟨w, _, hw, hw'⟩)
    · have : w = [] := List.eq_nil_of_length_eq_zero (by simpa [absorbed] using hw)
      simp [this]
    · omega
    · omega
  · exact (M hv).message_within u.accepted hv (h0 r) (hin r)
  · have same : ∀ {k : KdfConfig}, k.WF → ∀ w w', sessionOf k r ++ w ≠ sessionOf k r' ++ w' := fun hk => sessions_apart hk h.salt_lt h.iv_lt hv hv' hl hn
    rintro q ⟨j, ⟨w, rfl, _⟩ | ⟨w, rfl, _⟩ | ⟨w, rfl, _⟩⟩ ⟨j', ⟨w', e, _⟩ | ⟨w', e, _⟩ | ⟨w', e, _⟩⟩
    · exact same u.env.kdf w w' e
    · exact (apart hv hv').1 w w' e
    · exact (apart hv hv').2.1 w w' e
    · exact (apart hv' hv).1 w' w e.symm
    · exact same h.sides.1 w w' e
    · exact (apart hv hv').2.2 w w' e
    · exact (apart hv' hv).2.1 w' w e.symm
    · exact (apart hv' hv).2.2 w' w e.symm
    · exact same h.sides.2 w w' e

theorem dual_encrypt {D : Finset Bytes} (known : Xof) (T : Hash D K) (r : Request) (hv : r.Valid E.cfg)
    (hD : (message E.cfg (dualStep E) (permFrom E.toEnv E.cfg.innerHeaderBytes) (sessionOf E.shmacKdf r) ⟨sessionOf E.leftKdf r, sessionOf E.rightKdf r, false⟩ r
      : HashTree K Bytes).AllIn (D : Set Bytes)) :
    (dualCipher (rehashDual E (T.xof known))).bytesEncrypt r.key r.draws r.salt r.aad r.data =
      .ok ((message E.cfg (dualStep E) (permFrom E.toEnv E.cfg.innerHeaderBytes) (sessionOf E.shmacKdf r) ⟨sessionOf E.leftKdf r, sessionOf E.rightKdf r, false⟩ r).run (Tree.ext T)) := by
  have h' := rehashDual_setup h (T.xof known)
  obtain ⟨summary, kdf, h1, h2, h3⟩ := sessionOf_ok (k := E.shmacKdf) h.usable.env.kdf h.salt_lt h.iv_lt hv
  obtain ⟨summary', kdfl, l1, l2, l3⟩ := sessionOf_ok (k := E.leftKdf) h.sides.1 h.salt_lt h.iv_lt hv
  obtain ⟨summary'', kdfr, r1, r2, r3⟩ := sessionOf_ok (k := E.rightKdf) h.sides.2 h.salt_lt h.iv_lt hv
  rw [h1] at l1 r1
  cases l1; cases r1
  have hkeys : (dualCipher (rehashDual E (T.xof known))).sessionKdfs r.key summary = .ok ⟨sessionOf E.leftKdf r, sessionOf E.rightKdf r, false⟩ := by
    simp only [dualCipher, bind_eq_ok]
    exact ⟨_, l2, _, r2, _, l3, _, r3, rfl⟩
  obtain ⟨a, ha⟩ := sessionOf_key (k := E.shmacKdf) h.usable.env.kdf h.salt_lt h.iv_lt hv
  obtain ⟨b, hb⟩ := sessionOf_key (k := E.leftKdf) h.sides.1 h.salt_lt h.iv_lt hv
  obtain ⟨c, hc⟩ := sessionOf_key (k := E.rightKdf) h.sides.2 h.salt_lt h.iv_lt hv
  have diff : ∀ {f g x y : Bytes}, f.length = g.length → f ≠ g → (∃ w, x = f ++ w) → (∃ w, y = g ++ w) → Apart x y := by
    rintro f g _ _ hl hne ⟨w, rfl⟩ ⟨w', rfl⟩ v v' e
    rw [List.append_assoc, List.append_assoc] at e
    exact hne (List.append_inj e hl).1
  rw [List.append_assoc] at ha hb hc
  exact encrypt_tree (C := dualCipher (rehashDual E (T.xof known))) (T := T) rfl hK h'.usable
    (dual_machine h hsep.bytes hsep.pos hK (diff hsep.left_length.symm hsep.left_ne ⟨_, ha⟩ ⟨_, hb⟩) (diff hsep.right_length.symm hsep.right_ne ⟨_, ha⟩ ⟨_, hc⟩)
      (diff (hsep.left_length.trans hsep.right_length.symm) hsep.sides_ne ⟨_, hb⟩ ⟨_, hc⟩))
    (@dual_turns K E h n hK D known T (sessionOf E.shmacKdf r) (sessionOf E.leftKdf r) (sessionOf E.rightKdf r)) hv h1 h2 h3 hkeys ⟨rfl, ⟨[], by simp, rfl⟩, ⟨[], by simp, rfl⟩, ⟨[], by simp, rfl⟩⟩ hD

end

end Aiootp.Secrecy
