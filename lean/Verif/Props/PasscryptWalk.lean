import Verif.Lemmas.Passcrypt
import Verif.Spec.Passcrypt

/-!
C49: the memory walk of passcrypt. `chunks b` are the pieces of 168 bytes of `b`, in order.
-/

namespace Aiootp.Passcrypt

/-- The settings are within the limits of `passcrypt_spec`. -/
structure InRange (mb cpu : Nat) : Prop where
  mb : 1 ≤ mb ∧ mb ≤ 256 ^ 3
  cpu : 1 ≤ cpu ∧ cpu ≤ 256

theorem rounds_spec {M : Bytes} {cpu : Nat} (h : 1 ≤ cpu ∧ cpu ≤ 256) : 0 < rounds (spec M) cpu ∧ rounds (spec M) cpu ≤ 128 := by
  have : rounds (spec M) cpu = max 1 (cpu / 2) := rfl
  omega

/-- **C49** At least the requested number of mebibytes is used, and less than one row more; it is a whole number of pieces. -/
theorem C49_size {M : Bytes} {mb cpu : Nat} (h : InRange mb cpu) :
    2 ^ 20 * mb ≤ totalSize (spec M) mb cpu ∧ totalSize (spec M) mb cpu < 2 ^ 20 * mb + rowSize (spec M) cpu ∧
      totalSize (spec M) mb cpu % 168 = 0 := by
  obtain ⟨hR, hR2⟩ := rounds_spec (M := M) h.cpu
  have hb : 0 < 336 * rounds (spec M) cpu := by omega
  have hmb := h.mb
  have hrows : rows (spec M) mb cpu = ceilDiv (2 ^ 20 * mb) (336 * rounds (spec M) cpu) := ceilTrueDiv_eq hb (by omega)
  have h1 := (ceilDiv_le_iff (a := 2 ^ 20 * mb) hb).1 (Nat.le_refl _)
  have h2 : ¬ ceilDiv (2 ^ 20 * mb) (336 * rounds (spec M) cpu) ≤ ceilDiv (2 ^ 20 * mb) (336 * rounds (spec M) cpu) - 1 ∨
      ceilDiv (2 ^ 20 * mb) (336 * rounds (spec M) cpu) = 0 := by omega
  unfold totalSize rowSize
  rw [hrows]
  refine ⟨by rw [Nat.mul_comm (336 * rounds (spec M) cpu)]; exact h1, ?_, ?_⟩
  · rcases h2 with h2 | h2
    · rw [ceilDiv_le_iff hb, Nat.sub_mul] at h2
      rw [Nat.mul_comm (336 * rounds (spec M) cpu)]
      omega
    · rw [h2]; omega
  · rw [Nat.mul_assoc, show 336 = 168 * 2 by rfl, Nat.mul_assoc]
    exact Nat.mul_mod_right _ _

theorem maxDigest_pos : 0 < maxDigest := by decide

theorem allocate_more (E : Env) (p : Proof) (size : Nat) (h : size > maxDigest) :
    allocate E p size = allocate E { p with
      ram := p.ram ++ E.xof.digest p.absorbed maxDigest
      absorbed := p.absorbed ++ lastBlock (p.ram ++ E.xof.digest p.absorbed maxDigest) } (size - maxDigest) := by
  rw [allocate, if_pos h]

theorem allocate_last (E : Env) (p : Proof) (size : Nat) (h : ¬ size > maxDigest) (h0 : size ≠ 0) :
    allocate E p size = { p with
      ram := p.ram ++ E.xof.digest p.absorbed size
      absorbed := p.absorbed ++ lastBlock (p.ram ++ E.xof.digest p.absorbed size) } := by
  rw [allocate, if_neg h, if_neg h0]

theorem allocate_zero (E : Env) (p : Proof) : allocate E p 0 = p := by
  rw [allocate, if_neg (Nat.not_lt_zero _), if_pos rfl]

theorem allocate_length (E : Env) (m : Nat) (hm : maxDigest = m) (k : Nat) : ∀ (size : Nat) (p : Proof), size ≤ k →
    (allocate E p size).ram.length = p.ram.length + size ∧ (allocate E p size).digests = p.digests := by
  have hpos := maxDigest_pos
  have e1 := allocate_more E
  have e2 := allocate_last E
  rw [hm] at hpos
  simp only [hm] at e1 e2
  clear hm
  induction k with
  | zero =>
    intro size p h
    have : size = 0 := Nat.le_zero.1 h
    subst this
    rw [allocate_zero]
    exact ⟨rfl, rfl⟩
  | succ k ih =>
    intro size p h
    by_cases hm : size > m
    · obtain ⟨h1, h2⟩ := ih (size - m) { p with
        ram := p.ram ++ E.xof.digest p.absorbed m
        absorbed := p.absorbed ++ lastBlock (p.ram ++ E.xof.digest p.absorbed m) } (by omega)
      rw [e1 p size hm, h1, h2]
      refine ⟨?_, rfl⟩
      rw [List.length_append, E.xof.length_digest]
      omega
    · by_cases h0 : size = 0
      · subst h0
        rw [allocate_zero]
        exact ⟨rfl, rfl⟩
      · rw [e2 p size hm h0]
        refine ⟨?_, rfl⟩
        rw [List.length_append, E.xof.length_digest]

/-- **C49** `allocate_ram` makes a buffer of the given size. -/
theorem C49_allocate (E : Env) (p : Proof) (size : Nat) : (allocate E p size).ram.length = p.ram.length + size ∧ (allocate E p size).digests = p.digests :=
  allocate_length E maxDigest rfl size size p (Nat.le_refl _)

/-- **C49** Every assignment of the loops leaves the size of the buffer as it is, for all positions that occur. -/
theorem C49_step_keeps_size (X : Xof) {R rows : Nat} {p : Proof} (hp : p.ram.length = 336 * R * rows) {column row : Nat}
    (hc : column ∈ pyRange (336 * R) 336) (hr : row ∈ pyRange (336 * R * rows) (336 * R)) :
    (walkStep X (336 * R) column p row).ram.length = p.ram.length := by
  have hR : 0 < R := by
    apply Nat.pos_of_ne_zero
    rintro rfl
    simp [pyRange, ceilDiv] at hc
  unfold pyRange at hc hr
  rw [Nat.mul_comm 336 R, ceilDiv_mul_self (by decide)] at hc
  rw [Nat.mul_comm (336 * R) rows, ceilDiv_mul_self (by omega)] at hr
  simp only [List.mem_map, List.mem_range] at hc hr
  obtain ⟨c, hc, rfl⟩ := hc
  obtain ⟨r, hr, rfl⟩ := hr
  have hlen : p.ram.length = 168 * (rows * (2 * R)) := by rw [hp, Nat.mul_comm, mul_shift]
  obtain ⟨h1, h2, h3⟩ := chunks_full hlen
  have h0 : Written (chunks p.ram) [] { p with digests := [] } [] := ⟨by simp [applyWrites, h2], rfl, rfl, h1, by simp⟩
  obtain ⟨ws, hw⟩ := written_step (X := X) h3 h0 hc hr
  have e : (walkStep X (336 * R) (c * 336) { p with digests := [] } (r * (336 * R))).ram = (walkStep X (336 * R) (c * 336) p (r * (336 * R))).ram := rfl
  rw [← e, hw.1, hw.2.2.2.1.flatten_length, applyWrites_length, h3, hlen]

/-- **C49** The loops write digests of 168 bytes, as many as there are pieces, and in the end the pieces of the buffer are these digests, each in one
place: every piece is overwritten, and none twice. -/
theorem C49_segments (X : Xof) {R rows : Nat} (hR : 0 < R) {p : Proof} (hp : p.ram.length = 336 * R * rows) (hd : p.digests = []) :
    (walk X (336 * R) (336 * R * rows) p).ram.length = p.ram.length ∧
    (∀ d ∈ (walk X (336 * R) (336 * R * rows) p).digests, d.length = 168) ∧
    (chunks (walk X (336 * R) (336 * R * rows) p).ram).Perm (walk X (336 * R) (336 * R * rows) p).digests := by
  obtain ⟨ws, h1, h2, h3, h4, h5⟩ := walk_written (X := X) hR hp hd
  have hlen : p.ram.length = 168 * (rows * (2 * R)) := by rw [hp, Nat.mul_comm, mul_shift]
  obtain ⟨_, _, hl⟩ := chunks_full hlen
  refine ⟨?_, ?_, ?_⟩
  · rw [h1, h4.flatten_length, applyWrites_length, hl, hlen]
  · rw [h2]
    intro d hm
    obtain ⟨w, hw, rfl⟩ := List.mem_map.1 hm
    exact h5 w hw
  · rw [h1, h2, chunks_flatten h4]
    apply applyWrites_perm
    rw [h3, hl]
    exact allSegs_perm hR

theorem setSlice_length {l : Bytes} {a n : Nat} {v : Bytes} (h : a + n ≤ l.length) (hv : v.length = n) :
    (setSlice l (a : Int) (some ((a : Int) + n)) v).length = l.length := by
  unfold setSlice sliceBound
  simp only [List.length_append, List.length_take, List.length_drop]
  rw [if_neg (by omega), if_neg (by omega)]
  omega

theorem final_length (X : Xof) (is : List Nat) {p : Proof} (h : ∀ i ∈ is, 168 * i + 84 ≤ p.ram.length) : (is.foldl (finalStep X) p).ram.length = p.ram.length := by
  induction is generalizing p with
  | nil => rfl
  | cons i is ih =>
    have h1 : (finalStep X p i).ram.length = p.ram.length := by
      have := setSlice_length (l := p.ram) (a := 168 * i) (n := 84) (h i List.mem_cons_self) (X.length_digest p.absorbed 84)
      simpa [finalStep, Proof.write] using this
    rw [List.foldl_cons, ih (by rw [h1]; exact fun j hj => h j (List.mem_cons_of_mem _ hj)), h1]

/-- **C49** The whole proof of a session with valid settings runs, and its buffer has the same size before and after. -/
theorem C49_prover (E : Env) {M : Bytes} (s : Session) (h : InRange s.mb s.cpu) {p : Proof} (hp : prepare E (spec M) s = .ok p) :
    p.ram.length = totalSize (spec M) s.mb s.cpu ∧
    ∃ q, workMemoryProver E.xof s.cpu (rowSize (spec M) s.cpu) (totalSize (spec M) s.mb s.cpu) p = .ok q ∧ q.ram.length = p.ram.length := by
  simp only [prepare, bind_eq_ok] at hp
  obtain ⟨m, _, hp⟩ := hp
  injection hp with hp
  have hal := C49_allocate E ⟨[], E.proofSalt ++ E.xof.digest m 336, []⟩ (totalSize (spec M) s.mb s.cpu)
  rw [hp] at hal
  have hlen : p.ram.length = totalSize (spec M) s.mb s.cpu := by simpa using hal.1
  obtain ⟨hR, _⟩ := rounds_spec (M := M) h.cpu
  have hw := (C49_segments E.xof (R := rounds (spec M) s.cpu) (rows := rows (spec M) s.mb s.cpu) hR (p := p) hlen hal.2).1
  refine ⟨hlen, (List.range (s.cpu + 2)).foldl (finalStep E.xof) (walk E.xof (rowSize (spec M) s.cpu) (totalSize (spec M) s.mb s.cpu) p), ?_, ?_⟩
  · simp [workMemoryProver, raiseIf, hlen, bind, Except.bind]
  · have hsz := (C49_size (M := M) h).1
    have hmb := h.mb
    have hcpu := h.cpu
    have hw' : (walk E.xof (rowSize (spec M) s.cpu) (totalSize (spec M) s.mb s.cpu) p).ram.length = p.ram.length := hw
    rw [final_length, hw']
    intro i hi
    have := List.mem_range.1 hi
    rw [hw', hlen]
    omega

/-- **C49** The sessions of all cores together use at least the requested memory. -/
theorem C49_cores {M : Bytes} {mb cpu cores : Nat} (h : InRange mb cpu) (hc : 1 ≤ cores ∧ cores ≤ 256) :
    InRange (ceilTrueDiv mb cores) cpu ∧ 2 ^ 20 * mb ≤ cores * totalSize (spec M) (ceilTrueDiv mb cores) cpu := by
  have hmb := h.mb
  rw [ceilTrueDiv_eq (by omega) (by omega)]
  have h1 := (ceilDiv_le_iff (a := mb) (b := cores) (by omega)).1 (Nat.le_refl _)
  have h2 : ¬ ceilDiv mb cores ≤ 0 := by rw [ceilDiv_le_iff (by omega)]; omega
  have h3 : ceilDiv mb cores ≤ mb := by
    rw [ceilDiv_le_iff (by omega)]
    exact Nat.le_mul_of_pos_right mb (by omega)
  have hr : InRange (ceilDiv mb cores) cpu := ⟨⟨by omega, by omega⟩, h.cpu⟩
  refine ⟨hr, ?_⟩
  have := (C49_size (M := M) hr).1
  calc 2 ^ 20 * mb ≤ 2 ^ 20 * (ceilDiv mb cores * cores) := Nat.mul_le_mul_left _ h1
    _ = cores * (2 ^ 20 * ceilDiv mb cores) := by rw [Nat.mul_comm (ceilDiv mb cores) cores, Nat.mul_left_comm]
    _ ≤ _ := Nat.mul_le_mul_left _ this

/-- **C49** In the first row, the slice of the reflected row ends at index 0, and nothing is absorbed from it: the hash object is the same as
without it. In all other rows the whole reflected row is absorbed. -/
theorem C49_reflected_row (p : Proof) {rowSize rows row : Nat} (hp : p.ram.length = rowSize * rows) (hr : row < rows) :
    let start : Int := -((row * rowSize : Nat) : Int) - rowSize
    (row = 0 → Slice.of ⟨some start, some (start + rowSize)⟩ p.ram = []) ∧
    (row ≠ 0 → Slice.of ⟨some start, some (start + rowSize)⟩ p.ram = (p.ram.drop ((rows - 1 - row) * rowSize)).take rowSize) := by
  obtain ⟨t, rfl⟩ : ∃ t, rows = t + 1 + row := ⟨rows - 1 - row, by omega⟩
  have e0 : t + 1 + row - 1 - row = t := by omega
  have e1 : rowSize * (t + 1 + row) = t * rowSize + rowSize + row * rowSize := by
    rw [Nat.mul_comm, Nat.add_mul, Nat.add_mul, Nat.one_mul]
  rw [e0]
  refine ⟨?_, ?_⟩
  · rintro rfl
    simp only [Slice.of, hp]
    have : sliceBound (rowSize * (t + 1 + 0)) (-(((0 * rowSize : Nat)) : Int) - (rowSize : Int) + rowSize) = 0 := by
      unfold sliceBound
      rw [if_neg (by omega)]
      omega
    rw [this]
    simp
  · intro hne
    simp only [Slice.of, hp, e1]
    by_cases hz : rowSize = 0
    · subst hz
      have hnil : p.ram = [] := List.eq_nil_of_length_eq_zero (by rw [hp]; simp)
      simp [hnil]
    · have hpos : 0 < row * rowSize := Nat.mul_pos (by omega) (by omega)
      have a : sliceBound (t * rowSize + rowSize + row * rowSize) (-((row * rowSize : Nat) : Int) - (rowSize : Int)) = t * rowSize := by
        unfold sliceBound
        rw [if_pos (by omega)]
        omega
      have b : sliceBound (t * rowSize + rowSize + row * rowSize) (-((row * rowSize : Nat) : Int) - (rowSize : Int) + rowSize) = t * rowSize + rowSize := by
        unfold sliceBound
        rw [if_pos (by omega)]
        omega
      rw [a, b, List.drop_take, Nat.add_sub_cancel_left]

/-! ### samples -/

/-- A hash function whose digests have the right length. -/
def sampleXof : Xof := ⟨fun m n => (m ++ List.replicate n 0).take n, by intro m n; simp⟩

example : InRange 64 1 ∧ InRange (256 ^ 3) 256 := ⟨⟨by decide, by decide⟩, ⟨by decide, by decide⟩⟩

example : ∃ p : Proof, p.ram.length = 336 * 2 * 3 ∧ p.digests = [] ∧
    (chunks (walk sampleXof (336 * 2) (336 * 2 * 3) p).ram).Perm (walk sampleXof (336 * 2) (336 * 2 * 3) p).digests :=
  ⟨⟨List.replicate (336 * 2 * 3) 0, [1], []⟩, List.length_replicate, rfl, (C49_segments sampleXof (by decide) List.length_replicate rfl).2.2⟩

end Aiootp.Passcrypt
