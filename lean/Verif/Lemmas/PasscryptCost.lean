import Verif.Lemmas.PasscryptFind
import Verif.Lemmas.Profile

/-
How much of what a session of `passcrypt` hashes has to be hashed to know its result.
-/

namespace Aiootp.Passcrypt

open Secrecy (Digest)
open Kdf (share cut card_start)
open Oracle (Tree)
open Oracle.Tree (run_bind run_map asked_bind asked_map ext Agree many many_mono many_all many_guess many_swap many_none)

variable {K : Nat} {α β : Type}

/-! ### the inputs of the walk are different -/

/-- At least `n` different inputs are hashed, all longer than what was absorbed before. -/
structure Fresh (f : Bytes → Digest K) (p : Proof) (t : Tree Bytes (Digest K) Proof) (n : Nat) : Prop where
  grows : p.absorbed.length ≤ (t.run f).absorbed.length
  asked : ∀ x ∈ t.asked f, p.absorbed.length < x.length ∧ x.length ≤ (t.run f).absorbed.length
  card : n ≤ (t.asked f).toFinset.card

theorem Fresh.bind {f : Bytes → Digest K} {p : Proof} {t : Tree Bytes (Digest K) Proof} {g : Proof → Tree Bytes (Digest K) Proof} {n k : Nat} (h : Fresh f p t n) (hg : Fresh f (t.run f) (g (t.run f)) k) :
    Fresh f p (t.bind g) (n + k) := by
  refine ⟨by rw [run_bind]; exact h.grows.trans hg.grows, fun x hx => ?_, ?_⟩
  · rw [asked_bind, List.mem_append] at hx
    rw [run_bind]
    rcases hx with hx | hx
    · exact ⟨(h.asked x hx).1, (h.asked x hx).2.trans hg.grows⟩
    · exact ⟨h.grows.trans_lt (hg.asked x hx).1, (hg.asked x hx).2⟩
  · rw [asked_bind, List.toFinset_append, Finset.card_union_of_disjoint]
    · exact Nat.add_le_add h.card hg.card
    · rw [Finset.disjoint_left]
      intro x hx hy
      have h1 := (h.asked x (List.mem_toFinset.1 hx)).2
      have h2 := (hg.asked x (List.mem_toFinset.1 hy)).1
      omega

/-- The digests that were written are those of the inputs. -/
def Noted (f : Bytes → Digest K) (p : Proof) (t : Tree Bytes (Digest K) Proof) : Prop := (t.run f).digests = p.digests ++ (t.asked f).map fun x => cut 168 (f x).1

theorem Noted.bind {f : Bytes → Digest K} {p : Proof} {t : Tree Bytes (Digest K) Proof} {g : Proof → Tree Bytes (Digest K) Proof} (h : Noted f p t) (hg : Noted f (t.run f) (g (t.run f))) :
    Noted f p (t.bind g) := by
  unfold Noted at *
  rw [run_bind, asked_bind, hg, h, List.map_append, List.append_assoc]

theorem fresh_fold {f : Bytes → Digest K} {I : Proof → Prop} {step : Proof → α → Tree Bytes (Digest K) Proof} {cnt : α → Nat} :
    ∀ (l : List α) (p : Proof), (∀ p, ∀ x ∈ l, I p → Fresh f p (step p x) (cnt x) ∧ Noted f p (step p x) ∧ I ((step p x).run f)) → I p →
      Fresh f p (Tree.fold step p l) (l.map cnt).sum ∧ Noted f p (Tree.fold step p l) ∧ I ((Tree.fold step p l).run f)
  | [], p, _, hp => ⟨⟨Nat.le_refl _, (fun _ hx => nomatch hx), Nat.zero_le _⟩, by simp [Noted, Tree.fold, Tree.run, Tree.asked], hp⟩
  | x :: l, p, h, hp => by
    obtain ⟨h1, h2, h3⟩ := h p x (List.mem_cons_self ..) hp
    obtain ⟨g1, g2, g3⟩ := fresh_fold l ((step p x).run f) (fun p y hy => h p y (List.mem_cons_of_mem _ hy)) h3
    rw [List.map_cons, List.sum_cons]
    exact ⟨h1.bind g1, h2.bind g2, by rw [Tree.fold, run_bind]; exact g3⟩

theorem cut_length (n : Nat) (a : Bytes) : (cut n a).length = n := by
  unfold cut
  rw [List.length_take, List.length_append, List.length_replicate]
  omega

/-- One step of the walk: its two inputs are different but in the first row. -/
theorem fresh_step (f : Bytes → Digest K) {R rows : Nat} {p : Proof} (hp : p.ram.length = 336 * R * rows) {c r : Nat} (hc : c < R) (hr : r < rows) :
    Fresh f p (walkStepT (336 * R) (c * 336) p (r * (336 * R))) (if r = 0 then 1 else 2) ∧ Noted f p (walkStepT (336 * R) (c * 336) p (r * (336 * R))) ∧
      ((walkStepT (336 * R) (c * 336) p (r * (336 * R))).run f).ram.length = 336 * R * rows ∧
      (r = 0 → ∃ y, (walkStepT (336 * R) (c * 336) p (r * (336 * R))).asked f = [y, y]) := by
  have hrun := run_walkStepT (r := 336 * R) (c := c * 336) p (r * (336 * R)) (answers_drawn f _)
  have hkeep := C49_step_keeps_size (drawn f) hp (column := c * 336) (row := r * (336 * R)) (by
    unfold pyRange
    rw [Nat.mul_comm 336 R, ceilDiv_mul_self (by decide)]
    exact List.mem_map.2 ⟨c, List.mem_range.2 hc, rfl⟩) (by
    unfold pyRange
    rw [Nat.mul_comm (336 * R) rows, ceilDiv_mul_self (by omega)]
    exact List.mem_map.2 ⟨r, List.mem_range.2 hr, rfl⟩)
  have hle : (r + 1) * (336 * R) ≤ rows * (336 * R) := Nat.mul_le_mul_right _ hr
  rw [Nat.add_mul, Nat.one_mul] at hle
  have hlen : p.ram.length = rows * (336 * R) := by rw [hp, Nat.mul_comm]
  -- the row
  have hrow : (Slice.of ⟨some ((r * (336 * R) : Nat) : Int), some (((r * (336 * R) : Nat) : Int) + ((336 * R : Nat) : Int))⟩ p.ram).length = 336 * R := by
    simp only [Slice.of, hlen]
    unfold sliceBound
    rw [if_neg (by omega), if_neg (by omega)]
    simp only [List.length_take, List.length_drop, hlen]
    generalize r * (336 * R) = A at *
    generalize rows * (336 * R) = B at *
    omega
  let y : Bytes := (p.absorb ((r * (336 * R) : Nat) : Int) (((r * (336 * R) : Nat) : Int) + ((336 * R : Nat) : Int))).absorbed
  have hy : y.length = p.absorbed.length + 336 * R := by
    show (p.absorbed ++ _).length = _
    rw [List.length_append, hrow]
  let ram1 : Bytes := setSlice p.ram (((r * (336 * R) : Nat) : Int) + ((c * 336 : Nat) : Int)) (some (((r * (336 * R) : Nat) : Int) + ((c * 336 : Nat) : Int) + 168)) (cut 168 (f y).1)
  have hram1 : ram1.length = 336 * R * rows := by
    have := setSlice_length (l := p.ram) (a := r * (336 * R) + c * 336) (n := 168) (v := cut 168 (f y).1) (by omega) (cut_length _ _)
    rw [← hp, ← this]
    simp only [ram1]
    push_cast
    rfl
  let s2 : Bytes := Slice.of ⟨some (-((r * (336 * R) : Nat) : Int) - ((336 * R : Nat) : Int)), some (-((r * (336 * R) : Nat) : Int) - ((336 * R : Nat) : Int) + ((336 * R : Nat) : Int))⟩ ram1
  have hs2 := C49_reflected_row ⟨ram1, [], []⟩ (rowSize := 336 * R) (rows := rows) (row := r) hram1 hr
  have hask : (walkStepT (336 * R) (c * 336) p (r * (336 * R))).asked f = [y, y ++ s2] := rfl
  have habs : ((walkStepT (336 * R) (c * 336) p (r * (336 * R))).run f).absorbed = y ++ s2 := rfl
  have hdig : ((walkStepT (336 * R) (c * 336) p (r * (336 * R))).run f).digests = p.digests ++ [cut 168 (f y).1] ++ [cut 168 (f (y ++ s2)).1] := rfl
  refine ⟨⟨?_, ?_, ?_⟩, ?_, ?_, ?_⟩
  · rw [habs, List.length_append, hy]; omega
  · rw [hask, habs]
    intro x hx
    rcases List.mem_pair.1 hx with rfl | rfl
    · rw [List.length_append]; omega
    · rw [List.length_append, hy]; omega
  · rw [hask]
    by_cases h0 : r = 0
    · rw [if_pos h0]
      exact Finset.card_pos.2 ⟨y, by simp⟩
    · rw [if_neg h0]
      have e := hs2.2 h0
      have : s2 ≠ [] := by
        intro hn
        have : (s2).length = ((ram1.drop ((rows - 1 - r) * (336 * R))).take (336 * R)).length := congrArg List.length e
        rw [hn, List.length_take, List.length_drop, hram1, Nat.mul_comm _ rows] at this
        have h3 : (rows - 1 - r + 1) * (336 * R) ≤ rows * (336 * R) := Nat.mul_le_mul_right _ (by omega)
        rw [Nat.add_mul, Nat.one_mul] at h3
        rw [List.length_nil] at this
        omega
      rw [List.toFinset_cons, List.toFinset_cons, List.toFinset_nil, Finset.card_insert_of_notMem (by simpa using fun h => this h), Finset.card_insert_of_notMem (by simp), Finset.card_empty]
  · unfold Noted
    rw [hdig, hask]
    simp
  · rw [hrun, hkeep, hp]
  · intro h0
    refine ⟨y, ?_⟩
    have e : s2 = [] := hs2.1 h0
    rw [hask, e, List.append_nil]

/-- The digests that are written before the end: for each row two of each pair of columns, but one in the first row. -/
theorem fresh_walk (f : Bytes → Digest K) {R rows : Nat} (hR : 0 < R) (hrows : 0 < rows) {p : Proof} (hp : p.ram.length = 336 * R * rows) :
    Fresh f p (walkT (336 * R) (336 * R * rows) p) (R * (2 * rows - 1)) ∧ Noted f p (walkT (336 * R) (336 * R * rows) p) ∧
      ((walkT (336 * R) (336 * R * rows) p).run f).ram.length = 336 * R * rows ∧ ∃ y rest, (walkT (336 * R) (336 * R * rows) p).asked f = y :: y :: rest := by
  have e1 : pyRange (336 * R) 336 = (List.range R).map (· * 336) := by
    unfold pyRange; rw [Nat.mul_comm, ceilDiv_mul_self (by decide)]
  have e2 : pyRange (336 * R * rows) (336 * R) = (List.range rows).map (· * (336 * R)) := by
    unfold pyRange; rw [Nat.mul_comm (336 * R) rows, ceilDiv_mul_self (by omega)]
  unfold walkT
  rw [e1, e2]
  let cnt : Nat → Nat := fun v => if v = 0 then 1 else 2
  have hcnt : ∀ r, cnt (r * (336 * R)) = if r = 0 then 1 else 2 := by
    intro r
    simp only [cnt, Nat.mul_eq_zero]
    have : ¬ R = 0 := by omega
    simp [this]
  have hsum : (((List.range rows).map (· * (336 * R))).map cnt).sum = 2 * rows - 1 := by
    obtain ⟨k, rfl⟩ : ∃ k, rows = k + 1 := ⟨rows - 1, by omega⟩
    rw [List.map_map, List.range_succ_eq_map, List.map_cons, List.sum_cons, List.map_map]
    have : (List.range k).map ((cnt ∘ fun x => x * (336 * R)) ∘ Nat.succ) = List.replicate k 2 := by
      rw [List.eq_replicate_iff]
      refine ⟨by simp, fun b hb => ?_⟩
      obtain ⟨j, _, rfl⟩ := List.mem_map.1 hb
      simp only [Function.comp, hcnt, Nat.succ_ne_zero, if_false]
    have h2 : (List.replicate k 2).sum = k * 2 := by simp
    rw [this, h2, Function.comp, hcnt, if_pos rfl]
    omega
  have inner : ∀ (p : Proof), ∀ x ∈ (List.range R).map (· * 336), p.ram.length = 336 * R * rows →
      Fresh f p (Tree.fold (walkStepT (336 * R) x) p ((List.range rows).map (· * (336 * R)))) ((fun _ => 2 * rows - 1) x) ∧
      Noted f p (Tree.fold (walkStepT (336 * R) x) p ((List.range rows).map (· * (336 * R)))) ∧
      ((Tree.fold (walkStepT (336 * R) x) p ((List.range rows).map (· * (336 * R)))).run f).ram.length = 336 * R * rows := by
    intro p x hx hp
    obtain ⟨c, hc, rfl⟩ := List.mem_map.1 hx
    rw [List.mem_range] at hc
    have := fresh_fold (f := f) (I := fun p => p.ram.length = 336 * R * rows) (step := walkStepT (336 * R) (c * 336)) (cnt := cnt) ((List.range rows).map (· * (336 * R))) p (by
      intro p x hx hp
      obtain ⟨r, hr, rfl⟩ := List.mem_map.1 hx
      rw [List.mem_range] at hr
      simp only [hcnt]
      obtain ⟨h1, h2, h3, _⟩ := fresh_step f hp hc hr
      exact ⟨h1, h2, h3⟩) hp
    rw [hsum] at this
    exact this
  have := fresh_fold (f := f) (I := fun p => p.ram.length = 336 * R * rows) (cnt := fun _ => 2 * rows - 1) ((List.range R).map (· * 336)) p inner hp
  obtain ⟨h1, h2, h3⟩ := this
  refine ⟨?_, h2, h3, ?_⟩
  · have e : (((List.range R).map (· * 336)).map fun _ => 2 * rows - 1).sum = R * (2 * rows - 1) := by
      have : ∀ (k : Nat) (l : List Nat), (l.map fun _ => k).sum = l.length * k := by
        intro k l
        induction l with
        | nil => simp
        | cons a l ih => rw [List.map_cons, List.sum_cons, ih, List.length_cons, Nat.add_mul]; omega
      rw [this, List.length_map, List.length_range]
    rwa [e] at h1
  · obtain ⟨a, ha⟩ : ∃ a, R = a + 1 := ⟨R - 1, by omega⟩
    obtain ⟨b, hb⟩ : ∃ b, rows = b + 1 := ⟨rows - 1, by omega⟩
    obtain ⟨_, _, _, h⟩ := fresh_step f hp hR hrows
    obtain ⟨y, hy⟩ := h rfl
    rw [show List.range R = List.range (a + 1) from by rw [ha], show List.range rows = List.range (b + 1) from by rw [hb], List.range_succ_eq_map, List.range_succ_eq_map]
    simp only [List.map_cons, Tree.fold, asked_bind, hy]
    exact ⟨y, _, rfl⟩

/-- After the walk, each digest is found in a piece of the memory that is not the first. -/
theorem walk_tail (f : Bytes → Digest K) {R rows : Nat} (hR : 0 < R) (hrows : 0 < rows) {p : Proof} (hp : p.ram.length = 336 * R * rows) (hd : p.digests = []) {x : Bytes}
    (hx : x ∈ (walkT (336 * R) (336 * R * rows) p).asked f) {v : Bytes} (hv : v.length = 84) :
    cut 168 (f x).1 ∈ chunks (setSlice ((walkT (336 * R) (336 * R * rows) p).run f).ram 0 (some 84) v) := by
  obtain ⟨_, hn, hl, y, rest, hy⟩ := fresh_walk f hR hrows hp
  have hrun := run_walkT (r := 336 * R) (n := 336 * R * rows) (p := p) (answers_drawn f _)
  obtain ⟨ws, h1, h2, h3, h4, h5⟩ := walk_written (X := drawn f) hR hp hd
  rw [← hrun] at h1 h2
  unfold Noted at hn
  generalize (walkT (336 * R) (336 * R * rows) p).run f = w at *
  rw [hd, List.nil_append, hy] at hn
  have hlen : p.ram.length = 168 * (rows * (2 * R)) := by rw [hp, Nat.mul_comm, mul_shift]
  obtain ⟨_, _, hcl⟩ := chunks_full hlen
  have hperm : (applyWrites ws (chunks p.ram)).Perm (ws.map (·.2)) := by
    apply applyWrites_perm
    rw [h3, hcl]
    exact allSegs_perm hR
  have hnodup : (ws.map (·.1)).Nodup := by
    rw [h3]
    exact (allSegs_perm hR).nodup_iff.2 List.nodup_range
  -- the first write
  obtain ⟨a, ha⟩ : ∃ a, R = a + 1 := ⟨R - 1, by omega⟩
  obtain ⟨b, hb⟩ : ∃ b, rows = b + 1 := ⟨rows - 1, by omega⟩
  have hfirst : ∃ ws', ws = (0, cut 168 (f y).1) :: ws' := by
    cases ws with
    | nil => rw [h2] at hn; simp at hn
    | cons w0 ws' =>
      refine ⟨ws', ?_⟩
      have e1 : w0.2 = cut 168 (f y).1 := by
        rw [h2] at hn
        simp only [List.map_cons, List.cons.injEq] at hn
        exact hn.1
      have e2 : w0.1 = 0 := by
        have : (allSegs R rows).head? = some 0 := by
          unfold allSegs
          rw [show List.range R = List.range (a + 1) from by rw [ha], show List.range rows = List.range (b + 1) from by rw [hb], List.range_succ_eq_map, List.range_succ_eq_map]
          simp [stepSegs]
        rw [← h3] at this
        simpa using this
      rw [← e1, ← e2]
  obtain ⟨ws', hws⟩ := hfirst
  generalize hsegs : applyWrites ws (chunks p.ram) = segs at *
  have hget := applyWrites_get (segs := chunks p.ram) hnodup (k := 0) (v := cut 168 (f y).1) (by rw [hws]; exact List.mem_cons_self ..) (by
    rw [hcl]
    exact Nat.mul_pos hrows (by omega))
  rw [hsegs] at hget
  cases segs with
  | nil => simp at hget
  | cons c0 cs =>
    have hc0 : c0 = cut 168 (f y).1 := by simpa using hget
    have hfull : Full cs := fun s hs => h4 s (List.mem_cons_of_mem _ hs)
    have hc0l : c0.length = 168 := h4 c0 (List.mem_cons_self ..)
    have hset : setSlice w.ram 0 (some 84) v = ((v ++ c0.drop 84) :: cs).flatten := by
      rw [h1]
      have hlen2 : ((c0 :: cs).flatten).length = 168 + cs.flatten.length := by rw [List.flatten_cons, List.length_append, hc0l]
      unfold setSlice sliceBound
      simp only [hlen2]
      rw [if_neg (by omega), if_neg (by omega)]
      simp only [List.flatten_cons]
      rw [show min (Int.toNat 0) (168 + cs.flatten.length) = 0 from by simp]
      rw [show max 0 (min (Int.toNat 84) (168 + cs.flatten.length)) = 84 from by simp; omega]
      rw [List.take_zero, List.nil_append, List.drop_append_of_le_length (by omega), List.append_assoc]
    rw [hset, chunks_flatten (by
      intro s hs
      rcases List.mem_cons.1 hs with rfl | hs
      · rw [List.length_append, List.length_drop, hv, hc0l]
      · exact hfull s hs)]
    refine List.mem_cons_of_mem _ ?_
    have hp2 : (c0 :: cs).Perm ((y :: y :: rest).map fun x => cut 168 (f x).1) := by
      rw [← hn, h2]
      exact hperm
    rw [List.map_cons, ← hc0] at hp2
    have hp3 := (List.perm_cons _).1 hp2
    rw [hp3.mem_iff]
    rw [hy] at hx
    refine List.mem_map.2 ⟨x, ?_, rfl⟩
    rcases List.mem_cons.1 hx with rfl | hx
    · exact List.mem_cons_self ..
    · exact hx

theorem final_absorbed (X : Xof) (is : List Nat) {p : Proof} (h : ∀ i ∈ is, 168 * i + 84 ≤ p.ram.length) :
    ∃ Z, (is.foldl (finalStep X) p).absorbed = p.absorbed ++ Z ∧ Z.length = is.length * p.ram.length := by
  induction is generalizing p with
  | nil => exact ⟨[], by simp, by simp⟩
  | cons i is ih =>
    have h1 := final_length X [i] (p := p) (fun j hj => h j (by rw [List.mem_singleton] at hj; subst hj; exact List.mem_cons_self ..))
    have h1 : (finalStep X p i).ram.length = p.ram.length := h1
    obtain ⟨Z, hZ, hl⟩ := ih (p := finalStep X p i) (by rw [h1]; exact fun j hj => h j (List.mem_cons_of_mem _ hj))
    refine ⟨(finalStep X p i).ram ++ Z, ?_, ?_⟩
    · rw [List.foldl_cons, hZ, ← List.append_assoc]
      rfl
    · rw [List.length_append, hl, h1, List.length_cons, Nat.add_mul, Nat.one_mul, Nat.add_comm]

/-! ### one session -/

/-- The digests that can be read from the last input of a session: the start of that of its message, and the pieces of its memory. -/
def parts (salt : Bytes) (cpu total : Nat) (y : Bytes) : List Bytes := (y.drop salt.length).take 168 :: chunks ((y.drop (y.length - (cpu + 2) * total)).take total)

theorem parts_length (salt : Bytes) (cpu total : Nat) (y : Bytes) : (parts salt cpu total y).length ≤ total / 168 + 1 := by
  unfold parts chunks
  rw [List.length_cons, List.length_map, List.length_range, List.length_take]
  exact Nat.add_le_add_right (Nat.div_le_div_right (Nat.min_le_left _ _)) 1

/-- What is hashed in the walk of a session: at least so many different inputs, and all of their digests are parts of the last input. -/
theorem session_work {X : Xof} {salt domain M : Bytes} {s : Session} (f : Bytes → Digest K) (hK : 168 ≤ K) (h : InRange s.mb s.cpu) (hf : Fits ⟨X, salt, domain⟩ M s) :
    ∃ (fin : Bytes) (ws : List Bytes), (passcryptT ⟨X, salt, domain⟩ (spec M) s).run f = .ok (cut 168 (f fin).1) ∧ fin ∈ (passcryptT ⟨X, salt, domain⟩ (spec M) s).asked f ∧
      sessionMessage ⟨X, salt, domain⟩ M s ∈ (passcryptT ⟨X, salt, domain⟩ (spec M) s).asked f ∧
      cut 168 (f (sessionMessage ⟨X, salt, domain⟩ M s)).1 ∈ parts salt s.cpu (totalSize (spec M) s.mb s.cpu) fin ∧
      rounds (spec M) s.cpu * (2 * rows (spec M) s.mb s.cpu - 1) ≤ ws.toFinset.card ∧
      ∀ x ∈ ws, x ∈ (passcryptT ⟨X, salt, domain⟩ (spec M) s).asked f ∧ cut 168 (f x).1 ∈ parts salt s.cpu (totalSize (spec M) s.mb s.cpu) fin ∧
        salt ++ cut 336 (f (sessionMessage ⟨X, salt, domain⟩ M s)).1 <+: x := by
  obtain ⟨fin, hfin, hpre, _, hres, hask⟩ := session_facts f h hf
  let E : Env := ⟨drawn f, salt, domain⟩
  have hm : parametersMessage E (spec M) s = .ok (sessionMessage E M s) := parametersMessage_iff.2 ⟨⟨hf.1, hf.2, hf.3, hf.4, hf.5, hf.6, hf.7, hf.8⟩, rfl⟩
  have e1 : finalT (K := K) ⟨X, salt, domain⟩ (spec M) s = finalT E (spec M) s := rfl
  have e2 : passcryptT (K := K) ⟨X, salt, domain⟩ (spec M) s = passcryptT E (spec M) s := rfl
  have e3 : sessionMessage ⟨X, salt, domain⟩ M s = sessionMessage E M s := rfl
  rw [e1] at hfin hask
  rw [e2] at hask hres
  rw [e3] at hpre
  rw [e2, e3]
  generalize hmm : sessionMessage E M s = m at *
  obtain ⟨p, hp⟩ : ∃ p, prepare E (spec M) s = .ok p := by
    simp only [prepare, bind_eq_ok]
    exact ⟨_, _, hm, rfl⟩
  have hrun := run_prepareT (answers_drawn f (prepareT E (spec M) s))
  rw [hp] at hrun
  obtain ⟨hram, q, hq, _⟩ := C49_prover E s h hp
  have hdig : p.digests = [] := by
    have hp' := hp
    simp only [prepare, bind_eq_ok] at hp'
    obtain ⟨m', _, hp'⟩ := hp'
    injection hp' with hp'
    have := (C49_allocate E ⟨[], E.proofSalt ++ E.xof.digest m' 336, []⟩ (totalSize (spec M) s.mb s.cpu)).2
    rw [hp'] at this
    exact this
  let pre : Tree Bytes (Digest K) Proof := allocateT ⟨[], salt ++ cut 336 (f m).1, []⟩ (totalSize (spec M) s.mb s.cpu)
  have hprep : (prepareT E (spec M) s).run f = .ok (pre.run f) ∧ (prepareT E (spec M) s).asked f = m :: pre.asked f := by
    unfold prepareT
    rw [hm]
    simp only [run_bind, asked_bind, run_map, asked_map, asked_digestT, List.singleton_append]
    exact ⟨rfl, rfl⟩
  have hpp : pre.run f = p := by
    have := hprep.1
    rw [hrun] at this
    injection this with this
    exact this.symm
  have hpabs : salt ++ cut 336 (f m).1 <+: p.absorbed := by
    rw [← hpp]
    exact (below_allocate _ _ : Below f ⟨[], salt ++ cut 336 (f m).1, []⟩ pre).grows
  obtain ⟨hR, _⟩ := rounds_spec (M := M) h.cpu
  have hsz := (C49_size (M := M) h).1
  have hmb := h.mb
  have hcpu := h.cpu
  have hrows : 0 < rows (spec M) s.mb s.cpu := by
    apply Nat.pos_of_ne_zero
    intro h0
    unfold totalSize at hsz
    rw [h0] at hsz
    omega
  let W : Tree Bytes (Digest K) Proof := walkT (rowSize (spec M) s.cpu) (totalSize (spec M) s.mb s.cpu) p
  obtain ⟨fr, _, wl, _⟩ := fresh_walk f hR hrows (p := p) hram
  have wt := fun x (hx : x ∈ W.asked f) v (hv : v.length = 84) => walk_tail f hR hrows (p := p) hram hdig (x := x) hx (v := v) hv
  have hWrun : W.run f = walk (drawn f) (rowSize (spec M) s.cpu) (totalSize (spec M) s.mb s.cpu) p := run_walkT (answers_drawn f _)
  have wl : (W.run f).ram.length = totalSize (spec M) s.mb s.cpu := wl
  -- the end
  have hqv : q = (List.range (s.cpu + 2)).foldl (finalStep (drawn f)) (W.run f) := by
    have hq' : workMemoryProver (drawn f) s.cpu (rowSize (spec M) s.cpu) (totalSize (spec M) s.mb s.cpu) p = .ok q := hq
    simp only [workMemoryProver, raiseIf, hram, ne_eq, not_true_eq_false, if_false, bind, Except.bind] at hq'
    rw [hWrun]
    injection hq' with hq'
    exact hq'.symm
  have hfinq : fin = q.absorbed := by
    have : (finalT E (spec M) s).run f = .ok q.absorbed := by
      have hrun2 := run_proverT (cpu := s.cpu) (answers_drawn f (proverT s.cpu (rowSize (spec M) s.cpu) (totalSize (spec M) s.mb s.cpu) p))
      have hq' : workMemoryProver (drawn f) s.cpu (rowSize (spec M) s.cpu) (totalSize (spec M) s.mb s.cpu) p = .ok q := hq
      rw [hq'] at hrun2
      unfold finalT
      rw [run_bind, hrun]
      simp only [run_map, hrun2]
      rfl
    rw [hfin] at this
    injection this
  have hlast : (fin.drop (fin.length - (s.cpu + 2) * totalSize (spec M) s.mb s.cpu)).take (totalSize (spec M) s.mb s.cpu) =
      setSlice (W.run f).ram 0 (some 84) (cut 84 (f (W.run f).absorbed).1) := by
    have h0 := setSlice_length (l := (W.run f).ram) (a := 0) (n := 84) (v := cut 84 (f (W.run f).absorbed).1) (by rw [wl]; omega) (cut_length _ _)
    have h0 : (setSlice (W.run f).ram 0 (some 84) (cut 84 (f (W.run f).absorbed).1)).length = (W.run f).ram.length := h0
    have h00 : finalStep (drawn f) (W.run f) 0 = ⟨setSlice (W.run f).ram 0 (some 84) (cut 84 (f (W.run f).absorbed).1), (W.run f).absorbed ++ setSlice (W.run f).ram 0 (some 84) (cut 84 (f (W.run f).absorbed).1),
        (W.run f).digests ++ [cut 84 (f (W.run f).absorbed).1]⟩ := rfl
    rw [hfinq, hqv, List.range_succ_eq_map, List.foldl_cons]
    obtain ⟨Z, hZ, hZl⟩ := final_absorbed (drawn f) ((List.range (s.cpu + 1)).map Nat.succ) (p := finalStep (drawn f) (W.run f) 0) (by
      intro i hi
      obtain ⟨j, hj, rfl⟩ := List.mem_map.1 hi
      rw [List.mem_range] at hj
      rw [h00]
      simp only
      rw [h0, wl]
      omega)
    rw [hZ]
    rw [h00] at hZl ⊢
    simp only at hZl ⊢
    rw [h0, wl, List.length_map, List.length_range] at hZl
    generalize setSlice (W.run f).ram 0 (some 84) (cut 84 (f (W.run f).absorbed).1) = ram' at *
    have e : (s.cpu + 2) * totalSize (spec M) s.mb s.cpu = (s.cpu + 1) * totalSize (spec M) s.mb s.cpu + totalSize (spec M) s.mb s.cpu := by
      rw [show s.cpu + 2 = (s.cpu + 1) + 1 from rfl, Nat.add_mul, Nat.one_mul]
    rw [List.append_assoc, List.length_append, List.length_append, hZl, h0, wl, e]
    rw [show (W.run f).absorbed.length + (totalSize (spec M) s.mb s.cpu + (s.cpu + 1) * totalSize (spec M) s.mb s.cpu) - ((s.cpu + 1) * totalSize (spec M) s.mb s.cpu + totalSize (spec M) s.mb s.cpu) =
      (W.run f).absorbed.length from by omega]
    rw [List.drop_left, List.take_left' (by rw [h0, wl])]
  refine ⟨fin, W.asked f, hres, by rw [hask]; simp, ?_, ?_, ?_, ?_⟩
  · rw [hask]
    refine List.mem_append_left _ ?_
    unfold finalT
    rw [asked_bind, hprep.2]
    simp
  · unfold parts
    refine List.mem_cons.2 (.inl ?_)
    obtain ⟨r, hr⟩ := hpre
    rw [← hr, List.append_assoc, List.drop_left, List.take_append_of_le_length (by rw [cut_length]; omega), cut_take (by omega) _ hK]
    have hl := (f m).2
    unfold cut
    rw [List.take_append_of_le_length (by omega)]
  · exact fr.card
  · intro x hx
    refine ⟨?_, ?_, ?_⟩
    · rw [hask]
      refine List.mem_append_left _ ?_
      unfold finalT
      rw [asked_bind, hrun]
      simp only [asked_map]
      refine List.mem_append_right _ ?_
      unfold proverT
      rw [if_neg (by rw [hram]; simp), asked_bind]
      exact List.mem_append_left _ hx
    · unfold parts
      rw [hlast]
      exact List.mem_cons_of_mem _ (wt x hx _ (cut_length _ _))
    · have hb : Below f p W := Below.fold (fun b x => Below.fold (fun b y => below_walkStep _ _ b y) b _) p _
      exact hpabs.trans (hb.asked x hx).1

/-! ### digests that are known without being asked for -/

/-- The query of a number, or another. -/
def nthT {Q A : Type} (d : Q) : Tree Q A α → Nat → Tree Q A Q
  | .done _, _ => .done d
  | .ask q _, 0 => .done q
  | .ask q next, n + 1 => .ask q fun a => nthT d (next a) n

theorem run_nthT {Q A : Type} (f : Q → A) (d : Q) : ∀ (t : Tree Q A α) (n : Nat), (nthT d t n).run f = (t.asked f).getD n d ∧ (nthT d t n).asked f = (t.asked f).take n
  | .done _, n => by simp [nthT, Tree.run, Tree.asked]
  | .ask q _, 0 => by simp [nthT, Tree.run, Tree.asked]
  | .ask q next, n + 1 => by
    obtain ⟨h1, h2⟩ := run_nthT f d (next (f q)) n
    simp only [nthT, Tree.run, Tree.asked, h1, h2, List.getD_cons_succ, List.take_succ_cons, and_self]

theorem allIn_nthT {Q A : Type} {U : Set Q} {d : Q} (hd : d ∈ U) : ∀ {t : Tree Q A α} (n : Nat), t.AllIn U → (nthT d t n).AllIn U ∧ (nthT d t n).AllOut fun x => x ∈ U
  | .done _, _, _ => ⟨trivial, hd⟩
  | .ask q _, 0, h => ⟨trivial, h.1⟩
  | .ask q next, n + 1, h => ⟨⟨h.1, fun a => (allIn_nthT hd n (h.2 a)).1⟩, fun a => (allIn_nthT hd n (h.2 a)).2⟩

/-- Someone who asks for `q` digests, and reads at most `c` values from each of the inputs: the chance that one is the digest of an input that they did not ask for. -/
theorem many_known {D : Finset Bytes} (hK : 168 ≤ K) {t : Tree Bytes (Digest K) α} {att : Tree Bytes (Digest K) β} {sel : Bytes → List Bytes} {c q N : Nat} (hsel : ∀ y, (sel y).length ≤ c)
    (hq : att.Steps q) (hN : t.Steps N) (hD : att.AllIn (D : Set Bytes)) (hS : t.AllIn (D : Set Bytes)) :
    many (fun T : D → Digest K => ∃ x ∈ t.asked (ext T), x ∉ att.asked (ext T) ∧ ∃ y ∈ att.asked (ext T), cut 168 (ext T x).1 ∈ sel y) ≤
      ((N * (q * c) : Nat) : ℚ) / 256 ^ 168 * Fintype.card (D → Digest K) := by
  classical
  by_cases hne : D.Nonempty
  swap
  · rw [many_none]
    · positivity
    · rintro T ⟨x, hx, _⟩
      exact hne ⟨x, Tree.asked_in (ext T) hS x hx⟩
  obtain ⟨d, hd⟩ := hne
  let tr : Nat → Tree Bytes (Digest K) (Bytes × List Bytes) := fun i => att.log.bind fun l => (nthT d t i).map fun x => (x, l.flatMap sel)
  have h1 : ∀ i, _ := fun i => many_hits (D := D) hK 0 (q * c) (t := tr i) (Tree.AllIn.bind (fun _ => (allIn_nthT (U := (D : Set Bytes)) hd i hS).1.map) hD.log)
    (Tree.AllOut.bind (P := fun _ => True) (P' := fun x : Bytes × List Bytes => x.1 ∈ D)
      (fun _ _ => Tree.AllOut.map (P := fun x => x ∈ (D : Set Bytes)) (P' := fun x : Bytes × List Bytes => x.1 ∈ D) (fun _ h => h) (allIn_nthT (U := (D : Set Bytes)) hd i hS).2) (Tree.AllOut.all (fun _ => trivial) _))
  have hsum := Tree.many_exists (D := D) (A := Digest K) (List.range N) (fun i T => ((tr i).run (ext T)).1 ∉ (tr i).asked (ext T) ∧ ((tr i).run (ext T)).2.length ≤ q * c ∧
    Hits 168 0 ((tr i).run (ext T)).2 (ext T ((tr i).run (ext T)).1))
  refine le_trans (many_mono fun T h => ?_) (hsum.trans ?_)
  · obtain ⟨x, hx, hxn, y, hy, hxy⟩ := h
    set f := ext T
    have hi : (t.asked f).idxOf x < (t.asked f).length := List.idxOf_lt_length_of_mem hx
    refine ⟨(t.asked f).idxOf x, List.mem_range.2 (hi.trans_le (Tree.asked_length f hN)), ?_⟩
    obtain ⟨n1, n2⟩ := run_nthT f d t ((t.asked f).idxOf x)
    have e1 : (nthT d t ((t.asked f).idxOf x)).run f = x := by
      rw [n1, List.getD_eq_getElem?_getD, List.getElem?_eq_getElem hi, Option.getD_some, List.getElem_idxOf]
    have e2 : (tr ((t.asked f).idxOf x)).run f = (x, (att.asked f).flatMap sel) := by
      simp only [tr, run_bind, run_map, Tree.run_log, e1]
    have e3 : (tr ((t.asked f).idxOf x)).asked f = att.asked f ++ (t.asked f).take ((t.asked f).idxOf x) := by
      simp only [tr, asked_bind, asked_map, Tree.asked_log, n2]
    rw [e2, e3]
    refine ⟨?_, ?_, ?_⟩
    · rw [List.mem_append]
      rintro (h | h)
      · exact hxn h
      · exact absurd ((List.mem_take_iff_idxOf_lt hx).1 h) (lt_irrefl _)
    · show ((att.asked f).flatMap sel).length ≤ _
      have hl := Tree.asked_length f hq
      have : ∀ l : List Bytes, (l.flatMap sel).length ≤ l.length * c := by
        intro l
        induction l with
        | nil => simp
        | cons a l ih =>
          have := hsel a
          rw [List.flatMap_cons, List.length_append, List.length_cons, Nat.add_mul, Nat.one_mul]
          omega
      exact (this _).trans (Nat.mul_le_mul_right _ hl)
    · refine ⟨_, List.mem_flatMap.2 ⟨y, hy, hxy⟩, ?_⟩
      have hl := (f x).2
      unfold cut
      rw [List.drop_zero, List.take_append_of_le_length (by omega), List.take_take, Nat.min_self]
  · refine (List.sum_le_card_nsmul _ (((q * c : Nat) : ℚ) / 256 ^ 168 * Fintype.card (D → Digest K)) ?_).trans (le_of_eq ?_)
    · intro y hy
      obtain ⟨i, _, rfl⟩ := List.mem_map.1 hy
      exact h1 i
    · rw [List.length_map, List.length_range, nsmul_eq_mul]
      push_cast
      ring

/-! ### all sessions of a call -/

open Classical in
/-- The results of the sessions that can be read from the message of the tag. -/
noncomputable def tagParts (k tagSize : Nat) (y : Bytes) : List Bytes :=
  if h : ∃ rs : List Bytes, rs.length = k ∧ (∀ r ∈ rs, r.length = 168) ∧ tagMessage rs tagSize = .ok y then h.choose else []

theorem tagParts_length (k tagSize : Nat) (y : Bytes) : (tagParts k tagSize y).length ≤ k := by
  unfold tagParts
  split
  · next h => exact h.choose_spec.1.le
  · exact Nat.zero_le _

theorem tagParts_eq {k tagSize : Nat} {y : Bytes} {rs : List Bytes} (h1 : rs.length = k) (h2 : ∀ r ∈ rs, r.length = 168) (h3 : tagMessage rs tagSize = .ok y) : tagParts k tagSize y = rs := by
  have h : ∃ rs : List Bytes, rs.length = k ∧ (∀ r ∈ rs, r.length = 168) ∧ tagMessage rs tagSize = .ok y := ⟨rs, h1, h2, h3⟩
  unfold tagParts
  rw [dif_pos h]
  obtain ⟨_, g2, g3⟩ := h.choose_spec
  generalize h.choose = rs' at *
  cases rs with
  | nil => simp [tagMessage] at h3
  | cons r rs =>
    cases rs' with
    | nil => simp [tagMessage] at g3
    | cons r' rs' =>
      simp only [tagMessage] at h3 g3
      exact (Canon.C05_same_key_length_partial g3 h3 (by simp [h2 r (List.mem_cons_self ..), g2 r' (List.mem_cons_self ..)])).2.2.2

/-- What can be read from an input. -/
noncomputable def readings (salt : Bytes) (k tagSize cpu total : Nat) (y : Bytes) : List Bytes := tagParts k tagSize y ++ parts salt cpu total y

theorem readings_length (salt : Bytes) (k tagSize cpu total : Nat) (y : Bytes) : (readings salt k tagSize cpu total y).length ≤ k + (total / 168 + 1) := by
  unfold readings
  rw [List.length_append]
  exact Nat.add_le_add (tagParts_length ..) (parts_length ..)

/-- The message of a session and at least `V` inputs that begin with its digest are in the list. -/
def Covered (f : Bytes → Digest K) (L : List Bytes) (salt m : Bytes) (V : Nat) : Prop :=
  m ∈ L ∧ ∃ ws : List Bytes, V ≤ ws.toFinset.card ∧ ∀ x ∈ ws, x ∈ L ∧ salt ++ cut 336 (f m).1 <+: x

/-- Whoever has hashed the message of the tag has hashed what all sessions hash in their walks, or knows a digest without asking. -/
theorem covered_or {X : Xof} {salt domain M : Bytes} {l : List Session} {tagSize mb cpu : Nat} (hl : ∀ s ∈ l, InRange s.mb s.cpu ∧ Fits ⟨X, salt, domain⟩ M s ∧ s.mb = mb ∧ s.cpu = cpu) (hK : 168 ≤ K)
    (f : Bytes → Digest K) {rs : List Bytes} {m : Bytes} (hrs : (sessionsT ⟨X, salt, domain⟩ (spec M) l).run f = .ok rs) (hm : tagMessage rs tagSize = .ok m) {L : List Bytes} (hL : m ∈ L) :
    (∃ s ∈ l, ∃ x ∈ (passcryptT ⟨X, salt, domain⟩ (spec M) s).asked f, x ∉ L ∧ ∃ y ∈ L, cut 168 (f x).1 ∈ readings salt l.length tagSize cpu (totalSize (spec M) mb cpu) y) ∨
    ∀ s ∈ l, Covered f L salt (sessionMessage ⟨X, salt, domain⟩ M s) (rounds (spec M) cpu * (2 * rows (spec M) mb cpu - 1)) := by
  refine or_iff_not_imp_left.2 fun hno s hs => ?_
  have key : ∀ x ∈ (passcryptT ⟨X, salt, domain⟩ (spec M) s).asked f, ∀ y ∈ L, cut 168 (f x).1 ∈ readings salt l.length tagSize cpu (totalSize (spec M) mb cpu) y → x ∈ L := by
    intro x hx y hy h
    exact Classical.byContradiction fun hn => hno ⟨s, hs, x, hx, hn, y, hy, h⟩
  obtain ⟨hr, hf, hmb, hcpu⟩ := hl s hs
  obtain ⟨fin, ws, h1, h2, h3, h4, h5, h6⟩ := session_work f hK hr hf
  rw [hmb, hcpu] at h4 h5 h6
  obtain ⟨rs', e, hf2, _⟩ := sessions_facts (K := K) (X := X) (salt := salt) (domain := domain) (M := M) f (fun s hs => ⟨(hl s hs).1, (hl s hs).2.1⟩)
  rw [hrs] at e
  injection e with e
  subst e
  have hlen : ∀ r ∈ rs, r.length = 168 := by
    intro r hr
    obtain ⟨i, hi, rfl⟩ := List.mem_iff_getElem.1 hr
    have hi' : i < l.length := by rw [hf2.length_eq]; exact hi
    have g := (List.forall₂_iff_get.1 hf2).2 i hi' hi
    obtain ⟨fin', _, _, _, g2, _⟩ := session_facts f (hl _ (List.get_mem _ ⟨i, hi'⟩)).1 (hl _ (List.get_mem _ ⟨i, hi'⟩)).2.1
    rw [g2] at g
    injection g with g
    rw [List.get_eq_getElem] at g
    rw [← g, cut_length]
  have hmem : cut 168 (f fin).1 ∈ rs := by
    obtain ⟨i, hi, rfl⟩ := List.mem_iff_getElem.1 hs
    have hi' : i < rs.length := by rw [← hf2.length_eq]; exact hi
    have g := (List.forall₂_iff_get.1 hf2).2 i hi hi'
    simp only [List.get_eq_getElem] at g
    rw [h1] at g
    injection g with g
    rw [g]
    exact List.getElem_mem _
  have hfin : fin ∈ L := key fin h2 m hL (List.mem_append_left _ (by rw [tagParts_eq hf2.length_eq.symm hlen hm]; exact hmem))
  refine ⟨key _ h3 fin hfin (List.mem_append_right _ h4), ws, h5, fun x hx => ?_⟩
  obtain ⟨g1, g2, g3⟩ := h6 x hx
  exact ⟨key x g1 fin hfin (List.mem_append_right _ g2), g3⟩

/-- If no digests meet, what is hashed for one message is not hashed for another. -/
theorem count_covered {ι : Type} [DecidableEq ι] (hK : 168 ≤ K) {f : Bytes → Digest K} {L : List Bytes} {q V : Nat} (hL : L.length ≤ q) (hb : ¬ Tree.BadOn (fun _ => False) (Meet 168) {x | x ∈ L} f) {salt : Bytes}
    (P : Finset ι) (m : ι → Bytes) (hinj : ∀ i ∈ P, ∀ j ∈ P, m i = m j → i = j) (h : ∀ i ∈ P, Covered f L salt (m i) V) : P.card * V ≤ q := by
  classical
  choose hm ws hV hws using h
  let A : P → Finset Bytes := fun i => (ws i.1 i.2).toFinset
  have hdis : ∀ i j : P, i ≠ j → Disjoint (A i) (A j) := by
    intro i j hne
    rw [Finset.disjoint_left]
    intro x hx hy
    have h1 := (hws i.1 i.2 x (List.mem_toFinset.1 hx)).2
    have h2 := (hws j.1 j.2 x (List.mem_toFinset.1 hy)).2
    have e := (List.prefix_of_prefix_length_le h1 h2 (by rw [List.length_append, List.length_append, cut_length, cut_length])).eq_of_length (by rw [List.length_append, List.length_append, cut_length, cut_length])
    have e := List.append_cancel_left e
    have hmeet : Meet 168 (f (m i.1)) (f (m j.1)) := by
      have e2 := congrArg (List.take 168) e
      rw [cut_take (by omega) _ hK, cut_take (by omega) _ hK] at e2
      exact e2
    refine hb ⟨m i.1, hm i.1 i.2, .inr ⟨m j.1, hm j.1 j.2, fun he => hne ?_, hmeet⟩⟩
    exact Subtype.ext (hinj i.1 i.2 j.1 j.2 he)
  have hsub : (Finset.univ : Finset P).biUnion A ⊆ L.toFinset := by
    intro x hx
    obtain ⟨i, _, hx⟩ := Finset.mem_biUnion.1 hx
    exact List.mem_toFinset.2 (hws i.1 i.2 x (List.mem_toFinset.1 hx)).1
  have h1 := (Finset.card_le_card hsub).trans ((List.toFinset_card_le _).trans hL)
  rw [Finset.card_biUnion fun i _ j _ hne => hdis i j hne] at h1
  refine le_trans ?_ h1
  refine le_trans (le_of_eq ?_) (Finset.card_nsmul_le_sum _ _ V fun i _ => hV i.1 i.2)
  rw [Finset.card_univ, Fintype.card_coe, nsmul_eq_mul, Nat.cast_id]

/-- Two digests meet for few hash functions. -/
theorem many_meet {D : Finset Bytes} (hK : 168 ≤ K) {t : Tree Bytes (Digest K) α} {q : Nat} (hq : t.Steps q) (hD : t.AllIn (D : Set Bytes)) :
    many (fun T : D → Digest K => Tree.BadOn (fun _ => False) (Meet 168) {x | x ∈ t.asked (ext T)} (ext T)) ≤ ((q * q : Nat) : ℚ) / 256 ^ 168 * Fintype.card (D → Digest K) := by
  classical
  have bad := Oracle.Tree.many_bad (D := D) (A := Digest K) (P := fun _ => False) (R := Meet 168) (fun _ _ h => h.symm) (ε := 1 / 256 ^ 168) (δ := 0)
    (fun x => by
      refine le_trans (le_of_eq ?_) (card_start hK (x.1.take 168) (by rw [List.length_take, x.2]; omega))
      congr 2
      refine Finset.filter_congr fun y _ => ?_
      unfold Meet
      exact eq_comm)
    (by simp) t ∅ (fun _ => Classical.arbitrary _) q hq (by rintro ⟨x, hx, _⟩; exact absurd hx (by simp)) (fun T _ => Tree.asked_in (ext T) hD)
  have hall : ∀ T : D → Digest K, Agree (∅ : Set Bytes) (fun _ => Classical.arbitrary (Digest K)) T := fun T x h => h.elim
  simp only [Finset.coe_empty, hall, true_and, many_all, Finset.notMem_empty, false_or, Finset.card_empty, Nat.cast_zero, zero_add, add_zero] at bad
  refine bad.trans (le_of_eq ?_)
  push_cast
  ring

/-- The tag is as good as drawn anew, unless its message is hashed. -/
theorem many_tagged {D : Finset Bytes} (hK : 168 ≤ K) {X : Xof} {salt domain M : Bytes} {s₀ : Session} {rest : List Session} {N tagSize : Nat} (ht : tagSize < 2 ^ 29) (hl : (s₀ :: rest).length ≤ 256)
    (hN : ∀ s ∈ s₀ :: rest, InRange s.mb s.cpu ∧ Fits ⟨X, salt, domain⟩ M s ∧ sessionSteps (spec M) s.mb s.cpu = N)
    (hne : ∀ s ∈ rest, sessionMessage ⟨X, salt, domain⟩ M s₀ ≠ sessionMessage ⟨X, salt, domain⟩ M s) {att : Digest K → Tree Bytes (Digest K) (List Bytes)}
    (hS : ∀ s ∈ s₀ :: rest, (passcryptT (K := K) ⟨X, salt, domain⟩ (spec M) s).AllIn (D : Set Bytes))
    (hG : ∀ T : D → Digest K, tagM (sessionMessage ⟨X, salt, domain⟩ M s₀) tagSize ((sessionsT ⟨X, salt, domain⟩ (spec M) (s₀ :: rest)).run (ext T)) ∈ D) (p : Bytes) :
    many (fun T : D → Digest K => p ∈ (att (ext T (tagM (sessionMessage ⟨X, salt, domain⟩ M s₀) tagSize ((sessionsT ⟨X, salt, domain⟩ (spec M) (s₀ :: rest)).run (ext T))))).run (ext T)) *
        Fintype.card (Digest K) ≤
      ∑ u : Digest K, (many (fun T : D → Digest K => p ∈ (att u).run (ext T)) +
        many (fun T : D → Digest K => tagM (sessionMessage ⟨X, salt, domain⟩ M s₀) tagSize ((sessionsT ⟨X, salt, domain⟩ (spec M) (s₀ :: rest)).run (ext T)) ∈ (att u).asked (ext T)) +
        resultBound rest.length N 0 * Fintype.card (D → Digest K)) := by
  classical
  have hN' : ∀ s ∈ s₀ :: rest, InRange s.mb s.cpu ∧ Fits ⟨X, salt, domain⟩ M s := fun s hs => ⟨(hN s hs).1, (hN s hs).2.1⟩
  have hL := fun (att : Tree Bytes (Digest K) (List Bytes)) q hq hD => many_result (D := D) (X := X) (salt := salt) (domain := domain) (M := M) (q := q) (att := att) hK hN hne hq hD hS
  generalize hm₀ : sessionMessage ⟨X, salt, domain⟩ M s₀ = m₀ at *
  have tf := fun f : Bytes → Digest K => tag_facts (X := X) (salt := salt) (domain := domain) (M := M) (s₀ := s₀) (rest := rest) (tagSize := tagSize) ht hl hN' f m₀
  generalize hS' : sessionsT (K := K) ⟨X, salt, domain⟩ (spec M) (s₀ :: rest) = S at *
  let G : (D → Digest K) → D := fun T => ⟨tagM m₀ tagSize (S.run (ext T)), hG T⟩
  let good : (D → Digest K) → Prop := fun T => (G T).1 ∉ S.asked (ext T)
  have hgood : ∀ T v, good T → good (Function.update T (G T) v) ∧ G (Function.update T (G T) v) = G T := by
    intro T v h
    obtain ⟨h1, h2⟩ := Tree.run_update (v := v) h
    have e : G (Function.update T (G T) v) = G T := by
      apply Subtype.ext
      show tagM m₀ tagSize (S.run (ext _)) = _
      rw [Oracle.Tree.ext_update, h1]
    refine ⟨?_, e⟩
    show (G _).1 ∉ _
    rw [e, Oracle.Tree.ext_update, h2]
    exact h
  have hTG : ∀ T : D → Digest K, ext T (tagM m₀ tagSize (S.run (ext T))) = T (G T) := by
    intro T
    have : ∀ x (hx : x ∈ D), ext T x = T ⟨x, hx⟩ := fun x hx => by unfold ext; rw [dif_pos hx]
    exact this _ (hG T)
  have swap := many_swap (D := D) G good hgood (fun T u => p ∈ (att u).run (ext T))
  have hbad : many (fun T : D → Digest K => ¬ good T) ≤ resultBound rest.length N 0 * Fintype.card (D → Digest K) := by
    refine le_trans (many_mono fun T h => ?_) (hL (.done []) 0 trivial trivial)
    obtain ⟨rs, m, r, h1, h2, h3, h4, h5⟩ := tf (ext T)
    refine ⟨by simp [Tree.asked], m, .inr ?_, r, h4, h5⟩
    have : tagM m₀ tagSize (S.run (ext T)) ∈ S.asked (ext T) := Classical.not_not.1 h
    rwa [h3] at this
  have hu : ∀ u : Digest K, many (fun T : D → Digest K => good T ∧ p ∈ (att u).run (ext (Function.update T (G T) u))) ≤
      many (fun T : D → Digest K => p ∈ (att u).run (ext T)) + many (fun T : D → Digest K => tagM m₀ tagSize (S.run (ext T)) ∈ (att u).asked (ext T)) := by
    intro u
    refine le_trans (many_mono fun T h => ?_) (Tree.many_or _ _)
    obtain ⟨_, hp⟩ := h
    rw [Oracle.Tree.ext_update] at hp
    by_cases h1 : (G T).1 ∈ (att u).asked (ext T)
    · exact .inr h1
    · rw [(Tree.run_update (v := u) h1).1] at hp
      exact .inl hp
  have hall : many (fun T : D → Digest K => p ∈ (att (ext T (tagM m₀ tagSize (S.run (ext T))))).run (ext T)) ≤
      many (fun T : D → Digest K => good T ∧ p ∈ (att (T (G T))).run (ext T)) + resultBound rest.length N 0 * Fintype.card (D → Digest K) := by
    refine le_trans (le_trans (many_mono fun T h => ?_) (Tree.many_or _ _)) (add_le_add (le_refl _) hbad)
    rw [hTG] at h
    by_cases hg : good T
    · exact .inl ⟨hg, h⟩
    · exact .inr hg
  have hA : (0 : ℚ) ≤ Fintype.card (Digest K) := by positivity
  refine (mul_le_mul_of_nonneg_right hall hA).trans ?_
  rw [add_mul]
  refine (add_le_add (swap.trans (Finset.sum_le_sum fun u _ => hu u)) (le_refl _)).trans (le_of_eq ?_)
  have e : resultBound rest.length N 0 * (Fintype.card (D → Digest K) : ℚ) * Fintype.card (Digest K) = ∑ _u : Digest K, resultBound rest.length N 0 * (Fintype.card (D → Digest K) : ℚ) := by
    rw [Finset.sum_const, Finset.card_univ, nsmul_eq_mul]
    ring
  rw [e, ← Finset.sum_add_distrib]

/-- The message of the tag is hashed only by those who hash what the sessions hash. -/
theorem many_tag_asked {D : Finset Bytes} (hK : 168 ≤ K) {X : Xof} {salt domain M : Bytes} {s₀ : Session} {rest : List Session} {N q tagSize mb cpu : Nat} (ht : tagSize < 2 ^ 29) (hl : (s₀ :: rest).length ≤ 256)
    (hN : ∀ s ∈ s₀ :: rest, InRange s.mb s.cpu ∧ Fits ⟨X, salt, domain⟩ M s ∧ s.mb = mb ∧ s.cpu = cpu) (hNN : sessionSteps (spec M) mb cpu = N) {att : Tree Bytes (Digest K) α} (hq : att.Steps q)
    (hD : att.AllIn (D : Set Bytes)) (hS : ∀ s ∈ s₀ :: rest, (passcryptT (K := K) ⟨X, salt, domain⟩ (spec M) s).AllIn (D : Set Bytes)) (m₀ : Bytes) :
    many (fun T : D → Digest K => tagM m₀ tagSize ((sessionsT ⟨X, salt, domain⟩ (spec M) (s₀ :: rest)).run (ext T)) ∈ att.asked (ext T)) ≤
      many (fun T : D → Digest K => ¬ Tree.BadOn (fun _ => False) (Meet 168) {x | x ∈ att.asked (ext T)} (ext T) ∧
        ∀ s ∈ s₀ :: rest, Covered (ext T) (att.asked (ext T)) salt (sessionMessage ⟨X, salt, domain⟩ M s) (rounds (spec M) cpu * (2 * rows (spec M) mb cpu - 1))) +
      ((q * q + (rest.length + 1) * (N * (q * ((rest.length + 1) + (totalSize (spec M) mb cpu / 168 + 1)))) : Nat) : ℚ) / 256 ^ 168 * Fintype.card (D → Digest K) := by
  classical
  have hev := Tree.many_exists (D := D) (A := Digest K) (s₀ :: rest) (fun s T => ∃ x ∈ (passcryptT ⟨X, salt, domain⟩ (spec M) s).asked (ext T), x ∉ att.asked (ext T) ∧
    ∃ y ∈ att.asked (ext T), cut 168 (ext T x).1 ∈ readings salt (s₀ :: rest).length tagSize cpu (totalSize (spec M) mb cpu) y)
  have hsum : ((s₀ :: rest).map fun s => many (fun T : D → Digest K => ∃ x ∈ (passcryptT ⟨X, salt, domain⟩ (spec M) s).asked (ext T), x ∉ att.asked (ext T) ∧
      ∃ y ∈ att.asked (ext T), cut 168 (ext T x).1 ∈ readings salt (s₀ :: rest).length tagSize cpu (totalSize (spec M) mb cpu) y)).sum ≤
      (((rest.length + 1) * (N * (q * ((rest.length + 1) + (totalSize (spec M) mb cpu / 168 + 1)))) : Nat) : ℚ) / 256 ^ 168 * Fintype.card (D → Digest K) := by
    refine (List.sum_le_card_nsmul _ (((N * (q * ((rest.length + 1) + (totalSize (spec M) mb cpu / 168 + 1))) : Nat) : ℚ) / 256 ^ 168 * Fintype.card (D → Digest K)) ?_).trans (le_of_eq ?_)
    · intro y hy
      obtain ⟨s, hs, rfl⟩ := List.mem_map.1 hy
      have hst := steps_passcryptT (K := K) ⟨X, salt, domain⟩ (spec M) s
      rw [(hN s hs).2.2.1, (hN s hs).2.2.2, hNN] at hst
      exact many_known hK (readings_length _ _ _ _ _) hq hst hD (hS s hs)
    · rw [List.length_map, List.length_cons, nsmul_eq_mul]
      push_cast
      ring
  have h3 := add_le_add (many_meet hK hq hD) (hev.trans hsum)
  refine le_trans (many_mono fun T h => ?_) ((Tree.many_or _ _).trans (add_le_add (le_refl _) ((Tree.many_or _ _).trans (h3.trans (le_of_eq ?_)))))
  · obtain ⟨rs, m, r, h1, h2, h3, _⟩ := tag_facts (X := X) (salt := salt) (domain := domain) (M := M) (s₀ := s₀) (rest := rest) (tagSize := tagSize) ht hl (fun s hs => ⟨(hN s hs).1, (hN s hs).2.1⟩) (ext T) m₀
    rw [h3] at h
    by_cases hb : Tree.BadOn (fun _ => False) (Meet 168) {x | x ∈ att.asked (ext T)} (ext T)
    · exact .inr (.inl hb)
    · rcases covered_or hN hK (ext T) h1 h2 h with hc | hc
      · exact .inr (.inr hc)
      · exact .inl ⟨hb, hc⟩
  · push_cast
    ring

/-- A sum over candidates, from how many there are for each hash function. -/
theorem sum_many_le {D : Finset Bytes} {ι : Type} (W : Finset ι) (Y : ι → (D → Digest K) → Prop) {b : ℚ} (hb : ∀ T, ∀ P : Finset ι, P ⊆ W → (∀ i ∈ P, Y i T) → (P.card : ℚ) ≤ b) :
    ∑ p ∈ W, many (Y p) ≤ b * Fintype.card (D → Digest K) := by
  classical
  have e : ∀ p, many (Y p) = ∑ T : D → Digest K, if Y p T then 1 else 0 := by
    intro p
    unfold many
    rw [Finset.sum_boole]
  rw [Finset.sum_congr rfl fun p _ => e p, Finset.sum_comm]
  refine (Finset.sum_le_sum (g := fun _ => b) fun T _ => ?_).trans (le_of_eq ?_)
  · rw [Finset.sum_boole]
    exact hb T _ (Finset.filter_subset _ _) fun i hi => (Finset.mem_filter.1 hi).2
  · rw [Finset.sum_const, Finset.card_univ, nsmul_eq_mul]
    ring

/-! ### the inputs of a call -/

/-- The messages of all candidates and cores are different. -/
theorem core_message_inj {E : Env} {M p p' draw aad pepper : Bytes} {mb cpu cores tagSize i j : Nat} (ha : aad.length < 256 ^ 8) (hp : pepper.length < 256 ^ 8) (hi : i < 256 ^ 8) (hj : j < 256 ^ 8)
    (h : sessionMessage E M (coreSession p draw aad pepper mb cpu cores tagSize i) = sessionMessage E M (coreSession p' draw aad pepper mb cpu cores tagSize j)) : p = p' ∧ i = j := by
  unfold sessionMessage at h
  have h1 := (List.append_inj' h (Profile.packed_length_congr (by simp [coreSession, coreAad_length]))).1
  have h2 := keyed_inj (by decide) h1
  have h3 : p ++ draw ++ coreAad pepper aad mb i = p' ++ draw ++ coreAad pepper aad mb j := h2
  obtain ⟨h4, h5⟩ := List.append_inj' h3 (by rw [coreAad_length, coreAad_length])
  refine ⟨List.append_cancel_right h4, ?_⟩
  have h6 := (Canon.C04_prefix_free (rest := []) (rest' := []) (coreAad_eq ha hp) (coreAad_eq (mb := mb) (core := j) ha hp) (by rw [h5])).1
  simp only [List.cons.injEq, true_and, and_true] at h6
  exact beDigits_inj hi hj h6

theorem coreWork_eq (M : Bytes) (mb cpu cores : Nat) : rounds (spec M) cpu * (2 * rows (spec M) (ceilTrueDiv mb cores) cpu - 1) = coreWork mb cpu cores := by
  unfold coreWork coreBlocks rows rounds
  simp only [show (spec M).ratio = 2 from rfl]
  rw [Nat.mul_sub, Nat.mul_one]
  congr 1
  ring

theorem total_blocks (M : Bytes) (mb cpu cores : Nat) : totalSize (spec M) (ceilTrueDiv mb cores) cpu / 168 = coreBlocks mb cpu cores := by
  have h1 : totalSize (spec M) (ceilTrueDiv mb cores) cpu = 168 * coreBlocks mb cpu cores := by
    unfold totalSize rowSize rows rounds coreBlocks
    simp only [show (spec M).ratio = 2 from rfl]
    ring
  rw [h1, Nat.mul_div_cancel_left _ (by omega)]

/-! ### someone who does the work -/

/-- What is left of a tree of queries after answers. -/
def leftT : Tree Bytes (Digest K) α → List Bytes → Tree Bytes (Digest K) α
  | t, [] => t
  | .done x, _ => .done x
  | .ask _ next, b :: bs => leftT (next ⟨cut K b, cut_length K b⟩) bs

theorem leftT_append : ∀ (t : Tree Bytes (Digest K) α) (l l' : List Bytes), leftT t (l ++ l') = leftT (leftT t l) l'
  | t, [], l' => by cases t <;> rfl
  | .done x, b :: bs, l' => by cases l' <;> rfl
  | .ask q next, b :: bs, l' => by
    simp only [List.cons_append, leftT]
    exact leftT_append _ bs l'

/-- The next query, or none. -/
def headT : Tree Bytes (Digest K) α → Bytes
  | .done _ => []
  | .ask q _ => q

/-- The result, if there are no more queries. -/
def endT : Tree Bytes (Digest K) Bytes → Bytes
  | .done x => x
  | .ask _ _ => []

/-- Someone who follows a tree. -/
def Guesser.follows (t : Bytes → Tree Bytes (Digest K) Bytes) : Guesser := ⟨fun hash seen => headT (leftT (t hash) seen), fun hash seen _ => (endT (leftT (t hash) seen), [])⟩

theorem follows_seen {X : Xof} {f : Bytes → Digest K} {D : Set Bytes} (hX : ∀ x ∈ D, X.digest x K = (f x).1) {t : Bytes → Tree Bytes (Digest K) Bytes} {hash : Bytes} {q : Nat} (hD : (t hash).AllIn D) (hq : (t hash).Steps q) :
    ∀ k ≤ q, (leftT (t hash) ((Guesser.follows t).seen X K hash k)).AllIn D ∧ (leftT (t hash) ((Guesser.follows t).seen X K hash k)).Steps (q - k) ∧
      (leftT (t hash) ((Guesser.follows t).seen X K hash k)).run f = (t hash).run f
  | 0, _ => by
    have e : leftT (t hash) ((Guesser.follows t).seen X K hash 0) = t hash := by
      unfold Guesser.seen
      cases t hash <;> rfl
    rw [e]
    exact ⟨hD, hq, rfl⟩
  | k + 1, hk => by
    obtain ⟨h1, h2, h3⟩ := follows_seen hX hD hq k (by omega)
    simp only [Guesser.seen, leftT_append]
    have ha : (Guesser.follows t).ask hash ((Guesser.follows t).seen X K hash k) = headT (leftT (t hash) ((Guesser.follows t).seen X K hash k)) := rfl
    rw [ha]
    generalize leftT (t hash) ((Guesser.follows t).seen X K hash k) = r at *
    cases r with
    | done x => exact ⟨trivial, by simp only [leftT]; cases q - (k + 1) <;> trivial, h3⟩
    | ask y next =>
      obtain ⟨m, hm⟩ : ∃ m, q - k = m + 1 := ⟨q - k - 1, by omega⟩
      rw [hm] at h2
      have e : (⟨cut K (X.digest y K), cut_length K _⟩ : Digest K) = f y := by
        apply Subtype.ext
        show cut K (X.digest y K) = _
        rw [hX y h1.1]
        have hl := (f y).2
        unfold cut
        rw [List.take_append_of_le_length (by omega), List.take_of_length_le (by omega)]
      simp only [headT, leftT, e]
      rw [show q - (k + 1) = m from by omega]
      exact ⟨h1.2 _, h2 _, h3⟩

/-- They get the result of the tree. -/
theorem follows_guess {X : Xof} {f : Bytes → Digest K} {D : Set Bytes} (hX : ∀ x ∈ D, X.digest x K = (f x).1) {t : Bytes → Tree Bytes (Digest K) Bytes} {hash : Bytes} {q : Nat} (hD : (t hash).AllIn D) (hq : (t hash).Steps q)
    (i : Nat) : ((Guesser.follows t).guess hash ((Guesser.follows t).seen X K hash q) i).1 = (t hash).run f := by
  obtain ⟨_, h2, h3⟩ := follows_seen hX hD hq q (Nat.le_refl _)
  have ha : ((Guesser.follows t).guess hash ((Guesser.follows t).seen X K hash q) i).1 = endT (leftT (t hash) ((Guesser.follows t).seen X K hash q)) := rfl
  rw [ha]
  generalize leftT (t hash) ((Guesser.follows t).seen X K hash q) = r at *
  rw [Nat.sub_self] at h2
  cases r with
  | done x => exact h3
  | ask y next => exact h2.elim

/-- Hashes one candidate after another, until one has the hash. -/
def searchT (E : Env) (c : Config) (t : Settings) (made : Int) (draw aad hash : Bytes) : List Bytes → Tree Bytes (Digest K) Bytes
  | [] => .done []
  | p :: ps => (hashT E c t made draw p aad).bind fun
    | .ok h => if h = hash then .done p else searchT E c t made draw aad hash ps
    | .error _ => searchT E c t made draw aad hash ps

theorem steps_hashT (E : Env) (M : Bytes) (t : Settings) (hc : 1 ≤ t.cores) (made : Int) (draw p aad : Bytes) :
    (hashT (K := K) E (spec M) t made draw p aad).Steps (calls (coreBlocks t.mb t.cpu t.cores) t.cpu t.cores) := by
  unfold hashT
  split
  · generalize calls _ _ _ = k
    cases k <;> trivial
  · exact (steps_newT E M t hc _ _ _).map

theorem steps_searchT (E : Env) (M : Bytes) (t : Settings) (hc : 1 ≤ t.cores) (made : Int) (draw aad hash : Bytes) : ∀ l : List Bytes,
    (searchT (K := K) E (spec M) t made draw aad hash l).Steps (l.length * calls (coreBlocks t.mb t.cpu t.cores) t.cpu t.cores)
  | [] => by
    rw [List.length_nil, Nat.zero_mul]
    trivial
  | p :: ps => by
    rw [List.length_cons, Nat.add_mul, Nat.one_mul, Nat.add_comm, searchT]
    refine (steps_hashT E M t hc made draw p aad).bind ?_
    rintro (e | h)
    · exact steps_searchT E M t hc made draw aad hash ps
    · simp only
      split
      · generalize ps.length * _ = k
        cases k <;> trivial
      · exact steps_searchT E M t hc made draw aad hash ps

theorem allIn_searchT {U : Set Bytes} {E : Env} {c : Config} {t : Settings} {made : Int} {draw aad hash : Bytes} : ∀ {l : List Bytes}, (∀ p ∈ l, (hashT (K := K) E c t made draw p aad).AllIn U) →
    (searchT (K := K) E c t made draw aad hash l).AllIn U
  | [], _ => trivial
  | p :: ps, h => by
    have ih := allIn_searchT (U := U) (E := E) (c := c) (t := t) (made := made) (draw := draw) (aad := aad) (hash := hash) fun p hp => h p (List.mem_cons_of_mem _ hp)
    refine Tree.AllIn.bind ?_ (h p (List.mem_cons_self ..))
    rintro (e | x)
    · exact ih
    · simp only
      split
      · trivial
      · exact ih

/-- The search ends with a candidate that has the hash, if there is one. -/
theorem run_searchT {E : Env} {c : Config} {t : Settings} {made : Int} {draw aad hash : Bytes} (f : Bytes → Digest K) : ∀ {l : List Bytes}, (∃ p ∈ l, (hashT E c t made draw p aad).run f = .ok hash) →
    (searchT E c t made draw aad hash l).run f ∈ l ∧ (hashT E c t made draw ((searchT E c t made draw aad hash l).run f) aad).run f = .ok hash
  | [], h => by obtain ⟨p, hp, _⟩ := h; exact nomatch hp
  | p :: ps, h => by
    rw [searchT, run_bind]
    have ih : (hashT E c t made draw p aad).run f ≠ .ok hash → (searchT E c t made draw aad hash ps).run f ∈ p :: ps ∧ (hashT E c t made draw ((searchT E c t made draw aad hash ps).run f) aad).run f = .ok hash := by
      intro hn
      obtain ⟨p', hp', h⟩ := h
      rcases List.mem_cons.1 hp' with rfl | hp'
      · exact absurd h hn
      · obtain ⟨h1, h2⟩ := run_searchT f (l := ps) ⟨p', hp', h⟩
        exact ⟨List.mem_cons_of_mem _ h1, h2⟩
    cases hr : (hashT E c t made draw p aad).run f with
    | error e => exact ih (by rw [hr]; simp)
    | ok x =>
      simp only
      by_cases hx : x = hash
      · rw [if_pos hx]
        exact ⟨List.mem_cons_self .., by rw [← hx]; exact hr⟩
      · rw [if_neg hx]
        exact ih (by rw [hr]; simpa using hx)

end Aiootp.Passcrypt
