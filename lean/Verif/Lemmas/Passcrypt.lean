import Verif.Model.Passcrypt
import Verif.Lemmas.Py
import Verif.Lemmas.Canon
import Mathlib.Data.List.Basic
import Mathlib.Data.List.Perm.Subperm
import Mathlib.Data.List.Nodup
import Mathlib.Data.List.Range

/-!
Lemmas about the memory walk of passcrypt.
-/

namespace Aiootp.Passcrypt

/-! ### floating point -/

theorem le_roundHalfEven {n d k : Nat} (hd : 0 < d) (h : k * d ≤ n) : k ≤ Clock.roundHalfEven n d := by
  have : k ≤ n / d := (Nat.le_div_iff_mul_le hd).2 h
  unfold Clock.roundHalfEven
  simp only
  repeat' split
  all_goals omega

theorem roundHalfEven_le {n d k : Nat} (hd : 0 < d) (h : n ≤ k * d) : Clock.roundHalfEven n d ≤ k := by
  have e := Nat.div_add_mod n d
  by_cases hk : n / d < k
  · unfold Clock.roundHalfEven
    simp only
    repeat' split
    all_goals omega
  · have hq : k ≤ n / d := Nat.le_of_not_lt hk
    have h1 : k * d ≤ d * (n / d) := by rw [Nat.mul_comm k d]; exact Nat.mul_le_mul_left d hq
    have hr : n % d = 0 := by omega
    have hq2 : n / d ≤ k := by
      have : d * (n / d) ≤ d * k := by rw [Nat.mul_comm d k]; omega
      exact Nat.le_of_mul_le_mul_left this hd
    unfold Clock.roundHalfEven
    simp only [hr]
    rw [if_pos (by omega)]
    exact hq2

theorem ceilDiv_le_iff {a b k : Nat} (hb : 0 < b) : ceilDiv a b ≤ k ↔ a ≤ k * b := by
  unfold ceilDiv
  rw [Nat.div_le_iff_le_mul_add_pred hb]
  rw [Nat.mul_comm b k]
  omega

/-- The quotients of this module are small enough for the result of the floating point division to be exact. -/
theorem ceilTrueDiv_eq {a b : Nat} (hb : 0 < b) (ha : a ≤ 2 ^ 52) : ceilTrueDiv a b = ceilDiv a b := by
  unfold ceilTrueDiv
  split
  · rename_i h
    subst h
    have := (ceilDiv_le_iff (a := 0) (k := 0) hb).2 (by omega)
    omega
  rename_i h0
  split
  · rename_i h
    have h1 := (ceilDiv_le_iff (a := a) (k := 1) hb).2 (by omega)
    have h2 : ¬ ceilDiv a b ≤ 0 := by rw [ceilDiv_le_iff hb]; omega
    omega
  rename_i hab
  simp only
  have hq : a / b ≠ 0 := by
    have := Nat.div_pos (Nat.le_of_not_lt hab) hb
    omega
  have he : 2 ^ Nat.log2 (a / b) ≤ a / b := Nat.log2_self_le hq
  generalize Nat.log2 (a / b) = e at he
  have hbe : b * 2 ^ e ≤ 2 ^ 52 := Nat.le_trans (Nat.le_trans (Nat.mul_le_mul_left b he) (Nat.mul_div_le a b)) ha
  have he52 : e ≤ 52 := by
    have : 2 ^ e ≤ 2 ^ 52 := by
      have : 2 ^ e ≤ b * 2 ^ e := Nat.le_mul_of_pos_left _ hb
      omega
    exact (Nat.pow_le_pow_iff_right (by decide)).1 this
  rw [if_pos he52]
  have hs : 0 < 2 ^ (52 - e) := Nat.pow_pos (by decide)
  have hbs : b ≤ 2 ^ (52 - e) := by
    have : b * 2 ^ e ≤ 2 ^ (52 - e) * 2 ^ e := by
      rw [← Nat.pow_add]
      have : 52 - e + e = 52 := by omega
      rw [this]; exact hbe
    exact Nat.le_of_mul_le_mul_right this (Nat.pow_pos (by decide))
  generalize 2 ^ (52 - e) = s at hs hbs
  apply Nat.le_antisymm
  · rw [ceilDiv_le_iff hs]
    apply roundHalfEven_le hb
    have := (ceilDiv_le_iff (a := a) (b := b) hb).1 (Nat.le_refl _)
    calc a * s ≤ ceilDiv a b * b * s := Nat.mul_le_mul_right s this
      _ = ceilDiv a b * s * b := by rw [Nat.mul_assoc, Nat.mul_comm b s, Nat.mul_assoc]
  · rw [ceilDiv_le_iff hb]
    have hr := (ceilDiv_le_iff (a := Clock.roundHalfEven (a * s) b) (b := s) hs).1 (Nat.le_refl _)
    generalize ceilDiv (Clock.roundHalfEven (a * s) b) s = k at hr
    apply Nat.le_of_not_lt
    intro hlt
    have h1 : k * b + 1 ≤ a := hlt
    have h2 : (k * s + 1) * b ≤ a * s := by
      calc (k * s + 1) * b = k * b * s + b := by rw [Nat.add_mul, Nat.one_mul, Nat.mul_assoc, Nat.mul_comm s b, Nat.mul_assoc]
        _ ≤ k * b * s + s := by omega
        _ = (k * b + 1) * s := by rw [Nat.add_mul, Nat.one_mul]
        _ ≤ a * s := Nat.mul_le_mul_right s h1
    have := le_roundHalfEven hb h2
    omega

/-! ### segments -/

/-- All segments have 168 bytes. -/
def Full (segs : List Bytes) : Prop := ∀ s ∈ segs, s.length = 168

theorem Full.flatten_length {segs : List Bytes} (h : Full segs) : segs.flatten.length = 168 * segs.length := by
  induction segs with
  | nil => rfl
  | cons s segs ih =>
    have h1 := h s List.mem_cons_self
    have h2 := ih (fun x hx => h x (List.mem_cons_of_mem _ hx))
    simp only [List.flatten_cons, List.length_append, List.length_cons]
    omega

theorem Full.set {segs : List Bytes} (h : Full segs) (k : Nat) {v : Bytes} (hv : v.length = 168) : Full (segs.set k v) := by
  intro s hs
  rcases List.mem_or_eq_of_mem_set hs with hs | rfl
  · exact h s hs
  · exact hv

theorem Full.flatten_set {segs : List Bytes} (h : Full segs) {k : Nat} (hk : k < segs.length) (v : Bytes) :
    (segs.set k v).flatten = segs.flatten.take (168 * k) ++ v ++ segs.flatten.drop (168 * k + 168) := by
  induction segs generalizing k with
  | nil => simp at hk
  | cons s segs ih =>
    have h1 := h s List.mem_cons_self
    have h2 : Full segs := fun x hx => h x (List.mem_cons_of_mem _ hx)
    cases k with
    | zero =>
      simp only [List.set_cons_zero, List.flatten_cons, Nat.mul_zero, List.take_zero, List.nil_append, Nat.zero_add]
      rw [List.drop_left' h1]
    | succ k =>
      simp only [List.set_cons_succ, List.flatten_cons, List.length_cons] at hk ⊢
      rw [ih h2 (by omega)]
      have e1 : 168 * (k + 1) = s.length + 168 * k := by omega
      have e2 : s.length + 168 * k + 168 = s.length + (168 * k + 168) := by omega
      rw [e1, List.take_length_add_append, e2, List.drop_length_add_append]
      simp only [List.append_assoc]

/-- An assignment to the slice of one segment. -/
theorem setSlice_seg {segs : List Bytes} (h : Full segs) {k : Nat} (hk : k < segs.length) {start : Int} {stop : Option Int} (v : Bytes)
    (h1 : sliceBound (168 * segs.length) start = 168 * k)
    (h2 : (match stop with | none => 168 * segs.length | some i => sliceBound (168 * segs.length) i) = 168 * k + 168) :
    setSlice segs.flatten start stop v = (segs.set k v).flatten := by
  unfold setSlice
  rw [h.flatten_length]
  simp only [h1]
  cases stop with
  | none =>
    simp only at h2
    rw [h.flatten_set hk]
    simp only [h2]
    rw [Nat.max_eq_right (by omega)]
  | some i =>
    simp only at h2
    rw [h.flatten_set hk]
    simp only [h2]
    rw [Nat.max_eq_right (by omega)]

/-- Writes to segments. -/
def applyWrites (ws : List (Nat × Bytes)) (segs : List Bytes) : List Bytes := ws.foldl (fun s w => s.set w.1 w.2) segs

theorem applyWrites_length (ws : List (Nat × Bytes)) (segs : List Bytes) : (applyWrites ws segs).length = segs.length := by
  unfold applyWrites
  induction ws generalizing segs with
  | nil => rfl
  | cons w ws ih => rw [List.foldl_cons, ih, List.length_set]

theorem applyWrites_get_of_not_mem {ws : List (Nat × Bytes)} {segs : List Bytes} {k : Nat} (h : k ∉ ws.map (·.1)) :
    (applyWrites ws segs)[k]? = segs[k]? := by
  unfold applyWrites
  induction ws generalizing segs with
  | nil => rfl
  | cons w ws ih =>
    simp only [List.map_cons, List.mem_cons, not_or] at h
    rw [List.foldl_cons, ih h.2, List.getElem?_set_ne (fun e => h.1 e.symm)]

theorem applyWrites_get {ws : List (Nat × Bytes)} {segs : List Bytes} (hn : (ws.map (·.1)).Nodup) {k : Nat} {v : Bytes} (hm : (k, v) ∈ ws)
    (hk : k < segs.length) : (applyWrites ws segs)[k]? = some v := by
  induction ws generalizing segs with
  | nil => cases hm
  | cons w ws ih =>
    simp only [List.map_cons, List.nodup_cons] at hn
    rcases List.mem_cons.1 hm with rfl | hm
    · show (applyWrites ws (segs.set k v))[k]? = some v
      rw [applyWrites_get_of_not_mem hn.1]
      simp [List.getElem?_set, hk]
    · exact ih (segs := segs.set w.1 w.2) hn.2 hm (by simpa using hk)

/-- If every segment is written once, the segments are what was written. -/
theorem applyWrites_perm {ws : List (Nat × Bytes)} {segs : List Bytes} (h : (ws.map (·.1)).Perm (List.range segs.length)) :
    (applyWrites ws segs).Perm (ws.map (·.2)) := by
  have hn : (ws.map (·.1)).Nodup := h.nodup_iff.2 List.nodup_range
  have e1 : applyWrites ws segs = (List.range segs.length).map (fun k => ((applyWrites ws segs)[k]?).getD []) := by
    apply List.ext_getElem?
    intro k
    rw [List.getElem?_map]
    by_cases hk : k < segs.length
    · rw [List.getElem?_range hk]
      have : k < (applyWrites ws segs).length := by rw [applyWrites_length]; exact hk
      simp [List.getElem?_eq_getElem this]
    · rw [List.getElem?_eq_none (by rw [applyWrites_length]; omega), List.getElem?_eq_none (by rw [List.length_range]; omega)]
      rfl
  have e2 : (ws.map (·.1)).map (fun k => ((applyWrites ws segs)[k]?).getD []) = ws.map (·.2) := by
    rw [List.map_map]
    apply List.map_congr_left
    intro w hw
    have hk : w.1 < segs.length := by
      have : w.1 ∈ ws.map (·.1) := List.mem_map_of_mem hw
      exact List.mem_range.1 (h.mem_iff.1 this)
    have := applyWrites_get hn (k := w.1) (v := w.2) hw hk
    simp [this]
  rw [e1, ← e2]
  exact (h.map _).symm

/-! ### the walk -/

/-- The segments that are written by the body of the loops, for a column and a row. -/
def stepSegs (R rows c r : Nat) : List Nat := [r * (2 * R) + 2 * c, (rows - 1 - r) * (2 * R) + 2 * c + 1]

/-- The state of the walk after writes. -/
def Written (segs : List Bytes) (ws : List (Nat × Bytes)) (p : Proof) (pos : List Nat) : Prop :=
  p.ram = (applyWrites ws segs).flatten ∧ p.digests = ws.map (·.2) ∧ ws.map (·.1) = pos ∧ Full (applyWrites ws segs) ∧ ∀ w ∈ ws, w.2.length = 168

theorem written_write {X : Xof} {segs : List Bytes} {ws : List (Nat × Bytes)} {p : Proof} {pos : List Nat} (h : Written segs ws p pos)
    {k : Nat} (hk : k < segs.length) {start : Int} {stop : Option Int} (h1 : sliceBound (168 * segs.length) start = 168 * k)
    (h2 : (match stop with | none => 168 * segs.length | some i => sliceBound (168 * segs.length) i) = 168 * k + 168) :
    ∃ ws', Written segs ws' (p.write X start stop 168) (pos ++ [k]) := by
  obtain ⟨hr, hd, hpos, hf, hl⟩ := h
  have hlen : (X.digest p.absorbed 168).length = 168 := X.length_digest _ _
  refine ⟨ws ++ [(k, X.digest p.absorbed 168)], ?_, ?_, ?_, ?_, ?_⟩
  · show setSlice p.ram start stop _ = _
    rw [hr, setSlice_seg hf (k := k) (by rw [applyWrites_length]; exact hk) _ (by rw [applyWrites_length]; exact h1) (by rw [applyWrites_length]; exact h2)]
    simp [applyWrites]
  · show p.digests ++ _ = _
    rw [hd]; simp
  · simp [hpos]
  · have := hf.set k hlen
    simpa [applyWrites] using this
  · intro w hw
    rcases List.mem_append.1 hw with hw | hw
    · exact hl w hw
    · simp only [List.mem_singleton] at hw; subst hw; exact hlen

theorem Written.absorb {segs : List Bytes} {ws : List (Nat × Bytes)} {p : Proof} {pos : List Nat} (h : Written segs ws p pos) (a b : Int) :
    Written segs ws (p.absorb a b) pos := h

theorem mul_shift (n R : Nat) : 168 * (n * (2 * R)) = n * (336 * R) := by
  rw [Nat.mul_left_comm, ← Nat.mul_assoc 168 2 R]

theorem written_step {X : Xof} {R rows : Nat} {segs : List Bytes} (hlen : segs.length = rows * (2 * R)) {ws : List (Nat × Bytes)}
    {p : Proof} {pos : List Nat} (h : Written segs ws p pos) {c r : Nat} (hc : c < R) (hr : r < rows) :
    ∃ ws', Written segs ws' (walkStep X (336 * R) (c * 336) p (r * (336 * R))) (pos ++ stepSegs R rows c r) := by
  obtain ⟨t, rfl⟩ : ∃ t, rows = t + 1 + r := ⟨rows - 1 - r, by omega⟩
  have e0 : t + 1 + r - 1 - r = t := by omega
  have hlen' : 168 * segs.length = (t + 1 + r) * (336 * R) := by
    rw [hlen, mul_shift]
  have e1 : (t + 1 + r) * (336 * R) = t * (336 * R) + 336 * R + r * (336 * R) := by
    rw [Nat.add_mul, Nat.add_mul, Nat.one_mul]
  have e2 : (t + 1 + r) * (2 * R) = t * (2 * R) + 2 * R + r * (2 * R) := by
    rw [Nat.add_mul, Nat.add_mul, Nat.one_mul]
  have e3 : 168 * (r * (2 * R)) = r * (336 * R) := mul_shift r R
  have e4 : 168 * (t * (2 * R)) = t * (336 * R) := mul_shift t R
  unfold walkStep
  simp only
  obtain ⟨ws1, h1⟩ := written_write (X := X) (h.absorb (((r * (336 * R) : Nat) : Int)) (((r * (336 * R) : Nat) : Int) + ((336 * R : Nat) : Int)))
    (k := r * (2 * R) + 2 * c) (by omega) (start := ((r * (336 * R) : Nat) : Int) + ((c * 336 : Nat) : Int))
    (stop := some (((r * (336 * R) : Nat) : Int) + ((c * 336 : Nat) : Int) + 168))
    (by rw [hlen', e1]
        unfold sliceBound
        generalize r * (336 * R) = A at *
        generalize t * (336 * R) = B at *
        generalize r * (2 * R) = C at *
        rw [if_neg (by omega)]
        omega)
    (by simp only
        rw [hlen', e1]
        unfold sliceBound
        generalize r * (336 * R) = A at *
        generalize t * (336 * R) = B at *
        generalize r * (2 * R) = C at *
        rw [if_neg (by omega)]
        omega)
  obtain ⟨ws2, h2⟩ := written_write (X := X) (h1.absorb (-((r * (336 * R) : Nat) : Int) - ((336 * R : Nat) : Int))
      (-((r * (336 * R) : Nat) : Int) - ((336 * R : Nat) : Int) + ((336 * R : Nat) : Int)))
    (k := t * (2 * R) + 2 * c + 1) (by omega)
    (start := -((r * (336 * R) : Nat) : Int) - ((336 * R : Nat) : Int) + ((c * 336 : Nat) : Int) + 168)
    (stop := if -((r * (336 * R) : Nat) : Int) - ((336 * R : Nat) : Int) + ((c * 336 : Nat) : Int) + 168 + 168 < 0 then
      some (-((r * (336 * R) : Nat) : Int) - ((336 * R : Nat) : Int) + ((c * 336 : Nat) : Int) + 168 + 168) else none)
    (by rw [hlen', e1]
        unfold sliceBound
        generalize r * (336 * R) = A at *
        generalize t * (336 * R) = B at *
        generalize t * (2 * R) = C at *
        rw [if_pos (by omega)]
        omega)
    (by rw [hlen', e1]
        generalize r * (336 * R) = A at *
        generalize t * (336 * R) = B at *
        generalize t * (2 * R) = C at *
        by_cases hneg : -(A : Int) - ((336 * R : Nat) : Int) + ((c * 336 : Nat) : Int) + 168 + 168 < 0
        · rw [if_pos hneg]
          simp only
          unfold sliceBound
          rw [if_pos hneg]
          omega
        · rw [if_neg hneg]
          simp only
          omega)
  refine ⟨ws2, ?_⟩
  unfold stepSegs
  rw [e0]
  simpa using h2

theorem written_row {X : Xof} {R rows : Nat} {segs : List Bytes} (hlen : segs.length = rows * (2 * R)) {c : Nat} (hc : c < R) (rs : List Nat)
    (hrs : ∀ r ∈ rs, r < rows) {ws : List (Nat × Bytes)} {p : Proof} {pos : List Nat} (h : Written segs ws p pos) :
    ∃ ws', Written segs ws' ((rs.map (· * (336 * R))).foldl (walkStep X (336 * R) (c * 336)) p) (pos ++ rs.flatMap (stepSegs R rows c)) := by
  induction rs generalizing ws p pos with
  | nil => exact ⟨ws, by simpa using h⟩
  | cons r rs ih =>
    obtain ⟨ws1, h1⟩ := written_step (X := X) hlen h hc (hrs r List.mem_cons_self)
    obtain ⟨ws2, h2⟩ := ih (fun x hx => hrs x (List.mem_cons_of_mem _ hx)) h1
    exact ⟨ws2, by simpa [List.append_assoc] using h2⟩

theorem written_columns {X : Xof} {R rows : Nat} {segs : List Bytes} (hlen : segs.length = rows * (2 * R)) (cs : List Nat) (hcs : ∀ c ∈ cs, c < R)
    {ws : List (Nat × Bytes)} {p : Proof} {pos : List Nat} (h : Written segs ws p pos) :
    ∃ ws', Written segs ws'
      ((cs.map (· * 336)).foldl (fun p column => ((List.range rows).map (· * (336 * R))).foldl (walkStep X (336 * R) column) p) p)
      (pos ++ cs.flatMap (fun c => (List.range rows).flatMap (stepSegs R rows c))) := by
  induction cs generalizing ws p pos with
  | nil => exact ⟨ws, by simpa using h⟩
  | cons c cs ih =>
    obtain ⟨ws1, h1⟩ := written_row (X := X) hlen (hcs c List.mem_cons_self) (List.range rows) (fun r hr => List.mem_range.1 hr) h
    obtain ⟨ws2, h2⟩ := ih (fun x hx => hcs x (List.mem_cons_of_mem _ hx)) h1
    exact ⟨ws2, by simpa [List.append_assoc] using h2⟩

theorem ceilDiv_mul_self {n k : Nat} (hk : 0 < k) : ceilDiv (n * k) k = n := by
  apply Nat.le_antisymm
  · rw [ceilDiv_le_iff hk]
  · have h := (ceilDiv_le_iff (a := n * k) (b := k) hk).1 (Nat.le_refl _)
    exact Nat.le_of_mul_le_mul_right h hk

/-- All positions that are written. -/
def allSegs (R rows : Nat) : List Nat := (List.range R).flatMap (fun c => (List.range rows).flatMap (stepSegs R rows c))

theorem allSegs_length (R rows : Nat) : (allSegs R rows).length = rows * (2 * R) := by
  simp only [allSegs, List.length_flatMap, stepSegs, List.length_cons, List.length_nil]
  simp only [List.map_const', List.sum_replicate_nat, List.length_range]
  rw [Nat.mul_comm, Nat.mul_assoc, Nat.mul_comm 2 R]

theorem mem_allSegs {R rows k : Nat} (hR : 0 < R) (hk : k < rows * (2 * R)) : k ∈ allSegs R rows := by
  simp only [allSegs, List.mem_flatMap, List.mem_range, stepSegs, List.mem_cons, List.not_mem_nil, or_false]
  have e := Nat.div_add_mod k (2 * R)
  have hm := Nat.mod_lt k (show 0 < 2 * R by omega)
  have hq : k / (2 * R) < rows := Nat.div_lt_of_lt_mul (by rw [Nat.mul_comm]; exact hk)
  rw [Nat.mul_comm] at e
  generalize k / (2 * R) = q at *
  generalize k % (2 * R) = m at *
  rcases Nat.mod_two_eq_zero_or_one m with h | h
  · exact ⟨m / 2, by omega, q, hq, .inl (by omega)⟩
  · refine ⟨m / 2, by omega, rows - 1 - q, by omega, .inr ?_⟩
    rw [show rows - 1 - (rows - 1 - q) = q by omega]
    omega

theorem allSegs_perm {R rows : Nat} (hR : 0 < R) : (allSegs R rows).Perm (List.range (rows * (2 * R))) := by
  have hsub : List.range (rows * (2 * R)) ⊆ allSegs R rows := fun k hk => mem_allSegs hR (List.mem_range.1 hk)
  have := List.nodup_range.subperm hsub
  exact (this.perm_of_length_le (by rw [allSegs_length, List.length_range])).symm

/-- The pieces of 168 bytes of a byte string. -/
def chunks (b : Bytes) : List Bytes := (List.range (b.length / 168)).map (fun k => (b.drop (168 * k)).take 168)

theorem chunks_full {n : Nat} {b : Bytes} (h : b.length = 168 * n) : Full (chunks b) ∧ (chunks b).flatten = b ∧ (chunks b).length = n := by
  have hn : b.length / 168 = n := by omega
  refine ⟨?_, ?_, by simp [chunks, hn]⟩
  · intro s hs
    simp only [chunks, List.mem_map, List.mem_range, hn] at hs
    obtain ⟨k, hk, rfl⟩ := hs
    rw [List.length_take, List.length_drop]
    omega
  · unfold chunks
    rw [hn]
    clear hn
    induction n generalizing b with
    | zero =>
      have : b = [] := List.eq_nil_of_length_eq_zero (by omega)
      subst this; rfl
    | succ n ih =>
      rw [List.range_succ_eq_map]
      simp only [List.map_cons, List.flatten_cons, List.map_map, Nat.mul_zero, List.drop_zero]
      have hd : (b.drop 168).length = 168 * n := by rw [List.length_drop]; omega
      have := ih hd
      have e : (List.range n).map ((fun k => (b.drop (168 * k)).take 168) ∘ Nat.succ) = (List.range n).map (fun k => ((b.drop 168).drop (168 * k)).take 168) := by
        apply List.map_congr_left
        intro k _
        simp only [Function.comp, List.drop_drop]
        congr 2
        omega
      rw [e, this, List.take_append_drop]

theorem chunks_flatten {segs : List Bytes} (h : Full segs) : chunks segs.flatten = segs := by
  unfold chunks
  rw [h.flatten_length, Nat.mul_div_cancel_left _ (by decide)]
  induction segs with
  | nil => rfl
  | cons s segs ih =>
    have h1 := h s List.mem_cons_self
    have h2 : Full segs := fun x hx => h x (List.mem_cons_of_mem _ hx)
    rw [List.length_cons, List.range_succ_eq_map]
    simp only [List.map_cons, List.map_map, Nat.mul_zero, List.drop_zero, List.flatten_cons]
    rw [List.take_left' h1]
    congr 1
    have e : (List.range segs.length).map ((fun k => ((s ++ segs.flatten).drop (168 * k)).take 168) ∘ Nat.succ) =
        (List.range segs.length).map (fun k => (segs.flatten.drop (168 * k)).take 168) := by
      apply List.map_congr_left
      intro k _
      simp only [Function.comp]
      rw [show 168 * k.succ = s.length + 168 * k by omega, List.drop_length_add_append]
    rw [e]
    exact ih h2

theorem walk_written {X : Xof} {R rows : Nat} (hR : 0 < R) {p : Proof} (hp : p.ram.length = 336 * R * rows) (hd : p.digests = []) :
    ∃ ws, Written (chunks p.ram) ws (walk X (336 * R) (336 * R * rows) p) (allSegs R rows) := by
  have hlen : p.ram.length = 168 * (rows * (2 * R)) := by
    rw [hp, Nat.mul_comm rows (2 * R), ← Nat.mul_assoc, ← Nat.mul_assoc]
  obtain ⟨h1, h2, h3⟩ := chunks_full hlen
  have h0 : Written (chunks p.ram) [] p [] := ⟨by simp [applyWrites, h2], by simp [hd], rfl, h1, by simp⟩
  have := written_columns (X := X) h3 (List.range R) (fun c hc => List.mem_range.1 hc) h0
  have e1 : pyRange (336 * R) 336 = (List.range R).map (· * 336) := by
    unfold pyRange; rw [Nat.mul_comm, ceilDiv_mul_self (by decide)]
  have e2 : pyRange (336 * R * rows) (336 * R) = (List.range rows).map (· * (336 * R)) := by
    unfold pyRange; rw [Nat.mul_comm (336 * R) rows, ceilDiv_mul_self (by omega)]
  unfold walk
  rw [e1, e2]
  simpa [allSegs] using this

end Aiootp.Passcrypt
