import Verif.Spec.Gens
import Verif.Lemmas.Py

/-!
C76: the generators of `_gentools.py` give what they say.
-/

namespace Aiootp.Gens

variable {ω α : Type}

theorem Runs.append {it : Iter ω α} {w w₁ w₂ : ω} {l l' : List α} (h : Runs it w l w₁) (h' : Runs it w₁ l' w₂) : Runs it w (l ++ l') w₂ := by
  induction h with
  | nil w => exact h'
  | cons h r ih => exact .cons h (ih h')

/-! ### `collate` -/

private theorem collate_runs {it : Iter ω α} {rest : List (Iter ω α)} {w w' : ω} {l : List α} (h : Runs it w l w') : Runs collate (it :: rest, w) l (it :: rest, w') := by
  induction h with
  | nil w => exact .nil _
  | cons h r ih => exact .cons (by simp only [collate, h]) ih

private theorem collate_first {it : Iter ω α} {rest : List (Iter ω α)} {w w₁ : ω} {l l' : List α} {s : List (Iter ω α) × ω} (h : Ends it w l none w₁) (h' : Runs collate (rest, w₁) l' s)
    (hne : l' ≠ []) : Runs collate (it :: rest, w) (l ++ l') s := by
  obtain ⟨w₀, hr, hs⟩ := h
  refine (collate_runs hr).append ?_
  cases h' with
  | nil => exact absurd rfl hne
  | cons h r => exact .cons (by simp only [collate, hs]; exact h) r

private theorem collate_skip {it : Iter ω α} {rest : List (Iter ω α)} {w w₁ : ω} {l l' : List α} {e : Option Err} {s : List (Iter ω α) × ω} (h : Ends it w l none w₁)
    (h' : Ends collate (rest, w₁) l' e s) : Ends collate (it :: rest, w) (l ++ l') e s := by
  obtain ⟨s₁, hr', hs'⟩ := h'
  cases hl : l' with
  | cons a l'' => subst hl; exact ⟨s₁, collate_first h hr' (by simp), hs'⟩
  | nil =>
    subst hl
    cases hr'
    obtain ⟨w₀, hr, hs⟩ := h
    refine ⟨(it :: rest, w₀), by rw [List.append_nil]; exact collate_runs hr, ?_⟩
    simp only [collate, hs]
    exact hs'

/-- C76: `collate` gives the items of the first iterator, then those of the second one, and so on. This is so also if reading one iterator changes what another one gives. -/
theorem C76_collate {its : List (Iter ω α)} {w w' : ω} {ls : List (List α)} (h : InTurn its w ls w') : Ends collate (its, w) ls.flatten none ([], w') := by
  induction h with
  | nil w => exact ⟨_, .nil _, by simp only [collate]⟩
  | cons h r ih => rw [List.flatten_cons]; exact collate_skip h ih

/-- C76: an exception of an iterator ends `collate`, after all the items before it. -/
theorem C76_collate_raises {its rest : List (Iter ω α)} {it : Iter ω α} {w w₁ w' : ω} {ls : List (List α)} {l : List α} {e : Err} (h : InTurn its w ls w₁) (h' : Ends it w₁ l (some e) w') :
    Ends collate (its ++ it :: rest, w) (ls.flatten ++ l) (some e) ([], w') := by
  induction h with
  | nil w =>
    obtain ⟨w₀, hr, hs⟩ := h'
    exact ⟨_, collate_runs hr, by simp only [collate, hs]⟩
  | cons h r ih =>
    rw [List.flatten_cons, List.append_assoc]
    exact collate_skip h (ih h')

/-- C76: `collate` is lazy: while it gives items of one iterator, the later ones were not asked for anything, and earlier ones only to their end. So iterators without end are allowed. -/
theorem C76_collate_lazy {its rest : List (Iter ω α)} {it : Iter ω α} {w w₁ w' : ω} {ls : List (List α)} {l : List α} (h : InTurn its w ls w₁) (h' : Runs it w₁ l w') (hne : l ≠ []) :
    Runs collate (its ++ it :: rest, w) (ls.flatten ++ l) (it :: rest, w') := by
  induction h with
  | nil w => exact collate_runs h'
  | cons h r ih =>
    rw [List.flatten_cons, List.append_assoc]
    exact collate_first h (ih h') (by simp [hne])

/-! ### `cycle` -/

private theorem cycle_first {it : Iter ω α} {w w' : ω} {l : List α} (h : Runs it w l w') : ∀ results, Runs (cycle it) (.first results, w) l (.first (results ++ l), w') := by
  induction h with
  | nil w => intro results; rw [List.append_nil]; exact .nil _
  | @cons w w₁ w₂ a l h r ih =>
    intro results
    refine .cons (w₁ := (.first (results ++ [a]), w₁)) (by simp only [cycle, h]) ?_
    have := ih (results ++ [a])
    rw [List.append_assoc] at this
    exact this

/-- The items from number `i` on. -/
private def from_ (l : List α) (hl : l ≠ []) (i n : Nat) : List α :=
  (List.range n).map fun k => l[(i + k) % l.length]'(Nat.mod_lt _ (List.length_pos_iff.2 hl))

private theorem from_succ (l : List α) (hl : l ≠ []) (i n : Nat) : from_ l hl i (n + 1) = l[i % l.length]'(Nat.mod_lt _ (List.length_pos_iff.2 hl)) :: from_ l hl (i + 1) n := by
  simp only [from_, List.range_succ_eq_map, List.map_cons, List.map_map, Nat.add_zero]
  congr 1
  refine List.map_congr_left ?_
  intro k _
  simp only [Function.comp]
  congr 2
  omega

private theorem cycle_again (it : Iter ω α) (w : ω) (l : List α) (hl : l ≠ []) : ∀ n i, i ≤ l.length → ∃ left, Runs (cycle it) (.again l (l.drop i), w) (from_ l hl i n) (.again l left, w) := by
  intro n
  induction n with
  | zero => intro i _; exact ⟨_, .nil _⟩
  | succ n ih =>
    intro i hi
    rw [from_succ]
    rcases Nat.lt_or_ge i l.length with h | h
    · obtain ⟨left, hr⟩ := ih (i + 1) h
      refine ⟨left, .cons ?_ hr⟩
      simp only [cycle]
      rw [List.drop_eq_getElem_cons h]
      simp only [Cycle.replay, Nat.mod_eq_of_lt h]
    · have hil : i = l.length := by omega
      subst hil
      have hpos := List.length_pos_iff.2 hl
      obtain ⟨left, hr⟩ := ih 1 hpos
      have heq : from_ l hl (l.length + 1) n = from_ l hl 1 n := by
        simp only [from_]
        refine List.map_congr_left ?_
        intro k _
        congr 1
        rw [Nat.add_assoc, Nat.add_mod_left]
      rw [heq]
      refine ⟨left, .cons ?_ hr⟩
      simp only [cycle]
      rw [List.drop_length]
      have hrep : Cycle.replay l [] = (.again l (l.drop 1), .item (l[0]'hpos)) := by
        cases l with
        | nil => exact absurd rfl hl
        | cons a t => rfl
      rw [hrep]
      simp only [Nat.mod_self]

/-- C76: `cycle` gives the items of the iterator again and again, without end. The iterator is read once. -/
theorem C76_cycle {it : Iter ω α} {w w' : ω} {l : List α} (h : Ends it w l none w') (hl : l ≠ []) (n : Nat) :
    ∃ c w'', Runs (cycle it) (.first [], w) ((List.range n).map fun i => l[i % l.length]'(Nat.mod_lt _ (List.length_pos_iff.2 hl))) (c, w'') ∧ (l.length < n → w'' = w') := by
  obtain ⟨w₀, hr, hs⟩ := h
  have hfrom : (List.range n).map (fun i => l[i % l.length]'(Nat.mod_lt _ (List.length_pos_iff.2 hl))) = from_ l hl 0 n := by simp [from_]
  rw [hfrom]
  rcases Nat.lt_or_ge l.length n with hn | hn
  · -- the first round and the rest
    obtain ⟨m, rfl⟩ : ∃ m, n = l.length + (m + 1) := ⟨n - l.length - 1, by omega⟩
    have hsplit : from_ l hl 0 (l.length + (m + 1)) = l ++ from_ l hl 0 (m + 1) := by
      generalize m + 1 = m
      simp only [from_, List.range_add, List.map_append, List.map_map, Nat.zero_add]
      congr 1
      · refine List.ext_getElem (by simp) ?_
        intro i h1 h2
        simp only [List.getElem_map, List.getElem_range, Nat.mod_eq_of_lt h2]
      · refine List.map_congr_left ?_
        intro k _
        simp only [Function.comp, Nat.add_mod_left]
    rw [hsplit]
    have h1 := cycle_first hr []
    rw [List.nil_append] at h1
    obtain ⟨left, h2⟩ := cycle_again it w' l hl (m + 1) 0 (Nat.zero_le _)
    refine ⟨_, _, h1.append (l' := from_ l hl 0 (m + 1)) (w₂ := (.again l left, w')) ?_, fun _ => rfl⟩
    rw [from_succ] at h2 ⊢
    cases h2 with
    | cons ha hb =>
      refine .cons ?_ hb
      simp only [cycle, hs]
      simp only [cycle, List.drop_zero] at ha
      exact ha
  · -- not yet at the end
    have htake : from_ l hl 0 n = l.take n := by
      refine List.ext_getElem (by simp [from_]; omega) ?_
      intro i h1 h2
      simp only [from_, List.getElem_map, List.getElem_range, List.getElem_take, Nat.zero_add]
      have : i < l.length := by simp at h2; omega
      congr 1
      exact Nat.mod_eq_of_lt this
    rw [htake]
    have hrt : ∀ {w₁ w₂ : ω} {l : List α}, Runs it w₁ l w₂ → ∀ n, ∃ w₃, Runs it w₁ (l.take n) w₃ := by
      intro w₁ w₂ l h
      induction h with
      | nil w => intro n; exact ⟨w, by rw [List.take_nil]; exact .nil _⟩
      | cons h r ih =>
        intro n
        cases n with
        | zero => exact ⟨_, .nil _⟩
        | succ n =>
          obtain ⟨w₃, h₃⟩ := ih n
          exact ⟨w₃, .cons h h₃⟩
    obtain ⟨w₃, h₃⟩ := hrt hr n
    exact ⟨_, _, cycle_first h₃ [], fun h => by omega⟩

/-- C76: `cycle` of nothing ends, and an exception of the iterator ends it. -/
theorem C76_cycle_ends {it : Iter ω α} {w w' : ω} : (Ends it w [] none w' → Ends (cycle it) (.first [], w) [] none (.ended, w')) ∧
    (∀ {l : List α} {e : Err}, Ends it w l (some e) w' → Ends (cycle it) (.first [], w) l (some e) (.ended, w')) := by
  constructor
  · rintro ⟨w₀, hr, hs⟩
    cases hr
    exact ⟨_, .nil _, by simp only [cycle, hs, Cycle.replay]⟩
  · rintro l e ⟨w₀, hr, hs⟩
    exact ⟨_, cycle_first hr [], by simp only [cycle, hs]⟩

/-! ### numbers -/

/-- C76: `count` gives all the numbers from `start` on. -/
theorem C76_count (start : Int) (n : Nat) : Runs count start ((List.range n).map fun (i : Nat) => start + i) (start + n) := by
  induction n generalizing start with
  | zero => simp only [List.range_zero, List.map_nil, Int.natCast_zero, Int.add_zero]; exact .nil _
  | succ n ih =>
    have h := ih (start + 1)
    rw [List.range_succ_eq_map, List.map_cons, List.map_map]
    have e1 : ((fun (i : Nat) => start + (i : Int)) ∘ Nat.succ) = fun (i : Nat) => start + 1 + (i : Int) := by
      funext i; simp only [Function.comp, Nat.succ_eq_add_one]; push_cast; omega
    have e2 : start + ((n + 1 : Nat) : Int) = start + 1 + n := by push_cast; omega
    rw [e1, e2]
    exact .cons (by simp [count]) h

theorem toBytes_ok {size : Nat} {little : Bool} {n : Int} (h₀ : 0 ≤ n) (h : n < 256 ^ size) : ∃ b, toBytes size little n = .ok b ∧ Encodes size little n b := by
  obtain ⟨k, rfl⟩ := Int.eq_ofNat_of_zero_le h₀
  have hk : k < 256 ^ size := Int.ofNat_lt.1 (by rw [Int.natCast_pow]; exact h)
  unfold toBytes
  rw [if_pos ⟨h₀, h⟩, Int.toNat_natCast]
  refine ⟨_, rfl, ?_⟩
  cases little with
  | true => simp only [if_true, Encodes]; exact ⟨length_leDigits _ _, by rw [fromLE_leDigits, Nat.mod_eq_of_lt hk]⟩
  | false =>
    simp only [Bool.false_eq_true, if_false, Encodes]
    exact ⟨length_beDigits _ _, by rw [fromBE_beDigits_of_lt hk]⟩

theorem toBytes_error {size : Nat} {little : Bool} {n : Int} (h : n < 0 ∨ 256 ^ size ≤ n) : toBytes size little n = .error .overflow := by
  unfold toBytes
  rw [if_neg (by omega)]

/-- C76: `bytes_count` gives the encodings of the numbers from `start` on, as long as they fit into the size, and then raises `OverflowError`. -/
theorem C76_bytes_count (size : Nat) (little : Bool) (start : Int) (h : 0 ≤ start) (n : Nat) (hn : start + n ≤ 256 ^ size) :
    ∃ l, l.length = n ∧ (∀ (i : Nat) (hi : i < l.length), Encodes size little (start + i) l[i]) ∧ Runs (bytesCount size little) (some start) l (some (start + n)) ∧
      (start + n = 256 ^ size → Ends (bytesCount size little) (some start) l (some .overflow) none) := by
  have main : ∀ (n : Nat) (start : Int), 0 ≤ start → start + n ≤ 256 ^ size →
      ∃ l, l.length = n ∧ (∀ (i : Nat) (hi : i < l.length), Encodes size little (start + i) l[i]) ∧ Runs (bytesCount size little) (some start) l (some (start + n)) := by
    intro n
    induction n with
    | zero => intro start _ _; exact ⟨[], rfl, by simp, by simp only [Int.natCast_zero, Int.add_zero]; exact .nil _⟩
    | succ n ih =>
      intro start h hn
      obtain ⟨b, hb, he⟩ := toBytes_ok (little := little) h (by omega : start < 256 ^ size)
      obtain ⟨l, h1, h2, h3⟩ := ih (start + 1) (by omega) (by push_cast at hn; omega)
      refine ⟨b :: l, by simp [h1], ?_, .cons (w₁ := some (start + 1)) (by simp only [bytesCount, hb]) ?_⟩
      · intro i hi
        cases i with
        | zero => simpa using he
        | succ i =>
          have := h2 i (by simpa using hi)
          simp only [List.getElem_cons_succ]
          have e : start + ((i + 1 : Nat) : Int) = start + 1 + i := by push_cast; omega
          rw [e]; exact this
      · have e : start + ((n + 1 : Nat) : Int) = start + 1 + n := by push_cast; omega
        rw [e]; exact h3
  obtain ⟨l, h1, h2, h3⟩ := main n start h hn
  refine ⟨l, h1, h2, h3, fun he => ⟨_, h3, ?_⟩⟩
  simp only [bytesCount, toBytes_error (little := little) (.inr (by omega) : start + n < 0 ∨ (256 : Int) ^ size ≤ start + n)]

/-- C76: `bytes_range` with a positive or negative step gives the encodings of the numbers `start`, `start + step`, ... before `stop`, if these fit into the size. -/
theorem C76_bytes_range (size : Nat) (little : Bool) (start stop step : Int) (hs : step ≠ 0) (n : Nat)
    (hin : ∀ i : Nat, i < n → (if 0 < step then start + i * step < stop else stop < start + i * step))
    (hend : if 0 < step then stop ≤ start + n * step else start + n * step ≤ stop)
    (hfit : ∀ i : Nat, i < n → 0 ≤ start + i * step ∧ start + i * step < 256 ^ size) :
    ∃ l, l.length = n ∧ (∀ (i : Nat) (hi : i < l.length), Encodes size little (start + i * step) l[i]) ∧ Ends (bytesRange step stop size little) (some start) l none none := by
  induction n generalizing start with
  | zero =>
    refine ⟨[], rfl, by simp, _, .nil _, ?_⟩
    have : rangeNext step stop start = none := by
      unfold rangeNext
      rw [if_neg]
      simp only [Int.natCast_zero, Int.zero_mul, Int.add_zero] at hend
      split at hend <;> omega
    simp only [bytesRange, hs, if_false, this]
  | succ n ih =>
    obtain ⟨hf1, hf2⟩ := hfit 0 (by omega)
    simp only [Int.natCast_zero, Int.zero_mul, Int.add_zero] at hf1 hf2
    obtain ⟨b, hb, he⟩ := toBytes_ok (little := little) hf1 hf2
    have step1 : ∀ i : Nat, start + ((i + 1 : Nat) : Int) * step = start + step + i * step := by
      intro i; push_cast; rw [Int.add_mul, Int.one_mul]; omega
    obtain ⟨l, h1, h2, w₁, h3, h4⟩ := ih (start + step) (by intro i hi; have := hin (i + 1) (by omega); rw [step1] at this; exact this)
      (by rw [step1] at hend; exact hend) (by intro i hi; have := hfit (i + 1) (by omega); rw [step1] at this; exact this)
    have hnext : rangeNext step stop start = some start := by
      have := hin 0 (by omega)
      simp only [Int.natCast_zero, Int.zero_mul, Int.add_zero] at this
      unfold rangeNext
      rw [if_pos]
      split at this <;> omega
    refine ⟨b :: l, by simp [h1], ?_, w₁, .cons (by simp only [bytesRange, hs, if_false, hnext, hb]) h3, h4⟩
    intro i hi
    cases i with
    | zero => simpa using he
    | succ i =>
      have := h2 i (by simpa using hi)
      rw [step1]
      exact this

/-- C76: `bytes_range` raises `OverflowError` at the first number before `stop` that does not fit into the size, and `ValueError` at once for a step of zero. -/
theorem C76_bytes_range_raises (size : Nat) (little : Bool) (start stop step : Int) :
    Ends (bytesRange 0 stop size little) (some start) [] (some .value) none ∧
    (step ≠ 0 → ∀ n : Nat, (∀ i : Nat, i ≤ n → (if 0 < step then start + i * step < stop else stop < start + i * step)) →
      (∀ i : Nat, i < n → 0 ≤ start + i * step ∧ start + i * step < 256 ^ size) → (start + n * step < 0 ∨ 256 ^ size ≤ start + n * step) →
      ∃ l, l.length = n ∧ (∀ (i : Nat) (hi : i < l.length), Encodes size little (start + i * step) l[i]) ∧ Ends (bytesRange step stop size little) (some start) l (some .overflow) none) := by
  refine ⟨⟨_, .nil _, rfl⟩, ?_⟩
  intro hs n
  have next : ∀ x : Int, (if 0 < step then x < stop else stop < x) → rangeNext step stop x = some x := by
    intro x this
    unfold rangeNext
    rw [if_pos]
    split at this <;> omega
  induction n generalizing start with
  | zero =>
    intro hin _ hbad
    have h0 := hin 0 (Nat.le_refl _)
    simp only [Int.natCast_zero, Int.zero_mul, Int.add_zero] at h0 hbad
    exact ⟨[], rfl, by simp, _, .nil _, by simp only [bytesRange, hs, if_false, next _ h0, toBytes_error hbad]⟩
  | succ n ih =>
    intro hin hfit hbad
    obtain ⟨hf1, hf2⟩ := hfit 0 (by omega)
    simp only [Int.natCast_zero, Int.zero_mul, Int.add_zero] at hf1 hf2
    obtain ⟨b, hb, he⟩ := toBytes_ok (little := little) hf1 hf2
    have step1 : ∀ i : Nat, start + ((i + 1 : Nat) : Int) * step = start + step + i * step := by
      intro i; push_cast; rw [Int.add_mul, Int.one_mul]; omega
    obtain ⟨l, h1, h2, w₁, h3, h4⟩ := ih (start + step) (by intro i hi; have := hin (i + 1) (by omega); rw [step1] at this; exact this)
      (by intro i hi; have := hfit (i + 1) (by omega); rw [step1] at this; exact this) (by rw [step1] at hbad; exact hbad)
    have h0 := hin 0 (by omega)
    simp only [Int.natCast_zero, Int.zero_mul, Int.add_zero] at h0
    refine ⟨b :: l, by simp [h1], ?_, w₁, .cons (by simp only [bytesRange, hs, if_false, next _ h0, hb]) h3, h4⟩
    intro i hi
    cases i with
    | zero => simpa using he
    | succ i =>
      have := h2 i (by simpa using hi)
      rw [step1]
      exact this

/-! ### `azip` -/

/-- The lists after one item was taken from each. -/
private def tails (w : Nat → List α) (k : Nat) : Nat → List α := fun i => if i < k then (w i).tail else w i

private theorem row_ok (k : Nat) : ∀ (j : Nat) (w : Nat → List α), (∀ i, j ≤ i → i < j + k → w i ≠ []) →
    ∃ row, azipRow ((List.range' j k).map listIter) w = (fun i => if j ≤ i ∧ i < j + k then (w i).tail else w i, .ok row) ∧ row.length = k ∧
      ∀ i (hi : i < row.length), (w (j + i)).head? = some row[i] := by
  induction k with
  | zero =>
    intro j w _
    refine ⟨[], ?_, rfl, by simp⟩
    simp only [List.range'_zero, List.map_nil, azipRow]
    congr 1
    funext i
    rw [if_neg (by omega)]
  | succ k ih =>
    intro j w h
    rw [List.range'_succ, List.map_cons]
    obtain ⟨a, l, hw⟩ := List.exists_cons_of_ne_nil (h j (Nat.le_refl _) (by omega))
    obtain ⟨row, h1, h2, h3⟩ := ih (j + 1) (fun i => if i = j then l else w i) (by
      intro i hi hk
      rw [if_neg (by omega)]
      exact h i (by omega) (by omega))
    refine ⟨a :: row, ?_, by simp [h2], ?_⟩
    · simp only [azipRow, listIter, hw]
      rw [h1]
      simp only [Prod.mk.injEq, and_true]
      funext i
      by_cases hij : i = j
      · subst hij
        rw [if_neg (by omega), if_pos rfl, if_pos (by omega), hw, List.tail_cons]
      · by_cases hlt : j ≤ i ∧ i < j + (k + 1)
        · rw [if_pos (by omega), if_pos hlt, if_neg hij]
        · rw [if_neg (by omega), if_neg hlt, if_neg hij]
    · intro i hi
      cases i with
      | zero => simp [hw]
      | succ i =>
        have := h3 i (by simpa using hi)
        rw [if_neg (by omega)] at this
        rw [show j + (i + 1) = j + 1 + i by omega]
        simpa using this

private theorem row_stop (m : Nat) : ∀ (j k : Nat) (w : Nat → List α), m < k → (∀ i, j ≤ i → i < j + m → w i ≠ []) → w (j + m) = [] →
    azipRow ((List.range' j k).map listIter) w = (fun i => if j ≤ i ∧ i < j + m then (w i).tail else w i, .error .stop) := by
  induction m with
  | zero =>
    intro j k w hk _ hm
    obtain ⟨k, rfl⟩ : ∃ k', k = k' + 1 := ⟨k - 1, by omega⟩
    rw [List.range'_succ, List.map_cons]
    simp only [Nat.add_zero] at hm
    simp only [azipRow, listIter, hm]
    congr 1
    funext i
    rw [if_neg (by omega)]
  | succ m ih =>
    intro j k w hk h hm
    obtain ⟨k, rfl⟩ : ∃ k', k = k' + 1 := ⟨k - 1, by omega⟩
    rw [List.range'_succ, List.map_cons]
    obtain ⟨a, l, hw⟩ := List.exists_cons_of_ne_nil (h j (Nat.le_refl _) (by omega))
    have := ih (j + 1) k (fun i => if i = j then l else w i) (by omega) (by
      intro i hi hk
      rw [if_neg (by omega)]
      exact h i (by omega) (by omega)) (by rw [if_neg (by omega), show j + 1 + m = j + (m + 1) by omega]; exact hm)
    simp only [azipRow, listIter, hw]
    rw [this]
    simp only [Prod.mk.injEq, and_true]
    funext i
    by_cases hij : i = j
    · subst hij
      rw [if_neg (by omega), if_pos rfl, if_pos (by omega), hw, List.tail_cons]
    · by_cases hlt : j ≤ i ∧ i < j + (m + 1)
      · rw [if_pos (by omega), if_pos hlt, if_neg hij]
      · rw [if_neg (by omega), if_neg hlt, if_neg hij]

/-- C76: `azip` of one or more iterators over lists gives what `zip` gives: the row `j` has the `j`th item of each list, and there are as many rows as the shortest list has items. The
lists before the first of the shortest ones have lost one more item. -/
theorem C76_azip_partial (k m n : Nat) (w : Nat → List α) (hm : m < k) (hlen : (w m).length = n) (hbefore : ∀ i, i < m → n < (w i).length) (hafter : ∀ i, i < k → n ≤ (w i).length) :
    ∃ rows : List (List α), rows.length = n ∧ (∀ j (hj : j < rows.length), rows[j].length = k ∧ ∀ i, i < k → rows[j][i]? = (w i)[j]?) ∧
      Ends azip (some ((List.range k).map listIter), w) rows none
        (none, fun i => if i < m then (w i).drop (n + 1) else if i < k then (w i).drop n else w i) := by
  induction n generalizing w with
  | zero =>
    refine ⟨[], rfl, by simp, _, .nil _, ?_⟩
    have := row_stop m 0 k w hm (by
      intro i _ hi
      have := hbefore i (by omega)
      exact List.length_pos_iff.1 this) (by simpa using List.length_eq_zero_iff.1 hlen)
    rw [← List.range_eq_range'] at this
    simp only [azip, this]
    congr 2
    funext i
    simp only [Nat.zero_le, true_and, Nat.zero_add, List.drop_one, List.drop_zero, ite_self]
  | succ n ih =>
    obtain ⟨row, h1, h2, h3⟩ := row_ok k 0 w (by
      intro i _ hi
      have := hafter i (by omega)
      exact List.length_pos_iff.1 (by omega))
    rw [← List.range_eq_range'] at h1
    simp only [Nat.zero_le, true_and, Nat.zero_add] at h1 h3
    have hlen' : ∀ i, i < k → ((fun i => if i < k then (w i).tail else w i) i).length = (w i).length - 1 := by
      intro i hi; simp [hi]
    obtain ⟨rows, r1, r2, w₁, r3, r4⟩ := ih (fun i => if i < k then (w i).tail else w i) (by rw [hlen' m hm, hlen]; rfl)
      (by intro i hi; have := hbefore i hi; rw [hlen' i (by omega)]; omega)
      (by intro i hi; have := hafter i hi; rw [hlen' i hi]; omega)
    refine ⟨row :: rows, by simp [r1], ?_, w₁, .cons (by simp only [azip, h1]) r3, ?_⟩
    · intro j hj
      cases j with
      | zero =>
        simp only [List.getElem_cons_zero]
        refine ⟨h2, ?_⟩
        intro i hi
        rw [← List.head?_eq_getElem?, h3 i (by omega), List.getElem?_eq_getElem (by omega)]
      | succ j =>
        simp only [List.getElem_cons_succ]
        obtain ⟨hl, hr⟩ := r2 j (by simpa using hj)
        refine ⟨hl, ?_⟩
        intro i hi
        rw [hr i hi]
        simp [hi]
    · rw [r4]
      congr 2
      funext i
      by_cases h1 : i < m
      · simp only [h1, if_true, show i < k by omega, List.drop_tail]
      · by_cases h2 : i < k
        · simp only [h1, h2, if_false, if_true, List.drop_tail]
        · simp only [h1, h2, if_false]

/-- C76: an exception of an iterator is raised by `azip`, which has then ended. -/
theorem C76_azip_raises {its : List (Iter ω α)} {it : Iter ω α} {rest : List (Iter ω α)} {w w₁ w₂ : ω} {row : List α} {e : Err} (h : azipRow its w = (w₁, .ok row)) (h' : it w₁ = (w₂, .raised e)) :
    Ends azip (some (its ++ it :: rest), w) [] (some e) (none, w₂) := by
  refine ⟨_, .nil _, ?_⟩
  have : azipRow (its ++ it :: rest) w = (w₂, .error (.raised e)) := by
    induction its generalizing w row with
    | nil =>
      simp only [azipRow, Prod.mk.injEq] at h
      obtain ⟨rfl, _⟩ := h
      simp only [List.nil_append, azipRow, h']
    | cons i its ih =>
      simp only [List.cons_append, azipRow] at h ⊢
      rcases hx : i w with ⟨w', out⟩
      rw [hx] at h
      cases out with
      | stop => cases h
      | raised e => cases h
      | item a =>
        simp only at h ⊢
        rcases hy : azipRow its w' with ⟨w'', x⟩
        rw [hy] at h
        cases x with
        | error o => cases h
        | ok r =>
          simp only [Prod.mk.injEq, Except.ok.injEq] at h
          obtain ⟨rfl, _⟩ := h
          rw [ih hy]
  simp only [azip, this]

/-- C76: `azip()` without iterators gives empty rows for ever. `zip()` gives nothing. -/
theorem C76_azip_none (w : ω) (n : Nat) : Runs (azip : Iter (Option (List (Iter ω α)) × ω) (List α)) (some [], w) (List.replicate n []) (some [], w) := by
  induction n with
  | zero => exact .nil _
  | succ n ih => exact .cons rfl ih

/-! ### `popleft` -/

/-- C76: whatever is appended to a deque meanwhile, and however many generators take from it in whatever order: everything that was in it or put into it is given once, in the order of
the deque, or is still in it. -/
theorem C76_popleft (s : Shared α) (events : List (Event α)) : taken (s.run events).2 ++ (s.run events).1.queue = s.queue ++ put (s.run events).2 := by
  induction events generalizing s with
  | nil => simp [Shared.run, taken, put]
  | cons e events ih =>
    have h := ih (s.step e).1
    simp only [Shared.run]
    cases e with
    | append a =>
      simp only [Shared.step] at h ⊢
      simp only [taken, put, h, List.append_assoc, List.singleton_append]
    | next i =>
      by_cases hi : s.ended i = true
      · simp only [Shared.step, hi, if_true] at h ⊢
        simpa only [taken, put] using h
      · rcases s with ⟨queue, ended⟩
        simp only at hi
        cases queue with
        | nil =>
          simp only [Shared.step, hi, Bool.false_eq_true, if_false] at h ⊢
          simpa only [taken, put] using h
        | cons a queue =>
          simp only [Shared.step, hi, Bool.false_eq_true, if_false] at h ⊢
          simp only [taken, put, List.cons_append, h]

/-- C76: a generator over a deque that is asked gives an item if there is one and the generator has not ended; it ends when it finds the deque empty, and then stays ended. -/
theorem C76_popleft_ends (s : Shared α) (events : List (Event α)) (i : Nat) :
    let t := (s.run events).1
    (t.ended i = false → (∀ a queue, t.queue = a :: queue → (t.step (.next i)).2 = .next i (.item a)) ∧ (t.queue = [] → (t.step (.next i)).1.ended i = true)) ∧
    (t.ended i = true → ∀ more, (t.run more).1.ended i = true ∧ ((t.run more).1.step (.next i)).2 = .next i .stop) := by
  intro t
  refine ⟨fun h => ⟨?_, ?_⟩, ?_⟩
  · intro a queue hq
    simp [Shared.step, h, hq]
  · intro hq
    simp [Shared.step, h, hq]
  · intro h more
    have keep : ∀ (more : List (Event α)) (t : Shared α), t.ended i = true → (t.run more).1.ended i = true := by
      intro more
      induction more with
      | nil => intro t h; exact h
      | cons e more ih =>
        intro t h
        simp only [Shared.run]
        refine ih _ ?_
        cases e with
        | append a => exact h
        | next j =>
          simp only [Shared.step]
          by_cases hj : t.ended j = true
          · rw [if_pos hj]; exact h
          · rw [if_neg hj]
            cases t.queue with
            | nil => simp only; split <;> simp_all
            | cons a q => exact h
    have := keep more t h
    exact ⟨this, by simp [Shared.step, this]⟩

/-! ### examples -/

private theorem list_ends (i : Nat) : ∀ (l : List α) (w : Nat → List α), w i = l → Ends (listIter i) w l none (fun j => if j = i then [] else w j) := by
  intro l
  induction l with
  | nil =>
    intro w h
    refine ⟨w, .nil _, ?_⟩
    simp only [listIter, h]
    congr 1
    funext j
    by_cases hj : j = i
    · rw [if_pos hj, hj, h]
    · rw [if_neg hj]
  | cons a l ih =>
    intro w h
    obtain ⟨w₁, h1, h2⟩ := ih (fun j => if j = i then l else w j) (by simp)
    refine ⟨w₁, .cons (by simp only [listIter, h]) h1, ?_⟩
    rw [h2]
    congr 1
    funext j
    by_cases hj : j = i <;> simp [hj]

/-- Two lists. -/
private def w₀ : Nat → List Nat
  | 0 => [1, 2]
  | 1 => [3]
  | _ => []

-- `collate` of two lists, of which the first one is given twice
example : ∃ w', Ends collate ([listIter 0, listIter 1, listIter 0], w₀) [1, 2, 3] none ([], w') :=
  ⟨_, C76_collate (.cons (list_ends 0 [1, 2] _ rfl) (.cons (list_ends 1 [3] _ rfl) (.cons (list_ends 0 [] _ rfl) (.nil _))))⟩

example : ∃ c w', Runs (cycle (listIter 0)) (.first [], w₀) [1, 2, 1, 2, 1] (c, w') := by
  obtain ⟨c, w', h, _⟩ := C76_cycle (list_ends 0 [1, 2] w₀ rfl) (by simp) 5
  exact ⟨c, w', h⟩

example : ∃ l, l.length = 6 ∧ Ends (bytesCount 1 false) (some 250) l (some .overflow) none := by
  obtain ⟨l, h1, _, _, h4⟩ := C76_bytes_count 1 false 250 (by decide) 6 (by decide)
  exact ⟨l, h1, h4 (by decide)⟩

example : ∃ l, l.length = 3 ∧ Ends (bytesRange (-2) 1 1 true) (some 7) l none none := by
  obtain ⟨l, h1, _, h3⟩ := C76_bytes_range 1 true 7 1 (-2) (by decide) 3 (by decide) (by decide) (by decide)
  exact ⟨l, h1, h3⟩

example : ∃ l : List Bytes, l.length = 2 ∧ Ends (bytesRange 100 1000 1 true) (some 57) l (some .overflow) none := by
  obtain ⟨l, h1, _, h3⟩ := (C76_bytes_range_raises 1 true 57 1000 100).2 (by decide) 2 (by intro i hi; rw [if_pos (by decide)]; omega) (by intro i hi; omega) (by decide)
  exact ⟨l, h1, h3⟩

example : ∃ rows : List (List Nat), rows.length = 1 ∧ ∃ w', Ends azip (some ((List.range 2).map listIter), w₀) rows none (none, w') := by
  obtain ⟨rows, h1, _, h3⟩ := C76_azip_partial 2 1 1 w₀ (by decide) rfl (by intro i hi; obtain rfl : i = 0 := by omega
                                                                            decide) (by
    intro i hi
    rcases (by omega : i = 0 ∨ i = 1) with rfl | rfl <;> decide)
  exact ⟨rows, h1, _, h3⟩

example : taken (({ queue := [1, 2] } : Shared Nat).run [.next 0, .next 1, .next 0, .append 3, .next 0, .next 1]).2 = [1, 2, 3] := rfl

end Aiootp.Gens
