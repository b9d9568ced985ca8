import Verif.Lemmas.KdfSecrecy

/-
Property C107: derived keys look as if they were drawn at random.
-/

namespace Aiootp.Kdf

open Oracle (Tree)
open Oracle.Tree (asked ext Agree many many_key many_bad many_mono many_congr many_all many_nonneg)
open Secrecy (Digest card_digest)

section
variable {N : Nat} {D : Finset (HashType × Bytes)} {known : Functions} {salt kdfDomain : Bytes} {a : Attack}

theorem functions_drawn (G : Drawn D N) {t : HashType} {m : Bytes} (h : (t, m) ∈ D) (n : Nat) : G.functions known t m n = ofAnswers (ext G) t m n := by
  simp only [Drawn.functions, ofAnswers, ext, h, dite_true]

/-- If everything that is hashed is drawn, then nothing else matters. -/
theorem covered_seen {G : Drawn D N} {n : Nat} (h : ∀ i < n, Covered D (G.functions known) salt kdfDomain (a.ask (a.seen (G.functions known) salt kdfDomain i))) :
    ∀ i ≤ n, a.seen (G.functions known) salt kdfDomain i = a.seen (ofAnswers (ext G)) salt kdfDomain i
  | 0, _ => rfl
  | i + 1, hi => by
    have ih := covered_seen h i (by omega)
    have hc := h i (by omega)
    simp only [Attack.seen]
    rw [← ih, (covered_congr fun t k m hh n' => functions_drawn G (hc t k m hh) n').2.1]

/-- What is asked for in the end, if it is to be asked for. -/
noncomputable def goal (a : Attack) (n : Nat) (x : List (Except Err Bytes) × Except Err Bytes) : Option (HashType × Bytes) := by
  classical exact if a.New n x.1 then (match x.2 with | .ok m => some ((a.target x.1).2.output.type, m) | .error _ => none) else none

theorem goal_some {n : Nat} {x : List (Except Err Bytes) × Except Err Bytes} {q : HashType × Bytes} :
    goal a n x = some q ↔ a.New n x.1 ∧ ∃ m, x.2 = .ok m ∧ q = ((a.target x.1).2.output.type, m) := by
  classical
  unfold goal
  by_cases h : a.New n x.1
  · rw [if_pos h]
    cases x.2 with
    | error e => simp
    | ok m => simp [h, eq_comm]
  · rw [if_neg h]
    simp [h]

/-- The test for the bytes that are drawn last. -/
def finalTest (a : Attack) (x : List (Except Err Bytes) × Except Err Bytes) (u : Digest N) : Prop := a.test x.1 (cut (a.target x.1).2.output.bytes u.1)

theorem real_iff (f : HashType × Bytes → Digest N) (n : Nat) : a.Real (ofAnswers f) salt kdfDomain n ↔
    ∃ q, goal a n ((preTree a salt kdfDomain n).run f) = some q ∧ finalTest a ((preTree a salt kdfDomain n).run f) (f q) := by
  rw [preTree_run]
  unfold Attack.Real finalTest
  simp only [goal_some, derive_eq]
  constructor
  · rintro ⟨h, k, hk, ht⟩
    cases hm : lastOf (ofAnswers f) salt kdfDomain (a.target (a.seen (ofAnswers f) salt kdfDomain n)) with
    | error e => rw [hm] at hk; cases hk
    | ok m =>
      rw [hm] at hk
      cases hk
      exact ⟨_, ⟨h, m, rfl, rfl⟩, ht⟩
  · rintro ⟨q, ⟨h, m, hm, rfl⟩, ht⟩
    refine ⟨h, _, by rw [hm]; rfl, ht⟩

theorem ideal_iff (f : HashType × Bytes → Digest N) (n : Nat) (u : Digest N) : a.Ideal (ofAnswers f) salt kdfDomain n u.1 ↔
    ∃ q, goal a n ((preTree a salt kdfDomain n).run f) = some q ∧ finalTest a ((preTree a salt kdfDomain n).run f) u := by
  rw [preTree_run]
  unfold Attack.Ideal finalTest
  simp only [goal_some, derive_eq]
  constructor
  · rintro ⟨h, k, hk, ht⟩
    cases hm : lastOf (ofAnswers f) salt kdfDomain (a.target (a.seen (ofAnswers f) salt kdfDomain n)) with
    | error e => rw [hm] at hk; cases hk
    | ok m =>
      rw [hm] at hk
      cases hk
      rw [ofAnswers_length] at ht
      exact ⟨_, ⟨h, m, rfl, rfl⟩, ht⟩
  · rintro ⟨q, ⟨h, m, hm, rfl⟩, ht⟩
    refine ⟨h, _, by rw [hm]; rfl, ?_⟩
    rw [ofAnswers_length]
    exact ht

open Classical in
theorem card_start {s : Nat} (hs : s ≤ N) (x : Bytes) (hx : x.length = s) : ((Finset.univ.filter fun d : Digest N => d.1.take s = x).card : ℚ) ≤ 1 / 256 ^ s * Fintype.card (Digest N) := by
  have h := Secrecy.card_piece (K := N) (i := 0) (n := s) (by omega) (fun _ => x) (fun _ => hx) (fun _ _ => rfl)
  have e : (Finset.univ.filter fun d : Digest N => d.1.take s = x) = Finset.univ.filter fun d : Digest N => Secrecy.piece 0 s d.1 = x := by
    refine Finset.filter_congr fun d _ => ?_
    simp only [Secrecy.piece, List.drop_zero]
  rw [e, card_digest, one_div, inv_mul_eq_div, le_div_iff₀ (by positivity)]
  exact_mod_cast h.le

open Classical in
theorem share_prod {Ω U : Type} [Fintype Ω] [Fintype U] (P : Ω → U → Prop) :
    share (fun w : Ω × U => P w.1 w.2) = (∑ u, ((Finset.univ.filter fun G => P G u).card : ℚ)) / (Fintype.card Ω * Fintype.card U) := by
  unfold share
  rw [Fintype.card_prod]
  push_cast
  congr 1
  rw [Finset.card_eq_sum_card_fiberwise (f := fun w : Ω × U => w.2) (t := Finset.univ) (fun _ _ => Finset.mem_coe.2 (Finset.mem_univ _))]
  push_cast
  refine Finset.sum_congr rfl fun u _ => ?_
  norm_cast
  refine Finset.card_bij' (fun w _ => w.1) (fun G _ => (G, u)) ?_ ?_ ?_ ?_
  · rintro ⟨G, v⟩ h
    simp only [Finset.mem_filter, Finset.mem_univ, true_and] at h ⊢
    obtain ⟨h, rfl⟩ := h
    exact h
  · intro G h
    simp only [Finset.mem_filter, Finset.mem_univ, true_and, and_true] at h ⊢
    exact h
  · rintro ⟨G, v⟩ h
    simp only [Finset.mem_filter, Finset.mem_univ, true_and] at h
    rw [h.2]
  · intro G h
    rfl

/-- **C107** If the hash functions are drawn at random, then whoever has `n` keys derived with kdfs and arguments of their choice cannot tell another key from bytes that are drawn. -/
theorem C107 {keys : Finset Bytes} {s n : Nat} (hN : 168 ≤ N) (hs : s ≤ 72) (hsalt : s ≤ salt.length) (hkeys : ∀ k ∈ keys, s ≤ k.length) (hfair : a.Fair keys)
    (hD : ∀ G : Drawn D N, (∀ i < n, Covered D (G.functions known) salt kdfDomain (a.ask (a.seen (G.functions known) salt kdfDomain i))) ∧
      Covered D (G.functions known) salt kdfDomain (a.target (a.seen (G.functions known) salt kdfDomain n))) :
    |share (fun G : Drawn D N => a.Real (G.functions known) salt kdfDomain n) - share (fun w : Drawn D N × Digest N => a.Ideal (w.1.functions known) salt kdfDomain n w.2.1)| ≤
      (3 * n + 3 + keys.card) ^ 2 / 256 ^ s := by
  classical
  have hseen : ∀ G : Drawn D N, a.seen (G.functions known) salt kdfDomain n = a.seen (ofAnswers (ext G)) salt kdfDomain n := fun G => covered_seen (hD G).1 n le_rfl
  have htarget : ∀ G : Drawn D N, _ := fun G => covered_congr fun t k m hh n' => functions_drawn G ((hD G).2 t k m hh) n'
  have hreal : ∀ G : Drawn D N, a.Real (G.functions known) salt kdfDomain n ↔ a.Real (ofAnswers (ext G)) salt kdfDomain n := by
    intro G
    unfold Attack.Real
    simp only
    rw [(htarget G).2.1, hseen]
  have hideal : ∀ (G : Drawn D N) u, a.Ideal (G.functions known) salt kdfDomain n u ↔ a.Ideal (ofAnswers (ext G)) salt kdfDomain n u := by
    intro G u
    unfold Attack.Ideal
    simp only
    rw [(htarget G).2.1, hseen]
  -- everything that is asked is drawn
  have hask : ∀ G : Drawn D N, (∀ q ∈ (preTree a salt kdfDomain n).asked (ext G), q ∈ D) ∧
      ∀ q, goal a n ((preTree a salt kdfDomain n).run (ext G)) = some q → q ∈ D := by
    intro G
    have ht : ∀ t k m, Hashes (ofAnswers (ext G)) salt kdfDomain (a.target (a.seen (ofAnswers (ext G)) salt kdfDomain n)).1 (a.target (a.seen (ofAnswers (ext G)) salt kdfDomain n)).2 t k m → (t, m) ∈ D := by
      intro t k m h
      rw [← hseen G] at h
      exact (hD G).2 t k m ((htarget G).2.2 t k m h)
    refine ⟨fun q hq => ?_, fun q hq => ?_⟩
    · rcases (preTree_asked ..).1 hq with ⟨i, hi, h⟩ | h
      · obtain ⟨k, hk⟩ := asked_hashes h
        rw [← covered_seen (hD G).1 i hi.le] at hk
        have hc := (hD G).1 i hi
        exact hc q.1 k q.2 ((covered_congr fun t k m hh n' => functions_drawn G (hc t k m hh) n').2.2 _ _ _ hk)
      · obtain ⟨k, hk⟩ := asked_hashes ((deriveTree_asked ..).2 (.inl h))
        exact ht _ _ _ hk
    · rw [preTree_run, goal_some] at hq
      obtain ⟨_, m, hm, rfl⟩ := hq
      obtain ⟨_, p, hp, hm'⟩ := lastOf_ok.1 hm
      exact ht _ _ _ (.last hp hm')
  have hall : ∀ G : Drawn D N, Agree (∅ : Set (HashType × Bytes)) (fun _ => Classical.arbitrary (Digest N)) G := fun G q h => h.elim
  have key := many_key (D := D) (A := Digest N) (goal a n) (finalTest a) (preTree a salt kdfDomain n) ∅ (fun _ => Classical.arbitrary _) (fun G _ => hask G)
  have bad := many_bad (D := D) (A := Digest N) (P := Starts s keys salt) (R := Meets s) (fun _ _ h => h.symm) (ε := 1 / 256 ^ s) (δ := (keys.card + 1) / 256 ^ s)
    (fun x => by
      refine le_trans (le_of_eq ?_) (card_start (by omega) (x.1.take s) (by rw [List.length_take, x.2]; omega))
      congr 2
      refine Finset.filter_congr fun y _ => ?_
      unfold Meets
      exact eq_comm)
    (by
      have e : (Finset.univ.filter (Starts s keys salt) : Finset (Digest N)) ⊆ (insert salt keys).biUnion fun k => Finset.univ.filter fun d : Digest N => d.1.take s = k.take s := by
        intro d hd
        simp only [Finset.mem_filter, Finset.mem_univ, true_and, Starts] at hd
        obtain ⟨k, hk, e⟩ := hd
        exact Finset.mem_biUnion.2 ⟨k, hk, by simpa using e⟩
      have h1 : ((Finset.univ.filter (Starts s keys salt) : Finset (Digest N)).card : ℚ) ≤ ∑ k ∈ insert salt keys, ((Finset.univ.filter fun d : Digest N => d.1.take s = k.take s).card : ℚ) := by
        exact_mod_cast (Finset.card_le_card e).trans Finset.card_biUnion_le
      refine h1.trans ?_
      have h2 : ∑ k ∈ insert salt keys, ((Finset.univ.filter fun d : Digest N => d.1.take s = k.take s).card : ℚ) ≤ ∑ k ∈ insert salt keys, 1 / 256 ^ s * (Fintype.card (Digest N) : ℚ) := by
        refine Finset.sum_le_sum fun k hk => card_start (by omega) _ ?_
        have : s ≤ k.length := by
          rcases Finset.mem_insert.1 hk with rfl | hk
          · exact hsalt
          · exact hkeys k hk
        rw [List.length_take]
        omega
      refine h2.trans ?_
      rw [Finset.sum_const, nsmul_eq_mul]
      have h3 : ((insert salt keys).card : ℚ) ≤ keys.card + 1 := by exact_mod_cast Finset.card_insert_le salt keys
      have h4 : (0 : ℚ) ≤ 1 / 256 ^ s * (Fintype.card (Digest N) : ℚ) := by positivity
      calc ((insert salt keys).card : ℚ) * (1 / 256 ^ s * (Fintype.card (Digest N) : ℚ)) ≤ (keys.card + 1) * (1 / 256 ^ s * (Fintype.card (Digest N) : ℚ)) := mul_le_mul_of_nonneg_right h3 h4
        _ = (keys.card + 1) / 256 ^ s * Fintype.card (Digest N) := by ring)
    (preTree a salt kdfDomain n) ∅ (fun _ => Classical.arbitrary _) (3 * n + 2) (preTree_steps a salt kdfDomain n) (by rintro ⟨q, hq, _⟩; exact absurd hq (by simp))
    (fun G _ => (hask G).1)
  simp only [Finset.coe_empty, hall, true_and, many_all, Finset.notMem_empty, Set.mem_empty_iff_false, false_or] at key bad
  have hrep : many (fun G : Drawn D N => ∃ q, goal a n ((preTree a salt kdfDomain n).run (ext G)) = some q ∧ q ∈ (preTree a salt kdfDomain n).asked (ext G)) ≤
      many (fun G : Drawn D N => Tree.BadOn (Starts s keys salt) (Meets s) {q | q ∈ (preTree a salt kdfDomain n).asked (ext G)} (ext G)) := by
    refine many_mono fun G => ?_
    rintro ⟨q, hq, hin⟩
    rw [preTree_run, goal_some] at hq
    obtain ⟨hnew, m, hm, rfl⟩ := hq
    exact repeat_bad hN hs hsalt hkeys hfair (ext G) hnew hm hin
  have e1 : share (fun G : Drawn D N => a.Real (G.functions known) salt kdfDomain n) =
      many (fun G : Drawn D N => ∃ q, goal a n ((preTree a salt kdfDomain n).run (ext G)) = some q ∧ finalTest a ((preTree a salt kdfDomain n).run (ext G)) (ext G q)) / Fintype.card (Drawn D N) := by
    have : many (fun G : Drawn D N => ∃ q, goal a n ((preTree a salt kdfDomain n).run (ext G)) = some q ∧ finalTest a ((preTree a salt kdfDomain n).run (ext G)) (ext G q)) =
        many (fun G : Drawn D N => a.Real (G.functions known) salt kdfDomain n) := many_congr fun G => by rw [hreal, real_iff]
    rw [this]
    rfl
  have e2 : share (fun w : Drawn D N × Digest N => a.Ideal (w.1.functions known) salt kdfDomain n w.2.1) =
      (∑ u : Digest N, many (fun G : Drawn D N => ∃ q, goal a n ((preTree a salt kdfDomain n).run (ext G)) = some q ∧ finalTest a ((preTree a salt kdfDomain n).run (ext G)) u)) /
        (Fintype.card (Drawn D N) * Fintype.card (Digest N)) := by
    rw [share_prod (fun (G : Drawn D N) (u : Digest N) => a.Ideal (G.functions known) salt kdfDomain n u.1)]
    congr 1
    refine Finset.sum_congr rfl fun u _ => ?_
    have : many (fun G : Drawn D N => ∃ q, goal a n ((preTree a salt kdfDomain n).run (ext G)) = some q ∧ finalTest a ((preTree a salt kdfDomain n).run (ext G)) u) =
        many (fun G : Drawn D N => a.Ideal (G.functions known) salt kdfDomain n u.1) := many_congr fun G => by rw [hideal, ideal_iff]
    rw [this]
    rfl
  rw [e1, e2]
  set X := many (fun G : Drawn D N => ∃ q, goal a n ((preTree a salt kdfDomain n).run (ext G)) = some q ∧ finalTest a ((preTree a salt kdfDomain n).run (ext G)) (ext G q))
  set Y := ∑ u : Digest N, many (fun G : Drawn D N => ∃ q, goal a n ((preTree a salt kdfDomain n).run (ext G)) = some q ∧ finalTest a ((preTree a salt kdfDomain n).run (ext G)) u)
  have hA : (0 : ℚ) < Fintype.card (Digest N) := by exact_mod_cast Fintype.card_pos
  have hT : (0 : ℚ) < Fintype.card (Drawn D N) := by exact_mod_cast Fintype.card_pos
  have e3 : X / Fintype.card (Drawn D N) - Y / (Fintype.card (Drawn D N) * Fintype.card (Digest N)) = (X * Fintype.card (Digest N) - Y) / (Fintype.card (Drawn D N) * Fintype.card (Digest N)) := by
    field_simp
  rw [e3, abs_div, abs_of_pos (mul_pos hT hA), div_le_iff₀ (mul_pos hT hA)]
  refine key.trans ?_
  have h5 := mul_le_mul_of_nonneg_right (hrep.trans bad) hA.le
  refine h5.trans ?_
  rw [← mul_assoc]
  refine mul_le_mul_of_nonneg_right (mul_le_mul_of_nonneg_right ?_ hT.le) hA.le
  have h256 : (0 : ℚ) < 256 ^ s := by positivity
  rw [le_div_iff₀ h256]
  push_cast
  simp only [Finset.card_empty, Nat.cast_zero, zero_add]
  have e4 : (3 * (n : ℚ) + 2) * ((3 * n + 2) * (1 / 256 ^ s) + (keys.card + 1) / 256 ^ s) * 256 ^ s = (3 * n + 2) * (3 * n + 2 + (keys.card + 1)) := by
    field_simp
  rw [e4]
  have h1 : (0 : ℚ) ≤ n := by positivity
  have h2 : (0 : ℚ) ≤ keys.card := by positivity
  nlinarith

/-! ### there is such a set of inputs for every attack -/

theorem allIn_asked {Q A α : Type} {U : Set Q} (f : Q → A) : ∀ {t : Tree Q A α}, t.AllIn U → ∀ q ∈ t.asked f, q ∈ U
  | .done _, _, q, hq => by cases hq
  | .ask q' next, h, q, hq => by
    rcases List.mem_cons.1 hq with rfl | hq
    · exact h.1
    · exact allIn_asked f (h.2 (f q')) q hq

theorem hashes_asked {f : HashType × Bytes → Digest N} {x : Life × Derivation} (hx : x.2.output.size? ≠ some 0) {t : HashType} {k : Nat} {m : Bytes}
    (h : Hashes (ofAnswers f) salt kdfDomain x.1 x.2 t k m) : (t, m) ∈ (deriveTree salt kdfDomain x).asked f := by
  rw [deriveTree_asked, lastTree_asked]
  cases h with
  | first e => exact .inl (.inl ⟨_, e, rfl⟩)
  | payload e => exact .inl (.inr ⟨_, hx, e, rfl⟩)
  | last e e' => exact .inr ⟨_, lastOf_ok.2 ⟨hx, _, e, e'⟩, rfl⟩

theorem exists_covered (N : Nat) (known : Functions) (salt kdfDomain : Bytes) (a : Attack) (n : Nat) (ha : ∀ seen, (a.ask seen).2.output.size? ≠ some 0) (ht : ∀ seen, (a.target seen).2.output.size? ≠ some 0) :
    ∃ D : Finset (HashType × Bytes), ∀ G : Drawn D N, (∀ i < n, Covered D (G.functions known) salt kdfDomain (a.ask (a.seen (G.functions known) salt kdfDomain i))) ∧
      Covered D (G.functions known) salt kdfDomain (a.target (a.seen (G.functions known) salt kdfDomain n)) := by
  obtain ⟨D, hD⟩ := Tree.finite ((gameTree (N := N) a salt kdfDomain n).bind fun seen => deriveTree salt kdfDomain (a.target seen))
  refine ⟨D, fun G => ?_⟩
  have hin := fun q => allIn_asked (ext G) hD q
  have one : ∀ x : Life × Derivation, x.2.output.size? ≠ some 0 → (∀ q ∈ (deriveTree salt kdfDomain x).asked (ext G), q ∈ D) →
      Covered D (G.functions known) salt kdfDomain x ∧ derive (ofAnswers (ext G)) salt kdfDomain x.1 x.2 = derive (G.functions known) salt kdfDomain x.1 x.2 := by
    intro x hx h
    have := covered_congr (F := ofAnswers (ext G)) (F' := G.functions known) (salt := salt) (kdfDomain := kdfDomain) (x := x) fun t k m hh n' =>
      (functions_drawn G (h _ (hashes_asked hx hh)) n').symm
    exact ⟨fun t k m hh => h _ (hashes_asked hx (this.2.2 t k m hh)), this.2.1⟩
  have hgame : ∀ i < n, ∀ q ∈ (deriveTree salt kdfDomain (a.ask (a.seen (ofAnswers (ext G)) salt kdfDomain i))).asked (ext G), q ∈ D := by
    intro i hi q hq
    refine hin q ?_
    rw [Tree.asked_bind, List.mem_append, gameTree_asked]
    exact .inl ⟨i, hi, hq⟩
  have hseen : ∀ i ≤ n, a.seen (ofAnswers (ext G)) salt kdfDomain i = a.seen (G.functions known) salt kdfDomain i := by
    intro i
    induction i with
    | zero => intro _; rfl
    | succ i ih =>
      intro hi
      have ih := ih (by omega)
      simp only [Attack.seen]
      rw [← ih, (one _ (ha _) (hgame i (by omega))).2]
  refine ⟨fun i hi => ?_, ?_⟩
  · rw [← hseen i hi.le]
    exact (one _ (ha _) (hgame i hi)).1
  · rw [← hseen n le_rfl]
    refine (one _ (ht _) fun q hq => hin q ?_).1
    rw [Tree.asked_bind, List.mem_append, gameTree_run]
    exact .inr hq

/-! ### a case -/

/-- Someone who asks for keys of a kdf, with what they saw as the aad, and then wants to know a key that another method derives. -/
def someAttack (test : List (Except Err Bytes) → Bytes → Prop) : Attack where
  ask seen := (⟨List.replicate 64 1, [1], [[2]], []⟩, ⟨.sha3_512, beDigits 8 seen.length, []⟩)
  target _ := (⟨List.replicate 64 1, [2], [], []⟩, ⟨.sha3_512, [], []⟩)
  test := test

example (test : List (Except Err Bytes) → Bytes → Prop) : (someAttack test).Fair {List.replicate 64 1} :=
  ⟨fun _ => Finset.mem_singleton_self _, fun _ => Finset.mem_singleton_self _, fun _ => by simp [someAttack], fun _ => by simp [someAttack]⟩

/-- The last key is new, and is derived. -/
example (test : List (Except Err Bytes) → Bytes → Prop) (F : Functions) (hF : ∀ t x n, (F t x n).length = n) (n : Nat) :
    let seen := (someAttack test).seen F (List.replicate 168 9) [3] n
    (someAttack test).New n seen ∧ ∃ k, derive F (List.replicate 168 9) [3] ((someAttack test).target seen).1 ((someAttack test).target seen).2 = .ok k := by
  refine ⟨fun i _ e => ?_, ?_⟩
  · have := congrArg (fun x : Life × Derivation => x.1.domain) e
    exact absurd (show ([1] : Bytes) = [2] from this) (by decide)
  · have h1 : ∃ m, Life.first ⟨List.replicate 64 1, [2], [], []⟩ [3] = .ok m := ⟨_, first_iff.2 ⟨by decide, by decide, rfl⟩⟩
    obtain ⟨m, hm⟩ := h1
    obtain ⟨q, hq⟩ := message_short hF (List.replicate 168 9 ++ F .shake_128 m 168)
    exact ⟨_, derive_ok.2 ⟨_, state_ok.2 ⟨m, hm, rfl⟩, by show 0 < 64; decide, q, hq, rfl⟩⟩

example (test : List (Except Err Bytes) → Bytes → Prop) (known : Functions) (n : Nat) : ∃ D : Finset (HashType × Bytes),
    |share (fun G : Drawn D 1000 => (someAttack test).Real (G.functions known) (List.replicate 168 9) [3] n) -
      share (fun w : Drawn D 1000 × Digest 1000 => (someAttack test).Ideal (w.1.functions known) (List.replicate 168 9) [3] n w.2.1)| ≤ (3 * n + 3 + 1) ^ 2 / 256 ^ 64 := by
  obtain ⟨D, hD⟩ := exists_covered 1000 known (List.replicate 168 9) [3] (someAttack test) n (by simp [someAttack, Output.size?]) (by simp [someAttack, Output.size?])
  refine ⟨D, ?_⟩
  have := C107 (keys := {List.replicate 64 1}) (s := 64) (by decide) (by decide) (by rw [List.length_replicate]; decide) (fun k hk => by rw [Finset.mem_singleton.1 hk, List.length_replicate])
    ⟨fun _ => Finset.mem_singleton_self _, fun _ => Finset.mem_singleton_self _, fun _ => by simp [someAttack], fun _ => by simp [someAttack]⟩ hD
  simpa using this

end

end Aiootp.Kdf
