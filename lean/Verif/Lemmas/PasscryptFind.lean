import Verif.Lemmas.OracleGuess
import Verif.Lemmas.PasscryptGuess
import Verif.Props.KdfSecrecy

/-
What a session of `passcrypt` hashes, as a tree of hash queries.
-/

namespace Aiootp.Passcrypt

open Secrecy (Digest)
open Kdf (share cut card_start)
open Oracle (Tree)
open Oracle.Tree (run_bind run_map asked_bind asked_map ext Agree many many_mono many_all many_guess many_swap many_none)

variable {K : Nat} {α β : Type}

/-! ### what is absorbed only grows -/

/-- The bytes absorbed are extended, and all that is hashed lies between. -/
structure Below (f : Bytes → Digest K) (p : Proof) (t : Tree Bytes (Digest K) Proof) : Prop where
  grows : p.absorbed <+: (t.run f).absorbed
  asked : ∀ x ∈ t.asked f, p.absorbed <+: x ∧ x.length ≤ (t.run f).absorbed.length

/-- The same, and more was absorbed after the last digest. -/
structure Strict (f : Bytes → Digest K) (p : Proof) (t : Tree Bytes (Digest K) Proof) : Prop where
  grows : p.absorbed <+: (t.run f).absorbed
  more : p.absorbed.length < (t.run f).absorbed.length
  asked : ∀ x ∈ t.asked f, p.absorbed <+: x ∧ x.length < (t.run f).absorbed.length

theorem Strict.below {f : Bytes → Digest K} {p : Proof} {t : Tree Bytes (Digest K) Proof} (h : Strict f p t) : Below f p t :=
  ⟨h.grows, fun x hx => ⟨(h.asked x hx).1, (h.asked x hx).2.le⟩⟩

theorem Below.bind {f : Bytes → Digest K} {p : Proof} {t : Tree Bytes (Digest K) Proof} {g : Proof → Tree Bytes (Digest K) Proof} (h : Below f p t) (hg : Below f (t.run f) (g (t.run f))) :
    Below f p (t.bind g) := by
  refine ⟨by rw [run_bind]; exact h.grows.trans hg.grows, fun x hx => ?_⟩
  rw [asked_bind, List.mem_append] at hx
  rw [run_bind]
  rcases hx with hx | hx
  · exact ⟨(h.asked x hx).1, (h.asked x hx).2.trans hg.grows.length_le⟩
  · exact ⟨h.grows.trans (hg.asked x hx).1, (hg.asked x hx).2⟩

theorem Strict.bindBelow {f : Bytes → Digest K} {p : Proof} {t : Tree Bytes (Digest K) Proof} {g : Proof → Tree Bytes (Digest K) Proof} (h : Below f p t)
    (hg : Strict f (t.run f) (g (t.run f))) : Strict f p (t.bind g) := by
  refine ⟨by rw [run_bind]; exact h.grows.trans hg.grows, by rw [run_bind]; exact h.grows.length_le.trans_lt hg.more, fun x hx => ?_⟩
  rw [asked_bind, List.mem_append] at hx
  rw [run_bind]
  rcases hx with hx | hx
  · exact ⟨(h.asked x hx).1, (h.asked x hx).2.trans_lt hg.more⟩
  · exact ⟨h.grows.trans (hg.asked x hx).1, (hg.asked x hx).2⟩

theorem Below.fold {f : Bytes → Digest K} {step : Proof → α → Tree Bytes (Digest K) Proof} (h : ∀ p x, Below f p (step p x)) : ∀ (p : Proof) (l : List α), Below f p (Tree.fold step p l)
  | p, [] => ⟨List.prefix_refl _, fun _ hx => nomatch hx⟩
  | p, x :: l => (h p x).bind (Below.fold h _ l)

theorem Strict.fold {f : Bytes → Digest K} {step : Proof → α → Tree Bytes (Digest K) Proof} (h : ∀ p x, Strict f p (step p x)) : ∀ (p : Proof) (l : List α), l ≠ [] → Strict f p (Tree.fold step p l)
  | p, [], hl => absurd rfl hl
  | p, [x], _ => by
    have : Tree.fold step p [x] = (step p x).bind fun b => .done b := rfl
    rw [this]
    have e : ∀ t : Tree Bytes (Digest K) Proof, t.bind (fun b => .done b) = t := by
      intro t
      induction t with
      | done => rfl
      | ask q next ih => simp only [Tree.bind, ih]
    rw [e]
    exact h p x
  | p, x :: y :: l, _ => Strict.bindBelow (h p x).below (Strict.fold h _ (y :: l) (by simp))

theorem below_write {f : Bytes → Digest K} {p : Proof} {start : Int} {stop : Option Int} {size : Nat} : Below f p (writeT p start stop size) := by
  refine ⟨by rw [writeT, run_map], fun x hx => ?_⟩
  rw [writeT, asked_map, asked_digestT, List.mem_singleton] at hx
  subst hx
  rw [writeT, run_map]
  exact ⟨List.prefix_refl _, Nat.le_refl _⟩

theorem Below.absorb {f : Bytes → Digest K} {p : Proof} {a b : Int} {t : Tree Bytes (Digest K) Proof} (h : Below f (p.absorb a b) t) : Below f p t :=
  ⟨(List.prefix_append _ _).trans h.grows, fun x hx => ⟨(List.prefix_append _ _).trans (h.asked x hx).1, (h.asked x hx).2⟩⟩

theorem below_walkStep {f : Bytes → Digest K} (r c : Nat) (p : Proof) (s : Nat) : Below f p (walkStepT r c p s) :=
  Below.absorb (Below.bind below_write (Below.absorb below_write))

theorem below_allocate {f : Bytes → Digest K} (size : Nat) (p : Proof) : Below f p (allocateT p size) := by
  induction size using Nat.strong_induction_on generalizing p with
  | _ size ih =>
    have h0 : 0 < maxDigest := by decide
    rw [allocateT]
    by_cases h1 : size > maxDigest
    · rw [if_pos h1]
      have := ih (size - maxDigest) (by omega) { p with ram := p.ram ++ (digestT p.absorbed maxDigest).run f, absorbed := p.absorbed ++ lastBlock (p.ram ++ (digestT p.absorbed maxDigest).run f) }
      refine ⟨?_, fun x hx => ?_⟩
      · rw [run_bind]
        exact (List.prefix_append _ _).trans this.grows
      · rw [asked_bind, asked_digestT, List.singleton_append, List.mem_cons] at hx
        rw [run_bind]
        rcases hx with rfl | hx
        · exact ⟨List.prefix_refl _, ((List.prefix_append _ _).trans this.grows).length_le⟩
        · exact ⟨(List.prefix_append _ _).trans (this.asked x hx).1, (this.asked x hx).2⟩
    · rw [if_neg h1]
      by_cases h2 : size = 0
      · rw [if_pos h2]
        exact ⟨List.prefix_refl _, fun _ hx => nomatch hx⟩
      · rw [if_neg h2]
        refine ⟨by rw [run_map]; exact List.prefix_append _ _, fun x hx => ?_⟩
        rw [asked_map, asked_digestT, List.mem_singleton] at hx
        subst hx
        rw [run_map]
        exact ⟨List.prefix_refl _, (List.prefix_append _ _).length_le⟩

theorem strict_final {f : Bytes → Digest K} (p : Proof) (i : Nat) : Strict f p (finalStepT p i) := by
  have hr : ((finalStepT p i).run f).absorbed = p.absorbed ++ setSlice p.ram (168 * i) (some (168 * i + 84)) (cut 84 (f p.absorbed).1) := by
    rw [finalStepT, run_map, writeT, run_map]
    rfl
  have hl : 0 < (setSlice p.ram (168 * i) (some (168 * i + 84)) (cut 84 (f p.absorbed).1)).length := by
    simp only [setSlice, cut, List.length_append, List.length_take, List.length_replicate]
    omega
  refine ⟨by rw [hr]; exact List.prefix_append _ _, by rw [hr, List.length_append]; omega, fun x hx => ?_⟩
  rw [finalStepT, asked_map, writeT, asked_map, asked_digestT, List.mem_singleton] at hx
  subst hx
  exact ⟨List.prefix_refl _, by rw [hr, List.length_append]; omega⟩

/-! ### one session -/

/-- `passcrypt` up to its last digest: the bytes that are hashed for it. -/
def finalT (E : Env) (c : Config) (s : Session) : Tree Bytes (Digest K) (Except Err Bytes) :=
  (prepareT E c s).bind fun
    | .error e => .done (.error e)
    | .ok p => (proverT s.cpu (rowSize c s.cpu) (totalSize c s.mb s.cpu) p).map fun r => r.map Proof.absorbed

theorem steps_finalT (E : Env) (c : Config) (s : Session) : (finalT (K := K) E c s).Steps (sessionSteps c s.mb s.cpu) := by
  unfold finalT sessionSteps
  refine Tree.Steps.mono (Nat.add_le_add_left (Nat.le_succ _) _) (Tree.Steps.bind (m := (pyRange (rowSize c s.cpu) 336).length * ((pyRange (totalSize c s.mb s.cpu) (rowSize c s.cpu)).length * 2) + (s.cpu + 2)) ?_ ?_)
  · rintro (e | p)
    · simp only; trivial
    · exact (steps_proverT _ _ _ _).map
  · unfold prepareT
    cases parametersMessage E c s with
    | error e => trivial
    | ok m => exact (steps_digestT _ _).bind fun d => (steps_allocateT _ _).map

/-- A hash function that is given by its digests. -/
def drawn (f : Bytes → Digest K) : Xof := ⟨fun x n => cut n (f x).1, fun _ n => by simp [cut]⟩

theorem answers_drawn (f : Bytes → Digest K) (t : Tree Bytes (Digest K) α) : Answers (drawn f) f t := fun _ _ _ => rfl

/-- What a session hashes: its message, and then only inputs that begin with the digest of the message. The last one is longer than all before. -/
theorem session_facts {X : Xof} {salt domain M : Bytes} {s : Session} (f : Bytes → Digest K) (h : InRange s.mb s.cpu) (hf : Fits ⟨X, salt, domain⟩ M s) :
    ∃ fin, (finalT ⟨X, salt, domain⟩ (spec M) s).run f = .ok fin ∧ salt ++ cut 336 (f (sessionMessage ⟨X, salt, domain⟩ M s)).1 <+: fin ∧
      (∀ x ∈ (finalT ⟨X, salt, domain⟩ (spec M) s).asked f, x = sessionMessage ⟨X, salt, domain⟩ M s ∨
        (salt ++ cut 336 (f (sessionMessage ⟨X, salt, domain⟩ M s)).1 <+: x ∧ x.length < fin.length)) ∧
      (passcryptT ⟨X, salt, domain⟩ (spec M) s).run f = .ok (cut 168 (f fin).1) ∧
      (passcryptT ⟨X, salt, domain⟩ (spec M) s).asked f = (finalT ⟨X, salt, domain⟩ (spec M) s).asked f ++ [fin] := by
  let E : Env := ⟨drawn f, salt, domain⟩
  have hm : parametersMessage E (spec M) s = .ok (sessionMessage E M s) := parametersMessage_iff.2 ⟨⟨hf.1, hf.2, hf.3, hf.4, hf.5, hf.6, hf.7, hf.8⟩, rfl⟩
  have e1 : finalT (K := K) ⟨X, salt, domain⟩ (spec M) s = finalT E (spec M) s := rfl
  have e2 : passcryptT (K := K) ⟨X, salt, domain⟩ (spec M) s = passcryptT E (spec M) s := rfl
  have e3 : sessionMessage ⟨X, salt, domain⟩ M s = sessionMessage E M s := rfl
  rw [e1, e2, e3]
  generalize hmm : sessionMessage E M s = m at hm
  obtain ⟨p, hp⟩ : ∃ p, prepare E (spec M) s = .ok p := by
    simp only [prepare, bind_eq_ok]
    exact ⟨_, _, hm, rfl⟩
  have hrun := run_prepareT (answers_drawn f (prepareT E (spec M) s))
  rw [hp] at hrun
  obtain ⟨hram, q, hq, _⟩ := C49_prover E s h hp
  have hrun2 := run_proverT (cpu := s.cpu) (answers_drawn f (proverT s.cpu (rowSize (spec M) s.cpu) (totalSize (spec M) s.mb s.cpu) p))
  have hq' : workMemoryProver (drawn f) s.cpu (rowSize (spec M) s.cpu) (totalSize (spec M) s.mb s.cpu) p = .ok q := hq
  rw [hq'] at hrun2
  -- the parts of the tree
  let pre : Tree Bytes (Digest K) Proof := allocateT ⟨[], salt ++ cut 336 (f m).1, []⟩ (totalSize (spec M) s.mb s.cpu)
  have hpre : (prepareT E (spec M) s).run f = .ok (pre.run f) ∧ (prepareT E (spec M) s).asked f = m :: pre.asked f := by
    unfold prepareT
    rw [hm]
    simp only [run_bind, asked_bind, run_map, asked_map, asked_digestT, List.singleton_append]
    exact ⟨rfl, rfl⟩
  have hpp : pre.run f = p := by
    have := hpre.1
    rw [hrun] at this
    injection this with this
    exact this.symm
  let work : Tree Bytes (Digest K) Proof := (walkT (rowSize (spec M) s.cpu) (totalSize (spec M) s.mb s.cpu) p).bind fun p => Tree.fold finalStepT p (List.range (s.cpu + 2))
  have hwork : (proverT s.cpu (rowSize (spec M) s.cpu) (totalSize (spec M) s.mb s.cpu) p).run f = .ok (work.run f) ∧
      (proverT s.cpu (rowSize (spec M) s.cpu) (totalSize (spec M) s.mb s.cpu) p).asked f = work.asked f := by
    unfold proverT
    rw [if_neg (by rw [hram]; simp)]
    simp only [work, run_bind, asked_bind, run_map, asked_map, and_self]
  have hwq : work.run f = q := by
    have := hwork.1
    rw [hrun2] at this
    injection this with this
    exact this.symm
  have bpre : Below f ⟨[], salt ++ cut 336 (f m).1, []⟩ pre := below_allocate _ _
  have swork : Strict f p work := Strict.bindBelow (Below.fold (fun b x => Below.fold (fun b y => below_walkStep _ _ b y) b _) p _) (Strict.fold (fun b x => strict_final b x) _ _ (by simp))
  have hfin : (finalT E (spec M) s).run f = .ok q.absorbed := by
    unfold finalT
    rw [run_bind, hrun]
    simp only [run_map, hrun2]
    rfl
  have hask : (finalT E (spec M) s).asked f = m :: (pre.asked f ++ work.asked f) := by
    unfold finalT
    rw [asked_bind, hrun, hpre.2]
    simp only [asked_map, hwork.2, List.cons_append]
  refine ⟨q.absorbed, hfin, ?_, ?_, ?_, ?_⟩
  · rw [← hwq]
    refine List.IsPrefix.trans ?_ swork.grows
    rw [← hpp]
    exact bpre.grows
  · intro x hx
    rw [hask] at hx
    rcases List.mem_cons.1 hx with rfl | hx
    · exact .inl rfl
    · refine .inr ?_
      rw [← hwq]
      rcases List.mem_append.1 hx with hx | hx
      · have := bpre.asked x hx
        rw [hpp] at this
        exact ⟨this.1, this.2.trans_lt swork.more⟩
      · have := swork.asked x hx
        refine ⟨List.IsPrefix.trans ?_ this.1, this.2⟩
        rw [← hpp]
        exact bpre.grows
  · unfold passcryptT
    rw [run_bind, hrun]
    simp only [run_bind, hrun2, run_map]
    rfl
  · rw [hask]
    unfold passcryptT
    rw [asked_bind, hrun, hpre.2]
    simp only [asked_bind, hrun2, hwork.2, asked_map, asked_digestT, List.cons_append, List.append_assoc]

/-! ### digests that are met by chance -/

/-- The bytes `o … o + s` of one of the inputs are the first `s` bytes of the digest. -/
def Hits (s o : Nat) (l : List Bytes) (a : Digest K) : Prop := ∃ x ∈ l, a.1.take s = (x.drop o).take s

open Classical in
theorem card_hits {s : Nat} (hs : s ≤ K) (o : Nat) : ∀ l : List Bytes, ((Finset.univ.filter (Hits (K := K) s o l)).card : ℚ) ≤ l.length / 256 ^ s * Fintype.card (Digest K)
  | [] => by
    rw [Finset.filter_eq_empty_iff.2 fun a _ => by rintro ⟨x, hx, _⟩; exact nomatch hx]
    simp
  | x :: l => by
    have ih := card_hits hs o l
    have h1 : ((Finset.univ.filter fun a : Digest K => a.1.take s = (x.drop o).take s).card : ℚ) ≤ 1 / 256 ^ s * Fintype.card (Digest K) := by
      by_cases hl : ((x.drop o).take s).length = s
      · exact card_start hs _ hl
      · rw [Finset.filter_eq_empty_iff.2 fun a _ he => hl (by rw [← he, List.length_take, a.2, Nat.min_eq_left hs])]
        simp only [Finset.card_empty, Nat.cast_zero]
        positivity
    have h2 : Finset.univ.filter (Hits (K := K) s o (x :: l)) ⊆ (Finset.univ.filter fun a : Digest K => a.1.take s = (x.drop o).take s) ∪ Finset.univ.filter (Hits s o l) := by
      intro a ha
      simp only [Finset.mem_union, Finset.mem_filter, Finset.mem_univ, true_and] at ha ⊢
      obtain ⟨y, hy, e⟩ := ha
      rcases List.mem_cons.1 hy with rfl | hy
      · exact .inl e
      · exact .inr ⟨y, hy, e⟩
    have h3 : ((Finset.univ.filter (Hits (K := K) s o (x :: l))).card : ℚ) ≤ (Finset.univ.filter fun a : Digest K => a.1.take s = (x.drop o).take s).card + (Finset.univ.filter (Hits (K := K) s o l)).card := by
      exact_mod_cast (Finset.card_le_card h2).trans (Finset.card_union_le _ _)
    rw [List.length_cons]
    push_cast
    calc _ ≤ _ := h3
      _ ≤ 1 / 256 ^ s * Fintype.card (Digest K) + l.length / 256 ^ s * Fintype.card (Digest K) := add_le_add h1 ih
      _ = _ := by ring

/-- The chance to meet a digest that was not asked for. -/
theorem many_hits {D : Finset Bytes} {s : Nat} (hs : s ≤ K) (o n : Nat) {t : Tree Bytes (Digest K) (Bytes × List Bytes)} (ht : t.AllIn (D : Set Bytes)) (hg : t.AllOut fun x => x.1 ∈ D) :
    many (fun T : D → Digest K => (t.run (ext T)).1 ∉ t.asked (ext T) ∧ (t.run (ext T)).2.length ≤ n ∧ Hits s o (t.run (ext T)).2 (ext T (t.run (ext T)).1)) ≤
      n / 256 ^ s * Fintype.card (D → Digest K) := by
  classical
  refine many_guess (fun x : Bytes × List Bytes => x.1) (fun x a => x.2.length ≤ n ∧ Hits s o x.2 a) (ε := n / 256 ^ s) ?_ ht hg
  intro x
  have hA : (0 : ℚ) ≤ Fintype.card (Digest K) := by positivity
  by_cases hl : x.2.length ≤ n
  · have := card_hits hs o x.2
    have h2 : (x.2.length : ℚ) / 256 ^ s * Fintype.card (Digest K) ≤ n / 256 ^ s * Fintype.card (Digest K) := by
      have : (x.2.length : ℚ) ≤ n := by exact_mod_cast hl
      gcongr
    refine le_trans (le_of_eq ?_) (this.trans h2)
    congr 2
    ext a
    simp [hl]
  · have e : (Finset.univ.filter fun a : Digest K => x.2.length ≤ n ∧ Hits s o x.2 a) = ∅ := Finset.filter_eq_empty_iff.2 fun a _ h => hl h.1
    have e' : ((Finset.univ.filter fun a : Digest K => x.2.length ≤ n ∧ Hits s o x.2 a).card : ℚ) ≤ n / 256 ^ s * Fintype.card (Digest K) := by
      rw [e, Finset.card_empty, Nat.cast_zero]
      positivity
    convert e'

/-- Beginning with `salt` and the digest. -/
theorem hits_prefix {o s n : Nat} {salt x : Bytes} {l : List Bytes} {a : Digest K} (ho : salt.length = o) (hs : s ≤ n) (hK : s ≤ K) (h : salt ++ cut n a.1 <+: x) (hx : x ∈ l) : Hits s o l a := by
  refine ⟨x, hx, ?_⟩
  obtain ⟨r, rfl⟩ := h
  rw [List.append_assoc, ← ho, List.drop_left, List.take_append_of_le_length (by simp [cut]; omega), cut_take hs a hK]

/-! ### all sessions of a call -/

theorem sessions_facts {X : Xof} {salt domain M : Bytes} (f : Bytes → Digest K) : ∀ {l : List Session}, (∀ s ∈ l, InRange s.mb s.cpu ∧ Fits ⟨X, salt, domain⟩ M s) →
    ∃ rs, (sessionsT ⟨X, salt, domain⟩ (spec M) l).run f = .ok rs ∧ List.Forall₂ (fun s r => (passcryptT ⟨X, salt, domain⟩ (spec M) s).run f = .ok r) l rs ∧
      ∀ x, x ∈ (sessionsT ⟨X, salt, domain⟩ (spec M) l).asked f ↔ ∃ s ∈ l, x ∈ (passcryptT ⟨X, salt, domain⟩ (spec M) s).asked f
  | [], _ => ⟨[], rfl, .nil, fun x => by simp [sessionsT, Tree.asked]⟩
  | s :: l, h => by
    obtain ⟨fin, _, _, _, hr, _⟩ := session_facts f (h s (List.mem_cons_self ..)).1 (h s (List.mem_cons_self ..)).2
    obtain ⟨rs, h1, h2, h3⟩ := sessions_facts f (fun s hs => h s (List.mem_cons_of_mem _ hs))
    refine ⟨_ :: rs, ?_, .cons hr h2, fun x => ?_⟩
    · rw [sessionsT, run_bind, hr]
      simp only [run_map, h1]
      rfl
    · rw [sessionsT, asked_bind, hr]
      simp only [asked_map, List.mem_append, h3, List.mem_cons, exists_eq_or_imp]

theorem allIn_sessionsT {U : Set Bytes} {E : Env} {c : Config} : ∀ {l : List Session}, (∀ s ∈ l, (passcryptT (K := K) E c s).AllIn U) → (sessionsT (K := K) E c l).AllIn U
  | [], _ => trivial
  | s :: l, h => by
    rw [sessionsT]
    refine Tree.AllIn.bind ?_ (h s (List.mem_cons_self ..))
    rintro (e | r)
    · trivial
    · exact (allIn_sessionsT fun s hs => h s (List.mem_cons_of_mem _ hs)).map

theorem allIn_finalT {U : Set Bytes} {E : Env} {c : Config} {s : Session} (h : (passcryptT (K := K) E c s).AllIn U) :
    (finalT (K := K) E c s).AllIn U ∧ (finalT (K := K) E c s).AllOut fun r => ∀ a, r = .ok a → a ∈ U := by
  unfold passcryptT at h
  unfold finalT
  constructor
  · refine Tree.AllIn.rebind ?_ h
    rintro (e | p) hp
    · trivial
    · exact hp.left.map
  · refine Tree.AllOut.bind ?_ h.allOut
    rintro (e | p) hp
    · intro a he; cases he
    · refine Tree.AllOut.bind ?_ hp.allOut
      rintro (e | q) hq
      · intro a he; cases he
      · intro a he
        injection he with he
        subst he
        exact hq.1

/-- The bytes that are hashed last, or something else. -/
def finOr (m : Bytes) : Except Err Bytes → Bytes
  | .ok a => a
  | .error _ => m

/-- The result of the first session cannot be met by chance. -/
theorem many_result {D : Finset Bytes} (hK : 168 ≤ K) {X : Xof} {salt domain M : Bytes} {s₀ : Session} {rest : List Session} {N q : Nat}
    (hN : ∀ s ∈ s₀ :: rest, InRange s.mb s.cpu ∧ Fits ⟨X, salt, domain⟩ M s ∧ sessionSteps (spec M) s.mb s.cpu = N)
    (hne : ∀ s ∈ rest, sessionMessage ⟨X, salt, domain⟩ M s₀ ≠ sessionMessage ⟨X, salt, domain⟩ M s) {att : Tree Bytes (Digest K) α} (hq : att.Steps q)
    (hD : att.AllIn (D : Set Bytes)) (hS : ∀ s ∈ s₀ :: rest, (passcryptT (K := K) ⟨X, salt, domain⟩ (spec M) s).AllIn (D : Set Bytes)) :
    many (fun T : D → Digest K => sessionMessage ⟨X, salt, domain⟩ M s₀ ∉ att.asked (ext T) ∧ ∃ x, (x ∈ att.asked (ext T) ∨ x ∈ (sessionsT ⟨X, salt, domain⟩ (spec M) (s₀ :: rest)).asked (ext T)) ∧
      ∃ r, (passcryptT ⟨X, salt, domain⟩ (spec M) s₀).run (ext T) = .ok r ∧ r <+: x) ≤
      ((rest.length + (q + rest.length * N + 1) + (q + rest.length * N + N + 1) : Nat) : ℚ) / 256 ^ 168 * Fintype.card (D → Digest K) := by
  classical
  obtain ⟨hs₀, hrest⟩ := List.forall_mem_cons.1 hN
  generalize hE : (⟨X, salt, domain⟩ : Env) = E at *
  have hsalt : E.proofSalt = salt := by rw [← hE]
  have hmem : ∀ s ∈ s₀ :: rest, sessionMessage E M s ∈ D := by
    intro s hs
    have h := Tree.asked_in (fun _ => Classical.arbitrary _) (hS s hs) (sessionMessage E M s)
    apply h
    have hm : parametersMessage E (spec M) s = .ok (sessionMessage E M s) := parametersMessage_iff.2 ⟨(hN s hs).2.1, rfl⟩
    unfold passcryptT
    rw [asked_bind]
    refine List.mem_append_left _ ?_
    simp only [prepareT, hm, asked_bind, asked_digestT, List.singleton_append, List.mem_cons, true_or]
  obtain ⟨hm₀, hmrest⟩ := List.forall_mem_cons.1 hmem
  generalize hm : sessionMessage E M s₀ = m₀ at *
  have hrestD := allIn_sessionsT (K := K) (E := E) (c := spec M) (U := (D : Set Bytes)) (l := rest) fun s hs => hS s (List.mem_cons_of_mem _ hs)
  obtain ⟨hfinD, hfinO⟩ := allIn_finalT (hS s₀ (List.mem_cons_self ..))
  have hsteps := steps_sessionsT (K := K) E (spec M) (l := rest) (n := N) fun s hs => (hrest s hs).2.2
  have hstep0 := steps_finalT (K := K) E (spec M) s₀
  rw [hs₀.2.2] at hstep0
  -- the three ways to meet a digest
  let tA : Session → Tree Bytes (Digest K) (Bytes × List Bytes) := fun s => .done (sessionMessage E M s, [m₀])
  let tB : Tree Bytes (Digest K) (Bytes × List Bytes) := att.log.bind fun l => ((sessionsT E (spec M) rest).log).map fun l' => (m₀, m₀ :: (l ++ l'))
  let tC : Tree Bytes (Digest K) (Bytes × List Bytes) := att.log.bind fun l => ((sessionsT E (spec M) rest).log).bind fun l' => (finalT E (spec M) s₀).log.bind fun l₀ =>
    (finalT E (spec M) s₀).map fun r => (finOr m₀ r, finOr m₀ r :: (l ++ l' ++ l₀))
  have hA : ∀ s ∈ rest, _ := fun s hs => many_hits (D := D) hK salt.length 1 (t := tA s) trivial (hmrest s hs)
  have hB := many_hits (D := D) hK salt.length (q + rest.length * N + 1) (t := tB) (Tree.AllIn.bind (fun _ => hrestD.log.map) hD.log)
    (Tree.AllOut.bind (P := fun _ => True) (P' := fun x : Bytes × List Bytes => x.1 ∈ D) (fun _ _ => Tree.AllOut.map (P := fun _ => True) (P' := fun x : Bytes × List Bytes => x.1 ∈ D) (fun _ _ => hm₀) (Tree.AllOut.all (fun _ => trivial) _)) (Tree.AllOut.all (fun _ => trivial) _))
  have hC := many_hits (D := D) hK 0 (q + rest.length * N + N + 1) (t := tC) (Tree.AllIn.bind (fun _ => Tree.AllIn.bind (fun _ => Tree.AllIn.bind (fun _ => hfinD.map) hfinD.log) hrestD.log) hD.log)
    (Tree.AllOut.bind (P := fun _ => True) (fun _ _ => Tree.AllOut.bind (P := fun _ => True) (fun _ _ => Tree.AllOut.bind (P := fun _ => True) (fun _ _ => Tree.AllOut.map (fun r hr => by
      cases r with
      | error e => exact hm₀
      | ok a => exact hr a rfl) hfinO) (Tree.AllOut.all (fun _ => trivial) _)) (Tree.AllOut.all (fun _ => trivial) _)) (Tree.AllOut.all (fun _ => trivial) _))
  have key : ∀ T : D → Digest K, (m₀ ∉ att.asked (ext T) ∧ ∃ x, (x ∈ att.asked (ext T) ∨ x ∈ (sessionsT E (spec M) (s₀ :: rest)).asked (ext T)) ∧
      ∃ r, (passcryptT E (spec M) s₀).run (ext T) = .ok r ∧ r <+: x) →
      (∃ s ∈ rest, ((tA s).run (ext T)).1 ∉ (tA s).asked (ext T) ∧ ((tA s).run (ext T)).2.length ≤ 1 ∧ Hits 168 salt.length ((tA s).run (ext T)).2 (ext T ((tA s).run (ext T)).1)) ∨
      ((tB.run (ext T)).1 ∉ tB.asked (ext T) ∧ (tB.run (ext T)).2.length ≤ q + rest.length * N + 1 ∧ Hits 168 salt.length (tB.run (ext T)).2 (ext T (tB.run (ext T)).1)) ∨
      ((tC.run (ext T)).1 ∉ tC.asked (ext T) ∧ (tC.run (ext T)).2.length ≤ q + rest.length * N + N + 1 ∧ Hits 168 0 (tC.run (ext T)).2 (ext T (tC.run (ext T)).1)) := by
    rintro T ⟨hm₀T, x, hx, r, hr, hpx⟩
    set f := ext T with hf
    obtain ⟨fin, hfin, hpre, hlt, hrun, hask⟩ := session_facts (X := X) (salt := salt) (domain := domain) (M := M) (s := s₀) f hs₀.1 (by rw [hE]; exact hs₀.2.1)
    rw [hE, hm] at hpre hlt
    rw [hE] at hask hrun hfin
    obtain ⟨rs, _, _, hasked⟩ := sessions_facts (X := X) (salt := salt) (domain := domain) (M := M) f (l := s₀ :: rest) (fun s hs => by rw [hE]; exact ⟨(hN s hs).1, (hN s hs).2.1⟩)
    obtain ⟨rs', _, _, hasked'⟩ := sessions_facts (X := X) (salt := salt) (domain := domain) (M := M) f (l := rest) (fun s hs => by rw [hE]; exact ⟨(hrest s hs).1, (hrest s hs).2.1⟩)
    rw [hE] at hasked hasked'
    by_cases hα : ∃ s ∈ rest, Hits 168 salt.length [m₀] (f (sessionMessage E M s))
    · obtain ⟨s, hs, h⟩ := hα
      exact .inl ⟨s, hs, by simp [tA, Tree.asked], by simp [tA, Tree.run], h⟩
    refine .inr ?_
    have hm₀rest : m₀ ∉ (sessionsT E (spec M) rest).asked f := by
      intro h
      obtain ⟨s, hs, h⟩ := (hasked' m₀).1 h
      obtain ⟨fin', _, hp', hlt', _, hask'⟩ := session_facts (X := X) (salt := salt) (domain := domain) (M := M) (s := s) f (hrest s hs).1 (by rw [hE]; exact (hrest s hs).2.1)
      rw [hE] at hask' hlt' hp'
      rw [hask', List.mem_append, List.mem_singleton] at h
      rcases h with h | h
      · rcases hlt' _ h with h | h
        · exact hne s hs h
        · exact hα ⟨s, hs, hits_prefix rfl (by omega) hK h.1 (List.mem_singleton.2 rfl)⟩
      · subst h
        exact hα ⟨s, hs, hits_prefix rfl (by omega) hK hp' (List.mem_singleton.2 rfl)⟩
    have la := Tree.asked_length f hq
    have lr := Tree.asked_length f hsteps
    have l0 := Tree.asked_length f hstep0
    have rB : tB.run f = (m₀, m₀ :: (att.asked f ++ (sessionsT E (spec M) rest).asked f)) := by
      simp only [tB, run_bind, run_map, Tree.run_log]
    have aB : tB.asked f = att.asked f ++ (sessionsT E (spec M) rest).asked f := by
      simp only [tB, asked_bind, asked_map, Tree.asked_log]
    have rC : tC.run f = (fin, fin :: (att.asked f ++ (sessionsT E (spec M) rest).asked f ++ (finalT E (spec M) s₀).asked f)) := by
      simp only [tC, run_bind, run_map, Tree.run_log, hfin, finOr]
    have aC : tC.asked f = att.asked f ++ ((sessionsT E (spec M) rest).asked f ++ ((finalT E (spec M) s₀).asked f ++ (finalT E (spec M) s₀).asked f)) := by
      simp only [tC, asked_bind, asked_map, Tree.asked_log]
    by_cases hβ : Hits 168 salt.length (m₀ :: (att.asked f ++ (sessionsT E (spec M) rest).asked f)) (f m₀)
    · left
      rw [rB, aB]
      refine ⟨?_, ?_, hβ⟩
      · rw [List.mem_append]
        exact fun h => h.elim hm₀T hm₀rest
      · simp only [List.length_cons, List.length_append]
        omega
    · right
      rw [rC, aC]
      have nin : ∀ y, y ∈ m₀ :: (att.asked f ++ (sessionsT E (spec M) rest).asked f) → fin ≠ y := by
        rintro y hy rfl
        exact hβ (hits_prefix rfl (by omega) hK hpre hy)
      have nfin : fin ∉ (finalT E (spec M) s₀).asked f := by
        intro h
        rcases hlt _ h with h | h
        · exact nin _ (List.mem_cons_self ..) h
        · exact absurd h.2 (lt_irrefl _)
      refine ⟨?_, ?_, ?_⟩
      · simp only [List.mem_append, or_self]
        rintro (h | h | h)
        · exact nin _ (List.mem_cons_of_mem _ (List.mem_append_left _ h)) rfl
        · exact nin _ (List.mem_cons_of_mem _ (List.mem_append_right _ h)) rfl
        · exact nfin h
      · simp only [List.length_cons, List.length_append]
        omega
      · rw [hrun] at hr
        injection hr with hr
        subst hr
        refine hits_prefix (salt := []) rfl (le_refl _) hK hpx ?_
        simp only [List.mem_cons, List.mem_append]
        rcases hx with hx | hx
        · exact .inr (.inl (.inl hx))
        · obtain ⟨s, hs, hxs⟩ := (hasked x).1 hx
          rcases List.mem_cons.1 hs with rfl | hs
          · rw [hask, List.mem_append, List.mem_singleton] at hxs
            rcases hxs with hx | hx
            · exact .inr (.inr hx)
            · exact .inl hx
          · exact .inr (.inl (.inr ((hasked' x).2 ⟨s, hs, hxs⟩)))
  have hsum : many (fun T : D → Digest K => ∃ s ∈ rest, ((tA s).run (ext T)).1 ∉ (tA s).asked (ext T) ∧ ((tA s).run (ext T)).2.length ≤ 1 ∧
      Hits 168 salt.length ((tA s).run (ext T)).2 (ext T ((tA s).run (ext T)).1)) ≤ rest.length / 256 ^ 168 * Fintype.card (D → Digest K) := by
    refine (Tree.many_exists rest _).trans ?_
    refine (List.sum_le_card_nsmul _ (((1 : Nat) : ℚ) / 256 ^ 168 * Fintype.card (D → Digest K)) ?_).trans (le_of_eq ?_)
    · intro y hy
      obtain ⟨s, hs, rfl⟩ := List.mem_map.1 hy
      exact hA s hs
    · rw [List.length_map, nsmul_eq_mul]
      push_cast
      ring
  refine ((many_mono key).trans (Tree.many_or _ _)).trans ?_
  have h2 := (Tree.many_or (fun T : D → Digest K => (tB.run (ext T)).1 ∉ tB.asked (ext T) ∧ (tB.run (ext T)).2.length ≤ q + rest.length * N + 1 ∧ Hits 168 salt.length (tB.run (ext T)).2 (ext T (tB.run (ext T)).1))
    (fun T => (tC.run (ext T)).1 ∉ tC.asked (ext T) ∧ (tC.run (ext T)).2.length ≤ q + rest.length * N + N + 1 ∧ Hits 168 0 (tC.run (ext T)).2 (ext T (tC.run (ext T)).1))).trans (add_le_add hB hC)
  refine (add_le_add hsum h2).trans (le_of_eq ?_)
  push_cast
  ring

/-! ### the tag is as good as drawn anew -/

/-- The message that is hashed to the tag. -/
def tagM (m : Bytes) (tagSize : Nat) : Except Err (List Bytes) → Bytes
  | .ok rs => finOr m (tagMessage rs tagSize)
  | .error _ => m

/-- The bound of `many_result`. -/
def resultBound (k N q : Nat) : ℚ := ((k + (q + k * N + 1) + (q + k * N + N + 1) : Nat) : ℚ) / 256 ^ 168

theorem tag_facts {X : Xof} {salt domain M : Bytes} {s₀ : Session} {rest : List Session} {tagSize : Nat} (ht : tagSize < 2 ^ 29) (hl : (s₀ :: rest).length ≤ 256)
    (hN : ∀ s ∈ s₀ :: rest, InRange s.mb s.cpu ∧ Fits ⟨X, salt, domain⟩ M s) (f : Bytes → Digest K) (m₀ : Bytes) :
    ∃ rs m r, (sessionsT ⟨X, salt, domain⟩ (spec M) (s₀ :: rest)).run f = .ok rs ∧ tagMessage rs tagSize = .ok m ∧ tagM m₀ tagSize ((sessionsT ⟨X, salt, domain⟩ (spec M) (s₀ :: rest)).run f) = m ∧
      (passcryptT ⟨X, salt, domain⟩ (spec M) s₀).run f = .ok r ∧ r <+: m := by
  obtain ⟨rs, hrs, hf, _⟩ := sessions_facts f hN
  have hlen : ∀ r ∈ rs, r.length = 168 := by
    intro r hr
    obtain ⟨i, hi, rfl⟩ := List.mem_iff_getElem.1 hr
    have hi' : i < (s₀ :: rest).length := by rw [hf.length_eq]; exact hi
    have h := List.forall₂_iff_get.1 hf
    have h1 := h.2 i hi' hi
    obtain ⟨fin, _, _, _, h2, _⟩ := session_facts f (hN _ (List.get_mem _ ⟨i, hi'⟩)).1 (hN _ (List.get_mem _ ⟨i, hi'⟩)).2
    rw [h2] at h1
    injection h1 with h1
    rw [List.get_eq_getElem] at h1
    rw [← h1]
    unfold cut
    rw [List.length_take, List.length_append, List.length_replicate]
    omega
  cases hf with
  | @cons _ r _ rs' hr hf =>
    obtain ⟨m, hm⟩ := tagMessage_total (rs := r :: rs') (tagSize := tagSize) (by simp) hlen (by
      have := hf.length_eq
      simp only [List.length_cons] at hl ⊢
      omega) ht
    refine ⟨r :: rs', m, r, hrs, hm, by rw [hrs]; simp only [tagM, hm, finOr], hr, ?_⟩
    simp only [tagMessage] at hm
    rw [Canon.hashBytesInput_ok] at hm
    obtain ⟨k, pk, hk, _, _, rfl⟩ := hm
    obtain ⟨_, rfl⟩ := (encodeKey_iff (by decide)).1 hk
    refine List.IsPrefix.trans ?_ (List.prefix_append _ _)
    unfold keyed rawKey
    simp only [List.append_assoc]
    exact List.prefix_append _ _

theorem many_finds {D : Finset Bytes} (hK : 168 ≤ K) {X : Xof} {salt domain M : Bytes} {s₀ : Session} {rest : List Session} {N q tagSize : Nat} (ht : tagSize < 2 ^ 29) (hl : (s₀ :: rest).length ≤ 256)
    (hN : ∀ s ∈ s₀ :: rest, InRange s.mb s.cpu ∧ Fits ⟨X, salt, domain⟩ M s ∧ sessionSteps (spec M) s.mb s.cpu = N)
    (hne : ∀ s ∈ rest, sessionMessage ⟨X, salt, domain⟩ M s₀ ≠ sessionMessage ⟨X, salt, domain⟩ M s) {att : Digest K → Tree Bytes (Digest K) (List Bytes)} (hq : ∀ u, (att u).Steps q)
    (hD : ∀ u, (att u).AllIn (D : Set Bytes)) (hS : ∀ s ∈ s₀ :: rest, (passcryptT (K := K) ⟨X, salt, domain⟩ (spec M) s).AllIn (D : Set Bytes))
    (hG : ∀ T : D → Digest K, tagM (sessionMessage ⟨X, salt, domain⟩ M s₀) tagSize ((sessionsT ⟨X, salt, domain⟩ (spec M) (s₀ :: rest)).run (ext T)) ∈ D) (p : Bytes) :
    many (fun T : D → Digest K => p ∈ (att (ext T (tagM (sessionMessage ⟨X, salt, domain⟩ M s₀) tagSize ((sessionsT ⟨X, salt, domain⟩ (spec M) (s₀ :: rest)).run (ext T))))).run (ext T)) *
        Fintype.card (Digest K) ≤
      ∑ u : Digest K, (many (fun T : D → Digest K => p ∈ (att u).run (ext T)) + many (fun T : D → Digest K => sessionMessage ⟨X, salt, domain⟩ M s₀ ∈ (att u).asked (ext T)) +
        (resultBound rest.length N q + resultBound rest.length N 0) * Fintype.card (D → Digest K)) := by
  classical
  have hN' : ∀ s ∈ s₀ :: rest, InRange s.mb s.cpu ∧ Fits ⟨X, salt, domain⟩ M s := fun s hs => ⟨(hN s hs).1, (hN s hs).2.1⟩
  have hL := fun (att : Tree Bytes (Digest K) (List Bytes)) q hq hD => many_result (D := D) (X := X) (salt := salt) (domain := domain) (M := M) (q := q) (att := att) hK hN hne hq hD hS
  generalize hm₀ : sessionMessage ⟨X, salt, domain⟩ M s₀ = m₀ at *
  have tf := fun f : Bytes → Digest K => tag_facts (X := X) (salt := salt) (domain := domain) (M := M) (s₀ := s₀) (rest := rest) (tagSize := tagSize) ht hl hN' f m₀
  generalize hS' : sessionsT (K := K) ⟨X, salt, domain⟩ (spec M) (s₀ :: rest) = S at *
  let G : (D → Digest K) → D := fun T => ⟨tagM m₀ tagSize (S.run (ext T)), hG T⟩
  let good : (D → Digest K) → Prop := fun T => (G T).1 ∉ S.asked (ext T)
  have hgood : ∀ T v, good T → good (Function.update T (G T) v) ∧ G (Function.update T (G T) v) = G T := by
    intro T v h
    obtain ⟨h1, h2⟩ := Tree.run_update (v := v) h
    have e : G (Function.update T (G T) v) = G T := by
      apply Subtype.ext
      show tagM m₀ tagSize (S.run (ext _)) = _
      rw [Oracle.Tree.ext_update, h1]
    refine ⟨?_, e⟩
    show (G _).1 ∉ _
    rw [e, Oracle.Tree.ext_update, h2]
    exact h
  have hTG : ∀ T : D → Digest K, ext T (tagM m₀ tagSize (S.run (ext T))) = T (G T) := by
    intro T
    have : ∀ x (hx : x ∈ D), ext T x = T ⟨x, hx⟩ := fun x hx => by unfold ext; rw [dif_pos hx]
    exact this _ (hG T)
  have swap := many_swap (D := D) G good hgood (fun T u => p ∈ (att u).run (ext T))
  -- if the tag was hashed by a session
  have hbad : many (fun T : D → Digest K => ¬ good T) ≤ resultBound rest.length N 0 * Fintype.card (D → Digest K) := by
    refine le_trans (many_mono fun T h => ?_) (hL (.done []) 0 trivial trivial)
    obtain ⟨rs, m, r, h1, h2, h3, h4, h5⟩ := tf (ext T)
    refine ⟨by simp [Tree.asked], m, .inr ?_, r, h4, h5⟩
    have : tagM m₀ tagSize (S.run (ext T)) ∈ S.asked (ext T) := Classical.not_not.1 h
    rwa [h3] at this
  have hu : ∀ u : Digest K, many (fun T : D → Digest K => good T ∧ p ∈ (att u).run (ext (Function.update T (G T) u))) ≤
      many (fun T : D → Digest K => p ∈ (att u).run (ext T)) + many (fun T : D → Digest K => m₀ ∈ (att u).asked (ext T)) + resultBound rest.length N q * Fintype.card (D → Digest K) := by
    intro u
    refine le_trans ?_ (add_le_add (Tree.many_or _ _) (hL (att u) q (hq u) (hD u)))
    refine le_trans (many_mono fun T h => ?_) (Tree.many_or _ _)
    obtain ⟨_, hp⟩ := h
    rw [Oracle.Tree.ext_update] at hp
    by_cases h1 : (G T).1 ∈ (att u).asked (ext T)
    · by_cases h2 : m₀ ∈ (att u).asked (ext T)
      · exact .inl (.inr h2)
      · obtain ⟨rs, m, r, _, _, h3, h4, h5⟩ := tf (ext T)
        refine .inr ⟨h2, m, .inl ?_, r, h4, h5⟩
        have : tagM m₀ tagSize (S.run (ext T)) ∈ (att u).asked (ext T) := h1
        rwa [h3] at this
    · rw [(Tree.run_update (v := u) h1).1] at hp
      exact .inl (.inl hp)
  have hall : many (fun T : D → Digest K => p ∈ (att (ext T (tagM m₀ tagSize (S.run (ext T))))).run (ext T)) ≤
      many (fun T : D → Digest K => good T ∧ p ∈ (att (T (G T))).run (ext T)) + resultBound rest.length N 0 * Fintype.card (D → Digest K) := by
    refine le_trans (le_trans (many_mono fun T h => ?_) (Tree.many_or _ _)) (add_le_add (le_refl _) hbad)
    rw [hTG] at h
    by_cases hg : good T
    · exact .inl ⟨hg, h⟩
    · exact .inr hg
  have hA : (0 : ℚ) ≤ Fintype.card (Digest K) := by positivity
  refine (mul_le_mul_of_nonneg_right hall hA).trans ?_
  rw [add_mul]
  refine (add_le_add (swap.trans (Finset.sum_le_sum fun u _ => hu u)) (le_refl _)).trans (le_of_eq ?_)
  have e : resultBound rest.length N 0 * (Fintype.card (D → Digest K) : ℚ) * Fintype.card (Digest K) = ∑ _u : Digest K, resultBound rest.length N 0 * (Fintype.card (D → Digest K) : ℚ) := by
    rw [Finset.sum_const, Finset.card_univ, nsmul_eq_mul]
    ring
  rw [e, ← Finset.sum_add_distrib]
  refine Finset.sum_congr rfl fun u _ => ?_
  ring

/-- Of the things that are told apart by `h`, a list of `n` has at most `n`. -/
theorem sum_many {D : Finset Bytes} {ι : Type} [DecidableEq ι] (W : Finset ι) (h : ι → Bytes) (hinj : ∀ x ∈ W, ∀ y ∈ W, h x = h y → x = y) (l : (D → Digest K) → List Bytes) (n : Nat) (hl : ∀ T, (l T).length ≤ n) :
    ∑ p ∈ W, many (fun T : D → Digest K => h p ∈ l T) ≤ n * Fintype.card (D → Digest K) := by
  classical
  have e : ∀ p, many (fun T : D → Digest K => h p ∈ l T) = ∑ T : D → Digest K, if h p ∈ l T then 1 else 0 := by
    intro p
    unfold many
    rw [Finset.sum_boole]
    congr 2
    ext T
    simp
  rw [Finset.sum_congr rfl fun p _ => e p, Finset.sum_comm]
  refine (Finset.sum_le_sum (g := fun _ => (n : ℚ)) fun T _ => ?_).trans (le_of_eq ?_)
  · rw [Finset.sum_boole]
    have : (W.filter fun p => h p ∈ l T).card ≤ (l T).toFinset.card := by
      refine Finset.card_le_card_of_injOn h (fun p hp => ?_) ?_
      · simp only [Finset.coe_filter, Set.mem_setOf_eq] at hp
        simpa using hp.2
      · intro x hx y hy he
        simp only [Finset.coe_filter, Set.mem_setOf_eq] at hx hy
        exact hinj x hx.1 y hy.1 he
    exact_mod_cast this.trans ((List.toFinset_card_le _).trans (hl T))
  · rw [Finset.sum_const, Finset.card_univ, nsmul_eq_mul]
    ring

/-! ### the hash of a passphrase -/

/-- The sessions of a call. -/
def coreSessions (t : Settings) (draw p aad : Bytes) : List Session :=
  (List.range t.cores).map (coreSession p draw aad t.pepper t.mb t.cpu t.cores t.tagSize)

/-- What becomes of the tag. -/
def withTag (M : Bytes) (t : Settings) (ts draw tag : Bytes) : Except Err Bytes :=
  Hash.make (spec M) ts t.mb t.cpu t.cores draw tag >>= fun h => exportHash (spec M) h

theorem coreSessions_facts {E : Env} {M : Bytes} {t : Settings} {made : Int} {draw p aad ts : Bytes} (h : Ordinary E M t made draw p aad) (hts : ts.length = 8) :
    ∃ s₀ rest, coreSessions t draw p (ts ++ aad) = s₀ :: rest ∧ s₀ = coreSession p draw (ts ++ aad) t.pepper t.mb t.cpu t.cores t.tagSize 0 ∧ rest.length + 1 = t.cores ∧
      (∀ s ∈ s₀ :: rest, InRange s.mb s.cpu ∧ Fits E M s ∧ sessionSteps (spec M) s.mb s.cpu = sessionSteps (spec M) (ceilTrueDiv t.mb t.cores) t.cpu) ∧
      ∀ s ∈ rest, sessionMessage E M s₀ ≠ sessionMessage E M s := by
  have hcores := h.cores
  obtain ⟨n, hn⟩ : ∃ n, t.cores = n + 1 := ⟨t.cores - 1, by omega⟩
  have hs := ordinary_spawnable h hts
  have e : coreSessions t draw p (ts ++ aad) = coreSession p draw (ts ++ aad) t.pepper t.mb t.cpu t.cores t.tagSize 0 ::
      ((List.range n).map Nat.succ).map (coreSession p draw (ts ++ aad) t.pepper t.mb t.cpu t.cores t.tagSize) := by
    unfold coreSessions
    rw [show List.range t.cores = List.range (n + 1) from by rw [hn], List.range_succ_eq_map, List.map_cons]
  refine ⟨_, _, e, rfl, by simp [hn], ?_, ?_⟩
  · intro s hs'
    rw [← e] at hs'
    obtain ⟨core, _, rfl⟩ := List.mem_map.1 hs'
    refine ⟨(C49_cores (M := M) ⟨h.mb, hs.cpu⟩ hs.cores).1, ?_, rfl⟩
    have h1 := hs.passphrase
    have h2 := hs.salt
    have h3 := hs.mb
    have h4 := hs.cpu
    have h5 := hs.cores
    have h6 := h.sizes
    have h7 := h.domain
    have h8 := h.metadata
    have h9 := h.tagSize
    have hk : (p ++ draw ++ coreAad t.pepper (ts ++ aad) t.mb core).length = p.length + draw.length + (82 + t.pepper.length + (8 + aad.length)) := by
      simp only [List.length_append, coreAad_length, hts]
    refine ⟨?_, ?_, by omega, by omega, ?_, ?_, ?_, ?_⟩
    · intro h
      have h : p ++ draw ++ coreAad t.pepper (ts ++ aad) t.mb core = [] := h
      rw [h] at hk
      simp only [List.length_nil] at hk
      omega
    · show (p ++ draw ++ coreAad t.pepper (ts ++ aad) t.mb core).length < 256 ^ 8
      rw [hk]; omega
    · show ceilTrueDiv t.mb t.cores < _; omega
    · show t.cpu < _; omega
    · show t.cores < _; omega
    · show t.tagSize < _; omega
  · intro s hs' he
    obtain ⟨core, hc, rfl⟩ := List.mem_map.1 hs'
    obtain ⟨k, hk, rfl⟩ := List.mem_map.1 hc
    rw [List.mem_range] at hk
    have := (sessionMessage_aad (s := coreSession p draw (ts ++ aad) t.pepper t.mb t.cpu t.cores t.tagSize 0) (p' := p) (coreAad_eq hs.aad hs.pepper) (coreAad_eq hs.aad hs.pepper) rfl he).2
    simp only [List.cons.injEq, true_and, and_true] at this
    have := beDigits_inj (by omega) (by omega) this
    omega

theorem run_hash_tag {E : Env} {M : Bytes} {t : Settings} {made : Int} {draw p aad ts : Bytes} (h : Ordinary E M t made draw p aad) (hts : Clock.makeTimestamp made 8 .big = .ok ts) (f : Bytes → Digest K)
    (m₀ : Bytes) : (hashT E (spec M) t made draw p aad).run f =
        withTag M t ts draw (cut t.tagSize (f (tagM m₀ t.tagSize ((sessionsT E (spec M) (coreSessions t draw p (ts ++ aad))).run f))).1) ∧
      tagM m₀ t.tagSize ((sessionsT E (spec M) (coreSessions t draw p (ts ++ aad))).run f) ∈ (hashT E (spec M) t made draw p aad).asked f := by
  have htl := ((Clock.C19_timestamp_round_trip made 8 .big).1 ts hts).1
  have hs := ordinary_spawnable h htl
  have hmb := h.mb
  have hsp := (spawn_iff (M := M) h.cores.1).2 ⟨⟨by omega, hs⟩, rfl⟩
  have hu : (spec M).validateSettings t.mb t.cpu t.cores t.tagSize t.saltSize = .ok () := validateSettings_ok.2 ⟨h.mb, h.cpu, h.cores, h.tagSize.1, h.saltSize⟩
  have e : ((spec M).validateSettings t.mb t.cpu t.cores t.tagSize t.saltSize >>= fun _ => Clock.makeTimestamp made (spec M).timestampBytes .big) = .ok ts := by
    rw [hu]; exact hts
  obtain ⟨s₀, rest, hc, _, hl, hN, _⟩ := coreSessions_facts h htl
  obtain ⟨rs, m, r, h1, h2, h3, _⟩ := tag_facts (K := K) (X := E.xof) (salt := E.proofSalt) (domain := E.domain) (M := M) (s₀ := s₀) (rest := rest) (tagSize := t.tagSize) h.tagSize.2
    (by have := h.cores; simp only [List.length_cons]; omega) (fun s hs => ⟨(hN s hs).1, (hN s hs).2.1⟩) f m₀
  rw [← hc] at h1 h3
  unfold hashT newT
  rw [e]
  simp only [hsp]
  show ((collectT E (spec M) (coreSessions t draw p (ts ++ aad)) t.tagSize).map _).run f = _ ∧ _ ∈ ((collectT E (spec M) (coreSessions t draw p (ts ++ aad)) t.tagSize).map _).asked f
  have h3' : tagM m₀ t.tagSize (Tree.run f (sessionsT E (spec M) (coreSessions t draw p (ts ++ aad)))) = m := h3
  have h1' : Tree.run f (sessionsT E (spec M) (coreSessions t draw p (ts ++ aad))) = .ok rs := h1
  rw [h3', run_map, asked_map]
  unfold collectT
  rw [run_bind, asked_bind, h1']
  simp only [h2, run_map, asked_map, asked_digestT]
  exact ⟨rfl, by simp⟩

/-- For finitely many trees. -/
theorem finite_trees {ι : Type} (t : ι → Tree Bytes (Digest K) α) (W : Finset ι) : ∃ D : Finset Bytes, ∀ i ∈ W, (t i).AllIn (D : Set Bytes) := by
  classical
  choose D hD using fun i => Tree.finite (t i)
  refine ⟨W.biUnion D, fun i hi => (hD i).mono ?_⟩
  intro x hx
  simp only [Finset.coe_biUnion, Set.mem_iUnion]
  exact ⟨i, hi, hx⟩

/-- What the guesser does with a tag that begins with the digest `u`. -/
def Guesser.attT (g : Guesser) (M : Bytes) (t : Settings) (ts draw : Bytes) (q n : Nat) (u : Digest K) : Tree Bytes (Digest K) (List Bytes) :=
  match withTag M t ts draw (cut t.tagSize u.1) with
  | .error _ => .done []
  | .ok hash => (g.seenT hash q).map fun seen => (List.range n).map fun i => (g.guess hash seen i).1

theorem steps_attT (g : Guesser) (M : Bytes) (t : Settings) (ts draw : Bytes) (q n : Nat) (u : Digest K) : (g.attT M t ts draw q n u).Steps q := by
  unfold Guesser.attT
  cases withTag M t ts draw (cut t.tagSize u.1) with
  | error e => cases q <;> trivial
  | ok hash => exact (steps_seenT g hash q).map

theorem length_attT (g : Guesser) (M : Bytes) (t : Settings) (ts draw : Bytes) (q n : Nat) (u : Digest K) (f : Bytes → Digest K) : ((g.attT M t ts draw q n u).run f).length ≤ n := by
  unfold Guesser.attT
  cases withTag M t ts draw (cut t.tagSize u.1) with
  | error e => exact Nat.zero_le _
  | ok hash => simp only [run_map, List.length_map, List.length_range, le_refl]

end Aiootp.Passcrypt
