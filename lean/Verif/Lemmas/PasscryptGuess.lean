import Verif.Spec.PasscryptGuess
import Verif.Lemmas.OracleKey
import Verif.Lemmas.KdfSecrecy
import Verif.Props.PasscryptVerify

/-
`passcrypt` as a tree of hash queries.
-/

namespace Aiootp.Oracle.Tree

variable {Q A α β : Type}

/-- A loop. -/
def fold (step : β → α → Tree Q A β) : β → List α → Tree Q A β
  | b, [] => done b
  | b, x :: l => (step b x).bind fun b => fold step b l

theorem Steps.fold {step : β → α → Tree Q A β} {n : Nat} (h : ∀ b x, (step b x).Steps n) : ∀ (b : β) (l : List α), (fold step b l).Steps (l.length * n)
  | b, [] => by simp [Tree.fold, Steps]
  | b, x :: l => by
    have := Steps.bind (fun b => Steps.fold h b l) (h b x)
    rw [List.length_cons, Nat.add_one_mul, Nat.add_comm]
    exact this

theorem AllOut.trivial : ∀ t : Tree Q A α, t.AllOut fun _ => True
  | done _ => True.intro
  | ask _ next => fun a => AllOut.trivial (next a)

theorem asked_allIn {U : Set Q} (f : Q → A) : ∀ {t : Tree Q A α}, t.AllIn U → ∀ q ∈ t.asked f, q ∈ U
  | done _, _, _, h => nomatch h
  | ask q next, ht, x, h => by
    rcases List.mem_cons.1 h with rfl | h
    · exact ht.1
    · exact asked_allIn f (ht.2 (f q)) x h

end Aiootp.Oracle.Tree

namespace Aiootp.Passcrypt

open Secrecy (Digest)
open Kdf (share cut)
open Oracle (Tree)
open Oracle.Tree (run_bind run_map asked_bind asked_map)

variable {K : Nat} {α β : Type}

/-- One digest. -/
def digestT (x : Bytes) (n : Nat) : Tree Bytes (Digest K) Bytes := .ask x fun a => .done (cut n a.1)

/-- `X` gives the digests of `f` for all that is asked. -/
def Answers (X : Xof) (f : Bytes → Digest K) (t : Tree Bytes (Digest K) α) : Prop := ∀ x ∈ t.asked f, ∀ n, X.digest x n = cut n (f x).1

theorem answers_bind {X : Xof} {f : Bytes → Digest K} {t : Tree Bytes (Digest K) α} {g : α → Tree Bytes (Digest K) β} :
    Answers X f (t.bind g) ↔ Answers X f t ∧ Answers X f (g (t.run f)) := by
  simp only [Answers, asked_bind, List.mem_append, or_imp, forall_and]

theorem answers_map {X : Xof} {f : Bytes → Digest K} {t : Tree Bytes (Digest K) α} {g : α → β} : Answers X f (t.map g) ↔ Answers X f t := by
  simp only [Answers, asked_map]

theorem run_digestT {X : Xof} {f : Bytes → Digest K} {x : Bytes} {n : Nat} (h : Answers X f (digestT (K := K) x n)) : (digestT x n).run f = X.digest x n :=
  (h x (by simp [digestT, Tree.asked]) n).symm

theorem asked_digestT (f : Bytes → Digest K) (x : Bytes) (n : Nat) : (digestT x n).asked f = [x] := rfl

theorem run_fold {X : Xof} {f : Bytes → Digest K} {step : β → α → β} {stepT : β → α → Tree Bytes (Digest K) β} (hs : ∀ b x, Answers X f (stepT b x) → (stepT b x).run f = step b x) :
    ∀ (b : β) (l : List α), Answers X f (Tree.fold stepT b l) → (Tree.fold stepT b l).run f = l.foldl step b
  | b, [], _ => rfl
  | b, x :: l, h => by
    obtain ⟨h1, h2⟩ := answers_bind.1 h
    rw [Tree.fold, run_bind, hs b x h1] at *
    exact run_fold hs _ l h2

/-- `Proof.write`. -/
def writeT (p : Proof) (start : Int) (stop : Option Int) (size : Nat) : Tree Bytes (Digest K) Proof :=
  (digestT p.absorbed size).map fun d => { p with ram := setSlice p.ram start stop d, digests := p.digests ++ [d] }

theorem run_writeT {X : Xof} {f : Bytes → Digest K} {p : Proof} {start : Int} {stop : Option Int} {size : Nat} (h : Answers X f (writeT (K := K) p start stop size)) :
    (writeT p start stop size).run f = p.write X start stop size := by
  rw [writeT, run_map, run_digestT (answers_map.1 h)]
  rfl

/-- `allocate`. -/
def allocateT (p : Proof) (size : Nat) : Tree Bytes (Digest K) Proof :=
  if size > maxDigest then
    (digestT p.absorbed maxDigest).bind fun d => allocateT { p with ram := p.ram ++ d, absorbed := p.absorbed ++ lastBlock (p.ram ++ d) } (size - maxDigest)
  else if size = 0 then .done p
  else (digestT p.absorbed size).map fun d => { p with ram := p.ram ++ d, absorbed := p.absorbed ++ lastBlock (p.ram ++ d) }
termination_by size
decreasing_by
  have : 0 < maxDigest := by decide
  omega

theorem run_allocateT {E : Env} {f : Bytes → Digest K} (size : Nat) (p : Proof) (h : Answers E.xof f (allocateT (K := K) p size)) :
    (allocateT p size).run f = allocate E p size := by
  induction size using Nat.strong_induction_on generalizing p with
  | _ size ih =>
    rw [allocateT] at h ⊢
    rw [allocate]
    by_cases h1 : size > maxDigest
    · rw [if_pos h1] at h ⊢
      rw [if_pos h1]
      obtain ⟨h2, h3⟩ := answers_bind.1 h
      rw [run_bind, run_digestT h2] at *
      refine ih _ ?_ _ h3
      have : 0 < maxDigest := by decide
      omega
    · rw [if_neg h1] at h ⊢
      rw [if_neg h1]
      by_cases h2 : size = 0
      · rw [if_pos h2, if_pos h2]; rfl
      · rw [if_neg h2] at h ⊢
        rw [if_neg h2, run_map, run_digestT (answers_map.1 h)]

theorem steps_digestT (x : Bytes) (n : Nat) : (digestT (K := K) x n).Steps 1 := fun _ => trivial

theorem steps_allocateT (size : Nat) (p : Proof) : (allocateT (K := K) p size).Steps (size / maxDigest + 1) := by
  induction size using Nat.strong_induction_on generalizing p with
  | _ size ih =>
    have h0 : 0 < maxDigest := by decide
    rw [allocateT]
    by_cases h1 : size > maxDigest
    · rw [if_pos h1]
      have : size / maxDigest = (size - maxDigest) / maxDigest + 1 := by
        rw [← Nat.div_eq_sub_div h0 (by omega)]
      rw [this, Nat.add_comm]
      exact (steps_digestT _ _).bind fun d => ih _ (by omega) _
    · rw [if_neg h1]
      by_cases h2 : size = 0
      · rw [if_pos h2]; trivial
      · rw [if_neg h2]
        exact ((steps_digestT _ _).map).mono (Nat.le_add_left 1 _)

/-- `walkStep`. -/
def walkStepT (rowSize columnStart : Nat) (p : Proof) (rowStart : Nat) : Tree Bytes (Digest K) Proof :=
  let index : Int := rowStart + columnStart
  let refRowStart : Int := - rowStart - rowSize
  let reflection := refRowStart + columnStart + 168
  let refEnd := reflection + 168
  let refEnd := if refEnd < 0 then some refEnd else none
  (writeT (p.absorb rowStart (rowStart + rowSize)) index (some (index + 168)) 168).bind fun p => writeT (p.absorb refRowStart (refRowStart + rowSize)) reflection refEnd 168

theorem run_walkStepT {X : Xof} {f : Bytes → Digest K} {r c : Nat} (p : Proof) (s : Nat) (h : Answers X f (walkStepT (K := K) r c p s)) :
    (walkStepT r c p s).run f = walkStep X r c p s := by
  simp only [walkStepT] at h ⊢
  obtain ⟨h1, h2⟩ := answers_bind.1 h
  rw [run_bind, run_writeT h1] at *
  rw [run_writeT h2]
  rfl

theorem steps_writeT (p : Proof) (start : Int) (stop : Option Int) (size : Nat) : (writeT (K := K) p start stop size).Steps 1 := (steps_digestT _ _).map

theorem steps_walkStepT (r c : Nat) (p : Proof) (s : Nat) : (walkStepT (K := K) r c p s).Steps 2 := (steps_writeT _ _ _ _).bind fun _ => steps_writeT _ _ _ _

/-- `walk`. -/
def walkT (rowSize totalSize : Nat) (p : Proof) : Tree Bytes (Digest K) Proof :=
  Tree.fold (fun p column => Tree.fold (walkStepT rowSize column) p (pyRange totalSize rowSize)) p (pyRange rowSize 336)

theorem run_walkT {X : Xof} {f : Bytes → Digest K} {r n : Nat} {p : Proof} (h : Answers X f (walkT (K := K) r n p)) : (walkT r n p).run f = walk X r n p :=
  run_fold (fun b x => run_fold (fun b y => run_walkStepT b y) b _) p _ h

theorem steps_walkT (r n : Nat) (p : Proof) : (walkT (K := K) r n p).Steps ((pyRange r 336).length * ((pyRange n r).length * 2)) :=
  Tree.Steps.fold (fun b x => Tree.Steps.fold (fun b y => steps_walkStepT r x b y) b _) p _

/-- `finalStep`. -/
def finalStepT (p : Proof) (iteration : Nat) : Tree Bytes (Digest K) Proof :=
  let seek : Int := 168 * iteration
  (writeT p seek (some (seek + 84)) 84).map fun p => { p with absorbed := p.absorbed ++ p.ram }

theorem run_finalStepT {X : Xof} {f : Bytes → Digest K} (p : Proof) (i : Nat) (h : Answers X f (finalStepT (K := K) p i)) : (finalStepT p i).run f = finalStep X p i := by
  simp only [finalStepT] at h ⊢
  rw [run_map, run_writeT (answers_map.1 h)]
  rfl

/-- `workMemoryProver`. -/
def proverT (cpu rowSize totalSize : Nat) (p : Proof) : Tree Bytes (Digest K) (Except Err Proof) :=
  if totalSize ≠ p.ram.length then .done (.error .assertion)
  else (walkT rowSize totalSize p).bind fun p => (Tree.fold finalStepT p (List.range (cpu + 2))).map .ok

theorem run_proverT {X : Xof} {f : Bytes → Digest K} {cpu r n : Nat} {p : Proof} (h : Answers X f (proverT (K := K) cpu r n p)) :
    (proverT cpu r n p).run f = workMemoryProver X cpu r n p := by
  unfold proverT at h ⊢
  unfold workMemoryProver raiseIf
  by_cases h1 : n ≠ p.ram.length
  · rw [if_pos h1, if_pos h1]; rfl
  · rw [if_neg h1] at h ⊢
    rw [if_neg h1]
    obtain ⟨h2, h3⟩ := answers_bind.1 h
    rw [run_bind, run_walkT h2, run_map] at *
    rw [run_fold (fun b x => run_finalStepT b x) _ _ (answers_map.1 h3)]
    rfl

theorem steps_proverT (cpu r n : Nat) (p : Proof) : (proverT (K := K) cpu r n p).Steps ((pyRange r 336).length * ((pyRange n r).length * 2) + (cpu + 2)) := by
  unfold proverT
  by_cases h1 : n ≠ p.ram.length
  · rw [if_pos h1]; trivial
  · rw [if_neg h1]
    refine (steps_walkT _ _ _).bind fun p => Tree.Steps.map ?_
    have := Tree.Steps.fold (step := finalStepT (K := K)) (n := 1) (fun b x => (steps_writeT _ _ _ _).map) p (List.range (cpu + 2))
    rwa [List.length_range, Nat.mul_one] at this

/-- `prepare`. -/
def prepareT (E : Env) (c : Config) (s : Session) : Tree Bytes (Digest K) (Except Err Proof) :=
  match parametersMessage E c s with
  | .error e => .done (.error e)
  | .ok m => (digestT m 336).bind fun d => (allocateT ⟨[], E.proofSalt ++ d, []⟩ (totalSize c s.mb s.cpu)).map .ok

theorem run_prepareT {E : Env} {f : Bytes → Digest K} {c : Config} {s : Session} (h : Answers E.xof f (prepareT (K := K) E c s)) : (prepareT E c s).run f = prepare E c s := by
  unfold prepareT at h ⊢
  unfold prepare
  cases hm : parametersMessage E c s with
  | error e => rfl
  | ok m =>
    rw [hm] at h
    simp only at h ⊢
    obtain ⟨h1, h2⟩ := answers_bind.1 h
    rw [run_bind, run_digestT h1, run_map] at *
    rw [run_allocateT _ _ (answers_map.1 h2)]
    rfl

/-- `passcrypt`. -/
def passcryptT (E : Env) (c : Config) (s : Session) : Tree Bytes (Digest K) (Except Err Bytes) :=
  (prepareT E c s).bind fun
    | .error e => .done (.error e)
    | .ok p => (proverT s.cpu (rowSize c s.cpu) (totalSize c s.mb s.cpu) p).bind fun
      | .error e => .done (.error e)
      | .ok p => (digestT p.absorbed 168).map .ok

theorem run_passcryptT {E : Env} {f : Bytes → Digest K} {c : Config} {s : Session} (h : Answers E.xof f (passcryptT (K := K) E c s)) :
    (passcryptT E c s).run f = passcrypt E c s := by
  unfold passcryptT at h ⊢
  unfold passcrypt
  obtain ⟨h1, h2⟩ := answers_bind.1 h
  rw [run_bind, run_prepareT h1] at *
  cases hp : prepare E c s with
  | error e => rfl
  | ok p =>
    rw [hp] at h2
    simp only at h2 ⊢
    obtain ⟨h3, h4⟩ := answers_bind.1 h2
    rw [run_bind, run_proverT h3] at *
    show _ = (workMemoryProver E.xof s.cpu (rowSize c s.cpu) (totalSize c s.mb s.cpu) p >>= _)
    cases hq : workMemoryProver E.xof s.cpu (rowSize c s.cpu) (totalSize c s.mb s.cpu) p with
    | error e => rfl
    | ok q =>
      rw [hq] at h4
      simp only at h4 ⊢
      rw [run_map, run_digestT (answers_map.1 h4)]
      rfl

/-- How often a session hashes. -/
def sessionSteps (c : Config) (mb cpu : Nat) : Nat :=
  1 + (totalSize c mb cpu / maxDigest + 1) + ((pyRange (rowSize c cpu) 336).length * ((pyRange (totalSize c mb cpu) (rowSize c cpu)).length * 2) + (cpu + 2) + 1)

theorem steps_passcryptT (E : Env) (c : Config) (s : Session) : (passcryptT (K := K) E c s).Steps (sessionSteps c s.mb s.cpu) := by
  unfold passcryptT sessionSteps
  refine Tree.Steps.bind ?_ ?_
  · rintro (e | p)
    · trivial
    · refine Tree.Steps.bind ?_ (steps_proverT _ _ _ _)
      rintro (e | q)
      · trivial
      · exact (steps_digestT _ _).map
  · unfold prepareT
    cases parametersMessage E c s with
    | error e => trivial
    | ok m => exact (steps_digestT _ _).bind fun d => (steps_allocateT _ _).map

/-- What a session hashes is asked. -/
theorem asked_passcryptT {E : Env} {f : Bytes → Digest K} {c : Config} {s : Session} (h : Answers E.xof f (passcryptT (K := K) E c s)) {n : Nat} {x : Bytes}
    (hx : SessionHashes E c s n x) : x ∈ (passcryptT E c s).asked f := by
  unfold passcryptT at h ⊢
  obtain ⟨h1, h2⟩ := answers_bind.1 h
  rw [asked_bind]
  cases hx with
  | @parameters m hm =>
    refine List.mem_append_left _ ?_
    simp only [prepareT, hm, asked_bind, asked_digestT, List.singleton_append, List.mem_cons, true_or]
  | @result p q hp hq =>
    refine List.mem_append_right _ ?_
    rw [run_prepareT h1, hp] at h2 ⊢
    simp only at h2 ⊢
    obtain ⟨h3, h4⟩ := answers_bind.1 h2
    rw [asked_bind, run_proverT h3, hq]
    refine List.mem_append_right _ ?_
    simp only [asked_map, asked_digestT, List.mem_singleton]

/-- `sessions.mapM passcrypt`. -/
def sessionsT (E : Env) (c : Config) : List Session → Tree Bytes (Digest K) (Except Err (List Bytes))
  | [] => .done (.ok [])
  | s :: l => (passcryptT E c s).bind fun
    | .error e => .done (.error e)
    | .ok r => (sessionsT E c l).map fun rs => rs.map (r :: ·)

theorem run_sessionsT {E : Env} {f : Bytes → Digest K} {c : Config} : ∀ {l : List Session}, Answers E.xof f (sessionsT (K := K) E c l) →
    (sessionsT E c l).run f = l.mapM (passcrypt E c)
  | [], _ => rfl
  | s :: l, h => by
    unfold sessionsT at h ⊢
    obtain ⟨h1, h2⟩ := answers_bind.1 h
    rw [run_bind, run_passcryptT h1] at *
    rw [List.mapM_cons]
    cases hp : passcrypt E c s with
    | error e => rfl
    | ok r =>
      rw [hp] at h2
      simp only at h2 ⊢
      rw [run_map, run_sessionsT (answers_map.1 h2)]
      cases List.mapM (passcrypt E c) l <;> rfl

theorem steps_sessionsT (E : Env) (c : Config) {n : Nat} : ∀ {l : List Session}, (∀ s ∈ l, sessionSteps c s.mb s.cpu = n) → (sessionsT (K := K) E c l).Steps (l.length * n)
  | [], _ => by simp [sessionsT, Tree.Steps]
  | s :: l, h => by
    rw [List.length_cons, Nat.add_one_mul, Nat.add_comm]
    unfold sessionsT
    have h1 := h s (List.mem_cons_self ..)
    refine Tree.Steps.bind ?_ (h1 ▸ steps_passcryptT E c s)
    rintro (e | r)
    · cases l.length * n <;> trivial
    · exact (steps_sessionsT E c fun s hs => h s (List.mem_cons_of_mem _ hs)).map

theorem asked_sessionsT {E : Env} {f : Bytes → Digest K} {c : Config} {n : Nat} {x : Bytes} {s : Session} : ∀ {l : List Session} {rs : List Bytes}, Answers E.xof f (sessionsT (K := K) E c l) →
    l.mapM (passcrypt E c) = .ok rs → s ∈ l → SessionHashes E c s n x → x ∈ (sessionsT E c l).asked f
  | [], _, _, _, hs, _ => nomatch hs
  | s' :: l, rs, h, hr, hs, hx => by
    unfold sessionsT at h ⊢
    obtain ⟨h1, h2⟩ := answers_bind.1 h
    rw [asked_bind]
    rcases List.mem_cons.1 hs with rfl | hs
    · exact List.mem_append_left _ (asked_passcryptT h1 hx)
    · refine List.mem_append_right _ ?_
      rw [run_passcryptT h1] at h2 ⊢
      simp only [List.mapM_cons, bind_eq_ok] at hr
      obtain ⟨r, hr1, rs', hr2, _⟩ := hr
      rw [hr1] at h2 ⊢
      simp only [asked_map] at h2 ⊢
      exact asked_sessionsT (answers_map.1 h2) hr2 hs hx

/-- `collect`. -/
def collectT (E : Env) (c : Config) (sessions : List Session) (tagSize : Nat) : Tree Bytes (Digest K) (Except Err Bytes) :=
  (sessionsT E c sessions).bind fun
    | .error e => .done (.error e)
    | .ok results =>
      match tagMessage results tagSize with
      | .error e => .done (.error e)
      | .ok m => (digestT m tagSize).map .ok

theorem run_collectT {E : Env} {f : Bytes → Digest K} {c : Config} {l : List Session} {n : Nat} (h : Answers E.xof f (collectT (K := K) E c l n)) :
    (collectT E c l n).run f = collect E c l n := by
  unfold collectT at h ⊢
  unfold collect
  obtain ⟨h1, h2⟩ := answers_bind.1 h
  rw [run_bind, run_sessionsT h1] at *
  cases hp : l.mapM (passcrypt E c) with
  | error e => rfl
  | ok rs =>
    rw [hp] at h2
    simp only at h2 ⊢
    show _ = (tagMessage rs n >>= _)
    cases hm : tagMessage rs n with
    | error e => rfl
    | ok m =>
      rw [hm] at h2
      simp only at h2 ⊢
      rw [run_map, run_digestT (answers_map.1 h2)]
      rfl

theorem steps_collectT (E : Env) (c : Config) {l : List Session} {n tagSize : Nat} (h : ∀ s ∈ l, sessionSteps c s.mb s.cpu = n) :
    (collectT (K := K) E c l tagSize).Steps (l.length * n + 1) := by
  unfold collectT
  refine Tree.Steps.bind ?_ (steps_sessionsT E c h)
  rintro (e | rs)
  · trivial
  · simp only
    cases tagMessage rs tagSize with
    | error e => trivial
    | ok m => exact (steps_digestT _ _).map

theorem asked_collectT {E : Env} {f : Bytes → Digest K} {c : Config} {l : List Session} {tagSize n : Nat} {x tag : Bytes} (h : Answers E.xof f (collectT (K := K) E c l tagSize))
    (hok : collect E c l tagSize = .ok tag) (hx : Hashes E c l tagSize n x) : x ∈ (collectT E c l tagSize).asked f := by
  unfold collectT at h ⊢
  obtain ⟨h1, h2⟩ := answers_bind.1 h
  simp only [collect, bind_eq_ok] at hok
  obtain ⟨rs, hrs, m, hm, _⟩ := hok
  rw [asked_bind]
  cases hx with
  | session hs hx => exact List.mem_append_left _ (asked_sessionsT h1 hrs hs hx)
  | @tag rs' m' hrs' hm' =>
    rw [hrs] at hrs'
    injection hrs' with e
    subst e
    refine List.mem_append_right _ ?_
    rw [run_sessionsT h1, hrs]
    simp only [hm', asked_map, asked_digestT, List.mem_singleton]

/-! ### the game -/

/-- `new`. -/
def newT (E : Env) (c : Config) (t : Settings) (p salt aad : Bytes) : Tree Bytes (Digest K) (Except Err Bytes) :=
  match spawn c p salt aad t.pepper t.mb t.cpu t.cores t.tagSize with
  | .error e => .done (.error e)
  | .ok sessions => collectT E c sessions t.tagSize

theorem run_newT {E : Env} {f : Bytes → Digest K} {c : Config} {t : Settings} {p salt aad : Bytes} (h : Answers E.xof f (newT (K := K) E c t p salt aad)) :
    (newT E c t p salt aad).run f = new E c t p salt aad := by
  unfold newT at h ⊢
  unfold new
  cases hs : spawn c p salt aad t.pepper t.mb t.cpu t.cores t.tagSize with
  | error e => rfl
  | ok sessions =>
    rw [hs] at h
    exact run_collectT h

theorem pyRange_length (stop step : Nat) : (pyRange stop step).length = ceilDiv stop step := by
  rw [pyRange, List.length_map, List.length_range]

theorem sessionSteps_eq (M : Bytes) (mb cpu cores : Nat) : cores * sessionSteps (spec M) (ceilTrueDiv mb cores) cpu + 1 = calls (coreBlocks mb cpu cores) cpu cores := by
  have h1 : totalSize (spec M) (ceilTrueDiv mb cores) cpu = 168 * coreBlocks mb cpu cores := by
    unfold totalSize rowSize rows rounds coreBlocks
    simp only [show (spec M).ratio = 2 from rfl]
    ring
  have hr : 0 < max 1 (cpu / 2) := by omega
  have h2 : (pyRange (rowSize (spec M) cpu) 336).length * ((pyRange (totalSize (spec M) (ceilTrueDiv mb cores) cpu) (rowSize (spec M) cpu)).length * 2) = coreBlocks mb cpu cores := by
    rw [pyRange_length, pyRange_length]
    unfold totalSize rowSize rows rounds coreBlocks
    simp only [show (spec M).ratio = 2 from rfl]
    rw [Nat.mul_comm 336 (max 1 (cpu / 2)), ceilDiv_mul_self (by omega), Nat.mul_comm (max 1 (cpu / 2) * 336), ceilDiv_mul_self (Nat.mul_pos hr (by omega))]
    ring
  unfold sessionSteps calls
  rw [h2, h1, show maxDigest = 2 ^ 29 - 1 from by decide]
  ring

theorem steps_newT (E : Env) (M : Bytes) (t : Settings) (hc : 1 ≤ t.cores) (p salt aad : Bytes) :
    (newT (K := K) E (spec M) t p salt aad).Steps (calls (coreBlocks t.mb t.cpu t.cores) t.cpu t.cores) := by
  unfold newT
  cases hs : spawn (spec M) p salt aad t.pepper t.mb t.cpu t.cores t.tagSize with
  | error e => trivial
  | ok sessions =>
    obtain ⟨_, rfl⟩ := (spawn_iff hc).1 hs
    rw [← sessionSteps_eq M]
    have := steps_collectT (K := K) E (spec M) (l := (List.range t.cores).map (coreSession p salt aad t.pepper t.mb t.cpu t.cores t.tagSize))
      (n := sessionSteps (spec M) (ceilTrueDiv t.mb t.cores) t.cpu) (tagSize := t.tagSize) (by
        intro s hs
        obtain ⟨i, _, rfl⟩ := List.mem_map.1 hs
        rfl)
    rwa [List.length_map, List.length_range] at this

/-- `hash_passphrase`. -/
def hashT (E : Env) (c : Config) (t : Settings) (made : Int) (draw p aad : Bytes) : Tree Bytes (Digest K) (Except Err Bytes) :=
  match c.validateSettings t.mb t.cpu t.cores t.tagSize t.saltSize >>= fun _ => Clock.makeTimestamp made c.timestampBytes .big with
  | .error e => .done (.error e)
  | .ok ts => (newT E c t p draw (ts ++ aad)).map fun r => r >>= fun tag => Hash.make c ts t.mb t.cpu t.cores draw tag >>= fun h => exportHash c h

theorem run_hashT {E : Env} {f : Bytes → Digest K} {c : Config} {t : Settings} {made : Int} {draw p aad : Bytes} (h : Answers E.xof f (hashT (K := K) E c t made draw p aad)) :
    (hashT E c t made draw p aad).run f = hashPassphrase E c t made draw p aad := by
  unfold hashT at h ⊢
  unfold hashPassphrase
  cases hv : c.validateSettings t.mb t.cpu t.cores t.tagSize t.saltSize with
  | error e => rfl
  | ok u =>
    rw [hv] at h
    simp only [show ∀ g : Unit → Except Err Bytes, ((Except.ok u : Except Err Unit) >>= g) = g u from fun _ => rfl] at h ⊢
    cases hts : Clock.makeTimestamp made c.timestampBytes .big with
    | error e => rfl
    | ok ts =>
      rw [hts] at h
      simp only at h ⊢
      rw [run_map, run_newT (answers_map.1 h)]
      rfl

/-- What the guesser hashes. -/
def Guesser.seenT (g : Guesser) (hash : Bytes) : Nat → Tree Bytes (Digest K) (List Bytes)
  | 0 => .done []
  | q + 1 => (g.seenT hash q).bind fun before => (digestT (g.ask hash before) K).map fun d => before ++ [d]

theorem run_seenT {X : Xof} {f : Bytes → Digest K} {g : Guesser} {hash : Bytes} : ∀ {q : Nat}, Answers X f (g.seenT (K := K) hash q) → (g.seenT hash q).run f = g.seen X K hash q
  | 0, _ => rfl
  | q + 1, h => by
    unfold Guesser.seenT at h ⊢
    obtain ⟨h1, h2⟩ := answers_bind.1 h
    rw [run_bind, run_seenT h1] at *
    rw [run_map, run_digestT (answers_map.1 h2)]
    rfl

theorem steps_seenT (g : Guesser) (hash : Bytes) : ∀ q : Nat, (g.seenT (K := K) hash q).Steps q
  | 0 => trivial
  | q + 1 => (steps_seenT g hash q).bind fun _ => (steps_digestT _ _).map

/-- All that happens. -/
def gameT (g : Guesser) (E : Env) (M : Bytes) (t : Settings) (made : Int) (draw p aad : Bytes) (q n : Nat) : Tree Bytes (Digest K) Unit :=
  (hashT E (spec M) t made draw p aad).bind fun
    | .error _ => .done ()
    | .ok hash => (g.seenT hash q).bind fun seen =>
      match Clock.makeTimestamp made 8 .big with
      | .error _ => .done ()
      | .ok ts => Tree.fold (fun _ i => (newT E (spec M) t (g.guess hash seen i).1 draw (ts ++ (g.guess hash seen i).2)).map fun _ => ()) () (List.range n)

theorem steps_gameT (g : Guesser) (E : Env) (M : Bytes) (t : Settings) (hc : 1 ≤ t.cores) (made : Int) (draw p aad : Bytes) (q n : Nat) :
    (gameT (K := K) g E M t made draw p aad q n).Steps (q + (n + 1) * calls (coreBlocks t.mb t.cpu t.cores) t.cpu t.cores) := by
  have hN := steps_newT (K := K) E M t hc
  generalize calls (coreBlocks t.mb t.cpu t.cores) t.cpu t.cores = N at hN ⊢
  have e : q + (n + 1) * N = N + (q + n * N) := by ring
  rw [e]
  unfold gameT
  refine Tree.Steps.bind ?_ ?_
  · rintro (e | hash)
    · cases q + n * N <;> trivial
    · refine (steps_seenT g hash q).bind fun seen => ?_
      cases Clock.makeTimestamp made 8 .big with
      | error e => simp only; cases n * N <;> trivial
      | ok ts =>
        have := Tree.Steps.fold (step := fun (_ : Unit) i => (newT (K := K) E (spec M) t (g.guess hash seen i).1 draw (ts ++ (g.guess hash seen i).2)).map fun _ => ())
          (fun _ i => (hN _ _ _).map) () (List.range n)
        rwa [List.length_range] at this
  · unfold hashT
    cases (spec M).validateSettings t.mb t.cpu t.cores t.tagSize t.saltSize >>= fun _ => Clock.makeTimestamp made (spec M).timestampBytes .big with
    | error e => cases N <;> trivial
    | ok ts => exact (hN _ _ _).map

theorem asked_fold {f : Bytes → Digest K} {step : Unit → α → Tree Bytes (Digest K) Unit} {x : Bytes} {i : α} (hx : x ∈ (step () i).asked f) :
    ∀ {l : List α}, i ∈ l → x ∈ (Tree.fold step () l).asked f
  | [], h => nomatch h
  | j :: l, h => by
    rw [Tree.fold, asked_bind]
    rcases List.mem_cons.1 h with rfl | h
    · exact List.mem_append_left _ hx
    · exact List.mem_append_right _ (asked_fold hx h)

theorem answers_fold {X : Xof} {f : Bytes → Digest K} {step : Unit → α → Tree Bytes (Digest K) Unit} {i : α} {l : List α} (h : Answers X f (Tree.fold step () l)) (hi : i ∈ l) :
    Answers X f (step () i) := fun _ hx => h _ (asked_fold hx hi)

/-- What an accepted call has done. -/
theorem verify_collect {E : Env} {M : Bytes} {t : Settings} {draw hash ts tag p' aad' : Bytes} (hlen : tag.length = t.tagSize)
    (hi : importHash (spec M) hash = .ok ⟨ts, t.mb, t.cpu, t.cores, draw, tag⟩) {now : Int} {ttl : Option Int} {mbA cpuA coresA : Nat → Bool}
    (hv : (verify E (spec M) t.pepper hash p' aad' now ttl mbA cpuA coresA).result = .ok ()) :
    ∃ tag', spawn (spec M) p' draw (ts ++ aad') t.pepper t.mb t.cpu t.cores t.tagSize = .ok (verify E (spec M) t.pepper hash p' aad' now ttl mbA cpuA coresA).started ∧
      collect E (spec M) (verify E (spec M) t.pepper hash p' aad' now ttl mbA cpuA coresA).started t.tagSize = .ok tag' := by
  unfold verify at hv ⊢
  cases hp : verifyParts (spec M) hash now ttl mbA cpuA coresA with
  | error e => rw [hp] at hv; cases hv
  | ok parts =>
    rw [hp] at hv
    have e := (verifyParts_ok.1 hp).1
    rw [hi] at e
    injection e with e
    subst e
    simp only [hlen] at hv ⊢
    cases hsp : spawn (spec M) p' draw (ts ++ aad') t.pepper t.mb t.cpu t.cores t.tagSize with
    | error e => rw [hsp] at hv; cases hv
    | ok sessions' =>
      rw [hsp] at hv
      simp only [bind_eq_ok] at hv ⊢
      obtain ⟨tag', hc, _⟩ := hv
      exact ⟨tag', trivial, hc⟩

/-- The digests begin in the same way. -/
def Meet (s : Nat) (x y : Digest K) : Prop := x.1.take s = y.1.take s

theorem cut_take {s n : Nat} (hn : s ≤ n) (b : Digest K) (hK : s ≤ K) : (cut n b.1).take s = b.1.take s := by
  rw [cut, List.take_take, Nat.min_eq_left hn, List.take_append_of_le_length (by rw [b.2]; exact hK)]

theorem hashes_size {E : Env} {c : Config} {l : List Session} {tagSize n s : Nat} {x : Bytes} (h : Hashes E c l tagSize n x) (h1 : s ≤ tagSize) (h2 : s ≤ 168) : s ≤ n := by
  cases h with
  | session _ h => cases h with
    | parameters => omega
    | result => exact h2
  | tag => exact h1

/-- Whoever wins has met two digests that begin in the same way. -/
theorem wins_bad {g : Guesser} {E : Env} {M : Bytes} {t : Settings} {made : Int} {draw p aad : Bytes} {q n s : Nat} (hs1 : s ≤ t.tagSize) (hs2 : s ≤ 168) (hK : s ≤ K) {f : Bytes → Digest K}
    (h : Answers E.xof f (gameT (K := K) g E M t made draw p aad q n)) (hw : g.Wins E M t made draw p aad K q n) :
    Tree.BadOn (fun _ => False) (Meet s) {x | x ∈ (gameT (K := K) g E M t made draw p aad q n).asked f} f := by
  obtain ⟨hash, hh, i, hin, p', aad', hg, hne, hcase, now, ttl, mbA, cpuA, coresA, hv⟩ := hw
  obtain ⟨ts, tag, sessions, hts, hsp, hc, hlen, hi⟩ := hashPassphrase_ok hh
  obtain ⟨tag', hsp', hc'⟩ := verify_collect hlen hi hv
  rcases C48_refuses_partial hh hcase hv with h0 | ⟨ts2, sessions2, hts2, hsp2, k, x, y, hx, hy, hxy, hd⟩
  · exact absurd h0 hne
  rw [hts] at hts2
  injection hts2 with e
  subst e
  rw [hsp] at hsp2
  injection hsp2 with e
  subst e
  generalize (verify E (spec M) t.pepper hash p' aad' now ttl mbA cpuA coresA).started = started at hsp' hc' hy
  have hall := h
  unfold gameT at h
  obtain ⟨h1, h2⟩ := answers_bind.1 h
  rw [run_hashT h1, hh] at h2
  simp only at h2
  obtain ⟨h3, h4⟩ := answers_bind.1 h2
  rw [run_seenT h3, hts] at h4
  simp only at h4
  have h5 := answers_map.1 (answers_fold h4 (List.mem_range.2 hin))
  rw [hg] at h5
  -- what the two calls hash is asked
  have ax : x ∈ (gameT (K := K) g E M t made draw p aad q n).asked f := by
    unfold gameT
    rw [asked_bind]
    refine List.mem_append_left _ ?_
    have hvs : ∃ u, (spec M).validateSettings t.mb t.cpu t.cores t.tagSize t.saltSize = .ok u := by
      simp only [hashPassphrase, bind_eq_ok] at hh
      obtain ⟨u, hu, _⟩ := hh
      exact ⟨u, hu⟩
    obtain ⟨u, hu⟩ := hvs
    have hts' : Clock.makeTimestamp made (spec M).timestampBytes .big = .ok ts := hts
    have e : ((spec M).validateSettings t.mb t.cpu t.cores t.tagSize t.saltSize >>= fun _ => Clock.makeTimestamp made (spec M).timestampBytes .big) = .ok ts := by
      rw [hu]; exact hts'
    unfold hashT at h1 ⊢
    rw [e] at h1 ⊢
    simp only [asked_map] at h1 ⊢
    have h1 := answers_map.1 h1
    unfold newT at h1 ⊢
    rw [hsp] at h1 ⊢
    exact asked_collectT h1 hc hx
  have ay : y ∈ (gameT (K := K) g E M t made draw p aad q n).asked f := by
    unfold gameT
    rw [asked_bind, run_hashT h1, hh]
    refine List.mem_append_right _ ?_
    simp only
    rw [asked_bind, run_seenT h3, hts]
    refine List.mem_append_right _ ?_
    simp only
    refine asked_fold (i := i) ?_ (List.mem_range.2 hin)
    rw [asked_map, hg]
    unfold newT at h5 ⊢
    simp only [hsp'] at h5 ⊢
    exact asked_collectT h5 hc' hy
  refine ⟨x, ax, .inr ⟨y, ay, hxy, ?_⟩⟩
  have hk := hashes_size hx hs1 hs2
  have hd : E.xof.digest x k = E.xof.digest y k := hd
  rw [hall x ax, hall y ay] at hd
  unfold Meet
  rw [← cut_take hk (f x) hK, ← cut_take hk (f y) hK, hd]

/-! ### the trees do not depend on the hash function -/

theorem sessionsT_env (X Y : Xof) (salt domain : Bytes) (c : Config) : ∀ l : List Session, sessionsT (K := K) ⟨X, salt, domain⟩ c l = sessionsT ⟨Y, salt, domain⟩ c l
  | [] => rfl
  | s :: l => by
    have h : passcryptT (K := K) ⟨X, salt, domain⟩ c s = passcryptT ⟨Y, salt, domain⟩ c s := rfl
    simp only [sessionsT, sessionsT_env X Y salt domain c l, h]

theorem newT_env (X Y : Xof) (salt domain : Bytes) (c : Config) (t : Settings) (p s aad : Bytes) : newT (K := K) ⟨X, salt, domain⟩ c t p s aad = newT ⟨Y, salt, domain⟩ c t p s aad := by
  simp only [newT, collectT, sessionsT_env X Y]

theorem gameT_env (X Y : Xof) (g : Guesser) (salt domain M : Bytes) (t : Settings) (made : Int) (draw p aad : Bytes) (q n : Nat) :
    gameT (K := K) g ⟨X, salt, domain⟩ M t made draw p aad q n = gameT g ⟨Y, salt, domain⟩ M t made draw p aad q n := by
  simp only [gameT, hashT, newT_env X Y]

end Aiootp.Passcrypt
