import Verif.Lemmas.OracleKey
import Verif.Lemmas.Digest
import Verif.Spec.KdfSecrecy
import Verif.Props.KdfUse

/-
Derived keys, if the hash functions are drawn at random: the derivations as computations that ask for digests.
-/

namespace Aiootp.Kdf

open Canon
open Oracle (Tree)
open Oracle.Tree (asked Steps ext Agree many asked_bind asked_map run_bind run_map)
open Secrecy (Digest)

theorem cut_length (n : Nat) (b : Bytes) : (cut n b).length = n := by
  unfold cut
  rw [List.length_take, List.length_append, List.length_replicate]
  omega

theorem cut_take {n : Nat} {b : Bytes} (h : n ≤ b.length) : cut n b = b.take n := by
  unfold cut
  rw [List.take_append_of_le_length h]

section
variable {N : Nat}

/-- All digests are drawn. -/
def ofAnswers (f : HashType × Bytes → Digest N) : Functions := fun t m n => cut n (f (t, m)).1

theorem ofAnswers_length (f : HashType × Bytes → Digest N) (t : HashType) (m : Bytes) (n : Nat) : (ofAnswers f t m n).length = n := cut_length ..

/-- The last message that is hashed. -/
def lastOf (F : Functions) (salt kdfDomain : Bytes) (x : Life × Derivation) : Except Err Bytes := do
  let p ← x.1.state F salt kdfDomain
  if x.2.output.size? = some 0 then .error .type
  else x.2.message F p

theorem lastOf_ok {F : Functions} {salt kdfDomain : Bytes} {x : Life × Derivation} {m : Bytes} : lastOf F salt kdfDomain x = .ok m ↔
    x.2.output.size? ≠ some 0 ∧ ∃ p, x.1.state F salt kdfDomain = .ok p ∧ x.2.message F p = .ok m := by
  unfold lastOf
  rw [bind_eq_ok]
  constructor
  · rintro ⟨p, h1, h2⟩
    by_cases h : x.2.output.size? = some 0
    · rw [if_pos h] at h2; cases h2
    · rw [if_neg h] at h2; exact ⟨h, p, h1, h2⟩
  · rintro ⟨h, p, h1, h2⟩
    exact ⟨p, h1, by rw [if_neg h]; exact h2⟩

theorem derive_eq (F : Functions) (salt kdfDomain : Bytes) (x : Life × Derivation) :
    derive F salt kdfDomain x.1 x.2 = (lastOf F salt kdfDomain x).map fun m => F x.2.output.type m x.2.output.bytes := by
  unfold derive lastOf Derivation.run runKdf hashBytes Derivation.message
  obtain ⟨l, d⟩ := x
  have hsize : (if (hasher F d.output.type).digestSize ≠ 0 then none else d.output.size?) = d.output.size? := by
    cases d.output <;> rfl
  have hbytes : d.output.size? ≠ some 0 → sizeOr d.output.size? (hasher F d.output.type).digestSize = d.output.bytes := by
    cases d.output with
    | sha3_256 => intro; rfl
    | sha3_512 => intro; rfl
    | shake_128 n => cases n with
      | zero => intro h; exact absurd rfl h
      | succ n => intro; rfl
    | shake_256 n => cases n with
      | zero => intro h; exact absurd rfl h
      | succ n => intro; rfl
  cases hs : l.state F salt kdfDomain with
  | error e => simp only [hs]; rfl
  | ok p =>
    simp only [hs, bind, Except.bind, hsize]
    by_cases h0 : d.output.size? = some 0
    · rw [if_pos h0, if_pos h0]; rfl
    · rw [if_neg h0, if_neg h0, hbytes h0]
      show (hashBytesInput (d.aad :: d.args) d.output.type.block (hasher F d.output.type).digestSize [0] d.output.size? (some (F .shake_128 p d.output.type.block)) >>= fun x =>
        Except.ok (F d.output.type x d.output.bytes)) = _
      cases hashBytesInput (d.aad :: d.args) d.output.type.block (hasher F d.output.type).digestSize [0] d.output.size? (some (F .shake_128 p d.output.type.block)) <;> rfl

/-! ### functions that agree on what is hashed -/

theorem message_congr {F F' : Functions} {p : Bytes} (d : Derivation) (h : ∀ n, F .shake_128 p n = F' .shake_128 p n) : d.message F p = d.message F' p := by
  unfold Derivation.message
  rw [h]
  rfl

theorem state_congr {F F' : Functions} {salt kdfDomain : Bytes} {l : Life} (h : ∀ m, l.first kdfDomain = .ok m → ∀ n, F .shake_128 m n = F' .shake_128 m n) :
    l.state F salt kdfDomain = l.state F' salt kdfDomain := by
  rw [state_eq, state_eq]
  cases hm : l.first kdfDomain with
  | error e => rfl
  | ok m => simp only [Except.bind, h m hm]

theorem covered_congr {F F' : Functions} {salt kdfDomain : Bytes} {x : Life × Derivation}
    (h : ∀ t n m, Hashes F salt kdfDomain x.1 x.2 t n m → ∀ n, F t m n = F' t m n) :
    lastOf F salt kdfDomain x = lastOf F' salt kdfDomain x ∧ derive F salt kdfDomain x.1 x.2 = derive F' salt kdfDomain x.1 x.2 ∧
      ∀ t n m, Hashes F' salt kdfDomain x.1 x.2 t n m → Hashes F salt kdfDomain x.1 x.2 t n m := by
  have hs : x.1.state F salt kdfDomain = x.1.state F' salt kdfDomain := state_congr fun m hm => h _ _ _ (.first hm)
  have hm : ∀ p, x.1.state F salt kdfDomain = .ok p → x.2.message F p = x.2.message F' p := fun p hp => message_congr x.2 (h _ _ _ (.payload hp))
  have hl : lastOf F salt kdfDomain x = lastOf F' salt kdfDomain x := by
    unfold lastOf
    rw [← hs]
    cases hp : x.1.state F salt kdfDomain with
    | error e => rfl
    | ok p => simp only [bind, Except.bind, hm p hp]
  refine ⟨hl, ?_, ?_⟩
  · rw [derive_eq, derive_eq, ← hl]
    cases hk : lastOf F salt kdfDomain x with
    | error e => rfl
    | ok m =>
      obtain ⟨_, p, hp, hm'⟩ := lastOf_ok.1 hk
      simp only [Except.map, h _ _ _ (.last hp hm')]
  · intro t n m hh
    cases hh with
    | first e => exact .first e
    | payload e => exact .payload (hs.trans e)
    | last e e' =>
      have hp := hs.trans e
      exact .last hp ((hm _ hp).trans e')

/-! ### derivations as computations -/

/-- A computation of the last message. -/
def lastTree (salt kdfDomain : Bytes) (x : Life × Derivation) : Tree (HashType × Bytes) (Digest N) (Except Err Bytes) :=
  match x.1.first kdfDomain with
  | .error e => .done (.error e)
  | .ok m => .ask (.shake_128, m) fun a =>
    match absorbAll 168 (salt ++ cut 168 a.1) x.1.updates with
    | .error e => .done (.error e)
    | .ok p =>
      if x.2.output.size? = some 0 then .done (.error .type)
      else .ask (.shake_128, p) fun b =>
        .done (hashBytesInput (x.2.aad :: x.2.args) x.2.output.type.block (match x.2.output.type with | .sha3_256 => 32 | .sha3_512 => 64 | _ => 0) [0] x.2.output.size?
          (some (cut x.2.output.type.block b.1)))

/-- A computation of the key. -/
def deriveTree (salt kdfDomain : Bytes) (x : Life × Derivation) : Tree (HashType × Bytes) (Digest N) (Except Err Bytes) :=
  (lastTree salt kdfDomain x).bind fun
    | .error e => .done (.error e)
    | .ok m => .ask (x.2.output.type, m) fun a => .done (.ok (cut x.2.output.bytes a.1))

theorem lastTree_run (f : HashType × Bytes → Digest N) (salt kdfDomain : Bytes) (x : Life × Derivation) :
    (lastTree salt kdfDomain x).run f = lastOf (ofAnswers f) salt kdfDomain x := by
  unfold lastTree lastOf
  rw [state_eq]
  cases hm : x.1.first kdfDomain with
  | error e => rfl
  | ok m =>
    have e : ofAnswers f .shake_128 m 168 = cut 168 (f (.shake_128, m)).1 := rfl
    simp only [Tree.run, Except.bind, bind, e]
    cases absorbAll 168 (salt ++ cut 168 (f (.shake_128, m)).1) x.1.updates with
    | error e => rfl
    | ok p =>
      simp only
      by_cases h : x.2.output.size? = some 0
      · rw [if_pos h, if_pos h]; rfl
      · rw [if_neg h, if_neg h]; rfl

theorem deriveTree_run (f : HashType × Bytes → Digest N) (salt kdfDomain : Bytes) (x : Life × Derivation) :
    (deriveTree salt kdfDomain x).run f = derive (ofAnswers f) salt kdfDomain x.1 x.2 := by
  unfold deriveTree
  rw [run_bind, lastTree_run, derive_eq]
  cases lastOf (ofAnswers f) salt kdfDomain x <;> rfl

theorem lastTree_steps (salt kdfDomain : Bytes) (x : Life × Derivation) : (lastTree (N := N) salt kdfDomain x).Steps 2 := by
  unfold lastTree
  cases x.1.first kdfDomain with
  | error e => trivial
  | ok m =>
    intro a
    simp only
    cases absorbAll 168 (salt ++ cut 168 a.1) x.1.updates with
    | error e => trivial
    | ok p =>
      simp only
      split
      · trivial
      · intro b; trivial

theorem deriveTree_steps (salt kdfDomain : Bytes) (x : Life × Derivation) : (deriveTree (N := N) salt kdfDomain x).Steps 3 :=
  Steps.bind (m := 1) (fun r => by cases r with
    | error e => trivial
    | ok m => intro a; trivial) (lastTree_steps salt kdfDomain x)

/-- What is asked for the last message. -/
theorem lastTree_asked (f : HashType × Bytes → Digest N) (salt kdfDomain : Bytes) (x : Life × Derivation) (q : HashType × Bytes) :
    q ∈ (lastTree salt kdfDomain x).asked f ↔ (∃ m, x.1.first kdfDomain = .ok m ∧ q = (.shake_128, m)) ∨
      (∃ p, x.2.output.size? ≠ some 0 ∧ x.1.state (ofAnswers f) salt kdfDomain = .ok p ∧ q = (.shake_128, p)) := by
  unfold lastTree
  rw [state_eq]
  cases hm : x.1.first kdfDomain with
  | error e => simp [asked, Except.bind]
  | ok m =>
    simp only [asked, Except.bind, List.mem_cons]
    have e : (ofAnswers f .shake_128 m 168) = cut 168 (f (.shake_128, m)).1 := rfl
    rw [e]
    cases absorbAll 168 (salt ++ cut 168 (f (.shake_128, m)).1) x.1.updates with
    | error e => simp [asked]
    | ok p =>
      by_cases h : x.2.output.size? = some 0
      · simp [h, asked]
      · simp [h, asked]

theorem deriveTree_asked (f : HashType × Bytes → Digest N) (salt kdfDomain : Bytes) (x : Life × Derivation) (q : HashType × Bytes) :
    q ∈ (deriveTree salt kdfDomain x).asked f ↔ q ∈ (lastTree (N := N) salt kdfDomain x).asked f ∨ ∃ m, lastOf (ofAnswers f) salt kdfDomain x = .ok m ∧ q = (x.2.output.type, m) := by
  unfold deriveTree
  rw [asked_bind, lastTree_run, List.mem_append]
  refine or_congr_right ?_
  cases lastOf (ofAnswers f) salt kdfDomain x with
  | error e => simp [asked]
  | ok m => simp [asked]

theorem asked_hashes {f : HashType × Bytes → Digest N} {salt kdfDomain : Bytes} {x : Life × Derivation} {q : HashType × Bytes} (h : q ∈ (deriveTree salt kdfDomain x).asked f) :
    ∃ n, Hashes (ofAnswers f) salt kdfDomain x.1 x.2 q.1 n q.2 := by
  rcases (deriveTree_asked ..).1 h with h | ⟨m, hm, rfl⟩
  · rcases (lastTree_asked ..).1 h with ⟨m, hm, rfl⟩ | ⟨p, _, hp, rfl⟩
    · exact ⟨_, .first hm⟩
    · exact ⟨_, .payload hp⟩
  · obtain ⟨_, p, hp, hm'⟩ := lastOf_ok.1 hm
    exact ⟨_, .last hp hm'⟩

/-! ### what messages begin with -/

theorem first_prefix {l : Life} {kdfDomain m : Bytes} (h : l.first kdfDomain = .ok m) : ∃ r, m = l.key ++ r := by
  obtain ⟨_, _, rfl⟩ := first_iff.1 h
  unfold Passcrypt.keyed Passcrypt.rawKey
  exact ⟨_, by rw [List.append_assoc, List.append_assoc, List.append_assoc, List.append_assoc, List.append_assoc, List.append_assoc]⟩

theorem state_prefix {F : Functions} {salt kdfDomain p : Bytes} {l : Life} (h : l.state F salt kdfDomain = .ok p) : ∃ r, p = salt ++ r := by
  obtain ⟨m, _, hu⟩ := state_ok.1 h
  obtain ⟨t, ht, _⟩ := absorbAll_grows hu
  exact ⟨_, by rw [ht, List.append_assoc]⟩

theorem message_prefix {F : Functions} {p m : Bytes} {d : Derivation} (h : d.message F p = .ok m) : ∃ r, m = F .shake_128 p d.output.type.block ++ r := by
  obtain ⟨pre, packed, hk, _, _, rfl⟩ := hashBytesInput_ok.1 h
  have hb : 0 < d.output.type.block ∧ d.output.type.block < 256 ^ 8 := by cases d.output.type <;> decide
  obtain ⟨_, rfl⟩ := (Passcrypt.encodeKey_iff hb).1 hk
  unfold Passcrypt.keyed Passcrypt.rawKey
  exact ⟨_, by rw [List.append_assoc, List.append_assoc, List.append_assoc, List.append_assoc, List.append_assoc]⟩

/-- Two derivations have the same last message only if they are the same, or digests are. -/
theorem same_message {F : Functions} (hF : ∀ t x n, (F t x n).length = n) {salt kdfDomain m : Bytes} {x y : Life × Derivation} (hx : lastOf F salt kdfDomain x = .ok m) (hy : lastOf F salt kdfDomain y = .ok m)
    (ht : x.2.output.type = y.2.output.type) (sx : x.1.key.length + x.1.domain.length < 152) (sy : y.1.key.length + y.1.domain.length < 152) :
    x = y ∨ (∃ p p', x.1.state F salt kdfDomain = .ok p ∧ y.1.state F salt kdfDomain = .ok p' ∧ p ≠ p' ∧ F .shake_128 p x.2.output.type.block = F .shake_128 p' x.2.output.type.block) ∨
      ∃ w w', x.1.first kdfDomain = .ok w ∧ y.1.first kdfDomain = .ok w' ∧ w ≠ w' ∧ F .shake_128 w 168 = F .shake_128 w' 168 := by
  obtain ⟨zx, p, hp, hm⟩ := lastOf_ok.1 hx
  obtain ⟨zy, p', hp', hm'⟩ := lastOf_ok.1 hy
  obtain ⟨l, o, aad, args⟩ := x
  obtain ⟨l', o', aad', args'⟩ := y
  simp only at ht zx zy sx sy hp hp' hm hm'
  have hm'' : hashBytesInput (aad' :: args') o.type.block (hasher F o.type).digestSize [0] o'.size? (some (F .shake_128 p' o.type.block)) = .ok m := by
    rw [ht]; exact hm'
  obtain ⟨e1, _, e3, e4⟩ := C05_same_key_length_partial hm hm'' (by simp only [Option.map_some, hF])
  injection e1 with e1
  injection e4 with e4 e5
  have ho : o = o' := by
    revert ht zx zy e3
    cases o <;> cases o' <;> intro ht zx zy e3 <;> simp_all [Output.type, Output.size?, effectiveSize, hasher]
  subst ho
  simp only at e1 e4 e5
  subst e4 e5
  by_cases hpp : p = p'
  · subst hpp
    obtain ⟨w, hw, hu⟩ := state_ok.1 hp
    obtain ⟨w', hw', hu'⟩ := state_ok.1 hp'
    have hd : F .shake_128 w 168 = F .shake_128 w' 168 := by
      obtain ⟨t, ht, _⟩ := absorbAll_grows hu
      obtain ⟨t', ht', _⟩ := absorbAll_grows hu'
      rw [ht] at ht'
      simp only [List.append_assoc] at ht'
      exact (List.append_inj (List.append_cancel_left ht') (by rw [hF, hF])).1
    by_cases hww : w = w'
    · subst hww
      left
      have hus := C04_update_history_injective hu hu'
      have one : ∀ a : Bytes, a.length < 152 → keyBlocks 168 a = 1 := fun a ha => by
        unfold keyBlocks
        rw [Nat.div_eq_of_lt (by omega)]
      obtain ⟨e1, _, _, e4⟩ := C05_same_blocks_partial (by decide) hw hw' (by
        rw [Option.map_some, Option.map_some, one _ (by rw [List.length_append]; exact sx), one _ (by rw [List.length_append]; exact sy)])
      injection e1 with e1
      injection e4 with _ e4
      injection e4 with e4 e5
      obtain ⟨key, domain, data, us⟩ := l
      obtain ⟨key', domain', data', us'⟩ := l'
      simp only at e1 e4 e5 hus
      subst e4 e5 hus
      cases List.append_cancel_right e1
      rfl
    · exact .inr (.inr ⟨w, w', hw, hw', hww, hd⟩)
  · exact .inr (.inl ⟨p, p', hp, hp', hpp, e1⟩)

/-! ### the whole attack -/

/-- The derivations that are asked for. -/
def gameTree (a : Attack) (salt kdfDomain : Bytes) : Nat → Tree (HashType × Bytes) (Digest N) (List (Except Err Bytes))
  | 0 => .done []
  | n + 1 => (gameTree a salt kdfDomain n).bind fun seen => (deriveTree salt kdfDomain (a.ask seen)).map fun r => seen ++ [r]

/-- The whole attack, up to the last message for the last key. -/
def preTree (a : Attack) (salt kdfDomain : Bytes) (n : Nat) : Tree (HashType × Bytes) (Digest N) (List (Except Err Bytes) × Except Err Bytes) :=
  (gameTree a salt kdfDomain n).bind fun seen => (lastTree salt kdfDomain (a.target seen)).map fun r => (seen, r)

variable (a : Attack) (salt kdfDomain : Bytes)

theorem gameTree_run (f : HashType × Bytes → Digest N) : ∀ n, (gameTree a salt kdfDomain n).run f = a.seen (ofAnswers f) salt kdfDomain n
  | 0 => rfl
  | n + 1 => by
    simp only [gameTree, run_bind, run_map, gameTree_run f n, deriveTree_run, Attack.seen]

theorem gameTree_steps : ∀ n, (gameTree (N := N) a salt kdfDomain n).Steps (3 * n)
  | 0 => trivial
  | n + 1 => Steps.bind (m := 3) (fun _ => Steps.map (deriveTree_steps ..)) (gameTree_steps n)

theorem gameTree_asked (f : HashType × Bytes → Digest N) (q : HashType × Bytes) : ∀ n,
    q ∈ (gameTree a salt kdfDomain n).asked f ↔ ∃ i < n, q ∈ (deriveTree salt kdfDomain (a.ask (a.seen (ofAnswers f) salt kdfDomain i))).asked f
  | 0 => by simp [gameTree, asked]
  | n + 1 => by
    simp only [gameTree, asked_bind, asked_map, gameTree_run, List.mem_append, gameTree_asked f q n]
    constructor
    · rintro (⟨i, hi, h⟩ | h)
      · exact ⟨i, by omega, h⟩
      · exact ⟨n, by omega, h⟩
    · rintro ⟨i, hi, h⟩
      rcases Nat.lt_succ_iff_lt_or_eq.1 hi with hi | rfl
      · exact .inl ⟨i, hi, h⟩
      · exact .inr h

theorem preTree_run (f : HashType × Bytes → Digest N) (n : Nat) : (preTree a salt kdfDomain n).run f =
    (a.seen (ofAnswers f) salt kdfDomain n, lastOf (ofAnswers f) salt kdfDomain (a.target (a.seen (ofAnswers f) salt kdfDomain n))) := by
  simp only [preTree, run_bind, run_map, gameTree_run, lastTree_run]

theorem preTree_steps (n : Nat) : (preTree (N := N) a salt kdfDomain n).Steps (3 * n + 2) :=
  Steps.bind (m := 2) (fun _ => Steps.map (lastTree_steps ..)) (gameTree_steps a salt kdfDomain n)

theorem preTree_asked (f : HashType × Bytes → Digest N) (q : HashType × Bytes) (n : Nat) : q ∈ (preTree a salt kdfDomain n).asked f ↔
    (∃ i < n, q ∈ (deriveTree salt kdfDomain (a.ask (a.seen (ofAnswers f) salt kdfDomain i))).asked f) ∨
      q ∈ (lastTree salt kdfDomain (a.target (a.seen (ofAnswers f) salt kdfDomain n))).asked f := by
  simp only [preTree, asked_bind, asked_map, gameTree_run, List.mem_append, gameTree_asked]

variable {a salt kdfDomain}

theorem seen_length (F : Functions) : ∀ n, (a.seen F salt kdfDomain n).length = n
  | 0 => rfl
  | n + 1 => by rw [Attack.seen, List.length_append, seen_length F n]; rfl

theorem seen_take (F : Functions) {i : Nat} : ∀ {n : Nat}, i ≤ n → (a.seen F salt kdfDomain n).take i = a.seen F salt kdfDomain i
  | 0, h => by cases Nat.le_zero.1 h; rfl
  | n + 1, h => by
    rcases Nat.lt_or_ge n i with hi | hi
    · have : i = n + 1 := by omega
      subst this
      exact List.take_of_length_le (by rw [seen_length])
    · rw [Attack.seen, List.take_append_of_le_length (by rw [seen_length]; exact hi), seen_take F hi]

/-- A digest that begins as a key or the salt. -/
def Starts (s : Nat) (keys : Finset Bytes) (salt : Bytes) (x : Digest N) : Prop := ∃ k ∈ insert salt keys, x.1.take s = k.take s

/-- Two digests that begin with the same bytes. -/
def Meets (s : Nat) (x y : Digest N) : Prop := x.1.take s = y.1.take s

/-- The last message is one that was hashed before only if digests meet. -/
theorem repeat_bad {keys : Finset Bytes} (hN : 168 ≤ N) {s : Nat} (hs : s ≤ 72) (hsalt : s ≤ salt.length) (hkeys : ∀ k ∈ keys, s ≤ k.length) (hfair : a.Fair keys) (f : HashType × Bytes → Digest N) {n : Nat}
    {m : Bytes} (hnew : a.New n (a.seen (ofAnswers f) salt kdfDomain n)) (hm : lastOf (ofAnswers f) salt kdfDomain (a.target (a.seen (ofAnswers f) salt kdfDomain n)) = .ok m)
    (hq : ((a.target (a.seen (ofAnswers f) salt kdfDomain n)).2.output.type, m) ∈ (preTree a salt kdfDomain n).asked f) :
    Tree.BadOn (Starts s keys salt) (Meets s) {q | q ∈ (preTree a salt kdfDomain n).asked f} f := by
  generalize hseen : a.seen (ofAnswers f) salt kdfDomain n = seen at hnew hm hq
  obtain ⟨z, p, hp, hmsg⟩ := lastOf_ok.1 hm
  have hblock : ∀ t : HashType, 72 ≤ t.block ∧ t.block ≤ 168 := fun t => by cases t <;> decide
  have hcut : ∀ (t : HashType) (w : Bytes) (k : Nat), 72 ≤ k → k ≤ 168 → (ofAnswers f t w k).take s = (f (t, w)).1.take s := fun t w k h1 h2 => by
    unfold ofAnswers
    rw [cut_take (by rw [(f (t, w)).2]; omega), List.take_take, Nat.min_eq_left (by omega)]
  have hpin : (HashType.shake_128, p) ∈ (preTree a salt kdfDomain n).asked f := by
    rw [preTree_asked, hseen]
    exact .inr ((lastTree_asked ..).2 (.inr ⟨p, z, hp, rfl⟩))
  have hmp : m.take s = (f (.shake_128, p)).1.take s := by
    obtain ⟨r, rfl⟩ := message_prefix hmsg
    have := hblock (a.target seen).2.output.type
    rw [List.take_append_of_le_length (by rw [ofAnswers_length]; omega), hcut _ _ _ this.1 this.2]
  -- a message that begins with a key or the salt
  have start : ∀ k ∈ insert salt keys, ∀ r, m = k ++ r → Tree.BadOn (Starts s keys salt) (Meets s) {q | q ∈ (preTree a salt kdfDomain n).asked f} f := by
    intro k hk r e
    refine ⟨_, hpin, .inl ⟨k, hk, ?_⟩⟩
    rw [← hmp, e, List.take_append_of_le_length]
    rcases Finset.mem_insert.1 hk with rfl | hk
    · exact hsalt
    · exact hkeys k hk
  have last : ∀ x : Life × Derivation, x.1.key ∈ keys → ((a.target seen).2.output.type, m) ∈ (lastTree salt kdfDomain x).asked f →
      Tree.BadOn (Starts s keys salt) (Meets s) {q | q ∈ (preTree a salt kdfDomain n).asked f} f := by
    intro x hx h
    rcases (lastTree_asked ..).1 h with ⟨w, hw, e⟩ | ⟨p', _, hp', e⟩
    · obtain ⟨r, rfl⟩ := first_prefix hw
      exact start _ (Finset.mem_insert_of_mem hx) r (congrArg Prod.snd e)
    · obtain ⟨r, rfl⟩ := state_prefix hp'
      exact start _ (Finset.mem_insert_self ..) r (congrArg Prod.snd e)
  have hq' := hq
  rw [preTree_asked, hseen] at hq'
  rcases hq' with ⟨i, hi, h⟩ | h
  swap
  · exact last _ (hfair.last seen) h
  rcases (deriveTree_asked ..).1 h with h | ⟨m', hm', e⟩
  · exact last _ (hfair.key _) h
  obtain ⟨et, em⟩ := Prod.mk.inj e
  subst em
  have hne : a.ask (a.seen (ofAnswers f) salt kdfDomain i) ≠ a.target seen := by
    have := hnew i hi
    rwa [← hseen, seen_take _ hi.le, hseen] at this
  have hin : ∀ w, (HashType.shake_128, w) ∈ (lastTree salt kdfDomain (a.ask (a.seen (ofAnswers f) salt kdfDomain i))).asked f → (HashType.shake_128, w) ∈ (preTree a salt kdfDomain n).asked f := by
    intro w hw
    rw [preTree_asked]
    exact .inl ⟨i, hi, (deriveTree_asked ..).2 (.inl hw)⟩
  have hin' : ∀ w, (HashType.shake_128, w) ∈ (lastTree salt kdfDomain (a.target seen)).asked f → (HashType.shake_128, w) ∈ (preTree a salt kdfDomain n).asked f := by
    intro w hw
    rw [preTree_asked, hseen]
    exact .inr hw
  have z' := (lastOf_ok.1 hm').1
  rcases same_message (ofAnswers_length f) hm hm' et (hfair.lastSize _) (hfair.size _) with e | ⟨p₁, p₂, h1, h2, hne', he⟩ | ⟨w₁, w₂, h1, h2, hne', he⟩
  · exact absurd e.symm hne
  · refine ⟨_, hin' p₁ ((lastTree_asked ..).2 (.inr ⟨p₁, z, h1, rfl⟩)), .inr ⟨_, hin p₂ ((lastTree_asked ..).2 (.inr ⟨p₂, z', h2, rfl⟩)), fun e => hne' (congrArg Prod.snd e), ?_⟩⟩
    have := hblock (a.target seen).2.output.type
    unfold Meets
    rw [← hcut _ p₁ _ this.1 this.2, ← hcut _ p₂ _ this.1 this.2, he]
  · refine ⟨_, hin' w₁ ((lastTree_asked ..).2 (.inl ⟨w₁, h1, rfl⟩)), .inr ⟨_, hin w₂ ((lastTree_asked ..).2 (.inl ⟨w₂, h2, rfl⟩)), fun e => hne' (congrArg Prod.snd e), ?_⟩⟩
    unfold Meets
    rw [← hcut _ w₁ 168 (by decide) (by decide), ← hcut _ w₂ 168 (by decide) (by decide), he]

end

end Aiootp.Kdf
