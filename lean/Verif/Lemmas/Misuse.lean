import Verif.Spec.Misuse
import Verif.Lemmas.SecrecyGame
import Verif.Lemmas.OracleMean

/-
Conversations in which sessions repeat. The first digest of a session is asked for once.
-/

namespace Aiootp.Secrecy

open Oracle Cipher Perm

variable {K : Nat} {ε : Type}

/-- What may have been asked: the first digests of sessions, and for each message so far what belongs to it. -/
def pastOf (part : Request → ε → Set Bytes) (P : Set Bytes) (hist : List (Request × ε)) : Set Bytes := P ∪ {q | ∃ e ∈ hist, q ∈ part e.1 e.2}

/-- What is known of messages in sessions that repeat. `mac r` is the question that begins the session, `after r a` what follows when its answer is `a`. -/
structure Reuse (c : Sizes) (mac : Request → Bytes) (after : Request → Digest K → HashTree K Bytes) (own : Request → Set Bytes) (part : Request → ε → Set Bytes)
    (twin : Request → Request → Prop) (δ : ℚ) : Prop where
  error : 0 ≤ δ
  within : ∀ {r}, r.Valid c → mac r ∈ own r ∧ ∀ a, (after r a).AllIn (own r)
  mac_eq : ∀ {r r'}, r.Valid c → r'.Valid c → twin r r' → mac r = mac r'
  same : ∀ {r r' a}, r.Valid c → r'.Valid c → twin r r' → Tree.Same (· = ·) (after r a) (after r' a)
  apart : ∀ {r r' e}, r.Valid c → r'.Valid c → r'.key.length = r.key.length → mac r ∉ part r' e
  turn : ∀ {r : Request} {a : Digest K} {hist : List (Request × ε)} {P : Set Bytes} {g : Bytes → HashTree K (List Bytes)} {B : ℚ}, r.Valid c →
    (∀ e ∈ hist, e.1.Valid c ∧ e.1.key.length = r.key.length ∧ e.1.stamp ≠ r.stamp) → mac r ∈ P →
    (∀ q ∈ P, ∃ r' : Request, r'.Valid c ∧ r'.key.length = r.key.length ∧ q = mac r') → 0 ≤ B →
    (∀ e x, (g x).dirty (pastOf part P ((r, e) :: hist)) ≤ B) → ((after r a).bind g).dirty (pastOf part P hist) ≤ hist.length * δ + B

open Classical in
/-- Messages one after the other, with the first digests of the sessions so far. -/
noncomputable def reuseGame (mac : Request → Bytes) (after : Request → Digest K → HashTree K Bytes) (ask : Chooser) : Nat → List Bytes → (Bytes → Option (Digest K)) → HashTree K (List Bytes)
  | 0, seen, _ => .done seen
  | n + 1, seen, known =>
    match known (mac (ask seen)) with
    | some a => (after (ask seen) a).bind fun message => reuseGame mac after ask n (seen ++ [message]) known
    | none => .ask (mac (ask seen)) fun a =>
      (after (ask seen) a).bind fun message => reuseGame mac after ask n (seen ++ [message]) (Function.update known (mac (ask seen)) (some a))

/-- How often questions may be asked again. -/
def reuseBound (δ : ℚ) : Nat → Nat → ℚ
  | 0, _ => 0
  | n + 1, i => i * δ + reuseBound δ n (i + 1)

theorem reuseBound_nonneg {δ : ℚ} (h : 0 ≤ δ) : ∀ n i, 0 ≤ reuseBound δ n i
  | 0, _ => le_refl _
  | n + 1, i => add_nonneg (mul_nonneg (by positivity) h) (reuseBound_nonneg h n (i + 1))

theorem reuseBound_eq (δ : ℚ) : ∀ n i, 2 * reuseBound δ n i = (n * (n - 1) + 2 * n * i) * δ
  | 0, i => by simp [reuseBound]
  | n + 1, i => by
    have := reuseBound_eq δ n (i + 1)
    simp only [reuseBound, mul_add, this]
    push_cast
    ring

section
variable {c : Sizes} {mac : Request → Bytes} {after : Request → Digest K → HashTree K Bytes} {own : Request → Set Bytes} {part : Request → ε → Set Bytes}
  {twin : Request → Request → Prop} {δ : ℚ} (H : Reuse c mac after own part twin δ) {ask ask' : Chooser} {n : Nat}

/-- A run that knows first digests already is one that asks for them. -/
theorem reuse_run (f : Bytes → Digest K) : ∀ (n : Nat) (seen : List Bytes) (known : Bytes → Option (Digest K)), (∀ s a, known s = some a → f s = a) →
    (reuseGame mac after ask n seen known).run f = (game (fun r => .ask (mac r) (after r)) ask n seen).run f
  | 0, _, _, _ => rfl
  | n + 1, seen, known, hk => by
    rw [reuseGame, game]
    cases h : known (mac (ask seen)) with
    | some a =>
      simp only [Tree.bind, Tree.run, Tree.run_bind]
      rw [hk _ _ h]
      exact reuse_run f n _ known hk
    | none =>
      simp only [Tree.bind, Tree.run, Tree.run_bind]
      refine reuse_run f n _ _ fun s a hs => ?_
      by_cases e : s = mac (ask seen)
      · subst e
        rw [Function.update_self] at hs
        exact Option.some.inj hs
      · rw [Function.update_of_ne e] at hs
        exact hk s a hs

include H

theorem Reuse.game_within (hv : ∀ seen, (ask seen).Valid c) : ∀ (k : Nat) (seen : List Bytes) (known : Bytes → Option (Digest K)),
    (reuseGame mac after ask k seen known).AllIn {q | ∃ h, q ∈ own (ask h)}
  | 0, _, _ => trivial
  | k + 1, seen, known => by
    have h1 : own (ask seen) ⊆ {q | ∃ h, q ∈ own (ask h)} := fun q hq => ⟨seen, hq⟩
    obtain ⟨w1, w2⟩ := H.within (hv seen)
    rw [reuseGame]
    cases h : known (mac (ask seen)) with
    | some a => exact Tree.AllIn.bind (fun m => Reuse.game_within hv k (seen ++ [m]) known) ((w2 a).mono h1)
    | none => exact ⟨h1 w1, fun a => Tree.AllIn.bind (fun m => Reuse.game_within hv k (seen ++ [m]) _) ((w2 a).mono h1)⟩

theorem Reuse.game_same (hv : ∀ seen, (ask seen).Valid c) (hv' : ∀ seen, (ask' seen).Valid c) (ht : ∀ seen, twin (ask seen) (ask' seen)) : ∀ (k : Nat) (seen : List Bytes)
    (known : Bytes → Option (Digest K)), Tree.Same (· = ·) (reuseGame mac after ask k seen known) (reuseGame mac after ask' k seen known)
  | 0, seen, _ => Tree.Same.done rfl
  | k + 1, seen, known => by
    rw [reuseGame, reuseGame, ← H.mac_eq (hv seen) (hv' seen) (ht seen)]
    cases h : known (mac (ask seen)) with
    | some a =>
      refine Tree.Same.bind (H.same (hv seen) (hv' seen) (ht seen)) ?_
      rintro x _ rfl
      exact Reuse.game_same hv hv' ht k _ known
    | none =>
      refine Tree.Same.ask fun a => Tree.Same.bind (H.same (hv seen) (hv' seen) (ht seen)) ?_
      rintro x _ rfl
      exact Reuse.game_same hv hv' ht k _ _

theorem Reuse.game_dirty (fair : ask.Stamped c n) : ∀ (k : Nat) (seen : List Bytes) (known : Bytes → Option (Digest K)) (hist : List (Request × ε)), hist.length = seen.length →
    seen.length + k ≤ n → (∀ e ∈ hist, ∃ h more, more ≠ [] ∧ h ++ more = seen ∧ e.1 = ask h) → (∀ s a, known s = some a → ∃ h, s = mac (ask h)) →
    (reuseGame mac after ask k seen known).dirty (pastOf part {s | ∃ a, known s = some a} hist) ≤ reuseBound δ k seen.length
  | 0, seen, known, hist, _, _, _, _ => by simp [reuseGame, Tree.dirty, reuseBound]
  | k + 1, seen, known, hist, hl, hk, hh, hs => by
    have old : ∀ e ∈ hist, e.1.Valid c ∧ e.1.key.length = (ask seen).key.length ∧ e.1.stamp ≠ (ask seen).stamp := by
      intro e he
      obtain ⟨h, more, hne, rfl, e1⟩ := hh e he
      rw [e1]
      exact ⟨fair.valid h, fair.size _ _, fair.stamp h more hne (by omega)⟩
    have next : ∀ (known' : Bytes → Option (Digest K)), (∀ s a, known' s = some a → ∃ h, s = mac (ask h)) → ∀ e x,
        (reuseGame mac after ask k (seen ++ [x]) known').dirty (pastOf part {s | ∃ a, known' s = some a} ((ask seen, e) :: hist)) ≤ reuseBound δ k (seen.length + 1) := by
      intro known' hs' e x
      have := Reuse.game_dirty fair k (seen ++ [x]) known' ((ask seen, e) :: hist) (by simp [hl]) (by simp; omega) (fun e' he' => ?_) hs'
      · rw [List.length_append, List.length_singleton] at this
        exact this
      · rcases List.mem_cons.1 he' with rfl | he'
        · exact ⟨seen, [x], by simp, rfl, rfl⟩
        · obtain ⟨h, more, hne, rfl, e1⟩ := hh e' he'
          exact ⟨h, more ++ [x], by simp, by simp, e1⟩
    have macs : ∀ (known' : Bytes → Option (Digest K)), (∀ s a, known' s = some a → ∃ h, s = mac (ask h)) → ∀ q ∈ {s | ∃ a, known' s = some a},
        ∃ r' : Request, r'.Valid c ∧ r'.key.length = (ask seen).key.length ∧ q = mac r' := by
      rintro known' hs' q ⟨a, ha⟩
      obtain ⟨h, rfl⟩ := hs' q a ha
      exact ⟨ask h, fair.valid h, fair.size _ _, rfl⟩
    have hB := reuseBound_nonneg H.error k (seen.length + 1)
    rw [reuseGame]
    simp only [reuseBound]
    rw [← hl]
    rw [hl.symm] at hB next
    cases h : known (mac (ask seen)) with
    | some a => exact H.turn (fair.valid seen) old ⟨a, h⟩ (macs known hs) hB (next known hs)
    | none =>
      have hnew : mac (ask seen) ∉ pastOf part {s | ∃ a, known s = some a} hist := by
        rintro (⟨a, ha⟩ | ⟨e, he, hq⟩)
        · rw [h] at ha; cases ha
        · obtain ⟨o1, o2, _⟩ := old e he
          exact H.apart (fair.valid seen) o1 o2 hq
      rw [Tree.dirty, if_neg hnew]
      refine Tree.avg_le fun a => ?_
      have hs' : ∀ s b, Function.update known (mac (ask seen)) (some a) s = some b → ∃ h, s = mac (ask h) := by
        intro s b hb
        by_cases e : s = mac (ask seen)
        · exact ⟨seen, e⟩
        · rw [Function.update_of_ne e] at hb
          exact hs s b hb
      have key := H.turn (a := a) (P := {s | ∃ b, Function.update known (mac (ask seen)) (some a) s = some b}) (fair.valid seen) old ⟨a, Function.update_self ..⟩ (macs _ hs') hB (next _ hs')
      refine (Tree.dirty_mono _ ?_).trans key
      rintro q (rfl | ⟨b, hb⟩ | hq)
      · exact .inl ⟨a, Function.update_self ..⟩
      · refine .inl ⟨b, ?_⟩
        rw [Function.update_of_ne]
        · exact hb
        · rintro rfl
          rw [h] at hb; cases hb
      · exact .inr hq

open Classical in
/-- The share of the hash functions that lead to messages which pass a test, up to the chance that a question repeats. -/
theorem Reuse.one (fair : ask.Stamped c n) : ∃ D0 : Finset Bytes, (∀ q ∈ D0, ∃ seen, q ∈ own (ask seen)) ∧ ∀ D, D0 ⊆ D → ∀ encrypt : Hash D K → Request → Except Err Bytes,
    (∀ T r, r.Valid c → (Tree.ask (mac r) (after r)).AllIn (D : Set Bytes) → encrypt T r = .ok ((Tree.ask (mac r) (after r)).run (Tree.ext T))) →
    (∀ T, ∃ messages, conversation (encrypt T) ask n [] = .ok messages) ∧ ∀ test : List Bytes → Prop,
      |(Secrecy.count (fun T : Hash D K => ∃ messages, conversation (encrypt T) ask n [] = .ok messages ∧ test messages) : ℚ) -
        ((reuseGame mac after ask n [] fun _ => none).mean fun x => if test x then 1 else 0) * total D K| ≤ reuseBound δ n 0 * total D K := by
  obtain ⟨D1, hD1⟩ := Tree.finite (reuseGame mac after ask n [] fun _ => none)
  obtain ⟨D2, hD2⟩ := Tree.finite (game (fun r => .ask (mac r) (after r)) ask n [])
  have w2 : ∀ (k : Nat) (seen : List Bytes), (game (fun r => .ask (mac r) (after r)) ask k seen).AllIn {q | ∃ h, q ∈ own (ask h)} := by
    intro k
    induction k with
    | zero => intro seen; trivial
    | succ k ih =>
      intro seen
      have h1 : own (ask seen) ⊆ {q | ∃ h, q ∈ own (ask h)} := fun q hq => ⟨seen, hq⟩
      obtain ⟨w1, w2⟩ := H.within (fair.valid seen)
      exact Tree.AllIn.bind (t := .ask (mac (ask seen)) (after (ask seen))) (fun m => ih (seen ++ [m])) ⟨h1 w1, fun a => (w2 a).mono h1⟩
  refine ⟨(D1 ∪ D2).filter fun q => ∃ h, q ∈ own (ask h), fun q hq => (Finset.mem_filter.1 hq).2, fun D hD encrypt he => ?_⟩
  have in1 : (reuseGame mac after ask n [] fun _ => none).AllIn (D : Set Bytes) := (hD1.inter (H.game_within fair.valid n [] _)).mono fun q hq =>
    Finset.mem_coe.2 (hD (Finset.mem_filter.2 ⟨Finset.mem_union_left _ (Finset.mem_coe.1 hq.1), hq.2⟩))
  have in2 : (game (fun r => .ask (mac r) (after r)) ask n []).AllIn (D : Set Bytes) := (hD2.inter (w2 n [])).mono fun q hq =>
    Finset.mem_coe.2 (hD (Finset.mem_filter.2 ⟨Finset.mem_union_right _ (Finset.mem_coe.1 hq.1), hq.2⟩))
  have hrun : ∀ T : Hash D K, conversation (encrypt T) ask n [] = .ok ((reuseGame mac after ask n [] fun _ => none).run (Tree.ext T)) := fun T => by
    rw [conversation_run fair.valid (he T) n [] in2, reuse_run _ n [] _ (fun s a h => by cases h)]
  refine ⟨fun T => ⟨_, hrun T⟩, fun test => ?_⟩
  have ht := Tree.card_test (D := D) test in1
  have hd := H.game_dirty fair n [] (fun _ => none) [] rfl (by simp) (by simp) (fun s a h => by cases h)
  have hd : (reuseGame mac after ask n [] fun _ => none).dirty ∅ ≤ reuseBound δ n 0 := (Tree.dirty_mono _ (Set.empty_subset _)).trans hd
  have hc : Secrecy.count (fun T : Hash D K => ∃ messages, conversation (encrypt T) ask n [] = .ok messages ∧ test messages) =
      (Finset.univ.filter fun T : D → Digest K => test ((reuseGame mac after ask n [] fun _ => none).run (Tree.ext T))).card := by
    unfold Secrecy.count
    congr 1
    ext T
    simp only [Finset.mem_filter, Finset.mem_univ, true_and]
    rw [hrun T]
    constructor
    · rintro ⟨m, e, h⟩
      rw [Except.ok.inj e]; exact h
    · exact fun h => ⟨_, rfl, h⟩
  rw [hc]
  refine ht.trans (mul_le_mul_of_nonneg_right hd (by positivity))

/-- Tests of the messages of two that choose alike. -/
theorem Reuse.two (fair : ask.Stamped c n) (fair' : ask'.Stamped c n) (ht : ∀ seen, twin (ask seen) (ask' seen)) :
    ∃ D0 : Finset Bytes, (∀ q ∈ D0, ∃ seen, q ∈ own (ask seen) ∨ q ∈ own (ask' seen)) ∧ ∀ D, D0 ⊆ D → ∀ encrypt : Hash D K → Request → Except Err Bytes,
    (∀ T r, r.Valid c → (Tree.ask (mac r) (after r)).AllIn (D : Set Bytes) → encrypt T r = .ok ((Tree.ask (mac r) (after r)).run (Tree.ext T))) →
    (∀ T, (∃ messages, conversation (encrypt T) ask n [] = .ok messages) ∧ ∃ messages, conversation (encrypt T) ask' n [] = .ok messages) ∧ ∀ test : List Bytes → Prop,
      |(Secrecy.count (fun T : Hash D K => ∃ messages, conversation (encrypt T) ask n [] = .ok messages ∧ test messages) : ℚ) -
        Secrecy.count (fun T : Hash D K => ∃ messages, conversation (encrypt T) ask' n [] = .ok messages ∧ test messages)| ≤ n * (n - 1) * δ * total D K := by
  obtain ⟨D1, a1, b1⟩ := H.one fair
  obtain ⟨D2, a2, b2⟩ := H.one fair'
  refine ⟨D1 ∪ D2, fun q hq => ?_, fun D hD encrypt he => ?_⟩
  · rcases Finset.mem_union.1 hq with hq | hq
    · obtain ⟨seen, h⟩ := a1 q hq
      exact ⟨seen, .inl h⟩
    · obtain ⟨seen, h⟩ := a2 q hq
      exact ⟨seen, .inr h⟩
  · obtain ⟨m1, e1⟩ := b1 D (Finset.union_subset_left hD) encrypt he
    obtain ⟨m2, e2⟩ := b2 D (Finset.union_subset_right hD) encrypt he
    refine ⟨fun T => ⟨m1 T, m2 T⟩, fun test => ?_⟩
    have e1 := e1 test
    have e2 := e2 test
    classical
    rw [H.game_same fair.valid fair'.valid ht n [] (fun _ => none) (fun x => if test x then 1 else 0) (fun x => if test x then 1 else 0) fun x x' e => by rw [e]] at e1
    have hb := reuseBound_eq δ n 0
    have h3 : (n * (n - 1) * δ * total D K : ℚ) = reuseBound δ n 0 * total D K + reuseBound δ n 0 * total D K := by
      have : (n * (n - 1) * δ : ℚ) = 2 * reuseBound δ n 0 := by rw [hb]; simp
      rw [this]; ring
    rw [h3]
    rw [abs_sub_comm] at e2
    refine (le_trans (le_of_eq ?_) (abs_add_le _ _)).trans (add_le_add e1 e2)
    congr 1
    ring

end

end Aiootp.Secrecy
