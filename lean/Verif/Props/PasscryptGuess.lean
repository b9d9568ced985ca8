import Verif.Lemmas.PasscryptGuess
import Verif.Props.KdfSecrecy

/-
C112: passphrases and aads that were not hashed are refused for all but few hash functions.
-/

namespace Aiootp.Passcrypt

open Secrecy (Digest)
open Kdf (share cut card_start)
open Oracle (Tree)
open Oracle.Tree (asked ext Agree many many_bad many_mono many_all)

instance (K : Nat) : Nonempty (Digest K) := ⟨⟨List.replicate K 0, List.length_replicate⟩⟩

/-- **C112** Whoever is given the hash of a passphrase, hashes `q` inputs of their choice and then makes `n` guesses, has a wrong guess accepted for at most `(q + (n + 1) N)² / 256^s` of the hash functions. `N` is how
often a call hashes, and `s` is the size of the tag, but at most 168. The passphrase and the pepper need not be secrets. -/
theorem C112_refuses (K s : Nat) (proofSalt domain M : Bytes) (t : Settings) (made : Int) (draw p aad : Bytes) (hs1 : s ≤ t.tagSize) (hs2 : s ≤ 168) (hK : s ≤ K) (g : Guesser) (q n : Nat) (known : Xof) :
    ∃ D0 : Finset Bytes, ∀ D, D0 ⊆ D → share (fun T : Secrecy.Hash D K => g.Wins ⟨T.xof known, proofSalt, domain⟩ M t made draw p aad K q n) ≤
      ((q + (n + 1) * calls (coreBlocks t.mb t.cpu t.cores) t.cpu t.cores : Nat) : ℚ) ^ 2 / 256 ^ s := by
  classical
  obtain ⟨D0, hD0⟩ := Tree.finite (gameT (K := K) g ⟨known, proofSalt, domain⟩ M t made draw p aad q n)
  refine ⟨D0, fun D hsub => ?_⟩
  by_cases hc : 1 ≤ t.cores
  swap
  · have : ∀ T : Secrecy.Hash D K, ¬ g.Wins ⟨T.xof known, proofSalt, domain⟩ M t made draw p aad K q n := by
      rintro T ⟨hash, hh, _⟩
      obtain ⟨_, _, _, _, _, _, _, hi⟩ := hashPassphrase_ok hh
      exact hc ((C47_import (spec_wf M) _ _).1 hi).1.cores.1
    unfold share
    rw [Finset.filter_eq_empty_iff.2 fun T _ => this T]
    simp only [Finset.card_empty, Nat.cast_zero, zero_div]
    positivity
  generalize hN : q + (n + 1) * calls (coreBlocks t.mb t.cpu t.cores) t.cpu t.cores = N
  have hin : ∀ T : Secrecy.Hash D K, ∀ x ∈ (gameT (K := K) g ⟨known, proofSalt, domain⟩ M t made draw p aad q n).asked (ext T), x ∈ D := by
    intro T x hx
    exact hsub (Tree.asked_allIn (ext T) hD0 x hx)
  have hans : ∀ T : Secrecy.Hash D K, Answers (T.xof known) (ext T) (gameT (K := K) g ⟨known, proofSalt, domain⟩ M t made draw p aad q n) := by
    intro T x hx k
    have := hin T x hx
    simp only [Secrecy.Hash.xof, this, dite_true, ext, cut]
  have bad := many_bad (D := D) (A := Digest K) (P := fun _ => False) (R := Meet s) (fun _ _ h => h.symm) (ε := 1 / 256 ^ s) (δ := 0)
    (fun x => by
      refine le_trans (le_of_eq ?_) (card_start hK (x.1.take s) (by rw [List.length_take, x.2]; omega))
      congr 2
      refine Finset.filter_congr fun y _ => ?_
      unfold Meet
      exact eq_comm)
    (by simp)
    (gameT (K := K) g ⟨known, proofSalt, domain⟩ M t made draw p aad q n) ∅ (fun _ => Classical.arbitrary _) N (hN ▸ steps_gameT g _ M t hc made draw p aad q n)
    (by rintro ⟨x, hx, _⟩; exact absurd hx (by simp)) (fun T _ => hin T)
  have hall : ∀ T : Secrecy.Hash D K, Agree (∅ : Set Bytes) (fun _ => Classical.arbitrary (Digest K)) T := fun T x h => h.elim
  simp only [Finset.coe_empty, hall, true_and, many_all, Finset.notMem_empty, false_or, Finset.card_empty, Nat.cast_zero, zero_add, add_zero] at bad
  have hbad : ∀ T : Secrecy.Hash D K, g.Wins ⟨T.xof known, proofSalt, domain⟩ M t made draw p aad K q n →
      Tree.BadOn (fun _ => False) (Meet s) {x | x ∈ (gameT (K := K) g ⟨known, proofSalt, domain⟩ M t made draw p aad q n).asked (ext T)} (ext T) := by
    intro T hw
    have h := hans T
    rw [gameT_env known (T.xof known)] at h ⊢
    exact wins_bad (E := ⟨T.xof known, proofSalt, domain⟩) hs1 hs2 hK h hw
  have hle : many (fun T : Secrecy.Hash D K => g.Wins ⟨T.xof known, proofSalt, domain⟩ M t made draw p aad K q n) ≤ N * (N * (1 / 256 ^ s)) * Fintype.card (Secrecy.Hash D K) :=
    (many_mono fun T hw => hbad T hw).trans bad
  have hpos : (0 : ℚ) < Fintype.card (Secrecy.Hash D K) := by exact_mod_cast Fintype.card_pos
  unfold share
  rw [div_le_iff₀ hpos]
  refine le_trans (le_of_eq ?_) (hle.trans (le_of_eq ?_))
  · unfold many
    congr 2
  · ring

/-! ### samples -/

/-- Of a tag all that is known is that it is a digest, so that a hash function that is constant gives all passphrases the same hash. -/
theorem constant_hash {E : Env} {M : Bytes} {t : Settings} {made : Int} {draw p aad p' aad' hash hash' : Bytes} (hX : ∀ x y n, E.xof.digest x n = E.xof.digest y n)
    (h : hashPassphrase E (spec M) t made draw p aad = .ok hash) (h' : hashPassphrase E (spec M) t made draw p' aad' = .ok hash') : hash = hash' := by
  simp only [hashPassphrase, new, collect, bind_eq_ok] at h h'
  obtain ⟨_, _, ts, hts, tag, ⟨_, _, _, _, m, _, ht⟩, f, hf, he⟩ := h
  obtain ⟨_, _, ts', hts', tag', ⟨_, _, _, _, m', _, ht'⟩, f', hf', he'⟩ := h'
  rw [hts] at hts'
  injection hts' with e
  subst e
  injection ht with ht
  injection ht' with ht'
  have e : tag = tag' := by rw [← ht, ← ht', hX m m']
  subst e
  rw [hf] at hf'
  injection hf' with e
  subst e
  rw [he] at he'
  injection he'

/-- **C112** Some hash functions are bad: for the constant one every guess is accepted. -/
theorem C112_some_lose (K q : Nat) (proofSalt domain M : Bytes) (X : Xof) (hX : ∀ x y n, X.digest x n = X.digest y n) (t : Settings) (made : Int) (draw p p' aad : Bytes)
    (ho : Ordinary ⟨X, proofSalt, domain⟩ M t made draw p aad) (ho' : Ordinary ⟨X, proofSalt, domain⟩ M t made draw p' aad) (hne : p' ≠ p) :
    (⟨fun _ _ => [], fun _ _ _ => (p', aad)⟩ : Guesser).Wins ⟨X, proofSalt, domain⟩ M t made draw p aad K q 1 := by
  obtain ⟨hash, hh⟩ := C48_hash_total ho
  obtain ⟨hash', hh'⟩ := C48_hash_total ho'
  obtain rfl := constant_hash hX hh hh'
  exact ⟨hash, hh, 0, Nat.one_pos, p', aad, rfl, fun h => hne h.1, .inl rfl, made, none, fun _ => true, fun _ => true, fun _ => true, C48_accepts hh' (by simp) rfl rfl rfl⟩

/-- One core, 64 MiB, a tag of 24 bytes: with a million million digests and as many guesses, at most one in `10 ^ 21` hash functions accepts a wrong one. -/
example (g : Guesser) (known : Xof) : ∃ D0 : Finset Bytes, ∀ D, D0 ⊆ D →
    share (fun T : Secrecy.Hash D 336 => g.Wins ⟨T.xof known, [1, 2], [3]⟩ [4] sampleSettings 1000 [1, 2, 3, 4, 5, 6, 7, 8] (List.replicate 20 97) [9] 336 (10 ^ 12) (10 ^ 12)) ≤ 1 / 10 ^ 21 := by
  obtain ⟨D0, h⟩ := C112_refuses 336 24 [1, 2] [3] [4] sampleSettings 1000 [1, 2, 3, 4, 5, 6, 7, 8] (List.replicate 20 97) [9] (by decide) (by decide) (by decide) g (10 ^ 12) (10 ^ 12) known
  refine ⟨D0, fun D hD => (h D hD).trans ?_⟩
  have e : calls (coreBlocks sampleSettings.mb sampleSettings.cpu sampleSettings.cores) sampleSettings.cpu sampleSettings.cores = 399465 := by decide
  rw [e]
  norm_num

example : (⟨fun _ _ => [], fun _ _ _ => (List.replicate 21 97, [9])⟩ : Guesser).Wins ⟨⟨fun _ n => List.replicate n 0, fun _ _ => List.length_replicate⟩, [1, 2], [3]⟩ [4] sampleSettings 1000
    [1, 2, 3, 4, 5, 6, 7, 8] (List.replicate 20 97) [9] 336 0 1 := by
  refine C112_some_lose 336 0 [1, 2] [3] [4] _ (fun _ _ _ => rfl) _ _ _ _ _ _ ?_ ?_ (by decide)
  · constructor <;> simp [sampleSettings]
  · constructor <;> simp [sampleSettings]

end Aiootp.Passcrypt
