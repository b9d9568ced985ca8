import Verif.Lemmas.PasscryptFind
import Verif.Props.PasscryptGuess

/-
C113: a passphrase is not found from its hash but by trying candidates.
-/

namespace Aiootp.Passcrypt

open Secrecy (Digest)
open Kdf (share cut)
open Oracle (Tree)
open Oracle.Tree (ext many many_mono run_map asked_map)

/-- Whoever finds the passphrase has guessed it from a digest at the place of the tag. -/
theorem finds_att {K q n : Nat} {D : Finset Bytes} {known : Xof} {proofSalt domain M : Bytes} {t : Settings} {made : Int} {draw p aad ts : Bytes} {g : Guesser}
    (ho : Ordinary ⟨known, proofSalt, domain⟩ M t made draw p aad) (hts : Clock.makeTimestamp made 8 .big = .ok ts) {T : D → Digest K} (m₀ : Bytes)
    (h1 : (hashT (K := K) ⟨known, proofSalt, domain⟩ (spec M) t made draw p aad).AllIn (D : Set Bytes)) (h2 : ∀ u : Digest K, (g.attT M t ts draw q n u).AllIn (D : Set Bytes))
    (hf : g.Finds ⟨Secrecy.Hash.xof known T, proofSalt, domain⟩ M t made draw p aad K q n) :
    p ∈ (g.attT M t ts draw q n (ext T (tagM m₀ t.tagSize ((sessionsT ⟨known, proofSalt, domain⟩ (spec M) (coreSessions t draw p (ts ++ aad))).run (ext T))))).run (ext T) := by
  have hans : ∀ {α : Type} {s : Tree Bytes (Digest K) α}, s.AllIn (D : Set Bytes) → Answers (Secrecy.Hash.xof known T) (ext T) s := by
    intro α s hs x hx k
    have := Tree.asked_in (ext T) hs x hx
    have : x ∈ D := this
    simp only [Secrecy.Hash.xof, this, dite_true, ext, cut]
  obtain ⟨hash, hh, i, hi, hg⟩ := hf
  have e : hashT (K := K) ⟨known, proofSalt, domain⟩ (spec M) t made draw p aad = hashT ⟨Secrecy.Hash.xof known T, proofSalt, domain⟩ (spec M) t made draw p aad := by
    simp only [hashT, newT_env known (Secrecy.Hash.xof known T)]
  have r1 := run_hashT (E := ⟨Secrecy.Hash.xof known T, proofSalt, domain⟩) (e ▸ hans h1)
  rw [← e, (run_hash_tag ho hts (ext T) m₀).1, hh] at r1
  generalize hu : ext T (tagM m₀ t.tagSize ((sessionsT ⟨known, proofSalt, domain⟩ (spec M) (coreSessions t draw p (ts ++ aad))).run (ext T))) = u at r1 ⊢
  have h2u := h2 u
  unfold Guesser.attT at h2u ⊢
  simp only [r1] at h2u ⊢
  have a := answers_map.1 (hans h2u)
  rw [run_map, run_seenT a, List.mem_map]
  exact ⟨i, List.mem_range.2 hi, hg⟩

/-- **C113** Of the passphrases that someone may have chosen, each as likely as the others, and the hash functions: whoever is given the hash of the passphrase and all else that was hashed with it, hashes `q` inputs of
their choice and then makes `n` guesses, finds the passphrase for a share of at most `(q + n) / |W|`, but for `(2 q + 6 N) / 256^168`, where `N` is how often a call hashes. A digest rules out no more than one
candidate. -/
theorem C113_finds (K : Nat) (hK : 168 ≤ K) (proofSalt domain M : Bytes) (t : Settings) (made : Int) (draw aad : Bytes) (W : Finset Bytes) (hW : W.Nonempty) (known : Xof)
    (ho : ∀ p ∈ W, Ordinary ⟨known, proofSalt, domain⟩ M t made draw p aad) (g : Guesser) (q n : Nat) :
    ∃ D0 : Finset Bytes, ∀ D, D0 ⊆ D → share (fun w : W × Secrecy.Hash D K => g.Finds ⟨w.2.xof known, proofSalt, domain⟩ M t made draw w.1 aad K q n) ≤
      ((q + n : Nat) : ℚ) / W.card + ((2 * q + 6 * calls (coreBlocks t.mb t.cpu t.cores) t.cpu t.cores : Nat) : ℚ) / 256 ^ 168 := by
  classical
  obtain ⟨p₀, hp₀⟩ := hW
  obtain ⟨ts, hts⟩ := (Clock.C19_timestamp_round_trip made 8 .big).2.2 (ho p₀ hp₀).made
  have htl := ((Clock.C19_timestamp_round_trip made 8 .big).1 ts hts).1
  obtain ⟨D1, hD1⟩ := finite_trees (fun p => hashT (K := K) ⟨known, proofSalt, domain⟩ (spec M) t made draw p aad) W
  obtain ⟨D2, hD2⟩ := finite_trees (passcryptT (K := K) ⟨known, proofSalt, domain⟩ (spec M)) (W.biUnion fun p => (coreSessions t draw p (ts ++ aad)).toFinset)
  obtain ⟨D3, hD3⟩ := finite_trees (fun u : Digest K => g.attT M t ts draw q n u) Finset.univ
  refine ⟨D1 ∪ D2 ∪ D3, fun D hsub => ?_⟩
  have s1 : D1 ⊆ D := (Finset.subset_union_left.trans Finset.subset_union_left).trans hsub
  have s2 : D2 ⊆ D := (Finset.subset_union_right.trans Finset.subset_union_left).trans hsub
  have s3 : D3 ⊆ D := Finset.subset_union_right.trans hsub
  generalize hE : (⟨known, proofSalt, domain⟩ : Env) = E at *
  let m : Bytes → Bytes := fun p => sessionMessage E M (coreSession p draw (ts ++ aad) t.pepper t.mb t.cpu t.cores t.tagSize 0)
  generalize hNN : sessionSteps (spec M) (ceilTrueDiv t.mb t.cores) t.cpu = N
  have hcalls := sessionSteps_eq M t.mb t.cpu t.cores
  rw [hNN] at hcalls
  have hcores := (ho p₀ hp₀).cores
  have h3 : ∀ u : Digest K, (g.attT M t ts draw q n u).AllIn (D : Set Bytes) := fun u => (hD3 u (Finset.mem_univ _)).mono (Finset.coe_subset.2 s3)
  have one : ∀ p ∈ W, many (fun T : Secrecy.Hash D K => g.Finds ⟨T.xof known, proofSalt, domain⟩ M t made draw p aad K q n) * Fintype.card (Digest K) ≤
      ∑ u : Digest K, (many (fun T : D → Digest K => p ∈ (g.attT M t ts draw q n u).run (ext T)) + many (fun T : D → Digest K => m p ∈ (g.attT M t ts draw q n u).asked (ext T)) +
        (resultBound (t.cores - 1) N q + resultBound (t.cores - 1) N 0) * Fintype.card (D → Digest K)) := by
    intro p hp
    have h1 : (hashT (K := K) E (spec M) t made draw p aad).AllIn (D : Set Bytes) := (hD1 p hp).mono (Finset.coe_subset.2 s1)
    obtain ⟨s₀, rest, hc, hs₀, hl, hN, hne⟩ := coreSessions_facts (ho p hp) htl
    rw [hNN] at hN
    have hlen : rest.length = t.cores - 1 := by omega
    have hmp : m p = sessionMessage E M s₀ := by rw [hs₀]
    rw [← hlen, hmp]
    rw [← hE] at hN hne ⊢
    refine le_trans (mul_le_mul_of_nonneg_right (many_mono fun T hf => ?_) (by positivity))
      (many_finds (K := K) hK (ho p hp).tagSize.2 (by simp only [List.length_cons]; omega) hN hne (steps_attT g M t ts draw q n) h3 ?_ ?_ p)
    · rw [← hc]
      exact finds_att (hE ▸ ho p hp) hts _ (hE ▸ h1) h3 hf
    · intro s hs
      rw [hE]
      refine (hD2 s ?_).mono (Finset.coe_subset.2 s2)
      rw [Finset.mem_biUnion]
      exact ⟨p, hp, by rw [List.mem_toFinset, hc]; exact hs⟩
    · intro T
      have := (run_hash_tag (ho p hp) hts (ext T) (sessionMessage E M s₀)).2
      rw [hc] at this
      rw [hE]
      exact Tree.asked_in (ext T) h1 _ this
  have hA : (0 : ℚ) < Fintype.card (Digest K) := by exact_mod_cast Fintype.card_pos
  have hT : (0 : ℚ) < Fintype.card (Secrecy.Hash D K) := by exact_mod_cast Fintype.card_pos
  have hWp : (0 : ℚ) < W.card := by exact_mod_cast Finset.card_pos.2 ⟨p₀, hp₀⟩
  have hall : (∑ p ∈ W, many (fun T : Secrecy.Hash D K => g.Finds ⟨T.xof known, proofSalt, domain⟩ M t made draw p aad K q n)) * Fintype.card (Digest K) ≤
      (((n + q : Nat) : ℚ) + W.card * (resultBound (t.cores - 1) N q + resultBound (t.cores - 1) N 0)) * Fintype.card (D → Digest K) * Fintype.card (Digest K) := by
    rw [Finset.sum_mul]
    refine (Finset.sum_le_sum one).trans ?_
    rw [Finset.sum_comm]
    refine (Finset.sum_le_sum (g := fun _ => (((n + q : Nat) : ℚ) + W.card * (resultBound (t.cores - 1) N q + resultBound (t.cores - 1) N 0)) * Fintype.card (D → Digest K)) fun u _ => ?_).trans (le_of_eq ?_)
    · rw [Finset.sum_add_distrib, Finset.sum_add_distrib, Finset.sum_const, nsmul_eq_mul]
      have i1 := sum_many (D := D) (K := K) W id (fun x _ y _ e => e) (fun T => (g.attT M t ts draw q n u).run (ext T)) n (fun T => length_attT g M t ts draw q n u _)
      have i2 := sum_many (D := D) (K := K) W m (fun x _ y _ e => sessionMessage_passphrase (s := coreSession x draw (ts ++ aad) t.pepper t.mb t.cpu t.cores t.tagSize 0) (p' := y) e)
        (fun T => (g.attT M t ts draw q n u).asked (ext T)) q (fun T => Tree.asked_length _ (steps_attT g M t ts draw q n u))
      refine (add_le_add (add_le_add i1 i2) (le_refl _)).trans (le_of_eq ?_)
      push_cast
      ring
    · rw [Finset.sum_const, Finset.card_univ, nsmul_eq_mul]
      ring
  have hall := le_of_mul_le_mul_right hall hA
  have hshare : share (fun w : W × Secrecy.Hash D K => g.Finds ⟨w.2.xof known, proofSalt, domain⟩ M t made draw w.1 aad K q n) =
      (∑ p ∈ W, many (fun T : Secrecy.Hash D K => g.Finds ⟨T.xof known, proofSalt, domain⟩ M t made draw p aad K q n)) / (W.card * Fintype.card (Secrecy.Hash D K)) := by
    unfold share many
    rw [Fintype.card_prod, Fintype.card_coe]
    push_cast
    congr 1
    rw [← Finset.sum_coe_sort W]
    rw [← Nat.cast_sum]
    congr 1
    rw [← Finset.card_sigma]
    refine Finset.card_bij (fun x _ => ⟨x.1, x.2⟩) ?_ ?_ ?_
    · intro x hx
      simpa using hx
    · rintro ⟨a, b⟩ _ ⟨a', b'⟩ _ h
      simpa using h
    · rintro ⟨a, b⟩ h
      exact ⟨(a, b), by simpa using h, rfl⟩
  rw [hshare, div_le_iff₀ (by positivity)]
  have hb : resultBound (t.cores - 1) N q + resultBound (t.cores - 1) N 0 ≤ ((2 * q + 6 * calls (coreBlocks t.mb t.cpu t.cores) t.cpu t.cores : Nat) : ℚ) / 256 ^ 168 := by
    unfold resultBound
    rw [← add_div, ← Nat.cast_add]
    refine div_le_div_of_nonneg_right ?_ (by positivity)
    rw [← hcalls]
    obtain ⟨c, hc⟩ : ∃ c, t.cores = c + 1 := ⟨t.cores - 1, by omega⟩
    rw [hc, Nat.add_sub_cancel]
    have hN1 : 1 ≤ N := by rw [← hNN]; unfold sessionSteps; exact Nat.le_add_left 1 _
    have : c ≤ c * N := Nat.le_mul_of_pos_right _ hN1
    exact_mod_cast (by rw [Nat.add_mul, Nat.one_mul]; omega)
  calc _ ≤ _ := hall
    _ ≤ (((n + q : Nat) : ℚ) + W.card * (((2 * q + 6 * calls (coreBlocks t.mb t.cpu t.cores) t.cpu t.cores : Nat) : ℚ) / 256 ^ 168)) * Fintype.card (D → Digest K) := by gcongr
    _ = _ := by
      have : (Fintype.card (Secrecy.Hash D K) : ℚ) = Fintype.card (D → Digest K) := rfl
      rw [this]
      push_cast
      field_simp
      ring

/-- **C113** It cannot be better: a guesser who names `n` of the candidates finds those. -/
theorem C113_guesses (K q n : Nat) (E : Env) (M : Bytes) (t : Settings) (made : Int) (draw p aad : Bytes) (ho : Ordinary E M t made draw p aad) (names : Nat → Bytes) (h : ∃ i < n, names i = p) :
    (⟨fun _ _ => [], fun _ _ i => (names i, [])⟩ : Guesser).Finds E M t made draw p aad K q n := by
  obtain ⟨hash, hh⟩ := C48_hash_total ho
  exact ⟨hash, hh, h⟩

/-! ### samples -/

/-- A thousand passphrases: after a hundred digests and one guess, one of nine is found at most. -/
example (g : Guesser) (known : Xof) : ∃ D0 : Finset Bytes, ∀ D, D0 ⊆ D →
    share (fun w : ((Finset.range 1000).image fun i => List.replicate (12 + i) 97 : Finset Bytes) × Secrecy.Hash D 336 =>
      g.Finds ⟨w.2.xof known, [1, 2], [3]⟩ [4] sampleSettings 1000 [1, 2, 3, 4, 5, 6, 7, 8] w.1 [9] 336 100 1) ≤ 1 / 9 := by
  obtain ⟨D0, h⟩ := C113_finds 336 (by decide) [1, 2] [3] [4] sampleSettings 1000 [1, 2, 3, 4, 5, 6, 7, 8] [9] ((Finset.range 1000).image fun i => List.replicate (12 + i) 97)
    ⟨_, Finset.mem_image_of_mem _ (Finset.mem_range.2 (show 0 < 1000 by decide))⟩ known (by
      intro p hp
      obtain ⟨i, hi, rfl⟩ := Finset.mem_image.1 hp
      rw [Finset.mem_range] at hi
      constructor <;> simp [sampleSettings]
      omega) g 100 1
  refine ⟨D0, fun D hD => (h D hD).trans ?_⟩
  have e : calls (coreBlocks sampleSettings.mb sampleSettings.cpu sampleSettings.cores) sampleSettings.cpu sampleSettings.cores = 399465 := by decide
  have e2 : ((Finset.range 1000).image fun i => (List.replicate (12 + i) 97 : Bytes)).card = 1000 := by
    rw [Finset.card_image_of_injective _ (fun a b h => by simpa using congrArg List.length h), Finset.card_range]
  rw [e, e2]
  norm_num

end Aiootp.Passcrypt
