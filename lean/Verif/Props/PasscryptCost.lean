import Verif.Lemmas.PasscryptCost
import Verif.Props.PasscryptFind

/-
C114: each candidate for a passphrase costs the work of a whole call.
-/

namespace Aiootp.Passcrypt

open Secrecy (Digest)
open Kdf (share cut)
open Oracle (Tree)
open Oracle.Tree (ext many many_mono run_map asked_map)

theorem coreWork_pos {mb cpu cores : Nat} (M : Bytes) (h : InRange (ceilTrueDiv mb cores) cpu) : 0 < coreWork mb cpu cores := by
  rw [← coreWork_eq M]
  obtain ⟨hR, _⟩ := rounds_spec (M := M) h.cpu
  have hsz := (C49_size (M := M) h).1
  have hmb := h.mb
  have hrows : 0 < rows (spec M) (ceilTrueDiv mb cores) cpu := by
    apply Nat.pos_of_ne_zero
    intro h0
    unfold totalSize at hsz
    rw [h0] at hsz
    omega
  exact Nat.mul_pos hR (by omega)

/-- **C114** As in C113, with a better bound: whoever hashes `q` inputs of their choice and then makes `n` guesses finds the passphrase for a share of at most `(q / w + n) / |W|`, but for
`(q² + N² q + 3 N) / 256^168`, where `N` is how often a call hashes at most, and `w` counts only the different inputs that a call hashes to overwrite the blocks of the memory of all cores. A candidate is ruled out only by the
work of a whole call: no part of the memory can be left out, and nothing that was hashed for one candidate or core is of use for another. -/
theorem C114_costs (K : Nat) (hK : 168 ≤ K) (proofSalt domain M : Bytes) (t : Settings) (made : Int) (draw aad : Bytes) (W : Finset Bytes) (hW : W.Nonempty) (known : Xof)
    (ho : ∀ p ∈ W, Ordinary ⟨known, proofSalt, domain⟩ M t made draw p aad) (g : Guesser) (q n : Nat) :
    ∃ D0 : Finset Bytes, ∀ D, D0 ⊆ D → share (fun w : W × Secrecy.Hash D K => g.Finds ⟨w.2.xof known, proofSalt, domain⟩ M t made draw w.1 aad K q n) ≤
      (q / ((t.cores * coreWork t.mb t.cpu t.cores : Nat) : ℚ) + n) / W.card +
      ((q ^ 2 + calls (coreBlocks t.mb t.cpu t.cores) t.cpu t.cores ^ 2 * q + 3 * calls (coreBlocks t.mb t.cpu t.cores) t.cpu t.cores : Nat) : ℚ) / 256 ^ 168 := by
  classical
  obtain ⟨p₀, hp₀⟩ := hW
  obtain ⟨ts, hts⟩ := (Clock.C19_timestamp_round_trip made 8 .big).2.2 (ho p₀ hp₀).made
  have htl := ((Clock.C19_timestamp_round_trip made 8 .big).1 ts hts).1
  obtain ⟨D1, hD1⟩ := finite_trees (fun p => hashT (K := K) ⟨known, proofSalt, domain⟩ (spec M) t made draw p aad) W
  obtain ⟨D2, hD2⟩ := finite_trees (passcryptT (K := K) ⟨known, proofSalt, domain⟩ (spec M)) (W.biUnion fun p => (coreSessions t draw p (ts ++ aad)).toFinset)
  obtain ⟨D3, hD3⟩ := finite_trees (fun u : Digest K => g.attT M t ts draw q n u) Finset.univ
  refine ⟨D1 ∪ D2 ∪ D3, fun D hsub => ?_⟩
  have s1 : D1 ⊆ D := (Finset.subset_union_left.trans Finset.subset_union_left).trans hsub
  have s2 : D2 ⊆ D := (Finset.subset_union_right.trans Finset.subset_union_left).trans hsub
  have s3 : D3 ⊆ D := Finset.subset_union_right.trans hsub
  have hs₀ := ordinary_spawnable (ho p₀ hp₀) htl
  have hcores := (ho p₀ hp₀).cores
  have hIn := (C49_cores (M := M) ⟨(ho p₀ hp₀).mb, hs₀.cpu⟩ hs₀.cores).1
  have hV := coreWork_pos M hIn
  generalize hE : (⟨known, proofSalt, domain⟩ : Env) = E at *
  have hsalt : E.proofSalt = proofSalt := by rw [← hE]
  let m : Bytes → Nat → Bytes := fun p i => sessionMessage E M (coreSession p draw (ts ++ aad) t.pepper t.mb t.cpu t.cores t.tagSize i)
  generalize hNN : sessionSteps (spec M) (ceilTrueDiv t.mb t.cores) t.cpu = N
  have hcalls := sessionSteps_eq M t.mb t.cpu t.cores
  rw [hNN] at hcalls
  let B : Nat := q * q + t.cores * (N * (q * (t.cores + (coreBlocks t.mb t.cpu t.cores + 1))))
  -- the candidates that were worked on
  let Y : Digest K → Bytes → (D → Digest K) → Prop := fun u p T =>
    ¬ Tree.BadOn (fun _ => False) (Meet 168) {x | x ∈ (g.attT M t ts draw q n u).asked (ext T)} (ext T) ∧
      ∀ i < t.cores, Covered (ext T) ((g.attT M t ts draw q n u).asked (ext T)) proofSalt (m p i) (coreWork t.mb t.cpu t.cores)
  have h3 : ∀ u : Digest K, (g.attT M t ts draw q n u).AllIn (D : Set Bytes) := fun u => (hD3 u (Finset.mem_univ _)).mono (Finset.coe_subset.2 s3)
  have one : ∀ p ∈ W, many (fun T : Secrecy.Hash D K => g.Finds ⟨T.xof known, proofSalt, domain⟩ M t made draw p aad K q n) * Fintype.card (Digest K) ≤
      ∑ u : Digest K, (many (fun T : D → Digest K => p ∈ (g.attT M t ts draw q n u).run (ext T)) + many (Y u p) + ((B : ℚ) / 256 ^ 168 + resultBound (t.cores - 1) N 0) * Fintype.card (D → Digest K)) := by
    intro p hp
    have h1 : (hashT (K := K) E (spec M) t made draw p aad).AllIn (D : Set Bytes) := (hD1 p hp).mono (Finset.coe_subset.2 s1)
    obtain ⟨s₀, rest, hc, hs₀, hl, hN, hne⟩ := coreSessions_facts (ho p hp) htl
    rw [hNN] at hN
    have hlen : rest.length = t.cores - 1 := by omega
    have hall : ∀ s ∈ s₀ :: rest, ∃ i < t.cores, s = coreSession p draw (ts ++ aad) t.pepper t.mb t.cpu t.cores t.tagSize i := by
      intro s hs
      rw [← hc] at hs
      obtain ⟨i, hi, rfl⟩ := List.mem_map.1 hs
      exact ⟨i, List.mem_range.1 hi, rfl⟩
    have hS : ∀ s ∈ s₀ :: rest, (passcryptT (K := K) E (spec M) s).AllIn (D : Set Bytes) := by
      intro s hs
      refine (hD2 s ?_).mono (Finset.coe_subset.2 s2)
      rw [Finset.mem_biUnion]
      exact ⟨p, hp, by rw [List.mem_toFinset, hc]; exact hs⟩
    have hG : ∀ T : D → Digest K, tagM (sessionMessage E M s₀) t.tagSize ((sessionsT E (spec M) (s₀ :: rest)).run (ext T)) ∈ D := by
      intro T
      have := (run_hash_tag (ho p hp) hts (ext T) (sessionMessage E M s₀)).2
      rw [hc] at this
      exact Tree.asked_in (ext T) h1 _ this
    have hN2 : ∀ s ∈ s₀ :: rest, InRange s.mb s.cpu ∧ Fits E M s ∧ s.mb = ceilTrueDiv t.mb t.cores ∧ s.cpu = t.cpu := by
      intro s hs
      obtain ⟨i, _, rfl⟩ := hall s hs
      exact ⟨(hN _ hs).1, (hN _ hs).2.1, rfl, rfl⟩
    have hr : resultBound rest.length N 0 = resultBound (t.cores - 1) N 0 := by rw [hlen]
    have hYmem : ∀ u, ∀ T : D → Digest K, (¬ Tree.BadOn (fun _ => False) (Meet 168) {x | x ∈ (g.attT M t ts draw q n u).asked (ext T)} (ext T) ∧
        ∀ s ∈ s₀ :: rest, Covered (ext T) ((g.attT M t ts draw q n u).asked (ext T)) proofSalt (sessionMessage E M s) (coreWork t.mb t.cpu t.cores)) → Y u p T := by
      rintro u T ⟨h1, h2⟩
      refine ⟨h1, fun i hi => h2 _ ?_⟩
      rw [← hc]
      exact List.mem_map.2 ⟨i, List.mem_range.2 hi, rfl⟩
    rw [← hr]
    subst hE
    have tagged := many_tagged (K := K) hK (ho p hp).tagSize.2 (by simp only [List.length_cons]; omega) hN hne (att := g.attT M t ts draw q n) hS hG p
    refine le_trans (mul_le_mul_of_nonneg_right (many_mono fun T hf => ?_) (by positivity)) (tagged.trans (Finset.sum_le_sum fun u _ => ?_))
    · rw [← hc]
      exact finds_att (ho p hp) hts _ h1 h3 hf
    · have asked := many_tag_asked (K := K) hK (ho p hp).tagSize.2 (by simp only [List.length_cons]; omega) hN2 hNN (steps_attT g M t ts draw q n u) (h3 u) hS (sessionMessage ⟨known, proofSalt, domain⟩ M s₀)
      rw [hl, coreWork_eq, total_blocks] at asked
      have asked := asked.trans (add_le_add (many_mono (hYmem u)) (le_refl _))
      have hB : ((q * q + t.cores * (N * (q * (t.cores + (coreBlocks t.mb t.cpu t.cores + 1)))) : Nat) : ℚ) = (B : ℚ) := rfl
      rw [hB] at asked
      rw [add_mul]
      linarith
  have hA : (0 : ℚ) < Fintype.card (Digest K) := by exact_mod_cast Fintype.card_pos
  have hT : (0 : ℚ) < Fintype.card (Secrecy.Hash D K) := by exact_mod_cast Fintype.card_pos
  have hWp : (0 : ℚ) < W.card := by exact_mod_cast Finset.card_pos.2 ⟨p₀, hp₀⟩
  have hCV : (0 : ℚ) < ((t.cores * coreWork t.mb t.cpu t.cores : Nat) : ℚ) := by exact_mod_cast Nat.mul_pos (by omega) hV
  have hY : ∀ u, ∑ p ∈ W, many (Y u p) ≤ q / ((t.cores * coreWork t.mb t.cpu t.cores : Nat) : ℚ) * Fintype.card (D → Digest K) := by
    intro u
    refine sum_many_le W (Y u) fun T P hP hall => ?_
    by_cases hPe : P.Nonempty
    swap
    · rw [Finset.not_nonempty_iff_eq_empty.1 hPe, Finset.card_empty, Nat.cast_zero]
      positivity
    obtain ⟨p₁, hp₁⟩ := hPe
    have hb := (hall p₁ hp₁).1
    have := count_covered (K := K) (q := q) (V := coreWork t.mb t.cpu t.cores) hK (Tree.asked_length _ (steps_attT g M t ts draw q n u)) hb (salt := proofSalt) (P ×ˢ Finset.range t.cores) (fun x => m x.1 x.2) (by
      rintro ⟨a, i⟩ hi ⟨b, j⟩ hj he
      rw [Finset.mem_product, Finset.mem_range] at hi hj
      have hc := hs₀.cores
      obtain ⟨rfl, rfl⟩ := core_message_inj hs₀.aad hs₀.pepper (by omega) (by omega) he
      rfl) (by
      rintro ⟨a, i⟩ hi
      rw [Finset.mem_product, Finset.mem_range] at hi
      exact (hall a hi.1).2 i hi.2)
    rw [Finset.card_product, Finset.card_range, Nat.mul_assoc] at this
    rw [le_div_iff₀ hCV]
    exact_mod_cast this
  have hall : (∑ p ∈ W, many (fun T : Secrecy.Hash D K => g.Finds ⟨T.xof known, proofSalt, domain⟩ M t made draw p aad K q n)) * Fintype.card (Digest K) ≤
      ((n + q / ((t.cores * coreWork t.mb t.cpu t.cores : Nat) : ℚ)) + W.card * ((B : ℚ) / 256 ^ 168 + resultBound (t.cores - 1) N 0)) * Fintype.card (D → Digest K) * Fintype.card (Digest K) := by
    rw [Finset.sum_mul]
    refine (Finset.sum_le_sum one).trans ?_
    rw [Finset.sum_comm]
    refine (Finset.sum_le_sum (g := fun _ => ((n + q / ((t.cores * coreWork t.mb t.cpu t.cores : Nat) : ℚ)) + W.card * ((B : ℚ) / 256 ^ 168 + resultBound (t.cores - 1) N 0)) * Fintype.card (D → Digest K)) fun u _ => ?_).trans (le_of_eq ?_)
    · rw [Finset.sum_add_distrib, Finset.sum_add_distrib, Finset.sum_const, nsmul_eq_mul]
      have i1 := sum_many (D := D) (K := K) W id (fun x _ y _ e => e) (fun T => (g.attT M t ts draw q n u).run (ext T)) n (fun T => length_attT g M t ts draw q n u _)
      refine (add_le_add (add_le_add i1 (hY u)) (le_refl _)).trans (le_of_eq ?_)
      ring
    · rw [Finset.sum_const, Finset.card_univ, nsmul_eq_mul]
      ring
  have hall := le_of_mul_le_mul_right hall hA
  have hshare : share (fun w : W × Secrecy.Hash D K => g.Finds ⟨w.2.xof known, proofSalt, domain⟩ M t made draw w.1 aad K q n) =
      (∑ p ∈ W, many (fun T : Secrecy.Hash D K => g.Finds ⟨T.xof known, proofSalt, domain⟩ M t made draw p aad K q n)) / (W.card * Fintype.card (Secrecy.Hash D K)) := by
    unfold share many
    rw [Fintype.card_prod, Fintype.card_coe]
    push_cast
    congr 1
    rw [← Finset.sum_coe_sort W]
    rw [← Nat.cast_sum]
    congr 1
    rw [← Finset.card_sigma]
    refine Finset.card_bij (fun x _ => ⟨x.1, x.2⟩) ?_ ?_ ?_
    · intro x hx
      simpa using hx
    · rintro ⟨a, b⟩ _ ⟨a', b'⟩ _ h
      simpa using h
    · rintro ⟨a, b⟩ h
      exact ⟨(a, b), by simpa using h, rfl⟩
  rw [hshare, div_le_iff₀ (by positivity)]
  generalize hC : calls (coreBlocks t.mb t.cpu t.cores) t.cpu t.cores = C at *
  have hb : (B : ℚ) / 256 ^ 168 + resultBound (t.cores - 1) N 0 ≤ ((q ^ 2 + C ^ 2 * q + 3 * C : Nat) : ℚ) / 256 ^ 168 := by
    unfold resultBound
    rw [← add_div, ← Nat.cast_add]
    refine div_le_div_of_nonneg_right ?_ (by positivity)
    have hlt : t.cores + (coreBlocks t.mb t.cpu t.cores + 1) ≤ C := by
      rw [← hC]
      unfold calls
      generalize coreBlocks t.mb t.cpu t.cores = b
      have e1 : t.cores * (b + 1) ≤ t.cores * (1 + (168 * b / (2 ^ 29 - 1) + 1) + b + (t.cpu + 2) + 1) - t.cores := by
        refine Nat.le_sub_of_add_le ?_
        rw [← Nat.mul_succ]
        exact Nat.mul_le_mul_left _ (by omega)
      have e2 : b + 1 ≤ t.cores * (b + 1) := Nat.le_mul_of_pos_left _ (by omega)
      have e3 : t.cores ≤ t.cores * (1 + (168 * b / (2 ^ 29 - 1) + 1) + b + (t.cpu + 2) + 1) := Nat.le_mul_of_pos_right _ (by omega)
      omega
    have hle : t.cores * N ≤ C := by omega
    have hBle : B ≤ q ^ 2 + C ^ 2 * q := by
      have e1 : t.cores * (N * (q * (t.cores + (coreBlocks t.mb t.cpu t.cores + 1)))) ≤ C * (q * C) := by
        rw [← Nat.mul_assoc]
        exact Nat.mul_le_mul hle (Nat.mul_le_mul_left _ hlt)
      have e2 : C * (q * C) = C ^ 2 * q := by ring
      have e3 : q ^ 2 = q * q := by ring
      simp only [B]
      omega
    obtain ⟨c, hc⟩ : ∃ c, t.cores = c + 1 := ⟨t.cores - 1, by omega⟩
    have hN1 : 1 ≤ N := by rw [← hNN]; unfold sessionSteps; exact Nat.le_add_left 1 _
    have h5 : c ≤ c * N := Nat.le_mul_of_pos_right _ hN1
    have h6 : c * N + N + 1 = C := by
      rw [← hcalls, hc, Nat.add_mul, Nat.one_mul]
    rw [hc, Nat.add_sub_cancel]
    exact_mod_cast (by omega)
  calc _ ≤ _ := hall
    _ ≤ ((n + q / ((t.cores * coreWork t.mb t.cpu t.cores : Nat) : ℚ)) + W.card * (((q ^ 2 + C ^ 2 * q + 3 * C : Nat) : ℚ) / 256 ^ 168)) * Fintype.card (D → Digest K) := by gcongr
    _ = _ := by
      have : (Fintype.card (Secrecy.Hash D K) : ℚ) = Fintype.card (D → Digest K) := rfl
      rw [this]
      generalize ((q ^ 2 + C ^ 2 * q + 3 * C : Nat) : ℚ) / 256 ^ 168 = b at *
      generalize (q : ℚ) / ((t.cores * coreWork t.mb t.cpu t.cores : Nat) : ℚ) = a at *
      field_simp
      ring

/-- **C114** The bound is what the work gives: someone who asks for the digests of `k` calls can try `k` candidates, for all hash functions. They find the passphrase if it is one of them, unless another has the same
hash. -/
theorem C114_enough (K : Nat) (proofSalt domain M : Bytes) (t : Settings) (hc : 1 ≤ t.cores) (made : Int) (draw aad : Bytes) (known : Xof) (names : List Bytes) : ∃ (g : Guesser) (D0 : Finset Bytes), ∀ D, D0 ⊆ D →
    ∀ T : Secrecy.Hash D K, ∀ p ∈ names, Ordinary ⟨T.xof known, proofSalt, domain⟩ M t made draw p aad →
      g.Finds ⟨T.xof known, proofSalt, domain⟩ M t made draw p aad K (names.length * calls (coreBlocks t.mb t.cpu t.cores) t.cpu t.cores) 1 ∨
      ∃ p' ∈ names, p' ≠ p ∧ hashPassphrase ⟨T.xof known, proofSalt, domain⟩ (spec M) t made draw p' aad = hashPassphrase ⟨T.xof known, proofSalt, domain⟩ (spec M) t made draw p aad := by
  classical
  obtain ⟨D0, hD0⟩ := finite_trees (fun p => hashT (K := K) ⟨known, proofSalt, domain⟩ (spec M) t made draw p aad) names.toFinset
  let tr : Bytes → Tree Bytes (Digest K) Bytes := fun hash => searchT ⟨known, proofSalt, domain⟩ (spec M) t made draw aad hash names
  refine ⟨Guesser.follows tr, D0, fun D hsub T p hp ho => ?_⟩
  have hin : ∀ p ∈ names, (hashT (K := K) ⟨known, proofSalt, domain⟩ (spec M) t made draw p aad).AllIn (D : Set Bytes) := fun p hp => (hD0 p (List.mem_toFinset.2 hp)).mono (Finset.coe_subset.2 hsub)
  have hans : ∀ {α : Type} {s : Tree Bytes (Digest K) α}, s.AllIn (D : Set Bytes) → Answers (T.xof known) (ext T) s := by
    intro α s hs x hx k
    have := Tree.asked_in (ext T) hs x hx
    have : x ∈ D := this
    simp only [Secrecy.Hash.xof, this, dite_true, ext, cut]
  have hrun : ∀ p ∈ names, (hashT ⟨known, proofSalt, domain⟩ (spec M) t made draw p aad).run (ext T) = hashPassphrase ⟨T.xof known, proofSalt, domain⟩ (spec M) t made draw p aad := by
    intro p hp
    have e : hashT (K := K) ⟨known, proofSalt, domain⟩ (spec M) t made draw p aad = hashT ⟨T.xof known, proofSalt, domain⟩ (spec M) t made draw p aad := by
      simp only [hashT, newT_env known (T.xof known)]
    rw [e]
    exact run_hashT (E := ⟨T.xof known, proofSalt, domain⟩) (e ▸ hans (hin p hp))
  obtain ⟨hash, hh⟩ := C48_hash_total ho
  have hX : ∀ x ∈ (D : Set Bytes), (T.xof known).digest x K = (ext T x).1 := by
    intro x hx
    have hx : x ∈ D := hx
    simp only [Secrecy.Hash.xof, hx, dite_true, ext]
    have hl := (T ⟨x, hx⟩).2
    rw [List.take_append_of_le_length (by omega), List.take_of_length_le (by omega)]
  have hg := follows_guess (K := K) (X := T.xof known) (f := ext T) hX (t := tr) (hash := hash) (allIn_searchT hin) (steps_searchT _ M t hc made draw aad hash names) 0
  obtain ⟨h1, h2⟩ := run_searchT (E := ⟨known, proofSalt, domain⟩) (c := spec M) (t := t) (made := made) (draw := draw) (aad := aad) (hash := hash) (ext T) (l := names) ⟨p, hp, by rw [hrun p hp, hh]⟩
  by_cases he : (tr hash).run (ext T) = p
  · exact .inl ⟨hash, hh, 0, Nat.one_pos, by rw [hg, he]⟩
  · refine .inr ⟨_, h1, he, ?_⟩
    rw [← hrun _ h1, h2, hh]

/-! ### samples -/

/-- A thousand passphrases, and settings for which a call hashes 399465 times at most: after as many digests as a hundred calls need, and one guess, one of nine is found at most. -/
example (g : Guesser) (known : Xof) : ∃ D0 : Finset Bytes, ∀ D, D0 ⊆ D →
    share (fun w : ((Finset.range 1000).image fun i => List.replicate (12 + i) 97 : Finset Bytes) × Secrecy.Hash D 336 =>
      g.Finds ⟨w.2.xof known, [1, 2], [3]⟩ [4] sampleSettings 1000 [1, 2, 3, 4, 5, 6, 7, 8] w.1 [9] 336 (100 * 399465) 1) ≤ 1 / 9 := by
  obtain ⟨D0, h⟩ := C114_costs 336 (by decide) [1, 2] [3] [4] sampleSettings 1000 [1, 2, 3, 4, 5, 6, 7, 8] [9] ((Finset.range 1000).image fun i => List.replicate (12 + i) 97)
    ⟨_, Finset.mem_image_of_mem _ (Finset.mem_range.2 (show 0 < 1000 by decide))⟩ known (by
      intro p hp
      obtain ⟨i, hi, rfl⟩ := Finset.mem_image.1 hp
      rw [Finset.mem_range] at hi
      constructor <;> simp [sampleSettings]
      omega) g (100 * 399465) 1
  refine ⟨D0, fun D hD => (h D hD).trans ?_⟩
  have e : calls (coreBlocks sampleSettings.mb sampleSettings.cpu sampleSettings.cores) sampleSettings.cpu sampleSettings.cores = 399465 := by decide
  have e1 : sampleSettings.cores * coreWork sampleSettings.mb sampleSettings.cpu sampleSettings.cores = 399457 := by decide
  have e2 : ((Finset.range 1000).image fun i => (List.replicate (12 + i) 97 : Bytes)).card = 1000 := by
    rw [Finset.card_image_of_injective _ (fun a b h => by simpa using congrArg List.length h), Finset.card_range]
  rw [e, e1, e2]
  norm_num

/-- Two passphrases can be tried. -/
example (known : Xof) : ∃ (g : Guesser) (D0 : Finset Bytes), ∀ D, D0 ⊆ D → ∀ T : Secrecy.Hash D 336,
    g.Finds ⟨T.xof known, [1, 2], [3]⟩ [4] sampleSettings 1000 [1, 2, 3, 4, 5, 6, 7, 8] (List.replicate 13 97) [9] 336 (2 * 399465) 1 ∨
    ∃ p' ∈ [List.replicate 12 97, List.replicate 13 97], p' ≠ List.replicate 13 97 ∧
      hashPassphrase ⟨T.xof known, [1, 2], [3]⟩ (spec [4]) sampleSettings 1000 [1, 2, 3, 4, 5, 6, 7, 8] p' [9] =
        hashPassphrase ⟨T.xof known, [1, 2], [3]⟩ (spec [4]) sampleSettings 1000 [1, 2, 3, 4, 5, 6, 7, 8] (List.replicate 13 97) [9] := by
  obtain ⟨g, D0, h⟩ := C114_enough 336 [1, 2] [3] [4] sampleSettings (by decide) 1000 [1, 2, 3, 4, 5, 6, 7, 8] [9] known [List.replicate 12 97, List.replicate 13 97]
  refine ⟨g, D0, fun D hD T => ?_⟩
  have e : calls (coreBlocks sampleSettings.mb sampleSettings.cpu sampleSettings.cores) sampleSettings.cpu sampleSettings.cores = 399465 := by decide
  have := h D hD T (List.replicate 13 97) (by simp) (by constructor <;> simp [sampleSettings])
  rwa [e] at this

end Aiootp.Passcrypt
