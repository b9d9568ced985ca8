import Verif.Lemmas.DatabaseNames

/-
The keys of the files of a database, if the hash function is drawn at random.
-/

namespace Aiootp.Database

open Cipher (Draws Sizes DualEnv DualSetup dualCipher)
open Secrecy

section
variable {B : Finset Bytes} {L : Nat}

open Classical in
theorem count_never {P : Hash B L → Prop} (h : ∀ G, ¬ P G) : count P = 0 := by
  unfold count
  exact Finset.card_eq_zero.2 (Finset.eq_empty_of_forall_notMem fun G hG => h G (Finset.mem_filter.1 hG).2)

open Classical in
/-- One digest is what the others make of it, where the others tell which. -/
theorem coordinate_chosen (q : Hash B L → B) (x : Hash B L → Bytes) (hq : ∀ G v, q (Function.update G (q G) v) = q G) (hx : ∀ G v, x (Function.update G (q G) v) = x G)
    {m : Nat} (hm : m ≤ L) : count (fun G : Hash B L => (G (q G)).1.take m = x G) * 256 ^ m ≤ total B L := by
  have hc : count (fun G : Hash B L => (G (q G)).1.take m = x G) = Fintype.card {G : Hash B L // (G (q G)).1.take m = x G} := by
    unfold count
    rw [Fintype.card_subtype]
    congr
  rw [hc, ← card_digest (K := m), ← Fintype.card_prod]
  let g : {G : Hash B L // (G (q G)).1.take m = x G} × Digest m → Hash B L := fun p =>
    Function.update (β := fun _ => Digest L) p.1.1 (q p.1.1)
      ⟨p.2.1 ++ (p.1.1 (q p.1.1)).1.drop m, by rw [List.length_append, p.2.2, List.length_drop, (p.1.1 (q p.1.1)).2]; omega⟩
  refine Fintype.card_le_of_injective g ?_
  rintro ⟨⟨G, hG⟩, u⟩ ⟨⟨G', hG'⟩, u'⟩ e
  simp only [g] at e
  have hqq : q G = q G' := by
    have := congrArg q e
    rwa [hq, hq] at this
  rw [← hqq] at e hG'
  have hv := congrArg Subtype.val (congrFun e (q G))
  simp only [Function.update_self] at hv
  obtain ⟨h1, h2⟩ := List.append_inj hv (u.2.trans u'.2.symm)
  have hoff : ∀ r, r ≠ q G → G r = G' r := fun r hr => by
    have := congrFun e r
    rwa [Function.update_of_ne hr, Function.update_of_ne hr] at this
  have hup : G' = Function.update G (q G) (G' (q G)) := by
    funext r
    by_cases hr : r = q G
    · subst hr; rw [Function.update_self]
    · rw [Function.update_of_ne hr, hoff r hr]
  have hxx : x G = x G' := by
    have := hx G (G' (q G))
    rw [← hup] at this
    exact this.symm
  have hGq : G (q G) = G' (q G) := by
    refine Subtype.ext ?_
    rw [← List.take_append_drop m (G (q G)).1, ← List.take_append_drop m (G' (q G)).1, hG, hG', hxx, h2]
  have hGG : G = G' := by
    funext r
    by_cases hr : r = q G
    · subst hr; exact hGq
    · exact hoff r hr
  subst hGG
  exact Prod.ext rfl (Subtype.ext h1)

end

section
variable {J : Type} {B : Finset Bytes} {L : Nat} {K : KdfEnv} (hK : K.Shapes) (hL : 64 ≤ L) (known : Xof) {key salt : Bytes} (X : DualEnv) (dumps : J → Except Err Bytes)
  (loads : Bytes → Except Err J) (dumpManifest : Manifest → Bytes) (loadManifest : Bytes → Except Err Manifest)
  (hfirst : ∀ m, K.first key = .ok m → m ∉ B) (hroot : rootOf K known key ∉ B)
  {tags : Finset String} (hmt : ∀ t ∈ tags, ∃ m ∈ B, Use.message (K.rehash known) (rootOf K known key) (.filename salt t) = .ok m)
  (hmk : ∀ d : Bytes, d.length = 24 → ∃ m ∈ B, Use.message (K.rehash known) (rootOf K known key) (.cipherKey salt (encodeFilename d) []) = .ok m)

/-- Two tags whose files have the same key. -/
def KeysMeet (R : Env Draws J) (tags : Finset String) (key salt : Bytes) : Prop :=
  ∃ t ∈ tags, ∃ u ∈ tags, t ≠ u ∧ R.fileKey key salt (R.fileName key salt t) = R.fileKey key salt (R.fileName key salt u)

include hK hL hfirst hroot hmt hmk

theorem keys_count : count (fun G : Hash B L => KeysMeet (realEnv (K.rehash (G.xof known)) X dumps loads dumpManifest loadManifest) tags key salt) * 256 ^ 24 ≤
    2 * (tags.card * tags.card) * total B L := by
  classical
  have env := fun G : Hash B L => drawn_env hK known (salt := salt) X dumps loads dumpManifest loadManifest hfirst hroot G
  have hsum : ∀ (P : String → Hash B L → Prop) (c : Nat), (∀ t ∈ tags, count (P t) * 256 ^ 24 ≤ c * total B L) → count (fun G => ∃ t ∈ tags, P t G) * 256 ^ 24 ≤ tags.card * c * total B L := by
    intro P c hP
    refine le_trans (Nat.mul_le_mul_right _ (count_exists tags P)) ?_
    rw [Finset.sum_mul, Nat.mul_assoc, ← Finset.sum_const_nat (s := tags) (f := fun _ => c * total B L) (m := c * total B L) fun _ _ => rfl]
    exact Finset.sum_le_sum hP
  choose! mt hmt et using hmt
  choose! mk hmk ek using hmk
  have name : ∀ (G : Hash B L), ∀ t ∈ tags, (realEnv (K.rehash (G.xof known)) X dumps loads dumpManifest loadManifest).fileName key salt t = encodeFilename ((G.xof known).digest (mt t) 24) :=
    fun G t ht => (env G).2.2.1 t _ (et t ht)
  have fkey : ∀ (G : Hash B L) (d : Bytes), d.length = 24 → (realEnv (K.rehash (G.xof known)) X dumps loads dumpManifest loadManifest).fileKey key salt (encodeFilename d) = (G.xof known).digest (mk d) 64 :=
    fun G d hd => by rw [(env G).2.2.2, ek d hd]; rfl
  have one : ∀ t ∈ tags, ∀ u ∈ tags, count (fun G : Hash B L => t ≠ u ∧ (realEnv (K.rehash (G.xof known)) X dumps loads dumpManifest loadManifest).fileKey key salt
      ((realEnv (K.rehash (G.xof known)) X dumps loads dumpManifest loadManifest).fileName key salt t) = (realEnv (K.rehash (G.xof known)) X dumps loads dumpManifest loadManifest).fileKey key salt
      ((realEnv (K.rehash (G.xof known)) X dumps loads dumpManifest loadManifest).fileName key salt u)) * 256 ^ 24 ≤ 2 * total B L := by
    intro t ht u hu
    by_cases htu : t = u
    · have : count (fun G : Hash B L => t ≠ u ∧ (realEnv (K.rehash (G.xof known)) X dumps loads dumpManifest loadManifest).fileKey key salt
          ((realEnv (K.rehash (G.xof known)) X dumps loads dumpManifest loadManifest).fileName key salt t) = (realEnv (K.rehash (G.xof known)) X dumps loads dumpManifest loadManifest).fileKey key salt
          ((realEnv (K.rehash (G.xof known)) X dumps loads dumpManifest loadManifest).fileName key salt u)) = 0 := count_never fun G h => h.1 htu
      rw [this]
      omega
    have hmm : mt t ≠ mt u := fun e => by
      have h1 := et t ht
      rw [e] at h1
      have := C46_messages_differ _ _ h1 (et u hu)
      injection this with _ h
      exact htu h
    have keep : ∀ (G : Hash B L) (d : Bytes) (hd : d.length = 24) (v : Digest L), ∀ w ∈ tags,
        (Hash.xof known (Function.update G ⟨mk d, hmk d hd⟩ v)).digest (mt w) 24 = (G.xof known).digest (mt w) 24 := by
      intro G d hd v w hw
      refine update_digest known G _ v (fun e => ?_) 24
      have h1 := ek d hd
      rw [← show mt w = mk d from e] at h1
      cases C46_messages_differ _ _ h1 (et w hw)
    have same : count (fun G : Hash B L => (G ⟨mt t, hmt t ht⟩).1.take 24 = (G ⟨mt u, hmt u hu⟩).1.take 24) * 256 ^ 24 ≤ total B L :=
      coordinate ⟨mt t, hmt t ht⟩ (fun G => (G ⟨mt u, hmt u hu⟩).1.take 24) (fun G v => by
        have hne : (⟨mt u, hmt u hu⟩ : B) ≠ ⟨mt t, hmt t ht⟩ := fun e => hmm (congrArg Subtype.val e).symm
        simp only [Function.update_of_ne hne]) (by omega)
    have meet : count (fun G : Hash B L => (G ⟨mk ((Hash.xof known G).digest (mt t) 24), hmk _ (Xof.length_digest ..)⟩).1.take 64 =
        if (Hash.xof known G).digest (mt t) 24 = (Hash.xof known G).digest (mt u) 24 then [] else (Hash.xof known G).digest (mk ((Hash.xof known G).digest (mt u) 24)) 64) * 256 ^ 64 ≤ total B L := by
      refine coordinate_chosen (fun G => ⟨mk ((Hash.xof known G).digest (mt t) 24), hmk _ (Xof.length_digest ..)⟩)
        (fun G => if (Hash.xof known G).digest (mt t) 24 = (Hash.xof known G).digest (mt u) 24 then [] else (Hash.xof known G).digest (mk ((Hash.xof known G).digest (mt u) 24)) 64) (fun G v => ?_) (fun G v => ?_) hL
      · refine Subtype.ext ?_
        show mk _ = mk _
        rw [keep G _ (Xof.length_digest ..) v t ht]
      · show (if _ then [] else _) = if _ then [] else _
        rw [keep G _ (Xof.length_digest ..) v t ht, keep G _ (Xof.length_digest ..) v u hu]
        split
        · rfl
        · rename_i hne
          refine update_digest known G _ v (fun e => hne ?_) 64
          have h1 := ek ((Hash.xof known G).digest (mt u) 24) (Xof.length_digest ..)
          rw [show mk _ = mk _ from e] at h1
          have := C46_messages_differ _ _ h1 (ek ((Hash.xof known G).digest (mt t) 24) (Xof.length_digest ..))
          injection this with _ h
          exact (encodeFilename_inj (by rw [Xof.length_digest, Xof.length_digest]) h).symm
    have meet : count (fun G : Hash B L => (G ⟨mk ((Hash.xof known G).digest (mt t) 24), hmk _ (Xof.length_digest ..)⟩).1.take 64 =
        if (Hash.xof known G).digest (mt t) 24 = (Hash.xof known G).digest (mt u) 24 then [] else (Hash.xof known G).digest (mk ((Hash.xof known G).digest (mt u) 24)) 64) * 256 ^ 24 ≤ total B L :=
      le_trans (Nat.mul_le_mul_left _ (Nat.pow_le_pow_right (by decide) (by decide))) meet
    rw [Nat.two_mul]
    refine le_trans (Nat.mul_le_mul_right _ (le_trans (count_mono fun G hG => ?_) (count_or _ _))) (le_trans (le_of_eq (Nat.add_mul ..)) (Nat.add_le_add same meet))
    obtain ⟨_, hG⟩ := hG
    rw [name G t ht, name G u hu, fkey G _ (Xof.length_digest ..), fkey G _ (Xof.length_digest ..)] at hG
    by_cases hn : (Hash.xof known G).digest (mt t) 24 = (Hash.xof known G).digest (mt u) 24
    · rw [drawn_digest known G (hmt t ht) (by omega), drawn_digest known G (hmt u hu) (by omega)] at hn
      exact .inl hn
    · refine .inr ?_
      rw [if_neg hn, ← hG, drawn_digest known G (hmk _ (Xof.length_digest ..)) hL]
  have := hsum _ (tags.card * 2) fun t ht => hsum _ 2 fun u hu => one t ht u hu
  rw [show 2 * (tags.card * tags.card) = tags.card * (tags.card * 2) by ring]
  exact this

end

theorem total_pos {B : Finset Bytes} {L : Nat} : 0 < total B L := by
  classical
  unfold total
  exact Fintype.card_pos_iff.2 ⟨fun _ => ⟨List.replicate L 0, by simp⟩⟩

open Classical in
/-- A chance that is small but for a few of the first hash functions. -/
theorem chance_small {B D : Finset Bytes} {L N : Nat} {P : Hash B L → Hash D N → Prop} (bad : Hash B L → Prop) {c c' m m' : Nat}
    (h : ∀ G, ¬ bad G → count (P G) * 256 ^ m ≤ c * total D N) (hb : count bad * 256 ^ m' ≤ c' * total B L) : chance P ≤ c / 256 ^ m + c' / 256 ^ m' := by
  have hBq : (0 : ℚ) < total B L := by exact_mod_cast total_pos
  have hDq : (0 : ℚ) < total D N := by exact_mod_cast total_pos
  have h1 : ∑ G : Hash B L, (count (P G) : ℚ) ≤ ∑ G : Hash B L, ((c / 256 ^ m * total D N : ℚ) + if bad G then (total D N : ℚ) else 0) := by
    refine Finset.sum_le_sum fun G _ => ?_
    by_cases hg : bad G
    · rw [if_pos hg]
      have a1 : (count (P G) : ℚ) ≤ total D N := by exact_mod_cast count_le_total _
      have a2 : (0 : ℚ) ≤ c / 256 ^ m * total D N := by positivity
      linarith
    · rw [if_neg hg, add_zero, div_mul_eq_mul_div, le_div_iff₀ (by positivity)]
      exact_mod_cast h G hg
  have h2 : ∑ G : Hash B L, (if bad G then (total D N : ℚ) else 0) = count bad * total D N := by
    rw [← Finset.sum_filter, Finset.sum_const, nsmul_eq_mul]
    rfl
  have h4 : ∑ _G : Hash B L, (c / 256 ^ m * total D N : ℚ) = total B L * (c / 256 ^ m * total D N) := by
    rw [Finset.sum_const, nsmul_eq_mul]
    rfl
  have h3 : (count bad : ℚ) ≤ c' / 256 ^ m' * total B L := by
    rw [div_mul_eq_mul_div, le_div_iff₀ (by positivity)]
    exact_mod_cast hb
  rw [Finset.sum_add_distrib, h2, h4] at h1
  rw [chance_sum, Nat.cast_mul, div_le_iff₀ (mul_pos hBq hDq)]
  have h5 := mul_le_mul_of_nonneg_right h3 hDq.le
  calc _ ≤ _ := h1
    _ ≤ total B L * (c / 256 ^ m * total D N) + c' / 256 ^ m' * total B L * total D N := by linarith
    _ = _ := by ring

end Aiootp.Database
