import Verif.Lemmas.Forgery
import Verif.Lemmas.Requests
import Verif.Model.DatabaseKdf

/-
Attempts that are made when a program has had messages encrypted.
-/

namespace Aiootp.Secrecy

open Oracle Cipher

namespace Prog
variable {α β : Type}

/-- The requests that are made, with the messages. -/
def trace (encrypt : Request → Bytes) : Prog α → List (Request × Bytes)
  | ret _ => []
  | ask r next => (r, encrypt r) :: (next (encrypt r)).trace encrypt

theorem trace_bind (encrypt : Request → Bytes) (g : α → Prog β) : ∀ p : Prog α, (p.bind g).trace encrypt = p.trace encrypt ++ (g (p.exec encrypt)).trace encrypt
  | ret _ => rfl
  | ask r next => by
    show (r, encrypt r) :: ((next (encrypt r)).bind g).trace encrypt = _
    rw [trace_bind encrypt g (next (encrypt r))]
    rfl

theorem trace_asks {encrypt : Request → Bytes} : ∀ (p : Prog α) {x : Request × Bytes}, x ∈ p.trace encrypt → p.Asks x.1 ∧ x.2 = encrypt x.1
  | ret _, _, h => (List.not_mem_nil h).elim
  | ask r next, x, h => by
    rcases List.mem_cons.1 h with rfl | h
    · exact ⟨.inl rfl, rfl⟩
    · have := trace_asks (next (encrypt r)) h
      exact ⟨.inr ⟨_, this.1⟩, this.2⟩

theorem exec_congr {e e' : Request → Bytes} : ∀ (p : Prog α), (∀ x ∈ p.trace e, e' x.1 = e x.1) → p.exec e' = p.exec e
  | ret _, _ => rfl
  | ask r next, h => by
    have h1 : e' r = e r := h (r, e r) List.mem_cons_self
    show (next (e' r)).exec e' = (next (e r)).exec e
    rw [h1]
    exact exec_congr (next (e r)) fun x hx => h x (List.mem_cons_of_mem _ hx)

theorem exec_finite {ι : Type} {e : ι → Request → Bytes} : ∀ (p : Prog α), (∀ r, p.Asks r → ∃ S : Set Bytes, S.Finite ∧ ∀ x, e x r ∈ S) → {y | ∃ x, p.exec (e x) = y}.Finite
  | ret y, _ => (Set.finite_singleton y).subset (by rintro _ ⟨_, rfl⟩; rfl)
  | ask r next, h => by
    obtain ⟨S, hS, hm⟩ := h r (.inl rfl)
    refine (Set.Finite.biUnion hS fun m _ => exec_finite (e := e) (next m) fun r' hr' => h r' (.inr ⟨m, hr'⟩)).subset ?_
    rintro _ ⟨x, rfl⟩
    exact Set.mem_biUnion (hm x) ⟨x, rfl⟩

end Prog

section
variable {κ : Type} {F : Family κ} (L : Lawful F) {β : Type} {K : Nat}

/-- The message, or nothing. -/
def Family.message (F : Family κ) (x : Xof) (r : Request) : Bytes := Database.orElse ((F.at x).bytesEncrypt r.key r.draws r.salt r.aad r.data) []

/-- The attempt is not a message, and gets through. -/
def Gets (F : Family κ) (x : Xof) (p : Prog β) (forge : β → Attempt) : Prop :=
  (∀ y ∈ p.trace (F.message x), ¬ (y.2 = (forge (p.exec (F.message x))).data ∧ y.1.key = (forge (p.exec (F.message x))).key ∧ y.1.aad = (forge (p.exec (F.message x))).aad)) ∧
    Passes ((F.at x).bytesDecrypt (forge (p.exec (F.message x))).key (forge (p.exec (F.message x))).saltDraw (forge (p.exec (F.message x))).now (forge (p.exec (F.message x))).ttl
      (forge (p.exec (F.message x))).aad (forge (p.exec (F.message x))).data)

include L in
open Classical in
theorem gets_count (hK : 2 * F.E.cfg.shmacBlocksize ≤ K) (htag : F.E.cfg.shmacBytes ≤ F.E.cfg.shmacBlocksize) (htag0 : 0 < F.E.cfg.shmacBytes) {p : Prog β}
    (hask : ∀ r, p.Asks r → r.Valid F.E.cfg) {forge : β → Attempt} (hforge : ∀ y, (forge y).Valid F.E.cfg)
    (hl : ∀ r y, p.Asks r → r.key.length = (forge y).key.length ∨ ¬ r.key <+: (forge y).key ∧ ¬ (forge y).key <+: r.key) (known : Xof) :
    ∃ D0 : Finset Bytes, (∀ q ∈ D0, ∃ y w, q = F.E.shmacKdf.factory ++ (forge y).key ++ w) ∧ ∀ D, D0 ⊆ D →
      count (fun T : Hash D K => Gets F (T.xof known) p forge) * 256 ^ F.E.cfg.shmacBytes ≤ total D K := by
  have hfin := Prog.exec_finite (e := F.message) p fun r hr => by
    obtain ⟨n, hn⟩ := encrypt_length L (hask r hr)
    refine ⟨{l | l.length = n} ∪ {[]}, (List.finite_length_eq UInt8 n).union (Set.finite_singleton _), fun x => ?_⟩
    unfold Family.message
    cases hm : (F.at x).bytesEncrypt r.key r.draws r.salt r.aad r.data with
    | error e => exact .inr rfl
    | ok m => exact .inl (hn x m hm)
  have hfin2 : (⋃ y ∈ {y | ∃ x, p.exec (F.message x) = y}, finals L (forge y)).Finite := hfin.biUnion fun y _ => finals_finite L (forge y)
  refine ⟨hfin2.toFinset, fun q hq => ?_, fun D hD => ?_⟩
  · rw [Set.Finite.mem_toFinset] at hq
    simp only [Set.mem_iUnion] at hq
    obtain ⟨y, _, hq⟩ := hq
    obtain ⟨w, e⟩ := finals_key L known (hforge y) q hq
    exact ⟨y, w, e⟩
  have hi : 2 * F.E.cfg.shmacBlocksize - F.E.cfg.shmacBytes + F.E.cfg.shmacBytes ≤ K := by omega
  let view : Hash D K → Option (D × Digest F.E.cfg.shmacBytes) := fun T =>
    match target F (T.xof known) (forge (p.exec (F.message (T.xof known)))) with
    | none => none
    | some (q, v) => if h : q ∈ D ∧ v.length = F.E.cfg.shmacBytes then some (⟨q, h.1⟩, ⟨v, h.2⟩) else none
  refine count_tag hi _ view fun T hT => ?_
  obtain ⟨hnew, hpass⟩ := hT
  have hv := hforge (p.exec (F.message (T.xof known)))
  have u := L.usable (T.xof known)
  obtain ⟨hbad, hgood⟩ := tag_checked (L.sound (T.xof known)) u hv.key_ge hv.key_lt hv.saltDraw hv.aad (forge (p.exec (F.message (T.xof known)))).data
  cases hp : Ciphertext.parse F.E.cfg (forge (p.exec (F.message (T.xof known)))).data with
  | error e => exact absurd (hbad e hp _ _) hpass.2
  | ok parts =>
    obtain ⟨padded, q, hrec, hc⟩ := hgood parts hp
    have hshmac : parts.shmac = Shmac.tagOf (rehash F.E (T.xof known)) q := by
      by_contra hne
      exact hpass.1 ((hc _ _).1 hne)
    obtain ⟨⟨w, hq, hwl, _, _⟩, hsame⟩ := hashed_form L (T.xof known) hv hp hrec
    have hqD : q ∈ D := by
      refine hD ((Set.Finite.mem_toFinset hfin2).2 (Set.mem_biUnion (show p.exec (F.message (T.xof known)) ∈ {y | _} from ⟨_, rfl⟩) ?_))
      unfold finals
      rw [hp]
      exact ⟨w, hwl, hq.symm⟩
    obtain ⟨_, h1, _⟩ := (C25_parts (family_accepted L known) (forge (p.exec (F.message (T.xof known)))).data).1 parts hp
    refine ⟨⟨q, hqD⟩, ⟨parts.shmac, h1⟩, ?_, ?_, fun s => ?_⟩
    · simp only [view]
      simp only [target_some hp hrec]
      rw [dif_pos ⟨hqD, h1⟩]
    · simp only
      rw [hshmac]
      exact tag_piece hK htag htag0 known T ⟨q, hqD⟩
    · have hsb := (patch_same hi known T ⟨q, hqD⟩ s).mono (k' := F.E.cfg.shmacBlocksize) (by omega)
      have hexec : p.exec (F.message ((patch _ _ hi T ⟨q, hqD⟩ s).xof known)) = p.exec (F.message (T.xof known)) := by
        refine Prog.exec_congr p fun y hy => ?_
        obtain ⟨y1, y2⟩ := Prog.trace_asks p hy
        refine congrArg (Database.orElse · []) (encrypt_same L hsb (hask _ y1) hv (hl _ _ y1) hp hrec hshmac fun message hmess => ?_)
        have : y.2 = message := by
          rw [y2]
          unfold Family.message
          rw [hmess]
          rfl
        rw [← this]
        exact hnew y hy
      simp only [view]
      rw [hexec]
      simp only [target_some hp (hsame _ hsb)]
      rw [dif_pos ⟨hqD, h1⟩]

include L in
/-- Attempts that are made when programs have had messages encrypted. -/
theorem gets_many (hK : 2 * F.E.cfg.shmacBlocksize ≤ K) (htag : F.E.cfg.shmacBytes ≤ F.E.cfg.shmacBlocksize) (htag0 : 0 < F.E.cfg.shmacBytes) (known : Xof) :
    ∀ attempts : List (Prog β × (β → Attempt)), (∀ a ∈ attempts, ∀ r, a.1.Asks r → r.Valid F.E.cfg) → (∀ a ∈ attempts, ∀ y, (a.2 y).Valid F.E.cfg) →
      (∀ a ∈ attempts, ∀ r y, a.1.Asks r → r.key.length = (a.2 y).key.length ∨ ¬ r.key <+: (a.2 y).key ∧ ¬ (a.2 y).key <+: r.key) →
      ∃ D0 : Finset Bytes, (∀ q ∈ D0, ∃ a ∈ attempts, ∃ y w, q = F.E.shmacKdf.factory ++ (a.2 y).key ++ w) ∧ ∀ D, D0 ⊆ D →
        count (fun T : Hash D K => ∃ a ∈ attempts, Gets F (T.xof known) a.1 a.2) * 256 ^ F.E.cfg.shmacBytes ≤ attempts.length * total D K
  | [], _, _, _ => by
    classical
    refine ⟨∅, by simp, fun D _ => ?_⟩
    have : count (fun T : Hash D K => ∃ a ∈ ([] : List (Prog β × (β → Attempt))), Gets F (T.xof known) a.1 a.2) = 0 := by
      unfold count
      refine Finset.card_eq_zero.2 (Finset.eq_empty_of_forall_notMem fun T hT => ?_)
      simp at hT
    rw [this]
    simp
  | a :: l, h1, h2, h3 => by
    obtain ⟨D1, a1, b1⟩ := gets_count L hK htag htag0 (h1 a (by simp)) (h2 a (by simp)) (h3 a (by simp)) known
    obtain ⟨D2, a2, b2⟩ := gets_many hK htag htag0 known l (fun b hb => h1 b (by simp [hb])) (fun b hb => h2 b (by simp [hb])) (fun b hb => h3 b (by simp [hb]))
    refine ⟨D1 ∪ D2, fun q hq => ?_, fun D hD => ?_⟩
    · rcases Finset.mem_union.1 hq with hq | hq
      · obtain ⟨y, w, e⟩ := a1 q hq
        exact ⟨a, by simp, y, w, e⟩
      · obtain ⟨b, hb, y, w, e⟩ := a2 q hq
        exact ⟨b, by simp [hb], y, w, e⟩
    · have e1 := b1 D (Finset.union_subset_left hD)
      have e2 := b2 D (Finset.union_subset_right hD)
      have hmono := count_mono (P := fun T : Hash D K => ∃ b ∈ a :: l, Gets F (T.xof known) b.1 b.2)
        (Q := fun T => Gets F (T.xof known) a.1 a.2 ∨ ∃ b ∈ l, Gets F (T.xof known) b.1 b.2) (by
          rintro T ⟨b, hb, hs⟩
          rcases List.mem_cons.1 hb with rfl | hb
          · exact .inl hs
          · exact .inr ⟨b, hb, hs⟩)
      have hor := count_or (fun T : Hash D K => Gets F (T.xof known) a.1 a.2) (fun T => ∃ b ∈ l, Gets F (T.xof known) b.1 b.2)
      refine Nat.le_trans (Nat.mul_le_mul_right _ (Nat.le_trans hmono hor)) ?_
      rw [Nat.add_mul, List.length_cons, Nat.add_mul, Nat.one_mul, Nat.add_comm]
      exact Nat.add_le_add e2 e1

end

end Aiootp.Secrecy
