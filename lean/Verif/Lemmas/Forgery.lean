import Verif.Spec.Forgery
import Verif.Lemmas.SecrecyPermute
import Mathlib.Data.Set.Finite.List

/-
How many hash functions give a tag that was made up.
-/

namespace Aiootp.Secrecy

open Cipher Perm

variable {K : Nat}

/-! ### hash functions that are the same but for a piece of one digest -/

/-- The same digests, but for those of `q` that are longer than `k`. -/
def SameBut (x x' : Xof) (q : Bytes) (k : Nat) : Prop := ∀ m n, m ≠ q ∨ n ≤ k → x.digest m n = x'.digest m n

theorem SameBut.mono {x x' : Xof} {q : Bytes} {k k' : Nat} (h : SameBut x x' q k) (hk : k' ≤ k) : SameBut x x' q k' :=
  fun m n hmn => h m n (hmn.imp_right fun h => Nat.le_trans h hk)

/-- The hash function with another piece of the digest of `q`. -/
def patch {D : Finset Bytes} (i t : Nat) (h : i + t ≤ K) (T : Hash D K) (q : D) (v : Digest t) : Hash D K :=
  Function.update T q (splice i t h (T q) v)

theorem patch_same {D : Finset Bytes} {i t : Nat} (h : i + t ≤ K) (known : Xof) (T : Hash D K) (q : D) (v : Digest t) :
    SameBut (T.xof known) ((patch i t h T q v).xof known) q i := by
  intro m n hmn
  unfold Hash.xof
  simp only
  by_cases hm : m ∈ D
  · simp only [hm, dite_true]
    by_cases he : m = q
    · subst he
      rcases hmn with hmn | hmn
      · exact absurd rfl hmn
      · have h1 := (T q).2
        have h2 : patch i t h T q v ⟨q.1, hm⟩ = splice i t h (T q) v := by simp [patch]
        rw [h2]
        simp only [splice]
        rw [List.take_append_of_le_length (by show n ≤ (T q).1.length; omega), List.append_assoc, List.append_assoc,
          List.take_append_of_le_length (by rw [List.length_take]; omega), List.take_take, Nat.min_eq_left hmn]
    · have h2 : patch i t h T q v ⟨m, hm⟩ = T ⟨m, hm⟩ := by
        unfold patch
        exact Function.update_of_ne (fun e => he (congrArg Subtype.val e)) _ _
      rw [h2]
  · simp only [hm, dite_false]

theorem patch_patch {D : Finset Bytes} {i t : Nat} (h : i + t ≤ K) (T : Hash D K) (q : D) (v v' : Digest t) : patch i t h (patch i t h T q v) q v' = patch i t h T q v' := by
  simp only [patch, Function.update_self, splice_splice, Function.update_idem]

theorem patch_self {D : Finset Bytes} {i t : Nat} (h : i + t ≤ K) (T : Hash D K) (q : D) (v : Digest t) (hv : v.1 = piece i t (T q).1) : patch i t h T q v = T := by
  unfold patch
  rw [splice_piece h _ _ hv, Function.update_eq_self]

/-- A hash function that gives a tag `v` at `q`, where `v` and `q` do not depend on the tag: one in `256 ^ t`. -/
theorem count_tag {D : Finset Bytes} {i t : Nat} (h : i + t ≤ K) (acc : Hash D K → Prop) (view : Hash D K → Option (D × Digest t))
    (hacc : ∀ T, acc T → ∃ q v, view T = some (q, v) ∧ v.1 = piece i t (T q).1 ∧ ∀ s, view (patch i t h T q s) = some (q, v)) :
    count acc * 256 ^ t ≤ total D K := by
  classical
  unfold count total
  rw [← card_digest (K := t), ← Finset.card_univ (α := Digest t), ← Finset.card_univ (α := Hash D K), ← Finset.card_product]
  let f : Hash D K × Digest t → Hash D K := fun p => match view p.1 with
    | some (q, _) => patch i t h p.1 q p.2
    | none => p.1
  refine Finset.card_le_card_of_injOn f (fun _ _ => Finset.mem_univ _) ?_
  rintro ⟨T, s⟩ hT ⟨T', s'⟩ hT' e
  simp only [Finset.coe_product, Set.mem_prod, Finset.mem_coe, Finset.mem_filter, Finset.mem_univ, true_and, and_true] at hT hT'
  obtain ⟨q, v, h1, h2, h3⟩ := hacc T hT
  obtain ⟨q', v', h1', h2', h3'⟩ := hacc T' hT'
  simp only [f, h1, h1'] at e
  have e2 := h3 s
  rw [e, h3' s'] at e2
  cases e2
  have es : s = s' := by
    have := congrFun e q
    simp only [patch, Function.update_self] at this
    have := congrArg (fun a => piece i t a.1) this
    simp only [piece_splice] at this
    exact Subtype.ext this
  have eT : T = T' := by
    rw [← patch_self h T q v h2, ← patch_self h T' q v h2', ← patch_patch h T q s, e, patch_patch]
  rw [es, eT]

/-- If each hash function has such a `q`, there are as many as that. -/
theorem count_tag_ge {D : Finset Bytes} {i t : Nat} (h : i + t ≤ K) (acc : Hash D K → Prop) (q : Hash D K → D) (v : Digest t) (hq : ∀ T s, q (patch i t h T (q T) s) = q T)
    (hacc : ∀ T, v.1 = piece i t (T (q T)).1 → acc T) : total D K ≤ count acc * 256 ^ t := by
  classical
  unfold count total
  rw [← card_digest (K := t), ← Finset.card_univ (α := Digest t), ← Finset.card_univ (α := Hash D K), ← Finset.card_product]
  refine Finset.card_le_card_of_injOn (fun T => (patch i t h T (q T) v, ⟨piece i t (T (q T)).1, length_piece h _⟩)) ?_ ?_
  · intro T _
    simp only [Finset.coe_product, Set.mem_prod, Finset.mem_coe, Finset.mem_filter, Finset.mem_univ, true_and, and_true]
    refine hacc _ ?_
    rw [hq]
    simp only [patch, Function.update_self, piece_splice]
  · intro T _ T' _ e
    simp only [Prod.mk.injEq, Subtype.mk.injEq] at e
    obtain ⟨e1, e2⟩ := e
    have e3 : q T = q T' := by rw [← hq T v, e1, hq]
    rw [← patch_self h T (q T) ⟨piece i t (T (q T)).1, length_piece h _⟩ rfl, ← patch_self h T' (q T') ⟨piece i t (T' (q T')).1, length_piece h _⟩ rfl,
      ← patch_patch h T (q T) v, ← patch_patch h T' (q T') v, e1, e3]
    congr 1
    exact Subtype.ext (by rw [← e3]; rw [← e3] at e2; exact e2)

/-! ### ciphers with any hash function -/

/-- A cipher, up to its hash function. -/
structure Family (κ : Type) where
  E : Env
  configId : Nat
  sessionKdfs : Bytes → Bytes → Except Err κ
  turn : Xof → Shmac → κ → Bytes → Except Err (Bytes × Shmac × κ)

def Family.at {κ : Type} (F : Family κ) (x : Xof) : Cipher.Cipher κ where
  toEnv := rehash F.E x
  configId := F.configId
  sessionKdfs := F.sessionKdfs
  turn := F.turn x

/-- What is needed of it. -/
structure Lawful {κ : Type} (F : Family κ) where
  sound : ∀ x, Sound (F.at x)
  begun : κ → Bool
  width : Bool → Nat
  started_eq : ∀ x, (sound x).started = begun
  width_eq : ∀ x, (sound x).width = width
  fresh : Bool
  fresh_eq : ∀ x, (sound x).fresh = fresh
  wide : fresh = false → F.E.cfg.shmacBlocksize < width false
  usable : ∀ x, Usable (F.at x)
  same : ∀ {x x' : Xof} {q : Bytes}, SameBut x x' q F.E.cfg.shmacBlocksize → ∀ {g : Bool} {d : Direction} {m p c : Bytes} {perm : Chain} {k : κ} {b : Bytes},
    c.length = F.E.cfg.shmacBlocksize → b.length = F.E.cfg.blocksize → (begun k = false → ∀ w, w.length = F.E.cfg.shmacBlocksize → m ++ w ≠ q) →
    F.turn x (.live g d m p c perm) k b = F.turn x' (.live g d m p c perm) k b

theorem bind_congr_ok {α β : Type} {e : Except Err α} {f g : α → Except Err β} (h : ∀ a, e = .ok a → f a = g a) : (e >>= f) = (e >>= g) := by
  cases e with
  | error _ => rfl
  | ok a => exact h a rfl

/-- How many bytes are absorbed for `n` blocks. -/
def totalWidth (width : Bool → Nat) : Bool → Nat → Nat
  | _, 0 => 0
  | b, n + 1 => width b + totalWidth width true n

section
variable {κ : Type} {F : Family κ} (L : Lawful F)
include L

theorem run_same {x x' : Xof} {q : Bytes} (hs : SameBut x x' q F.E.cfg.shmacBlocksize) (d : Direction) (g : Bool) : ∀ (blocks : List Bytes) {m p c : Bytes} {perm : Chain} {k : κ},
    perm.WF → perm.size = F.configId → p.length = F.E.cfg.shmacBlocksize → c.length = F.E.cfg.shmacBlocksize → (∀ b ∈ blocks, b.length = F.E.cfg.blocksize) →
    (L.begun k = false → ∀ w, w.length = F.E.cfg.shmacBlocksize → m ++ w ≠ q) →
    (F.at x).run ⟨.live g d m p c perm, k⟩ blocks = (F.at x').run ⟨.live g d m p c perm, k⟩ blocks
  | [], _, _, _, _, _, _, _, _, _, _, _ => rfl
  | b :: bs, m, p, c, perm, k, hwf, hps, hp, hc, hb, hq => by
    have e : F.turn x (.live g d m p c perm) k b = F.turn x' (.live g d m p c perm) k b := L.same hs hc (hb b (by simp)) hq
    obtain ⟨P, X, w, k', _, _, _, _, hk', hd, h1, h2⟩ := (L.sound x).step d m p c perm k b hwf hps hp hc (hb b (by simp))
    rw [L.started_eq] at hk'
    have hrun : ∃ o, F.turn x (.live g d m p c perm) k b = .ok (o, .live g d (m ++ w) c (x.digest (m ++ w) F.E.cfg.shmacBlocksize) perm, k') := by
      cases d with
      | encryption => exact ⟨X, by rw [show b = P from hd]; exact h1 g⟩
      | decryption => exact ⟨P, by rw [show b = X from hd]; exact h2 g⟩
    obtain ⟨o, ho⟩ := hrun
    have ih := run_same hs d g bs (m := m ++ w) (p := c) (c := x.digest (m ++ w) F.E.cfg.shmacBlocksize) (perm := perm) (k := k') hwf hps hc (Xof.length_digest ..)
      (fun y hy => hb y (by simp [hy])) (by rw [hk']; intro h; cases h)
    simp only [Cipher.run]
    show (F.turn x _ k b >>= _) = (F.turn x' _ k b >>= _)
    rw [← e, ho]
    simp only [bind, Except.bind]
    rw [ih]

theorem start_same {x x' : Xof} {q : Bytes} {k : Nat} (hs : SameBut x x' q k) {key : Bytes} {b : SaltAADIV} {d : Direction}
    (hq : ∀ kdf summary mac, F.E.shmacKdf.keyed key = .ok kdf → b.summary = .ok summary → F.E.shmacKdf.newSessionCopy kdf summary = .ok mac → mac ≠ q) :
    (F.at x).startSession key b d = (F.at x').startSession key b d := by
  unfold Cipher.startSession
  refine bind_congr_ok fun _ _ => bind_congr_ok fun kdf h1 => bind_congr_ok fun summary h2 => bind_congr_ok fun mac h3 => bind_congr_ok fun keys _ => ?_
  have e : ∀ n, x.digest mac n = x'.digest mac n := fun n => hs mac n (.inl (hq kdf summary mac h1 h2 h3))
  have : Shmac.new (F.at x).toEnv (F.at x).configId mac (!b.ivIsFresh) = Shmac.new (F.at x').toEnv (F.at x').configId mac (!b.ivIsFresh) := by
    unfold Shmac.new
    simp only [Family.at, rehash, e]
  rw [this]

theorem run_width (x : Xof) : ∀ (xs : List Bytes) {g : Bool} {m p c : Bytes} {perm : Chain} {k : κ} {r : List Bytes} {s : Cipher.Cipher.Session κ},
    perm.WF → perm.size = F.configId → p.length = F.E.cfg.shmacBlocksize → c.length = F.E.cfg.shmacBlocksize → (∀ b ∈ xs, b.length = F.E.cfg.blocksize) →
    (F.at x).run ⟨.live g .decryption m p c perm, k⟩ xs = .ok (r, s) → ∃ w, s.shmac.mac = some (m ++ w) ∧ w.length = totalWidth L.width (L.begun k) xs.length
  | [], _, _, _, _, _, _, _, _, _, _, _, _, _, h => by
    cases h
    exact ⟨[], by simp [Shmac.live], rfl⟩
  | b :: bs, g, m, p, c, perm, k, r, s, hwf, hps, hp, hc, hb, h => by
    obtain ⟨P, X, w, k', _, _, hw, _, hk', hd, _, h2⟩ := (L.sound x).step .decryption m p c perm k b hwf hps hp hc (hb b (by simp))
    rw [L.started_eq] at hk'
    rw [L.started_eq, L.width_eq] at hw
    simp only at hd
    subst hd
    simp only [Cipher.run, h2, bind_eq_ok] at h
    obtain ⟨_, he, ⟨outs, s'⟩, hr, he2⟩ := h
    cases he; cases he2
    obtain ⟨w', h3, h4⟩ := run_width x bs hwf hps hc (Xof.length_digest ..) (fun y hy => hb y (by simp [hy])) hr
    refine ⟨w ++ w', by rw [h3, List.append_assoc], ?_⟩
    rw [List.length_append, hw, h4, hk']
    rfl

end

/-! ### attempts -/

/-- A request with the key, salt, aad and iv of an attempt. -/
def Attempt.request (c : Sizes) (a : Attempt) (parts : Ciphertext) : Request :=
  ⟨a.key, ⟨parts.salt, parts.iv, 0, List.replicate c.sivKeyBytes 0, List.replicate c.paddingFrame 0⟩, none, a.aad, []⟩

theorem Attempt.request_valid {c : Sizes} (hacc : Accepted c) {a : Attempt} (hv : a.Valid c) {parts : Ciphertext} (hp : Ciphertext.parse c a.data = .ok parts) :
    (a.request c parts).Valid c := by
  obtain ⟨_, _, h2, h3, _⟩ := (C25_parts hacc a.data).1 parts hp
  refine ⟨hv.key_ge, hv.key_lt, ⟨h2, h3, by simp [Attempt.request], by simp [Attempt.request], by simp [Attempt.request], ?_⟩, h2, hv.aad⟩
  simp only [Attempt.request]
  positivity

theorem usedSalt_eq (r : Request) : usedSalt r.salt r.draws.salt = r.usedSalt := by
  unfold usedSalt Request.usedSalt
  rcases r.salt with _ | (_ | ⟨b, bs⟩) <;> rfl

section
variable {κ : Type} {F : Family κ} (L : Lawful F)
include L

theorem family_kdf (x : Xof) : F.E.shmacKdf.WF :=
  have h := (L.usable x).env.kdf
  ⟨h.1, h.2, h.3⟩

theorem family_accepted (x : Xof) : Accepted F.E.cfg := (L.usable x).accepted

/-- The start of the session of a request. -/
theorem session_mac (x : Xof) {r : Request} (hv : r.Valid F.E.cfg) : ∀ kdf summary mac, F.E.shmacKdf.keyed r.key = .ok kdf →
    Canon.canonicalPack [r.usedSalt, r.aad, r.draws.iv] 1 [0] 4 = .ok summary → F.E.shmacKdf.newSessionCopy kdf summary = .ok mac → mac = sessionOf F.E.shmacKdf r := by
  intro kdf summary mac h1 h2 h3
  obtain ⟨summary', kdf', g1, g2, g3⟩ := sessionOf_ok (c := F.E.cfg) (k := F.E.shmacKdf) (family_kdf L x) (L.usable x).salt_lt (L.usable x).iv_lt hv
  rw [g1] at h2; cases h2
  rw [g2] at h1; cases h1
  rw [g3] at h3; cases h3
  rfl

theorem start_form (x : Xof) {r : Request} (hv : r.Valid F.E.cfg) : ∃ perm keys, perm.WF ∧ perm.size = F.configId ∧ L.begun keys = L.fresh ∧
    (firstDigest (rehash F.E x) F.configId (sessionOf F.E.shmacKdf r)).length = F.E.cfg.shmacBlocksize ∧
    (F.at x).startSession r.key ⟨r.usedSalt, r.aad, r.draws.iv, true⟩ .encryption = .ok ⟨.live false .encryption (sessionOf F.E.shmacKdf r)
      (firstDigest (rehash F.E x) F.configId (sessionOf F.E.shmacKdf r)) (firstDigest (rehash F.E x) F.configId (sessionOf F.E.shmacKdf r)) perm, keys⟩ ∧
    (F.at x).startSession r.key ⟨r.usedSalt, r.aad, r.draws.iv, false⟩ .decryption = .ok ⟨.live true .decryption (sessionOf F.E.shmacKdf r)
      (firstDigest (rehash F.E x) F.configId (sessionOf F.E.shmacKdf r)) (firstDigest (rehash F.E x) F.configId (sessionOf F.E.shmacKdf r)) perm, keys⟩ := by
  obtain ⟨summary, _, g1, _⟩ := sessionOf_ok (c := F.E.cfg) (k := F.E.shmacKdf) (family_kdf L x) (L.usable x).salt_lt (L.usable x).iv_lt hv
  obtain ⟨kdf, mac, perm, keys, h1, h2, h3, h4, h5, h6, h7, h8, _⟩ := startSession_ok (L.sound x) (L.usable x).env (show minKeyBytes ≤ r.key.length from hv.key_ge) hv.key_lt g1
  have e := session_mac L x hv kdf summary mac h1 g1 h2
  subst e
  rw [L.started_eq, L.fresh_eq] at h5
  exact ⟨perm, keys, h3, h4, h5, h6, h7, h8⟩

/-- What is hashed for the tag of an attempt. -/
theorem hashed_form (x : Xof) {a : Attempt} (hv : a.Valid F.E.cfg) {parts : Ciphertext} (hp : Ciphertext.parse F.E.cfg a.data = .ok parts) {padded q : Bytes}
    (h : recompute (F.at x) a.key parts.salt a.aad parts.iv parts.ciphertext = .ok (padded, q)) :
    (∃ w, q = sessionOf F.E.shmacKdf (a.request F.E.cfg parts) ++ w ∧ w.length = totalWidth L.width L.fresh (Text.batch F.E.cfg.blocksize parts.ciphertext).length ∧
      0 < w.length ∧ (L.fresh = false → F.E.cfg.shmacBlocksize < w.length)) ∧
    ∀ x', SameBut x x' q F.E.cfg.shmacBlocksize → recompute (F.at x') a.key parts.salt a.aad parts.iv parts.ciphertext = .ok (padded, q) := by
  have hacc := family_accepted L x
  obtain ⟨_, _, h2, h3, hpos, h5⟩ := (C25_parts hacc a.data).1 parts hp
  have hB := hacc.blocksize_pos
  have hvr := Attempt.request_valid hacc hv hp
  have hbl : ∀ b ∈ Text.batch F.E.cfg.blocksize parts.ciphertext, b.length = F.E.cfg.blocksize := batch_blocks_of_dvd hB h5
  obtain ⟨perm, keys, hwf, hps, hst, hfd, _, hd⟩ := start_form L x hvr
  have hd' : (F.at x).startSession a.key ⟨parts.salt, a.aad, parts.iv, false⟩ .decryption = _ := hd
  have hbne : 0 < (Text.batch F.E.cfg.blocksize parts.ciphertext).length := by
    rw [Text.batch_cons (by intro e; rw [e] at hpos; simp at hpos) hB]; simp
  unfold recompute at h
  rw [hd'] at h
  simp only [bind_eq_ok, pure, Except.pure, Except.ok.injEq, Prod.mk.injEq] at h
  obtain ⟨s, rfl, ⟨r, t⟩, hrun, m, hm, hpad, rfl⟩ := h
  obtain ⟨w, hw, hwl⟩ := run_width L x _ hwf hps hfd hfd hbl hrun
  rw [hst] at hwl
  have hq : m = sessionOf F.E.shmacKdf (a.request F.E.cfg parts) ++ w := by
    rw [hw] at hm; cases hm; rfl
  obtain ⟨n, hn⟩ : ∃ n, (Text.batch F.E.cfg.blocksize parts.ciphertext).length = n + 1 := ⟨_, (Nat.succ_pred_eq_of_pos hbne).symm⟩
  have hwide : 0 < w.length ∧ (L.fresh = false → F.E.cfg.shmacBlocksize < w.length) := by
    have := (L.sound x).width_pos L.fresh
    rw [L.width_eq] at this
    have hw2 := L.wide
    rw [hwl, hn]
    simp only [totalWidth]
    refine ⟨by omega, fun hf => ?_⟩
    have := hw2 hf
    rw [hf]
    omega
  refine ⟨⟨w, hq, hwl, hwide.1, hwide.2⟩, fun x' hs => ?_⟩
  have hne : sessionOf F.E.shmacKdf (a.request F.E.cfg parts) ≠ m := by
    intro e
    rw [hq] at e
    have := congrArg List.length e
    rw [List.length_append] at this
    omega
  have hstart : (F.at x).startSession a.key ⟨parts.salt, a.aad, parts.iv, false⟩ .decryption = (F.at x').startSession a.key ⟨parts.salt, a.aad, parts.iv, false⟩ .decryption :=
    start_same L hs fun kdf summary mac g1 g2 g3 => by
      rw [session_mac L x hvr kdf summary mac g1 g2 g3]
      exact hne
  have hrun' := run_same L hs .decryption true _ (m := sessionOf F.E.shmacKdf (a.request F.E.cfg parts)) (k := keys) hwf hps hfd hfd hbl (by
    rw [hst]
    intro hf v hv' e
    rw [hq, List.append_cancel_left_eq] at e
    have := hwide.2 hf
    rw [← e] at this
    omega)
  unfold recompute
  rw [← hstart, hd']
  simp only [bind_eq_ok, pure, Except.pure, Except.ok.injEq, Prod.mk.injEq]
  exact ⟨_, rfl, (r, t), hrun' ▸ hrun, m, hm, hpad, rfl⟩

/-- Messages do not depend on the tag of an attempt that is not one of them. -/
theorem encrypt_same {x x' : Xof} {q : Bytes} (hs : SameBut x x' q F.E.cfg.shmacBlocksize) {r : Request} (hr : r.Valid F.E.cfg) {a : Attempt} (hv : a.Valid F.E.cfg)
    (hl : r.key.length = a.key.length ∨ ¬ r.key <+: a.key ∧ ¬ a.key <+: r.key) {parts : Ciphertext} (hp : Ciphertext.parse F.E.cfg a.data = .ok parts) {padded : Bytes}
    (h : recompute (F.at x) a.key parts.salt a.aad parts.iv parts.ciphertext = .ok (padded, q)) (htag : parts.shmac = Shmac.tagOf (rehash F.E x) q)
    (hnew : ∀ message, (F.at x).bytesEncrypt r.key r.draws r.salt r.aad r.data = .ok message → ¬ (message = a.data ∧ r.key = a.key ∧ r.aad = a.aad)) :
    (F.at x').bytesEncrypt r.key r.draws r.salt r.aad r.data = (F.at x).bytesEncrypt r.key r.draws r.salt r.aad r.data := by
  have u := L.usable x
  have u' := L.usable x'
  have hacc := family_accepted L x
  have hB := hacc.blocksize_pos
  obtain ⟨he, h1, h2, h3, _, h5⟩ := (C25_parts hacc a.data).1 parts hp
  have hvr := Attempt.request_valid hacc hv hp
  obtain ⟨⟨w, hq, hwl, hw0, hw1⟩, _⟩ := hashed_form L x hv hp h
  have other : ¬ r.key.length = a.key.length → ∀ v, sessionOf F.E.shmacKdf r ++ v ≠ q := by
    intro hne v e
    obtain ⟨h1, h2⟩ := hl.resolve_left hne
    obtain ⟨w1, e1⟩ := sessionOf_key (family_kdf L x) u.salt_lt u.iv_lt hr
    obtain ⟨w2, e2⟩ := sessionOf_key (family_kdf L x) u.salt_lt u.iv_lt hvr
    rw [hq, e1, e2] at e
    simp only [List.append_assoc, List.append_cancel_left_eq] at e
    rcases List.append_eq_append_iff.1 e with ⟨b, hb, _⟩ | ⟨b, hb, _⟩
    · exact h1 ⟨b, hb.symm⟩
    · exact h2 ⟨b, hb.symm⟩
  have apart : ∀ v, (v = [] ∨ (L.fresh = false ∧ v.length = F.E.cfg.shmacBlocksize)) → sessionOf F.E.shmacKdf r ++ v ≠ q := by
    intro v hvv e
    have hl : r.key.length = a.key.length := Classical.byContradiction fun hne => other hne v e
    by_cases hn : r.nonce = (a.request F.E.cfg parts).nonce
    · have : sessionOf F.E.shmacKdf r = sessionOf F.E.shmacKdf (a.request F.E.cfg parts) := by
        simp only [Request.nonce, Prod.mk.injEq] at hn
        obtain ⟨n1, n2, n3, n4⟩ := hn
        unfold sessionOf
        rw [n1, n2, n3, n4]
      rw [hq, this, List.append_cancel_left_eq] at e
      subst e
      rcases hvv with rfl | ⟨hf, hlen⟩
      · simp at hw0
      · have := hw1 hf
        omega
    · exact sessions_apart (family_kdf L x) u.salt_lt u.iv_lt hr hvr hl hn v w (e.trans hq)
  obtain ⟨perm, keys, hwf, hps, hst, hfd, hstart, hdec⟩ := start_form L x hr
  have hstart' : (F.at x).startSession r.key ⟨r.usedSalt, r.aad, r.draws.iv, true⟩ .encryption = (F.at x').startSession r.key ⟨r.usedSalt, r.aad, r.draws.iv, true⟩ .encryption :=
    start_same L hs fun kdf summary mac g1 g2 g3 => by
      rw [session_mac L x hr kdf summary mac g1 g2 g3]
      have := apart [] (.inl rfl)
      rwa [List.append_nil] at this
  obtain ⟨pt, hpad, hpos, hdv⟩ := padPlaintext_blocks hacc hr.draws r.data
  have hbl : ∀ b ∈ Text.batch F.E.cfg.blocksize pt, b.length = F.E.cfg.blocksize := batch_blocks_of_dvd hB hdv
  have hrun := run_same L hs .encryption false (Text.batch F.E.cfg.blocksize pt) (m := sessionOf F.E.shmacKdf r) (k := keys) hwf hps hfd hfd hbl (by
    rw [hst]
    exact fun hf v hv' => apart v (.inr ⟨hf, hv'⟩))
  obtain ⟨Ps, Xs, v, p', c', k', _, g2, _, _, _, _, g7, g8, g9⟩ := run_lockstep (L.sound x) .encryption (Text.batch F.E.cfg.blocksize pt) (sessionOf F.E.shmacKdf r) _ _ perm keys hwf hps hfd hfd hbl
  simp only at g7
  subst g7
  have hsl : (usedSalt r.salt r.draws.salt).length = F.E.cfg.saltBytes := by rw [usedSalt_eq]; exact hr.salt
  have form : ∀ y, (F.at y).startSession r.key ⟨r.usedSalt, r.aad, r.draws.iv, true⟩ .encryption = (F.at x).startSession r.key ⟨r.usedSalt, r.aad, r.draws.iv, true⟩ .encryption →
      (∀ s, (F.at x).startSession r.key ⟨r.usedSalt, r.aad, r.draws.iv, true⟩ .encryption = .ok s →
        (F.at y).run s (Text.batch F.E.cfg.blocksize pt) = (F.at x).run s (Text.batch F.E.cfg.blocksize pt)) →
      (F.at y).bytesEncrypt r.key r.draws r.salt r.aad r.data =
        .ok (Shmac.tagOf (rehash F.E y) (sessionOf F.E.shmacKdf r ++ v) ++ r.usedSalt ++ r.draws.iv ++ Xs.flatten) := by
    intro y e1 e2
    unfold Cipher.bytesEncrypt
    have hnew : SaltAADIV.new (F.at y).cfg r.salt r.aad none r.draws.salt r.draws.iv = .ok ⟨r.usedSalt, r.aad, r.draws.iv, true⟩ := by
      have := SaltAADIV.new_fresh (c := F.E.cfg) (aad := r.aad) hsl hr.draws.iv
      rwa [usedSalt_eq] at this
    have hpad' : (F.at y).cfg.padPlaintext r.draws.reading r.draws.sivKey r.draws.extra r.data = .ok pt := hpad
    rw [hnew]
    simp only [bind, Except.bind]
    rw [e1, hstart]
    simp only [hpad']
    have hr' := (e2 _ hstart).trans (g8 false)
    rw [show (F.at y).cfg.blocksize = F.E.cfg.blocksize from rfl, hr']
    simp only [Shmac.finalize_live, pure, Except.pure]
    rfl
  have f1 := form x rfl fun _ _ => rfl
  have f2 := form x' hstart'.symm fun s hs' => by
    rw [hstart] at hs'
    cases hs'
    exact hrun.symm
  have hfinal : sessionOf F.E.shmacKdf r ++ v ≠ q := by
    intro e
    have hl : r.key.length = a.key.length := Classical.byContradiction fun hne => other hne v e
    have hrec : recompute (F.at x) r.key r.usedSalt r.aad r.draws.iv Xs.flatten = .ok ((Text.batch F.E.cfg.blocksize pt).flatten, q) := by
      unfold recompute
      have hb : Text.batch (F.at x).cfg.blocksize Xs.flatten = Xs := batch_of_blocks hB Xs g2
      have g9 := g9 true
      rw [hdec]
      simp only [bind_eq_ok]
      refine ⟨_, rfl, _, by rw [hb]; exact g9, q, ?_, rfl⟩
      rw [← e]
      rfl
    obtain ⟨e1, e2, e3, e4, e5⟩ := hashed_inj (L.sound x) u hr.key_ge hr.key_lt hl hr.salt h2 hr.draws.iv h3 hr.aad hv.aad
      ⟨_, length_flatten_blocks Xs g2⟩ h5 hrec h
    refine hnew _ f1 ⟨?_, e1, e3⟩
    rw [he, e, ← htag, e2, e4, e5]
  rw [f1, f2]
  have : Shmac.tagOf (rehash F.E x) (sessionOf F.E.shmacKdf r ++ v) = Shmac.tagOf (rehash F.E x') (sessionOf F.E.shmacKdf r ++ v) := by
    unfold Shmac.tagOf
    exact congrArg _ (hs _ _ (.inl hfinal))
  rw [this]

/-- How long a message is does not depend on the hash function. -/
theorem encrypt_length {r : Request} (hr : r.Valid F.E.cfg) :
    ∃ n, ∀ x message, (F.at x).bytesEncrypt r.key r.draws r.salt r.aad r.data = .ok message → message.length = n := by
  by_cases hne : Nonempty Xof
  · obtain ⟨x0⟩ := hne
    obtain ⟨pt, hpad, _, hdv⟩ := padPlaintext_blocks (family_accepted L x0) hr.draws r.data
    refine ⟨F.E.cfg.shmacBytes + F.E.cfg.saltBytes + F.E.cfg.ivBytes + F.E.cfg.blocksize * (Text.batch F.E.cfg.blocksize pt).length, fun x message hm => ?_⟩
    have u := L.usable x
    have hacc := family_accepted L x
    have hsl : (usedSalt r.salt r.draws.salt).length = F.E.cfg.saltBytes := by rw [usedSalt_eq]; exact hr.salt
    obtain ⟨Ps, Xs, m, p, c, perm, keys, _, h2, _, h4, h5, h6, _⟩ := process_ok (L.sound x) u (show minKeyBytes ≤ r.key.length from hr.key_ge) hr.key_lt hsl hr.aad hr.draws.iv .encryption
      (Text.batch F.E.cfg.blocksize pt) (batch_blocks_of_dvd hacc.blocksize_pos hdv)
    simp only at h5
    subst h5
    unfold Cipher.bytesEncrypt at hm
    rw [SaltAADIV.new_fresh (c := (F.at x).cfg) (aad := r.aad) hsl hr.draws.iv, show (F.at x).cfg.padPlaintext r.draws.reading r.draws.sivKey r.draws.extra r.data = .ok pt from hpad] at hm
    simp only [bind_eq_ok] at h6
    obtain ⟨s, hs1, hs2⟩ := h6
    simp only [bind, Except.bind, hs1] at hm
    rw [show (F.at x).cfg.blocksize = F.E.cfg.blocksize from rfl, hs2] at hm
    simp only [Shmac.finalize_live, pure, Except.pure, Except.ok.injEq] at hm
    subst hm
    simp only [List.length_append]
    rw [u.length_tag, hsl, hr.draws.iv, length_flatten_blocks Xs h2, h4]
    rfl
  · refine ⟨0, fun x _ _ => absurd ⟨x⟩ hne⟩

end

/-! ### conversations -/

theorem conversation_prefix {ρ : Type} {e : ρ → Except Err Bytes} {ask : List Bytes → ρ} : ∀ (n : Nat) {seen l : List Bytes}, conversation e ask n seen = .ok l → ∃ rest, l = seen ++ rest
  | 0, _, _, h => by cases h; exact ⟨[], by simp⟩
  | n + 1, seen, l, h => by
    simp only [conversation, bind_eq_ok] at h
    obtain ⟨m, _, h⟩ := h
    obtain ⟨rest, rfl⟩ := conversation_prefix n h
    exact ⟨m :: rest, by simp⟩

theorem conversation_congr {ρ : Type} {e e' : ρ → Except Err Bytes} {ask : List Bytes → ρ} : ∀ (n : Nat) {seen l : List Bytes}, conversation e ask n seen = .ok l →
    (∀ seen' m rest, l = seen' ++ m :: rest → e (ask seen') = .ok m → e' (ask seen') = e (ask seen')) → conversation e' ask n seen = .ok l
  | 0, _, _, h, _ => h
  | n + 1, seen, l, h, he => by
    simp only [conversation, bind_eq_ok] at h ⊢
    obtain ⟨m, hm, h⟩ := h
    obtain ⟨rest, hr⟩ := conversation_prefix n h
    refine ⟨m, by rw [he seen m rest (by rw [hr]; simp) hm]; exact hm, conversation_congr n h he⟩

theorem conversation_finite {ρ : Type} {e : Xof → ρ → Except Err Bytes} {ask : List Bytes → ρ} (hlen : ∀ seen, ∃ n, ∀ x m, e x (ask seen) = .ok m → m.length = n) :
    ∀ (n : Nat) (seen : List Bytes), {l | ∃ x, conversation (e x) ask n seen = .ok l}.Finite
  | 0, seen => (Set.finite_singleton seen).subset (by rintro l ⟨_, h⟩; cases h; rfl)
  | n + 1, seen => by
    obtain ⟨k, hk⟩ := hlen seen
    refine (Set.Finite.biUnion (List.finite_length_eq UInt8 k) fun m _ => conversation_finite hlen n (seen ++ [m])).subset ?_
    rintro l ⟨x, h⟩
    simp only [conversation, bind_eq_ok] at h
    obtain ⟨m, hm, h⟩ := h
    exact Set.mem_biUnion (show m ∈ {l : List UInt8 | l.length = k} from hk x m hm) ⟨x, h⟩

/-! ### the bound -/

section
variable {κ : Type} {F : Family κ} (L : Lawful F)

/-- What may be hashed for the tag of an attempt. -/
def finals (a : Attempt) : Set Bytes :=
  match Ciphertext.parse F.E.cfg a.data with
  | .error _ => ∅
  | .ok parts => (fun w => sessionOf F.E.shmacKdf (a.request F.E.cfg parts) ++ w) ''
      {w : List UInt8 | w.length = totalWidth L.width L.fresh (Text.batch F.E.cfg.blocksize parts.ciphertext).length}

theorem finals_finite (a : Attempt) : (finals L a).Finite := by
  unfold finals
  split
  · exact Set.finite_empty
  · exact (List.finite_length_eq UInt8 _).image _

theorem finals_key (x : Xof) {a : Attempt} (hv : a.Valid F.E.cfg) : ∀ q ∈ finals L a, ∃ w, q = F.E.shmacKdf.factory ++ a.key ++ w := by
  intro q hq
  unfold finals at hq
  split at hq
  · exact hq.elim
  · rename_i parts hp
    obtain ⟨w, _, rfl⟩ := hq
    obtain ⟨w', e⟩ := sessionOf_key (family_kdf L x) (L.usable x).salt_lt (L.usable x).iv_lt (Attempt.request_valid (family_accepted L x) hv hp)
    exact ⟨w' ++ w, by rw [e]; simp [Attempt.request]⟩

/-- What an attempt has to guess: the digest of which input, and the piece of it. -/
def target (F : Family κ) (x : Xof) (a : Attempt) : Option (Bytes × Bytes) :=
  match Ciphertext.parse F.E.cfg a.data with
  | .error _ => none
  | .ok parts =>
    match recompute (F.at x) a.key parts.salt a.aad parts.iv parts.ciphertext with
    | .error _ => none
    | .ok p => some (p.2, parts.shmac)

theorem target_some {x : Xof} {a : Attempt} {parts : Ciphertext} (hp : Ciphertext.parse F.E.cfg a.data = .ok parts) {padded q : Bytes}
    (h : recompute (F.at x) a.key parts.salt a.aad parts.iv parts.ciphertext = .ok (padded, q)) : target F x a = some (q, parts.shmac) := by
  unfold target
  rw [hp]
  simp only [h]

theorem tag_piece {E : Env} (hK : 2 * E.cfg.shmacBlocksize ≤ K) (htag : E.cfg.shmacBytes ≤ E.cfg.shmacBlocksize) (htag0 : 0 < E.cfg.shmacBytes) {D : Finset Bytes} (known : Xof)
    (T : Hash D K) (q : D) : Shmac.tagOf (rehash E (T.xof known)) q.1 = piece (2 * E.cfg.shmacBlocksize - E.cfg.shmacBytes) E.cfg.shmacBytes (T q).1 := by
  unfold Shmac.tagOf Sizes.shmacResultSlice
  show Slice.of ⟨some (-(E.cfg.shmacBytes : Int)), none⟩ ((T.xof known).digest q.1 E.cfg.shmacDoubleBlocksize) = _
  rw [slice_neg_none _ _ htag0, Xof.length_digest]
  obtain ⟨q, hqD⟩ := q
  have hlen := (T ⟨q, hqD⟩).2
  unfold Hash.xof piece Sizes.shmacDoubleBlocksize
  simp only [hqD, dite_true]
  rw [List.take_append_of_le_length (by omega), List.take_drop]
  congr 2
  omega

include L in
open Classical in
theorem forged_one (hK : 2 * F.E.cfg.shmacBlocksize ≤ K) (htag : F.E.cfg.shmacBytes ≤ F.E.cfg.shmacBlocksize) (htag0 : 0 < F.E.cfg.shmacBytes) {ask : Chooser} (hask : ∀ seen, (ask seen).Valid F.E.cfg)
    {forge : Forger} (hforge : ∀ seen, (forge seen).Valid F.E.cfg) (hl : ∀ seen seen', (ask seen).key.length = (forge seen').key.length) (known : Xof) (n : Nat) :
    ∃ D0 : Finset Bytes, (∀ q ∈ D0, ∃ seen w, q = F.E.shmacKdf.factory ++ (forge seen).key ++ w) ∧ ∀ D, D0 ⊆ D →
      count (fun T : Hash D K => Succeeds (fun r => (F.at (T.xof known)).bytesEncrypt r.key r.draws r.salt r.aad r.data)
        (fun a => (F.at (T.xof known)).bytesDecrypt a.key a.saltDraw a.now a.ttl a.aad a.data) ask n forge) * 256 ^ F.E.cfg.shmacBytes ≤ total D K := by
  have hfin := conversation_finite (e := fun x r => (F.at x).bytesEncrypt r.key r.draws r.salt r.aad r.data) (ask := ask) (fun seen => encrypt_length L (hask seen)) n []
  have hfin2 : (⋃ l ∈ {l | ∃ x, conversation (fun r => (F.at x).bytesEncrypt r.key r.draws r.salt r.aad r.data) ask n [] = .ok l}, finals L (forge l)).Finite :=
    hfin.biUnion fun l _ => finals_finite L (forge l)
  refine ⟨hfin2.toFinset, fun q hq => ?_, fun D hD => ?_⟩
  · rw [Set.Finite.mem_toFinset] at hq
    simp only [Set.mem_iUnion] at hq
    obtain ⟨l, _, hq⟩ := hq
    obtain ⟨w, e⟩ := finals_key L known (hforge l) q hq
    exact ⟨l, w, e⟩
  have hi : 2 * F.E.cfg.shmacBlocksize - F.E.cfg.shmacBytes + F.E.cfg.shmacBytes ≤ K := by omega
  let view : Hash D K → Option (D × Digest F.E.cfg.shmacBytes) := fun T =>
    match conversation (fun r => (F.at (T.xof known)).bytesEncrypt r.key r.draws r.salt r.aad r.data) ask n [] with
    | .error _ => none
    | .ok l => match target F (T.xof known) (forge l) with
      | none => none
      | some (q, v) => if h : q ∈ D ∧ v.length = F.E.cfg.shmacBytes then some (⟨q, h.1⟩, ⟨v, h.2⟩) else none
  refine count_tag hi _ view fun T hT => ?_
  obtain ⟨l, hconv, hnew, hpass⟩ := hT
  have hv := hforge l
  have u := L.usable (T.xof known)
  obtain ⟨hbad, hgood⟩ := tag_checked (L.sound (T.xof known)) u hv.key_ge hv.key_lt hv.saltDraw hv.aad (forge l).data
  cases hp : Ciphertext.parse F.E.cfg (forge l).data with
  | error e => exact absurd (hbad e hp _ _) hpass.2
  | ok parts =>
    obtain ⟨padded, q, hrec, hc⟩ := hgood parts hp
    have hshmac : parts.shmac = Shmac.tagOf (rehash F.E (T.xof known)) q := by
      by_contra hne
      exact hpass.1 ((hc _ _).1 hne)
    obtain ⟨⟨w, hq, hwl, _, _⟩, hsame⟩ := hashed_form L (T.xof known) hv hp hrec
    have hqD : q ∈ D := by
      refine hD ((Set.Finite.mem_toFinset hfin2).2 (Set.mem_biUnion (show l ∈ {l | _} from ⟨_, hconv⟩) ?_))
      unfold finals
      rw [hp]
      exact ⟨w, hwl, hq.symm⟩
    obtain ⟨_, h1, _⟩ := (C25_parts (family_accepted L known) (forge l).data).1 parts hp
    refine ⟨⟨q, hqD⟩, ⟨parts.shmac, h1⟩, ?_, ?_, fun s => ?_⟩
    · simp only [view]
      rw [hconv]
      simp only [target_some hp hrec]
      rw [dif_pos ⟨hqD, h1⟩]
    · simp only
      rw [hshmac]
      exact tag_piece hK htag htag0 known T ⟨q, hqD⟩
    · have hsb := (patch_same hi known T ⟨q, hqD⟩ s).mono (k' := F.E.cfg.shmacBlocksize) (by omega)
      have hconv' : conversation (fun r => (F.at ((patch _ _ hi T ⟨q, hqD⟩ s).xof known)).bytesEncrypt r.key r.draws r.salt r.aad r.data) ask n [] = .ok l := by
        refine conversation_congr n hconv fun seen m rest e hm => ?_
        exact encrypt_same L hsb (hask seen) hv (.inl (hl seen l)) hp hrec hshmac fun message hmess => by
          have : m = message := by
            have hm' : (F.at (T.xof known)).bytesEncrypt (ask seen).key (ask seen).draws (ask seen).salt (ask seen).aad (ask seen).data = .ok m := hm
            rw [hm'] at hmess
            exact Except.ok.inj hmess
          rw [← this]
          exact hnew seen m rest e
      simp only [view]
      rw [hconv']
      simp only [target_some hp (hsame _ hsb)]
      rw [dif_pos ⟨hqD, h1⟩]

include L in
/-- And a guess of the tag does get through. -/
theorem forged_guess (hK : 2 * F.E.cfg.shmacBlocksize ≤ K) (htag : F.E.cfg.shmacBytes ≤ F.E.cfg.shmacBlocksize) (htag0 : 0 < F.E.cfg.shmacBytes) (ask : Chooser) (known : Xof)
    {a : Attempt} (hv : a.Valid F.E.cfg) {parts : Ciphertext} (hp : Ciphertext.parse F.E.cfg a.data = .ok parts) : ∃ D0 : Finset Bytes, ∀ D, D0 ⊆ D →
      total D K ≤ count (fun T : Hash D K => Succeeds (fun r => (F.at (T.xof known)).bytesEncrypt r.key r.draws r.salt r.aad r.data)
        (fun a => (F.at (T.xof known)).bytesDecrypt a.key a.saltDraw a.now a.ttl a.aad a.data) ask 0 fun _ => a) * 256 ^ F.E.cfg.shmacBytes := by
  refine ⟨(finals_finite L a).toFinset, fun D hD => ?_⟩
  have hi : 2 * F.E.cfg.shmacBlocksize - F.E.cfg.shmacBytes + F.E.cfg.shmacBytes ≤ K := by omega
  obtain ⟨_, h1, _⟩ := (C25_parts (family_accepted L known) a.data).1 parts hp
  have key : ∀ T : Hash D K, ∃ q : D, ∃ padded, recompute (F.at (T.xof known)) a.key parts.salt a.aad parts.iv parts.ciphertext = .ok (padded, q.1) := by
    intro T
    obtain ⟨_, hgood⟩ := tag_checked (L.sound (T.xof known)) (L.usable (T.xof known)) hv.key_ge hv.key_lt hv.saltDraw hv.aad a.data
    obtain ⟨padded, q, hrec, _⟩ := hgood parts hp
    obtain ⟨⟨w, hq, hwl, _, _⟩, _⟩ := hashed_form L (T.xof known) hv hp hrec
    refine ⟨⟨q, hD ((Set.Finite.mem_toFinset _).2 ?_)⟩, padded, hrec⟩
    unfold finals
    rw [hp]
    exact ⟨w, hwl, hq.symm⟩
  choose q padded hrec using key
  refine count_tag_ge hi _ q ⟨parts.shmac, h1⟩ (fun T s => ?_) fun T hT => ⟨[], rfl, fun seen m rest e => by simp at e, ?_⟩
  · have hsb := (patch_same hi known T (q T) s).mono (k' := F.E.cfg.shmacBlocksize) (by omega)
    have e := (hashed_form L (T.xof known) hv hp (hrec T)).2 _ hsb
    rw [hrec] at e
    simp only [Except.ok.injEq, Prod.mk.injEq] at e
    exact Subtype.ext e.2
  · obtain ⟨_, hgood⟩ := tag_checked (L.sound (T.xof known)) (L.usable (T.xof known)) hv.key_ge hv.key_lt hv.saltDraw hv.aad a.data
    obtain ⟨padded', q', hrec', hc⟩ := hgood parts hp
    rw [hrec] at hrec'
    simp only [Except.ok.injEq, Prod.mk.injEq] at hrec'
    obtain ⟨_, rfl⟩ := hrec'
    have hshmac : parts.shmac = Shmac.tagOf (rehash F.E (T.xof known)) (q T) := by
      rw [show parts.shmac = _ from hT, tag_piece hK htag htag0]
    have hdec := (hc a.now a.ttl).2 hshmac
    show Passes ((F.at (T.xof known)).bytesDecrypt a.key a.saltDraw a.now a.ttl a.aad a.data)
    rw [hdec]
    unfold Sizes.depadPlaintext Clock.testTimestamp
    cases a.ttl with
    | none => exact ⟨by rintro ⟨⟩, by rintro ⟨⟩⟩
    | some ttl =>
      simp only
      split
      · exact ⟨by rintro ⟨⟩, by rintro ⟨⟩⟩
      · exact ⟨by rintro ⟨⟩, by rintro ⟨⟩⟩

theorem count_mono {D : Finset Bytes} {P Q : Hash D K → Prop} (h : ∀ T, P T → Q T) : count P ≤ count Q := by
  classical
  unfold count
  exact Finset.card_le_card fun T hT => Finset.mem_filter.2 ⟨Finset.mem_univ T, h T (Finset.mem_filter.1 hT).2⟩

theorem count_or {D : Finset Bytes} (P Q : Hash D K → Prop) : count (fun T => P T ∨ Q T) ≤ count P + count Q := by
  classical
  unfold count
  refine Nat.le_trans (Finset.card_le_card ?_) (Finset.card_union_le _ _)
  intro T hT
  simpa only [Finset.mem_union, Finset.mem_filter, Finset.mem_univ, true_and] using hT

include L in
theorem forged_many (hK : 2 * F.E.cfg.shmacBlocksize ≤ K) (htag : F.E.cfg.shmacBytes ≤ F.E.cfg.shmacBlocksize) (htag0 : 0 < F.E.cfg.shmacBytes) :
    Unforgeable F.E.cfg [F.E.shmacKdf.factory] K (fun x r => (F.at x).bytesEncrypt r.key r.draws r.salt r.aad r.data)
      (fun x a => (F.at x).bytesDecrypt a.key a.saltDraw a.now a.ttl a.aad a.data) := by
  classical
  intro known ask attempts hask
  induction attempts with
  | nil =>
    intro _ _
    refine ⟨∅, by simp, fun D _ => ?_⟩
    have : count (fun T : Hash D K => ∃ p ∈ ([] : List (Nat × Forger)), Succeeds (fun r => (F.at (T.xof known)).bytesEncrypt r.key r.draws r.salt r.aad r.data)
        (fun a => (F.at (T.xof known)).bytesDecrypt a.key a.saltDraw a.now a.ttl a.aad a.data) ask p.1 p.2) = 0 := by
      unfold count
      refine Finset.card_eq_zero.2 (Finset.eq_empty_of_forall_notMem fun T hT => ?_)
      simp at hT
    rw [this]
    simp
  | cons p ps ih =>
    intro hv hl
    obtain ⟨D1, a1, b1⟩ := forged_one L hK htag htag0 hask (hv p (by simp)) (hl p (by simp)) known p.1
    obtain ⟨D2, a2, b2⟩ := ih (fun p' hp' => hv p' (by simp [hp'])) (fun p' hp' => hl p' (by simp [hp']))
    refine ⟨D1 ∪ D2, fun q hq => ?_, fun D hD => ?_⟩
    · rcases Finset.mem_union.1 hq with hq | hq
      · obtain ⟨seen, w, e⟩ := a1 q hq
        exact ⟨_, by simp, p, by simp, seen, w, e⟩
      · obtain ⟨G, hG, p', hp', seen, w, e⟩ := a2 q hq
        exact ⟨G, hG, p', by simp [hp'], seen, w, e⟩
    · have e1 := b1 D (Finset.union_subset_left hD)
      have e2 := b2 D (Finset.union_subset_right hD)
      have hmono := count_mono (P := fun T : Hash D K => ∃ p' ∈ p :: ps, Succeeds (fun r => (F.at (T.xof known)).bytesEncrypt r.key r.draws r.salt r.aad r.data)
        (fun a => (F.at (T.xof known)).bytesDecrypt a.key a.saltDraw a.now a.ttl a.aad a.data) ask p'.1 p'.2)
        (Q := fun T => Succeeds (fun r => (F.at (T.xof known)).bytesEncrypt r.key r.draws r.salt r.aad r.data)
          (fun a => (F.at (T.xof known)).bytesDecrypt a.key a.saltDraw a.now a.ttl a.aad a.data) ask p.1 p.2 ∨
          ∃ p' ∈ ps, Succeeds (fun r => (F.at (T.xof known)).bytesEncrypt r.key r.draws r.salt r.aad r.data)
            (fun a => (F.at (T.xof known)).bytesDecrypt a.key a.saltDraw a.now a.ttl a.aad a.data) ask p'.1 p'.2) (by
          rintro T ⟨p', hp', hs⟩
          rcases List.mem_cons.1 hp' with rfl | hp'
          · exact .inl hs
          · exact .inr ⟨p', hp', hs⟩)
      have hor := count_or (fun T : Hash D K => Succeeds (fun r => (F.at (T.xof known)).bytesEncrypt r.key r.draws r.salt r.aad r.data)
          (fun a => (F.at (T.xof known)).bytesDecrypt a.key a.saltDraw a.now a.ttl a.aad a.data) ask p.1 p.2)
          (fun T => ∃ p' ∈ ps, Succeeds (fun r => (F.at (T.xof known)).bytesEncrypt r.key r.draws r.salt r.aad r.data)
            (fun a => (F.at (T.xof known)).bytesDecrypt a.key a.saltDraw a.now a.ttl a.aad a.data) ask p'.1 p'.2)
      refine Nat.le_trans (Nat.mul_le_mul_right _ (Nat.le_trans hmono hor)) ?_
      rw [Nat.add_mul, List.length_cons, Nat.add_mul, Nat.one_mul, Nat.add_comm]
      exact Nat.add_le_add e2 e1

end

end Aiootp.Secrecy
