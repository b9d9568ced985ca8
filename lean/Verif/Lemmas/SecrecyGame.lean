import Verif.Lemmas.Secrecy

/-
From blocks to messages, and from messages to conversations.
-/

namespace Aiootp.Secrecy

open Oracle Cipher Perm

variable {K : Nat} {κ : Type}

/-! ### conversations -/

/-- What is known of the encryption of messages. `own r` are the questions that may be asked for a request. -/
structure Scheme (c : Sizes) (enc : Request → HashTree K Bytes) (own : Request → Set Bytes) : Prop where
  out : ∀ {r}, r.Valid c → (enc r).AllOut (Fits c r)
  chance : ∀ {r message}, r.Valid c → Fits c r message → (enc r).chance message = 1 / 256 ^ (c.shmacBytes + paddedSize c r.data.length)
  fresh : ∀ {r S}, r.Valid c → (∀ q ∈ own r, q ∉ S) → (enc r).Fresh S
  within : ∀ {r}, r.Valid c → (enc r).AllIn (own r)
  apart : ∀ {r r'}, r.Valid c → r'.Valid c → r.key.length = r'.key.length → r.nonce ≠ r'.nonce → ∀ q ∈ own r, q ∉ own r'

def game (enc : Request → HashTree K Bytes) (ask : Chooser) : Nat → List Bytes → HashTree K (List Bytes)
  | 0, seen => .done seen
  | n + 1, seen => (enc (ask seen)).bind fun message => game enc ask n (seen ++ [message])

section
variable {c : Sizes} {enc : Request → HashTree K Bytes} {own : Request → Set Bytes} (H : Scheme c enc own) {ask : Chooser} {n : Nat}
include H

theorem Scheme.game_out (hv : ∀ seen, (ask seen).Valid c) : ∀ (n : Nat) (seen : List Bytes),
    (game enc ask n seen).AllOut fun l => ∃ ms, l = seen ++ ms ∧ ms.length = n ∧ AllFit c ask seen ms
  | 0, seen => ⟨[], by simp, rfl, trivial⟩
  | n + 1, seen => by
    refine (H.out (hv seen)).bind fun m hm => (Scheme.game_out hv n (seen ++ [m])).mono ?_
    rintro l ⟨ms, rfl, h1, h2⟩
    exact ⟨m :: ms, by simp, by simp [h1], hm, h2⟩

theorem Scheme.game_chance (hv : ∀ seen, (ask seen).Valid c) : ∀ (ms seen : List Bytes), AllFit c ask seen ms →
    (game enc ask ms.length seen).chance (seen ++ ms) = 1 / 256 ^ hiddenBytes c ask seen ms
  | [], seen, _ => by simp [game, Tree.chance, hiddenBytes]
  | m :: ms, seen, h => by
    have ih := Scheme.game_chance hv ms (seen ++ [m]) h.2
    rw [List.length_cons, game, Tree.chance_bind (x := m), H.chance (hv seen) h.1]
    · rw [List.append_assoc, List.singleton_append] at ih
      rw [ih, div_mul_div_comm, one_mul, ← pow_add, hiddenBytes]
    · intro y hy
      refine Tree.chance_zero ((Scheme.game_out (H := H) hv ms.length (seen ++ [y])).mono ?_)
      rintro l ⟨ms', rfl, _, _⟩ e
      rw [List.append_assoc, List.append_cancel_left_eq, List.singleton_append, List.cons.injEq] at e
      exact hy e.1

/-- What may have been asked for the messages before. -/
def asked (own : Request → Set Bytes) (ask : Chooser) (seen : List Bytes) : Set Bytes := {q | ∃ h more, more ≠ [] ∧ h ++ more = seen ∧ q ∈ own (ask h)}

theorem Scheme.game_fresh (fair : ask.Fair c n) : ∀ (k : Nat) (seen : List Bytes), seen.length + k ≤ n → (game enc ask k seen).Fresh (asked own ask seen)
  | 0, _, _ => trivial
  | k + 1, seen, hk => by
    refine Tree.Fresh.bind (U := own (ask seen)) (fun m => Tree.Fresh.mono ?_ (Scheme.game_fresh fair k (seen ++ [m]) (by simp; omega))) ?_ (H.within (fair.valid seen))
    · rintro q (⟨h, more, hne, rfl, hq⟩ | hq)
      · exact ⟨h, more ++ [m], by simp, by simp, hq⟩
      · exact ⟨seen, [m], by simp, rfl, hq⟩
    · refine H.fresh (fair.valid seen) ?_
      rintro q hq ⟨h, more, hne, rfl, hq'⟩
      exact H.apart (fair.valid h) (fair.valid _) (fair.size _ _) (fair.nonce h more hne (by omega)) q hq' hq

theorem Scheme.game_within (hv : ∀ seen, (ask seen).Valid c) : ∀ (k : Nat) (seen : List Bytes), (game enc ask k seen).AllIn {q | ∃ h, q ∈ own (ask h)}
  | 0, _ => trivial
  | k + 1, seen => by
    have h1 : own (ask seen) ⊆ {q | ∃ h, q ∈ own (ask h)} := fun q hq => ⟨seen, hq⟩
    exact Tree.AllIn.bind (fun m => Scheme.game_within hv k (seen ++ [m])) ((H.within (hv seen)).mono h1)

end

theorem conversation_run {D : Finset Bytes} {T : Hash D K} {c : Sizes} {enc : Request → HashTree K Bytes} {ask : Chooser} {encrypt : Request → Except Err Bytes}
    (hv : ∀ seen, (ask seen).Valid c) (he : ∀ r, r.Valid c → (enc r).AllIn (D : Set Bytes) → encrypt r = .ok ((enc r).run (Tree.ext T))) :
    ∀ (n : Nat) (seen : List Bytes), (game enc ask n seen).AllIn (D : Set Bytes) → conversation encrypt ask n seen = .ok ((game enc ask n seen).run (Tree.ext T))
  | 0, _, _ => rfl
  | n + 1, seen, h => by
    have h1 := Tree.AllIn.left h
    have h2 := Tree.AllIn.right (Tree.ext T) h
    rw [conversation, he _ (hv seen) h1, game, Tree.run_bind]
    exact conversation_run hv he n _ h2

/-- How many hash functions lead to the messages. -/
theorem Scheme.count {c : Sizes} {enc : Request → HashTree K Bytes} {own : Request → Set Bytes} (H : Scheme c enc own) {ask : Chooser} {n : Nat} (fair : ask.Fair c n) :
    ∃ D0 : Finset Bytes, (∀ q ∈ D0, ∃ seen, q ∈ own (ask seen)) ∧ ∀ D, D0 ⊆ D → ∀ encrypt : Hash D K → Request → Except Err Bytes,
      (∀ T r, r.Valid c → (enc r).AllIn (D : Set Bytes) → encrypt T r = .ok ((enc r).run (Tree.ext T))) → ∀ messages : List Bytes, messages.length = n →
      (AllFit c ask [] messages → count (fun T : Hash D K => conversation (encrypt T) ask n [] = .ok messages) * 256 ^ hiddenBytes c ask [] messages = total D K) ∧
      (¬ AllFit c ask [] messages → count (fun T : Hash D K => conversation (encrypt T) ask n [] = .ok messages) = 0) := by
  classical
  obtain ⟨D1, hD1⟩ := Tree.finite (game enc ask n [])
  have hD0 : (game enc ask n []).AllIn ((D1.filter fun q => ∃ h, q ∈ own (ask h) : Finset Bytes) : Set Bytes) :=
    (hD1.inter (H.game_within fair.valid n [])).mono fun q hq => by simpa using hq
  refine ⟨D1.filter fun q => ∃ h, q ∈ own (ask h), fun q hq => (Finset.mem_filter.1 hq).2, fun D hD encrypt he messages hn => ?_⟩
  have hin : (game enc ask n []).AllIn (D : Set Bytes) := hD0.mono (Finset.coe_subset.2 hD)
  have hfresh : (game enc ask n []).Fresh ∅ := (H.game_fresh fair n [] (by simp)).mono (Set.empty_subset _)
  have hrun : ∀ T : Hash D K, conversation (encrypt T) ask n [] = .ok messages ↔ (game enc ask n []).run (Tree.ext T) = messages := fun T => by
    rw [conversation_run fair.valid (he T) n [] hin, Except.ok.injEq]
  have hcard := Tree.card_run (D := D) messages hfresh hin
  have hcount : Secrecy.count (fun T : Hash D K => conversation (encrypt T) ask n [] = .ok messages) =
      (Finset.univ.filter fun T : D → Digest K => (game enc ask n []).run (Tree.ext T) = messages).card := by
    unfold Secrecy.count
    congr 1
    ext T
    simp only [Finset.mem_filter, Finset.mem_univ, true_and]
    exact hrun T
  constructor
  · intro hfit
    have := H.game_chance fair.valid messages [] hfit
    rw [hn, List.nil_append] at this
    rw [this, ← hcount] at hcard
    have h0 := pow256_ne (hiddenBytes c ask [] messages)
    have hq : (Secrecy.count (fun T : Hash D K => conversation (encrypt T) ask n [] = .ok messages) : ℚ) * 256 ^ hiddenBytes c ask [] messages =
        (Fintype.card (D → Digest K) : ℚ) := by
      rw [hcard]; field_simp
    unfold total
    exact_mod_cast hq
  · intro hfit
    rw [hcount, Finset.card_eq_zero, Finset.filter_eq_empty_iff]
    intro T _ e
    obtain ⟨ms, e', _, hf⟩ := (H.game_out fair.valid n []).run (Tree.ext T)
    rw [e, List.nil_append] at e'
    exact hfit (e' ▸ hf)

/-! ### messages -/

/-- The blocks of the padded plaintext. -/
def plainBlocks (c : Sizes) (r : Request) : List Bytes :=
  match c.padPlaintext r.draws.reading r.draws.sivKey r.draws.extra r.data with
  | .ok padded => Text.batch c.blocksize padded
  | .error _ => []

theorem plainBlocks_spec {c : Sizes} (hacc : Accepted c) {r : Request} (hv : r.Valid c) :
    ∃ padded, c.padPlaintext r.draws.reading r.draws.sivKey r.draws.extra r.data = .ok padded ∧ plainBlocks c r = Text.batch c.blocksize padded ∧ plainBlocks c r ≠ [] ∧
      (∀ b ∈ plainBlocks c r, b.length = c.blocksize) ∧ c.blocksize * (plainBlocks c r).length = paddedSize c r.data.length := by
  have hF := hacc.frame_pos
  have hB := hacc.blocksize_pos
  have hd := hv.draws
  have hst : c.startPadding r.draws.reading r.draws.sivKey = .ok (beDigits c.timestampBytes r.draws.reading.toNat ++ r.draws.sivKey) :=
    Sizes.startPadding_ok.2 ⟨hd.reading_nonneg, hd.reading_lt, rfl⟩
  obtain ⟨en, hen⟩ : ∃ en, c.endPadding r.draws.extra r.data.length = .ok en := ⟨_, Sizes.endPadding_eq hF _ _⟩
  have hlen := Sizes.length_endPadding hF hd.extra hen
  have hp : c.padPlaintext r.draws.reading r.draws.sivKey r.draws.extra r.data
      = .ok (beDigits c.timestampBytes r.draws.reading.toNat ++ r.draws.sivKey ++ r.data ++ en) := by
    unfold Sizes.padPlaintext; rw [hst, hen]; rfl
  obtain ⟨padded, hp', hpos, hdv⟩ := padPlaintext_blocks hacc hd r.data
  rw [hp] at hp'
  cases hp'
  have hb : plainBlocks c r = Text.batch c.blocksize (beDigits c.timestampBytes r.draws.reading.toNat ++ r.draws.sivKey ++ r.data ++ en) := by
    unfold plainBlocks; rw [hp]
  have hbl := batch_blocks_of_dvd hB hdv
  refine ⟨_, hp, hb, ?_, by rw [hb]; exact hbl, ?_⟩
  · rw [hb, Text.batch_cons (by intro h; rw [h] at hpos; simp at hpos) hB]; simp
  · have hfl := length_flatten_blocks _ hbl
    rw [Text.batch_flatten _ hB] at hfl
    rw [hb, ← hfl]
    simp only [List.length_append, length_beDigits, hlen, hd.sivKey, paddedSize]
    have hdm := Nat.div_add_mod (c.innerHeaderBytes + r.data.length) c.paddingFrame
    have := Nat.mod_lt (c.innerHeaderBytes + r.data.length) hF
    have hi : c.innerHeaderBytes = c.timestampBytes + c.sivKeyBytes := rfl
    unfold Sizes.padSize
    rw [Nat.mul_add, Nat.mul_one]
    omega

/-- A message. -/
def message (c : Sizes) (step : Step K κ) (permOf : Bytes → Chain) (mac : Bytes) (keys : κ) (r : Request) : HashTree K Bytes :=
  (whole c step permOf mac keys (plainBlocks c r)).map fun x => x.1 ++ r.usedSalt ++ r.draws.iv ++ x.2.flatten

section
variable {c : Sizes} {i : Nat} {permOf : Bytes → Chain} {step : Step K κ} {inv : Nat → Bytes → κ → Prop} {past mid : Nat → Set Bytes}
  (M : Machine c i permOf step inv past mid) (hacc : Accepted c) {r : Request} (hv : r.Valid c) {mac : Bytes} {keys : κ} (hm : inv 0 mac keys)
include M hacc hv hm

theorem Machine.message_out : (message c step permOf mac keys r : HashTree K Bytes).AllOut (Fits c r) := by
  obtain ⟨padded, _, _, _, hb, hl⟩ := plainBlocks_spec hacc hv
  refine (M.whole_out hm hb).bind ?_
  rintro ⟨tag, os⟩ ⟨h1, h2, h3⟩
  refine ⟨tag, os.flatten, rfl, h1, ?_⟩
  rw [length_flatten_blocks _ h3]
  simp only at h2
  rw [h2]; exact hl

theorem Machine.message_chance {msg : Bytes} (hf : Fits c r msg) :
    (message c step permOf mac keys r : HashTree K Bytes).chance msg = 1 / 256 ^ (c.shmacBytes + paddedSize c r.data.length) := by
  obtain ⟨padded, _, _, hne, hb, hl⟩ := plainBlocks_spec hacc hv
  obtain ⟨tag, body, rfl, ht, hbody⟩ := hf
  have hB := hacc.blocksize_pos
  have hdv : c.blocksize ∣ body.length := ⟨_, (hbody.trans hl.symm)⟩
  have hbb := batch_blocks_of_dvd hB hdv
  have hfl := length_flatten_blocks _ hbb
  rw [Text.batch_flatten _ hB] at hfl
  have hlen : (Text.batch c.blocksize body).length = (plainBlocks c r).length :=
    Nat.eq_of_mul_eq_mul_left hB (by rw [← hfl, hbody, hl])
  rw [message, Tree.chance_map (x := (tag, Text.batch c.blocksize body)) ?_ (M.whole_out hm hb), M.whole_chance hm ht hne hlen hb hbb, hl]
  rintro ⟨tag', os⟩ ⟨h1, h2, h3⟩
  constructor
  · intro e
    simp only [List.append_assoc] at e
    simp only at h1
    obtain ⟨rfl, e⟩ := List.append_inj e (h1.trans ht.symm)
    simp only [List.append_cancel_left_eq] at e
    subst e
    rw [batch_of_blocks hB os h3]
  · intro e
    simp only [Prod.mk.injEq] at e
    obtain ⟨rfl, rfl⟩ := e
    simp only [Text.batch_flatten _ hB]

theorem Machine.message_fresh (hin : mac ∈ past 0) (hfirst : past 0 ⊆ {mac}) {S : Set Bytes} (hS : ∀ q, (∃ j, q ∈ past j) → q ∉ S) :
    (message c step permOf mac keys r : HashTree K Bytes).Fresh S := by
  obtain ⟨padded, _, _, hne, hb, hl⟩ := plainBlocks_spec hacc hv
  exact (M.whole_fresh hm hin (fun j q hq => hS q ⟨j, hq⟩) hfirst hb).map

theorem Machine.message_within (hin : mac ∈ past 0) : (message c step permOf mac keys r : HashTree K Bytes).AllIn {q | ∃ j, q ∈ past j} := by
  obtain ⟨padded, _, _, hne, hb, hl⟩ := plainBlocks_spec hacc hv
  exact (M.whole_within hm hin hb).map

end

end Aiootp.Secrecy
