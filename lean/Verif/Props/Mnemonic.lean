import Verif.Model.Mnemonic
import Verif.Lemmas.PasscryptMessage
import Verif.Props.Text
import Verif.Props.Canon

/-!
C55 and C63: keyed selections.
-/

namespace Aiootp.Mnemonic

open Kdf Canon Text

/-- What is known about the hash functions: SHAKE-256 is an extendable output function. -/
structure Env.Xof (E : Env) : Prop where
  digestSize : E.shake256.digestSize = 0
  length : ∀ x n, (E.shake256.digest x n).length = n

/-- The sizes of the hash functions and of the constants. -/
structure Env.Fits (E : Env) : Prop extends E.Xof where
  block128 : E.shake128.blockSize = 168
  block256 : E.shake256.blockSize = 136
  kdf : E.kdfDomain.length = 8
  prng : E.prng.length = 8
  mnemonic : E.mnemonic.length = 8
  length128 : ∀ x n, (E.shake128.digest x n).length = n

theorem sizeOr_zero (n : Nat) : sizeOr (some n) 0 = n := by
  unfold sizeOr
  cases n <;> rfl

theorem stream_length {E : Env} (hE : E.Xof) {total size : Nat} {domain key s : Bytes} (h : E.stream total size domain key = .ok s) : s.length = 16 * size := by
  simp only [Env.stream, runKdf, hashBytes, hE.digestSize, bind_eq_ok] at h
  obtain ⟨_, _, _, _, _, _, x, _, h⟩ := h
  injection h with h
  rw [← h, hE.length]
  simp [sizeOr_zero]

theorem mapM_ok {α β} {f : α → Except Err β} {l : List α} {r : List β} (h : l.mapM f = .ok r) : r.length = l.length ∧ ∀ y ∈ r, ∃ x ∈ l, f x = .ok y := by
  induction l generalizing r with
  | nil =>
    simp only [List.mapM_nil, pure, Except.pure] at h
    injection h with h
    subst h
    exact ⟨rfl, by intro y hy; cases hy⟩
  | cons a l ih =>
    simp only [List.mapM_cons, bind_eq_ok, pure, Except.pure] at h
    obtain ⟨y, hy, ys, hys, h⟩ := h
    injection h with h
    subst h
    obtain ⟨h1, h2⟩ := ih hys
    refine ⟨by simp [h1], ?_⟩
    intro z hz
    rcases List.mem_cons.1 hz with rfl | hz
    · exact ⟨a, List.mem_cons_self, hy⟩
    · obtain ⟨x, hx, hf⟩ := h2 z hz
      exact ⟨x, List.mem_cons_of_mem _ hx, hf⟩

theorem mapM_total {α β} {f : α → Except Err β} {l : List α} (h : ∀ x ∈ l, ∃ y, f x = .ok y) : ∃ r, l.mapM f = .ok r := by
  induction l with
  | nil => exact ⟨[], rfl⟩
  | cons a l ih =>
    obtain ⟨y, hy⟩ := h a List.mem_cons_self
    obtain ⟨ys, hys⟩ := ih (fun x hx => h x (List.mem_cons_of_mem _ hx))
    exact ⟨y :: ys, by simp [List.mapM_cons, hy, hys, bind, Except.bind, pure, Except.pure]⟩

theorem pick_mem {α} {choices : List α} {b : Bytes} {x : α} (h : pick choices b = .ok x) : x ∈ choices := by
  unfold pick at h
  split at h
  · cases h
  · split at h
    · rename_i e
      injection h with h
      subst h
      exact List.mem_of_getElem? e
    · cases h

theorem pick_total {α} {choices : List α} (hc : choices ≠ []) (b : Bytes) : ∃ x, pick choices b = .ok x := by
  have hl : 0 < choices.length := List.length_pos_iff.2 hc
  have hm : fromBE b % choices.length < choices.length := Nat.mod_lt _ hl
  exact ⟨choices[fromBE b % choices.length], by simp [pick, hm, hc]⟩

/-! ### C55 -/

/-- **C55** What `keyed_choices` returns has exactly the size that was asked for, and everything in it is one of the choices. -/
theorem C55_selected {α} (E : Env) (hE : E.Xof) (choices : List α) (size : Nat) (domain key : Bytes) {l : List α}
    (h : E.keyedChoices choices size domain key = .ok l) : l.length = size ∧ ∀ x ∈ l, x ∈ choices := by
  simp only [Env.keyedChoices, bind_eq_ok] at h
  obtain ⟨s, hs, h⟩ := h
  obtain ⟨h1, h2⟩ := mapM_ok h
  have hl := stream_length hE hs
  constructor
  · rw [h1, (C11_batch_chunks 16 (by decide) s).1, hl]
    unfold ceilDiv
    omega
  · intro x hx
    obtain ⟨b, _, hb⟩ := h2 x hx
    exact pick_mem hb

theorem hash_total {h : Hasher} {b : Nat} (hb : h.blockSize = b) (hb' : 0 < b ∧ b < 256 ^ 8) {coll : List Bytes} {size : Option Nat} {key : Bytes} (hk : key ≠ [] ∧ key.length < 256 ^ 8)
    (hc : coll.length + 3 < 256 ^ 8 ∧ ∀ i ∈ coll, i.length < 256 ^ 8) (hs : sizeOr size h.digestSize < 256 ^ 8) :
    ∃ x, hashBytes h coll [0] size (some key) = .ok (h.digest x (sizeOr size h.digestSize)) := by
  have h1 := (Passcrypt.encodeKey_iff (p := 0) hb').2 ⟨hk, rfl⟩
  have h2 : ∃ p, canonicalPack (beDigits 8 (sizeOr size h.digestSize) :: coll) b [0] 8 = .ok p := by
    refine ⟨_, (Passcrypt.canonicalPack_iff hb').2 ⟨⟨by simp only [List.length_cons]; omega, ?_⟩, rfl⟩⟩
    intro i hi
    rcases List.mem_cons.1 hi with rfl | hi
    · simp
    · exact hc.2 i hi
  obtain ⟨p, h2⟩ := h2
  have h3 : toBytesBE 8 (sizeOr size h.digestSize) = .ok (beDigits 8 (sizeOr size h.digestSize)) := by rw [toBytesBE, if_pos hs]
  exact ⟨Passcrypt.keyed b 0 key ++ p, by simp only [hashBytes, hashBytesInput, keyPrefix, hb, h1, h2, h3, bind, Except.bind]⟩

/-- **C55** `keyed_choices` returns for every sequence of choices that is not empty, within the sizes that can be encoded in eight bytes. -/
theorem C55_total {α} (E : Env) (hE : E.Fits) (choices : List α) (hc : choices ≠ []) (hc' : choices.length < 2 ^ 64) (size : Nat) (hs : 16 * size < 2 ^ 64) (domain key : Bytes)
    (hk : key ++ domain ≠ []) (hk' : key.length + domain.length < 2 ^ 64) : ∃ l, E.keyedChoices choices size domain key = .ok l := by
  have e64 : (256 : Nat) ^ 8 = 2 ^ 64 := by decide
  have h1 : toBytesBE 8 choices.length = .ok (beDigits 8 choices.length) := by rw [toBytesBE, if_pos (by omega)]
  have h2 : toBytesBE 8 size = .ok (beDigits 8 size) := by rw [toBytesBE, if_pos (by omega)]
  have h3 : ∃ p, initialPayload E.shake128 E.salt E.kdfDomain domain [beDigits 8 choices.length, beDigits 8 size] key = .ok p := by
    obtain ⟨x, hx⟩ := hash_total (h := E.shake128) (coll := E.kdfDomain :: domain :: [beDigits 8 choices.length, beDigits 8 size]) (size := some 168) (key := key ++ domain)
      hE.block128 (by decide) ⟨hk, by simp; omega⟩ ⟨by simp, by
        intro i hi
        simp only [List.mem_cons, List.not_mem_nil, or_false] at hi
        rcases hi with rfl | rfl | rfl | rfl
        · rw [hE.kdf]; decide
        · omega
        · simp
        · simp⟩ (by simp [sizeOr])
    exact ⟨E.salt ++ E.shake128.digest x (sizeOr (some 168) E.shake128.digestSize), by simp only [initialPayload, hE.block128, hx, bind, Except.bind]⟩
  obtain ⟨p, h3⟩ := h3
  obtain ⟨x, hx⟩ := hash_total (h := E.shake256) (coll := [E.prng]) (size := some (16 * size)) (key := E.shake128.digest p 136)
    hE.block256 (by decide) ⟨by
      intro e
      have := hE.length128 p 136
      rw [e] at this
      simp at this, by rw [hE.length128]; decide⟩ ⟨by simp, by
        intro i hi
        simp only [List.mem_cons, List.not_mem_nil, or_false] at hi
        rw [hi, hE.prng]; decide⟩ (by rw [hE.digestSize, sizeOr_zero]; omega)
  have h4 : ∃ s, E.stream choices.length size domain key = .ok s := by
    exact ⟨E.shake256.digest x (sizeOr (some (16 * size)) E.shake256.digestSize), by
      simp only [Env.stream, h1, h2, h3, runKdf, hE.digestSize, hE.block256, ne_eq, not_true_eq_false, if_false, bind, Except.bind] at hx ⊢
      exact hx⟩
  obtain ⟨s, h4⟩ := h4
  obtain ⟨l, hl⟩ := mapM_total (f := pick choices) (l := batch 16 s) (fun b _ => pick_total hc b)
  exact ⟨l, by simp only [Env.keyedChoices, h4, hl, bind, Except.bind]⟩

theorem pick_map {α β} (f : α → β) (choices : List α) (b : Bytes) : pick (choices.map f) b = (pick choices b).map f := by
  simp only [pick, List.length_map, List.getElem?_map]
  split
  · rfl
  · cases choices[fromBE b % choices.length]? <;> rfl

theorem mapM_map {α β γ} (f : β → γ) (g : α → Except Err β) (l : List α) : (l.mapM fun x => (g x).map f) = (l.mapM g).map (List.map f) := by
  induction l with
  | nil => rfl
  | cons a l ih =>
    simp only [List.mapM_cons, ih]
    cases g a with
    | error e => rfl
    | ok y =>
      cases l.mapM g with
      | error e => rfl
      | ok ys => rfl

/-- **C55** The positions that are selected depend on the key, the domain and the numbers only, not on what the choices are. -/
theorem C55_positions {α β} (E : Env) (f : α → β) (choices : List α) (size : Nat) (domain key : Bytes) :
    E.keyedChoices (choices.map f) size domain key = (E.keyedChoices choices size domain key).map (List.map f) := by
  simp only [Env.keyedChoices, List.length_map]
  cases E.stream choices.length size domain key with
  | error e => rfl
  | ok s =>
    show (batch 16 s).mapM (pick (choices.map f)) = _
    have : pick (choices.map f) = fun b => (pick choices b).map f := funext (pick_map f choices)
    rw [this, mapM_map]
    rfl

/-- **C55** There is nothing to select from no choices. -/
theorem C55_no_choices {α} (E : Env) (hE : E.Xof) (size : Nat) (hs : 0 < size) (domain key : Bytes) {l : List α} : E.keyedChoices ([] : List α) size domain key ≠ .ok l := by
  intro h
  obtain ⟨h1, h2⟩ := C55_selected E hE [] size domain key h
  cases l with
  | nil => simp at h1; omega
  | cons x l => exact absurd (h2 x List.mem_cons_self) (by simp)

/-- The words that `mnemonic` selects from. -/
def Args.usedWords (a : Args) : List Bytes :=
  match a.words with
  | some (w :: ws) => w :: ws
  | _ => wordList

/-- **C55** A mnemonic has the size that was asked for, and its words are from the list that was given or the default list. -/
theorem C55_mnemonic (E : Env) (hE : E.Xof) (passcrypt : Bytes → Bytes → Except Err Bytes) (random : Bytes) (passphrase : Option Bytes) (a : Args) {l : List Bytes}
    (h : E.newMnemonic passcrypt random passphrase a = .ok l) : l.length = a.size ∧ ∀ w ∈ l, w ∈ a.usedWords := by
  simp only [Env.newMnemonic, bind_eq_ok] at h
  obtain ⟨_, _, _, _, h⟩ := h
  obtain ⟨h1, h2⟩ := C55_selected E hE _ _ _ _ h
  refine ⟨h1, fun w hw => ?_⟩
  have := h2 w hw
  unfold Args.usedWords
  cases hwords : a.words with
  | none => simpa only [hwords] using this
  | some ws =>
    cases ws with
    | nil => simpa only [hwords] using this
    | cons v vs => simpa only [hwords] using this

/-- **C55** With a passphrase a mnemonic is a function of the passphrase, the salt, the words, their number and the settings: the key of the selection is what passcrypt makes of
the passphrase and an encoding of the salt from which the salt can be read. Nothing random enters. -/
theorem C55_passphrase (E : Env) : ∃ encode : Bytes → Except Err Bytes,
    (∀ s s' x, encode s = .ok x → encode s' = .ok x → s = s') ∧ (∀ s, s.length < 2 ^ 64 → E.mnemonic.length < 2 ^ 64 → ∃ x, encode s = .ok x) ∧
    ∀ (passcrypt : Bytes → Bytes → Except Err Bytes) (random passphrase : Bytes) (a : Args), passphrase ≠ [] →
      E.newMnemonic passcrypt random (some passphrase) a = (do
        let salt ← encode (a.salt.getD [])
        let key ← passcrypt passphrase salt
        E.keyedChoices a.usedWords a.size E.mnemonic key) := by
  refine ⟨fun s => canonicalPack [s, E.mnemonic] 1 [0] 8, ?_, ?_, ?_⟩
  · intro s s' x h h'
    have := (C02_pack_injective h h').1
    simpa using this
  · intro s hs hm
    refine C01_pack_total (by decide) (by decide) (by decide) (by decide) (by simp) ?_
    intro i hi
    have e : (256 : Nat) ^ 8 = 2 ^ 64 := by decide
    rcases List.mem_cons.1 hi with rfl | hi
    · omega
    · have := List.mem_singleton.1 hi; subst this; omega
  · intro passcrypt random passphrase a hp
    obtain ⟨b, bs, rfl⟩ := List.exists_cons_of_ne_nil hp
    simp only [Env.newMnemonic, mnemonicKey, Args.usedWords]
    cases a.words with
    | none => rfl
    | some l => cases l <;> rfl

/-- **C55** Without a passphrase (or with an empty one) the key of the selection is fresh output of the generator, and settings for passcrypt are refused. -/
theorem C55_no_passphrase (E : Env) (passcrypt : Bytes → Bytes → Except Err Bytes) (random : Bytes) (passphrase : Option Bytes) (a : Args) (hp : passphrase.getD [] = [])
    (hs : (a.salt.getD []).length < 2 ^ 64) (hm : E.mnemonic.length < 2 ^ 64) :
    E.newMnemonic passcrypt random passphrase a = if a.settings then .error .value else E.keyedChoices a.usedWords a.size E.mnemonic random := by
  obtain ⟨x, hx⟩ : ∃ x, canonicalPack [a.salt.getD [], E.mnemonic] 1 [0] 8 = .ok x := by
    refine C01_pack_total (by decide) (by decide) (by decide) (by decide) (by simp) ?_
    intro i hi
    have e : (256 : Nat) ^ 8 = 2 ^ 64 := by decide
    rcases List.mem_cons.1 hi with rfl | hi
    · omega
    · have := List.mem_singleton.1 hi; subst this; omega
  have hk : mnemonicKey passcrypt random x passphrase a.settings = if a.settings then .error .value else .ok random := by
    unfold mnemonicKey
    cases passphrase with
    | none => rfl
    | some p =>
      have : p = [] := by simpa using hp
      subst this; rfl
  simp only [Env.newMnemonic, hx, bind, Except.bind, hk]
  cases a.settings with
  | true => rfl
  | false =>
    simp only [Bool.false_eq_true, if_false, Args.usedWords]
    cases a.words with
    | none => rfl
    | some l => cases l <;> rfl

/-! ### C63 -/

/-- The blocks of 16 bytes that select position `i` of `n`. -/
def blocksOf (n i : Nat) : List Bytes := (List.range ((256 ^ 16 - i + n - 1) / n)).map fun j => beDigits 16 (i + j * n)

theorem blocks_lt {n i j : Nat} (hn : n ≤ 256 ^ 16) (hi : i < n) : j < (256 ^ 16 - i + n - 1) / n ↔ i + j * n < 256 ^ 16 := by
  have hn0 : 0 < n := by omega
  rw [Nat.lt_div_iff_mul_lt hn0]
  generalize 256 ^ 16 = N at *
  have h1 : j * n = n * j := Nat.mul_comm _ _
  rw [h1]
  omega

theorem blocks_nodup {n i : Nat} (hn : n ≤ 256 ^ 16) (hi : i < n) : (blocksOf n i).Nodup := by
  unfold blocksOf
  rw [List.Nodup, List.pairwise_map]
  refine List.Pairwise.imp_of_mem ?_ List.nodup_range
  intro a b ha hb hab e
  have h1 := (blocks_lt hn hi).1 (List.mem_range.1 ha)
  have h2 := (blocks_lt hn hi).1 (List.mem_range.1 hb)
  have := beDigits_inj h1 h2 e
  exact hab (Nat.eq_of_mul_eq_mul_right (by omega : 0 < n) (by omega))

theorem mem_blocks {n i : Nat} (hn : n ≤ 256 ^ 16) (hi : i < n) (b : Bytes) : b ∈ blocksOf n i ↔ b.length = 16 ∧ fromBE b % n = i := by
  unfold blocksOf
  rw [List.mem_map]
  constructor
  · rintro ⟨j, hj, rfl⟩
    have h1 := (blocks_lt hn hi).1 (List.mem_range.1 hj)
    refine ⟨length_beDigits _ _, ?_⟩
    rw [fromBE_beDigits_of_lt h1, Nat.add_mul_mod_self_right, Nat.mod_eq_of_lt hi]
  · rintro ⟨hl, hm⟩
    have hlt := fromBE_lt b
    rw [hl] at hlt
    have he : i + fromBE b / n * n = fromBE b := by
      rw [← hm, Nat.mul_comm]; exact Nat.mod_add_div _ _
    refine ⟨fromBE b / n, List.mem_range.2 ((blocks_lt hn hi).2 (by rw [he]; exact hlt)), ?_⟩
    rw [he, ← hl]
    exact beDigits_fromBE b

theorem length_blocks {n i : Nat} (hn : n ≤ 256 ^ 16) (hi : i < n) : (blocksOf n i).length = 256 ^ 16 / n ∨ (blocksOf n i).length = 256 ^ 16 / n + 1 := by
  have hn0 : 0 < n := by omega
  simp only [blocksOf, List.length_map, List.length_range]
  generalize 256 ^ 16 = N at *
  have h1 : N / n ≤ (N - i + n - 1) / n := Nat.div_le_div_right (by omega)
  have h2 : (N - i + n - 1) / n ≤ (N + n) / n := Nat.div_le_div_right (by omega)
  rw [Nat.add_div_right _ hn0] at h2
  omega

/-- **C63** Each selection is a block of 16 pseudo-random bytes. The blocks that select a position are as many for one position as for another, give or take one:
`2 ^ 128 / n` or `2 ^ 128 / n + 1` of the `2 ^ 128` blocks. -/
theorem C63_fair {α} (choices : List α) (hn : choices.length ≤ 2 ^ 128) (i : Nat) (hi : i < choices.length) :
    ∃ blocks : List Bytes, blocks.Nodup ∧ (∀ b, b ∈ blocks ↔ b.length = 16 ∧ fromBE b % choices.length = i) ∧ (∀ b ∈ blocks, pick choices b = .ok choices[i]) ∧
      (blocks.length = 2 ^ 128 / choices.length ∨ blocks.length = 2 ^ 128 / choices.length + 1) := by
  have e : (2 : Nat) ^ 128 = 256 ^ 16 := by decide
  rw [e] at hn ⊢
  refine ⟨blocksOf choices.length i, blocks_nodup hn hi, mem_blocks hn hi, ?_, length_blocks hn hi⟩
  intro b hb
  have h := ((mem_blocks hn hi b).1 hb).2
  have h0 : choices ≠ [] := by rintro rfl; simp at hi
  simp [pick, h, hi, h0]

/-- The words `l` are different from each other and from those that `seen` records. -/
def distinct (m : Nat) : Nat → List Nat → Bool
  | _, [] => true
  | seen, w :: ws => !seen.testBit (w % m) && distinct m (seen ||| 1 <<< (w % m)) ws

theorem distinct_nodup {m : Nat} (l : List Nat) : ∀ seen, distinct m seen l = true → l.Nodup ∧ ∀ w ∈ l, seen.testBit (w % m) = false := by
  induction l with
  | nil => intro seen _; exact ⟨List.nodup_nil, by intro w hw; cases hw⟩
  | cons w ws ih =>
    intro seen h
    simp only [distinct, Bool.and_eq_true, Bool.not_eq_true'] at h
    obtain ⟨h1, h2⟩ := ih _ h.2
    refine ⟨List.nodup_cons.2 ⟨?_, h1⟩, ?_⟩
    · intro hm
      have := h2 w hm
      simp [Nat.testBit_or, Nat.testBit_shiftLeft] at this
    · intro v hv
      rcases List.mem_cons.1 hv with rfl | hv
      · exact h.1
      · have := h2 v hv
        simp only [Nat.testBit_or, Bool.or_eq_false_iff] at this
        exact this.1

set_option maxRecDepth 100000 in
theorem wordList_distinct : distinct 176228 0 (wordList.map fromLE) = true := by decide +kernel

set_option maxRecDepth 100000 in
theorem wordList_length : wordList.length = 2048 := by decide +kernel

set_option maxRecDepth 100000 in
theorem wordList_lower : (wordList.all fun w => !w.isEmpty && w.all fun c => decide (97 ≤ c) && decide (c ≤ 122)) = true := by decide +kernel

/-- **C63** The default list has 2048 words, no two are the same, and they consist of lower case letters. -/
theorem C63_default_list : wordList.length = 2048 ∧ wordList.Nodup ∧ ∀ w ∈ wordList, w ≠ [] ∧ ∀ c ∈ w, 97 ≤ c ∧ c ≤ 122 := by
  refine ⟨wordList_length, ?_, ?_⟩
  · have h := (distinct_nodup _ _ wordList_distinct).1
    rw [List.Nodup, List.pairwise_map] at h
    exact h.imp (fun h e => h (by rw [e]))
  · have h := wordList_lower
    rw [List.all_eq_true] at h
    intro w hw
    have := h w hw
    simp only [Bool.and_eq_true, Bool.not_eq_true', List.all_eq_true, decide_eq_true_eq] at this
    exact ⟨by intro e; simp [e] at this, this.2⟩

theorem uniform_of {α} {choices : List α} (hnd : choices.Nodup) (hl : choices.length = 2048) {w : α} (hw : w ∈ choices) :
    ∃ blocks : List Bytes, blocks.Nodup ∧ (∀ b, b ∈ blocks ↔ b.length = 16 ∧ pick choices b = .ok w) ∧ blocks.length = 2 ^ 117 := by
  obtain ⟨i, hi, rfl⟩ := List.getElem_of_mem hw
  have hn : choices.length ≤ 256 ^ 16 := by rw [hl]; decide
  refine ⟨blocksOf choices.length i, blocks_nodup hn hi, ?_, ?_⟩
  · intro b
    rw [mem_blocks hn hi]
    refine and_congr_right fun _ => ?_
    have hm : fromBE b % choices.length < choices.length := Nat.mod_lt _ (by omega)
    have hp : pick choices b = .ok choices[fromBE b % choices.length] := by
      unfold pick
      rw [if_neg (by omega), List.getElem?_eq_getElem hm]
    rw [hp]
    constructor
    · intro h; simp only [h]
    · intro h
      injection h with h
      exact nodup_getElem_inj hnd hm hi h
  · rw [hl] at hi ⊢
    simp only [blocksOf, List.length_map, List.length_range]
    omega

/-- **C63** With the default list every word is selected by exactly `2 ^ 117` of the `2 ^ 128` blocks. -/
theorem C63_default_uniform (w : Bytes) (hw : w ∈ wordList) :
    ∃ blocks : List Bytes, blocks.Nodup ∧ (∀ b, b ∈ blocks ↔ b.length = 16 ∧ pick wordList b = .ok w) ∧ blocks.length = 2 ^ 117 :=
  uniform_of C63_default_list.2.1 C63_default_list.1 hw

/-! ### samples -/

/-- A toy hash function: the digest is a counter. -/
def sampleEnv : Env :=
  let xof : Nat → Hasher := fun b => ⟨b, 0, fun _ n => (List.range n).map UInt8.ofNat⟩
  ⟨xof 168, xof 136, [1], List.replicate 8 2, List.replicate 8 3, List.replicate 8 4⟩

theorem sampleEnv_fits : sampleEnv.Fits := by
  refine { digestSize := rfl, length := ?_, block128 := rfl, block256 := rfl, kdf := rfl, prng := rfl, mnemonic := rfl, length128 := ?_ } <;>
  · intro x n
    simp [sampleEnv]

example : ∃ l, sampleEnv.keyedChoices ["a", "b", "c"] 5 [] [7] = .ok l ∧ l.length = 5 ∧ ∀ x ∈ l, x ∈ ["a", "b", "c"] := by
  obtain ⟨l, hl⟩ := C55_total sampleEnv sampleEnv_fits ["a", "b", "c"] (by simp) (by decide) 5 (by decide) [] [7] (by simp) (by decide)
  exact ⟨l, hl, C55_selected sampleEnv sampleEnv_fits.toXof _ _ _ _ hl⟩

example : ∃ blocks : List Bytes, blocks.Nodup ∧ blocks.length = 2 ^ 128 / 3 + 1 ∧ ∀ b ∈ blocks, pick ["a", "b", "c"] b = .ok "a" := by
  obtain ⟨blocks, h1, _, h3, h4⟩ := C63_fair ["a", "b", "c"] (by decide) 0 (by decide)
  refine ⟨blocksOf 3 0, blocks_nodup (by decide) (by decide), ?_, ?_⟩
  · simp only [blocksOf, List.length_map, List.length_range]
  · intro b hb
    have := ((mem_blocks (n := 3) (by decide) (by decide) b).1 hb).2
    simp [pick, this]

-- with a passphrase and a salt
example : ∃ l, sampleEnv.newMnemonic (fun p _ => .ok p) [1] (some [2]) { salt := some [3], words := some [[97], [98]] } = .ok l ∧ l.length = 8 := by
  obtain ⟨encode, _, h2, h3⟩ := C55_passphrase sampleEnv
  obtain ⟨x, hx⟩ := h2 [3] (by decide) (by decide)
  have h := h3 (fun p _ => .ok p) [1] [2] { salt := some [3], words := some [[97], [98]] } (by simp)
  have hw : Args.usedWords { salt := some [3], words := some [[97], [98]] } = [[97], [98]] := rfl
  simp only [Option.getD_some, hx, hw, bind, Except.bind] at h
  obtain ⟨l, hl⟩ := C55_total sampleEnv sampleEnv_fits [([97] : Bytes), [98]] (by simp) (by decide) 8 (by decide) sampleEnv.mnemonic [2] (by simp) (by decide)
  rw [hl] at h
  exact ⟨l, h, (C55_mnemonic sampleEnv sampleEnv_fits.toXof _ _ _ _ h).1⟩

end Aiootp.Mnemonic
