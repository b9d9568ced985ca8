import Verif.Model.Random
import Verif.Lemmas.Perm
import Verif.Props.Canon
import Mathlib.Data.Fin.VecNotation

/-!
C65: no schedule makes two calls of the generators hash the same bytes. C66: calls of the generators do not raise.
-/

namespace Aiootp.Random

open Canon

/-! ### tokens -/

/-- The fields of a token fit their places. -/
structure InRange (bits counter thread process : Nat) : Prop where
  bits : bits < 2 ^ 256
  counter : counter < 2 ^ 64
  thread : thread < 2 ^ 64
  process : process < 2 ^ 64

theorem xor_shift (a b k : Nat) (hb : b < 2 ^ k) : (a <<< k) ^^^ b = a * 2 ^ k + b := by
  rw [← Nat.shiftLeft_eq, Nat.shiftLeft_add_eq_or_of_lt hb]
  apply Nat.eq_of_testBit_eq
  intro i
  rw [Nat.testBit_xor, Nat.testBit_or, Nat.testBit_shiftLeft]
  by_cases h : k ≤ i
  · have : b.testBit i = false := Nat.testBit_lt_two_pow (Nat.lt_of_lt_of_le hb (Nat.pow_le_pow_right (by decide) h))
    simp [this]
  · simp [h]

theorem token_value {bits counter thread process : Nat} (h : InRange bits counter thread process) :
    (bits <<< 192) ^^^ (counter <<< 128) ^^^ (thread <<< 64) ^^^ process = bits * 2 ^ 192 + (counter * 2 ^ 128 + (thread * 2 ^ 64 + process)) := by
  obtain ⟨h1, h2, h3, h4⟩ := h
  rw [Nat.xor_assoc, Nat.xor_assoc, xor_shift thread process 64 h4, xor_shift counter _ 128 (by omega), xor_shift bits _ 192 (by omega)]

/-- **C65** `canonical_token` never raises, its tokens have 56 bytes, and tokens are equal only if all four fields are. -/
theorem C65_token {bits counter thread process : Nat} (h : InRange bits counter thread process) :
    ∃ token, canonicalToken bits counter thread process = .ok token ∧ token.length = 56 ∧
      ∀ bits' counter' thread' process', InRange bits' counter' thread' process' → canonicalToken bits' counter' thread' process' = .ok token →
        bits' = bits ∧ counter' = counter ∧ thread' = thread ∧ process' = process := by
  have value : ∀ {bits counter thread process : Nat}, InRange bits counter thread process → ∀ {t}, canonicalToken bits counter thread process = .ok t ↔
      t = beDigits 56 (bits * 2 ^ 192 + (counter * 2 ^ 128 + (thread * 2 ^ 64 + process))) := by
    intro bits counter thread process h t
    rw [canonicalToken, token_value h, toBytesBE_ok]
    obtain ⟨h1, h2, h3, h4⟩ := h
    constructor
    · exact fun h => h.2
    · exact fun h => ⟨by omega, h⟩
  refine ⟨_, (value h).2 rfl, length_beDigits _ _, ?_⟩
  intro bits' counter' thread' process' h' he
  have := (value h').1 he
  obtain ⟨h1, h2, h3, h4⟩ := h
  obtain ⟨k1, k2, k3, k4⟩ := h'
  have := beDigits_inj (by omega) (by omega) this
  omega

example : InRange (2 ^ 255 + 1) 123456789 140737353971520 4242 := ⟨by decide, by decide, by decide, by decide⟩

/-! ### messages -/

variable {ι : Type} [DecidableEq ι] {calls : ι → Call} {home : ι → Nat}

/-- The tokens of a list of calls. -/
def tokens (tok : ι → Bytes) (ks : List ι) : Bytes := ks.flatMap tok

/-- The token of a call that makes one. -/
def tokenOf (calls : ι → Call) (k : ι) : Bytes :=
  match (calls k).token with
  | .ok t => t
  | .error _ => []

/-- A call has given its token to the shared object. -/
def Started (calls : ι → Call) (s : State ι) (k : ι) : Prop := (calls k).token = .ok (tokenOf calls k) ∧ s.phase k ≠ .idle

/-- What a copy of the shared object has absorbed: tokens of different calls, also the one of this call. -/
def Absorbs (calls : ι → Call) (seed : Bytes) (k : ι) (copy : Bytes) : Prop :=
  ∃ ks : List ι, ks.Nodup ∧ k ∈ ks ∧ (∀ j ∈ ks, (calls j).token = .ok (tokenOf calls j)) ∧ copy = seed ++ tokens (tokenOf calls) ks

structure Inv (calls : ι → Call) (home : ι → Nat) (seed : Bytes) (s : State ι) : Prop where
  live : ∀ k, s.phase k ≠ .idle → s.absorbed (home k) ≠ none
  absorbed : ∀ p a, s.absorbed p = some a → ∃ ks : List ι, ks.Nodup ∧ (∀ k ∈ ks, Started calls s k) ∧ a = seed ++ tokens (tokenOf calls) ks ∧
    ∀ k, home k = p → Started calls s k → k ∈ ks
  updated : ∀ k t, s.phase k = .updated t → (calls k).token = .ok t
  copied : ∀ k c t, s.phase k = .copied c t → (calls k).token = .ok t ∧ Absorbs calls seed k c
  done : ∀ k m, s.phase k = .done m → ∃ c, m = c ++ (calls k).last (tokenOf calls k) ∧ (calls k).token = .ok (tokenOf calls k) ∧ Absorbs calls seed k c

theorem Inv.init (seed : Bytes) : Inv calls home seed (State.init seed) where
  live k h := absurd rfl h
  absorbed p a h := by
    simp only [State.init] at h
    split at h
    · injection h with h
      exact ⟨[], List.nodup_nil, by simp, by simp [tokens, h], fun k _ hs => absurd rfl hs.2⟩
    · cases h
  updated k t h := by cases h
  copied k c t h := by cases h
  done k m h := by cases h

theorem put_same {κ α : Type} [DecidableEq κ] (f : κ → α) (k : κ) (a : α) : put f k a k = a := by simp [put]

theorem put_ne {κ α : Type} [DecidableEq κ] (f : κ → α) {k n : κ} (a : α) (h : n ≠ k) : put f k a n = f n := by simp [put, h]

theorem tokenOf_eq {k : ι} {t : Bytes} (h : (calls k).token = .ok t) : tokenOf calls k = t := by simp [tokenOf, h]

theorem Started.mono {s s' : State ι} (h : ∀ k, s.phase k ≠ .idle → s'.phase k ≠ .idle) {k : ι} (hs : Started calls s k) : Started calls s' k := ⟨hs.1, h k hs.2⟩

/-- A phase that is not the first replaces one that is not the first. -/
theorem absorbed_phase {seed : Bytes} {s : State ι} (hi : Inv calls home seed s) {k : ι} (p : Phase) (hk : s.phase k ≠ .idle ∨ ∃ e, (calls k).token = .error e) (hp : p ≠ .idle) :
    ∀ q a, s.absorbed q = some a → ∃ ks : List ι, ks.Nodup ∧ (∀ j ∈ ks, Started calls { s with phase := put s.phase k p } j) ∧
      a = seed ++ tokens (tokenOf calls) ks ∧ ∀ j, home j = q → Started calls { s with phase := put s.phase k p } j → j ∈ ks := by
  intro q a ha
  obtain ⟨ks, h1, h2, h3, h4⟩ := hi.absorbed q a ha
  refine ⟨ks, h1, fun j hj => (h2 j hj).mono ?_, h3, ?_⟩
  · intro n hn
    show put s.phase k p n ≠ .idle
    by_cases e : n = k
    · subst e; rw [put_same]; exact hp
    · rw [put_ne _ _ e]; exact hn
  · intro j hj hs
    refine h4 j hj ⟨hs.1, ?_⟩
    by_cases e : j = k
    · subst e
      rcases hk with hk | ⟨e, he⟩
      · exact hk
      · have := hs.1
        rw [he] at this
        cases this
    · have := hs.2
      have : put s.phase k p j ≠ .idle := this
      rwa [put_ne _ _ e] at this

theorem Inv.advance {seed : Bytes} {s : State ι} (hi : Inv calls home seed s) (k : ι) : Inv calls home seed (advance calls home s k) := by
  unfold Random.advance
  cases ha : s.absorbed (home k) with
  | none => exact hi
  | some a =>
    simp only
    cases hp : s.phase k with
    | idle =>
      simp only
      cases ht : (calls k).token with
      | error e =>
        simp only
        refine ⟨?_, absorbed_phase hi _ (.inr ⟨e, ht⟩) (by simp), ?_, ?_, ?_⟩
        · intro j hj
          have hj : put s.phase k (.failed e) j ≠ .idle := hj
          show s.absorbed (home j) ≠ none
          by_cases h : j = k
          · subst h; rw [ha]; simp
          · rw [put_ne _ _ h] at hj; exact hi.live j hj
        · intro j t hj
          have hj : put s.phase k (.failed e) j = .updated t := hj
          by_cases h : j = k
          · subst h; rw [put_same] at hj; cases hj
          · rw [put_ne _ _ h] at hj; exact hi.updated j t hj
        · intro j c t hj
          have hj : put s.phase k (.failed e) j = .copied c t := hj
          by_cases h : j = k
          · subst h; rw [put_same] at hj; cases hj
          · rw [put_ne _ _ h] at hj; exact hi.copied j c t hj
        · intro j m hj
          have hj : put s.phase k (.failed e) j = .done m := hj
          by_cases h : j = k
          · subst h; rw [put_same] at hj; cases hj
          · rw [put_ne _ _ h] at hj; exact hi.done j m hj
      | ok t =>
        simp only
        have htok := tokenOf_eq ht
        refine ⟨?_, ?_, ?_, ?_, ?_⟩
        · intro j hj
          have hj : put s.phase k (.updated t) j ≠ .idle := hj
          show put s.absorbed (home k) _ (home j) ≠ none
          by_cases h : home j = home k
          · rw [h, put_same]; simp
          · rw [put_ne _ _ h]
            by_cases e : j = k
            · subst e; exact absurd rfl h
            · rw [put_ne _ _ e] at hj; exact hi.live j hj
        · intro q b hb
          have hb : put s.absorbed (home k) (some (a ++ t)) q = some b := hb
          have hmono : ∀ j, Started calls s j → Started calls ⟨put s.absorbed (home k) (some (a ++ t)), put s.phase k (.updated t)⟩ j := by
            intro j hj
            refine hj.mono fun n hn => ?_
            show put s.phase k (.updated t) n ≠ .idle
            by_cases e : n = k
            · subst e; rw [put_same]; simp
            · rw [put_ne _ _ e]; exact hn
          have hback : ∀ j, j ≠ k → Started calls ⟨put s.absorbed (home k) (some (a ++ t)), put s.phase k (.updated t)⟩ j → Started calls s j := by
            intro j hj hs
            refine ⟨hs.1, ?_⟩
            have : put s.phase k (.updated t) j ≠ .idle := hs.2
            rwa [put_ne _ _ hj] at this
          by_cases h : q = home k
          · subst h
            rw [put_same] at hb
            injection hb with hb
            obtain ⟨ks, h1, h2, h3, h4⟩ := hi.absorbed _ a ha
            have hk : k ∉ ks := fun hk => (h2 k hk).2 hp
            refine ⟨ks ++ [k], ?_, ?_, ?_, ?_⟩
            · rw [List.nodup_append]
              exact ⟨h1, by simp, fun x hx y hy => by simp only [List.mem_singleton] at hy; subst hy; rintro rfl; exact hk hx⟩
            · intro j hj
              rcases List.mem_append.1 hj with hj | hj
              · exact hmono j (h2 j hj)
              · simp only [List.mem_singleton] at hj
                subst hj
                refine ⟨by rw [htok]; exact ht, ?_⟩
                show put s.phase j (.updated t) j ≠ .idle
                rw [put_same]; simp
            · rw [← hb, h3]
              simp [tokens, htok]
            · intro j hj hs
              by_cases e : j = k
              · subst e; simp
              · exact List.mem_append_left _ (h4 j hj (hback j e hs))
          · rw [put_ne _ _ h] at hb
            obtain ⟨ks, h1, h2, h3, h4⟩ := hi.absorbed q b hb
            refine ⟨ks, h1, fun j hj => hmono j (h2 j hj), h3, fun j hj hs => ?_⟩
            by_cases e : j = k
            · subst e; exact absurd hj.symm h
            · exact h4 j hj (hback j e hs)
        · intro j u hj
          have hj : put s.phase k (.updated t) j = .updated u := hj
          by_cases h : j = k
          · subst h; rw [put_same] at hj; injection hj with hj; rw [← hj]; exact ht
          · rw [put_ne _ _ h] at hj; exact hi.updated j u hj
        · intro j c u hj
          have hj : put s.phase k (.updated t) j = .copied c u := hj
          by_cases h : j = k
          · subst h; rw [put_same] at hj; cases hj
          · rw [put_ne _ _ h] at hj; exact hi.copied j c u hj
        · intro j m hj
          have hj : put s.phase k (.updated t) j = .done m := hj
          by_cases h : j = k
          · subst h; rw [put_same] at hj; cases hj
          · rw [put_ne _ _ h] at hj; exact hi.done j m hj
    | updated t =>
      simp only
      have ht := hi.updated k t hp
      refine ⟨?_, absorbed_phase hi _ (.inl (by rw [hp]; simp)) (by simp), ?_, ?_, ?_⟩
      · intro j hj
        have hj : put s.phase k (.copied a t) j ≠ .idle := hj
        show s.absorbed (home j) ≠ none
        by_cases h : j = k
        · subst h; rw [ha]; simp
        · rw [put_ne _ _ h] at hj; exact hi.live j hj
      · intro j u hj
        have hj : put s.phase k (.copied a t) j = .updated u := hj
        by_cases h : j = k
        · subst h; rw [put_same] at hj; cases hj
        · rw [put_ne _ _ h] at hj; exact hi.updated j u hj
      · intro j c u hj
        have hj : put s.phase k (.copied a t) j = .copied c u := hj
        by_cases h : j = k
        · subst h
          rw [put_same] at hj
          injection hj with h1 h2
          subst h1 h2
          refine ⟨ht, ?_⟩
          obtain ⟨ks, h1, h2, h3, h4⟩ := hi.absorbed _ a ha
          exact ⟨ks, h1, h4 j rfl ⟨by rw [tokenOf_eq ht]; exact ht, by rw [hp]; simp⟩, fun i hi => (h2 i hi).1, h3⟩
        · rw [put_ne _ _ h] at hj; exact hi.copied j c u hj
      · intro j m hj
        have hj : put s.phase k (.copied a t) j = .done m := hj
        by_cases h : j = k
        · subst h; rw [put_same] at hj; cases hj
        · rw [put_ne _ _ h] at hj; exact hi.done j m hj
    | copied c t =>
      simp only
      obtain ⟨ht, hab⟩ := hi.copied k c t hp
      refine ⟨?_, absorbed_phase hi _ (.inl (by rw [hp]; simp)) (by simp), ?_, ?_, ?_⟩
      · intro j hj
        have hj : put s.phase k (.done (c ++ (calls k).last t)) j ≠ .idle := hj
        show s.absorbed (home j) ≠ none
        by_cases h : j = k
        · subst h; rw [ha]; simp
        · rw [put_ne _ _ h] at hj; exact hi.live j hj
      · intro j u hj
        have hj : put s.phase k (.done (c ++ (calls k).last t)) j = .updated u := hj
        by_cases h : j = k
        · subst h; rw [put_same] at hj; cases hj
        · rw [put_ne _ _ h] at hj; exact hi.updated j u hj
      · intro j d u hj
        have hj : put s.phase k (.done (c ++ (calls k).last t)) j = .copied d u := hj
        by_cases h : j = k
        · subst h; rw [put_same] at hj; cases hj
        · rw [put_ne _ _ h] at hj; exact hi.copied j d u hj
      · intro j m hj
        have hj : put s.phase k (.done (c ++ (calls k).last t)) j = .done m := hj
        by_cases h : j = k
        · subst h
          rw [put_same] at hj
          injection hj with hj
          have := tokenOf_eq ht
          exact ⟨c, by rw [this, hj], by rw [this]; exact ht, hab⟩
        · rw [put_ne _ _ h] at hj; exact hi.done j m hj
    | done m => exact hi
    | failed e => exact hi

theorem Inv.step {seed : Bytes} {s : State ι} (hi : Inv calls home seed s) (e : Event ι) : Inv calls home seed (step calls home s e) := by
  cases e with
  | advance k => exact hi.advance k
  | fork parent child =>
    unfold Random.step
    cases hc : s.absorbed child with
    | some a => simpa only [hc] using hi
    | none =>
      simp only [hc]
      refine ⟨?_, ?_, hi.updated, hi.copied, hi.done⟩
      · intro k hk
        have := hi.live k hk
        show put s.absorbed child _ (home k) ≠ none
        by_cases h : home k = child
        · rw [h] at this; exact absurd hc this
        · rw [put_ne _ _ h]; exact this
      · intro p a ha
        have ha : put s.absorbed child (s.absorbed parent) p = some a := ha
        by_cases h : p = child
        · subst h
          rw [put_same] at ha
          obtain ⟨ks, h1, h2, h3, h4⟩ := hi.absorbed parent a ha
          refine ⟨ks, h1, fun k hk => ⟨(h2 k hk).1, (h2 k hk).2⟩, h3, fun k hk hs => ?_⟩
          exact absurd hc (by rw [← hk]; exact hi.live k hs.2)
        · rw [put_ne _ _ h] at ha
          obtain ⟨ks, h1, h2, h3, h4⟩ := hi.absorbed p a ha
          exact ⟨ks, h1, fun k hk => ⟨(h2 k hk).1, (h2 k hk).2⟩, h3, fun k hk hs => h4 k hk ⟨hs.1, hs.2⟩⟩

theorem Inv.run {seed : Bytes} {events : List (Event ι)} {s : State ι} (hi : Inv calls home seed s) : Inv calls home seed (run calls home s events) := by
  induction events generalizing s with
  | nil => exact hi
  | cons e es ih => exact ih (hi.step e)

/-- Of two sequences of tokens that start one byte string, one starts the other. -/
theorem sequences {tok : ι → Bytes} {good : ι → Prop} (hfree : ∀ i j x y, good i → good j → tok i ++ x = tok j ++ y → i = j) :
    ∀ (L L' : List ι), (∀ i ∈ L, good i) → (∀ i ∈ L', good i) → ∀ x y, tokens tok L ++ x = tokens tok L' ++ y → L <+: L' ∨ L' <+: L := by
  intro L
  induction L with
  | nil => intro L' _ _ x y _; exact .inl (List.nil_prefix)
  | cons a L ih =>
    intro L' hL hL' x y h
    cases L' with
    | nil => exact .inr List.nil_prefix
    | cons b L' =>
      have ea : tokens tok (a :: L) = tok a ++ tokens tok L := by simp [tokens]
      have eb : tokens tok (b :: L') = tok b ++ tokens tok L' := by simp [tokens]
      rw [ea, eb, List.append_assoc, List.append_assoc] at h
      have e := hfree a b _ _ (hL a List.mem_cons_self) (hL' b List.mem_cons_self) h
      subst e
      rcases ih L' (fun i hi => hL i (List.mem_cons_of_mem _ hi)) (fun i hi => hL' i (List.mem_cons_of_mem _ hi)) x y (List.append_cancel_left h) with h | h
      · exact .inl ((List.cons_prefix_cons).2 ⟨rfl, h⟩)
      · exact .inr ((List.cons_prefix_cons).2 ⟨rfl, h⟩)

/-- A list of different calls with a member of it added does not start another such list, but itself. -/
theorem not_prefix {ks ks' : List ι} {i j : ι} (hi : i ∈ ks) (hn : ks'.Nodup) (hp : ks ++ [i] <+: ks' ++ [j]) : i = j := by
  obtain ⟨t, ht⟩ := hp
  rcases List.eq_nil_or_concat t with rfl | ⟨t', b, rfl⟩
  · rw [List.append_nil] at ht
    have := (List.append_inj' ht rfl).2
    injection this
  · exfalso
    have : ks ++ [i] ++ t' ++ [b] = ks' ++ [j] := by rw [← ht]; simp
    have := (List.append_inj' this rfl).1
    rw [← this, List.nodup_append, List.nodup_append] at hn
    exact hn.1.2.2 i hi i (by simp) rfl

/-- **C65** What a call of `hash` gives to the shared object shows everything it was called with: the token of the call, the pool, the size, the data, and which of the two versions
was called. -/
theorem C65_hash_token {async async' : Bool} {context context' pool pool' t : Bytes} {size size' : Nat} {data data' : List Bytes}
    (h : (Call.hash async context pool size data).token = .ok t) (h' : (Call.hash async' context' pool' size' data').token = .ok t) :
    async = async' ∧ context = context' ∧ pool = pool' ∧ size = size' ∧ data = data' := by
  simp only [Call.token, bind_eq_ok, toBytesBE_ok] at h h'
  obtain ⟨a, ⟨ha, rfl⟩, h⟩ := h
  obtain ⟨b, ⟨hb, rfl⟩, h'⟩ := h'
  obtain ⟨h1, _, h2, _⟩ := C02_pack_injective h h'
  simp only [List.cons.injEq] at h1 h2
  obtain ⟨rfl, rfl, h3, rfl⟩ := h1
  refine ⟨?_, rfl, rfl, beDigits_inj ha hb h3, rfl⟩
  revert h2
  cases async <;> cases async' <;> decide

example : ∃ t, (Call.hash true [1] [2] 3 [[4], []]).token = .ok t := by
  have h : toBytesBE 8 3 = .ok (beDigits 8 3) := rfl
  simp only [Call.token, h, bind, Except.bind]
  exact C01_pack_total (by decide) (by decide) (by decide) (by decide) (by decide) (by decide)

/-- The first 56 bytes of the token of a `csprng` call, which start with 256 random bits, are not the first bytes of a packed encoding that is used at any time. -/
def NoHeader (calls : ι → Call) : Prop :=
  ∀ i j context entropy pool async context' pool' size data t, calls i = .csprng context entropy pool → calls j = .hash async context' pool' size data →
    (calls j).token = .ok t → ¬ context <+: t

theorem tokens_free (hlen : ∀ k, (calls k).context.length = 56) (hctx : ∀ i j, (calls i).context = (calls j).context → i = j) (hhead : NoHeader calls) :
    ∀ i j x y, (calls i).token = .ok (tokenOf calls i) → (calls j).token = .ok (tokenOf calls j) → tokenOf calls i ++ x = tokenOf calls j ++ y → i = j := by
  intro i j x y hi hj h
  have long : ∀ {async : Bool} {context pool : Bytes} {size : Nat} {data : List Bytes} {t : Bytes}, context.length = 56 →
      (Call.hash async context pool size data).token = .ok t → 56 ≤ t.length := by
    intro async context pool size data t hc ht
    simp only [Call.token, bind_eq_ok] at ht
    obtain ⟨s, _, ht⟩ := ht
    have := (C06_pack_aligned ht).2.2.1
    simp only [unpaddedSize, List.map_cons, List.sum_cons, hc] at this
    omega
  cases ci : calls i with
  | csprng c e p =>
    have li : c.length = 56 := by have := hlen i; rw [ci] at this; exact this
    rw [ci] at hi
    simp only [Call.token, Except.ok.injEq] at hi
    cases cj : calls j with
    | csprng c' e' p' =>
      have lj : c'.length = 56 := by have := hlen j; rw [cj] at this; exact this
      rw [cj] at hj
      simp only [Call.token, Except.ok.injEq] at hj
      rw [← hi, ← hj, List.append_assoc, List.append_assoc] at h
      refine hctx i j ?_
      rw [ci, cj]
      exact (List.append_inj h (by rw [li, lj])).1
    | hash async c' p' size data =>
      exfalso
      have lj : c'.length = 56 := by have := hlen j; rw [cj] at this; exact this
      have l2 : 56 ≤ (tokenOf calls j).length := long lj (by rw [← cj]; exact hj)
      refine hhead i j c e p async c' p' size data _ ci cj hj ?_
      rw [← hi, List.append_assoc] at h
      rw [← li] at l2
      exact List.prefix_of_prefix_length_le ⟨e ++ x, h⟩ (List.prefix_append _ _) l2
  | hash async c p size data =>
    have li : c.length = 56 := by have := hlen i; rw [ci] at this; exact this
    cases cj : calls j with
    | csprng c' e' p' =>
      exfalso
      have lj : c'.length = 56 := by have := hlen j; rw [cj] at this; exact this
      rw [cj] at hj
      simp only [Call.token, Except.ok.injEq] at hj
      have l2 : 56 ≤ (tokenOf calls i).length := long li (by rw [← ci]; exact hi)
      refine hhead j i c' e' p' async c p size data _ cj ci hi ?_
      rw [← hj, List.append_assoc] at h
      rw [← lj] at l2
      exact List.prefix_of_prefix_length_le ⟨e' ++ y, h.symm⟩ (List.prefix_append _ _) l2
    | hash async' c' p' size' data' =>
      rw [ci] at hi
      rw [cj] at hj
      simp only [Call.token, bind_eq_ok] at hi hj
      obtain ⟨_, _, hi⟩ := hi
      obtain ⟨_, _, hj⟩ := hj
      have := (C04_prefix_free hi hj h).1
      simp only [List.cons.injEq] at this
      refine hctx i j ?_
      rw [ci, cj]
      exact this.1

/-- **C65** Whatever the threads and processes do, two calls never make digests of the same bytes. -/
theorem C65_messages (seed : Bytes) (events : List (Event ι)) (hlen : ∀ k, (calls k).context.length = 56) (hctx : ∀ i j, (calls i).context = (calls j).context → i = j)
    (hhead : NoHeader calls) {i j : ι} {m m' : Bytes} (hi : (run calls home (State.init seed) events).phase i = .done m)
    (hj : (run calls home (.init seed) events).phase j = .done m') (hij : i ≠ j) : m ≠ m' := by
  have inv : Inv calls home seed (run calls home (.init seed) events) := (Inv.init seed).run
  obtain ⟨c, hm, gi, ks, n1, k1, g1, rfl⟩ := inv.done i m hi
  obtain ⟨c', hm', gj, ks', n2, k2, g2, rfl⟩ := inv.done j m' hj
  rintro rfl
  have last : ∀ k, ∃ x, (calls k).last (tokenOf calls k) = tokenOf calls k ++ x := by
    intro k
    cases calls k with
    | csprng c e p => exact ⟨p, rfl⟩
    | hash => exact ⟨[], (List.append_nil _).symm⟩
  obtain ⟨x, hx⟩ := last i
  obtain ⟨y, hy⟩ := last j
  rw [hx, List.append_assoc] at hm
  rw [hy, List.append_assoc, hm] at hm'
  have h := List.append_cancel_left hm'
  have e1 : ∀ (ks : List ι) (k : ι), tokens (tokenOf calls) (ks ++ [k]) = tokens (tokenOf calls) ks ++ tokenOf calls k := by
    intro ks k; simp [tokens]
  rw [← List.append_assoc, ← List.append_assoc, ← e1, ← e1] at h
  rcases sequences (good := fun k => (calls k).token = .ok (tokenOf calls k)) (tokens_free hlen hctx hhead) (ks ++ [i]) (ks' ++ [j])
    (by intro a ha; rcases List.mem_append.1 ha with ha | ha; exact g1 a ha; simp only [List.mem_singleton] at ha; subst ha; exact gi)
    (by intro a ha; rcases List.mem_append.1 ha with ha | ha; exact g2 a ha; simp only [List.mem_singleton] at ha; subst ha; exact gj) _ _ h with hp | hp
  · exact hij (not_prefix k1 n2 hp)
  · exact hij (not_prefix k2 n1 hp).symm

/-- Two processes: calls 0 and 1 are made by the first, call 2 is made by its child. -/
def sample : Fin 3 → Call := ![.csprng (List.replicate 56 1) [9] (List.replicate 32 7), .csprng (List.replicate 56 2) [] (List.replicate 32 8),
  .hash true (List.replicate 56 3) (List.replicate 32 7) 32 [[1], []]]

def sampleHome : Fin 3 → Nat := ![0, 0, 1]

def sampleEvents : List (Event (Fin 3)) := [.advance 0, .fork 0 1, .advance 1, .advance 0, .advance 2, .advance 2, .advance 1, .advance 0, .advance 2, .advance 1]

set_option maxRecDepth 100000 in
theorem sample_done : ∀ k, ∃ m, (run sample sampleHome (State.init [5]) sampleEvents).phase k = .done m := by
  have : ∀ k : Fin 3, (match (run sample sampleHome (State.init [5]) sampleEvents).phase k with | .done _ => true | _ => false) = true := by decide +kernel
  intro k
  have := this k
  split at this
  · rename_i m hm; exact ⟨m, hm⟩
  · cases this

set_option maxRecDepth 100000 in
theorem sample_ok : (∀ k, (sample k).context.length = 56) ∧ (∀ i j, (sample i).context = (sample j).context → i = j) ∧ NoHeader sample := by
  refine ⟨by decide, by decide, ?_⟩
  intro i j context entropy pool async context' pool' size data t hi hj ht hpre
  have h1 : ∀ i : Fin 3, (match sample i with | .csprng c _ _ => c.head? == some 1 || c.head? == some 2 | _ => true) = true := by decide
  have h2 : ∀ j : Fin 3, (match sample j, (sample j).token with | .hash .., .ok t => t.head? == some 8 | _, _ => true) = true := by decide +kernel
  have h1 := h1 i
  have h2 := h2 j
  rw [hi] at h1
  rw [ht, hj] at h2
  obtain ⟨x, rfl⟩ := hpre
  cases context with
  | nil => simp at h1
  | cons a l =>
    simp only [List.cons_append, List.head?_cons, Bool.or_eq_true, beq_iff_eq, Option.some.injEq] at h1 h2
    subst h2
    rcases h1 with h | h <;> exact absurd h (by decide)

example : ∃ m m', (run sample sampleHome (State.init [5]) sampleEvents).phase 0 = .done m ∧ (run sample sampleHome (State.init [5]) sampleEvents).phase 2 = .done m' ∧ m ≠ m' := by
  obtain ⟨m, hm⟩ := sample_done 0
  obtain ⟨m', hm'⟩ := sample_done 2
  exact ⟨m, m', hm, hm', C65_messages [5] sampleEvents sample_ok.1 sample_ok.2.1 sample_ok.2.2 hm hm' (by decide)⟩

/-! ### C66: salted multiplications -/

/-- The globals are in range: `_seed` has 256 bits, and the high bits of `_offset` are those it is made with (_early_salts.py:44-46). -/
structure Globals.Good (g : Globals) : Prop where
  seed : g.seed < modulus
  offset : g.offset / modulus = 0x99

/-- What is known of the locals of a call. -/
def At.Good : At → Prop
  | .line84 => True
  | .line85 _ => True
  | .line86 _ _ => True
  | .line87 _ mix => mix < modulus
  | .line87b _ mix seed => mix < modulus ∧ seed < modulus
  | .line88 _ _ => True
  | .line88b _ _ offset => offset / modulus = 0x99
  | .line88c _ _ offset seed => offset / modulus = 0x99 ∧ seed < modulus
  | .line90 _ _ _ => True
  | .returned result => result < modulus

theorem xor_lt_modulus {a b : Nat} (ha : a < modulus) (hb : b < modulus) : a ^^^ b < modulus := Nat.xor_lt_two_pow ha hb

theorem xor_div_modulus {a b : Nat} (hb : b < modulus) : (a ^^^ b) / modulus = a / modulus := by
  have h : b / 2 ^ 256 = 0 := Nat.div_eq_of_lt hb
  unfold modulus
  rw [← Nat.shiftRight_eq_div_pow, Nat.shiftRight_xor_distrib, Nat.shiftRight_eq_div_pow, Nat.shiftRight_eq_div_pow, h, Nat.xor_zero]

theorem multiplyStep_good (m : Multiply) {g : Globals} (hg : g.Good) {pc : At} (hpc : pc.Good) : (multiplyStep m g pc).1.Good ∧ (multiplyStep m g pc).2.Good := by
  have hm : 0 < modulus := by decide
  cases pc with
  | line84 => exact ⟨hg, trivial⟩
  | line85 start => exact ⟨hg, trivial⟩
  | line86 start mix => exact ⟨⟨hg.seed, hg.offset⟩, Nat.mod_lt _ hm⟩
  | line87 start mix => exact ⟨hg, hpc, hg.seed⟩
  | line87b start mix seed => exact ⟨⟨xor_lt_modulus hpc.2 hpc.1, hg.offset⟩, trivial⟩
  | line88 start mix => exact ⟨hg, hg.offset⟩
  | line88b start mix offset => exact ⟨hg, hpc, hg.seed⟩
  | line88c start mix offset seed => exact ⟨⟨hg.seed, (xor_div_modulus hpc.2).trans hpc.1⟩, trivial⟩
  | line90 start mix numbers =>
    cases numbers with
    | nil => exact ⟨hg, xor_lt_modulus hg.seed (Nat.mod_lt _ hm)⟩
    | cons n numbers => exact ⟨hg, trivial⟩
  | returned result => exact ⟨hg, hpc⟩

/-- **C66** Whatever calls the threads make, and however they are interleaved, a salted multiplication returns a number of 256 bits, which has an encoding of 32 bytes,
and `_offset` is never zero. -/
theorem C66_multiply (calls : Nat → Multiply) {g : Globals} (hg : g.Good) (schedule : List Nat) :
    (∀ k r, (multiplyRun calls g (fun _ => .line84) schedule).2 k = .returned r → ∃ b, toBytesBE 32 r = .ok b) ∧
    (multiplyRun calls g (fun _ => .line84) schedule).1.offset ≠ 0 := by
  have key : ∀ (schedule : List Nat) (g : Globals) (pcs : Nat → At), g.Good → (∀ k, (pcs k).Good) →
      (multiplyRun calls g pcs schedule).1.Good ∧ ∀ k, ((multiplyRun calls g pcs schedule).2 k).Good := by
    intro schedule
    induction schedule with
    | nil => intro g pcs h1 h2; exact ⟨h1, h2⟩
    | cons k ks ih =>
      intro g pcs h1 h2
      obtain ⟨h3, h4⟩ := multiplyStep_good (calls k) h1 (h2 k)
      refine ih _ _ h3 fun n => ?_
      by_cases e : n = k
      · subst e; rw [put_same]; exact h4
      · rw [put_ne _ _ e]; exact h2 n
  obtain ⟨h1, h2⟩ := key schedule g (fun _ => .line84) hg (fun _ => trivial)
  constructor
  · intro k r hr
    have := h2 k
    rw [hr] at this
    have this : r < modulus := this
    exact ⟨_, toBytesBE_ok.2 ⟨Nat.lt_of_lt_of_eq this (by decide), rfl⟩⟩
  · intro h0
    have := h1.offset
    rw [h0] at this
    exact absurd this (by decide)

/-- The globals after the module was imported (_early_salts.py:44-46). -/
example (seed bits : Nat) (hs : seed < 2 ^ 256) (hb : bits < 2 ^ 256) (mix : Nat) : (Globals.mk mix seed ((0x99 <<< 256) ||| bits)).Good := by
  refine ⟨hs, ?_⟩
  show ((0x99 <<< 256) ||| bits) / 2 ^ 256 = 0x99
  rw [← Nat.shiftRight_eq_div_pow, Nat.shiftRight_or_distrib, Nat.shiftRight_eq_div_pow bits, Nat.div_eq_of_lt hb]
  decide

/-- The calls return: one step for each load or store, and one for each number. -/
theorem C66_multiply_returns (m : Multiply) (g : Globals) : ∃ r, (multiplyRun (fun _ => m) g (fun _ => .line84) (List.replicate (m.numbers.length + 9) 0)).2 0 = .returned r := by
  have loop : ∀ (numbers : List Nat) (g : Globals) (pcs : Nat → At) (start mix : Nat), pcs 0 = .line90 start mix numbers →
      ∃ r, (multiplyRun (fun _ => m) g pcs (List.replicate (numbers.length + 1) 0)).2 0 = .returned r := by
    intro numbers
    induction numbers with
    | nil =>
      intro g pcs start mix h
      simp only [List.length_nil, Nat.zero_add, List.replicate_one, multiplyRun, h, multiplyStep, put_same]
      exact ⟨_, rfl⟩
    | cons n numbers ih =>
      intro g pcs start mix h
      rw [List.length_cons, List.replicate_succ]
      simp only [multiplyRun, h, multiplyStep]
      exact ih _ _ _ _ (put_same _ _ _)
  have e : m.numbers.length + 9 = 8 + (m.numbers.length + 1) := by omega
  rw [e, List.replicate_add]
  simp only [List.replicate_succ, List.replicate_zero, List.cons_append, List.nil_append, multiplyRun, multiplyStep, put_same]
  exact loop _ _ _ _ _ (put_same _ _ _)

/-- `_salt_multiply` read line by line, for a call that is alone (_early_salts.py:84-92): what it returns, and the globals it leaves. -/
def multiplied (m : Multiply) (g : Globals) : Nat × Globals :=
  let start := m.counter * g.offset
  let mix := (g.mix ^^^ (start + m.sum) ^^^ fromBE m.pool) % 2 ^ 256
  let seed := g.seed ^^^ mix
  let offset := g.offset ^^^ seed
  let last := m.numbers.foldl (fun (x : Nat × Nat) number => ((x.1 ^^^ (x.2 + offset)) * (number ^^^ (x.2 + offset)), x.2 + offset)) (start, mix)
  (seed ^^^ ((last.1 ^^^ last.2) % 2 ^ 256), ⟨mix, seed, offset⟩)

/-- **C66** A call that no other call overlaps returns what its lines say, and leaves the globals they say. -/
theorem C66_alone (m : Multiply) (g : Globals) :
    let r := multiplyRun (fun _ => m) g (fun _ => .line84) (List.replicate (m.numbers.length + 9) 0)
    r.2 0 = .returned (multiplied m g).1 ∧ r.1 = (multiplied m g).2 := by
  have loop : ∀ (numbers : List Nat) (g : Globals) (pcs : Nat → At) (start mix : Nat), pcs 0 = .line90 start mix numbers →
      let last := numbers.foldl (fun (x : Nat × Nat) number => ((x.1 ^^^ (x.2 + g.offset)) * (number ^^^ (x.2 + g.offset)), x.2 + g.offset)) (start, mix)
      let r := multiplyRun (fun _ => m) g pcs (List.replicate (numbers.length + 1) 0)
      r.2 0 = .returned (g.seed ^^^ ((last.1 ^^^ last.2) % 2 ^ 256)) ∧ r.1 = g := by
    intro numbers
    induction numbers with
    | nil =>
      intro g pcs start mix h
      simp only [List.length_nil, Nat.zero_add, List.replicate_one, multiplyRun, h, multiplyStep, put_same, List.foldl_nil, modulus]
      exact ⟨trivial, trivial⟩
    | cons n numbers ih =>
      intro g pcs start mix h
      rw [List.length_cons, List.replicate_succ]
      simp only [multiplyRun, h, multiplyStep, List.foldl_cons]
      exact ih _ _ _ _ (put_same _ _ _)
  have e : m.numbers.length + 9 = 8 + (m.numbers.length + 1) := by omega
  rw [e, List.replicate_add]
  simp only [List.replicate_succ, List.replicate_zero, List.cons_append, List.nil_append, multiplyRun, multiplyStep, put_same]
  exact loop _ _ _ _ _ (put_same _ _ _)

/-! ### C66: the event loop -/

/-- **C66** (a defect) While a thread is inside of `random_number_generator`, every call of another thread raises. -/
theorem C66_overlap_raises (s : Loop) (j k : Nat) (h : s.runner = some j) : k ∈ (s.step (.enter k)).raised := by
  simp [Loop.step, h]

/-- The claim that calls never raise. -/
def NeverRaises : Prop := ∀ events : List LoopEvent, (events.foldl Loop.step ⟨none, [], []⟩).raised = []

theorem C66_two_threads : ¬ NeverRaises := by
  intro h
  exact absurd (h [.enter 0, .enter 1]) (by decide)

/-- **C66** (part) Calls that do not overlap return. -/
theorem C66_apart_partial (threads : List Nat) :
    (threads.flatMap (fun k => [LoopEvent.enter k, LoopEvent.leave k])).foldl Loop.step ⟨none, [], []⟩ = ⟨none, [], threads.reverse⟩ := by
  have key : ∀ (threads done : List Nat), (threads.flatMap (fun k => [LoopEvent.enter k, LoopEvent.leave k])).foldl Loop.step ⟨none, [], done⟩ =
      ⟨none, [], threads.reverse ++ done⟩ := by
    intro threads
    induction threads with
    | nil => intro done; rfl
    | cons k ks ih =>
      intro done
      simp only [List.flatMap_cons, List.cons_append, List.nil_append, List.foldl_cons, Loop.step, if_true, ih, List.reverse_cons, List.append_assoc]
  simpa using key threads []

end Aiootp.Random
