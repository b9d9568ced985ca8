import Verif.Spec.Collision
import Verif.Model.Domains
import Verif.Props.Canon
import Verif.Props.DatabaseKdf

/-
Property C92 (domain constants).
-/

namespace Aiootp.Domains

open Kdf Canon
open Database (utf8 utf8_inj)

/-! ### Calls -/

theorem size_eq (n : Nat) : effectiveSize (some n) 0 = n := by
  cases n <;> rfl

/-- **C92** Two calls of `encode_constant` that hash the same bytes have the same constant, size, domain, aad and pad. -/
theorem C92_messages {c c' : Call} {x : Bytes} (h : c.message = .ok x) (h' : c'.message = .ok x) : c = c' := by
  obtain ⟨-, hp, hs, hl⟩ := C05_same_key_length_partial h h' rfl
  rw [size_eq, size_eq] at hs
  simp only [List.cons.injEq, true_and, and_true] at hl
  obtain ⟨hd, ha, hc⟩ := hl
  cases c; cases c'
  simp_all

/-- **C92** `encode_constant` returns as many bytes as it is asked for, if it is asked for any and `pad` is one byte. (No `bytes` object and no size
reaches 2^64.) -/
theorem C92_returns {shake : Bytes → Nat → Bytes} (hsh : ∀ x n, (shake x n).length = n) (c : Constant) {size : Nat} {domain aad : Bytes} (p : UInt8)
    (h0 : 0 < size) (hs : size < 256 ^ 8) (hc : c.encode.length < 256 ^ 8) (hd : domain.length < 256 ^ 8) (ha : aad.length < 256 ^ 8) :
    ∃ k, encodeConstant shake c size domain aad [p] = .ok k ∧ k.length = size := by
  have he : encoderDomain.length < 256 ^ 8 := by decide +kernel
  obtain ⟨packed, hp⟩ := C01_pack_total (items := beDigits 8 size :: [encoderDomain, domain, aad, c.encode]) (blocksize := 168) (intBytes := 8) (p := p)
    (by decide) (by decide) (by decide) (by decide) (by simp) (by
      intro i hi
      simp only [List.mem_cons, List.not_mem_nil, or_false] at hi
      rcases hi with rfl | rfl | rfl | rfl | rfl
      · simp
      · exact he
      · exact hd
      · exact ha
      · exact hc)
  have hm : Call.message ⟨c.encode, size, domain, aad, [p]⟩ = .ok packed := by
    refine hashBytesInput_ok.2 ⟨[], packed, rfl, ?_, ?_, rfl⟩
    · rw [size_eq]; exact hs
    · rw [size_eq]; exact hp
  refine ⟨shake packed size, ?_, hsh _ _⟩
  simp only [encodeConstant, hm, bind, Except.bind, Nat.ne_of_gt h0, if_false]

example : ∃ k, encodeConstant (fun _ n => List.replicate n 7) (.str "kdf") 8 [] [] [0] = .ok k ∧ k.length = 8 :=
  C92_returns (fun _ _ => by simp) (.str "kdf") 0 (by decide) (by decide) (by decide +kernel) (by decide) (by decide)

/-- **C92** A size of zero, or a `pad` that is not one byte, is refused. -/
theorem C92_refused (shake : Bytes → Nat → Bytes) (c : Constant) {size : Nat} {domain aad pad : Bytes} (h : size = 0 ∨ pad.length ≠ 1) :
    ∃ e, encodeConstant shake c size domain aad pad = .error e := by
  cases hm : Call.message ⟨c.encode, size, domain, aad, pad⟩ with
  | error e => exact ⟨e, by simp only [encodeConstant, hm, bind, Except.bind]⟩
  | ok x =>
    rcases h with rfl | h
    · exact ⟨.type, by simp only [encodeConstant, hm, bind, Except.bind, if_true]⟩
    · obtain ⟨_, _, _, _, hp, _⟩ := hashBytesInput_ok.1 hm
      obtain ⟨_, _, p, _, rfl, _⟩ := canonicalPack_ok.1 hp
      exact absurd rfl h

/-- **C92** If two calls return the same constant, they were given the same constant (as bytes), size, domain, aad and pad, or the messages that they
hash are a collision. -/
theorem C92_same_constant {shake : Bytes → Nat → Bytes} {c c' : Constant} {size size' : Nat} {domain domain' aad aad' pad pad' k : Bytes}
    (hsh : ∀ x n, (shake x n).length = n) (h : encodeConstant shake c size domain aad pad = .ok k)
    (h' : encodeConstant shake c' size' domain' aad' pad' = .ok k) :
    (c.encode = c'.encode ∧ size = size' ∧ domain = domain' ∧ aad = aad' ∧ pad = pad') ∨
    ∃ x y, Call.message ⟨c.encode, size, domain, aad, pad⟩ = .ok x ∧ Call.message ⟨c'.encode, size', domain', aad', pad'⟩ = .ok y ∧ Collide (shake · size) x y := by
  simp only [encodeConstant, bind_eq_ok] at h h'
  obtain ⟨x, hx, h⟩ := h
  obtain ⟨y, hy, h'⟩ := h'
  split at h
  · cases h
  split at h'
  · cases h'
  injection h with h
  injection h' with h'
  have hs : size = size' := by rw [← hsh x size, ← hsh y size', h, h']
  by_cases hxy : x = y
  · subst hxy
    have e := C92_messages hx hy
    simp only [Call.mk.injEq] at e
    exact .inl e
  · exact .inr ⟨x, y, hx, hy, hxy, by show shake x size = shake y size; rw [h, hs, h']⟩

/-- A `str` and its encoding give the same constant: they are not kept apart. -/
theorem C92_str_is_bytes (shake : Bytes → Nat → Bytes) (s : String) (size : Nat) (domain aad pad : Bytes) :
    encodeConstant shake (.str s) size domain aad pad = encodeConstant shake (.bytes (utf8 s)) size domain aad pad := rfl

/-! ### The constants of the package -/

theorem ok_of_isSome {α : Type} {x : Except Err α} (h : x.toOption.isSome = true) : x = .ok (x.toOption.get h) := by
  cases x with
  | ok a => rfl
  | error e => simp [Except.toOption] at h

theorem digits_inj {a b : Nat} (h : Nat.toDigits 10 a = Nat.toDigits 10 b) : a = b := by
  have := congrArg (fun l => Nat.ofDigitChars 10 l 0) h
  simpa [Nat.ofDigitChars_ten_toDigits] using this

theorem split_underscore {a b c d : List Char} (ha : '_' ∉ a) (hc : '_' ∉ c) (h : a ++ '_' :: b = c ++ '_' :: d) : a = c ∧ b = d := by
  induction a generalizing c with
  | nil =>
    cases c with
    | nil => simpa using h
    | cons x c =>
      simp only [List.nil_append, List.cons_append, List.cons.injEq] at h
      exact absurd (h.1 ▸ List.mem_cons_self) hc
  | cons x a ih =>
    cases c with
    | nil =>
      simp only [List.nil_append, List.cons_append, List.cons.injEq] at h
      exact absurd (h.1 ▸ List.mem_cons_self) ha
    | cons y c =>
      simp only [List.cons_append, List.cons.injEq] at h
      obtain ⟨h1, h2⟩ := ih (fun m => ha (List.mem_cons_of_mem _ m)) (fun m => hc (List.mem_cons_of_mem _ m)) h.2
      exact ⟨by rw [h.1, h1], h2⟩

theorem multiplier_text {i j p q : Nat} (h : "multiplicative_key_" ++ i.repr ++ "_" ++ p.repr = "multiplicative_key_" ++ j.repr ++ "_" ++ q.repr) :
    i = j ∧ p = q := by
  have h := congrArg String.toList h
  simp only [String.toList_append, Nat.toList_repr, List.append_assoc, List.append_cancel_left_eq] at h
  obtain ⟨h1, h2⟩ := split_underscore Nat.underscore_not_in_toDigits Nat.underscore_not_in_toDigits h
  exact ⟨digits_inj h1, digits_inj h2⟩

theorem salt_text {name : String} {i p : Nat} : name ++ "_salt" ≠ "multiplicative_key_" ++ i.repr ++ "_" ++ p.repr := by
  intro h
  have h := congrArg (fun s => (String.toList s).getLast?) h
  simp only [String.toList_append, Nat.toList_repr, List.getLast?_append] at h
  cases hd : (Nat.toDigits 10 p).getLast? with
  | none => exact Nat.toDigits_ne_nil (List.getLast?_eq_none_iff.1 hd)
  | some c =>
    have hc := Nat.isDigit_of_mem_toDigits (b := 10) (by decide) (by decide) (List.mem_of_getLast? hd)
    rw [hd] at h
    have : c = 't' := by
      simpa using h.symm
    subst this
    exact absurd hc (by decide)

theorem db_text {a b : DbName} (h : a.text = b.text) : a = b := by
  cases a <;> cases b <;> first | rfl | (revert h; decide +kernel)

/-- **C92** The calls at different places of the package, or at the same place with other arguments, never hash the same message: no two
constants of the package are the same digest by construction. -/
theorem C92_sites {shake : Bytes → Nat → Bytes} (hsh : ∀ x n, (shake x n).length = n) {s s' : Site} {c c' : Call} {x : Bytes}
    (h : s.call shake = .ok c) (h' : s'.call shake = .ok c') (hm : c.message = .ok x) (hm' : c'.message = .ok x) : s = s' := by
  have e := C92_messages hm hm'
  subst e
  have hpc : ∀ {c : Call}, Site.passcrypt.call shake = .ok c → ∃ d : Bytes, d.length = 8 ∧ c = ⟨utf8 "passcrypt_proof_kdf_salt", 168, d, [], [0]⟩ := by
    intro c h
    simp only [Site.call, bind_eq_ok] at h
    obtain ⟨d, hd, h⟩ := h
    injection h with h
    simp only [encodeConstant, bind_eq_ok] at hd
    obtain ⟨y, -, hd⟩ := hd
    injection hd with hd
    exact ⟨d, by rw [← hd, hsh], h.symm⟩
  have l0 : ([] : Bytes).length ≠ 8 := by decide
  have l1 : (utf8 "database_constants").length ≠ 8 := by decide +kernel
  have l2 : (utf8 "affine_permutation_constant").length ≠ 8 := by decide +kernel
  have d1 : utf8 "database_constants" ≠ [] := by decide +kernel
  have d2 : utf8 "affine_permutation_constant" ≠ [] := by decide +kernel
  have d3 : utf8 "affine_permutation_constant" ≠ utf8 "database_constants" := by decide +kernel
  have g1 : utf8 "package_seed" ≠ utf8 "default_guid_salt" := by decide +kernel
  have x1 : ∀ t : Xof, t.blocksize ≠ 8 ∧ t.blocksize ≠ 16 ∧ 2 * t.blocksize ≠ 8 ∧ 2 * t.blocksize ≠ 16 ∧ 2 * t.blocksize ≠ 168 := by
    intro t; cases t <;> decide
  have x2 : ∀ t u : Xof, t.blocksize = u.blocksize → t = u := by
    intro t u; cases t <;> cases u <;> first | (intro _; rfl) | (intro h; exact absurd h (by decide))
  have x3 : ∀ t u : Xof, t.blocksize ≠ 2 * u.blocksize := by
    intro t u; cases t <;> cases u <;> decide
  by_cases hp : s = .passcrypt
  · subst hp
    obtain ⟨d, hd, rfl⟩ := hpc h
    cases s' with
    | passcrypt => rfl
    | _ =>
      simp only [Site.call, Except.ok.injEq, Call.mk.injEq] at h'
      obtain ⟨a1, a2, a3, a4, -⟩ := h'
      first
      | (subst a3; exact absurd hd (by assumption))
      | (exact absurd a2 (by decide))
      | (exact absurd a2 (x1 _).2.2.2.2)
  by_cases hp' : s' = .passcrypt
  · subst hp'
    obtain ⟨d, hd, rfl⟩ := hpc h'
    cases s with
    | passcrypt => rfl
    | _ =>
      simp only [Site.call, Except.ok.injEq, Call.mk.injEq] at h
      obtain ⟨a1, a2, a3, a4, -⟩ := h
      first
      | (subst a3; exact absurd hd (by assumption))
      | (exact absurd a2 (by decide))
      | (exact absurd a2 (x1 _).2.2.2.2)
  clear hm hm' hpc
  cases s <;> cases s' <;> (try exact absurd rfl hp) <;> (try exact absurd rfl hp') <;>
    simp only [Site.call, Except.ok.injEq] at h h' <;> rw [← h'] at h <;> simp only [Call.mk.injEq, and_true, true_and] at h
  all_goals first
    | rfl
    | (rw [utf8_inj h]; done)
    | (rw [db_text (utf8_inj h)]; done)
    | exact absurd h.2.1 (by decide)
    | exact absurd h.1 (by decide)
    | exact absurd h g1
    | exact absurd h g1.symm
    | exact absurd h.2.1 (x1 _).1
    | exact absurd h.2.1.symm (x1 _).1
    | exact absurd h.2.1 (x1 _).2.1
    | exact absurd h.2.1.symm (x1 _).2.1
    | exact absurd h.2.1 (x1 _).2.2.1
    | exact absurd h.2.1.symm (x1 _).2.2.1
    | exact absurd h.2.1 (x1 _).2.2.2.1
    | exact absurd h.2.1.symm (x1 _).2.2.2.1
    | exact absurd h.2.1 (x3 _ _)
    | exact absurd h.2.1.symm (x3 _ _)
    | exact absurd h.2 d1
    | exact absurd h.2.symm d1
    | exact absurd h.2.2 d1
    | exact absurd h.2.2.symm d1
    | exact absurd h.2.2.1 d1
    | exact absurd h.2.2.1.symm d1
    | exact absurd h.2.2.1 d2
    | exact absurd h.2.2.1.symm d2
    | exact absurd h.2.2.1 d3
    | exact absurd h.2.2.1.symm d3
    | exact absurd (utf8_inj h.1) salt_text
    | exact absurd (utf8_inj h.1).symm salt_text
    | exact absurd h.2 (by decide)
    | exact absurd h.2 (x1 _).1
    | exact absurd h.2.symm (x1 _).1
    | exact absurd h.2 (x1 _).2.1
    | exact absurd h.2.symm (x1 _).2.1
    | (rw [h.1, x2 _ _ h.2]; done)
    | skip
  · have hn := congrArg String.toList (utf8_inj h.1)
    simp only [String.toList_append, List.append_cancel_right_eq] at hn
    rw [String.toList_inj.1 hn, h.2.2.1, h.2.2.2, x2 _ _ (Nat.eq_of_mul_eq_mul_left (by decide) h.2.1)]
  · obtain ⟨h1, h2⟩ := multiplier_text (utf8_inj h.1)
    rw [h1, h2, h.2.1, h.2.2]

/-- The calls of the package for two prime numbers, and for two ciphers. -/
example : ∃ c c' x x', (Site.multiplier 0 257 [] 1).call (fun _ n => List.replicate n 7) = .ok c ∧
    (Site.cipherKdf "shmac_kdf" [1] [2] .shake128).call (fun _ n => List.replicate n 7) = .ok c' ∧ c.message = .ok x ∧ c'.message = .ok x' := by
  obtain ⟨a, ha⟩ : ∃ a, Call.message ⟨utf8 ("multiplicative_key_" ++ (0).repr ++ "_" ++ (257).repr), 1, utf8 "affine_permutation_constant", [], [0]⟩ = .ok a := by
    have : (Call.message ⟨utf8 ("multiplicative_key_" ++ (0).repr ++ "_" ++ (257).repr), 1, utf8 "affine_permutation_constant", [], [0]⟩).toOption.isSome := by
      decide +kernel
    exact ⟨_, ok_of_isSome this⟩
  obtain ⟨b, hb⟩ : ∃ b, Call.message ⟨utf8 ("shmac_kdf" ++ "_salt"), 336, [1], [2], [0]⟩ = .ok b := by
    have : (Call.message ⟨utf8 ("shmac_kdf" ++ "_salt"), 336, [1], [2], [0]⟩).toOption.isSome := by decide +kernel
    exact ⟨_, ok_of_isSome this⟩
  exact ⟨_, _, a, b, rfl, rfl, ha, hb⟩

/-- **C92** No two attributes of `Domains` are made from the same value. -/
theorem C92_names_differ {name name' value : String} (h : (name, value) ∈ names) (h' : (name', value) ∈ names) : name = name' := by
  have hn : (names.map Prod.snd).Nodup := by decide +kernel
  have := List.inj_on_of_nodup_map hn h h' rfl
  exact congrArg Prod.fst this

/-- **C92** If two attributes of `Domains` are the same bytes, they have the same name, or the messages hashed for them are a collision of digests of
eight bytes. -/
theorem C92_domains {shake : Bytes → Nat → Bytes} (hsh : ∀ x n, (shake x n).length = n) {name name' value value' : String} {k : Bytes}
    (h : (name, value) ∈ names) (h' : (name', value') ∈ names) (hk : encodeConstant shake (.str value) = .ok k)
    (hk' : encodeConstant shake (.str value') = .ok k) : name = name' ∨
      ∃ x y, Call.message ⟨utf8 value, 8, [], [], [0]⟩ = .ok x ∧ Call.message ⟨utf8 value', 8, [], [], [0]⟩ = .ok y ∧ Collide (shake · 8) x y := by
  rcases C92_same_constant hsh hk hk' with ⟨e, -⟩ | e
  · have e : value = value' := utf8_inj e
    subst e
    exact .inl (C92_names_differ h h')
  · exact .inr e

example : ("KDF", "key_derivation_function") ∈ names ∧ ("PASSCRYPT", "passcrypt") ∈ names := by decide +kernel

end Aiootp.Domains
