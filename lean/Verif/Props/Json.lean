import Verif.Lemmas.JsonBack
import Verif.Props.Token
import Verif.Props.Database

/-
C87: a value that is encrypted with `json_encrypt` or stored under a tag, and is decrypted or queried again, is the value as JSON represents it.
-/

namespace Aiootp.Json

variable {F : Type}

theorem decode_map {t : Text} (h : Ascii t) : decode (t.map UInt8.ofNat) = .ok t := by
  have e : ∀ c ∈ t, (UInt8.ofNat c).toNat = c := fun c hc => by
    have := h c hc
    simp only [UInt8.toNat_ofNat']
    omega
  unfold decode
  rw [if_pos]
  · rw [List.map_map]
    conv_rhs => rw [← List.map_id t]
    exact congrArg _ (List.map_congr_left (fun c hc => e c hc))
  · rw [List.all_eq_true]
    intro b hb
    obtain ⟨c, hc, rfl⟩ := List.mem_map.1 hb
    rw [decide_eq_true_eq, e c hc]
    have := h c hc
    omega

/-- C87: what is loaded is the value with lists for tuples, strings for the keys and one item for keys that are the same string. -/
theorem C87_round_trip {E : Env F} (hE : E.Law) {v : Val F} {text : Bytes} (h : dumps E v = .ok text) : loads E text = .ok (back E v) := by
  simp only [dumps, bind_eq_ok] at h
  obtain ⟨t, ht, he⟩ := h
  cases he
  obtain ⟨hs, ha, hv⟩ := scan_val hE v t ht
  have h1 := hv [] (.inl rfl) (2 * t.length + 2) (by omega)
  rw [List.append_nil] at h1
  have h2 := skipWs_start hs []
  rw [List.append_nil] at h2
  simp only [loads, decode_map ha, bind, Except.bind, h2, h1, skipWs]
  rfl

/-- C87: a value can be written if and only if everything in it is known to `json` and no integer is too long. -/
theorem C87_writes_iff (E : Env F) (v : Val F) : (∃ text, dumps E v = .ok text) ↔ Writable E.limit v := by
  constructor
  · rintro ⟨text, h⟩
    simp only [dumps, bind_eq_ok] at h
    obtain ⟨t, ht, -⟩ := h
    exact writable_of_dumps v t ht
  · intro h
    obtain ⟨t, ht⟩ := dumps_of_writable v h
    exact ⟨_, by rw [dumps, ht]; rfl⟩

/-- C87: the value itself comes back if and only if there is no tuple in it, all keys are strings, and no string has two surrogates that are a
character together. -/
theorem C87_same_iff {E : Env F} (hE : E.Law) {v : Val F} {text : Bytes} (h : dumps E v = .ok text) : loads E text = .ok v ↔ Faithful v := by
  rw [C87_round_trip hE h]
  constructor
  · intro e
    injection e with e
    exact faithful_of_back v ((C87_writes_iff E v).1 ⟨text, h⟩) e
  · intro hf
    rw [back_of_faithful v hf]

/-- C87: what was loaded can be written, and then comes back as it is. -/
theorem C87_again {E : Env F} (hE : E.Law) {v w : Val F} {text : Bytes} (h : dumps E v = .ok text) (hw : loads E text = .ok w) :
    ∃ text', dumps E w = .ok text' ∧ loads E text' = .ok w := by
  rw [C87_round_trip hE h] at hw
  injection hw with hw
  obtain ⟨hf, hr⟩ := faithful_back hE v ((C87_writes_iff E v).1 ⟨text, h⟩)
  rw [hw] at hf hr
  obtain ⟨text', h'⟩ := (C87_writes_iff E w).2 hr
  exact ⟨text', h', (C87_same_iff hE h').2 hf⟩

/-- C87: different values that come back have different texts. -/
theorem C87_injective {E : Env F} (hE : E.Law) {v w : Val F} (hv : Faithful v) (hw : Faithful w) {text : Bytes} (h : dumps E v = .ok text)
    (h' : dumps E w = .ok text) : v = w := by
  have e := ((C87_same_iff hE h).2 hv).symm.trans ((C87_same_iff hE h').2 hw)
  injection e

/-! ### what is lost -/

/-- C87 is false of tuples: they come back as lists, and nothing is raised. -/
theorem C87_tuple_changed {E : Env F} (hE : E.Law) (xs : Vals F) (h : Writable E.limit (.tuple xs)) :
    ∃ text w, dumps E (.tuple xs) = .ok text ∧ loads E text = .ok w ∧ w ≠ .tuple xs := by
  obtain ⟨text, ht⟩ := (C87_writes_iff E _).2 h
  exact ⟨text, _, ht, C87_round_trip hE ht, fun e => (by rw [back] at e; cases e)⟩

/-- C87 is false of keys that are the same string: only one of the items comes back. -/
theorem C87_item_lost {E : Env F} (hE : E.Law) (hl : 1 ≤ E.limit) (v w : Val F) (hv : Writable E.limit v) (hw : Writable E.limit w) :
    ∃ text, dumps E (.dict (.cons (.int 1) v (.cons (.str [chr 49]) w .nil))) = .ok text ∧
      loads E text = .ok (.dict (.cons (.str [chr 49]) (back E w) .nil)) := by
  have h1 : natText 1 = [49] := by simp [natText]
  obtain ⟨text, ht⟩ := (C87_writes_iff E (.dict (.cons (.int 1) v (.cons (.str [chr 49]) w .nil)))).2
    ⟨fun e => (by cases e), fun n e => (by cases e; rw [show (1 : Int).natAbs = 1 from rfl, h1]; exact hl), hv,
      fun e => (by cases e), fun n e => (by cases e), hw, trivial⟩
  refine ⟨text, ht, ?_⟩
  rw [C87_round_trip hE ht]
  have hk : keyString E (.int 1) = [chr 49] := by
    rw [keyString, if_neg (by decide), show (1 : Int).natAbs = 1 from rfl, h1]
    rfl
  have hs : keyString E (.str [chr 49]) = [chr 49] := rfl
  rw [back, backItems, backItems, backItems, hk, hs]
  simp [merged, firsts, lastValue, Items.ofPairs]

/-- C87 is false of two surrogates that are a character together. -/
theorem C87_surrogates_changed {E : Env F} (hE : E.Law) : ∃ text, dumps E (.str [chr 0xd800, chr 0xdc00]) = .ok text ∧
    loads E text = .ok (.str [chr 0x10000]) := by
  obtain ⟨text, ht⟩ := (C87_writes_iff E (.str [chr 0xd800, chr 0xdc00])).2 trivial
  refine ⟨text, ht, ?_⟩
  rw [C87_round_trip hE ht, back]
  simp [joined, chr]

/-! ### `json_encrypt`, `json_decrypt` and the values of tags -/

/-- C87, with `Slick256`. -/
theorem C87_permute {E : Env F} (hE : E.Law) {X : Cipher.Env} (h : Cipher.PermuteSetup X) (hframe : X.cfg.paddingFrame ≤ 256)
    (key : Bytes) (hk : 64 ≤ key.length) (hk2 : key.length < 256 ^ 8) (d : Cipher.Draws) (hd : d.Fit X.cfg)
    (salt : Option Bytes) (hs : Cipher.SaltAllowed X.cfg salt) (aad : Bytes) (ha : aad.length < 256 ^ 4) (v : Val F) (hv : Writable E.limit v) :
    ∃ ciphertext, (Cipher.permuteCipher X).jsonEncrypt (dumps E) key d salt aad v = .ok ciphertext ∧
      ∀ saltDraw : Bytes, saltDraw.length = X.cfg.saltBytes → ∀ now,
        ∃ w, (Cipher.permuteCipher X).jsonDecrypt (loads E) key saltDraw now none aad ciphertext = .ok w ∧ w = back E v ∧ (w = v ↔ Faithful v) := by
  obtain ⟨text, ht⟩ := (C87_writes_iff E v).2 hv
  obtain ⟨ct, hct, hback⟩ := Cipher.C21_decrypt_encrypt h hframe key hk hk2 d hd salt hs aad ha text
  refine ⟨ct, by simp [Cipher.Cipher.jsonEncrypt, ht, hct, bind, Except.bind], fun sd hsd now => ⟨back E v, ?_, rfl, ?_⟩⟩
  · simp [Cipher.Cipher.jsonDecrypt, (hback sd hsd now).1, bind, Except.bind, C87_round_trip hE ht]
  · exact ⟨faithful_of_back v hv, back_of_faithful v⟩

/-- C87, with `Chunky2048`. -/
theorem C87_dual {E : Env F} (hE : E.Law) {X : Cipher.DualEnv} (h : Cipher.DualSetup X) (hframe : X.cfg.paddingFrame ≤ 256)
    (key : Bytes) (hk : 64 ≤ key.length) (hk2 : key.length < 256 ^ 8) (d : Cipher.Draws) (hd : d.Fit X.cfg)
    (salt : Option Bytes) (hs : Cipher.SaltAllowed X.cfg salt) (aad : Bytes) (ha : aad.length < 256 ^ 4) (v : Val F) (hv : Writable E.limit v) :
    ∃ ciphertext, (Cipher.dualCipher X).jsonEncrypt (dumps E) key d salt aad v = .ok ciphertext ∧
      ∀ saltDraw : Bytes, saltDraw.length = X.cfg.saltBytes → ∀ now,
        ∃ w, (Cipher.dualCipher X).jsonDecrypt (loads E) key saltDraw now none aad ciphertext = .ok w ∧ w = back E v ∧ (w = v ↔ Faithful v) := by
  obtain ⟨text, ht⟩ := (C87_writes_iff E v).2 hv
  obtain ⟨ct, hct, hback⟩ := Cipher.C22_decrypt_encrypt h hframe key hk hk2 d hd salt hs aad ha text
  refine ⟨ct, by simp [Cipher.Cipher.jsonEncrypt, ht, hct, bind, Except.bind], fun sd hsd now => ⟨back E v, ?_, rfl, ?_⟩⟩
  · simp [Cipher.Cipher.jsonDecrypt, (hback sd hsd now).1, bind, Except.bind, C87_round_trip hE ht]
  · exact ⟨faithful_of_back v hv, back_of_faithful v⟩

/-- C87: the values of tags for which C40 to C45 speak of what queries return are the bytes, and those that come back as they are. A text of JSON
is never taken for bytes. -/
theorem C87_storable_iff {E : Env F} (hE : E.Law) {ρ : Type} {D : Database.Env ρ (Val F)} (hd : D.dumps = dumps E) (hl : D.loads = loads E)
    (x : Database.Value (Val F)) :
    Database.Storable D x ↔ match x with | .bytes _ => True | .json v => Writable E.limit v ∧ Faithful v := by
  cases x with
  | bytes b =>
    refine ⟨fun _ => trivial, fun _ => ⟨_, rfl, ?_⟩⟩
    simp [Database.decodeValue, Database.bytesFlag]
  | json v =>
    have key : ∀ text, dumps E v = .ok text → Database.decodeValue D text = .ok (.json (back E v)) := by
      intro text ht
      have hr := C87_round_trip hE ht
      simp only [dumps, bind_eq_ok] at ht
      obtain ⟨t, ht, he⟩ := ht
      cases he
      obtain ⟨⟨c, r, rfl, -⟩, ha, -⟩ := scan_val hE v t ht
      have hc := ha c (by simp)
      rw [Database.decodeValue, if_neg]
      · rw [hl, hr]; rfl
      · intro e
        rw [List.map_cons, Database.bytesFlag, show (2 : Nat) = 1 + 1 from rfl, List.take_succ_cons] at e
        injection e with e _
        have := congrArg UInt8.toNat e
        simp only [UInt8.toNat_ofNat'] at this
        have : (1 : UInt8).toNat = 1 := rfl
        omega
    constructor
    · rintro ⟨text, h1, h2⟩
      simp only [Database.encodeValue, hd] at h1
      have hw := (C87_writes_iff E v).1 ⟨text, h1⟩
      rw [key text h1] at h2
      injection h2 with h2
      injection h2 with h2
      exact ⟨hw, faithful_of_back v hw h2⟩
    · rintro ⟨hw, hf⟩
      obtain ⟨text, ht⟩ := (C87_writes_iff E v).2 hw
      refine ⟨text, by simp only [Database.encodeValue, hd, ht], ?_⟩
      rw [key text ht, back_of_faithful v hf]

/-! ### a sample -/

/-- Five floats: the special ones, `1.5` and `1e+16`. -/
def sampleFloats : Env (Fin 5) where
  repr f := if f = 0 then nanText else if f = 1 then infText else if f = 2 then negInfText else if f = 3 then [49, 46, 53] else [49, 101, 43, 49, 54]
  parse t := if t = [49, 46, 53] then 3 else 4
  nan := 0
  inf := 1
  negInf := 2
  limit := 4300

theorem sampleFloats_law : sampleFloats.Law where
  read f := by
    by_cases h0 : f = 0
    · subst h0; exact .inl ⟨rfl, rfl⟩
    · by_cases h1 : f = 1
      · subst h1; exact .inr (.inl ⟨rfl, rfl⟩)
      · by_cases h2 : f = 2
        · subst h2; exact .inr (.inr (.inl ⟨rfl, rfl⟩))
        · by_cases h3 : f = 3
          · subst h3
            refine .inr (.inr (.inr ⟨⟨[], [49], [46, 53], [], rfl, .inl rfl, ⟨by decide, by decide⟩, by decide,
              .inr ⟨[53], rfl, by decide, by decide⟩, .inl rfl, by decide⟩, rfl⟩))
          · have h4 : f = 4 := by revert h0 h1 h2 h3; revert f; decide
            subst h4
            refine .inr (.inr (.inr ⟨⟨[], [49], [], [101, 43, 49, 54], rfl, .inl rfl, ⟨by decide, by decide⟩, by decide, .inl rfl,
              .inr ⟨[43], [49, 54], rfl, .inr (.inr rfl), by decide, by decide⟩, by decide⟩, rfl⟩))

/-- `{"é": [None, True, -10, 1.5, "\\x00😀"], "": {}}` -/
def sampleValue : Val (Fin 5) :=
  .dict (.cons (.str [chr 0xe9]) (.list (.cons .none (.cons (.bool true) (.cons (.int (-10)) (.cons (.float 3) (.cons (.str [chr 0, chr 0x1f600]) .nil))))))
    (.cons (.str []) (.dict .nil) .nil))

theorem sampleValue_writable : Writable sampleFloats.limit sampleValue := by
  refine ⟨fun e => (by cases e), fun n e => (by cases e), ⟨trivial, trivial, ?_, trivial, trivial, trivial⟩, fun e => (by cases e), fun n e => (by cases e), trivial, trivial⟩
  simp [Writable, natText, sampleFloats]

theorem sampleValue_faithful : Faithful sampleValue := by
  have h : ∀ a : Code, NoPair [a] := fun a => noPair_short (fun a b tail e => by injection e with _ e; cases e)
  have h0 : NoPair [] := noPair_short (fun a b tail e => by cases e)
  refine ⟨⟨⟨_, rfl, h _⟩, ⟨trivial, trivial, trivial, trivial, ?_, trivial⟩, ⟨_, rfl, h0⟩, ⟨trivial, List.nodup_nil⟩, trivial⟩, ?_⟩
  · exact noPair_cons (by decide) (h _)
  · simp [Items.keys]

/-- The sample can be written, and it comes back. -/
example : ∃ text, dumps sampleFloats sampleValue = .ok text ∧ loads sampleFloats text = .ok sampleValue := by
  obtain ⟨text, h⟩ := (C87_writes_iff _ _).2 sampleValue_writable
  exact ⟨text, h, (C87_same_iff sampleFloats_law h).2 sampleValue_faithful⟩

/-- `{(True,): …}` is refused, `{True: (None,)}` becomes `{"true": [None]}`. -/
example : ¬ Writable 4300 (.dict (.cons .other .none .nil) : Val (Fin 5)) ∧
    back sampleFloats (.dict (.cons (.bool true) (.tuple (.cons .none .nil)) .nil)) =
      .dict (.cons (.str [chr 116, chr 114, chr 117, chr 101]) (.list (.cons .none .nil)) .nil) := by
  refine ⟨fun h => h.1 rfl, ?_⟩
  simp [back, backs, backItems, keyString, trueText, merged, firsts, lastValue, Items.ofPairs]

example : ∃ text w, dumps sampleFloats (.tuple (.cons .none .nil)) = .ok text ∧ loads sampleFloats text = .ok w ∧ w ≠ .tuple (.cons .none .nil) :=
  C87_tuple_changed sampleFloats_law _ ⟨trivial, trivial⟩

example := C87_item_lost sampleFloats_law (by decide) .none (.bool true) trivial trivial

/-- The hypotheses of `C87_permute` and `C87_dual` are met. -/
example := C87_permute sampleFloats_law Cipher.sampleSlick_setup (by decide) Cipher.sampleKey (by decide) (by decide)
  (Cipher.sampleDraws Cipher.sampleSlick.cfg) (Cipher.sampleDraws_fit _ rfl) none (.inl rfl) [] (by decide) sampleValue sampleValue_writable

example := C87_dual sampleFloats_law Cipher.sampleChunky_setup (by decide) Cipher.sampleKey (by decide) (by decide)
  (Cipher.sampleDraws Cipher.sampleChunky.cfg) (Cipher.sampleDraws_fit _ rfl) none (.inl rfl) [] (by decide) sampleValue sampleValue_writable

end Aiootp.Json
