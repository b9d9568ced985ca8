import Verif.Model.Canon
import Verif.Lemmas.Py

namespace Aiootp.Canon

theorem ljust_ok {d : Bytes} {w : Nat} {pad r : Bytes} :
    ljust d w pad = .ok r ↔ ∃ p, pad = [p] ∧ r = d ++ List.replicate (w - d.length) p := by
  unfold ljust
  split
  · rename_i p
    constructor
    · intro h; cases h; exact ⟨p, rfl, rfl⟩
    · rintro ⟨q, hq, rfl⟩; cases hq; rfl
  · rename_i h
    constructor
    · intro e; cases e
    · rintro ⟨q, rfl, _⟩; exact absurd rfl (h q)

theorem fullblockLjust_ok {d pad r : Bytes} {b : Nat} :
    fullblockLjust d b pad = .ok r ↔
      0 < b ∧ ∃ p, pad = [p] ∧ r = d ++ List.replicate (b * ceilDiv d.length b - d.length) p := by
  unfold fullblockLjust
  by_cases hb : b = 0
  · simp [hb]
  · simp only [hb, if_false, ljust_ok]
    constructor
    · intro h; exact ⟨Nat.pos_of_ne_zero hb, h⟩
    · intro h; exact h.2

theorem encodeBody_cons_ok {s : Nat} {i : Bytes} {is : List Bytes} {e : Bytes} :
    encodeBody s (i :: is) = .ok e ↔
      i.length < 256 ^ s ∧ ∃ e', encodeBody s is = .ok e' ∧ e = beDigits s i.length ++ i ++ e' := by
  simp only [encodeBody, bind_eq_ok, toBytesBE_ok]
  constructor
  · rintro ⟨a, ⟨h, rfl⟩, e', he, h2⟩
    cases h2
    exact ⟨h, e', he, rfl⟩
  · rintro ⟨h, e', he, rfl⟩
    exact ⟨_, ⟨h, rfl⟩, e', he, rfl⟩

theorem encodeBody_parse {s : Nat} {is js : List Bytes} {e f r t : Bytes}
    (he : encodeBody s is = .ok e) (hf : encodeBody s js = .ok f)
    (hl : is.length = js.length) (h : e ++ r = f ++ t) : is = js ∧ r = t := by
  induction is generalizing js e f with
  | nil =>
    cases js with
    | nil => cases he; cases hf; exact ⟨rfl, by simpa using h⟩
    | cons _ _ => simp at hl
  | cons i is ih =>
    cases js with
    | nil => simp at hl
    | cons j js =>
      obtain ⟨hi, e', he', rfl⟩ := encodeBody_cons_ok.1 he
      obtain ⟨hj, f', hf', rfl⟩ := encodeBody_cons_ok.1 hf
      simp only [List.append_assoc] at h
      have h1 := List.append_inj h (by simp)
      have hlen : i.length = j.length := beDigits_inj hi hj h1.1
      have h2 := List.append_inj h1.2 hlen
      have h3 := ih he' hf' (by simpa using hl) h2.2
      exact ⟨by rw [h2.1, h3.1], h3.2⟩

theorem encodeItems_ok {items : List Bytes} {s : Nat} {e : Bytes} :
    encodeItems items s = .ok e ↔
      s < 256 ∧ items.length < 256 ^ s ∧
        ∃ body, encodeBody s items = .ok body ∧ e = beDigits 1 s ++ beDigits s items.length ++ body := by
  simp only [encodeItems, bind_eq_ok, toBytesBE_ok]
  constructor
  · rintro ⟨a, ⟨h, rfl⟩, b, ⟨h2, rfl⟩, body, hb, h3⟩
    cases h3
    exact ⟨by simpa using h, h2, body, hb, rfl⟩
  · rintro ⟨h, h2, body, hb, rfl⟩
    exact ⟨_, ⟨by simpa using h, rfl⟩, _, ⟨h2, rfl⟩, body, hb, rfl⟩

theorem encodeItems_parse {s u : Nat} {is js : List Bytes} {e f r t : Bytes}
    (he : encodeItems is s = .ok e) (hf : encodeItems js u = .ok f)
    (h : e ++ r = f ++ t) : s = u ∧ is = js ∧ r = t := by
  obtain ⟨hs, hil, b, hb, rfl⟩ := encodeItems_ok.1 he
  obtain ⟨hu, hjl, c, hc, rfl⟩ := encodeItems_ok.1 hf
  simp only [List.append_assoc] at h
  have h1 := List.append_inj h (by simp)
  have hsu : s = u := beDigits_inj (by simpa using hs) (by simpa using hu) h1.1
  subst hsu
  have h2 := List.append_inj h1.2 (by simp)
  have hlen : is.length = js.length := beDigits_inj hil hjl h2.1
  have h3 := encodeBody_parse hb hc hlen h2.2
  exact ⟨rfl, h3⟩

theorem canonicalPack_ok {items : List Bytes} {b : Nat} {pad : Bytes} {s : Nat} {r : Bytes} :
    canonicalPack items b pad s = .ok r ↔
      b < 256 ^ s ∧ 0 < b ∧ ∃ p e, pad = [p] ∧
        encodeItems (beDigits s b :: [p] :: items) s = .ok e ∧
        r = e ++ List.replicate (b * ceilDiv e.length b - e.length) p := by
  simp only [canonicalPack, bind_eq_ok, toBytesBE_ok, fullblockLjust_ok]
  constructor
  · rintro ⟨_, ⟨h, rfl⟩, e, he, hb, p, rfl, hr⟩
    exact ⟨h, hb, p, e, rfl, he, hr⟩
  · rintro ⟨h, hb, p, e, rfl, he, hr⟩
    exact ⟨_, ⟨h, rfl⟩, e, he, hb, p, rfl, hr⟩

/-- Packed encodings are self-delimiting. -/
theorem canonicalPack_parse {is js : List Bytes} {b c s u : Nat} {pad qad x y r t : Bytes}
    (hx : canonicalPack is b pad s = .ok x) (hy : canonicalPack js c qad u = .ok y)
    (h : x ++ r = y ++ t) : is = js ∧ b = c ∧ pad = qad ∧ s = u ∧ r = t := by
  obtain ⟨hbs, hb, p, e, rfl, he, rfl⟩ := canonicalPack_ok.1 hx
  obtain ⟨hcs, hc, q, f, rfl, hf, rfl⟩ := canonicalPack_ok.1 hy
  simp only [List.append_assoc] at h
  obtain ⟨hsu, hitems, hrest⟩ := encodeItems_parse he hf h
  subst hsu
  simp only [List.cons.injEq] at hitems
  obtain ⟨hb', hp, hij⟩ := hitems
  have hbc : b = c := beDigits_inj hbs hcs hb'
  subst hbc
  obtain ⟨hp, _⟩ := hp
  subst hp; subst hij
  have hef : e = f := by rw [he] at hf; exact Except.ok.inj hf
  subst hef
  exact ⟨rfl, rfl, rfl, rfl, List.append_cancel_left hrest⟩

theorem read_append {a r : Bytes} {n : Nat} (h : a.length = n) (hn : n < ssizeLimit) :
    read n (a ++ r) = .ok (a, r) := by
  subst h
  unfold read
  simp [hn]

theorem decodeItems_encodeBody {s : Nat} {items : List Bytes} {e r : Bytes}
    (he : encodeBody s items = .ok e) (hs : s < ssizeLimit)
    (hsz : ∀ i ∈ items, i.length < ssizeLimit) :
    decodeItems s items.length (e ++ r) = .ok (items, r) := by
  induction items generalizing e with
  | nil => cases he; rfl
  | cons i is ih =>
    obtain ⟨hi, e', he', rfl⟩ := encodeBody_cons_ok.1 he
    have h1 : read s (beDigits s i.length ++ (i ++ (e' ++ r)))
        = .ok (beDigits s i.length, i ++ (e' ++ r)) := read_append (by simp) hs
    have h2 : read i.length (i ++ (e' ++ r)) = .ok (i, e' ++ r) :=
      read_append rfl (hsz i (by simp))
    have h3 := ih he' (fun j hj => hsz j (by simp [hj]))
    simp only [List.length_cons, decodeItems, List.append_assoc, h1, bind, Except.bind,
      fromBE_beDigits_of_lt hi, h2, h3]
    simp

theorem length_encodeBody {s : Nat} {items : List Bytes} {e : Bytes}
    (he : encodeBody s items = .ok e) :
    e.length = s * items.length + (items.map List.length).sum := by
  induction items generalizing e with
  | nil => cases he; simp
  | cons i is ih =>
    obtain ⟨hi, e', he', rfl⟩ := encodeBody_cons_ok.1 he
    have := ih he'
    simp only [List.length_append, length_beDigits, this, List.length_cons, List.map_cons,
      List.sum_cons, Nat.mul_add, Nat.mul_one]
    omega

theorem canonicalUnpack_canonicalPack {items : List Bytes} {b s : Nat} {pad x : Bytes}
    (hx : canonicalPack items b pad s = .ok x) (hsz : ∀ i ∈ items, i.length < ssizeLimit) :
    canonicalUnpack x = .ok items := by
  obtain ⟨hbs, hb, p, e, rfl, he, rfl⟩ := canonicalPack_ok.1 hx
  have hw := ceilDiv_mul_ge e.length b hb
  generalize hrep : List.replicate (b * ceilDiv e.length b - e.length) p = rep at *
  have htotal : (e ++ rep).length = b * ceilDiv e.length b := by
    rw [List.length_append, ← hrep, List.length_replicate]; omega
  obtain ⟨hs, hil, body, hbody, rfl⟩ := encodeItems_ok.1 he
  have hs0 : 0 < s := by
    rcases Nat.eq_zero_or_pos s with h | h
    · subst h; simp at hbs; omega
    · exact h
  have hss : s < ssizeLimit := by unfold ssizeLimit; omega
  have hlen := length_encodeBody hbody
  simp only [List.map_cons, List.sum_cons, length_beDigits, List.length_cons, List.length_nil] at hlen
  have r1 : read 1 (beDigits 1 s ++ (beDigits s (items.length + 2) ++ (body ++ rep)))
      = .ok (beDigits 1 s, beDigits s (items.length + 2) ++ (body ++ rep)) :=
    read_append (by simp) (by unfold ssizeLimit; omega)
  have r2 : read s (beDigits s (items.length + 2) ++ (body ++ rep))
      = .ok (beDigits s (items.length + 2), body ++ rep) :=
    read_append (by simp) hss
  have hf1 : fromBE (beDigits 1 s) = s := fromBE_beDigits_of_lt (by simpa using hs)
  have hf2 : fromBE (beDigits s (items.length + 2)) = items.length + 2 :=
    fromBE_beDigits_of_lt (by simpa using hil)
  have hd : decodeItems s (items.length + 2) (body ++ rep)
      = .ok (beDigits s b :: [p] :: items, rep) := by
    have := decodeItems_encodeBody (r := rep) hbody hss (by
      intro i hi
      simp only [List.mem_cons] at hi
      rcases hi with rfl | rfl | hi
      · simpa using hss
      · simp [ssizeLimit]
      · exact hsz i hi)
    simpa using this
  have hsize : ¬ ((beDigits 1 s ++ (beDigits s (items.length + 2) ++ (body ++ rep))).length
      < s * (items.length + 2 + 1) + 3) := by
    simp only [List.length_append, length_beDigits, hlen, Nat.mul_add, Nat.mul_one]
    omega
  have hpad : testCanonicalPadding (beDigits s b :: [p] :: items) rep
      (beDigits 1 s ++ (beDigits s (items.length + 2) ++ (body ++ rep))).length = .ok items := by
    have htotal' : (beDigits 1 s ++ (beDigits s (items.length + 2) ++ (body ++ rep))).length % b = 0 := by
      have := congrArg (· % b) htotal
      simpa [Nat.mul_mod_right, List.append_assoc] using this
    simp only [testCanonicalPadding, fromBE_beDigits_of_lt hbs, htotal']
    rw [if_neg (by omega), if_neg (by simp), if_neg]
    simp [← hrep]
  have e1 : beDigits 1 s ++ beDigits s (beDigits s b :: [p] :: items).length ++ body ++ rep
      = beDigits 1 s ++ (beDigits s (items.length + 2) ++ (body ++ rep)) := by
    simp
  rw [e1]
  simp only [canonicalUnpack, r1, bind, Except.bind, hf1, r2, hf2]
  rw [if_neg hsize]
  simp only [hd, hpad]

/-! ### The language accepted by `canonicalUnpack` -/

theorem fromLE_eq_zero {b : Bytes} (h : fromLE b = 0) : b = List.replicate b.length 0 := by
  induction b with
  | nil => rfl
  | cons x xs ih =>
    simp only [fromLE] at h
    have hx : x.toNat = 0 := by omega
    have hxs : fromLE xs = 0 := by omega
    have : x = 0 := by
      apply UInt8.toNat_inj.1; simpa using hx
    rw [List.length_cons, List.replicate_succ, this, ← ih hxs]

theorem fromLE_replicate (n : Nat) : fromLE (List.replicate n (0 : UInt8)) = 0 := by
  induction n with
  | zero => rfl
  | succ n ih => simp [List.replicate_succ, fromLE, ih]

theorem fromBE_replicate (n : Nat) : fromBE (List.replicate n (0 : UInt8)) = 0 := by
  simp [fromBE, fromLE_replicate]

theorem fromBE_eq_zero {b : Bytes} (h : fromBE b = 0) : b = List.replicate b.length 0 := by
  have h1 := fromLE_eq_zero h
  have h2 := congrArg List.reverse h1
  simpa using h2

/-- What `decodeItems` can have read. Either the whole encoding of the items, or an encoding
cut short inside of the length fields of trailing empty items. -/
inductive Decoded (s : Nat) (rest : Bytes) (items : List Bytes) (rest' : Bytes) : Prop where
  | full (e : Bytes) (he : encodeBody s items = .ok e) (h : rest = e ++ rest') :
      Decoded s rest items rest'
  | cut (init : List Bytes) (j n : Nat) (e : Bytes) (hi : items = init ++ List.replicate j [])
      (he : encodeBody s init = .ok e) (hr : rest = e ++ List.replicate n 0) (hn : n < s * j)
      (hr' : rest' = []) : Decoded s rest items rest'

theorem read_ok {n : Nat} {b x y : Bytes} :
    read n b = .ok (x, y) ↔ n < ssizeLimit ∧ x = b.take n ∧ y = b.drop n := by
  unfold read
  split <;> rename_i h
  · simp [h, eq_comm]
  · simp [h]

theorem decodeItems_succ_ok {s k : Nat} {rest : Bytes} {items : List Bytes} {rest' : Bytes} :
    decodeItems s (k + 1) rest = .ok (items, rest') ↔
      s < ssizeLimit ∧ ∃ item items', items = item :: items' ∧
        item.length = fromBE (rest.take s) ∧ item.length < ssizeLimit ∧
        item = (rest.drop s).take (fromBE (rest.take s)) ∧
        decodeItems s k ((rest.drop s).drop (fromBE (rest.take s))) = .ok (items', rest') := by
  simp only [decodeItems, bind_eq_ok, Prod.exists, read_ok]
  constructor
  · rintro ⟨_, _, ⟨hs, rfl, rfl⟩, it, _, ⟨h1, rfl, rfl⟩, h2⟩
    split at h2
    · cases h2
    · rename_i h5
      simp only [ne_eq, Decidable.not_not] at h5
      simp only [bind_eq_ok, Prod.exists] at h2
      obtain ⟨its, r, h3, h4⟩ := h2
      cases h4
      exact ⟨hs, _, _, rfl, h5, by omega, rfl, h3⟩
  · rintro ⟨hs, it, its, rfl, h1, h2, rfl, h3⟩
    refine ⟨_, _, ⟨hs, rfl, rfl⟩, _, _, ⟨by omega, rfl, rfl⟩, ?_⟩
    rw [if_neg (by simpa using h1), h3]
    rfl

theorem decodeItems_length {s k : Nat} {rest : Bytes} {items : List Bytes} {rest' : Bytes}
    (h : decodeItems s k rest = .ok (items, rest')) : items.length = k := by
  induction k generalizing rest items with
  | zero => cases h; rfl
  | succ k ih =>
    obtain ⟨_, it, its, rfl, _, _, _, h⟩ := decodeItems_succ_ok.1 h
    simp [ih h]

theorem decodeItems_sound {s k : Nat} {rest : Bytes} {items : List Bytes} {rest' : Bytes}
    (h : decodeItems s k rest = .ok (items, rest')) (hs0 : 0 < s) :
    Decoded s rest items rest' := by
  induction k generalizing rest items with
  | zero => cases h; exact .full [] rfl rfl
  | succ k ih =>
    obtain ⟨hs, it, its, rfl, h1, h2, h3, hk⟩ := decodeItems_succ_ok.1 h
    clear h
    by_cases hshort : rest.length < s
    · -- short read of the length field
      have hd : rest.drop s = [] := by simp; omega
      have ht : rest.take s = rest := List.take_of_length_le (by omega)
      rw [hd] at h3 hk
      simp only [List.take_nil, List.drop_nil] at h3 hk
      subst h3
      rw [ht] at h1
      have hz := fromBE_eq_zero (b := rest) h1.symm
      have hlen := decodeItems_length hk
      rcases ih hk with ⟨e, he, hr⟩ | ⟨init, j, n, e, hi, he, hr, hn, hr'⟩
      · have he0 : e = [] ∧ rest' = [] := by
          simpa using hr.symm
        obtain ⟨rfl, rfl⟩ := he0
        cases its with
        | nil =>
          refine .cut [] 1 rest.length [] (by simp) rfl (by simpa using hz) (by simp; omega) rfl
        | cons i is =>
          exfalso
          obtain ⟨_, e', _, h'⟩ := encodeBody_cons_ok.1 he
          have := congrArg List.length h'
          simp at this
          omega
      · have he0 : e = [] ∧ n = 0 := by
          simpa using hr.symm
        obtain ⟨rfl, rfl⟩ := he0
        have hin : init = [] := by
          cases init with
          | nil => rfl
          | cons i is =>
            exfalso
            obtain ⟨_, e', _, h'⟩ := encodeBody_cons_ok.1 he
            have := congrArg List.length h'
            simp at this
            omega
        subst hin
        refine .cut [] (j + 1) rest.length [] ?_ rfl (by simpa using hz) ?_ hr'
        · simp [hi, List.replicate_succ]
        · have : s * 1 ≤ s * (j + 1) := Nat.mul_le_mul_left _ (by omega)
          omega
    · have htl : (rest.take s).length = s := by simp; omega
      have hlt : it.length < 256 ^ s := by
        rw [h1]
        have := fromBE_lt (rest.take s)
        rwa [htl] at this
      have hbe : beDigits s it.length = rest.take s := by
        rw [h1]
        have := beDigits_fromBE (rest.take s)
        rwa [htl] at this
      have hsplit : rest = beDigits s it.length ++ it ++
          (rest.drop s).drop (fromBE (rest.take s)) := by
        rw [hbe]
        conv => lhs; rw [← List.take_append_drop s rest]
        rw [List.append_assoc]
        congr 1
        conv => lhs; rw [← List.take_append_drop (fromBE (rest.take s)) (rest.drop s)]
        rw [← h3]
      rcases ih hk with ⟨e, he, hr⟩ | ⟨init, j, n, e, hi, he, hr, hn, hr'⟩
      · refine .full (beDigits s it.length ++ it ++ e) ?_ ?_
        · exact encodeBody_cons_ok.2 ⟨hlt, e, he, rfl⟩
        · rw [hr] at hsplit
          rw [hsplit]; simp
      · refine .cut (it :: init) j n (beDigits s it.length ++ it ++ e) ?_ ?_ ?_ hn hr'
        · simp [hi]
        · exact encodeBody_cons_ok.2 ⟨hlt, e, he, rfl⟩
        · rw [hr] at hsplit
          rw [hsplit]; simp

theorem decodeItems_cut {s n j : Nat} (hs : s < ssizeLimit) (hn : n ≤ s * j) :
    ∃ rest', decodeItems s j (List.replicate n (0 : UInt8)) = .ok (List.replicate j [], rest') ∧
      rest' = [] := by
  induction j generalizing n with
  | zero =>
    have : n = 0 := by simpa using hn
    subst this
    exact ⟨[], rfl, rfl⟩
  | succ j ih =>
    have hf : fromBE ((List.replicate n (0 : UInt8)).take s) = 0 := by
      rw [List.take_replicate, fromBE_replicate]
    have hn' : n - s ≤ s * j := by rw [Nat.mul_succ] at hn; omega
    obtain ⟨r, hr, hr0⟩ := ih hn'
    refine ⟨r, ?_, hr0⟩
    rw [decodeItems_succ_ok]
    refine ⟨hs, [], List.replicate j [], by simp [List.replicate_succ], ?_, ?_, ?_, ?_⟩
    · rw [hf]; rfl
    · simp [ssizeLimit]
    · rw [hf]; simp
    · rw [hf]; simpa using hr

theorem decodeItems_append {s : Nat} {init : List Bytes} {e rest : Bytes} {k : Nat}
    {tail : List Bytes} {rest' : Bytes}
    (he : encodeBody s init = .ok e) (hs : s < ssizeLimit)
    (hsz : ∀ i ∈ init, i.length < ssizeLimit)
    (h : decodeItems s k rest = .ok (tail, rest')) :
    decodeItems s (init.length + k) (e ++ rest) = .ok (init ++ tail, rest') := by
  induction init generalizing e with
  | nil => cases he; simpa using h
  | cons i is ih =>
    obtain ⟨hi, e', he', rfl⟩ := encodeBody_cons_ok.1 he
    have h3 := ih he' (fun j hj => hsz j (by simp [hj]))
    have hk : (i :: is).length + k = (is.length + k) + 1 := by simp; omega
    have ht : ((beDigits s i.length ++ i ++ e' ++ rest).take s) = beDigits s i.length := by
      simp
    have hd : ((beDigits s i.length ++ i ++ e' ++ rest).drop s) = i ++ (e' ++ rest) := by
      simp
    rw [hk, decodeItems_succ_ok, ht, hd, fromBE_beDigits_of_lt hi]
    refine ⟨hs, i, is ++ tail, by simp, rfl, hsz i (by simp), by simp, ?_⟩
    simpa using h3

end Aiootp.Canon
