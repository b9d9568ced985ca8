import Verif.Model.Text
import Verif.Lemmas.Canon

namespace Aiootp.Text

/-! ### base conversion -/

/-- The number denoted by digits, least significant first. -/
def ofDigitsRev (base : Nat) : List Nat → Nat
  | [] => 0
  | d :: ds => d + base * ofDigitsRev base ds

theorem ofDigitsRev_digitsRev (base n : Nat) (hb : 2 ≤ base) : ofDigitsRev base (digitsRev base n) = n := by
  induction n using Nat.strongRecOn with
  | _ n ih =>
    unfold digitsRev
    split
    · rename_i h
      rcases h with h | h
      · simp [h, ofDigitsRev]
      · omega
    · rename_i h
      simp only [ofDigitsRev]
      rw [ih (n / base) (Nat.div_lt_self (by omega) (by omega))]
      exact Nat.mod_add_div n base

theorem digitsRev_lt {base n : Nat} (hb : 2 ≤ base) : ∀ d ∈ digitsRev base n, d < base := by
  induction n using Nat.strongRecOn with
  | _ n ih =>
    unfold digitsRev
    split
    · simp
    · rename_i h
      intro d hd
      simp only [List.mem_cons] at hd
      rcases hd with rfl | hd
      · exact Nat.mod_lt _ (by omega)
      · exact ih (n / base) (Nat.div_lt_self (by omega) (by omega)) d hd

theorem digitsRev_getLast {base n : Nat} (hb : 2 ≤ base) (hn : 0 < n) :
    ∃ d, (digitsRev base n).getLast? = some d ∧ d ≠ 0 := by
  induction n using Nat.strongRecOn with
  | _ n ih =>
    unfold digitsRev
    rw [dif_neg (by omega)]
    by_cases h0 : n / base = 0
    · refine ⟨n % base, ?_, ?_⟩
      · rw [h0]
        unfold digitsRev
        simp
      · have := (Nat.div_eq_zero_iff (a := n) (b := base)).1 h0
        have h : n < base := by omega
        rw [Nat.mod_eq_of_lt h]; omega
    · obtain ⟨d, hd, hd0⟩ := ih (n / base) (Nat.div_lt_self hn (by omega)) (Nat.pos_of_ne_zero h0)
      refine ⟨d, ?_, hd0⟩
      cases hds : digitsRev base (n / base) with
      | nil => rw [hds] at hd; simp at hd
      | cons x xs => rw [List.getLast?_cons_cons, ← hds]; exact hd

theorem findIdx_getElem {α} [DecidableEq α] {table : List α} (hnd : table.Nodup) {d : Nat} {c : α}
    (h : table[d]? = some c) : findIdx c table = some d := by
  induction table generalizing d with
  | nil => simp at h
  | cons x xs ih =>
    rw [List.nodup_cons] at hnd
    cases d with
    | zero =>
      simp only [List.getElem?_cons_zero, Option.some.injEq] at h
      simp [findIdx, h]
    | succ d =>
      simp only [List.getElem?_cons_succ] at h
      have hne : x ≠ c := by
        rintro rfl
        exact hnd.1 (List.mem_of_getElem? h)
      simp [findIdx, hne, ih hnd.2 h]

theorem lookupAll_ok {α} {table : List α} {ds : List Nat} (h : ∀ d ∈ ds, d < table.length) :
    ∃ cs, lookupAll table ds = .ok cs ∧ cs.length = ds.length ∧
      ∀ (i d : Nat), ds[i]? = some d → cs[i]? = table[d]? := by
  induction ds with
  | nil => exact ⟨[], rfl, rfl, by simp⟩
  | cons d ds ih =>
    obtain ⟨cs, h1, h2, h3⟩ := ih (fun d hd => h d (by simp [hd]))
    have hd := h d (by simp)
    refine ⟨table[d] :: cs, ?_, by simp [h2], ?_⟩
    · simp [lookupAll, hd, h1]
    · intro i e hi
      cases i with
      | zero => simp at hi; subst hi; simp [hd]
      | succ i => simp at hi; simpa using h3 i e hi

theorem baseAsIntLoop_eq {α} [DecidableEq α] {base : Nat} {table : List α} {cs : List α} {ds : List Nat}
    (hlen : cs.length = ds.length)
    (h : ∀ (i d : Nat) (c : α), ds[i]? = some d → cs[i]? = some c → findIdx c table = some d)
    (power result : Nat) :
    baseAsIntLoop base table power result cs = .ok (result + power * ofDigitsRev base ds) := by
  induction cs generalizing ds power result with
  | nil =>
    have : ds = [] := by simpa using hlen.symm
    subst this
    simp [baseAsIntLoop, ofDigitsRev]
  | cons c cs ih =>
    cases ds with
    | nil => simp at hlen
    | cons d ds =>
      have h0 := h 0 d c (by simp) (by simp)
      have := ih (ds := ds) (by simpa using hlen)
        (fun i d c h1 h2 => h (i + 1) d c (by simpa using h1) (by simpa using h2))
        (power * base) (result + d * power)
      simp only [baseAsIntLoop, h0, this, ofDigitsRev, Nat.mul_add]
      congr 1
      rw [Nat.mul_comm d power, Nat.mul_assoc, Nat.add_assoc]

/-- The string `int_as_base` returns, with the facts needed about it. -/
theorem intAsBase_spec {α} [DecidableEq α] {number base : Nat} {table : List α}
    (hb : 2 ≤ base) (ht : base ≤ table.length) (hnd : (table.take base).Nodup) :
    ∃ s, intAsBase number (some base) table = .ok s ∧ s ≠ [] ∧
      (∀ c ∈ s, c ∈ table.take base) ∧
      (0 < number → s.head? ≠ table.head?) ∧
      baseAsInt s (some base) table = .ok number := by
  have htl : (table.take base).length = base := by simp; omega
  by_cases hn : number = 0
  · subst hn
    cases table with
    | nil => simp at ht; omega
    | cons x xs =>
      refine ⟨[x], by simp [intAsBase], by simp, ?_, by simp, ?_⟩
      · intro c hc
        simp at hc
        subst hc
        cases base with
        | zero => omega
        | succ b => simp
      · cases base with
        | zero => omega
        | succ b => simp [baseAsInt, baseAsIntLoop, findIdx]
  · have hlt : ∀ d ∈ (digitsRev base number).reverse, d < (table.take base).length := by
      intro d hd
      rw [htl]
      exact digitsRev_lt hb d (by simpa using hd)
    obtain ⟨cs, h1, h2, h3⟩ := lookupAll_ok hlt
    have hcs : intAsBase number (some base) table = .ok cs := by
      simp only [intAsBase, hn, if_false, Option.getD_some]
      rw [if_neg (by omega), if_neg (by omega), h1]
    obtain ⟨d, hd, hd0⟩ := digitsRev_getLast (base := base) (n := number) hb (by omega)
    have hhead : cs.head? = (table.take base)[d]? := by
      rw [List.head?_eq_getElem?]
      apply h3
      rw [← List.head?_eq_getElem?, List.head?_reverse]
      exact hd
    have hdlt : d < base := digitsRev_lt hb d (List.mem_of_getLast? hd)
    refine ⟨cs, hcs, ?_, ?_, ?_, ?_⟩
    · rintro rfl
      have : (table.take base)[d]? = none := by rw [← hhead]; rfl
      rw [List.getElem?_eq_none_iff, htl] at this
      omega
    · intro c hc
      obtain ⟨i, hi, rfl⟩ := List.getElem_of_mem hc
      have hi' : i < (digitsRev base number).reverse.length := by rw [← h2]; exact hi
      have := h3 i _ (List.getElem?_eq_getElem hi')
      rw [List.getElem?_eq_getElem hi] at this
      exact List.mem_of_getElem? this.symm
    · intro _ heq
      have h0 : table.head? = (table.take base)[0]? := by
        rw [List.head?_eq_getElem?, List.getElem?_take_of_lt (by omega)]
      rw [hhead, h0] at heq
      have l1 : d < (table.take base).length := by omega
      have l0 : 0 < (table.take base).length := by omega
      rw [List.getElem?_eq_getElem l1, List.getElem?_eq_getElem l0] at heq
      have := nodup_getElem_inj hnd l1 l0 (Option.some.inj heq)
      exact hd0 this
    · simp only [baseAsInt, Option.getD_some]
      have := baseAsIntLoop_eq (base := base) (table := table.take base) (cs := cs.reverse)
        (ds := digitsRev base number) (by simp [h2]) (by
          intro i d c hi hc
          have hil : i < (digitsRev base number).length := (List.getElem?_eq_some_iff.1 hi).1
          have hcl : cs.length = (digitsRev base number).length := by simpa using h2
          have e1 : (digitsRev base number).reverse[(digitsRev base number).length - 1 - i]? = some d := by
            rw [List.getElem?_reverse (by omega)]
            rw [← hi]; congr 1; omega
          have e2 : cs[(digitsRev base number).length - 1 - i]? = some c := by
            rw [List.getElem?_reverse (by omega)] at hc
            rw [← hc, hcl]
          have := h3 _ _ e1
          rw [e2] at this
          exact findIdx_getElem hnd this.symm) 1 0
      rw [this, ofDigitsRev_digitsRev base number hb]
      simp

/-! ### filenames -/

theorem bitLength_bounds {n k : Nat} (hlo : 256 ^ k ≤ n) (hhi : n < 256 ^ (k + 1)) :
    ceilDiv (bitLength n) 8 = k + 1 := by
  have hn : n ≠ 0 := by
    have : 0 < 256 ^ k := Nat.pos_of_ne_zero (by simp)
    omega
  have e1 : (256 : Nat) ^ k = 2 ^ (8 * k) := by rw [Nat.pow_mul]
  have e2 : (256 : Nat) ^ (k + 1) = 2 ^ (8 * (k + 1)) := by rw [Nat.pow_mul]
  have h1 : 8 * k ≤ n.log2 := (Nat.le_log2 hn).2 (e1 ▸ hlo)
  have h2 : n.log2 < 8 * (k + 1) := (Nat.log2_lt hn).2 (e2 ▸ hhi)
  unfold bitLength ceilDiv
  rw [if_neg hn]
  omega

theorem fromLE_append (a b : Bytes) : fromLE (a ++ b) = fromLE a + 256 ^ a.length * fromLE b := by
  induction a with
  | nil => simp [fromLE]
  | cons x xs ih =>
    simp only [List.cons_append, fromLE, ih, List.length_cons, Nat.pow_succ, Nat.mul_add]
    rw [Nat.mul_comm (256 ^ xs.length) 256, Nat.mul_assoc]
    omega

theorem fromBE_cons (x : UInt8) (xs : Bytes) : fromBE (x :: xs) = x.toNat * 256 ^ xs.length + fromBE xs := by
  simp only [fromBE, List.reverse_cons, fromLE_append, fromLE, List.length_reverse]
  rw [Nat.mul_comm x.toNat]
  simp
  omega

theorem fromBE_dropWhile (v : Bytes) : fromBE (v.dropWhile (· = 0)) = fromBE v := by
  induction v with
  | nil => rfl
  | cons x xs ih =>
    by_cases hx : x = 0
    · subst hx
      have e : List.dropWhile (fun x => decide (x = 0)) ((0 : UInt8) :: xs)
          = List.dropWhile (fun x => decide (x = 0)) xs := by simp
      rw [e, ih, fromBE_cons]
      simp
    · simp [hx]

theorem toBytes_minimal {v : Bytes} (h : v.head? ≠ some 0) :
    toBytesBE (ceilDiv (bitLength (fromBE v)) 8) (fromBE v) = .ok v := by
  cases v with
  | nil => decide
  | cons x xs =>
    have hx : x ≠ 0 := by simpa using h
    have hx' : 1 ≤ x.toNat := by
      rcases Nat.eq_zero_or_pos x.toNat with h0 | h0
      · exact absurd (UInt8.toNat_inj.1 (by simpa using h0)) hx
      · exact h0
    have hhi := fromBE_lt (x :: xs)
    have hlo : 256 ^ xs.length ≤ fromBE (x :: xs) := by
      rw [fromBE_cons]
      have := Nat.mul_le_mul_right (256 ^ xs.length) hx'
      omega
    rw [bitLength_bounds hlo hhi]
    rw [toBytesBE_ok]
    refine ⟨hhi, ?_⟩
    exact (beDigits_fromBE (x :: xs)).symm

theorem head_dropWhile (v : Bytes) : (v.dropWhile (· = 0)).head? ≠ some 0 := by
  induction v with
  | nil => simp
  | cons x xs ih =>
    by_cases hx : x = 0
    · simpa [hx] using ih
    · simp [hx]

/-! ### base64 -/

theorem b64Value_b64Char {v : Nat} (h : v < 64) : b64Value (b64Char v) = some v := by
  have : ∀ v : Fin 64, b64Value (b64Char v.1) = some v.1 := by decide
  exact this ⟨v, h⟩

theorem b64Char_ne_pad {v : Nat} (h : v < 64) : b64Char v ≠ 61 := by
  have : ∀ v : Fin 64, b64Char v.1 ≠ 61 := by decide
  exact this ⟨v, h⟩

theorem a2b_char0 {left pads v : Nat} {cs : Bytes} (h : v < 64) :
    a2b 0 left pads (b64Char v :: cs) = a2b 1 v 0 cs := by
  rw [a2b, if_neg (b64Char_ne_pad h), b64Value_b64Char h]
  dsimp only
  rfl

theorem a2b_char1 {left pads v : Nat} {cs : Bytes} (h : v < 64) :
    a2b 1 left pads (b64Char v :: cs)
      = (a2b 2 (v % 16) 0 cs).map (fun r => UInt8.ofNat (left * 4 + v / 16) :: r) := by
  rw [a2b, if_neg (b64Char_ne_pad h), b64Value_b64Char h]
  dsimp only
  cases a2b 2 (v % 16) 0 cs <;> rfl

theorem a2b_char2 {left pads v : Nat} {cs : Bytes} (h : v < 64) :
    a2b 2 left pads (b64Char v :: cs)
      = (a2b 3 (v % 4) 0 cs).map (fun r => UInt8.ofNat (left * 16 + v / 4) :: r) := by
  rw [a2b, if_neg (b64Char_ne_pad h), b64Value_b64Char h]
  dsimp only
  cases a2b 3 (v % 4) 0 cs <;> rfl

theorem a2b_char3 {left pads v : Nat} {cs : Bytes} (h : v < 64) :
    a2b 3 left pads (b64Char v :: cs)
      = (a2b 0 0 0 cs).map (fun r => UInt8.ofNat (left * 64 + v) :: r) := by
  rw [a2b, if_neg (b64Char_ne_pad h), b64Value_b64Char h]
  dsimp only
  cases a2b 0 0 0 cs <;> rfl

theorem ofNat_toNat_eq {n : Nat} {a : UInt8} (h : n = a.toNat) : UInt8.ofNat n = a := by
  subst h; simp

theorem length_bytesToUrlsafe (v : Bytes) :
    (bytesToUrlsafe v).length % 4 = (match v.length % 3 with | 0 => 0 | 1 => 2 | _ => 3) := by
  fun_induction bytesToUrlsafe v with
  | case1 => rfl
  | case2 => rfl
  | case3 => rfl
  | case4 a b c rest ih =>
    have e : (a :: b :: c :: rest).length % 3 = rest.length % 3 := by simp only [List.length_cons]; omega
    rw [e, ← ih]
    simp only [List.length_cons]
    omega

theorem a2b_bytesToUrlsafe (v : Bytes) (pads : Nat) :
    (v.length % 3 = 0 → a2b 0 0 pads (bytesToUrlsafe v) = .ok v) ∧
    (v.length % 3 = 1 → a2b 0 0 pads (bytesToUrlsafe v ++ [61, 61]) = .ok v) ∧
    (v.length % 3 = 2 → a2b 0 0 pads (bytesToUrlsafe v ++ [61]) = .ok v) := by
  fun_induction bytesToUrlsafe v generalizing pads with
  | case1 => refine ⟨fun _ => rfl, by simp, by simp⟩
  | case2 a =>
    have ha := a.toNat_lt
    refine ⟨by simp, fun _ => ?_, by simp⟩
    simp only [List.cons_append, List.nil_append]
    rw [a2b_char0 (by omega), a2b_char1 (by omega)]
    have : a2b 2 (a.toNat % 4 * 16 % 16) 0 [61, 61] = .ok [] := by simp [a2b]
    rw [this]
    simp only [Except.map]
    rw [ofNat_toNat_eq (a := a) (by omega)]
  | case3 a b =>
    have ha := a.toNat_lt
    have hb := b.toNat_lt
    refine ⟨by simp, by simp, fun _ => ?_⟩
    simp only [List.cons_append, List.nil_append]
    rw [a2b_char0 (by omega), a2b_char1 (by omega), a2b_char2 (by omega)]
    have : a2b 3 (b.toNat % 16 * 4 % 4) 0 [61] = .ok [] := by simp [a2b]
    rw [this]
    simp only [Except.map]
    rw [ofNat_toNat_eq (a := a) (by omega), ofNat_toNat_eq (a := b) (by omega)]
  | case4 a b c rest ih =>
    have ha := a.toNat_lt
    have hb := b.toNat_lt
    have hc := c.toNat_lt
    have e : (a :: b :: c :: rest).length % 3 = rest.length % 3 := by simp only [List.length_cons]; omega
    rw [e]
    have step : ∀ t x, a2b 0 0 0 (bytesToUrlsafe rest ++ t) = .ok x →
        a2b 0 0 pads (b64Char (a.toNat / 4) :: b64Char (a.toNat % 4 * 16 + b.toNat / 16) ::
      b64Char (b.toNat % 16 * 4 + c.toNat / 64) :: b64Char (c.toNat % 64) :: (bytesToUrlsafe rest ++ t))
        = .ok (a :: b :: c :: x) := by
      intro t x hx
      rw [a2b_char0 (by omega), a2b_char1 (by omega), a2b_char2 (by omega), a2b_char3 (by omega), hx]
      simp only [Except.map]
      rw [ofNat_toNat_eq (a := a) (by omega), ofNat_toNat_eq (a := b) (by omega),
        ofNat_toNat_eq (a := c) (by omega)]
    refine ⟨fun h => ?_, fun h => ?_, fun h => ?_⟩
    · have := step [] rest (by simpa using (ih 0).1 h)
      simpa using this
    · have := step [61, 61] rest ((ih 0).2.1 h)
      simpa using this
    · have := step [61] rest ((ih 0).2.2 h)
      simpa using this

/-! ### phrases -/

theorem splitSpace_word {w : Bytes} (h : 32 ∉ w) : splitSpace w = [w] := by
  induction w with
  | nil => rfl
  | cons b bs ih =>
    simp only [List.mem_cons, not_or] at h
    have hb : b ≠ 32 := fun e => h.1 e.symm
    simp [splitSpace, hb, ih h.2]

theorem splitSpace_append {w rest : Bytes} (h : 32 ∉ w) :
    splitSpace (w ++ [32] ++ rest) = w :: splitSpace rest := by
  induction w with
  | nil => simp [splitSpace]
  | cons b bs ih =>
    simp only [List.mem_cons, not_or] at h
    have hb : b ≠ 32 := fun e => h.1 e.symm
    have := ih h.2
    simp only [List.append_assoc, List.cons_append, List.nil_append] at this
    simp [splitSpace, hb, this]

theorem dropWhile_eq_self {α} {p : α → Bool} {l : List α} (h : ∀ a, l.head? = some a → p a = false) :
    l.dropWhile p = l := by
  cases l with
  | nil => rfl
  | cons a l => simp [h a rfl]

theorem strip_eq_self {b : Bytes} (h1 : ∀ a, b.head? = some a → isSpace a = false)
    (h2 : ∀ a, b.getLast? = some a → isSpace a = false) : strip b = b := by
  unfold strip
  rw [dropWhile_eq_self h1, dropWhile_eq_self]
  · simp
  · intro a ha
    rw [List.head?_reverse] at ha
    exact h2 a ha

/-! ### batch -/

theorem batch_nil {α} (size : Nat) : batch size ([] : List α) = [] := by
  unfold batch; simp

theorem batch_cons {α} {size : Nat} {s : List α} (hs : s ≠ []) (hn : 0 < size) :
    batch size s = s.take size :: batch size (s.drop size) := by
  conv => lhs; unfold batch
  rw [dif_neg]
  simp [hs]
  omega

theorem batch_getElem? {α} (size : Nat) (hn : 0 < size) (s : List α) (i : Nat) :
    (batch size s)[i]? = if i * size < s.length then some ((s.drop (i * size)).take size) else none := by
  induction i generalizing s with
  | zero =>
    cases s with
    | nil => simp [batch_nil]
    | cons x xs => rw [batch_cons (by simp) hn]; simp
  | succ i ih =>
    cases s with
    | nil => simp [batch_nil]
    | cons x xs =>
      rw [batch_cons (by simp) hn, List.getElem?_cons_succ, ih, List.drop_drop, List.length_drop]
      have e : (i + 1) * size = size + i * size := by rw [Nat.add_mul, Nat.one_mul, Nat.add_comm]
      rw [e]
      by_cases h : i * size < (x :: xs).length - size
      · rw [if_pos h, if_pos (by omega)]
      · rw [if_neg h, if_neg (by omega)]

theorem batch_flatten {α} (size : Nat) (hn : 0 < size) (s : List α) : (batch size s).flatten = s := by
  fun_induction batch size s with
  | case1 s h =>
    have : s = [] := by
      cases s with
      | nil => rfl
      | cons x xs =>
        cases size with
        | zero => omega
        | succ n => simp at h
    simp [this]
  | case2 s h ih => simp [ih]

theorem length_batch {α} (size : Nat) (hn : 0 < size) (s : List α) :
    (batch size s).length = ceilDiv s.length size := by
  fun_induction batch size s with
  | case1 s h =>
    have : s = [] := by
      cases s with
      | nil => rfl
      | cons x xs =>
        cases size with
        | zero => omega
        | succ n => simp at h
    subst this
    simp only [List.length_nil, ceilDiv]
    rw [Nat.div_eq_of_lt (by omega)]
  | case2 s h ih =>
    have hs : s ≠ [] := by rintro rfl; simp at h
    have hl : 0 < s.length := List.length_pos_iff.2 hs
    simp only [List.length_cons, ih, List.length_drop]
    unfold ceilDiv
    by_cases hle : size ≤ s.length
    · have : s.length + size - 1 = (s.length - size + size - 1) + size := by omega
      rw [this, Nat.add_div_right _ hn]
    · have e1 : s.length - size + size - 1 = size - 1 := by omega
      have e2 : s.length + size - 1 = (s.length - 1) + size := by omega
      rw [e1, e2, Nat.add_div_right _ hn, Nat.div_eq_of_lt (by omega : size - 1 < size),
        Nat.div_eq_of_lt (by omega : s.length - 1 < size)]

theorem ceilDiv_succ_mul {k size : Nat} (hn : 0 < size) : ceilDiv (k * size + 1) size = k + 1 := by
  unfold ceilDiv
  have : k * size + 1 + size - 1 = (k + 1) * size := by rw [Nat.add_mul, Nat.one_mul]; omega
  rw [this, Nat.mul_div_cancel _ hn]

theorem ceilDiv_mono {a b c : Nat} (h : a ≤ b) : ceilDiv a c ≤ ceilDiv b c :=
  Nat.div_le_div_right (by omega)

theorem resize_eq_aux {α} (s : List α) (size stop : Nat) (hn : 0 < size) (hstop : size ≤ stop) :
    ((pyRange 0 stop size).zip (pyRange size stop size)).map (fun p => (s.take p.2).drop p.1)
      = (List.range (ceilDiv (stop - size) size)).map (fun i => (s.drop (i * size)).take size) := by
  apply List.ext_getElem?
  intro i
  have hmono : ceilDiv (stop - size) size ≤ ceilDiv (stop - 0) size := ceilDiv_mono (by omega)
  simp only [List.getElem?_map, pyRange]
  by_cases hi : i < ceilDiv (stop - size) size
  · have h1 : ((List.range (ceilDiv (stop - 0) size)).map (fun i => 0 + i * size))[i]? = some (i * size) := by
      rw [List.getElem?_map, List.getElem?_range (by omega)]; simp
    have h2 : ((List.range (ceilDiv (stop - size) size)).map (fun i => size + i * size))[i]?
        = some (size + i * size) := by
      rw [List.getElem?_map, List.getElem?_range hi]; simp
    have h3 := (List.getElem?_zip_eq_some (z := (i * size, size + i * size))).2 ⟨h1, h2⟩
    rw [h3, List.getElem?_range hi]
    simp only [Option.map_some, Option.some.injEq]
    rw [List.drop_take]
    congr 1
    omega
  · have h2 : (((List.range (ceilDiv (stop - 0) size)).map (fun i => 0 + i * size)).zip
        ((List.range (ceilDiv (stop - size) size)).map (fun i => size + i * size))).length ≤ i := by
      simp; omega
    rw [List.getElem?_eq_none_iff.2 h2, List.getElem?_eq_none_iff.2 (by simp; omega)]
    rfl

theorem batch_eq_map {α} (size : Nat) (hn : 0 < size) (s : List α) :
    batch size s = (List.range (ceilDiv s.length size)).map (fun i => (s.drop (i * size)).take size) := by
  apply List.ext_getElem?
  intro i
  rw [batch_getElem? size hn, List.getElem?_map]
  have hge := ceilDiv_mul_ge s.length size hn
  have hlt := ceilDiv_mul_lt s.length size hn
  by_cases hi : i < ceilDiv s.length size
  · have : i * size < s.length := by
      have := Nat.mul_le_mul_left size (show i + 1 ≤ ceilDiv s.length size by omega)
      rw [Nat.mul_add, Nat.mul_one, Nat.mul_comm] at this
      omega
    rw [if_pos this, List.getElem?_range hi]; rfl
  · have : ¬ i * size < s.length := by
      have := Nat.mul_le_mul_left size (show ceilDiv s.length size ≤ i by omega)
      rw [Nat.mul_comm size i] at this
      omega
    rw [if_neg this, List.getElem?_eq_none_iff.2 (by simp; omega)]
    rfl

end Aiootp.Text
