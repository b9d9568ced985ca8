import Verif.Spec.Json
import Mathlib.Data.Nat.Digits.Lemmas

namespace Aiootp.Json

variable {F : Type}

theorem chr_val (c : Code) : chr c.val = c := by
  apply Fin.ext
  simp [chr, Fin.ofNat, Nat.mod_eq_of_lt c.isLt]

theorem chr_val_of {n : Nat} (h : n < 1114112) : (chr n).val = n := by
  simp [chr, Fin.ofNat, Nat.mod_eq_of_lt h]

/-! ### strings -/

theorem unhex_hexDigit {n : Nat} (h : n < 16) : unhex (hexDigit n) = .ok n := by
  unfold unhex hexDigit
  by_cases h1 : n < 10
  · simp only [h1, if_true]
    rw [if_pos (by omega)]
    congr 1
    omega
  · simp only [h1, if_false]
    rw [if_neg (by omega), if_pos (by omega)]
    congr 1
    omega

/-- The four digits of a code unit. -/
def h4 (n : Nat) : Text := [hexDigit (n / 4096 % 16), hexDigit (n / 256 % 16), hexDigit (n / 16 % 16), hexDigit (n % 16)]

theorem u4_eq (n : Nat) : u4 n = 92 :: 117 :: h4 n := rfl

theorem hex4_h4 {n : Nat} (h : n < 65536) (rest : Text) : hex4 (h4 n ++ rest) = .ok (n, rest) := by
  show hex4 (_ :: _ :: _ :: _ :: rest) = _
  rw [hex4, unhex_hexDigit (by omega), unhex_hexDigit (by omega), unhex_hexDigit (by omega), unhex_hexDigit (by omega)]
  simp only [bind, Except.bind, pure, Except.pure]
  congr 2
  omega

theorem joinPair_low {u : Nat} (h : isHigh u = false) (t : Text) : joinPair u t = .ok (u, t) := by
  unfold joinPair
  split
  · simp [h]
  · rfl

theorem joinPair_pair {u v : Nat} (h : isHigh u = true) (hv : isLow v = true) (t : Text) :
    joinPair u (u4 v ++ t) = .ok (0x10000 + ((u - 0xd800) * 1024 + (v - 0xdc00)), t) := by
  have hv' : v < 65536 := by simp [isLow] at hv; omega
  rw [u4_eq]
  show joinPair u (92 :: 117 :: (h4 v ++ t)) = _
  simp only [joinPair, h, if_true, hex4_h4 hv', bind, Except.bind, hv]
  rfl

theorem joinPair_other {u v : Nat} (hv' : v < 65536) (hv : isLow v = false) (t : Text) :
    joinPair u (u4 v ++ t) = .ok (u, u4 v ++ t) := by
  rw [u4_eq]
  show joinPair u (92 :: 117 :: (h4 v ++ t)) = _
  simp only [joinPair, hex4_h4 hv', bind, Except.bind, hv]
  split <;> rfl

theorem joinPair_else {u : Nat} {t : Text} (h : ∀ r, t ≠ 92 :: 117 :: r) : joinPair u t = .ok (u, t) := by
  unfold joinPair
  split
  · rename_i r
    exact absurd rfl (h r)
  · rfl

/-- What `escape` gives. -/
inductive Escaped (c : Code) : Prop where
  | plain (h : escape c = [c.val]) (h1 : 32 ≤ c.val) (h2 : c.val ≠ 34) (h3 : c.val ≠ 92) (h4 : c.val ≤ 126)
  | short (e : Nat) (h : escape c = [92, e]) (he : e ≠ 117) (hu : unescape e = .ok c.val) (h1 : c.val ≤ 126)
  | unit (h : escape c = u4 c.val) (h1 : c.val < 0x10000)
  | pair (h : escape c = u4 (0xd800 + (c.val - 0x10000) / 1024) ++ u4 (0xdc00 + (c.val - 0x10000) % 1024)) (h1 : 0x10000 ≤ c.val)

theorem escaped (c : Code) : Escaped c := by
  by_cases h1 : c.val = 34
  · exact .short 34 (by simp [escape, h1]) (by decide) (by rw [h1]; decide) (by omega)
  by_cases h2 : c.val = 92
  · exact .short 92 (by simp [escape, h2]) (by decide) (by rw [h2]; decide) (by omega)
  by_cases h3 : c.val = 8
  · exact .short 98 (by simp [escape, h3]) (by decide) (by rw [h3]; decide) (by omega)
  by_cases h4 : c.val = 12
  · exact .short 102 (by simp [escape, h4]) (by decide) (by rw [h4]; decide) (by omega)
  by_cases h5 : c.val = 10
  · exact .short 110 (by simp [escape, h5]) (by decide) (by rw [h5]; decide) (by omega)
  by_cases h6 : c.val = 13
  · exact .short 114 (by simp [escape, h6]) (by decide) (by rw [h6]; decide) (by omega)
  by_cases h7 : c.val = 9
  · exact .short 116 (by simp [escape, h7]) (by decide) (by rw [h7]; decide) (by omega)
  by_cases h8 : 32 ≤ c.val ∧ c.val ≤ 126
  · exact .plain (by simp only [escape, h1, h2, h3, h4, h5, h6, h7, h8, if_false, and_self, if_true]) h8.1 h1 h2 h8.2
  by_cases h9 : c.val < 0x10000
  · exact .unit (by simp only [escape, h1, h2, h3, h4, h5, h6, h7, if_neg h8, h9, if_false, if_true]) h9
  · exact .pair (by simp only [escape, h1, h2, h3, h4, h5, h6, h7, if_neg h8, h9, if_false]) (by omega)

theorem scan_plain {n c : Nat} {rest t : Text} {s : List Code} (h1 : 32 ≤ c) (h2 : c ≠ 34) (h3 : c ≠ 92)
    (h : scanString n rest = .ok (s, t)) : scanString (n + 1) (c :: rest) = .ok (chr c :: s, t) := by
  rw [scanString.eq_def]
  simp only [if_neg h2, if_neg h3, if_neg (show ¬ c < 32 by omega), h]
  rfl

theorem scan_short {n e u : Nat} {rest t : Text} {s : List Code} (he : e ≠ 117) (hu : unescape e = .ok u)
    (h : scanString n rest = .ok (s, t)) : scanString (n + 1) (92 :: e :: rest) = .ok (chr u :: s, t) := by
  rw [scanString.eq_def]
  simp only [if_neg (show ¬ (92 : Nat) = 34 by decide), if_true, if_neg he, hu, h]
  rfl

theorem scan_end (n : Nat) (rest : Text) : scanString (n + 1) (34 :: rest) = .ok ([], rest) := by
  rw [scanString.eq_def]
  simp only [if_true]

theorem scan_unit {n u w : Nat} {rest rest' t : Text} {s : List Code} (hu : u < 65536)
    (hj : joinPair u rest = .ok (w, rest')) (h : scanString n rest' = .ok (s, t)) :
    scanString (n + 1) (u4 u ++ rest) = .ok (chr w :: s, t) := by
  rw [u4_eq]
  show scanString (n + 1) (92 :: 117 :: (h4 u ++ rest)) = _
  rw [scanString.eq_def]
  simp only [if_neg (show ¬ (92 : Nat) = 34 by decide), if_true, hex4_h4 hu, bind, Except.bind, hj, h]
  rfl

theorem length_escape (c : Code) : 0 < (escape c).length := by
  cases escaped c with
  | plain h => rw [h]; simp
  | short e h => rw [h]; simp
  | unit h => rw [h]; simp [u4]
  | pair h => rw [h]; simp [u4]

theorem escape_unit {c : Code} (h1 : 127 ≤ c.val) (h2 : c.val < 0x10000) : escape c = u4 c.val := by
  cases escaped c with
  | plain h _ _ _ h4 => omega
  | short e h _ _ h4 => omega
  | unit h => exact h
  | pair h h1 => omega

theorem scan_cons {n : Nat} {c : Code} {rest t : Text} {s : List Code}
    (hj : isHigh c.val = true → joinPair c.val rest = .ok (c.val, rest)) (h : scanString n rest = .ok (s, t)) :
    scanString (n + 1) (escape c ++ rest) = .ok (c :: s, t) := by
  cases escaped c with
  | plain e h1 h2 h3 => rw [e]; have := scan_plain h1 h2 h3 h; rwa [chr_val] at this
  | short e' e he hu => rw [e]; have := scan_short he hu h; rwa [chr_val] at this
  | unit e h1 =>
    rw [e]
    have hj' : joinPair c.val rest = .ok (c.val, rest) := by
      cases hh : isHigh c.val with
      | false => exact joinPair_low hh rest
      | true => exact hj hh
    have := scan_unit h1 hj' h
    rwa [chr_val] at this
  | pair e h1 =>
    have hlt := c.isLt
    rw [e, List.append_assoc]
    have hj' := joinPair_pair (u := 0xd800 + (c.val - 0x10000) / 1024) (v := 0xdc00 + (c.val - 0x10000) % 1024)
      (by simp [isHigh]; omega) (by simp [isLow]; omega) rest
    have := scan_unit (by omega) hj' h
    rw [this]
    have hc : 0x10000 + ((0xd800 + (c.val - 0x10000) / 1024 - 0xd800) * 1024 + (0xdc00 + (c.val - 0x10000) % 1024 - 0xdc00)) = c.val := by omega
    rw [hc, chr_val]

theorem scanString_quote (s : List Code) (rest : Text) (n : Nat) (hn : (s.flatMap escape).length < n) :
    scanString n (s.flatMap escape ++ 34 :: rest) = .ok (joined s, rest) := by
  induction s using joined.induct generalizing n with
  | case1 a b tail hab ih =>
    obtain ⟨ha', hb'⟩ := hab
    have ha : isHigh a.val = true := by simpa [isHigh] using ha'
    have hb : isLow b.val = true := by simpa [isLow] using hb'
    obtain ⟨m, rfl⟩ : ∃ m, n = m + 1 := ⟨n - 1, by omega⟩
    rw [List.flatMap_cons, List.flatMap_cons, escape_unit (c := a) (by omega) (by omega), escape_unit (c := b) (by omega) (by omega)] at hn ⊢
    simp only [List.length_append] at hn
    have : 0 < (u4 a.val).length := by simp [u4]
    rw [List.append_assoc, List.append_assoc, joined, if_pos ⟨ha', hb'⟩]
    exact scan_unit (by omega) (joinPair_pair ha hb _) (ih m (by omega))
  | case2 a b tail hab ih =>
    obtain ⟨m, rfl⟩ : ∃ m, n = m + 1 := ⟨n - 1, by omega⟩
    rw [List.flatMap_cons] at hn ⊢
    rw [List.length_append] at hn
    have := length_escape a
    rw [List.append_assoc, joined, if_neg hab]
    refine scan_cons (fun ha => ?_) (ih m (by omega))
    have hb : isLow b.val = false := by
      cases h : isLow b.val with
      | false => rfl
      | true => exact absurd ⟨by simpa [isHigh] using ha, by simpa [isLow] using h⟩ hab
    rw [List.flatMap_cons, List.append_assoc]
    cases escaped b with
    | plain e h1 h2 h3 =>
      rw [e]
      exact joinPair_else (fun r hr => h3 (by injection hr))
    | short e' e he =>
      rw [e]
      exact joinPair_else (fun r hr => he (by injection hr with _ hr; injection hr))
    | unit e h1 => rw [e]; exact joinPair_other h1 hb _
    | pair e h1 =>
      have := b.isLt
      rw [e, List.append_assoc]
      exact joinPair_other (by omega) (by simp [isLow]; omega) _
  | case3 s h =>
    obtain ⟨m, rfl⟩ : ∃ m, n = m + 1 := ⟨n - 1, by omega⟩
    match s, h with
    | [], _ => exact scan_end m rest
    | [a], _ =>
      have := length_escape a
      simp only [List.flatMap_cons, List.flatMap_nil, List.append_nil] at hn ⊢
      obtain ⟨k, rfl⟩ : ∃ k, m = k + 1 := ⟨m - 1, by omega⟩
      exact scan_cons (fun _ => joinPair_else (fun r hr => by injection hr with h _; cases h)) (scan_end k rest)
    | a :: b :: tail, h => exact absurd rfl (h a b tail)

/-- Characters that stand for themselves. -/
def Plain (t : Text) : Prop := ∀ c ∈ t, 32 ≤ c ∧ c < 127 ∧ c ≠ 34 ∧ c ≠ 92

theorem scanString_plain {t : Text} (h : Plain t) (rest : Text) (n : Nat) (hn : t.length < n) :
    scanString n (t ++ 34 :: rest) = .ok (t.map chr, rest) := by
  induction t generalizing n with
  | nil =>
    obtain ⟨m, rfl⟩ : ∃ m, n = m + 1 := ⟨n - 1, by omega⟩
    exact scan_end m rest
  | cons c t ih =>
    obtain ⟨m, rfl⟩ : ∃ m, n = m + 1 := ⟨n - 1, by omega⟩
    obtain ⟨h1, -, h2, h3⟩ := h c (by simp)
    exact scan_plain h1 h2 h3 (ih (fun d hd => h d (by simp [hd])) m (by simp at hn; omega))

/-! ### numbers -/

theorem natText_digits (n : Nat) : Digits (natText n) := by
  unfold natText
  split
  · exact ⟨by simp, by simp⟩
  · rename_i h
    refine ⟨by simpa using Nat.digits_ne_nil_iff_ne_zero.2 h, fun c hc => ?_⟩
    rw [List.mem_map] at hc
    obtain ⟨d, hd, rfl⟩ := hc
    have := Nat.digits_lt_base (b := 10) (by omega) (List.mem_reverse.1 hd)
    omega

theorem natText_head (n : Nat) : (natText n).head? = some 48 → natText n = [48] := by
  unfold natText
  split
  · intro; rfl
  · rename_i h
    intro hh
    exfalso
    rw [List.head?_map, List.head?_reverse] at hh
    have hne : Nat.digits 10 n ≠ [] := Nat.digits_ne_nil_iff_ne_zero.2 h
    rw [List.getLast?_eq_getLast_of_ne_nil hne] at hh
    have := Nat.getLast_digit_ne_zero 10 h
    simp at hh
    omega

theorem foldl_digits (ds : List Nat) :
    (ds.reverse.map (48 + ·)).foldl (fun n c => n * 10 + (c - 48)) 0 = Nat.ofDigits 10 ds := by
  induction ds with
  | nil => rfl
  | cons d ds ih =>
    rw [List.reverse_cons, List.map_append, List.foldl_append, ih]
    simp [Nat.ofDigits_cons]
    omega

theorem natOf_natText (n : Nat) : natOf (natText n) = n := by
  unfold natOf natText
  split
  · rename_i h; simp [h]
  · rw [foldl_digits, Nat.ofDigits_digits]

/-- What may follow a value: nothing, a comma or a closing bracket. -/
def Delim (t : Text) : Prop := t = [] ∨ ∃ c r, t = c :: r ∧ (c = 44 ∨ c = 93 ∨ c = 125)

theorem digits_append {ds rest : Text} (h : ∀ c ∈ ds, 48 ≤ c ∧ c ≤ 57) (hr : ∀ c r, rest = c :: r → isDigit c = false) :
    digits (ds ++ rest) = (ds, rest) := by
  induction ds with
  | nil =>
    cases rest with
    | nil => rfl
    | cons c r =>
      show digits (c :: r) = _
      rw [digits, hr c r rfl]
      rfl
  | cons d ds ih =>
    have hd : isDigit d = true := by simpa [isDigit] using h d (by simp)
    show digits (d :: (ds ++ rest)) = _
    rw [digits, hd, if_pos rfl, ih (fun c hc => h c (by simp [hc]))]

theorem isDigit_false {c : Nat} (h : c < 48 ∨ 57 < c) : isDigit c = false := by
  simp [isDigit]; omega

/-- A text that the pattern of numbers reads up to its end. -/
theorem integerPart_eq {sign whole rest : Text} (hs : sign = [] ∨ sign = [45]) (hw : Digits whole) (h0 : whole.head? = some 48 → whole = [48])
    (hr : ∀ c r, rest = c :: r → isDigit c = false) : integerPart (sign ++ whole ++ rest) = some (sign ++ whole, rest) := by
  obtain ⟨hne, hd⟩ := hw
  cases whole with
  | nil => exact absurd rfl hne
  | cons d ds =>
    have hdd := hd d (by simp)
    have hdig : isDigit d = true := by simpa [isDigit] using hdd
    by_cases h48 : d = 48
    · subst h48
      have := h0 rfl
      injection this with _ h2
      subst h2
      rcases hs with rfl | rfl <;> rfl
    · have hds := digits_append (ds := ds) (rest := rest) (fun c hc => hd c (by simp [hc])) hr
      rcases hs with rfl | rfl
      · show integerPart (d :: (ds ++ rest)) = some (d :: ds, rest)
        unfold integerPart
        split
        · rename_i h; injection h with h _; omega
        · rename_i h; injection h with h _; omega
        · rename_i h; injection h with h _; omega
        · rename_i h
          injection h with h1 h2
          subst h1 h2
          rw [hdig, if_pos rfl, hds]
        · rename_i h; cases h
      · show integerPart (45 :: d :: (ds ++ rest)) = some (45 :: d :: ds, rest)
        unfold integerPart
        split
        · rename_i h; injection h with _ h; injection h with h _; omega
        · rename_i h
          injection h with _ h
          injection h with h1 h2
          subst h1 h2
          rw [hdig, if_pos rfl, hds]
        · rename_i h; injection h with h _; omega
        · rename_i h1 h2 h3 h
          injection h with h4 h5
          exact absurd h5.symm (fun e => h2 d (ds ++ rest) h4.symm e)
        · rename_i h; cases h

theorem fractionPart_nil {rest : Text} (h : ∀ r, rest ≠ 46 :: r) : fractionPart rest = ([], rest) := by
  unfold fractionPart
  split
  · rename_i r; exact absurd rfl (h r)
  · rfl

theorem fractionPart_eq {ds rest : Text} (hd : Digits ds) (hr : ∀ c r, rest = c :: r → isDigit c = false) :
    fractionPart (46 :: (ds ++ rest)) = (46 :: ds, rest) := by
  unfold fractionPart
  simp only [digits_append hd.2 hr, if_neg hd.1]

theorem exponentPart_nil {rest : Text} (h : ∀ c r, rest = c :: r → c ≠ 101 ∧ c ≠ 69) : exponentPart rest = ([], rest) := by
  unfold exponentPart
  split
  · rename_i c r
    rw [if_neg (by have := h c r rfl; omega)]
  · rfl

theorem exponentPart_eq {sign ds rest : Text} (hs : sign = [] ∨ sign = [45] ∨ sign = [43]) (hd : Digits ds)
    (hr : ∀ c r, rest = c :: r → isDigit c = false) :
    exponentPart (101 :: (sign ++ ds ++ rest)) = (101 :: (sign ++ ds), rest) := by
  unfold exponentPart
  simp only [true_or, if_true]
  rcases hs with rfl | rfl | rfl
  · obtain ⟨d, r, rfl⟩ : ∃ d r, ds = d :: r := by
      cases ds with
      | nil => exact absurd rfl hd.1
      | cons d r => exact ⟨d, r, rfl⟩
    have h1 := hd.2 d (by simp)
    have h2 := digits_append hd.2 hr
    simp only [List.nil_append, List.cons_append] at h2 ⊢
    have h3 : ¬ (d = 45 ∨ d = 43) := by omega
    simp only [if_neg h3, h2, if_neg hd.1, List.nil_append]
  · have h2 := digits_append hd.2 hr
    simp only [List.cons_append, List.nil_append, true_or, if_true, h2, if_neg hd.1]
  · have h2 := digits_append hd.2 hr
    simp only [List.cons_append, List.nil_append, or_true, if_true, h2, if_neg hd.1]

theorem Delim.not_digit {rest : Text} (h : Delim rest) : ∀ c r, rest = c :: r → isDigit c = false := by
  intro c r e
  rcases h with h | ⟨c', r', h, hc⟩
  · rw [h] at e; cases e
  · rw [h] at e
    injection e with e1 e2
    subst e1
    exact isDigit_false (by omega)

theorem Delim.not_point {rest : Text} (h : Delim rest) : ∀ r, rest ≠ 46 :: r := by
  intro r e
  rcases h with h | ⟨c', r', h, hc⟩
  · rw [h] at e; cases e
  · rw [h] at e
    injection e with e1 e2
    omega

theorem Delim.not_exp {rest : Text} (h : Delim rest) : ∀ c r, rest = c :: r → c ≠ 101 ∧ c ≠ 69 := by
  intro c r e
  rcases h with h | ⟨c', r', h, hc⟩
  · rw [h] at e; cases e
  · rw [h] at e
    injection e with e1 e2
    omega

theorem intText_ok {limit : Nat} {n : Int} {t : Text} (h : intText limit n = .ok t) :
    ∃ sign, (sign = [] ∨ sign = [45]) ∧ t = sign ++ natText n.natAbs ∧ (natText n.natAbs).length ≤ limit ∧
      t = (if n < 0 then 45 :: natText n.natAbs else natText n.natAbs) ∧ (sign = [45] ↔ n < 0) := by
  unfold intText at h
  split at h
  · cases h
  · rename_i hl
    cases h
    by_cases hn : n < 0
    · exact ⟨[45], .inr rfl, by simp [hn], by omega, rfl, by simp [hn]⟩
    · exact ⟨[], .inl rfl, by simp [hn], by omega, rfl, by simp [hn]⟩

theorem scanNumber_int (E : Env F) {n : Int} {t rest : Text} (h : intText E.limit n = .ok t) (hr : Delim rest) :
    scanNumber E (t ++ rest) = .ok (.int n, rest) := by
  obtain ⟨sign, hs, rfl, hl, -, hsn⟩ := intText_ok h
  unfold scanNumber
  rw [integerPart_eq hs (natText_digits _) (natText_head _) hr.not_digit]
  simp only [fractionPart_nil hr.not_point, exponentPart_nil hr.not_exp, and_self, if_true]
  have hp : parseInt E.limit (sign ++ natText n.natAbs) = .ok n := by
    rcases hs with rfl | rfl
    · have hn : ¬ n < 0 := fun hn => by have := hsn.2 hn; cases this
      unfold parseInt
      split
      · rename_i h
        have := (natText_digits n.natAbs).2 45 (by rw [← List.nil_append (natText _), h]; simp)
        omega
      · rw [List.nil_append, if_neg (by omega), natOf_natText]
        congr 1
        omega
    · have hn : n < 0 := hsn.1 rfl
      show parseInt E.limit (45 :: natText n.natAbs) = _
      unfold parseInt
      simp only [if_neg (show ¬ (natText n.natAbs).length > E.limit by omega), natOf_natText]
      congr 1
      omega
  rw [hp]
  rfl

theorem scanNumber_float (E : Env F) {t rest : Text} (h : FloatText t) (hr : Delim rest) :
    scanNumber E (t ++ rest) = .ok (.float (E.parse t), rest) := by
  obtain ⟨sign, whole, fraction, exponent, rfl, hs, hw, h0, hf, he, hne⟩ := h.form
  have hexp : ∀ c r, exponent ++ rest = c :: r → isDigit c = false := by
    intro c r e
    rcases he with rfl | ⟨s', ds, rfl, -, -⟩
    · exact hr.not_digit c r e
    · injection e with e1 _
      subst e1
      rfl
  have hfr : ∀ c r, fraction ++ (exponent ++ rest) = c :: r → isDigit c = false := by
    intro c r e
    rcases hf with rfl | ⟨ds, rfl, -⟩
    · exact hexp c r e
    · injection e with e1 _
      subst e1
      rfl
  have e1 : fractionPart (fraction ++ (exponent ++ rest)) = (fraction, exponent ++ rest) := by
    rcases hf with rfl | ⟨ds, rfl, hd⟩
    · refine fractionPart_nil (fun r e => ?_)
      rcases he with rfl | ⟨s', ds, rfl, -, -⟩
      · exact hr.not_point r e
      · injection e with e _; cases e
    · exact fractionPart_eq hd hexp
  have e2 : exponentPart (exponent ++ rest) = (exponent, rest) := by
    rcases he with rfl | ⟨s', ds, rfl, hs', hd⟩
    · exact exponentPart_nil hr.not_exp
    · exact exponentPart_eq hs' hd hr.not_digit
  unfold scanNumber
  rw [List.append_assoc (sign ++ whole ++ fraction), List.append_assoc (sign ++ whole), integerPart_eq hs hw h0 hfr]
  simp only [e1, e2, if_neg hne]

theorem scanValue_number (E : Env F) {n : Nat} {sign whole rest : Text} (hs : sign = [] ∨ sign = [45]) (hw : Digits whole) :
    scanValue E (n + 1) (sign ++ whole ++ rest) = scanNumber E (sign ++ whole ++ rest) := by
  obtain ⟨d, ds, rfl⟩ : ∃ d ds, whole = d :: ds := by
    cases whole with
    | nil => exact absurd rfl hw.1
    | cons d r => exact ⟨d, r, rfl⟩
  have hd := hw.2 d (by simp)
  have key : ∀ c r, ((48 ≤ c ∧ c ≤ 57) ∨ (c = 45 ∧ ∃ d r', r = d :: r' ∧ 48 ≤ d ∧ d ≤ 57)) →
      scanValue E (n + 1) (c :: r) = scanNumber E (c :: r) := by
    intro c r hc
    have n1 : after nullText (c :: r) = none := by rw [nullText, after, if_neg (by omega)]
    have n2 : after trueText (c :: r) = none := by rw [trueText, after, if_neg (by omega)]
    have n3 : after falseText (c :: r) = none := by rw [falseText, after, if_neg (by omega)]
    have n4 : after nanText (c :: r) = none := by rw [nanText, after, if_neg (by omega)]
    have n5 : after infText (c :: r) = none := by rw [infText, after, if_neg (by omega)]
    have n6 : after negInfText (c :: r) = none := by
      rw [negInfText, after]
      split
      · rename_i h45
        rcases hc with hc | ⟨-, d, r', rfl, h1, h2⟩
        · omega
        · rw [infText, after, if_neg (by omega)]
      · rfl
    rw [scanValue.eq_def]
    simp only [if_neg (show ¬ c = 34 by omega), if_neg (show ¬ c = 123 by omega), if_neg (show ¬ c = 91 by omega), n1, n2, n3, n4, n5, n6]
  rcases hs with rfl | rfl
  · exact key d (ds ++ rest) (.inl hd)
  · exact key 45 (d :: (ds ++ rest)) (.inr ⟨rfl, d, _, rfl, hd⟩)

end Aiootp.Json
