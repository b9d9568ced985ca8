import Verif.Lemmas.JsonDict
import Verif.Lemmas.Cipher

namespace Aiootp.Json

variable {F : Type}

/-- The text of a value begins with a character that is neither white space nor a closing bracket. -/
def Start (t : Text) : Prop := ∃ c r, t = c :: r ∧ ¬ (c = 32 ∨ c = 9 ∨ c = 10 ∨ c = 13) ∧ c ≠ 93

def Ascii (t : Text) : Prop := ∀ c ∈ t, 32 ≤ c ∧ c < 128

theorem Ascii.append {a b : Text} (ha : Ascii a) (hb : Ascii b) : Ascii (a ++ b) := by
  intro c hc
  rcases List.mem_append.1 hc with h | h
  · exact ha c h
  · exact hb c h

theorem Ascii.cons {c : Nat} {a : Text} (hc : 32 ≤ c ∧ c < 128) (ha : Ascii a) : Ascii (c :: a) := by
  intro d hd
  rcases List.mem_cons.1 hd with rfl | h
  · exact hc
  · exact ha d h

theorem Plain.ascii {t : Text} (h : Plain t) : Ascii t := fun c hc => by have := h c hc; omega

theorem Plain.append {a b : Text} (ha : Plain a) (hb : Plain b) : Plain (a ++ b) := by
  intro c hc
  rcases List.mem_append.1 hc with h | h
  · exact ha c h
  · exact hb c h

theorem Digits.plain {t : Text} (h : Digits t) : Plain t := fun c hc => by have := h.2 c hc; omega

theorem skipWs_start {t : Text} (h : Start t) (rest : Text) : skipWs (t ++ rest) = t ++ rest := by
  obtain ⟨c, r, rfl, hc, -⟩ := h
  show skipWs (c :: (r ++ rest)) = _
  rw [skipWs, if_neg hc]
  rfl

theorem skipWs_cons {c : Nat} (h : ¬ (c = 32 ∨ c = 9 ∨ c = 10 ∨ c = 13)) (t : Text) : skipWs (c :: t) = c :: t := by
  rw [skipWs, if_neg h]

theorem skipWs_space (t : Text) : skipWs (32 :: t) = skipWs t := by
  rw [skipWs, if_pos (by simp)]

/-! ### floats -/

theorem FloatText.plain {t : Text} (h : FloatText t) : Plain t := by
  obtain ⟨sign, whole, fraction, exponent, rfl, hs, hw, h0, hf, he, hne⟩ := h.form
  refine ((Plain.append ?_ hw.plain).append ?_).append ?_
  · rcases hs with rfl | rfl
    · intro c hc; cases hc
    · intro c hc; simp at hc; omega
  · rcases hf with rfl | ⟨ds, rfl, hd⟩
    · intro c hc; cases hc
    · intro c hc
      rcases List.mem_cons.1 hc with rfl | h
      · omega
      · exact hd.plain c h
  · rcases he with rfl | ⟨s', ds, rfl, hs', hd⟩
    · intro c hc; cases hc
    · intro c hc
      rcases List.mem_cons.1 hc with rfl | h
      · omega
      · rcases List.mem_append.1 h with h | h
        · rcases hs' with rfl | rfl | rfl
          · cases h
          · simp at h; omega
          · simp at h; omega
        · exact hd.plain c h

theorem start_number {sign whole : Text} (hs : sign = [] ∨ sign = [45]) (hw : Digits whole) (rest : Text) : Start (sign ++ whole ++ rest) := by
  obtain ⟨d, ds, rfl⟩ : ∃ d ds, whole = d :: ds := by
    cases whole with
    | nil => exact absurd rfl hw.1
    | cons d r => exact ⟨d, r, rfl⟩
  have hd := hw.2 d (by simp)
  rcases hs with rfl | rfl
  · exact ⟨d, ds ++ rest, rfl, by omega, by omega⟩
  · exact ⟨45, d :: (ds ++ rest), rfl, by omega, by omega⟩

theorem scan_float {E : Env F} (hE : E.Law) (f : F) : Start (E.repr f) ∧ Plain (E.repr f) ∧
    ∀ rest, Delim rest → ∀ n, scanValue E (n + 1) (E.repr f ++ rest) = .ok (.float f, rest) := by
  rcases hE.read f with ⟨h, e⟩ | ⟨h, e⟩ | ⟨h, e⟩ | ⟨h, e⟩
  · rw [h]
    refine ⟨⟨_, _, rfl, by decide, by decide⟩, by unfold Plain nanText; decide, fun rest _ n => ?_⟩
    rw [scanValue.eq_def]
    simp [nanText, nullText, trueText, falseText, after, e]
  · rw [h]
    refine ⟨⟨_, _, rfl, by decide, by decide⟩, by unfold Plain infText; decide, fun rest _ n => ?_⟩
    rw [scanValue.eq_def]
    simp [infText, nanText, nullText, trueText, falseText, after, e]
  · rw [h]
    refine ⟨⟨_, _, rfl, by decide, by decide⟩, by unfold Plain negInfText infText; decide, fun rest _ n => ?_⟩
    rw [scanValue.eq_def]
    simp [negInfText, infText, nanText, nullText, trueText, falseText, after, e]
  · refine ⟨?_, h.plain, fun rest hr n => ?_⟩
    · obtain ⟨sign, whole, fraction, exponent, ht, hs, hw, -⟩ := h.form
      rw [ht, List.append_assoc]
      exact start_number hs hw _
    · have hn : scanValue E (n + 1) (E.repr f ++ rest) = scanNumber E (E.repr f ++ rest) := by
        obtain ⟨sign, whole, fraction, exponent, ht, hs, hw, -⟩ := h.form
        rw [ht, List.append_assoc, List.append_assoc]
        exact scanValue_number E hs hw
      rw [hn, scanNumber_float E h hr, e]

/-! ### keys -/

theorem ascii_u4 (n : Nat) : Ascii (u4 n) := by
  have h : ∀ m, 32 ≤ hexDigit (m % 16) ∧ hexDigit (m % 16) < 128 := by
    intro m
    unfold hexDigit
    have := Nat.mod_lt m (show 16 > 0 by omega)
    split <;> omega
  intro c hc
  simp only [u4, List.mem_cons, List.not_mem_nil, or_false] at hc
  rcases hc with rfl | rfl | rfl | rfl | rfl | rfl
  · omega
  · omega
  all_goals exact h _

theorem ascii_escape (c : Code) : Ascii (escape c) := by
  cases escaped c with
  | plain h h1 _ _ h4 => rw [h]; intro d hd; simp at hd; omega
  | short e h he hu =>
    rw [h]
    have : 32 ≤ e ∧ e < 128 := by
      refine Classical.byContradiction fun hn => ?_
      unfold unescape at hu
      rw [if_neg (by omega), if_neg (by omega), if_neg (by omega), if_neg (by omega), if_neg (by omega), if_neg (by omega), if_neg (by omega),
        if_neg (by omega)] at hu
      cases hu
    intro d hd
    simp at hd
    omega
  | unit h h1 => rw [h]; exact ascii_u4 _
  | pair h h1 => rw [h]; exact (ascii_u4 _).append (ascii_u4 _)

theorem ascii_flatMap (s : List Code) : Ascii (s.flatMap escape) := by
  intro c hc
  rw [List.mem_flatMap] at hc
  obtain ⟨x, -, hx⟩ := hc
  exact ascii_escape x c hx

theorem plain_int {limit : Nat} {n : Int} {t : Text} (h : intText limit n = .ok t) : Plain t := by
  obtain ⟨sign, hs, rfl, -⟩ := intText_ok h
  refine Plain.append ?_ (natText_digits _).plain
  rcases hs with rfl | rfl
  · intro c hc; cases hc
  · intro c hc; simp at hc; omega

theorem scan_key {E : Env F} (hE : E.Law) {k : Key F} {t : Text} (h : keyText E k = .ok t) :
    ∃ body, t = 34 :: (body ++ [34]) ∧ Ascii body ∧
      ∀ rest n, body.length < n → scanString n (body ++ 34 :: rest) = .ok (keyString E k, rest) := by
  cases k with
  | str s =>
    cases h
    exact ⟨s.flatMap escape, rfl, ascii_flatMap s, fun rest n hn => scanString_quote s rest n hn⟩
  | int n =>
    simp only [keyText, bind_eq_ok] at h
    obtain ⟨t', ht, he⟩ := h
    cases he
    refine ⟨t', rfl, (plain_int ht).ascii, fun rest m hm => ?_⟩
    rw [scanString_plain (plain_int ht) rest m hm]
    obtain ⟨-, -, -, -, e, -⟩ := intText_ok ht
    rw [keyString, ← e]
  | float f =>
    cases h
    have hp := (scan_float hE f).2.1
    exact ⟨E.repr f, rfl, hp.ascii, fun rest m hm => scanString_plain hp rest m hm⟩
  | bool b =>
    cases h
    have hp : Plain (if b then trueText else falseText) := by cases b <;> (unfold Plain; decide)
    exact ⟨_, rfl, hp.ascii, fun rest m hm => scanString_plain hp rest m hm⟩
  | none =>
    cases h
    have hp : Plain nullText := by unfold Plain; decide
    exact ⟨_, rfl, hp.ascii, fun rest m hm => scanString_plain hp rest m hm⟩
  | other => cases h

/-! ### values -/

/-- `scanItems` after a value. -/
def itemsTail (E : Env F) (n : Nat) (rest : Text) : Except Err (Vals F × Text) :=
  match skipWs rest with
  | 93 :: rest => .ok (.nil, rest)
  | 44 :: rest => scanItems E n (skipWs rest)
  | _ => .error .value

theorem scanItems_eq {E : Env F} {n : Nat} {t rest rest' : Text} {x : Val F} {xs : Vals F} (h : scanValue E n t = .ok (x, rest))
    (ht : itemsTail E n rest = .ok (xs, rest')) : scanItems E (n + 1) t = .ok (.cons x xs, rest') := by
  rw [scanItems.eq_def]
  simp only [h, bind, Except.bind]
  unfold itemsTail at ht
  split at ht
  · rename_i r hr
    cases ht
    simp only [hr]
    rfl
  · rename_i r hr
    simp only [hr, ht]
    rfl
  · cases ht

/-- `scanPairs` after a value. -/
def pairsTail (E : Env F) (n : Nat) (rest : Text) : Except Err (List (List Code × Val F) × Text) :=
  match skipWs rest with
  | 125 :: rest => .ok ([], rest)
  | 44 :: rest =>
    match skipWs rest with
    | 34 :: rest => scanPairs E n rest
    | _ => .error .value
  | _ => .error .value

theorem scanPairs_eq {E : Env F} {n : Nat} {t r1 r2 r3 : Text} {k : List Code} {v : Val F} {ps : List (List Code × Val F)}
    (hk : scanString t.length t = .ok (k, 58 :: 32 :: r1)) (hv : scanValue E n (skipWs r1) = .ok (v, r2))
    (ht : pairsTail E n r2 = .ok (ps, r3)) : scanPairs E (n + 1) t = .ok ((k, v) :: ps, r3) := by
  rw [scanPairs.eq_def]
  simp only [hk, bind, Except.bind, skipWs_cons (show ¬ ((58 : Nat) = 32 ∨ (58 : Nat) = 9 ∨ (58 : Nat) = 10 ∨ (58 : Nat) = 13) by decide),
    skipWs_space, hv]
  unfold pairsTail at ht
  split at ht
  · rename_i r hr
    cases ht
    simp only [hr]
    rfl
  · rename_i r hr
    split at ht
    · rename_i r' hr'
      simp only [hr, hr', ht]
      rfl
    · cases ht
  · cases ht

theorem delim_close {c : Nat} (h : c = 44 ∨ c = 93 ∨ c = 125) (t : Text) : Delim (c :: t) := .inr ⟨c, t, rfl, h⟩

theorem scan_list {E : Env F} {x : Val F} {xs : Vals F} {tx tt : Text} (w : Val F) (hw : w = .list (.cons (back E x) (backs E xs)))
    (h1 : Start tx ∧ Ascii tx ∧ ∀ rest, Delim rest → ∀ n, 2 * tx.length ≤ n → scanValue E n (tx ++ rest) = .ok (back E x, rest))
    (h2 : (∃ c r, tt = c :: r ∧ (c = 44 ∨ c = 93)) ∧ Ascii tt ∧
      ∀ rest n, 2 * tt.length ≤ n → itemsTail E n (tt ++ rest) = .ok (backs E xs, rest)) :
    Start (91 :: (tx ++ tt)) ∧ Ascii (91 :: (tx ++ tt)) ∧
      ∀ rest, Delim rest → ∀ n, 2 * (91 :: (tx ++ tt)).length ≤ n → scanValue E n (91 :: (tx ++ tt) ++ rest) = .ok (w, rest) := by
  obtain ⟨hs, ha, hval⟩ := h1
  obtain ⟨⟨c, r, hc, hcc⟩, hta, htail⟩ := h2
  refine ⟨⟨91, _, rfl, by decide, by decide⟩, (ha.append hta).cons (by decide), fun rest hr n hn => ?_⟩
  simp only [List.length_cons, List.length_append] at hn
  obtain ⟨m, rfl⟩ : ∃ m, n = m + 1 + 1 := ⟨n - 2, by omega⟩
  have e : (91 :: (tx ++ tt)) ++ rest = 91 :: (tx ++ (tt ++ rest)) := by simp
  have hi := scanItems_eq (hval (tt ++ rest) (by rw [hc]; exact delim_close (by omega) _) m (by omega)) (htail rest m (by omega))
  rw [e, scanValue.eq_def]
  simp only [if_neg (show ¬ (91 : Nat) = 34 by decide), if_neg (show ¬ (91 : Nat) = 123 by decide), if_true, skipWs_start hs]
  split
  · rename_i r' hr'
    obtain ⟨d, r'', hd, -, h93⟩ := hs
    rw [hd] at hr'
    injection hr' with h _
    exact absurd h h93
  · rw [hi, hw]
    rfl

mutual
theorem scan_val {E : Env F} (hE : E.Law) : (v : Val F) → ∀ t, dumpsVal E v = .ok t →
    Start t ∧ Ascii t ∧ ∀ rest, Delim rest → ∀ n, 2 * t.length ≤ n → scanValue E n (t ++ rest) = .ok (back E v, rest)
  | .none, t, h => by
    cases h
    refine ⟨⟨_, _, rfl, by decide, by decide⟩, by unfold Ascii nullText; decide, fun rest _ n hn => ?_⟩
    obtain ⟨m, rfl⟩ : ∃ m, n = m + 1 := ⟨n - 1, by simp [nullText] at hn; omega⟩
    rw [scanValue.eq_def]
    simp [nullText, after, back]
  | .bool b, t, h => by
    cases h
    cases b with
    | true =>
      refine ⟨⟨_, _, rfl, by decide, by decide⟩, by unfold Ascii trueText; decide, fun rest _ n hn => ?_⟩
      obtain ⟨m, rfl⟩ : ∃ m, n = m + 1 := ⟨n - 1, by simp [trueText] at hn; omega⟩
      rw [scanValue.eq_def]
      simp [trueText, nullText, after, back]
    | false =>
      refine ⟨⟨_, _, rfl, by decide, by decide⟩, by unfold Ascii falseText; decide, fun rest _ n hn => ?_⟩
      obtain ⟨m, rfl⟩ : ∃ m, n = m + 1 := ⟨n - 1, by simp [falseText] at hn; omega⟩
      rw [scanValue.eq_def]
      simp [trueText, falseText, nullText, after, back]
  | .int i, t, h => by
    have h' : intText E.limit i = .ok t := h
    obtain ⟨sign, hs, ht, -⟩ := intText_ok h'
    have hst : Start t := by
      have := start_number hs (natText_digits i.natAbs) []
      rw [List.append_nil, ← ht] at this
      exact this
    refine ⟨hst, (plain_int h').ascii, fun rest hr n hn => ?_⟩
    obtain ⟨m, rfl⟩ : ∃ m, n = m + 1 := ⟨n - 1, by obtain ⟨c, r, rfl, -⟩ := hst; simp at hn; omega⟩
    have : scanValue E (m + 1) (t ++ rest) = scanNumber E (t ++ rest) := by
      rw [ht]
      exact scanValue_number E hs (natText_digits _)
    rw [this, scanNumber_int E h' hr]
    rfl
  | .float f, t, h => by
    cases h
    obtain ⟨h1, h2, h3⟩ := scan_float hE f
    refine ⟨h1, h2.ascii, fun rest hr n hn => ?_⟩
    obtain ⟨m, rfl⟩ : ∃ m, n = m + 1 := ⟨n - 1, by obtain ⟨c, r, hc, -⟩ := h1; rw [hc] at hn; simp at hn; omega⟩
    rw [h3 rest hr m]
    rfl
  | .str s, t, h => by
    cases h
    refine ⟨⟨34, _, rfl, by decide, by decide⟩, ((ascii_flatMap s).append (Ascii.cons (by decide) (fun _ h => by cases h))).cons (by decide),
      fun rest hr n hn => ?_⟩
    obtain ⟨m, rfl⟩ : ∃ m, n = m + 1 := ⟨n - 1, by simp [quote] at hn; omega⟩
    have e : quote s ++ rest = 34 :: (s.flatMap escape ++ 34 :: rest) := by simp [quote]
    rw [e, scanValue.eq_def]
    simp only [if_true]
    rw [scanString_quote s rest _ (by rw [List.length_append, List.length_cons]; omega)]
    rfl
  | .list .nil, t, h => by
    cases h
    refine ⟨⟨91, _, rfl, by decide, by decide⟩, by unfold Ascii; decide, fun rest hr n hn => ?_⟩
    obtain ⟨m, rfl⟩ : ∃ m, n = m + 1 := ⟨n - 1, by simp at hn; omega⟩
    rw [scanValue.eq_def]
    simp [skipWs, back, backs]
  | .list (.cons x xs), t, h => by
    simp only [dumpsVal, dumpsList, bind_eq_ok] at h
    obtain ⟨tx, hx, tt, htt, he⟩ := h
    cases he
    exact scan_list (back E (.list (.cons x xs))) rfl (scan_val hE x tx hx) (scan_tail hE xs tt htt)
  | .tuple .nil, t, h => by
    cases h
    refine ⟨⟨91, _, rfl, by decide, by decide⟩, by unfold Ascii; decide, fun rest hr n hn => ?_⟩
    obtain ⟨m, rfl⟩ : ∃ m, n = m + 1 := ⟨n - 1, by simp at hn; omega⟩
    rw [scanValue.eq_def]
    simp [skipWs, back, backs]
  | .tuple (.cons x xs), t, h => by
    simp only [dumpsVal, dumpsList, bind_eq_ok] at h
    obtain ⟨tx, hx, tt, htt, he⟩ := h
    cases he
    exact scan_list (back E (.list (.cons x xs))) rfl (scan_val hE x tx hx) (scan_tail hE xs tt htt)
  | .dict .nil, t, h => by
    cases h
    refine ⟨⟨123, _, rfl, by decide, by decide⟩, by unfold Ascii; decide, fun rest hr n hn => ?_⟩
    obtain ⟨m, rfl⟩ : ∃ m, n = m + 1 := ⟨n - 1, by simp at hn; omega⟩
    rw [scanValue.eq_def]
    simp [skipWs, back, backItems, merged, firsts, Items.ofPairs]
  | .dict (.cons k v items), t, h => by
    simp only [dumpsVal, bind_eq_ok] at h
    obtain ⟨kt, hk, vt, hv, tt, htt, he⟩ := h
    cases he
    obtain ⟨body, rfl, hb, hscan⟩ := scan_key hE hk
    obtain ⟨hs, ha, hval⟩ := scan_val hE v vt hv
    obtain ⟨⟨c, r, hc, hcc⟩, hta, htail⟩ := scan_items hE items tt htt
    refine ⟨⟨123, _, rfl, by decide, by decide⟩, ?_, fun rest hr n hn => ?_⟩
    · exact Ascii.cons (by decide) (((hb.append (Ascii.cons (by decide) (fun _ h => by cases h))).cons (by decide)).append
        ((Ascii.cons (by decide) (ha.append hta)).cons (by decide)))
    · simp only [List.length_cons, List.length_append] at hn
      obtain ⟨m, rfl⟩ : ∃ m, n = m + 1 + 1 := ⟨n - 2, by omega⟩
      have e : (123 :: (34 :: (body ++ [34]) ++ 58 :: 32 :: (vt ++ tt))) ++ rest
          = 123 :: 34 :: (body ++ 34 :: 58 :: 32 :: (vt ++ (tt ++ rest))) := by simp
      rw [e, scanValue.eq_def]
      simp only [if_neg (show ¬ (123 : Nat) = 34 by decide), if_true,
        skipWs_cons (show ¬ ((34 : Nat) = 32 ∨ (34 : Nat) = 9 ∨ (34 : Nat) = 10 ∨ (34 : Nat) = 13) by decide)]
      rw [scanPairs_eq (hscan _ _ (by rw [List.length_append, List.length_cons]; omega))
        (by rw [skipWs_start hs]; exact hval (tt ++ rest) (by rw [hc]; exact delim_close (by omega) _) m (by omega))
        (htail rest m (by omega))]
      simp only [bind, Except.bind, pure, Except.pure, dictOf_nil, back, backItems]
  | .other, t, h => by cases h
theorem scan_tail {E : Env F} (hE : E.Law) : (xs : Vals F) → ∀ t, dumpsTail E xs = .ok t →
    (∃ c r, t = c :: r ∧ (c = 44 ∨ c = 93)) ∧ Ascii t ∧ ∀ rest n, 2 * t.length ≤ n → itemsTail E n (t ++ rest) = .ok (backs E xs, rest)
  | .nil, t, h => by
    cases h
    refine ⟨⟨93, [], rfl, by decide⟩, by unfold Ascii; decide, fun rest n _ => ?_⟩
    simp [itemsTail, skipWs, backs]
  | .cons x xs, t, h => by
    simp only [dumpsTail, bind_eq_ok] at h
    obtain ⟨tx, hx, tt, htt, he⟩ := h
    cases he
    obtain ⟨hs, ha, hval⟩ := scan_val hE x tx hx
    obtain ⟨⟨c, r, hc, hcc⟩, hta, htail⟩ := scan_tail hE xs tt htt
    refine ⟨⟨44, _, rfl, by decide⟩, ((ha.append hta).cons (by decide)).cons (by decide), fun rest n hn => ?_⟩
    simp only [List.length_cons, List.length_append] at hn
    obtain ⟨m, rfl⟩ : ∃ m, n = m + 1 := ⟨n - 1, by omega⟩
    have e : (44 :: 32 :: (tx ++ tt)) ++ rest = 44 :: 32 :: (tx ++ (tt ++ rest)) := by simp
    rw [e, itemsTail, skipWs_cons (by decide)]
    simp only [skipWs_space, skipWs_start hs]
    exact scanItems_eq (hval (tt ++ rest) (by rw [hc]; exact delim_close (by omega) _) m (by omega)) (htail rest m (by omega))
theorem scan_items {E : Env F} (hE : E.Law) : (items : Items F) → ∀ t, dumpsItems E items = .ok t →
    (∃ c r, t = c :: r ∧ (c = 44 ∨ c = 125)) ∧ Ascii t ∧ ∀ rest n, 2 * t.length ≤ n → pairsTail E n (t ++ rest) = .ok (backItems E items, rest)
  | .nil, t, h => by
    cases h
    refine ⟨⟨125, [], rfl, by decide⟩, by unfold Ascii; decide, fun rest n _ => ?_⟩
    simp [pairsTail, skipWs, backItems]
  | .cons k v items, t, h => by
    simp only [dumpsItems, bind_eq_ok] at h
    obtain ⟨kt, hk, vt, hv, tt, htt, he⟩ := h
    cases he
    obtain ⟨body, rfl, hb, hscan⟩ := scan_key hE hk
    obtain ⟨hs, ha, hval⟩ := scan_val hE v vt hv
    obtain ⟨⟨c, r, hc, hcc⟩, hta, htail⟩ := scan_items hE items tt htt
    refine ⟨⟨44, _, rfl, by decide⟩, ?_, fun rest n hn => ?_⟩
    · exact Ascii.cons (by decide) (Ascii.cons (by decide) (((hb.append (Ascii.cons (by decide) (fun _ h => by cases h))).cons (by decide)).append
        ((Ascii.cons (by decide) (ha.append hta)).cons (by decide))))
    · simp only [List.length_cons, List.length_append] at hn
      obtain ⟨m, rfl⟩ : ∃ m, n = m + 1 := ⟨n - 1, by omega⟩
      have e : (44 :: 32 :: (34 :: (body ++ [34]) ++ 58 :: 32 :: (vt ++ tt))) ++ rest
          = 44 :: 32 :: 34 :: (body ++ 34 :: 58 :: 32 :: (vt ++ (tt ++ rest))) := by simp
      rw [e, pairsTail, skipWs_cons (by decide)]
      simp only [skipWs_space, skipWs_cons (show ¬ ((34 : Nat) = 32 ∨ (34 : Nat) = 9 ∨ (34 : Nat) = 10 ∨ (34 : Nat) = 13) by decide)]
      exact scanPairs_eq (hscan _ _ (by rw [List.length_append, List.length_cons]; omega))
        (by rw [skipWs_start hs]; exact hval (tt ++ rest) (by rw [hc]; exact delim_close (by omega) _) m (by omega))
        (htail rest m (by omega))
end

end Aiootp.Json
