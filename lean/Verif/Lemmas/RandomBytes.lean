import Verif.Spec.RandomBytes
import Verif.Lemmas.OracleKey
import Verif.Lemmas.OracleMean
import Verif.Props.Random

/-
The game of `Spec/RandomBytes.lean` as a tree of hash queries.
-/

namespace Aiootp.Oracle.Tree

variable {Q A α : Type}

/-- The questions are replaced by their numbers. -/
def number : Nat → Tree Q A α → Tree Nat A α
  | _, done x => done x
  | j, ask _ next => ask j fun a => (next a).number (j + 1)

theorem mean_number [Fintype A] (f : α → ℚ) : ∀ (t : Tree Q A α) (j : Nat), (t.number j).mean f = t.mean f
  | done _, _ => rfl
  | ask _ next, j => by
    simp only [number, mean]
    rw [Finset.sum_congr rfl fun a _ => mean_number f (next a) (j + 1)]

theorem fresh_number : ∀ (t : Tree Q A α) (j : Nat), (t.number j).Fresh { i | i < j }
  | done _, _ => trivial
  | ask _ next, j => by
    refine ⟨by simp, fun a => ?_⟩
    refine (fresh_number (next a) (j + 1)).mono ?_
    rintro i (rfl | h)
    · exact Nat.lt_succ_self _
    · exact Nat.lt_succ_of_lt h

theorem allIn_number : ∀ {t : Tree Q A α} {n : Nat} (j : Nat), t.Steps n → (t.number j).AllIn (Finset.range (j + n) : Finset Nat)
  | done _, _, _, _ => trivial
  | ask _ next, 0, _, h => h.elim
  | ask _ next, n + 1, j, h => by
    refine ⟨by simp, fun a => ?_⟩
    have := allIn_number (j + 1) (h a)
    rwa [Nat.add_right_comm, Nat.add_assoc] at this

theorem dirty_fresh [Fintype A] : ∀ {t : Tree Q A α} {S : Set Q}, t.Fresh S → t.dirty S = 0
  | done _, _, _ => rfl
  | ask q next, S, h => by
    rw [dirty, if_neg h.1, Finset.sum_congr rfl fun a _ => dirty_fresh (h.2 a)]
    simp

/-- The share of the functions that lead to a result in `test` is the chance of it, if no question is asked twice. -/
theorem share_fresh [Fintype A] [Nonempty A] [DecidableEq A] [DecidableEq Q] {D : Finset Q} {t : Tree Q A α} (hf : t.Fresh ∅) (hD : t.AllIn (D : Set Q)) (test : α → Prop) :
    Kdf.share (fun T : D → A => test (t.run (ext T))) = by classical exact t.mean fun x => if test x then 1 else 0 := by
  classical
  have h := card_test (D := D) test hD
  rw [dirty_fresh hf, zero_mul] at h
  have h := sub_eq_zero.1 (abs_nonpos_iff.1 h)
  have hne : (Fintype.card (D → A) : ℚ) ≠ 0 := by exact_mod_cast Fintype.card_ne_zero
  unfold Kdf.share
  rw [div_eq_iff hne]
  convert h

end Aiootp.Oracle.Tree

namespace Aiootp.Random

open Secrecy (Digest Hash)
open Kdf (share cut)
open Oracle (Tree)

variable {ι : Type} [DecidableEq ι]

/-! ### no two calls hash the same -/

theorem advance_congr {calls calls' : ι → Call} {home home' : ι → Nat} {s : State ι} {k : ι} (hh : home k = home' k) (ht : (calls k).token = (calls' k).token)
    (hc : ∀ c t, s.phase k = .copied c t → s.absorbed (home k) ≠ none → calls k = calls' k) : advance calls home s k = advance calls' home' s k := by
  unfold advance
  rw [← hh, ← ht]
  cases ha : s.absorbed (home k) with
  | none => rfl
  | some a =>
    cases hp : s.phase k with
    | copied c t => simp only [hc c t hp (by rw [ha]; simp)]
    | _ => rfl

theorem advance_none {calls : ι → Call} {home : ι → Nat} {s : State ι} {k : ι} (h : s.absorbed (home k) = none) : advance calls home s k = s := by
  unfold advance; rw [h]

theorem advance_keeps {calls : ι → Call} {home : ι → Nat} {s : State ι} {k j : ι} {m : Bytes} (h : s.phase j = .done m) : (advance calls home s k).phase j = .done m := by
  unfold advance
  cases s.absorbed (home k) with
  | none => exact h
  | some a =>
    by_cases e : j = k
    · subst e; simp only [h]
    · cases s.phase k with
      | idle => simp only; cases (calls k).token <;> · simp only [put_ne _ _ e]; exact h
      | updated t => simp only [put_ne _ _ e]; exact h
      | copied c t => simp only [put_ne _ _ e]; exact h
      | done m => exact h
      | failed x => exact h

theorem advance_other {calls : ι → Call} {home : ι → Nat} {s : State ι} {k j : ι} (e : j ≠ k) : (advance calls home s k).phase j = s.phase j := by
  unfold advance
  cases s.absorbed (home k) with
  | none => rfl
  | some a =>
    cases s.phase k with
    | idle => simp only; cases (calls k).token <;> simp only [put_ne _ _ e]
    | updated t => simp only [put_ne _ _ e]
    | copied c t => simp only [put_ne _ _ e]
    | done m => rfl
    | failed x => rfl

theorem advance_copied {calls : ι → Call} {home : ι → Nat} {s : State ι} {k : ι} {c t a : Bytes} (h : s.phase k = .copied c t) (ha : s.absorbed (home k) = some a) :
    (advance calls home s k).phase k = .done (c ++ (calls k).last t) := by
  unfold advance
  simp only [ha, h, put_same]

theorem advance_not_done {calls : ι → Call} {home : ι → Nat} {s : State ι} {k : ι} {m : Bytes} (h : (advance calls home s k).phase k = .done m) (hc : ∀ c t, s.phase k ≠ .copied c t) :
    s.phase k = .done m := by
  unfold advance at h
  cases ha : s.absorbed (home k) with
  | none => rw [ha] at h; exact h
  | some a =>
    rw [ha] at h
    cases hp : s.phase k with
    | idle =>
      simp only [hp] at h
      cases ht : (calls k).token <;> · simp only [ht, put_same] at h; cases h
    | updated t => simp only [hp, put_same] at h; cases h
    | copied c t => exact absurd hp (hc c t)
    | done m' => simp only [hp] at h; exact h
    | failed x => simp only [hp] at h; cases h

theorem reads_token (e : Entry) (pool : Bytes) : (e.reads pool).call.token = e.call.token ∧ (e.reads pool).process = e.process ∧ (e.reads pool).call.context = e.call.context := by
  unfold Entry.reads
  cases h : e.call <;> simp [h, Call.token, Call.context]

/-- Calls that may be the ones that are made. -/
def Completes (w : World ι) (calls : ι → Call) (home : ι → Nat) : Prop :=
  ∀ k e, w.entries k = some e → home k = e.process ∧ (calls k).token = e.call.token ∧ ∀ m, w.state.phase k = .done m → calls k = e.call

/-- The world is one of C65, with these calls. -/
structure Sound (context : ι → Bytes) (seed : Bytes) (w : World ι) : Prop where
  rooted : ∃ events, ∀ calls home, Completes w calls home → run calls home (.init seed) events = w.state
  named : ∀ k e, w.entries k = some e → e.call.context = context k
  header : ∀ k e async c pool size data t, w.entries k = some e → e.call = .hash async c pool size data → e.call.token = .ok t → ∀ j, ¬ context j <+: t

theorem completes_self (w : World ι) (calls : ι → Call) (h : ∀ k e, w.entries k = some e → calls k = e.call) : Completes w calls w.home := by
  intro k e he
  refine ⟨by simp [World.home, he], by rw [h k e he], fun _ _ => h k e he⟩

theorem Sound.different {context : ι → Bytes} {seed : Bytes} {w : World ι} (hs : Sound context seed w) (hl : ∀ k, (context k).length = 56) (hd : ∀ i j, context i = context j → i = j)
    {i j : ι} {m m' : Bytes} (hi : w.state.phase i = .done m) (hj : w.state.phase j = .done m') (hij : i ≠ j) : m ≠ m' := by
  obtain ⟨events, hr⟩ := hs.rooted
  let calls : ι → Call := fun k => match w.entries k with | some e => e.call | none => .csprng (context k) [] []
  have hcalls : ∀ k, (calls k).context = context k := by
    intro k
    show (match w.entries k with | some e => e.call | none => .csprng (context k) [] [] : Call).context = _
    cases h : w.entries k with
    | none => rfl
    | some e => exact hs.named k e h
  have hrun := hr calls w.home (completes_self w calls fun k e he => by simp only [calls, he])
  refine C65_messages (calls := calls) (home := w.home) seed events (fun k => by rw [hcalls]; exact hl k) (fun a b e => hd a b (by rwa [hcalls, hcalls] at e)) ?_
    (by rw [hrun]; exact hi) (by rw [hrun]; exact hj) hij
  intro a b c entropy pool async c' pool' size data t ha hb ht
  have hc : c = context a := by rw [← hcalls a, ha]; rfl
  rw [hc]
  cases h : w.entries b with
  | none => simp only [calls, h] at hb; cases hb
  | some e =>
    have : calls b = e.call := by simp only [calls, h]
    rw [this] at hb ht
    exact hs.header b e async c' pool' size data t h hb ht a

theorem Sound.seed {context : ι → Bytes} {seed : Bytes} {w : World ι} (hs : Sound context seed w) {k : ι} {m : Bytes} (hk : w.state.phase k = .done m) : seed <+: m := by
  obtain ⟨events, hr⟩ := hs.rooted
  have hrun := hr w.calls w.home (completes_self w _ fun k e he => by simp [World.calls, he])
  have inv : Inv w.calls w.home seed (run w.calls w.home (.init seed) events) := (Inv.init seed).run
  rw [hrun] at inv
  obtain ⟨c, rfl, _, ks, _, _, _, rfl⟩ := inv.done k m hk
  rw [List.append_assoc]
  exact List.prefix_append _ _

theorem Sound.init (context : ι → Bytes) (seed : Bytes) : Sound context seed ⟨fun _ => none, .init seed⟩ :=
  ⟨⟨[], fun _ _ _ => rfl⟩, (fun k e h => by cases h), (fun k e _ _ _ _ _ _ h => by cases h)⟩

theorem run_snoc (calls : ι → Call) (home : ι → Nat) (s : State ι) (events : List (Event ι)) (e : Event ι) : run calls home s (events ++ [e]) = step calls home (run calls home s events) e := by
  simp [run]

/-- What a move may be in a fair game. -/
def Move.Ok (context : ι → Bytes) (x : Move ι) : Prop :=
  ∀ k process call size, x = .begin k process call size → call.context = context k ∧
    ∀ async c pool size' data t, call = .hash async c pool size' data → call.token = .ok t → ∀ j, ¬ context j <+: t

theorem Fair.ok {context : ι → Bytes} {K : Nat} {player : Player ι} (h : Fair context K player) (n : Nat) (seen : List Bytes) : (player n seen).Ok context := by
  intro k process call size e
  have hc := (h.used n seen k process call size e).1
  refine ⟨hc, ?_⟩
  rintro async c pool size' data t rfl ht j
  have : c = context k := hc
  subst this
  exact h.header n seen k process async pool size' data size t e ht j

/-- A move that returns nothing ends no call; one that returns the digest of `m` ends one call, and this is what it hashes. -/
theorem Sound.move {context : ι → Bytes} {seed : Bytes} {w : World ι} (hs : Sound context seed w) {x : Move ι} (hx : x.Ok context) :
    Sound context seed (w.move x).1 ∧ (∀ j m, w.state.phase j = .done m → (w.move x).1.state.phase j = .done m) ∧
    match (w.move x).2 with
    | none => ∀ j m, (w.move x).1.state.phase j = .done m → w.state.phase j = .done m
    | some (m, _) => ∃ k, (∀ m, w.state.phase k ≠ .done m) ∧ (w.move x).1.state.phase k = .done m ∧ ∀ j, j ≠ k → (w.move x).1.state.phase j = w.state.phase j := by
  obtain ⟨⟨events, hr⟩, hc, hh⟩ := hs
  cases x with
  | begin k process call size =>
    cases he : w.entries k with
    | some e => simp only [World.move, he]; exact ⟨⟨⟨events, hr⟩, hc, hh⟩, fun _ _ h => h, fun _ _ h => h⟩
    | none =>
      simp only [World.move, he]
      obtain ⟨o1, o2⟩ := hx k process call size rfl
      refine ⟨⟨⟨events, fun calls home hcomp => hr calls home ?_⟩, ?_, ?_⟩, fun _ _ h => h, fun _ _ h => h⟩
      · intro j e hj
        refine hcomp j e ?_
        show put w.entries k _ j = _
        rw [put_ne _ _ (by rintro rfl; rw [he] at hj; cases hj)]
        exact hj
      · intro j e hj
        have hj : put w.entries k (some ⟨process, call, size⟩) j = some e := hj
        by_cases h : j = k
        · subst h; rw [put_same] at hj; cases hj; exact o1
        · rw [put_ne _ _ h] at hj; exact hc j e hj
      · intro j e async c pool size' data t hj
        have hj : put w.entries k (some ⟨process, call, size⟩) j = some e := hj
        by_cases h : j = k
        · subst h; rw [put_same] at hj; cases hj; exact o2 async c pool size' data t
        · rw [put_ne _ _ h] at hj; exact hh j e async c pool size' data t hj
  | fork parent child =>
    have hphase : (step w.calls w.home w.state (.fork parent child)).phase = w.state.phase := by
      simp only [step]
      split <;> rfl
    simp only [World.move]
    refine ⟨⟨⟨events ++ [.fork parent child], fun calls home hcomp => ?_⟩, hc, hh⟩, fun j m h => ?_, fun j m h => ?_⟩
    · rw [run_snoc, hr calls home]
      · rfl
      · intro j e hj
        have := hcomp j e hj
        simp only [hphase] at this
        exact this
    · simp only [hphase]; exact h
    · simp only [hphase] at h; exact h
  | advance k pool =>
    cases he : w.entries k with
    | none => simp only [World.move, he]; exact ⟨⟨⟨events, hr⟩, hc, hh⟩, fun _ _ h => h, fun _ _ h => h⟩
    | some e =>
      by_cases hcop : ∃ c t, w.state.phase k = .copied c t
      · obtain ⟨c, t, hcop⟩ := hcop
        obtain ⟨r1, r2, r3⟩ := reads_token e pool
        have hk1 : (World.calls { w with entries := put w.entries k (some (e.reads pool)) } k) = (e.reads pool).call := by simp [World.calls, put_same]
        have hk2 : (World.home { w with entries := put w.entries k (some (e.reads pool)) } k) = e.process := by simp [World.home, put_same, r2]
        have hent : ∀ s, (∀ j m, w.state.phase j = .done m → s.phase j = .done m) → s = advance (World.calls { w with entries := put w.entries k (some (e.reads pool)) })
            (World.home { w with entries := put w.entries k (some (e.reads pool)) }) w.state k →
            Sound context seed ({ entries := put w.entries k (some (e.reads pool)), state := s } : World ι) := by
          intro s hkeep hseq
          refine ⟨⟨events ++ [.advance k], fun calls home hcomp => ?_⟩, ?_, ?_⟩
          · have hk := hcomp k (e.reads pool) (put_same _ _ _)
            rw [run_snoc, hr calls home]
            · show advance calls home w.state k = s
              rw [hseq]
              refine advance_congr (by rw [hk2, hk.1, r2]) (by rw [hk1, hk.2.1]) fun c' t' _ ha => ?_
              rw [hk1]
              obtain ⟨a, ha⟩ := Option.ne_none_iff_exists'.1 ha
              refine hk.2.2 _ (?_ : s.phase k = .done (c ++ (World.calls { w with entries := put w.entries k (some (e.reads pool)) } k).last t))
              rw [hseq]
              exact advance_copied hcop (a := a) (by rw [hk2, ← r2, ← hk.1]; exact ha)
            · intro j e' hj
              by_cases h : j = k
              · subst h
                rw [he] at hj
                cases hj
                refine ⟨by rw [hk.1, r2], by rw [hk.2.1, r1], fun m hm => ?_⟩
                rw [hcop] at hm; cases hm
              · have := hcomp j e' (by show put w.entries k _ j = _; rw [put_ne _ _ h]; exact hj)
                exact ⟨this.1, this.2.1, fun m hm => this.2.2 m (hkeep j m hm)⟩
          · intro j e' hj
            have hj : put w.entries k (some (e.reads pool)) j = some e' := hj
            by_cases h : j = k
            · subst h; rw [put_same] at hj; cases hj; rw [r3]; exact hc j e he
            · rw [put_ne _ _ h] at hj; exact hc j e' hj
          · intro j e' async c pool' size' data t hj hcall ht
            have hj : put w.entries k (some (e.reads pool)) j = some e' := hj
            by_cases h : j = k
            · subst h
              rw [put_same] at hj
              cases hj
              rw [r1] at ht
              cases hec : e.call with
              | csprng c1 e1 p1 => simp only [Entry.reads, hec] at hcall; cases hcall
              | hash a1 c1 p1 s1 d1 => exact hh j e a1 c1 p1 s1 d1 t he hec ht
            · rw [put_ne _ _ h] at hj; exact hh j e' async c pool' size' data t hj hcall ht
        have hkeep : ∀ j m, w.state.phase j = .done m → (advance (World.calls { w with entries := put w.entries k (some (e.reads pool)) })
            (World.home { w with entries := put w.entries k (some (e.reads pool)) }) w.state k).phase j = .done m := fun j m h => advance_keeps h
        have hS := hent _ hkeep rfl
        simp only [World.move, he, hcop, step]
        generalize hs' : advance (World.calls { w with entries := put w.entries k (some (e.reads pool)) })
            (World.home { w with entries := put w.entries k (some (e.reads pool)) }) w.state k = s' at hS hkeep
        have hother : ∀ j, j ≠ k → s'.phase j = w.state.phase j := fun j hj => by rw [← hs']; exact advance_other hj
        cases hp : s'.phase k with
        | done m =>
          simp only
          exact ⟨hS, hkeep, k, (fun m' h => by rw [hcop] at h; cases h), hp, hother⟩
        | _ =>
          simp only
          refine ⟨hS, hkeep, fun j m h => ?_⟩
          by_cases hj : j = k
          · subst hj; rw [hp] at h; cases h
          · rw [← hother j hj]; exact h
      · have hmove : w.move (.advance k pool) = ({ w with state := advance w.calls w.home w.state k }, none) := by
          simp only [World.move, he]
          split
          · rename_i c t h; exact absurd ⟨c, t, h⟩ hcop
          · rfl
        rw [hmove]
        simp only
        refine ⟨⟨⟨events ++ [.advance k], fun calls home hcomp => ?_⟩, hc, hh⟩, fun j m h => advance_keeps h, fun j m h => ?_⟩
        · have hk := hcomp k e he
          rw [run_snoc, hr calls home]
          · show advance calls home w.state k = advance w.calls w.home w.state k
            refine advance_congr (by rw [hk.1]; simp [World.home, he]) (by rw [hk.2.1]; simp [World.calls, he]) fun c t h => absurd ⟨c, t, h⟩ hcop
          · intro j e' hj
            have := hcomp j e' hj
            exact ⟨this.1, this.2.1, fun m hm => this.2.2 m (advance_keeps hm)⟩
        · by_cases hj : j = k
          · subst hj; exact advance_not_done h fun c t h => hcop ⟨c, t, h⟩
          · rw [advance_other hj] at h; exact h

/-! ### the tree -/

/-- The game with the hash function that is asked. -/
def gameTree (K : Nat) (player : Player ι) : Nat → Nat → World ι → List Bytes → Tree Bytes (Digest K) (List Bytes)
  | 0, _, _, seen => .done seen
  | n + 1, i, w, seen =>
    match w.move (player i seen) with
    | (w, none) => gameTree K player n (i + 1) w seen
    | (w, some (m, size)) => .ask m fun a => gameTree K player n (i + 1) w (seen ++ [cut size a.1])

theorem gameTree_steps {K : Nat} {player : Player ι} : ∀ (n i : Nat) (w : World ι) (seen : List Bytes), (gameTree K player n i w seen).Steps n
  | 0, _, _, _ => trivial
  | n + 1, i, w, seen => by
    rw [gameTree]
    split
    · exact (gameTree_steps n _ _ _).mono (Nat.le_succ n)
    · exact fun a => gameTree_steps n _ _ _

theorem gameTree_fresh {K : Nat} {player : Player ι} {context : ι → Bytes} {seed : Bytes} (hf : Fair context K player) : ∀ (n i : Nat) (w : World ι) (seen : List Bytes) (S : Set Bytes),
    Sound context seed w → (∀ m ∈ S, ∃ k, w.state.phase k = .done m) → (gameTree K player n i w seen).Fresh S ∧ (gameTree K player n i w seen).AllIn { q | seed <+: q }
  | 0, _, _, _, _, _, _ => ⟨trivial, trivial⟩
  | n + 1, i, w, seen, S, hs, hS => by
    obtain ⟨h1, h2, h3⟩ := hs.move (hf.ok i seen)
    rw [gameTree]
    split
    · rename_i w' he
      rw [he] at h1 h2
      exact gameTree_fresh hf n (i + 1) w' seen S h1 fun m hm => (hS m hm).imp fun k hk => h2 k m hk
    · rename_i w' m size he
      rw [he] at h1 h2 h3
      obtain ⟨k, k1, k2, k3⟩ := h3
      have next := fun a => gameTree_fresh hf n (i + 1) w' (seen ++ [cut size (a : Digest K).1]) (insert m S) h1 (by
        rintro m' (rfl | hm)
        · exact ⟨k, k2⟩
        · exact (hS m' hm).imp fun j hj => h2 j m' hj)
      refine ⟨⟨fun hm => ?_, fun a => (next a).1⟩, ⟨h1.seed k2, fun a => (next a).2⟩⟩
      obtain ⟨j, hj⟩ := hS m hm
      have hjk : j ≠ k := by rintro rfl; exact k1 m hj
      exact h1.different hf.length hf.different (h2 j m hj) k2 hjk rfl

/-- The game, from some place on. -/
def go (answer : Nat → Bytes → Nat → Bytes) (player : Player ι) : Nat → Nat → World ι → List Bytes → List Bytes
  | 0, _, _, seen => seen
  | n + 1, i, w, seen =>
    match w.move (player i seen) with
    | (w, none) => go answer player n (i + 1) w seen
    | (w, some (m, size)) => go answer player n (i + 1) w (seen ++ [answer seen.length m size])

theorem play_go (seed : Bytes) (answer : Nat → Bytes → Nat → Bytes) (player : Player ι) (n : Nat) :
    ∀ i, go answer player n i (play seed answer player i).1 (play seed answer player i).2 = (play seed answer player (i + n)).2 := by
  induction n with
  | zero => intro i; rfl
  | succ n ih =>
    intro i
    have := ih (i + 1)
    rw [show i + (n + 1) = i + 1 + n by omega, ← this, go, play]
    split <;> rename_i h <;> simp only [h]

theorem run_go {K : Nat} (f : Bytes → Digest K) (U : Set Bytes) (answer : Bytes → Nat → Bytes) (hf : ∀ m ∈ U, ∀ size, answer m size = cut size (f m).1) (player : Player ι) :
    ∀ (n i : Nat) (w : World ι) (seen : List Bytes), (gameTree K player n i w seen).AllIn U → (gameTree K player n i w seen).run f = go (fun _ => answer) player n i w seen
  | 0, _, _, _, _ => rfl
  | n + 1, i, w, seen, h => by
    rw [gameTree] at h ⊢
    rw [go]
    cases he : w.move (player i seen) with
    | mk w' r =>
      rw [he] at h
      cases r with
      | none => exact run_go f U answer hf player n _ _ _ h
      | some p =>
        simp only [Tree.run]
        rw [hf _ h.1]
        exact run_go f U answer hf player n _ _ _ (h.2 _)

theorem number_go {K : Nat} (f : Nat → Digest K) (answer : Nat → Nat → Bytes) (N : Nat) (hf : ∀ i < N, ∀ size, answer i size = cut size (f i).1) (player : Player ι) :
    ∀ (n i : Nat) (w : World ι) (seen : List Bytes), seen.length + n ≤ N →
      ((gameTree K player n i w seen).number seen.length).run f = go (fun i _ => answer i) player n i w seen
  | 0, _, _, _, _ => rfl
  | n + 1, i, w, seen, h => by
    rw [gameTree, go]
    cases he : w.move (player i seen) with
    | mk w' r =>
      cases r with
      | none => exact number_go f answer N hf player n _ _ _ (by omega)
      | some p =>
        simp only [Tree.number, Tree.run]
        rw [hf _ (by omega)]
        have := number_go f answer N hf player n (i + 1) w' (seen ++ [cut p.2 (f seen.length).1]) (by simp; omega)
        rw [List.length_append, List.length_singleton] at this
        exact this

end Aiootp.Random
