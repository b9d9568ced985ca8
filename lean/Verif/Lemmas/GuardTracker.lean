import Verif.Lemmas.Guard

/-! Use trackers: each transition is made at most once. -/

namespace Aiootp.Guard

/-- How far a guard has come. -/
def Use.stage : Use → Nat
  | .unused => 0
  | .pending => 1
  | .running => 2
  | .done => 3

def Transition.target : Transition → Use
  | .toPending => .pending
  | .toRunning => .running
  | .toDone => .done

theorem apply_some {t : Transition} {u v : Use} (h : t.apply u = some v) : v = t.target ∧ u.stage + 1 = v.stage := by
  cases t <;> cases u <;> simp [Transition.apply] at h <;> subst h <;> simp [Transition.target, Use.stage]

/-- What happens to a tracker. -/
inductive TrackerEvent where
  | step (i : Nat)
  | fault

def Tracker.next (s : Tracker) : TrackerEvent → Tracker
  | .step i => s.step i
  | .fault => s.fault

def Tracker.run (s : Tracker) : List TrackerEvent → Tracker
  | [] => s
  | e :: es => (s.next e).run es

structure TInv (s : Tracker) : Prop where
  short : s.state.length ≤ 1
  heldState : ∀ i t u, s.calls i = .holding t u → s.state = [] ∧ u = t.target
  heldOne : ∀ i j t u t' u', s.calls i = .holding t u → s.calls j = .holding t' u' → i = j
  pastState : ∀ i t, s.calls i = .returned t → ∀ u ∈ s.state, t.target.stage ≤ u.stage
  pastHeld : ∀ i t, s.calls i = .returned t → ∀ j t' u, s.calls j = .holding t' u → t.target.stage < u.stage
  pastOne : ∀ i j t, s.calls i = .returned t → s.calls j = .returned t → i = j

theorem TInv.new (calls : Nat → Transition) : TInv (Tracker.new calls) := by
  constructor <;> simp [Tracker.new]

theorem TInv.fault {s : Tracker} (h : TInv s) : TInv s.fault := by
  refine ⟨by simp [Tracker.fault], ?_, h.heldOne, by simp [Tracker.fault], h.pastHeld, h.pastOne⟩
  intro i t u hi
  exact ⟨rfl, (h.heldState i t u hi).2⟩

theorem TInv.raise {s : Tracker} (h : TInv s) (i : Nat) (st : List Use) (hst : st = s.state ∨ st = s.state.dropLast) :
    TInv ⟨st, fun j => if j = i then .raised else s.calls j⟩ := by
  have hsub : ∀ u ∈ st, u ∈ s.state := by
    rcases hst with rfl | rfl
    · exact fun _ h => h
    · exact fun u hu => List.dropLast_subset _ hu
  have get : ∀ j c, (if j = i then Hand.raised else s.calls j) = c → c ≠ .raised → s.calls j = c := by
    intro j c hc hne
    by_cases hj : j = i
    · simp only [hj, if_true] at hc; exact absurd hc.symm hne
    · simpa [hj] using hc
  refine ⟨?_, ?_, ?_, ?_, ?_, ?_⟩
  · have := h.short
    rcases hst with rfl | rfl
    · exact this
    · simp only [List.length_dropLast]; omega
  · intro j t u hj
    obtain ⟨h1, h2⟩ := h.heldState j t u (get j _ hj (by simp))
    refine ⟨?_, h2⟩
    rcases hst with rfl | rfl <;> simp [h1]
  · intro j k t u t' u' hj hk
    exact h.heldOne j k t u t' u' (get j _ hj (by simp)) (get k _ hk (by simp))
  · intro j t hj u hu
    exact h.pastState j t (get j _ hj (by simp)) u (hsub u hu)
  · intro j t hj k t' u hk
    exact h.pastHeld j t (get j _ hj (by simp)) k t' u (get k _ hk (by simp))
  · intro j k t hj hk
    exact h.pastOne j k t (get j _ hj (by simp)) (get k _ hk (by simp))

theorem TInv.step {s : Tracker} (h : TInv s) (i : Nat) : TInv (s.step i) := by
  unfold Tracker.step
  simp only []
  split
  · rename_i t hi
    split
    · exact h.raise i s.state (.inl rfl)
    · rename_i u hu
      split
      · exact h.raise i s.state.dropLast (.inr rfl)
      · rename_i v hv
        obtain ⟨hv1, hv2⟩ := apply_some hv
        have hst : s.state = [u] := by
          have hs := h.short
          cases hs' : s.state with
          | nil => rw [hs'] at hu; simp at hu
          | cons a l =>
            rw [hs'] at hs hu
            have : l = [] := by simpa using hs
            subst this
            simp only [List.getLast?_singleton, Option.some.injEq] at hu
            rw [hu]
        have noheld : ∀ j t u, s.calls j ≠ .holding t u := by
          intro j t u hj
          have := (h.heldState j t u hj).1
          rw [hst] at this
          cases this
        have ret : ∀ j t', (if j = i then Hand.holding t v else s.calls j) = .returned t' → s.calls j = .returned t' := by
          intro j t' hc
          by_cases hj : j = i
          · simp [hj] at hc
          · simpa [hj] using hc
        have held : ∀ j t' u', (if j = i then Hand.holding t v else s.calls j) = .holding t' u' → j = i ∧ t' = t ∧ u' = v := by
          intro j t' u' hc
          by_cases hj : j = i
          · simp only [hj, if_true, Hand.holding.injEq] at hc; exact ⟨hj, hc.1.symm, hc.2.symm⟩
          · simp only [hj, if_false] at hc; exact absurd hc (noheld j t' u')
        refine ⟨by rw [hst]; simp, ?_, ?_, by rw [hst]; simp, ?_, ?_⟩
        · intro j t' u' hj
          obtain ⟨_, rfl, rfl⟩ := held j t' u' hj
          exact ⟨by rw [hst]; simp, hv1⟩
        · intro j k t1 u1 t2 u2 hj hk
          rw [(held j t1 u1 hj).1, (held k t2 u2 hk).1]
        · intro j t' hj k t2 u2 hk
          obtain ⟨_, rfl, rfl⟩ := held k t2 u2 hk
          have := h.pastState j t' (ret j t' hj) u (by rw [hst]; simp)
          omega
        · intro j k t' hj hk
          exact h.pastOne j k t' (ret j t' hj) (ret k t' hk)
  · rename_i t u hi
    obtain ⟨hst, hu⟩ := h.heldState i t u hi
    have held : ∀ j t' u', (if j = i then Hand.returned t else s.calls j) ≠ .holding t' u' := by
      intro j t' u' hc
      by_cases hj : j = i
      · simp [hj] at hc
      · simp only [hj, if_false] at hc; exact hj (h.heldOne j i t' u' t u hc hi)
    have ret : ∀ j t', (if j = i then Hand.returned t else s.calls j) = .returned t' → (j = i ∧ t' = t) ∨ (j ≠ i ∧ s.calls j = .returned t') := by
      intro j t' hc
      by_cases hj : j = i
      · simp only [hj, if_true, Hand.returned.injEq] at hc; exact .inl ⟨hj, hc.symm⟩
      · simp only [hj, if_false] at hc; exact .inr ⟨hj, hc⟩
    have hstate : (s.state ++ [u]).drop ((s.state ++ [u]).length - 1) = [u] := by rw [hst]; rfl
    rw [hstate]
    refine ⟨by simp, fun j t' u' hj => absurd hj (held j t' u'), fun j k t1 u1 _ _ hj => absurd hj (held j t1 u1), ?_,
      fun j t' _ k t2 u2 hk => absurd hk (held k t2 u2), ?_⟩
    · intro j t' hj w hw
      simp only [List.mem_singleton] at hw
      subst hw
      rcases ret j t' hj with ⟨_, rfl⟩ | ⟨_, hj⟩
      · rw [hu]; exact Nat.le_refl _
      · exact Nat.le_of_lt (h.pastHeld j t' hj i t w hi)
    · intro j k t' hj hk
      rcases ret j t' hj with ⟨hj1, rfl⟩ | ⟨hj1, hj2⟩ <;> rcases ret k t' hk with ⟨hk1, hk2⟩ | ⟨hk1, hk3⟩
      · rw [hj1, hk1]
      · have := h.pastHeld k t' hk3 i t' u hi
        rw [hu] at this
        exact absurd this (Nat.lt_irrefl _)
      · subst hk2
        have := h.pastHeld j t' hj2 i t' u hi
        rw [hu] at this
        exact absurd this (Nat.lt_irrefl _)
      · exact h.pastOne j k t' hj2 hk3
  · exact h
  · exact h

theorem TInv.run {es : List TrackerEvent} : ∀ {s : Tracker}, TInv s → TInv (s.run es) := by
  induction es with
  | nil => intro s h; exact h
  | cons e es ih =>
    intro s h
    apply ih
    cases e with
    | step i => exact h.step i
    | fault => exact h.fault

end Aiootp.Guard
