import Verif.Model.KeyShared
import Verif.Props.Ed25519

/-
C83: key objects into which several threads import keys at the same time.
-/

namespace Aiootp.Keys

open Kdf Canon

variable {Sk Pk : Type}

/-- The call of a single thread, as in C53. -/
def Import.op : Import Sk Pk → KeyObj.Op Sk Pk
  | .secret g => .importSecret g
  | .pub g => .importPublic g

namespace Importers

theorem step_eq {C : Curve Sk Pk} {w : Importers Sk Pk} {i : Nat} {c : Import Sk Pk} {a : At Pk} (h : w.calls[i]? = some (c, a)) :
    w.step C i = ⟨(advance C w.obj c a).1, w.calls.set i (c, (advance C w.obj c a).2)⟩ := by
  simp only [step, h]

theorem get_set {w : Importers Sk Pk} {i : Nat} {x y : Import Sk Pk × At Pk} (h : w.calls[i]? = some x) : (w.calls.set i y)[i]? = some y := by
  have : i < w.calls.length := by
    rcases List.getElem?_eq_some_iff.mp h with ⟨hi, _⟩
    exact hi
  simp [this]

theorem step_again {C : Curve Sk Pk} {w : Importers Sk Pk} {i : Nat} {x : Import Sk Pk × At Pk} (h : w.calls[i]? = some x) {k : KeyObj Sk Pk} {c : Import Sk Pk} {a : At Pk} :
    (Importers.mk k (w.calls.set i (c, a))).step C i = ⟨(advance C k c a).1, w.calls.set i (c, (advance C k c a).2)⟩ := by
  rw [step_eq (w := Importers.mk k (w.calls.set i (c, a))) (get_set h)]
  simp only [List.set_set]

theorem four {C : Curve Sk Pk} (k : KeyObj Sk Pk) (c : Import Sk Pk) :
    let a1 := advance C k c .start
    let a2 := advance C a1.1 c a1.2
    let a3 := advance C a2.1 c a2.2
    advance C a3.1 c a3.2 = ((k.step C c.op).1, .done (k.step C c.op).2) := by
  cases c with
  | secret g =>
    cases hp : k.pub with
    | some p => simp [advance, hp, Import.op, KeyObj.step, KeyObj.importSecret]
    | none =>
      cases hg : C.processSecret g with
      | error e => simp [advance, hp, hg, Import.op, KeyObj.step, KeyObj.importSecret]
      | ok s => simp [advance, hp, hg, Import.op, KeyObj.step, KeyObj.importSecret]
  | pub g =>
    cases hp : k.pub with
    | some p => simp [advance, hp, Import.op, KeyObj.step, KeyObj.importPublic]
    | none =>
      cases hg : C.processPublic g with
      | error e => simp [advance, hp, hg, Import.op, KeyObj.step, KeyObj.importPublic]
      | ok s => simp [advance, hp, hg, Import.op, KeyObj.step, KeyObj.importPublic]

theorem run_four {C : Curve Sk Pk} {w : Importers Sk Pk} {i : Nat} {c : Import Sk Pk} (h : w.calls[i]? = some (c, .start)) :
    w.run C (List.replicate 4 i) = ⟨(w.obj.step C c.op).1, w.calls.set i (c, .done (w.obj.step C c.op).2)⟩ := by
  have := four (C := C) w.obj c
  simp only at this
  simp only [run, List.replicate, List.foldl_cons, List.foldl_nil]
  rw [step_eq h, step_again h, step_again h, step_again h, this]

theorem run_append (C : Curve Sk Pk) (w : Importers Sk Pk) (s t : List Nat) : w.run C (s ++ t) = (w.run C s).run C t := by
  simp [run, List.foldl_append]

theorem sequential {C : Curve Sk Pk} (c : Nat → Import Sk Pk) : ∀ (order : List Nat) (w : Importers Sk Pk), order.Nodup →
    (∀ i ∈ order, w.calls[i]? = some (c i, .start)) →
    (w.run C (order.flatMap fun i => List.replicate 4 i)).obj = w.obj.run C (order.map fun i => (c i).op) ∧
    (∀ (j : Nat) (i : Nat), order[j]? = some i →
      (w.run C (order.flatMap fun i => List.replicate 4 i)).result i = (w.obj.results C (order.map fun i => (c i).op))[j]?) ∧
    ∀ i, i ∉ order → (w.run C (order.flatMap fun i => List.replicate 4 i)).calls[i]? = w.calls[i]? := by
  intro order
  induction order with
  | nil => intro w _ _; exact ⟨rfl, fun j i h => by simp at h, fun _ _ => rfl⟩
  | cons i order ih =>
    intro w hn hw
    have hi := hw i (List.mem_cons_self ..)
    rw [List.nodup_cons] at hn
    have h4 := run_four (C := C) hi
    simp only [List.flatMap_cons, run_append, h4, List.map_cons, KeyObj.run, KeyObj.results]
    have hrest : ∀ j ∈ order, (Importers.mk (w.obj.step C (c i).op).1 (w.calls.set i (c i, .done (w.obj.step C (c i).op).2))).calls[j]? = some (c j, .start) := by
      intro j hj
      have hne : i ≠ j := fun h => hn.1 (h ▸ hj)
      show (w.calls.set i _)[j]? = _
      rw [List.getElem?_set_ne hne]
      exact hw j (List.mem_cons_of_mem _ hj)
    obtain ⟨h1, h2, h3⟩ := ih _ hn.2 hrest
    refine ⟨h1, ?_, ?_⟩
    · intro j i' hj
      cases j with
      | succ j => exact h2 j i' (by simpa using hj)
      | zero =>
        have : i = i' := by simpa using hj
        subst this
        have hset : (w.calls.set i (c i, At.done (w.obj.step C (c i).op).2))[i]? = _ := get_set hi
        simp only [result, h3 i hn.1, hset, List.getElem?_cons_zero]
    · intro j hj
      rw [List.mem_cons, not_or] at hj
      rw [h3 j hj.2]
      exact List.getElem?_set_ne (Ne.symm hj.1)

/-- A property of the object and of every call is kept by every schedule, if it is by every step. -/
theorem run_keeps {C : Curve Sk Pk} {P : KeyObj Sk Pk → Prop} {Q : KeyObj Sk Pk → Import Sk Pk → At Pk → Prop}
    (hP : ∀ k c a, P k → Q k c a → P (advance C k c a).1 ∧ Q (advance C k c a).1 c (advance C k c a).2)
    (hQ : ∀ k c a d b, P k → Q k c a → Q k d b → Q (advance C k c a).1 d b) :
    ∀ (schedule : List Nat) (w : Importers Sk Pk), P w.obj → (∀ x ∈ w.calls, Q w.obj x.1 x.2) →
      P (w.run C schedule).obj ∧ ∀ x ∈ (w.run C schedule).calls, Q (w.run C schedule).obj x.1 x.2 := by
  intro schedule
  induction schedule with
  | nil => intro w h1 h2; exact ⟨h1, h2⟩
  | cons i schedule ih =>
    intro w h1 h2
    show P ((w.step C i).run C schedule).obj ∧ _
    cases h : w.calls[i]? with
    | none =>
      have : w.step C i = w := by simp only [step, h]
      rw [show w.run C (i :: schedule) = (w.step C i).run C schedule from rfl, this]
      exact ih w h1 h2
    | some x =>
      obtain ⟨c, a⟩ := x
      have hx := h2 _ (List.mem_of_getElem? h)
      rw [show w.run C (i :: schedule) = (w.step C i).run C schedule from rfl]
      apply ih
      · rw [step_eq h]; exact (hP _ _ _ h1 hx).1
      · rw [step_eq h]
        intro y hy
        rcases List.mem_or_eq_of_mem_set hy with hy | hy
        · exact hQ _ _ _ _ _ h1 hx (h2 y hy)
        · rw [hy]; exact (hP _ _ _ h1 hx).2

/-- The calls are those that were made. -/
theorem run_calls {C : Curve Sk Pk} (schedule : List Nat) : ∀ w : Importers Sk Pk, (w.run C schedule).calls.map Prod.fst = w.calls.map Prod.fst := by
  induction schedule with
  | nil => intro w; rfl
  | cons i schedule ih =>
    intro w
    rw [show w.run C (i :: schedule) = (w.step C i).run C schedule from rfl, ih]
    cases h : w.calls[i]? with
    | none => simp only [step, h]
    | some x =>
      obtain ⟨c, a⟩ := x
      rw [step_eq h]
      simp only [List.map_set]
      obtain ⟨hi, hx⟩ := List.getElem?_eq_some_iff.mp h
      apply List.ext_getElem? 
      intro j
      by_cases hj : i = j
      · subst hj
        simp [hi, hx]
      · rw [List.getElem?_set_ne hj]

end Importers

/-- **C83** (partial: calls that do not overlap; see `C83_keys_that_do_not_match`.) If the calls of the threads do not overlap, in whatever order they come,
the object and the results are those of one thread that makes the calls in this order, so all of C53 holds. -/
theorem C83_one_at_a_time_partial (C : Curve Sk Pk) (calls : List (Import Sk Pk)) (k : KeyObj Sk Pk) (order : List Nat) (hn : order.Nodup)
    (c : Nat → Import Sk Pk) (hc : ∀ i ∈ order, calls[i]? = some (c i)) :
    ((Importers.begin k calls).run C (order.flatMap fun i => List.replicate 4 i)).obj = k.run C (order.map fun i => (c i).op) ∧
    ∀ (j i : Nat), order[j]? = some i →
      ((Importers.begin k calls).run C (order.flatMap fun i => List.replicate 4 i)).result i = (k.results C (order.map fun i => (c i).op))[j]? := by
  have h := Importers.sequential (C := C) c order (Importers.begin k calls) hn (by
    intro i hi
    simp only [Importers.begin, List.getElem?_map, hc i hi, Option.map_some])
  exact ⟨h.1, h.2.1⟩

/-- The keys that calls could import. -/
def Offers (C : Curve Sk Pk) (calls : List (Import Sk Pk)) (s : Sk) : Prop := ∃ g, .secret g ∈ calls ∧ C.processSecret g = .ok s

/-- **C83** In every schedule: a secret key that the object holds was imported by one of the calls, and a public key that it holds was imported or belongs
to a secret key that was. A call that returned left a public key, which never goes away, although another may replace it. -/
theorem C83_keys_come_from_calls (C : Curve Sk Pk) (calls : List (Import Sk Pk)) (schedule : List Nat) :
    let w := (Importers.begin {} calls).run C schedule
    (∀ s, w.obj.secret = some s → Offers C calls s) ∧
    (∀ p, w.obj.pub = some p → (∃ g, .pub g ∈ calls ∧ C.processPublic g = .ok p) ∨ ∃ s, Offers C calls s ∧ p = C.publicOf s) ∧
    (∀ i, w.result i = some (.ok ()) → ∀ more, (w.run C more).obj.pub.isSome = true) := by
  intro w
  let OkP (p : Pk) : Prop := (∃ g, .pub g ∈ calls ∧ C.processPublic g = .ok p) ∨ ∃ s, Offers C calls s ∧ p = C.publicOf s
  have key := Importers.run_keeps (C := C)
    (P := fun k => (∀ s, k.secret = some s → Offers C calls s) ∧ ∀ p, k.pub = some p → OkP p)
    (Q := fun k c a => c ∈ calls ∧ (∀ p, a = .ready p → OkP p) ∧ (a = .done (.ok ()) → k.pub.isSome = true))
    (by
      intro k c a hk hc
      obtain ⟨h1, h2⟩ := hk
      obtain ⟨h3, h4, h5⟩ := hc
      cases a with
      | start =>
        simp only [advance]
        split
        · exact ⟨⟨h1, h2⟩, h3, (fun p hp => (by cases hp)), (fun hp => (by cases hp))⟩
        · exact ⟨⟨h1, h2⟩, h3, (fun p hp => (by cases hp)), (fun hp => (by cases hp))⟩
      | checked =>
        cases c with
        | secret g =>
          simp only [advance]
          split
          · exact ⟨⟨h1, h2⟩, h3, (fun p hp => (by cases hp)), (fun hp => (by cases hp))⟩
          · rename_i s hs
            refine ⟨⟨fun s' hs' => ?_, h2⟩, h3, (fun p hp => (by cases hp)), (fun hp => (by cases hp))⟩
            injection hs' with hs'
            subst hs'
            exact ⟨g, h3, hs⟩
        | pub g =>
          exact ⟨⟨(fun s hs => (by cases hs)), h2⟩, h3, (fun p hp => (by cases hp)), (fun hp => (by cases hp))⟩
      | written =>
        cases c with
        | secret g =>
          simp only [advance]
          split
          · exact ⟨⟨h1, h2⟩, h3, (fun p hp => (by cases hp)), (fun hp => (by cases hp))⟩
          · rename_i s hs
            refine ⟨⟨h1, h2⟩, h3, fun p hp => ?_, (fun hp => (by cases hp))⟩
            injection hp with hp
            exact .inr ⟨s, h1 s hs, hp.symm⟩
        | pub g =>
          simp only [advance]
          split
          · exact ⟨⟨h1, h2⟩, h3, (fun p hp => (by cases hp)), (fun hp => (by cases hp))⟩
          · rename_i p hp
            refine ⟨⟨h1, h2⟩, h3, fun p' hp' => ?_, (fun hp => (by cases hp))⟩
            injection hp' with hp'
            subst hp'
            exact .inl ⟨g, h3, hp⟩
      | ready p =>
        have : advance C k c (.ready p) = ({ k with pub := some p }, .done (.ok ())) := by cases c <;> rfl
        rw [this]
        refine ⟨⟨h1, fun p' hp' => ?_⟩, h3, (fun p hp => (by cases hp)), fun _ => rfl⟩
        injection hp' with hp'
        subst hp'
        exact h4 p rfl
      | done r =>
        have : advance C k c (.done r) = (k, .done r) := by cases c <;> rfl
        rw [this]
        exact ⟨⟨h1, h2⟩, h3, h4, h5⟩)
    (by
      intro k c a d b _ hc hd
      refine ⟨hd.1, hd.2.1, fun hb => ?_⟩
      have := hd.2.2 hb
      cases a with
      | start => simp only [advance]; split <;> exact this
      | checked =>
        cases c with
        | secret g => simp only [advance]; split <;> exact this
        | pub g => exact this
      | written =>
        cases c with
        | secret g => simp only [advance]; split <;> exact this
        | pub g => simp only [advance]; split <;> exact this
      | ready p => cases c <;> rfl
      | done r => cases c <;> exact this)
  have hbegin : (∀ x ∈ (Importers.begin ({} : KeyObj Sk Pk) calls).calls, x.1 ∈ calls ∧ (∀ p, x.2 = .ready p → OkP p) ∧
      (x.2 = .done (.ok ()) → (({} : KeyObj Sk Pk)).pub.isSome = true)) := by
    intro x hx
    simp only [Importers.begin, List.mem_map] at hx
    obtain ⟨c, hc, rfl⟩ := hx
    exact ⟨hc, (fun p hp => (by cases hp)), (fun hp => (by cases hp))⟩
  have h0 : (∀ s, ({} : KeyObj Sk Pk).secret = some s → Offers C calls s) ∧ ∀ p, ({} : KeyObj Sk Pk).pub = some p → OkP p :=
    ⟨fun s hs => (by cases hs), fun p hp => (by cases hp)⟩
  have hw := key schedule _ h0 hbegin
  refine ⟨hw.1.1, hw.1.2, fun i hi more => ?_⟩
  have hmore := key more w hw.1 hw.2
  have hdone : ∀ (more : List Nat) (v : Importers Sk Pk), v.result i = some (.ok ()) → (v.run C more).result i = some (.ok ()) := by
    intro more
    induction more with
    | nil => intro v hv; exact hv
    | cons j more ih =>
      intro v hv
      apply ih
      unfold Importers.result at hv
      split at hv
      · rename_i c r hci
        cases hj : v.calls[j]? with
        | none => simp only [Importers.step, hj, Importers.result, hci]; exact hv
        | some x =>
          obtain ⟨d, b⟩ := x
          rw [Importers.step_eq hj]
          by_cases hij : j = i
          · subst hij
            rw [hci] at hj
            injection hj with hj
            injection hj with hj1 hj2
            subst hj1; subst hj2
            have : (advance C v.obj c (.done r)).2 = .done r := by cases c <;> rfl
            simp only [Importers.result, this, Importers.get_set hci]
            exact hv
          · simp only [Importers.result, List.getElem?_set_ne hij, hci]
            exact hv
      · cases hv
  have hr := hdone more w hi
  unfold Importers.result at hr
  split at hr
  · rename_i c r hci
    injection hr with hr
    subst hr
    exact (hmore.2 _ (List.mem_of_getElem? hci)).2.2 rfl
  · cases hr

/-- **C83** When no call is under way and the object has a public key, it is settled: whatever calls begin after that, in every schedule, the object stays as it
is, and those calls that end raise `PermissionError`. -/
theorem C83_settles (C : Curve Sk Pk) (w : Importers Sk Pk) {p : Pk} (hp : w.obj.pub = some p)
    (hw : ∀ x ∈ w.calls, x.2 = .start ∨ ∃ r, x.2 = .done r) (schedule : List Nat) :
    (w.run C schedule).obj = w.obj ∧
    ∀ i c, w.calls[i]? = some (c, .start) → ∀ r, (w.run C schedule).result i = some r → r = .error .permission := by
  have main : ∀ (schedule : List Nat) (v : Importers Sk Pk), v.obj = w.obj → (∀ x ∈ v.calls, x.2 = .start ∨ ∃ r, x.2 = .done r) →
      (v.run C schedule).obj = w.obj ∧
      ∀ i c, (v.calls[i]? = some (c, .start) ∨ v.calls[i]? = some (c, .done (.error .permission))) →
        ∀ r, (v.run C schedule).result i = some r → r = .error .permission := by
    intro schedule
    induction schedule with
    | nil =>
      intro v hv _
      refine ⟨hv, fun i c hi r hr => ?_⟩
      rcases hi with hi | hi
      · simp only [Importers.run, List.foldl_nil, Importers.result, hi] at hr; cases hr
      · simp only [Importers.run, List.foldl_nil, Importers.result, hi] at hr
        injection hr with hr; exact hr.symm
    | cons j schedule ih =>
      intro v hv hx
      rw [show v.run C (j :: schedule) = (v.step C j).run C schedule from rfl]
      cases hj : v.calls[j]? with
      | none =>
        have : v.step C j = v := by simp only [Importers.step, hj]
        rw [this]; exact ih v hv hx
      | some x =>
        obtain ⟨d, b⟩ := x
        have hb := hx _ (List.mem_of_getElem? hj)
        have hadv : (advance C v.obj d b).1 = v.obj ∧ ((b = .start ∧ (advance C v.obj d b).2 = .done (.error .permission)) ∨ ((advance C v.obj d b).2 = b ∧ ∃ r, b = .done r)) := by
          rcases hb with hb | ⟨r, hb⟩
          · simp only at hb; subst hb
            simp [advance, hv, hp]
          · simp only at hb; subst hb
            refine ⟨by cases d <;> rfl, .inr ⟨by cases d <;> rfl, r, rfl⟩⟩
        obtain ⟨g1, g2⟩ := ih (v.step C j) (by rw [Importers.step_eq hj]; exact hadv.1.trans hv) (by
          rw [Importers.step_eq hj]
          intro y hy
          rcases List.mem_or_eq_of_mem_set hy with hy | hy
          · exact hx y hy
          · rw [hy]
            rcases hadv.2 with h | ⟨h, r, hr⟩
            · exact .inr ⟨_, h.2⟩
            · exact .inr ⟨r, h.trans hr⟩)
        refine ⟨g1, fun i c hi r hr => g2 i c ?_ r hr⟩
        rw [Importers.step_eq hj]
        by_cases hij : j = i
        · subst hij
          right
          rw [show (Importers.mk (advance C v.obj d b).1 (v.calls.set j (d, (advance C v.obj d b).2))).calls[j]? = some (d, (advance C v.obj d b).2) from Importers.get_set hj]
          rcases hi with hi | hi
          · rw [hj] at hi
            injection hi with hi
            injection hi with hi1 hi2
            subst hi1; subst hi2
            rcases hadv.2 with h | ⟨_, r, hr⟩
            · rw [h.2]
            · cases hr
          · rw [hj] at hi
            injection hi with hi
            injection hi with hi1 hi2
            subst hi1; subst hi2
            rcases hadv.2 with h | ⟨h, _⟩
            · cases h.1
            · rw [h]
        · simp only [List.getElem?_set_ne hij]
          exact hi
  obtain ⟨h1, h2⟩ := main schedule w rfl hw
  exact ⟨h1, fun i c hi r hr => h2 i c (.inl hi) r hr⟩

/-- **C83** If all threads import the same secret key, no schedule does harm: every call returns or raises `PermissionError`, and as soon as one has ended, the
object holds this key and its public key. -/
theorem C83_same_key (C : Curve Sk Pk) (calls : List (Import Sk Pk)) (s : Sk) (hs : ∀ c ∈ calls, ∃ g, c = .secret g ∧ C.processSecret g = .ok s) (schedule : List Nat) (i : Nat)
    {r : Except Err Unit} (hr : ((Importers.begin {} calls).run C schedule).result i = some r) :
    (r = .ok () ∨ r = .error .permission) ∧ ((Importers.begin {} calls).run C schedule).obj = ⟨some s, some (C.publicOf s)⟩ := by
  have key := Importers.run_keeps (C := C)
    (P := fun k => (k.secret = none ∧ k.pub = none) ∨ (k.secret = some s ∧ (k.pub = none ∨ k.pub = some (C.publicOf s))))
    (Q := fun k c a => (∃ g, c = .secret g ∧ C.processSecret g = .ok s) ∧ (a = .written → k.secret = some s) ∧ (∀ p, a = .ready p → k.secret = some s ∧ p = C.publicOf s) ∧
      (∀ r, a = .done r → (r = .ok () ∨ r = .error .permission) ∧ k.secret = some s ∧ k.pub = some (C.publicOf s)))
    (by
      rintro k c a hk ⟨⟨g, rfl, hg⟩, h2, h3, h4⟩
      cases a with
      | start =>
        simp only [advance]
        split
        · rename_i hsome
          refine ⟨hk, ⟨g, rfl, hg⟩, (fun h => (by cases h)), (fun p h => (by cases h)), fun r h => ?_⟩
          injection h with h
          subst h
          rcases hk with hk | hk
          · rw [hk.2] at hsome; cases hsome
          · rcases hk.2 with hk2 | hk2
            · rw [hk2] at hsome; cases hsome
            · exact ⟨.inr rfl, hk.1, hk2⟩
        · exact ⟨hk, ⟨g, rfl, hg⟩, (fun h => (by cases h)), (fun p h => (by cases h)), (fun r h => (by cases h))⟩
      | checked =>
        rw [show advance C k (.secret g) .checked = ({ k with secret := some s }, .written) from by simp only [advance, hg]]
        refine ⟨.inr ⟨rfl, ?_⟩, ⟨g, rfl, hg⟩, fun _ => rfl, (fun p h => (by cases h)), (fun r h => (by cases h))⟩
        rcases hk with hk | hk
        · exact .inl hk.2
        · exact hk.2
      | written =>
        have hsec := h2 rfl
        rw [show advance C k (.secret g) .written = (k, .ready (C.publicOf s)) from by simp only [advance, hsec]]
        refine ⟨hk, ⟨g, rfl, hg⟩, (fun h => (by cases h)), fun p h => ?_, (fun r h => (by cases h))⟩
        injection h with h
        exact ⟨hsec, h.symm⟩
      | ready p =>
        obtain ⟨hsec, rfl⟩ := h3 p rfl
        rw [show advance C k (.secret g) (.ready (C.publicOf s)) = ({ k with pub := some (C.publicOf s) }, .done (.ok ())) from rfl]
        refine ⟨.inr ⟨hsec, .inr rfl⟩, ⟨g, rfl, hg⟩, (fun h => (by cases h)), (fun p h => (by cases h)), fun r h => ?_⟩
        injection h with h
        exact ⟨.inl h.symm, hsec, rfl⟩
      | done r =>
        simp only [advance]
        exact ⟨hk, ⟨g, rfl, hg⟩, h2, h3, h4⟩)
    (by
      rintro k c a d b hk ⟨⟨g, rfl, hg⟩, h2, h3, h4⟩ ⟨hd, e2, e3, e4⟩
      have hkeep : (k.secret = some s → (advance C k (.secret g) a).1.secret = some s) ∧
          (k.secret = some s ∧ k.pub = some (C.publicOf s) → (advance C k (.secret g) a).1.pub = some (C.publicOf s)) := by
        cases a with
        | start => simp only [advance]; split <;> exact ⟨id, And.right⟩
        | checked => simp only [advance, hg]; exact ⟨fun _ => trivial, And.right⟩
        | written => rw [show advance C k (.secret g) .written = (k, .ready (C.publicOf s)) from by simp only [advance, h2 rfl]]; exact ⟨id, And.right⟩
        | ready p => simp only [advance]; exact ⟨id, fun _ => congrArg some (h3 p rfl).2⟩
        | done r => exact ⟨id, And.right⟩
      refine ⟨hd, fun h => hkeep.1 (e2 h), fun p h => ⟨hkeep.1 (e3 p h).1, (e3 p h).2⟩, fun r h => ⟨(e4 r h).1, hkeep.1 (e4 r h).2.1, hkeep.2 (e4 r h).2⟩⟩)
  have hw := key schedule (Importers.begin {} calls) (.inl ⟨rfl, rfl⟩) (by
    intro x hx
    simp only [Importers.begin, List.mem_map] at hx
    obtain ⟨c, hc, rfl⟩ := hx
    exact ⟨hs c hc, (fun h => (by cases h)), (fun p h => (by cases h)), (fun r h => (by cases h))⟩)
  unfold Importers.result at hr
  split at hr
  · rename_i c r' hci
    injection hr with hr
    subst hr
    have := (hw.2 _ (List.mem_of_getElem? hci)).2.2.2 _ rfl
    refine ⟨this.1, ?_⟩
    revert this
    cases ((Importers.begin {} calls).run C schedule).obj
    rintro ⟨_, h1, h2⟩
    simp only at h1 h2
    rw [h1, h2]
  · cases hr

/-- **C83** What is promised does not hold for threads: two threads that call `generate` on a new object at the same time can both return, with an object that
has the secret key of one and the public key of the other. The object then rejects its own signatures, unless the key of the other accepts them. Before the
last step, its public key was another. -/
theorem C83_keys_that_do_not_match (C : Curve Sk Pk) (s s' : Sk) :
    ∃ schedule last, let w := (Importers.begin {} [.secret (.key s), .secret (.key s')]).run C schedule
      let w' := w.run C [last]
      w.result 1 = some (.ok ()) ∧ w.obj = ⟨some s', some (C.publicOf s')⟩ ∧
      w'.result 0 = some (.ok ()) ∧ w'.result 1 = some (.ok ()) ∧ w'.obj = ⟨some s', some (C.publicOf s)⟩ ∧
      ∀ m sig, w'.obj.sign C m = .ok sig → C.verify (C.publicOf s) (C.sign s' m) m = false → w'.obj.verify C sig m none = .error .invalidSignature := by
  have h7 : (Importers.begin {} [.secret (.key s), .secret (.key s')]).run C [0, 1, 0, 0, 1, 1, 1] =
      ⟨⟨some s', some (C.publicOf s')⟩, [(.secret (.key s), .ready (C.publicOf s)), (.secret (.key s'), .done (.ok ()))]⟩ := by
    simp [Importers.run, Importers.step, Importers.begin, advance, Curve.processSecret]
  have h8 : (Importers.mk ⟨some s', some (C.publicOf s')⟩ [(.secret (.key s), .ready (C.publicOf s)), (.secret (.key s'), .done (.ok ()))]).run C [0] =
      ⟨⟨some s', some (C.publicOf s)⟩, [(.secret (.key s), .done (.ok ())), (.secret (.key s'), .done (.ok ()))]⟩ := by
    simp [Importers.run, Importers.step, advance]
  refine ⟨[0, 1, 0, 0, 1, 1, 1], 0, ?_⟩
  simp only [h7, h8]
  refine ⟨rfl, trivial, rfl, rfl, trivial, fun m sig hsig hv => ?_⟩
  have hsig' : (.ok (C.sign s' m) : Except Err Bytes) = .ok sig := hsig
  injection hsig' with hsig'
  subst hsig'
  show (if C.verify (C.publicOf s) (C.sign s' m) m = true then (.ok () : Except Err Unit) else .error .invalidSignature) = _
  rw [hv]; rfl

/-- **C83** A thread that imports a secret key and one that imports a public key at the same time: both can return, and the secret key is lost; or the import
of the secret key raises `AttributeError`. -/
theorem C83_secret_key_lost (C : Curve Sk Pk) (s : Sk) (p : Pk) :
    (∃ schedule more, let w := (Importers.begin {} [.secret (.key s), .pub (.key p)]).run C schedule
      w.result 0 = some (.ok ()) ∧ w.obj = ⟨some s, some (C.publicOf s)⟩ ∧
      (w.run C more).result 1 = some (.ok ()) ∧ (w.run C more).obj = ⟨none, some p⟩) ∧
    ∃ schedule, let w := (Importers.begin {} [.secret (.key s), .pub (.key p)]).run C schedule
      w.result 0 = some (.error .attribute) := by
  have h5 : (Importers.begin {} [.secret (.key s), .pub (.key p)]).run C [0, 1, 0, 0, 0] =
      ⟨⟨some s, some (C.publicOf s)⟩, [(.secret (.key s), .done (.ok ())), (.pub (.key p), .checked)]⟩ := by
    simp [Importers.run, Importers.step, Importers.begin, advance, Curve.processSecret]
  have h8 : (Importers.mk ⟨some s, some (C.publicOf s)⟩ [(.secret (.key s), .done (.ok ())), (.pub (.key p), .checked)]).run C [1, 1, 1] =
      ⟨⟨none, some p⟩, [(.secret (.key s), .done (.ok ())), (.pub (.key p), .done (.ok ()))]⟩ := by
    simp [Importers.run, Importers.step, advance, Curve.processPublic]
  have h6 : (Importers.begin {} [.secret (.key s), .pub (.key p)]).run C [0, 1, 0, 1, 0] =
      ⟨⟨none, none⟩, [(.secret (.key s), .done (.error .attribute)), (.pub (.key p), .written)]⟩ := by
    simp [Importers.run, Importers.step, Importers.begin, advance, Curve.processSecret]
  refine ⟨⟨[0, 1, 0, 0, 0], [1, 1, 1], ?_⟩, [0, 1, 0, 1, 0], ?_⟩
  · simp only [h5, h8]
    exact ⟨rfl, trivial, rfl, trivial⟩
  · simp only [h6]
    rfl

example : ((Importers.begin {} [Import.secret (.key 3), .secret (.key 4), .pub (.key 5)]).run toy [1, 1, 1, 1, 0, 0, 0, 0, 2, 2, 2, 2]).obj = (⟨some 4, some 4⟩ : KeyObj UInt8 UInt8) ∧
    ((Importers.begin {} [Import.secret (.key 3), .secret (.bytes (toy.rawSecret 3))]).run toy [0, 1, 0, 1, 1, 0, 1, 0]).obj = (⟨some 3, some 3⟩ : KeyObj UInt8 UInt8) ∧
    ((Importers.begin {} [Import.secret (.key 3), .secret (.key 4)]).run toy [0, 1, 0, 0, 1, 1, 1, 0]).obj.verify toy (toy.sign 4 [1]) [1] none = .error .invalidSignature :=
  ⟨rfl, rfl, rfl⟩

end Aiootp.Keys
