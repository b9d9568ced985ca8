import Verif.Spec.GuidShared
import Verif.Props.Ids

/-
Property C116: a GUID object that coroutines share.
-/

namespace Aiootp.GuidShared

open Perm Ids

/-! ### What a call under way will give -/

def fromOuter (c : Chain) (size v : Nat) : Option (Except Err Bytes) :=
  (c.affOut.permute v).map fun r => toBytesBE size (r ^^^ c.outKey)
def fromMiddle (c : Chain) (size v : Nat) : Option (Except Err Bytes) :=
  (c.affMid.permute v).bind fun r => fromOuter c size (r ^^^ c.outMidKey)
def fromInner (c : Chain) (size v : Nat) : Option (Except Err Bytes) :=
  (c.affIn.permute v).bind fun r => fromMiddle c size (r ^^^ c.inMidKey)

theorem mask_fromInner {g : Guid} {raw b : Bytes} (h : g.mask raw = .ok b) :
    fromInner g.permutation g.raw.config.size (fromBE raw ^^^ g.permutation.inKey) = some (.ok b) := by
  unfold Guid.mask Chain.permute at h
  unfold fromInner fromMiddle fromOuter
  cases h1 : g.permutation.affIn.permute (fromBE raw ^^^ g.permutation.inKey) with
  | none => simp [h1] at h
  | some r =>
    cases h2 : g.permutation.affMid.permute (r ^^^ g.permutation.inMidKey) with
    | none => simp [h1, h2] at h
    | some r' =>
      cases h3 : g.permutation.affOut.permute (r' ^^^ g.permutation.outMidKey) with
      | none => simp [h1, h2, h3] at h
      | some r'' =>
        simp only [h1, h2, h3, Option.bind_eq_bind, Option.bind_some, Option.pure_def] at h
        simp only [h2, h3, Option.bind_some, Option.map_some]
        cases h4 : toBytesBE g.raw.config.size (r'' ^^^ g.permutation.outKey) with
        | ok b' => rw [h4] at h; simp only [Run.ok.injEq] at h; rw [h]
        | error e => rw [h4] at h; cases h

/-- The outcome of a plain call. -/
def toRun : Except Err Container → Run Container
  | .ok c => .ok c
  | .error e => .error e

def parse (config : RawConfig) (size v : Nat) : Except Err Container :=
  match toBytesBE size v with
  | .ok b => rawRead config b
  | .error e => .error e

def unInner (c : Chain) (config : RawConfig) (v : Nat) : Option (Except Err Container) :=
  (c.affIn.invert v).map fun r => parse config config.size (r ^^^ c.inKey)
def unMiddle (c : Chain) (config : RawConfig) (v : Nat) : Option (Except Err Container) :=
  (c.affMid.invert v).bind fun r => unInner c config (r ^^^ c.inMidKey)
def unOuter (c : Chain) (config : RawConfig) (v : Nat) : Option (Except Err Container) :=
  (c.affOut.invert v).bind fun r => unMiddle c config (r ^^^ c.outMidKey)

theorem read_unOuter {g : Guid} {size : Nat} {perm : Chain} {nodeId : Bytes} (h : g.WF size perm nodeId) {guid : Bytes}
    (hl : guid.length = size) :
    ∃ r, unOuter g.permutation g.raw.config (fromBE guid ^^^ g.permutation.outKey) = some r ∧ g.read guid = toRun r := by
  have hlt : fromBE guid < 256 ^ perm.size := by rw [h.chainSize, ← hl]; exact fromBE_lt guid
  obtain ⟨x, hx, hinv, -⟩ := Chain.invert_total h.chain hlt
  rw [← h.perm] at hinv
  have hsize : g.raw.config.size = size := by rw [h.config]
  unfold Guid.read
  rw [if_neg (by rw [hsize]; exact not_not.2 hl), hinv]
  unfold Chain.invert at hinv
  unfold unOuter unMiddle unInner
  cases h1 : g.permutation.affOut.invert (fromBE guid ^^^ g.permutation.outKey) with
  | none => simp [h1] at hinv
  | some r =>
    cases h2 : g.permutation.affMid.invert (r ^^^ g.permutation.outMidKey) with
    | none => simp [h1, h2] at hinv
    | some r' =>
      cases h3 : g.permutation.affIn.invert (r' ^^^ g.permutation.inMidKey) with
      | none => simp [h1, h2, h3] at hinv
      | some r'' =>
        simp only [h1, h2, h3, Option.bind_eq_bind, Option.bind_some, Option.pure_def, Option.some.injEq] at hinv
        refine ⟨parse g.raw.config g.raw.config.size (r'' ^^^ g.permutation.inKey),
          by simp only [h2, h3, Option.bind_some, Option.map_some], ?_⟩
        unfold parse
        rw [hinv]
        simp only
        cases toBytesBE g.raw.config.size x with
        | error e => rfl
        | ok b => simp only; cases rawRead g.raw.config b <;> rfl

/-- Both objects have the same key and size. -/
theorem read_congr {g g' : Guid} {size : Nat} {perm : Chain} {nodeId : Bytes} (h : g.WF size perm nodeId)
    (h' : g'.WF size perm nodeId) (guid : Bytes) : g.read guid = g'.read guid := by
  unfold Guid.read
  rw [h.config, h'.config, h.perm, h'.perm]

/-! ### The invariant -/

/-- The call has the `k`-th guid. -/
def Gets (s : Sys) (out : List Bytes) (i : Nat) (b : Bytes) : Prop :=
  ∃ (k time : Nat) (token : Bytes), s.drawn[k]? = some (i, time, token) ∧ out[k]? = some b

/-- Where a call may be. -/
def Stage (g : Guid) (s : Sys) (out : List Bytes) (i : Nat) (call : Call) : Phase → Prop
  | .waiting => call = .new ∧ i ∉ s.drawn.map (·.1)
  | .inner v => call = .new ∧ ∃ b, Gets s out i b ∧ fromInner s.guid.permutation s.guid.raw.config.size v = some (.ok b)
  | .middle v => call = .new ∧ ∃ b, Gets s out i b ∧ fromMiddle s.guid.permutation s.guid.raw.config.size v = some (.ok b)
  | .outer v => call = .new ∧ ∃ b, Gets s out i b ∧ fromOuter s.guid.permutation s.guid.raw.config.size v = some (.ok b)
  | .made r => call = .new ∧ ∃ b, Gets s out i b ∧ r = .ok b
  | .unouter v => ∃ guid r, call = .read guid ∧ unOuter s.guid.permutation s.guid.raw.config v = some r ∧ g.read guid = toRun r
  | .unmiddle v => ∃ guid r, call = .read guid ∧ unMiddle s.guid.permutation s.guid.raw.config v = some r ∧ g.read guid = toRun r
  | .uninner v => ∃ guid r, call = .read guid ∧ unInner s.guid.permutation s.guid.raw.config v = some r ∧ g.read guid = toRun r
  | .parsing b => ∃ guid, call = .read guid ∧ g.read guid = toRun (rawRead s.guid.raw.config b)
  | .parsed r => ∃ guid, call = .read guid ∧ g.read guid = toRun r
  | .cancelled => True

structure Held (size : Nat) (perm : Chain) (nodeId : Bytes) (g : Guid) (s : Sys) (out : List Bytes) : Prop where
  start : g.WF size perm nodeId
  wf : s.guid.WF size perm nodeId
  seq : g.makeAll (s.drawn.map (·.2)) = .ok (out, s.guid)
  nodup : (s.drawn.map (·.1)).Nodup
  bound : ∀ d ∈ s.drawn, d.1 < s.calls.length
  stage : ∀ (i : Nat) (e : Entry), s.calls[i]? = some e → Stage g s out i e.call e.phase

theorem makeAll_snoc {g g' g'' : Guid} {calls : List (Nat × Bytes)} {out : List Bytes} {time : Nat} {token b : Bytes}
    (h : g.makeAll calls = .ok (out, g')) (hm : g'.make time token = .ok (b, g'')) :
    g.makeAll (calls ++ [(time, token)]) = .ok (out ++ [b], g'') := by
  induction calls generalizing g out with
  | nil => cases h; simp [Guid.makeAll, hm]
  | cons c rest ih =>
    obtain ⟨t, k⟩ := c
    obtain ⟨b1, g1, bs, h1, h2, rfl⟩ := Guid.makeAll_cons h
    have := ih h2
    simp [Guid.makeAll, h1, this]

theorem Held.length {size : Nat} {perm : Chain} {nodeId : Bytes} {g : Guid} {s : Sys} {out : List Bytes}
    (h : Held size perm nodeId g s out) : out.length = s.drawn.length := by
  have := (Guid.makeAll_wf h.start h.seq).2.2
  simpa using this

/-- What holds of a call stays so if others draw, and the constants stay. -/
theorem Stage.mono {size : Nat} {perm : Chain} {nodeId : Bytes} {g : Guid} {s s' : Sys} {out out' : List Bytes} {i : Nat}
    {call : Call} {phase : Phase} (h : Stage g s out i call phase) (hw : s.guid.WF size perm nodeId)
    (hw' : s'.guid.WF size perm nodeId) (hg : ∀ b, Gets s out i b → Gets s' out' i b)
    (hd : i ∉ s.drawn.map (·.1) → i ∉ s'.drawn.map (·.1)) : Stage g s' out' i call phase := by
  have e1 : s'.guid.permutation = s.guid.permutation := hw'.perm.trans hw.perm.symm
  have e2 : s'.guid.raw.config = s.guid.raw.config := hw'.config.trans hw.config.symm
  cases phase <;> simp only [Stage, e1, e2] at h ⊢ <;>
    first
    | exact h
    | exact ⟨h.1, hd h.2⟩
    | (obtain ⟨hc, b, hb, hr⟩ := h; exact ⟨hc, b, hg b hb, hr⟩)

theorem gets_append {s : Sys} {out : List Bytes} {i : Nat} {b b' : Bytes} {d : Nat × Nat × Bytes} {guid : Guid} {calls : List Entry}
    (h : Gets s out i b) : Gets ⟨guid, calls, s.drawn ++ [d]⟩ (out ++ [b']) i b := by
  obtain ⟨k, t, tok, h1, h2⟩ := h
  have hk : k < s.drawn.length := (List.getElem?_eq_some_iff.1 h1).1
  have hk' : k < out.length := (List.getElem?_eq_some_iff.1 h2).1
  exact ⟨k, t, tok, by rw [List.getElem?_append_left hk]; exact h1, by rw [List.getElem?_append_left hk']; exact h2⟩

theorem getElem?_set_two {α : Type} {l : List α} {i j : Nat} {a b : α} (h : (l.set i a)[j]? = some b) :
    (j = i ∧ b = a) ∨ (j ≠ i ∧ l[j]? = some b) := by
  rw [List.getElem?_set] at h
  split at h
  · rename_i hij
    split at h
    · cases h; exact Or.inl ⟨hij.symm, rfl⟩
    · cases h
  · rename_i hij
    exact Or.inr ⟨fun h' => hij h'.symm, h⟩

/-- A call moves on without a reading. -/
theorem Held.move {size : Nat} {perm : Chain} {nodeId : Bytes} {g : Guid} {s : Sys} {out : List Bytes}
    (h : Held size perm nodeId g s out) {i : Nat} {call : Call} {phase : Phase}
    (hst : Stage g s out i call phase) : Held size perm nodeId g { s with calls := s.calls.set i ⟨call, phase⟩ } out := by
  refine ⟨h.start, h.wf, h.seq, h.nodup, fun d hd => by rw [List.length_set]; exact h.bound d hd, ?_⟩
  intro j e he
  rcases getElem?_set_two he with ⟨rfl, rfl⟩ | ⟨-, he⟩
  · cases phase <;> exact hst
  · have := h.stage j e he
    exact this.mono h.wf h.wf (fun b hb => hb) (fun hd => hd)

theorem nodup_snoc {s : Sys} {i time : Nat} {token : Bytes} (h : (s.drawn.map (·.1)).Nodup) (hi : i ∉ s.drawn.map (·.1)) :
    ((s.drawn ++ [(i, time, token)]).map (·.1)).Nodup := by
  rw [List.map_append, List.nodup_append]
  refine ⟨h, by simp, ?_⟩
  intro a ha b hb
  simp only [List.map_cons, List.map_nil, List.mem_singleton] at hb
  subst hb
  exact fun hab => hi (hab ▸ ha)

/-- The next guid is made, for call `i`. -/
theorem Held.next {size : Nat} {perm : Chain} {nodeId : Bytes} {g g' : Guid} {s : Sys} {out : List Bytes}
    (h : Held size perm nodeId g s out) {i time : Nat} {token b : Bytes} {calls : List Entry}
    (hi : i ∉ s.drawn.map (·.1)) (hm : s.guid.make time token = .ok (b, g'))
    (hlen : s.calls.length ≤ calls.length) (hil : i < calls.length)
    (hold : ∀ (j : Nat) (e : Entry), calls[j]? = some e → j ≠ i → s.calls[j]? = some e)
    (hnew : ∀ e : Entry, calls[i]? = some e → Gets ⟨g', calls, s.drawn ++ [(i, time, token)]⟩ (out ++ [b]) i b →
      g'.WF size perm nodeId → Stage g ⟨g', calls, s.drawn ++ [(i, time, token)]⟩ (out ++ [b]) i e.call e.phase) :
    Held size perm nodeId g ⟨g', calls, s.drawn ++ [(i, time, token)]⟩ (out ++ [b]) := by
  have hw' := (Guid.make_wf h.wf hm).2.1
  have hl := h.length
  refine ⟨h.start, hw', ?_, nodup_snoc h.nodup hi, ?_, ?_⟩
  · rw [List.map_append]
    exact makeAll_snoc h.seq hm
  · intro d hd
    rcases List.mem_append.1 hd with hd | hd
    · exact Nat.lt_of_lt_of_le (h.bound d hd) hlen
    · rw [List.mem_singleton] at hd; subst hd; exact hil
  · intro j e he
    by_cases hji : j = i
    · subst hji
      refine hnew e he ⟨s.drawn.length, time, token, by simp, by rw [← hl]; simp⟩ hw'
    · exact (h.stage j e (hold j e he hji)).mono h.wf hw' (fun b hb => gets_append hb) (fun hd => by
        simp only [List.map_append, List.map_cons, List.map_nil, List.mem_append, List.mem_singleton]
        exact fun hc => hc.elim hd hji)

theorem Held.resume {size : Nat} {perm : Chain} {nodeId : Bytes} {g : Guid} {s : Sys} {out : List Bytes}
    (h : Held size perm nodeId g s out) {i time : Nat} {token : Bytes} {e : Entry} (he : s.calls[i]? = some e)
    (ht : time < 256 ^ 8) (hk : token.length = size - 10) :
    ∃ phase guid out', GuidShared.resume s.guid time token e.phase = some (phase, guid) ∧
      Held size perm nodeId g ⟨guid, s.calls.set i ⟨e.call, phase⟩, s.drawn ++ draw i time token e.phase⟩ out' := by
  have hst := h.stage i e he
  obtain ⟨call, phase⟩ := e
  simp only at hst ⊢
  have keep : ∀ p, p ≠ Phase.waiting → draw i time token p = [] := fun p hp => by cases p <;> first | rfl | exact absurd rfl hp
  cases phase with
  | waiting =>
    obtain ⟨rfl, hd⟩ := hst
    obtain ⟨v, -, -, -, hm⟩ := Guid.make_ok h.wf ht hk
    have hmk := hm
    unfold Guid.make at hmk
    have hraw := RawGuid.make_eq (token := token) h.wf.config ht
    rw [hraw] at hmk
    simp only at hmk
    split at hmk
    · rename_i b hb
      simp only [Run.ok.injEq, Prod.mk.injEq] at hmk
      obtain ⟨rfl, -⟩ := hmk
      have hres : GuidShared.resume s.guid time token .waiting
          = some (.inner (fromBE (rawBytes time token s.guid.raw.nodeId ((s.guid.raw.tick + 1) % 256)) ^^^ s.guid.permutation.inKey),
            { s.guid with raw := { s.guid.raw with tick := (s.guid.raw.tick + 1) % 256 } }) := by
        simp only [GuidShared.resume, hraw]
      refine ⟨_, _, out ++ [beDigits size v], hres, ?_⟩
      have hib : i < s.calls.length := (List.getElem?_eq_some_iff.1 he).1
      refine h.next hd hm (by simp) (by simpa using hib) ?_ ?_
      · intro j e hj hji
        rcases getElem?_set_two hj with ⟨h1, -⟩ | ⟨-, h1⟩
        · exact absurd h1 hji
        · exact h1
      · intro e hj hget hw'
        rcases getElem?_set_two hj with ⟨-, rfl⟩ | ⟨h1, -⟩
        · exact ⟨rfl, _, hget, mask_fromInner hb⟩
        · exact absurd rfl h1
    · cases hmk
    · cases hmk
  | inner v =>
    obtain ⟨hc, b, hb, hr⟩ := hst
    unfold fromInner at hr
    rw [Option.bind_eq_some_iff] at hr
    obtain ⟨r, h1, h2⟩ := hr
    refine ⟨_, _, out, congrArg (Option.map _) h1, ?_⟩
    rw [keep _ (by simp), List.append_nil]
    exact h.move (phase := .middle _) ⟨hc, b, hb, h2⟩
  | middle v =>
    obtain ⟨hc, b, hb, hr⟩ := hst
    unfold fromMiddle at hr
    rw [Option.bind_eq_some_iff] at hr
    obtain ⟨r, h1, h2⟩ := hr
    refine ⟨_, _, out, congrArg (Option.map _) h1, ?_⟩
    rw [keep _ (by simp), List.append_nil]
    exact h.move (phase := .outer _) ⟨hc, b, hb, h2⟩
  | outer v =>
    obtain ⟨hc, b, hb, hr⟩ := hst
    unfold fromOuter at hr
    rw [Option.map_eq_some_iff] at hr
    obtain ⟨r, h1, h2⟩ := hr
    refine ⟨_, _, out, congrArg (Option.map _) h1, ?_⟩
    rw [keep _ (by simp), List.append_nil]
    exact h.move (phase := .made _) ⟨hc, b, hb, h2⟩
  | made r => exact ⟨_, _, out, rfl, by rw [keep _ (by simp), List.append_nil]; exact h.move (phase := .made _) hst⟩
  | unouter v =>
    obtain ⟨guid, r, hc, hr, hrd⟩ := hst
    unfold unOuter at hr
    rw [Option.bind_eq_some_iff] at hr
    obtain ⟨r', h1, h2⟩ := hr
    refine ⟨_, _, out, congrArg (Option.map _) h1, ?_⟩
    rw [keep _ (by simp), List.append_nil]
    exact h.move (phase := .unmiddle _) ⟨guid, r, hc, h2, hrd⟩
  | unmiddle v =>
    obtain ⟨guid, r, hc, hr, hrd⟩ := hst
    unfold unMiddle at hr
    rw [Option.bind_eq_some_iff] at hr
    obtain ⟨r', h1, h2⟩ := hr
    refine ⟨_, _, out, congrArg (Option.map _) h1, ?_⟩
    rw [keep _ (by simp), List.append_nil]
    exact h.move (phase := .uninner _) ⟨guid, r, hc, h2, hrd⟩
  | uninner v =>
    obtain ⟨guid, r, hc, hr, hrd⟩ := hst
    unfold unInner at hr
    rw [Option.map_eq_some_iff] at hr
    obtain ⟨r', h1, h2⟩ := hr
    refine ⟨_, _, out, congrArg (Option.map _) h1, ?_⟩
    rw [keep _ (by simp), List.append_nil]
    unfold parse at h2
    cases h4 : toBytesBE s.guid.raw.config.size (r' ^^^ s.guid.permutation.inKey) with
    | ok b =>
      rw [h4] at h2
      simp only at h2
      exact h.move (phase := .parsing b) ⟨guid, hc, by rw [h2]; exact hrd⟩
    | error err =>
      rw [h4] at h2
      simp only at h2
      exact h.move (phase := .parsed (.error err)) ⟨guid, hc, by rw [h2]; exact hrd⟩
  | parsing b =>
    obtain ⟨guid, hc, hrd⟩ := hst
    refine ⟨_, _, out, rfl, ?_⟩
    rw [keep _ (by simp), List.append_nil]
    exact h.move (phase := .parsed _) ⟨guid, hc, hrd⟩
  | parsed r => exact ⟨_, _, out, rfl, by rw [keep _ (by simp), List.append_nil]; exact h.move (phase := .parsed _) hst⟩
  | cancelled => exact ⟨_, _, out, rfl, by rw [keep _ (by simp), List.append_nil]; exact h.move (phase := .cancelled) trivial⟩

theorem getElem?_snoc_two {α : Type} {l : List α} {a b : α} {j : Nat} (h : (l ++ [a])[j]? = some b) :
    (l[j]? = some b ∧ j < l.length) ∨ (j = l.length ∧ b = a) := by
  rcases Nat.lt_or_ge j l.length with hj | hj
  · rw [List.getElem?_append_left hj] at h; exact Or.inl ⟨h, hj⟩
  · rw [List.getElem?_append_right hj] at h
    have h0 : j - l.length = 0 := by
      have := (List.getElem?_eq_some_iff.1 h).1
      simp at this; omega
    rw [h0] at h
    simp at h
    exact Or.inr ⟨by omega, h.symm⟩

theorem Held.fresh_id {size : Nat} {perm : Chain} {nodeId : Bytes} {g : Guid} {s : Sys} {out : List Bytes}
    (h : Held size perm nodeId g s out) : s.calls.length ∉ s.drawn.map (·.1) := by
  intro hm
  obtain ⟨d, hd, he⟩ := List.mem_map.1 hm
  have := h.bound d hd
  omega

theorem Held.act {size : Nat} {perm : Chain} {nodeId : Bytes} {g : Guid} {s : Sys} {out : List Bytes}
    (h : Held size perm nodeId g s out) {a : Action} (hv : Valid size [a]) :
    ∃ s' out', s.act a = some s' ∧ Held size perm nodeId g s' out' := by
  cases a with
  | begin call =>
    refine ⟨_, out, rfl, h.start, h.wf, h.seq, h.nodup, fun d hd => by
      have := h.bound d hd
      simp only [List.length_append, List.length_cons, List.length_nil]; omega, ?_⟩
    intro j e he
    rcases getElem?_snoc_two he with ⟨he, -⟩ | ⟨rfl, rfl⟩
    · exact (h.stage j e he).mono h.wf h.wf (fun b hb => hb) (fun hd => hd)
    · cases call with
      | new => exact ⟨rfl, h.fresh_id⟩
      | read guid =>
        simp only [GuidShared.start]
        have hsize : s.guid.raw.config.size = size := by rw [h.wf.config]
        split
        · rename_i hne
          refine ⟨guid, rfl, ?_⟩
          rw [read_congr h.start h.wf]
          unfold Guid.read
          rw [if_pos hne]
          rfl
        · rename_i hne
          obtain ⟨r, h1, h2⟩ := read_unOuter h.wf (guid := guid) (by rw [← hsize]; exact not_not.1 hne)
          exact ⟨guid, r, rfl, h1, by rw [read_congr h.start h.wf]; exact h2⟩
  | go i time token =>
    simp only [Sys.act]
    cases hi : s.calls[i]? with
    | none => exact ⟨s, out, rfl, h⟩
    | some e =>
      obtain ⟨ht, hk⟩ := hv.1 i time token List.mem_cons_self
      obtain ⟨phase, guid, out', h1, h2⟩ := h.resume hi ht hk
      exact ⟨_, out', by simp only [h1], h2⟩
  | cancel i =>
    simp only [Sys.act]
    split
    · exact ⟨s, out, rfl, h⟩
    · exact ⟨s, out, rfl, h⟩
    · exact ⟨s, out, rfl, h⟩
    · exact ⟨_, out, rfl, h.move (phase := .cancelled) trivial⟩
  | now time token =>
    obtain ⟨ht, hk⟩ := hv.2 time token List.mem_cons_self
    obtain ⟨v, -, -, -, hm⟩ := Guid.make_ok h.wf ht hk
    refine ⟨_, _, by simp only [Sys.act, hm]; rfl, h.next h.fresh_id hm (by simp) (by simp) ?_ ?_⟩
    · intro j e he hj
      rcases getElem?_snoc_two he with ⟨he, -⟩ | ⟨h1, -⟩
      · exact he
      · exact absurd h1 hj
    · intro e he hget hw'
      rcases getElem?_snoc_two he with ⟨-, hlt⟩ | ⟨-, rfl⟩
      · exact absurd hlt (Nat.lt_irrefl _)
      · exact ⟨rfl, _, hget, rfl⟩

theorem Held.run {size : Nat} {perm : Chain} {nodeId : Bytes} {g : Guid} {s : Sys} {out : List Bytes}
    (h : Held size perm nodeId g s out) {actions : List Action} (hv : Valid size actions) :
    ∃ s' out', s.run actions = some s' ∧ Held size perm nodeId g s' out' := by
  induction actions generalizing s out with
  | nil => exact ⟨s, out, rfl, h⟩
  | cons a rest ih =>
    obtain ⟨s1, out1, h1, h2⟩ := h.act (a := a)
      ⟨fun i t k hm => hv.1 i t k (by rw [List.mem_singleton] at hm; rw [hm]; exact List.mem_cons_self),
        fun t k hm => hv.2 t k (by rw [List.mem_singleton] at hm; rw [hm]; exact List.mem_cons_self)⟩
    obtain ⟨s2, out2, h3, h4⟩ := ih h2 ⟨fun i t k hm => hv.1 i t k (List.mem_cons_of_mem _ hm),
      fun t k hm => hv.2 t k (List.mem_cons_of_mem _ hm)⟩
    exact ⟨s2, out2, by simp only [Sys.run, h1, h3], h4⟩

/-- C116. However the coroutines that share a `GUID` object are scheduled and cancelled, no call hangs or raises, and each gives
what it gives to a caller who is alone. -/
theorem C116_as_alone {size hash : Nat} {key nodeId : Bytes} {g : Guid} (hg : Reachable size hash key nodeId g)
    {actions : List Action} (hv : Valid size actions) : ∃ s, (fresh g).run actions = some s ∧ AsAlone g s := by
  obtain ⟨config, -, perm, -, hw⟩ := hg.wf
  obtain ⟨s, out, h1, h⟩ := Held.run (s := fresh g) (out := [])
    ⟨hw, hw, rfl, List.nodup_nil, by simp [fresh], by simp [fresh]⟩ hv
  refine ⟨s, h1, out, h.seq, h.nodup, ?_, ?_⟩
  · intro i e result he hp
    have hst := h.stage i e he
    rw [hp] at hst
    obtain ⟨hc, b, ⟨k, t, tok, hd, ho⟩, hr⟩ := hst
    exact ⟨hc, b, k, t, tok, hr, hd, ho⟩
  · intro i e result he hp
    have hst := h.stage i e he
    rw [hp] at hst
    obtain ⟨guid, hc, hr⟩ := hst
    exact ⟨guid, hc, by rw [hr]; cases result <;> rfl⟩

theorem drawn_valid {size : Nat} {actions : List Action} {s s' : Sys} (h : s.run actions = some s')
    (hv : Valid size actions) (h0 : ∀ d ∈ s.drawn, d.2.2.length = size - 10) : ∀ d ∈ s'.drawn, d.2.2.length = size - 10 := by
  induction actions generalizing s with
  | nil => simp only [Sys.run, Option.some.injEq] at h; subst h; exact h0
  | cons a rest ih =>
    simp only [Sys.run] at h
    cases ha : s.act a with
    | none => rw [ha] at h; cases h
    | some s1 =>
      rw [ha] at h
      refine ih h ⟨fun i t k hm => hv.1 i t k (List.mem_cons_of_mem _ hm), fun t k hm => hv.2 t k (List.mem_cons_of_mem _ hm)⟩ ?_
      cases a with
      | begin call => cases ha; exact h0
      | go i time token =>
        have hk := (hv.1 i time token List.mem_cons_self).2
        simp only [Sys.act] at ha
        split at ha
        · cases ha; exact h0
        · split at ha
          · cases ha
          · cases ha
            intro d hd
            rcases List.mem_append.1 hd with hd | hd
            · exact h0 d hd
            · unfold draw at hd
              split at hd
              · rw [List.mem_singleton] at hd; subst hd; exact hk
              · cases hd
      | cancel i =>
        simp only [Sys.act] at ha
        split at ha <;> (cases ha; exact h0)
      | now time token =>
        have hk := (hv.2 time token List.mem_cons_self).2
        simp only [Sys.act] at ha
        split at ha
        · cases ha
        all_goals
          cases ha
          intro d hd
          rcases List.mem_append.1 hd with hd | hd
          · exact h0 d hd
          · rw [List.mem_singleton] at hd; subst hd; exact hk

/-- C116. No two calls of coroutines that share a `GUID` object return the same guid, whatever the random tokens are, provided
that between two equal readings of the clock fewer than 255 others are made. -/
theorem C116_distinct {size hash : Nat} {key nodeId : Bytes} {g : Guid} (hg : Reachable size hash key nodeId g)
    {actions : List Action} (hv : Valid size actions) {s : Sys} (h : (fresh g).run actions = some s)
    (hclock : ∀ k l (hk : k < s.drawn.length) (hl : l < s.drawn.length), k < l → s.drawn[k].2.1 = s.drawn[l].2.1 → l - k < 256)
    {i j : Nat} {b b' : Bytes} (hij : i ≠ j) (hi : Made s i b) (hj : Made s j b') : b ≠ b' := by
  obtain ⟨s', h1, out, hseq, -, hmade, -⟩ := C116_as_alone hg hv
  rw [h] at h1
  cases h1
  have hnd : out.Nodup := by
    refine C17_sequence_partial hg ?_ ?_ hseq
    · intro c hc
      obtain ⟨d, hd, rfl⟩ := List.mem_map.1 hc
      exact drawn_valid h hv (by simp [fresh]) d hd
    · intro k l hk hl hkl heq
      simp only [List.length_map] at hk hl
      simp only [List.getElem_map] at heq
      exact hclock k l hk hl hkl heq
  obtain ⟨call, hi⟩ := hi
  obtain ⟨call', hj⟩ := hj
  obtain ⟨-, b1, k, t, tok, hb1, hd1, ho1⟩ := hmade i _ _ hi rfl
  obtain ⟨-, b2, l, t', tok', hb2, hd2, ho2⟩ := hmade j _ _ hj rfl
  cases hb1
  cases hb2
  rintro rfl
  have hk : k < out.length := (List.getElem?_eq_some_iff.1 ho1).1
  have hkl : k = l := (List.getElem?_inj hk hnd).1 (ho1.trans ho2.symm)
  subst hkl
  rw [hd1] at hd2
  cases hd2
  exact hij rfl

/-! ### Every call ends -/

/-- How often a call has yet to go on. -/
def rank : Phase → Nat
  | .waiting => 4
  | .inner _ => 3
  | .middle _ => 2
  | .outer _ => 1
  | .made _ => 0
  | .unouter _ => 4
  | .unmiddle _ => 3
  | .uninner _ => 2
  | .parsing _ => 1
  | .parsed _ => 0
  | .cancelled => 0

theorem rank_resume {g g' : Guid} {time : Nat} {token : Bytes} {p p' : Phase} (h : resume g time token p = some (p', g'))
    (hp : p ≠ .cancelled) : p' ≠ .cancelled ∧ rank p' ≤ rank p - 1 := by
  cases p with
  | waiting =>
    simp only [resume] at h
    split at h <;> (cases h; exact ⟨by simp, by simp [rank]⟩)
  | uninner v =>
    simp only [resume, Option.map_eq_some_iff] at h
    obtain ⟨r, -, h⟩ := h
    cases h
    split <;> exact ⟨by simp, by simp [rank]⟩
  | inner v | middle v | outer v | unouter v | unmiddle v =>
    simp only [resume, Option.map_eq_some_iff] at h
    obtain ⟨r, -, h⟩ := h
    cases h
    exact ⟨by simp, by simp [rank]⟩
  | cancelled => exact absurd rfl hp
  | made r | parsed r | parsing b => cases h; exact ⟨by simp, by simp [rank]⟩

theorem rank_act {s s' : Sys} {a : Action} (h : s.act a = some s') {i : Nat} {e : Entry} (he : s.calls[i]? = some e)
    (hp : e.phase ≠ .cancelled) (ha : a ≠ .cancel i) :
    ∃ e', s'.calls[i]? = some e' ∧ e'.phase ≠ .cancelled ∧ rank e'.phase ≤ rank e.phase - turns i [a] := by
  have hil : i < s.calls.length := (List.getElem?_eq_some_iff.1 he).1
  cases a with
  | begin call => cases h; exact ⟨e, by simp only [List.getElem?_append_left hil]; exact he, hp, by simp [turns]⟩
  | go j time token =>
    simp only [Sys.act] at h
    by_cases hj : j = i
    · subst hj
      rw [he] at h
      simp only at h
      split at h
      · cases h
      · rename_i p' g' hr
        cases h
        obtain ⟨h1, h2⟩ := rank_resume hr hp
        exact ⟨⟨e.call, p'⟩, by simp only [List.getElem?_set_self hil], h1, by simpa [turns] using h2⟩
    · have ht : turns i [Action.go j time token] = 0 := by simp [turns, hj]
      rw [ht]
      split at h
      · cases h; exact ⟨e, he, hp, Nat.le_refl _⟩
      · split at h
        · cases h
        · cases h; exact ⟨e, by simp only [List.getElem?_set_ne hj]; exact he, hp, Nat.le_refl _⟩
  | cancel j =>
    have hj : j ≠ i := fun hj => ha (by rw [hj])
    simp only [Sys.act] at h
    split at h
    all_goals
      cases h
      first
      | exact ⟨e, he, hp, by simp [turns]⟩
      | exact ⟨e, by rw [List.getElem?_set_ne hj]; exact he, hp, by simp [turns]⟩
  | now time token =>
    simp only [Sys.act] at h
    split at h
    · cases h
    all_goals
      cases h
      exact ⟨e, by simp only [List.getElem?_append_left hil]; exact he, hp, by simp [turns]⟩

theorem rank_run {actions : List Action} {s s' : Sys} (h : s.run actions = some s') {i : Nat} {e : Entry} (he : s.calls[i]? = some e)
    (hp : e.phase ≠ .cancelled) (ha : Action.cancel i ∉ actions) :
    ∃ e', s'.calls[i]? = some e' ∧ e'.phase ≠ .cancelled ∧ rank e'.phase ≤ rank e.phase - turns i actions := by
  induction actions generalizing s e with
  | nil => cases h; exact ⟨e, he, hp, by simp [turns]⟩
  | cons a rest ih =>
    simp only [Sys.run] at h
    cases h1 : s.act a with
    | none => rw [h1] at h; cases h
    | some s1 =>
      rw [h1] at h
      obtain ⟨e1, he1, hp1, hr1⟩ := rank_act h1 he hp (fun hc => ha (hc ▸ List.mem_cons_self))
      obtain ⟨e2, he2, hp2, hr2⟩ := ih h he1 hp1 (fun hc => ha (List.mem_cons_of_mem _ hc))
      refine ⟨e2, he2, hp2, ?_⟩
      have : turns i (a :: rest) = turns i [a] + turns i rest := by
        rw [show a :: rest = [a] ++ rest from rfl]; unfold turns; rw [List.countP_append]
      omega

/-- C116. A call that nobody cancels has ended when it has gone on four times, whatever the others do in between. -/
theorem C116_ends {s s' : Sys} {call : Call} {actions : List Action} (h : s.run (.begin call :: actions) = some s')
    (hc : Action.cancel s.calls.length ∉ actions) (ht : 4 ≤ turns s.calls.length actions) : Ended s' s.calls.length := by
  simp only [Sys.run, Sys.act] at h
  obtain ⟨e, he, hp, hr⟩ := rank_run h (i := s.calls.length) (e := ⟨call, start s.guid call⟩) (by simp)
    (by cases call <;> simp only [start] <;> (try split) <;> simp) hc
  have h4 : rank (start s.guid call) ≤ 4 := by cases call <;> simp only [start] <;> (try split) <;> simp [rank]
  have h0 : rank e.phase = 0 := by simp only at hr; omega
  obtain ⟨c, p⟩ := e
  cases p <;> simp only [rank] at h0 <;> first
    | omega
    | exact absurd rfl hp
    | exact ⟨c, Or.inl ⟨_, he⟩⟩
    | exact ⟨c, Or.inr ⟨_, he⟩⟩

/-! ### A schedule -/

/-- Two coroutines ask for a guid, a third reads one, and a fourth, which is cancelled, has drawn. -/
def sampleActions : List Action :=
  [.begin .new, .begin .new, .go 1 5 [1, 2], .begin (.read (List.replicate 12 9)), .begin .new, .go 3 5 [0, 0], .cancel 3,
    .go 2 0 [0, 0], .go 0 5 [1, 2], .now 5 [1, 2], .go 1 0 [0, 0], .go 0 0 [0, 0], .go 0 0 [0, 0], .go 2 0 [0, 0],
    .go 1 0 [0, 0], .go 1 0 [0, 0], .go 0 0 [0, 0], .go 2 0 [0, 0], .go 2 0 [0, 0]]

theorem sampleActions_valid : Valid 12 sampleActions := by
  constructor
  · intro i time token h
    simp only [sampleActions, List.mem_cons, List.not_mem_nil, Action.go.injEq, reduceCtorEq, false_or, or_false] at h
    rcases h with h | h | h | h | h | h | h | h | h | h | h | h | h <;> (obtain ⟨-, rfl, rfl⟩ := h; exact ⟨by decide, rfl⟩)
  · intro time token h
    simp only [sampleActions, List.mem_cons, List.not_mem_nil, Action.now.injEq, reduceCtorEq, false_or, or_false] at h
    obtain ⟨rfl, rfl⟩ := h
    exact ⟨by decide, rfl⟩

theorem drawn_length {actions : List Action} {s s' : Sys} (h : s.run actions = some s') :
    s'.drawn.length ≤ s.drawn.length + actions.length := by
  induction actions generalizing s with
  | nil => simp only [Sys.run, Option.some.injEq] at h; subst h; exact Nat.le_refl _
  | cons a rest ih =>
    simp only [Sys.run] at h
    cases ha : s.act a with
    | none => rw [ha] at h; cases h
    | some s1 =>
      rw [ha] at h
      have h1 := ih h
      have h2 : s1.drawn.length ≤ s.drawn.length + 1 := by
        cases a <;> simp only [Sys.act] at ha
        · cases ha; exact Nat.le_succ _
        · split at ha
          · cases ha; exact Nat.le_succ _
          · split at ha
            · cases ha
            · cases ha
              rw [List.length_append]
              refine Nat.add_le_add_left ?_ _
              unfold draw
              split <;> simp
        · split at ha <;> (cases ha; exact Nat.le_succ _)
        · split at ha
          · cases ha
          all_goals (cases ha; simp)
      simp only [List.length_cons]
      omega

example : ∃ g s, Reachable 12 0 (List.replicate 60 7) [5] g ∧ (fresh g).run sampleActions = some s ∧ AsAlone g s ∧ Ended s 0 ∧
    ∀ i j b b', i ≠ j → Made s i b → Made s j b' → b ≠ b' := by
  have hr : ∃ g, Reachable 12 0 (List.replicate 60 7) [5] g := ⟨_, _, _, [], [], config12, rfl, rfl⟩
  obtain ⟨g, hg⟩ := hr
  obtain ⟨s, hs, ha⟩ := C116_as_alone hg sampleActions_valid
  have hl : s.drawn.length ≤ 19 := by simpa [fresh, sampleActions] using drawn_length hs
  exact ⟨g, s, hg, hs, ha, C116_ends (s := fresh g) hs
    (by show Action.cancel 0 ∉ sampleActions.tail; decide) (by show 4 ≤ turns 0 sampleActions.tail; decide),
    fun i j b b' hij hi hj => C116_distinct hg sampleActions_valid hs (fun k l hk hll _ _ => by omega) hij hi hj⟩

end Aiootp.GuidShared
