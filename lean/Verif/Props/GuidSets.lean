import Verif.Model.GuidSets
import Verif.Props.Ids
import Mathlib.Data.List.Sort

/-!
C126: guids that were read can be compared, sorted, and put into sets.
-/

namespace Aiootp.Ids

/-! ### specification -/

/-- In ascending order, as far as `<` tells: no element is less than an earlier one. This is what `sorted` gives. -/
def InOrder (l : List Container) : Prop := l.Pairwise fun x y => Container.lt y x = false

/-- The config was accepted. -/
def RawConfig.Made (c : RawConfig) : Prop := ∃ t p n k s, RawConfig.new t p n k s = .ok c

/-! ### lemmas -/

theorem RawConfig.Made.size {c : RawConfig} (h : c.Made) : c.size = c.timestampBytes + c.prfBytes + c.nodeIdBytes + c.tickerBytes := by
  obtain ⟨t, p, n, k, s, h⟩ := h
  unfold RawConfig.new at h
  split at h
  · cases h
  · split at h
    · cases h
    · rename_i hs
      cases h
      exact Classical.not_not.1 hs

/-- What is read has fields of the sizes of the config, and the guid is made of them. -/
theorem rawRead_parts {c : RawConfig} (hc : c.Made) {g : Bytes} {x : Container} (h : rawRead c g = .ok x) :
    x.timestamp.length = c.timestampBytes ∧ x.token.length = c.prfBytes ∧ x.nodeId.length = c.nodeIdBytes ∧ x.ticker.length = c.tickerBytes ∧
    g = x.timestamp ++ (x.token ++ (x.nodeId ++ x.ticker)) := by
  have hsz := hc.size
  unfold rawRead at h
  split at h
  · cases h
  · rename_i hl
    have hl : g.length = c.size := Classical.not_not.1 hl
    cases h
    refine ⟨?_, ?_, ?_, ?_, ?_⟩
    · simp only [List.length_take]; omega
    · simp only [List.length_take, List.length_drop]; omega
    · simp only [List.length_take, List.length_drop]; omega
    · simp only [List.length_take, List.length_drop]; omega
    · have h3 : (g.drop (c.timestampBytes + c.prfBytes + c.nodeIdBytes)).take c.tickerBytes = g.drop (c.timestampBytes + c.prfBytes + c.nodeIdBytes) :=
        List.take_of_length_le (by simp only [List.length_drop]; omega)
      simp only [h3]
      simp only [← List.drop_drop, List.take_append_drop]

theorem sortKey_inj {c : RawConfig} (hc : c.Made) {g g' : Bytes} {x y : Container} (hx : rawRead c g = .ok x) (hy : rawRead c g' = .ok y)
    (h : x.sortKey = y.sortKey) : x = y ∧ g = g' := by
  obtain ⟨x1, x2, x3, x4, x5⟩ := rawRead_parts hc hx
  obtain ⟨y1, y2, y3, y4, y5⟩ := rawRead_parts hc hy
  unfold Container.sortKey at h
  obtain ⟨h, e4⟩ := List.append_inj' h (by omega)
  obtain ⟨h, e3⟩ := List.append_inj' h (by omega)
  obtain ⟨e1, e2⟩ := List.append_inj' h (by omega)
  refine ⟨by cases x; cases y; simp_all, ?_⟩
  rw [x5, y5, e1, e2, e3, e4]

theorem bytesLt_irrefl : ∀ a : Bytes, bytesLt a a = false
  | [] => rfl
  | a :: as => by simp [bytesLt, bytesLt_irrefl as]

theorem bytesLt_trans : ∀ {a b c : Bytes}, bytesLt a b = true → bytesLt b c = true → bytesLt a c = true
  | [], [], _, h, _ => by simp [bytesLt] at h
  | [], _ :: _, [], _, h => by simp [bytesLt] at h
  | [], _ :: _, _ :: _, _, _ => rfl
  | _ :: _, [], _, h, _ => by simp [bytesLt] at h
  | _ :: _, _ :: _, [], _, h => by simp [bytesLt] at h
  | a :: as, b :: bs, c :: cs, h, h' => by
    simp only [bytesLt, Bool.or_eq_true, decide_eq_true_eq, Bool.and_eq_true, beq_iff_eq] at h h' ⊢
    rcases h with h | ⟨h1, h2⟩ <;> rcases h' with h' | ⟨h3, h4⟩
    · exact .inl (by omega)
    · exact .inl (by omega)
    · exact .inl (by omega)
    · exact .inr ⟨by omega, bytesLt_trans h2 h4⟩

theorem bytesLt_total : ∀ {a b : Bytes}, bytesLt a b = false → bytesLt b a = false → a = b
  | [], [], _, _ => rfl
  | [], _ :: _, h, _ => by simp [bytesLt] at h
  | _ :: _, [], _, h => by simp [bytesLt] at h
  | a :: as, b :: bs, h, h' => by
    simp only [bytesLt, Bool.or_eq_false_iff, decide_eq_false_iff_not, Bool.and_eq_false_iff, beq_eq_false_iff_ne] at h h'
    have hab : a.toNat = b.toNat := by omega
    rcases h.2 with h1 | h1
    · exact absurd hab h1
    · rcases h'.2 with h2 | h2
      · exact absurd hab.symm h2
      · rw [UInt8.toNat_inj.1 hab, bytesLt_total h1 h2]

/-! ### the properties -/

/-- **C126** Two guids that were read with one config are equal exactly if they are the same bytes. -/
theorem C126_eq {c : RawConfig} (hc : c.Made) {g g' : Bytes} {x y : Container} (hx : rawRead c g = .ok x) (hy : rawRead c g' = .ok y) :
    x.eq y = true ↔ g = g' := by
  constructor
  · intro h
    exact (sortKey_inj hc hx hy (beq_iff_eq.1 h)).2
  · rintro rfl
    rw [hx] at hy
    cases hy
    exact beq_self_eq_true _

/-- **C126** Containers that are equal have equal hashes, whatever configs they are from. -/
theorem C126_hash {x y : Container} (h : x.eq y = true) : x.hash = y.hash := by
  unfold Container.hash
  rw [show x.sortKey = y.sortKey from beq_iff_eq.1 h]

/-- **C126** `<` is a strict total order with `==`, `>` is its converse, and these hold of containers of all configs together. -/
theorem C126_order (x y z : Container) : x.lt x = false ∧ (x.lt y = true → y.lt z = true → x.lt z = true) ∧ (x.lt y = true ∨ x.eq y = true ∨ y.lt x = true) ∧
    (x.lt y = true → y.lt x = false ∧ x.eq y = false) ∧ x.gt y = y.lt x := by
  refine ⟨bytesLt_irrefl _, bytesLt_trans, ?_, ?_, rfl⟩
  · by_cases h1 : x.lt y = true
    · exact .inl h1
    · by_cases h2 : y.lt x = true
      · exact .inr (.inr h2)
      · exact .inr (.inl (beq_iff_eq.2 (bytesLt_total (Bool.eq_false_iff.2 h1) (Bool.eq_false_iff.2 h2))))
  · intro h
    constructor
    · refine Bool.eq_false_iff.2 fun h2 => ?_
      have := bytesLt_trans h h2
      rw [bytesLt_irrefl] at this
      cases this
    · refine Bool.eq_false_iff.2 fun h2 => ?_
      have h3 : x.sortKey = y.sortKey := beq_iff_eq.1 h2
      unfold Container.lt at h
      rw [h3, bytesLt_irrefl] at h
      cases h

/-- **C126** Sorting the same guids always gives the same list, and its timestamps ascend. -/
theorem C126_sorted {c : RawConfig} (hc : c.Made) {l l' : List Container} (hl : ∀ x ∈ l, ∃ g, rawRead c g = .ok x) (h : InOrder l) (h' : InOrder l')
    (hp : l.Perm l') : l = l' ∧ l.Pairwise fun x y => fromBE x.timestamp ≤ fromBE y.timestamp := by
  constructor
  · refine List.Perm.eq_of_pairwise (le := fun x y => Container.lt y x = false) ?_ h h' hp
    intro x y hx hy h1 h2
    obtain ⟨g, hg⟩ := hl x hx
    obtain ⟨g', hg'⟩ := hl y (hp.mem_iff.2 hy)
    exact (sortKey_inj hc hg hg' (bytesLt_total h2 h1)).1
  · refine List.Pairwise.imp_of_mem ?_ h
    intro x y hx hy hlt
    obtain ⟨g, hg⟩ := hl x hx
    obtain ⟨g', hg'⟩ := hl y hy
    have hlen : y.timestamp.length = x.timestamp.length := by rw [(rawRead_parts hc hg).1, (rawRead_parts hc hg').1]
    refine Nat.le_of_not_lt fun hgt => ?_
    have h1 := (bytesLt_iff hlen).2 hgt
    unfold Container.lt Container.sortKey at hlt
    rw [List.append_assoc, List.append_assoc, List.append_assoc, List.append_assoc, bytesLt_append hlen, h1] at hlt
    simp at hlt

theorem find_read {c : RawConfig} (hc : c.Made) {f : Bytes → Container} {g : Bytes} {x : Container} (hg : rawRead c g = .ok x) : ∀ (ds : List Bytes),
    (∀ d ∈ ds, rawRead c d = .ok (f d)) → find (.guid x) (ds.map fun d => .guid (f d)) = .ok (decide (g ∈ ds))
  | [], _ => rfl
  | d :: ds, h => by
    have hd := h d (by simp)
    have ih := find_read hc hg ds fun e he => h e (by simp [he])
    simp only [List.map_cons, find, ih, Key.hash]
    by_cases hdg : d = g
    · subst hdg
      have : (f d).eq x = true := (C126_eq hc hd hg).2 rfl
      have hh := C126_hash this
      simp [hh, Key.eq, this, bind, Except.bind, pure, Except.pure]
    · have : (f d).eq x = false := Bool.eq_false_iff.2 fun h => hdg ((C126_eq hc hd hg).1 h)
      simp [Key.eq, this, bind, Except.bind, Ne.symm hdg]

/-- **C126** A set of guids that were read has one element for each different guid, and contains exactly the guids that were added. -/
theorem C126_set {c : RawConfig} (hc : c.Made) (f : Bytes → Container) (gs : List Bytes) (hf : ∀ g ∈ gs, rawRead c g = .ok (f g)) :
    ∃ ds : List Bytes, ds.Nodup ∧ (∀ g, g ∈ ds ↔ g ∈ gs) ∧ addAll [] (gs.map fun g => .guid (f g)) = .ok (ds.map fun d => .guid (f d)) ∧
      ∀ g x, rawRead c g = .ok x → find (.guid x) (ds.map fun d => .guid (f d)) = .ok (decide (g ∈ gs)) := by
  have key : ∀ (gs ds : List Bytes), (∀ g ∈ gs, rawRead c g = .ok (f g)) → (∀ d ∈ ds, rawRead c d = .ok (f d)) → ds.Nodup →
      ∃ es : List Bytes, es.Nodup ∧ (∀ g, g ∈ es ↔ g ∈ ds ∨ g ∈ gs) ∧ addAll (ds.map fun d => .guid (f d)) (gs.map fun g => .guid (f g)) = .ok (es.map fun d => .guid (f d)) := by
    intro gs
    induction gs with
    | nil => exact fun ds _ _ hn => ⟨ds, hn, by simp, rfl⟩
    | cons g gs ih =>
      intro ds hg hd hn
      have hfind := find_read hc (hg g (by simp)) ds hd
      by_cases hm : g ∈ ds
      · obtain ⟨es, e1, e2, e3⟩ := ih ds (fun x hx => hg x (by simp [hx])) hd hn
        refine ⟨es, e1, fun x => ?_, ?_⟩
        · rw [e2, List.mem_cons]
          constructor
          · rintro (h | h)
            · exact .inl h
            · exact .inr (.inr h)
          · rintro (h | rfl | h)
            · exact .inl h
            · exact .inl hm
            · exact .inr h
        · simp only [List.map_cons, addAll, add, hfind, hm, bind, Except.bind, pure, Except.pure, decide_true, if_true]
          exact e3
      · obtain ⟨es, e1, e2, e3⟩ := ih (ds ++ [g]) (fun x hx => hg x (by simp [hx]))
          (fun x hx => by
            rcases List.mem_append.1 hx with h | h
            · exact hd x h
            · rw [List.mem_singleton.1 h]; exact hg g (by simp))
          (by
            rw [List.nodup_append]
            refine ⟨hn, by simp, ?_⟩
            intro a ha b hb
            rw [List.mem_singleton.1 hb]
            rintro rfl
            exact hm ha)
        refine ⟨es, e1, fun x => ?_, ?_⟩
        · rw [e2, List.mem_append, List.mem_singleton, List.mem_cons, or_assoc]
        · simp only [List.map_cons, addAll, add, hfind, hm, bind, Except.bind, pure, Except.pure, decide_false, Bool.false_eq_true, if_false]
          simpa using e3
  obtain ⟨es, e1, e2, e3⟩ := key gs [] hf (by simp) (by simp)
  have e2 : ∀ g, g ∈ es ↔ g ∈ gs := by simpa using e2
  refine ⟨es, e1, e2, e3, fun g x hx => ?_⟩
  rw [find_read hc hx es fun d hd => hf d ((e2 d).1 hd)]
  simp only [e2]

/-- **C126** Guids of different sizes, of the configs of the package, are never equal. -/
theorem C126_sizes {size size' : Nat} {c c' : RawConfig} (hc : rawConfig size = .ok c) (hc' : rawConfig size' = .ok c') (hne : size ≠ size') {g g' : Bytes}
    {x y : Container} (hx : rawRead c g = .ok x) (hy : rawRead c' g' = .ok y) : x.eq y = false := by
  have hm : c.Made := by
    unfold rawConfig at hc
    split at hc
    · exact ⟨_, _, _, _, _, hc⟩
    · cases hc
  have hm' : c'.Made := by
    unfold rawConfig at hc'
    split at hc'
    · exact ⟨_, _, _, _, _, hc'⟩
    · cases hc'
  obtain ⟨rfl, h12, _⟩ := rawConfig_ok hc
  obtain ⟨rfl, h12', _⟩ := rawConfig_ok hc'
  obtain ⟨x1, x2, x3, x4, _⟩ := rawRead_parts hm hx
  obtain ⟨y1, y2, y3, y4, _⟩ := rawRead_parts hm' hy
  refine Bool.eq_false_iff.2 fun h => ?_
  have := congrArg List.length (beq_iff_eq.1 h : x.sortKey = y.sortKey)
  simp only [Container.sortKey, List.length_append, x1, x2, x3, x4, y1, y2, y3, y4] at this
  omega

/-- C126 is false of configs with other sizes of the fields: different guids can be equal. -/
theorem C126_configs : ∃ (c c' : RawConfig) (g g' : Bytes) (x y : Container), c.Made ∧ c'.Made ∧ rawRead c g = .ok x ∧ rawRead c' g' = .ok y ∧ g ≠ g' ∧ x.eq y = true :=
  ⟨⟨1, 1, 1, 1, 4⟩, ⟨2, 1, 0, 1, 4⟩, [1, 4, 2, 3], [1, 2, 4, 3], _, _, ⟨1, 1, 1, 1, 4, rfl⟩, ⟨2, 1, 0, 1, 4, rfl⟩, rfl, rfl, by decide, by decide⟩

/-- C126 is false of other objects: comparing a guid with one raises `AttributeError`, and so does looking a guid up among objects of the same hash. -/
theorem C126_other (x : Container) (id : Nat) (h : Nat) : Key.eq (.guid x) (.other h id) = .error .attribute ∧ Key.eq (.other h id) (.guid x) = .error .attribute ∧
    ∀ s, find (.guid x) (.other x.hash id :: s) = .error .attribute := by
  refine ⟨rfl, rfl, fun s => ?_⟩
  simp [find, Key.hash, Key.eq, bind, Except.bind]

/-! ### examples -/

/-- A config of four fields of one byte, and how it reads. -/
def sampleRaw : RawConfig := ⟨1, 1, 1, 1, 4⟩

theorem sampleRaw_made : sampleRaw.Made := ⟨1, 1, 1, 1, 4, rfl⟩

def sampleField (g : Bytes) : Container := ⟨g.take 1, (g.drop 1).take 1, (g.drop 2).take 1, (g.drop 3).take 1⟩

theorem sampleField_read {g : Bytes} (h : g.length = 4) : rawRead sampleRaw g = .ok (sampleField g) := by
  unfold rawRead
  rw [if_neg (by simp [sampleRaw, h])]
  rfl

/-- Three guids, two of them the same. -/
example : addAll [] ([[0, 1, 2, 3], [1, 1, 1, 1], [0, 1, 2, 3]].map fun g => .guid (sampleField g))
    = .ok ([[0, 1, 2, 3], [1, 1, 1, 1]].map fun g => .guid (sampleField g)) := by
  decide +kernel

example := C126_set sampleRaw_made sampleField [[0, 1, 2, 3], [1, 1, 1, 1], [0, 1, 2, 3]] (by
  intro g hg
  exact sampleField_read (by simp at hg; rcases hg with rfl | rfl | rfl <;> rfl))

/-- The order is that of timestamp, node, ticker and token. -/
example : InOrder ([[0, 9, 1, 1], [0, 5, 1, 2], [1, 0, 0, 0]].map sampleField) := by
  unfold InOrder
  decide +kernel

example : rawConfig 16 = .ok ⟨8, 6, 1, 1, 16⟩ ∧ rawConfig 17 = .ok ⟨8, 7, 1, 1, 17⟩ := ⟨rfl, rfl⟩

end Aiootp.Ids
