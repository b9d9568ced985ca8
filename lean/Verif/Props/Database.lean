import Verif.Lemmas.DatabaseSave
import Mathlib.Logic.Encodable.Basic
import Mathlib.Logic.Equiv.List

/-!
C40, C41 (one database), C42, C45: databases without metatags.

The specification is `View` (Spec/Database.lean): every tag has a current and a saved value, and `View.after` says what each call does
to them. `T` is the set of tags in use; `Apart` says that their file names, which are 24-byte hashes, differ.
-/

namespace Aiootp.Database

variable {ρ J : Type} {E : Env ρ J} {good : ρ → Prop} {T : String → Prop} {key salt : Bytes}

/-! ### a sample -/

section
/-- A manifest as a number. -/
def Manifest.toTuple (m : Manifest) : List Nat × List (List Nat) × List (List Nat × List Nat) :=
  (m.salt.map UInt8.toNat, m.metatags.map (fun s => s.toList.map Char.toNat), m.files.map (fun p => (p.1.toList.map Char.toNat, p.2.toList.map Char.toNat)))

def Manifest.ofTuple (x : List Nat × List (List Nat) × List (List Nat × List Nat)) : Manifest :=
  ⟨x.1.map UInt8.ofNat, x.2.1.map (fun s => String.ofList (s.map Char.ofNat)),
    x.2.2.map (fun p => (String.ofList (p.1.map Char.ofNat), String.ofList (p.2.map Char.ofNat)))⟩

theorem string_back (s : String) : String.ofList ((s.toList.map Char.toNat).map Char.ofNat) = s := by
  rw [List.map_map]
  have : (Char.ofNat ∘ Char.toNat) = id := by funext c; simp
  rw [this, List.map_id, String.ofList_toList]

theorem Manifest.back (m : Manifest) : Manifest.ofTuple m.toTuple = m := by
  obtain ⟨a, b, c⟩ := m
  simp only [Manifest.ofTuple, Manifest.toTuple, Manifest.mk.injEq]
  refine ⟨?_, ?_, ?_⟩
  · rw [List.map_map]
    have : (UInt8.ofNat ∘ UInt8.toNat) = id := by funext c; simp
    rw [this, List.map_id]
  · rw [List.map_map]
    conv_rhs => rw [← List.map_id b]
    exact List.map_congr_left (fun s _ => string_back s)
  · rw [List.map_map]
    conv_rhs => rw [← List.map_id c]
    exact List.map_congr_left (fun p _ => by simp only [Function.comp, string_back]; rfl)

/-- A sample: ciphertexts are the plaintexts after a byte 7, values are booleans. -/
def sampleEnv : Env Unit Bool where
  rootName _ := "root"
  manifestKey _ := List.replicate 64 1
  fileName _ _ tag := "file of " ++ tag
  fileKey _ _ _ := List.replicate 64 2
  metaKey _ _ _ := List.replicate 64 3
  encrypt _ _ text := 7 :: text
  decrypt _ _ _ c := match c with | 7 :: text => .ok text | _ => .error .value
  dumps b := .ok [if b then 5 else 6]
  loads text := if text = [5] then .ok true else if text = [6] then .ok false else .error .value
  dumpManifest m := List.replicate (Encodable.encode m.toTuple) 0
  loadManifest text := match Encodable.decode text.length with | some x => .ok (Manifest.ofTuple x) | none => .error .value

theorem sampleEnv_law : sampleEnv.Law (fun _ => True) where
  back := by intros; rfl
  same := by intro key r text _ _ now ttl x h; cases h; rfl
  nonempty := by intro key r text _ _ h; cases h
  fileKey := by intros; simp [KeySize, sampleEnv]
  manifestKey := by intros; simp [KeySize, sampleEnv]
  metaKey := by intros; simp [sampleEnv]
  manifest := by intro m _; simp only [sampleEnv, List.length_replicate, Encodable.encodek, Manifest.back]

theorem sampleEnv_storable (v : Value Bool) : Storable sampleEnv v := by
  cases v with
  | bytes b => exact ⟨bytesFlag ++ b, rfl, by simp [decodeValue, bytesFlag]⟩
  | json b => cases b <;> exact ⟨_, rfl, by decide⟩

theorem sampleEnv_apart (T : String → Prop) (key salt : Bytes) : Apart sampleEnv T key salt where
  inj t u _ _ h := by
    have := congrArg String.toList h
    simp [sampleEnv] at this
    exact String.toList_inj.1 this
  root t _ h := by
    have := congrArg String.toList h
    simp [sampleEnv] at this
  plain t _ := by
    constructor <;> intro h <;> have := congrArg String.toList h <;> simp [sampleEnv] at this
  rootPlain := by simp [sampleEnv]

/-- A history: two tags, one saved with the database, one saved at once, and an unsaved change. -/
def sampleOps : List (Op Unit Bool) :=
  [.set "a" (.json true) true (), .save (fun _ => ()), .set "b" (.bytes [1, 2, 3]) false (), .set "a" (.json false) true (), .query "a" none false true 0]

theorem sampleOps_allowed : ∀ op ∈ sampleOps, op.Allowed sampleEnv (fun _ => True) (fun _ => True) := by
  intro op hop
  simp only [sampleOps, List.mem_cons, List.not_mem_nil, or_false] at hop
  rcases hop with rfl | rfl | rfl | rfl | rfl <;> simp [Op.Allowed, sampleEnv_storable]
end

/-! ### C40 -/

/-- **C40** After every history of calls on a new database, a query returns the current value of the tag, and a missing tag is a
`LookupError`, or `None` for a silent query. -/
theorem C40_query (law : E.Law good) (hap : Apart E T key salt) (hk : 64 ≤ key.length) {disk : Disk} (hroot : disk (E.rootName key) = none)
    (hfree : ∀ t, T t → disk (E.fileName key salt t) = none) {n : Node J} {now₀ : Int} (hn : openNode E disk key salt now₀ = .ok n)
    (ops : List (Op ρ J)) (hops : ∀ op ∈ ops, op.Allowed E good T) {t : String} (ht : T t) (silent cache : Bool) (now : Int) :
    let s := Sys.run E ⟨n, disk⟩ ops
    (s.node.queryTag E s.disk t none silent cache now).1 = answer silent ((ops.foldl View.after View.empty).current t) := by
  rw [openNode_new hk hroot] at hn
  cases hn
  have h := (Rep.new (J := J) hap hfree).run law hops
  have := (query_result law h ht none silent cache now).2.2.1 rfl
  simp only [this]
  cases (ops.foldl View.after View.empty).current t <;> rfl

/-- **C40** With a time to live, a query raises or returns the same. -/
theorem C40_query_ttl (law : E.Law good) (hap : Apart E T key salt) (hk : 64 ≤ key.length) {disk : Disk} (hroot : disk (E.rootName key) = none)
    (hfree : ∀ t, T t → disk (E.fileName key salt t) = none) {n : Node J} {now₀ : Int} (hn : openNode E disk key salt now₀ = .ok n)
    (ops : List (Op ρ J)) (hops : ∀ op ∈ ops, op.Allowed E good T) {t : String} (ht : T t) (ttl : Option Int) (silent cache : Bool) (now : Int) :
    let s := Sys.run E ⟨n, disk⟩ ops
    ∀ x, (s.node.queryTag E s.disk t ttl silent cache now).1 = .ok x → x = (ops.foldl View.after View.empty).current t := by
  rw [openNode_new hk hroot] at hn
  cases hn
  have h := (Rep.new (J := J) hap hfree).run law hops
  obtain ⟨h1, h2, _⟩ := query_result law h ht ttl silent cache now
  intro s x hx
  cases x with
  | none => exact (h2 hx).1.symm
  | some x => exact (h1 x hx).symm

/-- **C40** `pop_tag` returns the current value; it raises only for a tag without a value. -/
theorem C40_pop (law : E.Law good) (hap : Apart E T key salt) (hk : 64 ≤ key.length) {disk : Disk} (hroot : disk (E.rootName key) = none)
    (hfree : ∀ t, T t → disk (E.fileName key salt t) = none) {n : Node J} {now₀ : Int} (hn : openNode E disk key salt now₀ = .ok n)
    (ops : List (Op ρ J)) (hops : ∀ op ∈ ops, op.Allowed E good T) {t : String} (ht : T t) (silent : Bool) (now : Int) :
    let s := Sys.run E ⟨n, disk⟩ ops
    let x := (ops.foldl View.after View.empty).current t
    (s.node.popTag E s.disk t silent now).1 = .ok x ∨
    x = none ∧ silent = false ∧ (s.node.popTag E s.disk t silent now).1 = .error .key := by
  rw [openNode_new hk hroot] at hn
  cases hn
  have h := (Rep.new (J := J) hap hfree).run law hops
  have hq := (query_result law h ht none true false now).2.2.1 rfl
  intro s x
  cases hx : x with
  | none =>
    simp only [show (List.foldl View.after View.empty ops).current t = none from hx] at hq
    simp only [Node.popTag, s, hq, if_true]
    split
    · rename_i hf
      refine .inr ⟨trivial, ?_, rfl⟩
      simp only [Bool.and_eq_true, Bool.not_eq_true'] at hf
      exact hf.2
    · exact .inl rfl
  | some y =>
    simp only [show (List.foldl View.after View.empty ops).current t = some y from hx] at hq
    have hl := h.listed t ht (.inl (by rw [show (List.foldl View.after View.empty ops).current t = some y from hx]; rfl))
    refine .inl ?_
    simp only [Node.popTag, s, hq, h.filename, hl]
    simp

/-- **C40** A call on one tag never changes what another gives. -/
theorem C40_other_tags (law : E.Law good) (hap : Apart E T key salt) (hk : 64 ≤ key.length) {disk : Disk} (hroot : disk (E.rootName key) = none)
    (hfree : ∀ t, T t → disk (E.fileName key salt t) = none) {n : Node J} {now₀ : Int} (hn : openNode E disk key salt now₀ = .ok n)
    (ops : List (Op ρ J)) (hops : ∀ op ∈ ops, op.Allowed E good T) (op : Op ρ J) (hop : op.Allowed E good T) {t u : String} (ht : T t)
    (hu : op.tag? = some u) (htu : t ≠ u) (silent cache : Bool) (now : Int) :
    let s := Sys.run E ⟨n, disk⟩ ops
    ((s.step E op).node.queryTag E (s.step E op).disk t none silent cache now).1 = (s.node.queryTag E s.disk t none silent cache now).1 := by
  rw [openNode_new hk hroot] at hn
  cases hn
  have h := (Rep.new (J := J) hap hfree).run law hops
  have h' := h.step law hop
  have hq := (query_result law h ht none silent cache now).2.2.1 rfl
  have hq' := (query_result law h' ht none silent cache now).2.2.1 rfl
  simp only [hq, hq']
  have hv : ((List.foldl View.after View.empty ops).after op).current t = (List.foldl View.after View.empty ops).current t := by
    cases op <;> simp only [Op.tag?, Option.some.injEq, reduceCtorEq] at hu
    case set t' x c r => subst hu; cases c <;> simp only [View.after, setAt_other _ _ htu]
    case query => rfl
    all_goals subst hu; simp only [View.after, setAt_other _ _ htu]
  rw [hv]

example : ((sampleOps.foldl View.after View.empty).current "a", (sampleOps.foldl View.after View.empty).saved "a",
    (sampleOps.foldl View.after View.empty).current "b", (sampleOps.foldl View.after View.empty).current "c") =
    (some (.json false), some (.json true), some (.bytes [1, 2, 3]), none) := by decide

example (silent cache : Bool) (now : Int) :
    let s := Sys.run sampleEnv ⟨⟨List.replicate 64 0, ⟨[9], [], []⟩, []⟩, fun _ => none⟩ sampleOps
    (s.node.queryTag sampleEnv s.disk "b" none silent cache now).1 = .ok (some (.bytes [1, 2, 3])) :=
  C40_query (T := fun _ => True) sampleEnv_law (sampleEnv_apart _ _ _) (by simp) rfl (fun _ _ => rfl) (openNode_new (by simp) rfl 0)
    sampleOps sampleOps_allowed trivial silent cache now

/-- **C40**, a limit of the claim: a cached value is returned whatever the time to live. -/
theorem C40_cached_ignores_ttl (n : Node J) (disk : Disk) (t : String) (x : Value J) (r : ρ) (ttl : Option Int) (silent cache : Bool) (now : Int) :
    ((n.setTag E t x true r).2.1.queryTag E disk t ttl silent cache now).1 = .ok (some x) := by
  simp [Node.setTag, Node.queryTag, Node.filename, Dict.get_set]

/-- **C40**, a limit of the claim: `set_tag(cache=False)` of a value that JSON cannot represent raises, but the earlier cached value of the
tag is gone, and the tag is listed even if it never had a value. -/
theorem C40_failed_set (n : Node J) (disk : Disk) (t : String) (j : J) (r : ρ) {e : Err} (hj : E.dumps j = .error e) :
    let x := n.setTag E t (.json j) false r
    (∃ e', x.1 = .error e') ∧ x.2.2 = [] ∧ x.2.1.contains E t = true ∧ x.2.1.getItem E t = none := by
  have : ∃ e', (n.setTag E t (.json j) false r) = (.error e', { n with
      cache := (n.cache.set (n.filename E t) (.json j)).del (n.filename E t), man := { n.man with files := n.man.files.set (n.filename E t) t } }, []) := by
    simp only [Node.setTag, Node.saveTag, Node.saveFile, Node.filename, Dict.get_set, if_true, encodeValue, hj, bind, Except.bind]
    cases e <;> simp
  obtain ⟨e', h⟩ := this
  simp only [h]
  refine ⟨⟨e', rfl⟩, trivial, ?_, ?_⟩
  · simp [Node.contains, Node.filename, Dict.get_set]
  · simp [Node.getItem, Node.filename, Dict.get_del]

/-! ### C45 -/

/-- **C45** At all times `tag in db` is true for the tags of `db.tags` only, no tag is listed twice, `len(db)` counts them, and every tag
with a value is listed. -/
theorem C45_views_partial (law : E.Law good) (hap : Apart E T key salt) (hk : 64 ≤ key.length) {disk : Disk} (hroot : disk (E.rootName key) = none)
    (hfree : ∀ t, T t → disk (E.fileName key salt t) = none) {n : Node J} {now₀ : Int} (hn : openNode E disk key salt now₀ = .ok n)
    (ops : List (Op ρ J)) (hops : ∀ op ∈ ops, op.Allowed E good T) :
    let s := Sys.run E ⟨n, disk⟩ ops
    (∀ t, T t → (s.node.contains E t = true ↔ t ∈ s.node.tags)) ∧
    s.node.tags.Nodup ∧ s.node.len = s.node.tags.length ∧
    (∀ t, T t → ∀ x ttl silent cache now, (s.node.queryTag E s.disk t ttl silent cache now).1 = .ok (some x) → t ∈ s.node.tags) ∧
    (∀ t, T t → ∀ x, s.node.getItem E t = some x → ∀ ttl silent cache now, (s.node.queryTag E s.disk t ttl silent cache now).1 = .ok (some x)) := by
  rw [openNode_new hk hroot] at hn
  cases hn
  have h := (Rep.new (J := J) hap hfree).run law hops
  generalize Sys.run E _ ops = s at h
  generalize List.foldl View.after View.empty ops = v at h
  have hmem : ∀ t, T t → (s.node.man.files.get (E.fileName key salt t) = some t ↔ t ∈ s.node.tags) := by
    intro t ht
    simp only [Node.tags, List.mem_map]
    constructor
    · exact fun hx => ⟨_, (Dict.mem_iff h.nodup).2 hx, rfl⟩
    · rintro ⟨⟨f, u⟩, hm, rfl⟩
      have := (Dict.mem_iff h.nodup).1 hm
      rw [← (h.fileNames f u this).2]
      exact this
  have hfile : ∀ t, T t → ∀ u, s.node.man.files.get (E.fileName key salt t) = some u → u = t := by
    intro t ht u hu
    obtain ⟨hTu, he⟩ := h.fileNames _ _ hu
    exact (h.apart.inj t u ht hTu he).symm
  refine ⟨fun t ht => ?_, ?_, by simp [Node.len, Node.tags], fun t ht x ttl silent cache now hx => ?_, fun t ht x hx ttl silent cache now => ?_⟩
  · rw [← hmem t ht]
    simp only [Node.contains, h.filename, Bool.or_eq_true, Option.isSome_iff_exists]
    constructor
    · rintro (⟨u, hu⟩ | ⟨x, hx⟩)
      · rw [hu, hfile t ht u hu]
      · exact h.listed t ht (.inl (by rw [(h.cached t ht x hx).1]; rfl))
    · exact fun hx => .inl ⟨t, hx⟩
  · have hnd := h.nodup
    have : s.node.man.files.names = s.node.tags.map (E.fileName key salt) := by
      simp only [Dict.names, Node.tags, List.map_map]
      refine List.map_congr_left fun p hp => ?_
      exact (h.fileNames p.1 p.2 ((Dict.mem_iff hnd).1 hp)).2
    rw [this] at hnd
    exact List.Nodup.of_map _ hnd
  · refine (hmem t ht).1 (h.listed t ht (.inl ?_))
    rw [(query_result law h ht ttl silent cache now).1 x hx]; rfl
  · simp only [Node.getItem, h.filename] at hx
    simp [Node.queryTag, h.filename, hx]

example : let s := Sys.run sampleEnv ⟨⟨List.replicate 64 0, ⟨[9], [], []⟩, []⟩, fun _ => none⟩ sampleOps
    s.node.tags.Nodup ∧ s.node.len = s.node.tags.length :=
  let h := C45_views_partial (T := fun _ => True) sampleEnv_law (sampleEnv_apart _ _ _) (by simp) rfl (fun _ _ => rfl) (openNode_new (by simp) rfl 0)
    sampleOps sampleOps_allowed
  ⟨h.2.1, h.2.2.1⟩

/-- **C45** is false: a tag that is set and then cleared from the cache is still listed, but has no value. -/
theorem C45_listed_without_value (hk : 64 ≤ key.length) {disk : Disk} (hroot : disk (E.rootName key) = none)
    (hfree : ∀ t, T t → disk (E.fileName key salt t) = none) {n : Node J} {now₀ : Int} (hn : openNode E disk key salt now₀ = .ok n)
    {t : String} (ht : T t) (x : Value J) (r : ρ) (cache : Bool) (now : Int) :
    let s := Sys.run E ⟨n, disk⟩ [.set t x true r, .clearCache]
    s.node.contains E t = true ∧ t ∈ s.node.tags ∧ (s.node.queryTag E s.disk t none false cache now).1 = .error .key := by
  rw [openNode_new hk hroot] at hn
  cases hn
  have := hfree t ht
  simp [Sys.run, Sys.step, Op.run, Node.setTag, Node.clearCache, Node.contains, Node.tags, Node.queryTag, Node.filename, Dict.set, Dict.get,
    Disk.applyAll, this]

/-- **C45** is false: `db[tag]` is empty for a saved tag that is not in the cache. -/
theorem C45_getitem_only_cache (n : Node J) (disk : Disk) (t : String) (x : Value J) (r : ρ) :
    let s := Sys.run E ⟨n, disk⟩ [.set t x false r]
    s.node.contains E t = true ∧ s.node.getItem E t = none := by
  have : ∀ (m : Node J), (m.saveTag E t true r).2.1 = { m with cache := m.cache.del (m.filename E t) } := by
    intro m
    simp only [Node.saveTag]
    split <;> rfl
  simp only [Sys.run, Sys.step, Op.run, Node.setTag, if_neg (by decide : ¬ (false = true)), this]
  simp [Node.contains, Node.getItem, Node.filename, Dict.get_set, Dict.get_del]

/-! ### C41 (one database) -/

/-- **C41** A database without metatags that is opened again after a save has the same tags, and the same value for each. -/
theorem C41_one_database (law : E.Law good) (hap : Apart E T key salt) (hk : 64 ≤ key.length) {disk : Disk} (hroot : disk (E.rootName key) = none)
    (hfree : ∀ t, T t → disk (E.fileName key salt t) = none) {n : Node J} {now₀ : Int} (hn : openNode E disk key salt now₀ = .ok n)
    (ops : List (Op ρ J)) (hops : ∀ op ∈ ops, op.Allowed E good T) (rs : String → ρ) (hrs : ∀ name, good (rs name)) (salt' : Bytes) (now₁ : Int) :
    let s := Sys.run E ⟨n, disk⟩ ops
    let s' := s.step E (.save rs)
    ∃ m, openNode E s'.disk key salt' now₁ = .ok m ∧ m.tags = s.node.tags ∧
      ∀ t, T t → ∀ silent cache now, (m.queryTag E s'.disk t none silent cache now).1 = (s.node.queryTag E s.disk t none silent cache now).1 := by
  rw [openNode_new hk hroot] at hn
  cases hn
  have h := (Rep.new (J := J) hap hfree).run law hops
  generalize Sys.run E _ ops = s at h
  generalize List.foldl View.after View.empty ops = v at h
  have hs := h.step law (op := .save rs) hrs
  intro s₁ s'
  have hkn : s.node.key = key := h.hkey
  have hroot' : s'.disk (E.rootName key) = some (E.encrypt (E.manifestKey key) (rs (E.rootName key)) (E.dumpManifest s.node.man)) := by
    have := h.save_root (rs := rs) s.node.cache (fun p hp => Dict.get_of_mem (v := p.2) hp)
    simp only [← this, s', s₁, Sys.step, Op.run, Node.save, hkn]
  have hopen := openManifest_put law h.sound (hrs _) hroot' salt' now₁
  refine ⟨⟨key, s.node.man, []⟩, by simp [openNode, hopen, raiseIf, Nat.not_lt.2 hk, bind, Except.bind], rfl, ?_⟩
  intro t ht silent cache now
  rw [query_stored law (n := ⟨key, s.node.man, []⟩) (key := key) (salt := salt) rfl h.hsalt rfl (hs.stored t ht)]
  simp only [s₁]
  rw [(query_result law h ht none silent cache now).2.2.1 rfl]
  simp only [View.after]
  cases v.current t <;> rfl

example : let s := Sys.run sampleEnv ⟨⟨List.replicate 64 0, ⟨[9], [], []⟩, []⟩, fun _ => none⟩ sampleOps
    ∃ m, openNode sampleEnv (s.step sampleEnv (.save (fun _ => ()))).disk (List.replicate 64 0) [8] 5 = .ok m ∧ m.tags = s.node.tags :=
  let ⟨m, h1, h2, _⟩ := C41_one_database (T := fun _ => True) sampleEnv_law (sampleEnv_apart _ _ _) (by simp) rfl (fun _ _ => rfl) (openNode_new (by simp) rfl 0)
    sampleOps sampleOps_allowed (fun _ => ()) (fun _ => trivial) [8] 5
  ⟨m, h1, h2⟩

/-! ### C42 -/

/-- **C42** If the process dies between two file writes of a save, or before or after them, then the database opens again, and each tag
has its old or its new value.

What is missing: the database must have been saved before (`hman`), see `C42_never_saved`; and each write is done or not done, see
`C42_torn_manifest` and `C42_torn_file`. -/
theorem C42_crash_partial (law : E.Law good) (hap : Apart E T key salt) (hk : 64 ≤ key.length) {disk : Disk} (hroot : disk (E.rootName key) = none)
    (hfree : ∀ t, T t → disk (E.fileName key salt t) = none) {n : Node J} {now₀ : Int} (hn : openNode E disk key salt now₀ = .ok n)
    (ops : List (Op ρ J)) (hops : ∀ op ∈ ops, op.Allowed E good T) (rs : String → ρ) (hrs : ∀ name, good (rs name)) (salt' : Bytes) (now₁ : Int)
    {man : Manifest} (hman : openManifest E (Sys.run E ⟨n, disk⟩ ops).disk key salt' now₁ = .ok man) (hsalt : man.salt = salt) (writes : Nat) :
    let s := Sys.run E ⟨n, disk⟩ ops
    let crashed := s.disk.applyAll ((s.node.save E rs).2.take writes)
    ∃ m, openNode E crashed key salt' now₁ = .ok m ∧ (m.tags = man.files.map (·.2) ∨ m.tags = s.node.tags) ∧
      ∀ t, T t → ∀ silent cache now,
        (m.queryTag E crashed t none silent cache now).1 = answer silent ((ops.foldl View.after View.empty).saved t) ∨
        (m.queryTag E crashed t none silent cache now).1 = answer silent ((ops.foldl View.after View.empty).current t) := by
  rw [openNode_new hk hroot] at hn
  cases hn
  have h := (Rep.new (J := J) hap hfree).run law hops
  generalize Sys.run E _ ops = s at h hman
  generalize List.foldl View.after View.empty ops = v at h
  have hkn : s.node.key = key := h.hkey
  intro s₁ crashed
  cases hw : writes with
  | zero =>
    have hc : crashed = s.disk := by simp [crashed, hw, s₁, Disk.applyAll]
    refine ⟨⟨key, man, []⟩, by simp [hc, openNode, hman, raiseIf, Nat.not_lt.2 hk, bind, Except.bind], .inl rfl, ?_⟩
    intro t ht silent cache now
    refine .inl ?_
    rw [hc, query_stored law (key := key) (salt := salt) rfl hsalt rfl (h.stored t ht)]
  | succ k =>
    have hget : ∀ p ∈ s.node.cache.take k, ∃ x, s.node.cache.get p.1 = some x :=
      fun p hp => Dict.get_of_mem (v := p.2) (List.mem_of_mem_take hp)
    have hc : crashed = s.disk.applyAll (s.node.manifestWrite E (rs (E.rootName key)) :: (s.node.saveTags E rs (s.node.cache.take k)).2) := by
      simp only [crashed, hw, s₁, Node.save, hkn, List.take_succ_cons]
      rw [h.saveTags_take _ _ (fun p hp => Dict.get_of_mem (v := p.2) hp)]
    have hr := h.save_root (rs := rs) (s.node.cache.take k) hget
    rw [← hc] at hr
    have hm := h.manifested (E.encrypt (E.manifestKey key) (rs (E.rootName key)) (E.dumpManifest s.node.man))
    obtain ⟨w, _, hrep, _, hold, _⟩ := Rep.saveTags law hrs (s.node.cache.take k) _ _ hm hget
    have hopen := openManifest_put law h.sound (hrs _) hr salt' now₁
    refine ⟨⟨key, s.node.man, []⟩, by simp [openNode, hopen, raiseIf, Nat.not_lt.2 hk, bind, Except.bind], .inr rfl, ?_⟩
    intro t ht silent cache now
    have hd : (Disk.applyAll (s.disk.apply (.put (E.rootName key) (E.encrypt (E.manifestKey key) (rs (E.rootName key)) (E.dumpManifest s.node.man))))
        (s.node.saveTags E rs (s.node.cache.take k)).2) = crashed := by
      rw [hc]; simp [Disk.applyAll, Node.manifestWrite, hkn]
    have hst := hrep.stored t ht
    simp only [hd] at hst
    have hq := query_stored law (n := ⟨key, s.node.man, []⟩) (key := key) (salt := salt) rfl h.hsalt rfl hst silent cache now
    rw [hq]
    rcases hold t ht with ho | ho
    · rw [ho]; exact .inl rfl
    · rw [ho]; exact .inr rfl

/-- The hypotheses of `C42_crash_partial` hold for a saved database. -/
example : ∃ man, openManifest sampleEnv (Sys.run sampleEnv ⟨⟨List.replicate 64 0, ⟨[9], [], []⟩, []⟩, fun _ => none⟩ (sampleOps.take 2)).disk
    (List.replicate 64 0) [8] 5 = .ok man ∧ man.salt = [9] := by
  refine ⟨⟨[9], [], [("file of a", "a")]⟩, ?_, rfl⟩
  refine openManifest_put (r := ()) sampleEnv_law ⟨by decide, by decide, by decide⟩ trivial ?_ [8] 5
  rfl

/-- **C42** is false of a database that was never saved: a value that `set_tag(cache=False)` wrote is lost if the process dies before the
first write of the save, because the salt that the names of the files depend on is not on the disk yet. -/
theorem C42_never_saved (law : E.Law good) (hap : Apart E T key salt) (hk : 64 ≤ key.length) {disk : Disk} (hroot : disk (E.rootName key) = none)
    (hfree : ∀ t, T t → disk (E.fileName key salt t) = none) {n : Node J} {now₀ : Int} (hn : openNode E disk key salt now₀ = .ok n)
    {t : String} (ht : T t) (x : Value J) (hx : Storable E x) (r : ρ) (hr : good r) (salt' : Bytes) (now₁ : Int)
    (hnew : E.fileName key salt' t ≠ E.fileName key salt t) (hnone : disk (E.fileName key salt' t) = none) :
    let s := Sys.run E ⟨n, disk⟩ [.set t x false r]
    (∀ silent cache now, (s.node.queryTag E s.disk t none silent cache now).1 = .ok (some x)) ∧
    ∃ m, openNode E s.disk key salt' now₁ = .ok m ∧ m.tags = [] ∧
      ∀ cache now, (m.queryTag E s.disk t none false cache now).1 = .error .key := by
  have hops : ∀ op ∈ [Op.set t x false r], op.Allowed E good T := by simp [Op.Allowed, ht, hx, hr]
  intro s
  refine ⟨fun silent cache now => ?_, ?_⟩
  · rw [C40_query law hap hk hroot hfree hn _ hops ht]
    simp [View.after, setAt_same, answer]
  · rw [openNode_new hk hroot] at hn
    cases hn
    obtain ⟨text, htext, _⟩ := hx
    have hdisk : s.disk = disk.apply (.put (E.fileName key salt t) (E.encrypt (E.fileKey key salt (E.fileName key salt t)) r text)) := by
      simp [s, Sys.run, Sys.step, Op.run, Node.setTag, Node.saveTag, Node.saveFile, Node.filename, Dict.set, Dict.get, htext, bind, Except.bind,
        Disk.applyAll]
    have hr0 : s.disk (E.rootName key) = none := by
      rw [hdisk, apply_other]
      · exact hroot
      · simp only [Write.name]; exact fun he => hap.root t ht he.symm
    have ht0 : s.disk (E.fileName key salt' t) = none := by
      rw [hdisk, apply_other]
      · exact hnone
      · exact hnew
    refine ⟨_, openNode_new hk hr0 now₁, rfl, fun cache now => ?_⟩
    simp [Node.queryTag, Node.filename, Dict.get, ht0]

/-- **C42** is false if a write can stop after the file was made empty: the database cannot be opened any more, although it was saved
before. (Empty ciphertexts are refused, see `C25`.) -/
theorem C42_torn_manifest (hempty : ∀ k now ttl, ∃ e, E.decrypt k now ttl [] = .error e) (disk : Disk) (key salt' : Bytes) (now : Int) :
    ∃ e, openNode E (disk.apply (.put (E.rootName key) [])) key salt' now = (.error e : Except Err (Node J)) := by
  obtain ⟨e, he⟩ := hempty (E.manifestKey key) now none
  simp only [openNode, openManifest, Disk.apply, if_true, he, raiseIf]
  split <;> exact ⟨_, rfl⟩

/-- **C42** is false if a write can stop after the file was made empty: the tag has the value `None`, also for a query that is not silent. -/
theorem C42_torn_file (n : Node J) (disk : Disk) (t : String) (hc : n.cache.get (n.filename E t) = none) (ttl : Option Int) (silent cache : Bool) (now : Int) :
    (n.queryTag E (disk.apply (.put (n.filename E t) [])) t ttl silent cache now).1 = .ok none := by
  simp [Node.queryTag, hc, Disk.apply]

/-- A crash after the manifest was written, and before the file of a new tag: the reopened database lists a tag that it has no value for. -/
theorem C42_listed_without_file (law : E.Law good) (hap : Apart E T key salt) (hk : 64 ≤ key.length) {disk : Disk} (hroot : disk (E.rootName key) = none)
    (hfree : ∀ t, T t → disk (E.fileName key salt t) = none) {n : Node J} {now₀ : Int} (hn : openNode E disk key salt now₀ = .ok n)
    {t : String} (ht : T t) (x : Value J) (r : ρ) (rs : String → ρ) (hrs : ∀ name, good (rs name)) (salt' : Bytes) (now₁ : Int) :
    let s := Sys.run E ⟨n, disk⟩ [.set t x true r]
    let crashed := s.disk.applyAll ((s.node.save E rs).2.take 1)
    ∃ m, openNode E crashed key salt' now₁ = .ok m ∧ m.contains E t = true ∧
      ∀ cache now, (m.queryTag E crashed t none false cache now).1 = .error .key := by
  rw [openNode_new hk hroot] at hn
  cases hn
  intro s crashed
  have hc : crashed = disk.apply (s.node.manifestWrite E (rs (E.rootName key))) := by
    simp [crashed, s, Node.save, Sys.run, Sys.step, Op.run, Node.setTag, Disk.applyAll]
  have hkey : s.node.key = key := by simp [s, Sys.run, Sys.step, Op.run, Node.setTag]
  have hsound : s.node.man.Sound := by
    have hp := hap.plain t ht
    have hf : s.node.man.files = [(E.fileName key salt t, t)] := by
      simp [s, Sys.run, Sys.step, Op.run, Node.setTag, Node.filename, Dict.set]
    exact ⟨by simp [hf], by simp [hf, hp.1], by simp [hf, hp.2]⟩
  have hopen := openManifest_put law hsound (hrs (E.rootName key)) (disk := crashed) (man := s.node.man) (key := key)
    (by simp [hc, Node.manifestWrite, hkey, Disk.apply]) salt' now₁
  refine ⟨⟨key, s.node.man, []⟩, by simp [openNode, hopen, raiseIf, Nat.not_lt.2 hk, bind, Except.bind], ?_, ?_⟩
  · simp [s, Node.contains, Node.filename, Sys.run, Sys.step, Op.run, Node.setTag, Dict.set, Dict.get]
  · intro cache now
    have : crashed (E.fileName key salt t) = none := by
      rw [hc, apply_other]
      · exact hfree t ht
      · simp only [Node.manifestWrite, Write.name, hkey]; exact hap.root t ht
    have hs : s.node.man.salt = salt := by simp [s, Sys.run, Sys.step, Op.run, Node.setTag]
    simp [Node.queryTag, Node.filename, Dict.get, hs, this]

end Aiootp.Database
