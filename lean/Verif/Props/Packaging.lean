import Verif.Model.Packaging
import Verif.Props.Signer

/-
Property C120: what can be imported.
-/

namespace Aiootp.Packaging

open Package (Dict lookup_set Latest mem_update update_append keys_update keys_nil mem_of_lookup)

/-! ### The specification -/

/-- `__name__`. -/
def Pkg.name : Pkg → String
  | .mk name _ _ _ => name

/-- `module_api`. -/
def Pkg.api : Pkg → Dict Value
  | .mk _ api _ _ => api

/-- `modules`. -/
def Pkg.mods : Pkg → List (String × Module)
  | .mk _ _ _ mods => mods

/-- The items of `subpackages`. -/
def Subs.list : Subs → List (String × Pkg)
  | .nil => []
  | .cons key p rest => (key, p) :: rest.list

/-- `subpackages`. -/
def Pkg.subs : Pkg → List (String × Pkg)
  | .mk _ _ subs _ => subs.list

/-- The package itself, its subpackages, theirs, and so on. -/
inductive Within : Pkg → Pkg → Prop
  | self (p : Pkg) : Within p p
  | sub {p q r : Pkg} {key : String} : (key, q) ∈ p.subs → Within r q → Within r p

mutual
/-- The names of all packages and modules. -/
def Pkg.names : Pkg → List String
  | .mk name _ subs mods => name :: (mods.map fun m => m.2.name) ++ subs.names
/-- Those of subpackages. -/
def Subs.names : Subs → List String
  | .nil => []
  | .cons _ p rest => p.names ++ rest.names
end

/-- What every module has. -/
def always : List String := ["__name__", "__doc__", "__package__", "__loader__", "__spec__"]

/-! ### Lemmas -/

theorem lookup_update {α : Type} (given : Dict α) (d : Dict α) (n : String) :
    ((Dict.update d given).lookup n).isSome = true ↔ (d.lookup n).isSome = true ∨ n ∈ given.map Prod.fst := by
  induction given generalizing d with
  | nil => simp [Dict.update]
  | cons item given ih =>
    obtain ⟨k, v⟩ := item
    rw [show Dict.update d ((k, v) :: given) = Dict.update (d.set k v) given from rfl, ih, lookup_set]
    by_cases e : n = k
    · simp [e]
    · simp [e]

theorem update_other {α : Type} (given : Dict α) (d : Dict α) {n : String} (h : n ∉ given.map Prod.fst) : (Dict.update d given).lookup n = d.lookup n := by
  induction given generalizing d with
  | nil => rfl
  | cons item given ih =>
    obtain ⟨k, v⟩ := item
    simp only [List.map_cons, List.mem_cons, not_or] at h
    rw [show Dict.update d ((k, v) :: given) = Dict.update (d.set k v) given from rfl, ih _ h.2, lookup_set, if_neg h.1]

theorem update_latest {α : Type} {given : Dict α} (d : Dict α) {n : String} {v : α} (h : Latest given n v) : (Dict.update d given).lookup n = some v := by
  obtain ⟨pre, post, rfl, hp⟩ := h
  rw [update_append, show Dict.update (Dict.update d pre) ((n, v) :: post) = Dict.update ((Dict.update d pre).set n v) post from rfl,
    update_other, lookup_set, if_pos rfl]
  intro hm
  obtain ⟨item, hi, e⟩ := List.mem_map.1 hm
  exact hp item hi e

/-- What a module has in the end. -/
def made (m : Module) : Dict Value := (defaults (.obj 0)).update m.api

mutual
/-- What a package has in the end. -/
def contents : Pkg → Dict Value
  | .mk _ api subs mods => (defaults (.obj 0)).update ((Dict.update (added subs api) (mods.map fun m => (m.1, .space (made m.2)))))
/-- The api with the subpackages. -/
def added : Subs → Dict Value → Dict Value
  | .nil, api => api
  | .cons key p rest, api => added rest (api.set key (.space (contents p)))
end

theorem remakeModules_fst (mods : List (String × Module)) (api : Dict Value) (sys : Sys) :
    (remakeModules mods api sys).1 = Dict.update api (mods.map fun m => (m.1, .space (made m.2))) := by
  induction mods generalizing api sys with
  | nil => rfl
  | cons item mods ih =>
    obtain ⟨k, m⟩ := item
    simp only [remakeModules]
    rw [ih]
    rfl

mutual
theorem remake_fst : ∀ (p : Pkg) (sys : Sys), (remake p sys).1 = contents p
  | .mk name api subs mods, sys => by
    simp only [remake, makeModule, contents]
    rw [remakeModules_fst, remakeSubs_fst subs api sys]
theorem remakeSubs_fst : ∀ (subs : Subs) (api : Dict Value) (sys : Sys), (remakeSubs subs api sys).1 = added subs api
  | .nil, _, _ => rfl
  | .cons key p rest, api, sys => by
    simp only [remakeSubs, added]
    rw [remakeSubs_fst rest, remake_fst p sys]
end

theorem remakeModules_other (mods : List (String × Module)) (api : Dict Value) (sys : Sys) {n : String} (h : n ∉ mods.map fun m => m.2.name) :
    (remakeModules mods api sys).2.lookup n = sys.lookup n := by
  induction mods generalizing api sys with
  | nil => rfl
  | cons item mods ih =>
    obtain ⟨k, m⟩ := item
    simp only [List.map_cons, List.mem_cons, not_or] at h
    simp only [remakeModules]
    rw [ih _ _ h.2]
    simp only [makeModule]
    rw [lookup_set, if_neg h.1]

mutual
theorem remake_other : ∀ (p : Pkg) (sys : Sys) {n : String}, n ∉ p.names → (remake p sys).2.lookup n = sys.lookup n
  | .mk name api subs mods, sys, n, h => by
    simp only [Pkg.names, List.cons_append, List.mem_cons, List.mem_append, not_or] at h
    simp only [remake, makeModule]
    rw [lookup_set, if_neg h.1, remakeModules_other _ _ _ h.2.1, remakeSubs_other subs api sys h.2.2]
theorem remakeSubs_other : ∀ (subs : Subs) (api : Dict Value) (sys : Sys) {n : String}, n ∉ subs.names →
    (remakeSubs subs api sys).2.lookup n = sys.lookup n
  | .nil, _, _, _, _ => rfl
  | .cons key p rest, api, sys, n, h => by
    simp only [Subs.names, List.mem_append, not_or] at h
    simp only [remakeSubs]
    rw [remakeSubs_other rest _ _ h.2, remake_other p sys h.1]
end

theorem remakeModules_mem {mods : List (String × Module)} (api : Dict Value) (sys : Sys) (hn : (mods.map fun m => m.2.name).Nodup)
    {key : String} {m : Module} (h : (key, m) ∈ mods) : (remakeModules mods api sys).2.lookup m.name = some (made m) := by
  induction mods generalizing api sys with
  | nil => cases h
  | cons item mods ih =>
    simp only [List.map_cons, List.nodup_cons] at hn
    rcases List.mem_cons.1 h with rfl | h
    · simp only [remakeModules]
      rw [remakeModules_other _ _ _ hn.1]
      simp only [makeModule]
      rw [lookup_set, if_pos rfl]
      rfl
    · exact ih _ _ hn.2 h

theorem name_mem (p : Pkg) : p.name ∈ p.names := by
  cases p
  simp [Pkg.name, Pkg.names]

theorem subs_names {subs : Subs} {key : String} {q : Pkg} (h : (key, q) ∈ subs.list) {n : String} (hn : n ∈ q.names) : n ∈ subs.names := by
  match subs with
  | .nil => cases h
  | .cons k p rest =>
    simp only [Subs.names, List.mem_append]
    rcases List.mem_cons.1 h with h | h
    · cases h; exact Or.inl hn
    · exact Or.inr (subs_names h hn)

theorem within_names {p q : Pkg} (h : Within q p) : ∀ n ∈ q.names, n ∈ p.names := by
  induction h with
  | self => exact fun _ h => h
  | sub hk _ ih =>
    rename_i p _ _ _ _
    intro n hn
    cases p with
    | mk name api subs mods =>
      simp only [Pkg.names, List.cons_append, List.mem_cons, List.mem_append]
      exact Or.inr (Or.inr (subs_names hk (ih n hn)))

theorem sub_nodup {subs : Subs} {key : String} {q : Pkg} (h : (key, q) ∈ subs.list) (hn : subs.names.Nodup) : q.names.Nodup := by
  match subs with
  | .nil => cases h
  | .cons k p rest =>
    simp only [Subs.names, List.nodup_append] at hn
    rcases List.mem_cons.1 h with h | h
    · cases h; exact hn.1
    · exact sub_nodup h hn.2.1

/-- What a package and its modules are under their names. -/
def Placed (sys : Sys) (q : Pkg) : Prop :=
  sys.lookup q.name = some (contents q) ∧ ∀ key m, (key, m) ∈ q.mods → sys.lookup m.name = some (made m)

theorem mods_names {q : Pkg} {key : String} {m : Module} (h : (key, m) ∈ q.mods) : m.name ∈ q.names := by
  cases q
  simp only [Pkg.names, List.cons_append, List.mem_cons, List.mem_append]
  exact Or.inr (Or.inl (List.mem_map.2 ⟨_, h, rfl⟩))

theorem placed_congr {sys sys' : Sys} {q : Pkg} (h : Placed sys q) (he : ∀ n ∈ q.names, sys'.lookup n = sys.lookup n) : Placed sys' q :=
  ⟨by rw [he _ (name_mem q)]; exact h.1, fun key m hm => by rw [he _ (mods_names hm)]; exact h.2 key m hm⟩

mutual
theorem remake_placed : ∀ (p : Pkg) (sys : Sys), p.names.Nodup → ∀ q, Within q p → Placed (remake p sys).2 q
  | .mk name api subs mods, sys, hn, q, hq => by
    have hn' := hn
    simp only [Pkg.names, List.cons_append, List.nodup_cons, List.mem_append, not_or, List.nodup_append] at hn
    obtain ⟨⟨hnm, hns⟩, hm, hs, hms⟩ := hn
    have hmods : ∀ key m, (key, m) ∈ mods → (remake (.mk name api subs mods) sys).2.lookup m.name = some (made m) := by
      intro key m h
      simp only [remake, makeModule]
      rw [lookup_set, if_neg]
      · exact remakeModules_mem _ _ hm h
      · rintro rfl; exact hnm (List.mem_map.2 ⟨_, h, rfl⟩)
    cases hq with
    | self =>
      refine ⟨?_, hmods⟩
      have := remake_fst (.mk name api subs mods) sys
      simp only [remake, makeModule] at this ⊢
      rw [show Pkg.name (.mk name api subs mods) = name from rfl, lookup_set, if_pos rfl, this]
    | sub hk hw =>
      rename_i r key
      have h1 := remakeSubs_placed subs api sys hs key r hk q hw
      refine placed_congr h1 fun n hnq => ?_
      have hin : n ∈ subs.names := subs_names hk (within_names hw n hnq)
      simp only [remake, makeModule]
      rw [lookup_set, if_neg, remakeModules_other]
      · intro hc; exact hms n hc n hin rfl
      · rintro rfl; exact hns hin
theorem remakeSubs_placed : ∀ (subs : Subs) (api : Dict Value) (sys : Sys), subs.names.Nodup → ∀ key r, (key, r) ∈ subs.list → ∀ q, Within q r →
    Placed (remakeSubs subs api sys).2 q
  | .nil, _, _, _, _, _, h, _, _ => by cases h
  | .cons k p rest, api, sys, hn, key, r, h, q, hq => by
    simp only [Subs.names, List.nodup_append] at hn
    obtain ⟨hp, hr, hd⟩ := hn
    simp only [remakeSubs]
    rcases List.mem_cons.1 h with h | h
    · cases h
      refine placed_congr (remake_placed p sys hp q hq) fun n hnq => ?_
      exact remakeSubs_other rest _ _ (fun hc => hd n (within_names hq n hnq) n hc rfl)
    · exact remakeSubs_placed rest _ _ hr key r h q hq
end

theorem added_eq : ∀ (subs : Subs) (api : Dict Value), added subs api = Dict.update api (subs.list.map fun s => (s.1, .space (contents s.2)))
  | .nil, _ => rfl
  | .cons key p rest, api => by
    simp only [added, Subs.list, List.map_cons]
    rw [added_eq rest]
    rfl

theorem defaults_names (x : Value) (n : String) : ((defaults x).lookup n).isSome = true ↔ n ∈ always := by
  simp only [defaults, always, List.lookup_cons, List.lookup_nil, List.mem_cons, List.not_mem_nil, or_false]
  repeat' split
  all_goals simp_all

theorem contents_eq (q : Pkg) : contents q = Dict.update (defaults (.obj 0))
    (Dict.update (Dict.update q.api (q.subs.map fun s => (s.1, .space (contents s.2)))) (q.mods.map fun m => (m.1, .space (made m.2)))) := by
  cases q with
  | mk name api subs mods =>
    rw [contents, added_eq]
    rfl

/-- A name that was given once is given last. -/
theorem latest_once {α : Type} {given : List (String × α)} (h : (given.map Prod.fst).Nodup) {n : String} {v : α} (hm : (n, v) ∈ given) : Latest given n v := by
  obtain ⟨pre, post, rfl⟩ := List.append_of_mem hm
  refine ⟨pre, post, rfl, fun item hi e => ?_⟩
  rw [List.map_append, List.map_cons, List.nodup_append] at h
  exact (List.nodup_cons.1 h.2.1).1 (e ▸ List.mem_map.2 ⟨item, hi, rfl⟩)

theorem mem_keys_iff {α : Type} (d : Dict α) (n : String) : n ∈ d.map Prod.fst ↔ (d.lookup n).isSome = true := by
  induction d with
  | nil => simp
  | cons item d ih =>
    obtain ⟨k, v⟩ := item
    simp only [List.map_cons, List.mem_cons, ih, List.lookup_cons]
    by_cases e : n = k
    · simp [e]
    · rw [beq_eq_false_iff_ne.2 e]; simp [e]

theorem update_keys {α : Type} {d : Dict α} (hk : d.Keys) (base : Dict α) {n : String} {v : α} (h : d.lookup n = some v) :
    (Dict.update base d).lookup n = some v := update_latest base (latest_once hk (mem_of_lookup h))

/-! ### The property -/

/-- C120. After `remake_subpackage` every package in the tree, and every module of one, can be imported under its name, and has exactly the names of its
`module_api`, its subpackages, its modules, and the five that all modules have. A name of the api stands for what the api has, unless a
subpackage or module has it too. The name of a module or subpackage stands for the same things as the module or subpackage that is
imported. The packages and modules have different names, and names are not repeated within an api, the subpackages, or the modules of a package. -/
theorem C120_package (p : Pkg) (sys : Sys) (hn : p.names.Nodup) {q : Pkg} (hq : Within q p) :
    ∃ items, (remake p sys).2.lookup q.name = some items ∧
      (∀ n, (items.lookup n).isSome = true ↔ n ∈ always ∨ n ∈ q.api.map Prod.fst ∨ n ∈ q.subs.map Prod.fst ∨ n ∈ q.mods.map Prod.fst) ∧
      (q.api.Keys → ∀ n v, (n, v) ∈ q.api → n ∉ q.subs.map Prod.fst → n ∉ q.mods.map Prod.fst → items.lookup n = some v) ∧
      (q.api.Keys → (q.subs.map Prod.fst).Nodup → ∀ n r, (n, r) ∈ q.subs → n ∉ q.mods.map Prod.fst →
        ∃ there, (remake p sys).2.lookup r.name = some there ∧ items.lookup n = some (.space there)) ∧
      (q.api.Keys → (q.mods.map Prod.fst).Nodup → ∀ n m, (n, m) ∈ q.mods →
        ∃ there, (remake p sys).2.lookup m.name = some there ∧ items.lookup n = some (.space there)) := by
  obtain ⟨h1, h2⟩ := remake_placed p sys hn q hq
  have es : (q.subs.map fun s => (s.1, Value.space (contents s.2))).map Prod.fst = q.subs.map Prod.fst := by simp
  have em : (q.mods.map fun m => (m.1, Value.space (made m.2))).map Prod.fst = q.mods.map Prod.fst := by simp
  refine ⟨contents q, h1, ?_, ?_, ?_, ?_⟩
  · intro n
    rw [contents_eq, lookup_update, defaults_names, mem_keys_iff, lookup_update, lookup_update, ← mem_keys_iff, es, em, or_assoc]
  · intro hk n v hv h3 h4
    rw [contents_eq]
    refine update_keys (keys_update _ (keys_update _ hk)) _ ?_
    rw [update_other _ _ (by rw [em]; exact h4), update_other _ _ (by rw [es]; exact h3)]
    have := update_latest (d := []) (latest_once hk hv)
    rwa [Package.update_self _ hk] at this
  · intro hk hs n r hr h4
    have hw : Within r p := by
      clear h1 h2 es em
      induction hq with
      | self => exact .sub hr (.self r)
      | sub hk' _ ih => exact .sub hk' (ih (by
          rename_i p' q' r' key' _
          cases p' with
          | mk name api subs mods =>
            simp only [Pkg.names, List.cons_append, List.nodup_cons, List.nodup_append] at hn
            exact sub_nodup hk' hn.2.2.1) hk hs hr h4)
    refine ⟨contents r, (remake_placed p sys hn r hw).1, ?_⟩
    rw [contents_eq]
    refine update_keys (keys_update _ (keys_update _ hk)) _ ?_
    rw [update_other _ _ (by rw [em]; exact h4)]
    exact update_latest _ (latest_once (by rw [es]; exact hs) (List.mem_map.2 ⟨(n, r), hr, rfl⟩))
  · intro hk hm n m h
    refine ⟨made m, h2 n m h, ?_⟩
    rw [contents_eq]
    refine update_keys (keys_update _ (keys_update _ hk)) _ ?_
    exact update_latest _ (latest_once (by rw [em]; exact hm) (List.mem_map.2 ⟨(n, m), h, rfl⟩))

/-- C120, for the modules. -/
theorem C120_module (p : Pkg) (sys : Sys) (hn : p.names.Nodup) {q : Pkg} (hq : Within q p) {key : String} {m : Module} (hm : (key, m) ∈ q.mods) :
    ∃ items, (remake p sys).2.lookup m.name = some items ∧
      (∀ n, (items.lookup n).isSome = true ↔ n ∈ always ∨ n ∈ m.api.map Prod.fst) ∧
      (m.api.Keys → ∀ n v, (n, v) ∈ m.api → items.lookup n = some v) := by
  refine ⟨made m, (remake_placed p sys hn q hq).2 key m hm, ?_, ?_⟩
  · intro n
    rw [made, lookup_update, defaults_names]
  · intro hk n v hv
    exact update_latest _ (latest_once hk hv)

/-- C120. All other modules stay as they are, and what `remake_subpackage` returns has what is imported. -/
theorem C120_others (p : Pkg) (sys : Sys) : (remake p sys).2.lookup p.name = some (remake p sys).1 ∧
    ∀ n, n ∉ p.names → (remake p sys).2.lookup n = sys.lookup n := by
  refine ⟨?_, fun n h => remake_other p sys h⟩
  cases p with
  | mk name api subs mods =>
    simp only [remake, makeModule]
    rw [show Pkg.name (.mk name api subs mods) = name from rfl, lookup_set, if_pos rfl]

/-! ### Samples -/

/-- A package with a module and a subpackage that has a module; a module of another package is there. -/
def samplePackage : Pkg :=
  .mk "aiootp" [("__name__", .obj 1), ("Chunky2048", .obj 2)]
    (.cons "ciphers" (.mk "aiootp.ciphers" [("__name__", .obj 3), ("Chunky2048", .obj 2)] .nil
      [("chunky", ⟨"aiootp.ciphers.chunky", [("__name__", .obj 4), ("Chunky2048", .obj 2)]⟩)]) .nil)
    [("_paths", ⟨"aiootp._paths", [("__name__", .obj 5)]⟩)]

example : samplePackage.names.Nodup := by decide
example : ∃ q, Within q samplePackage ∧ q.name = "aiootp.ciphers" ∧ q.api.Keys ∧ (q.mods.map Prod.fst).Nodup :=
  ⟨_, .sub (key := "ciphers") (List.mem_cons_self) (.self _), rfl, by simp [Dict.Keys, Pkg.api], by simp [Pkg.mods]⟩
example : ((remake samplePackage [("aiootp", [("_secret", .obj 9)]), ("os", [])]).2.map Prod.fst) =
    ["aiootp", "os", "aiootp.ciphers.chunky", "aiootp.ciphers", "aiootp._paths"] := rfl

/-- What the package had before and is not in its api is gone. -/
example : ((remake samplePackage [("aiootp", [("_secret", .obj 9)])]).2.lookup "aiootp").map (fun items => items.map Prod.fst) =
    some ["__name__", "__doc__", "__package__", "__loader__", "__spec__", "Chunky2048", "ciphers", "_paths"] := rfl

end Aiootp.Packaging
