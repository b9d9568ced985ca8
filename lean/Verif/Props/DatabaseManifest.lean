import Verif.Model.DatabaseManifest
import Verif.Props.Json
import Verif.Props.DatabaseKdf
import Verif.Props.Text

/-
C87: the manifest of a database comes back from its text, and with it the values of tags.
-/

namespace Aiootp.Database

open Json (Code Val Vals Items)

variable {F : Type}

theorem chr_char (c : Char) : (Json.chr c.toNat).val = c.toNat := by
  refine Json.chr_val_of ?_
  have := c.valid
  simp only [UInt32.isValidChar, Nat.isValidChar] at this
  simp only [Char.toNat]
  omega

theorem ofCodes_codes (s : String) : ofCodes (codes s) = .ok s := by
  have h : ∀ c : Char, c.toNat.isValidChar := fun c => c.valid
  unfold ofCodes codes
  rw [if_pos]
  · rw [List.map_map]
    congr 1
    have : (fun c : Code => Char.ofNat c.val) ∘ (fun c : Char => Json.chr c.toNat) = id := by
      funext c
      simp only [Function.comp, chr_char, id, Char.ofNat_toNat]
    rw [this, List.map_id, String.ofList_toList]
  · rw [List.all_eq_true]
    intro x hx
    obtain ⟨c, -, rfl⟩ := List.mem_map.1 hx
    rw [decide_eq_true_eq, chr_char]
    exact h c

theorem codes_inj {s t : String} (h : codes s = codes t) : s = t := by
  have := (ofCodes_codes s).symm.trans ((congrArg ofCodes h).trans (ofCodes_codes t))
  injection this

theorem noPair_codes (s : String) : Json.NoPair (codes s) := by
  intro pre a b post e hp
  have ha : a ∈ codes s := by rw [e]; simp
  obtain ⟨c, -, rfl⟩ := List.mem_map.1 ha
  have := c.valid
  simp only [UInt32.isValidChar, Nat.isValidChar] at this
  rw [chr_char] at hp
  simp only [Char.toNat] at hp
  omega

theorem noPair_bytes (b : Bytes) : Json.NoPair (b.map fun x => Json.chr x.toNat) := by
  intro pre x y post e hp
  have hx : x ∈ b.map fun x => Json.chr x.toNat := by rw [e]; simp
  obtain ⟨c, -, rfl⟩ := List.mem_map.1 hx
  have := c.toNat_lt
  rw [Json.chr_val_of (by omega)] at hp
  omega

theorem faithful_strs (l : List String) : Json.FaithfulAll (strs l : Vals F) := by
  induction l with
  | nil => trivial
  | cons s l ih => exact ⟨noPair_codes s, ih⟩

theorem writable_strs (limit : Nat) (l : List String) : Json.WritableAll limit (strs l : Vals F) := by
  induction l with
  | nil => trivial
  | cons s l ih => exact ⟨trivial, ih⟩

theorem faithful_files (d : Dict String) : Json.FaithfulItems (fileItems d : Items F) := by
  induction d with
  | nil => trivial
  | cons p d ih => exact ⟨⟨_, rfl, noPair_codes p.1⟩, noPair_codes p.2, ih⟩

theorem writable_files (limit : Nat) (d : Dict String) : Json.WritableItems limit (fileItems d : Items F) := by
  induction d with
  | nil => trivial
  | cons p d ih => exact ⟨fun e => (by cases e), fun n e => (by cases e), trivial, ih⟩

theorem keys_files (d : Dict String) : (fileItems d : Items F).keys = d.map fun p => .str (codes p.1) := by
  induction d with
  | nil => rfl
  | cons p d ih => simp only [fileItems, Json.Items.keys, ih, List.map_cons]

theorem manifestValue_faithful {man : Manifest} (h : man.Sound) : Json.Faithful (manifestValue man : Val F) := by
  refine ⟨⟨⟨_, rfl, noPair_codes _⟩, noPair_bytes _, ⟨_, rfl, noPair_codes _⟩, faithful_strs _, faithful_files _⟩, ?_⟩
  simp only [Json.Items.keys, keys_files, List.nodup_cons, List.mem_cons, List.mem_map, not_or]
  refine ⟨⟨fun e => ?_, ?_⟩, ?_, ?_⟩
  · injection e with e
    exact absurd (codes_inj e) (by decide)
  · rintro ⟨p, hp, e⟩
    injection e with e
    exact h.salt p hp (codes_inj e)
  · rintro ⟨p, hp, e⟩
    injection e with e
    exact h.metatags p hp (codes_inj e)
  · have := h.nodup
    have hm : man.files.map (fun p => Json.Key.str (F := F) (codes p.1)) = (man.files.map (·.1)).map (fun s => .str (codes s)) := by
      rw [List.map_map]; rfl
    rw [hm]
    exact this.map (fun a b e => codes_inj (by injection e))

theorem manifestValue_writable (limit : Nat) (man : Manifest) : Json.Writable limit (manifestValue man : Val F) :=
  ⟨fun e => (by cases e), fun n e => (by cases e), trivial, fun e => (by cases e), fun n e => (by cases e), writable_strs _ _, writable_files _ _⟩

theorem readStrs_strs (l : List String) : readStrs (strs l : Vals F) = .ok l := by
  induction l with
  | nil => rfl
  | cons s l ih => simp only [strs, readStrs, ofCodes_codes, ih, bind, Except.bind, pure, Except.pure]

theorem readFiles_files (d : Dict String) (h0 : ∀ p ∈ d, p.1 ≠ "0") (h1 : ∀ p ∈ d, p.1 ≠ "1") : readFiles (fileItems d : Items F) = .ok d := by
  induction d with
  | nil => rfl
  | cons p d ih =>
    have hn : ¬ (codes p.1 = codes "0" ∨ codes p.1 = codes "1") := by
      rintro (e | e)
      · exact h0 p (by simp) (codes_inj e)
      · exact h1 p (by simp) (codes_inj e)
    simp only [fileItems, readFiles, if_neg hn, ofCodes_codes, ih (fun q hq => h0 q (by simp [hq])) (fun q hq => h1 q (by simp [hq])),
      bind, Except.bind, pure, Except.pure]

/-- C87: each manifest that a database writes comes back. -/
theorem C87_manifest {E : Json.Env F} (hE : E.Law) {man : Manifest} (h : man.Sound) :
    loadManifestJson E (dumpManifestJson E man) = .ok man := by
  obtain ⟨text, ht⟩ := (Json.C87_writes_iff E (manifestValue man)).2 (manifestValue_writable _ man)
  have hl := (Json.C87_same_iff hE ht).2 (manifestValue_faithful h)
  have h01 : ¬ codes "1" = codes "0" := fun e => absurd (codes_inj e) (by decide)
  have h10 : ¬ codes "0" = codes "1" := fun e => h01 e.symm
  have hsalt : asciiBytes ((Text.bytesToUrlsafe man.salt).map fun b => Json.chr b.toNat) = .ok (Text.bytesToUrlsafe man.salt) := by
    have hlt : ∀ c ∈ Text.bytesToUrlsafe man.salt, c.toNat < 128 := by
      intro c hc
      have := Text.C07_urlsafe_alphabet man.salt c hc
      simp only [Text.UrlsafeChar] at this
      omega
    unfold asciiBytes
    rw [if_pos]
    · rw [List.map_map]
      congr 1
      conv_rhs => rw [← List.map_id (Text.bytesToUrlsafe man.salt)]
      refine List.map_congr_left (fun c hc => ?_)
      have := hlt c hc
      simp only [Function.comp, Json.chr_val_of (show c.toNat < 1114112 by omega), UInt8.ofNat_toNat, id]
    · rw [List.all_eq_true]
      intro x hx
      obtain ⟨c, hc, rfl⟩ := List.mem_map.1 hx
      have := hlt c hc
      rw [decide_eq_true_eq, Json.chr_val_of (by omega)]
      exact this
  have hf := readFiles_files (F := F) man.files h.salt h.metatags
  simp only [loadManifestJson, dumpManifestJson, ht, orElse, hl, bind, Except.bind]
  simp only [manifestValue, itemOf, if_true, if_neg h01, if_neg h10, hsalt,
    Text.C07_urlsafe_round_trip, readStrs_strs, readFiles, true_or, or_true, hf, pure, Except.pure]

/-- C87: with the derivations, the cipher and the JSON of the code, everything is as the theorems about databases (C40 to C45, C85) assume. -/
theorem C87_database_law {K : KdfEnv} (hK : K.Shapes) {X : Cipher.DualEnv} (h : Cipher.DualSetup X) (hframe : X.cfg.paddingFrame ≤ 256)
    {E : Json.Env F} (hE : E.Law) : (jsonEnv K X E).Law (fun d => d.Fit X.cfg) :=
  realEnv_law hK h hframe _ _ _ _ (fun _ hm => C87_manifest hE hm)

/-- C87: a value that is set after any history, and saved, is what a query returns after the database has been opened again. -/
theorem C87_saved_tag {K : KdfEnv} (hK : K.Shapes) {X : Cipher.DualEnv} (h : Cipher.DualSetup X) (hframe : X.cfg.paddingFrame ≤ 256)
    {E : Json.Env F} (hE : E.Law) {T : String → Prop} {key salt : Bytes} (hap : Apart (jsonEnv K X E) T key salt) (hk : 64 ≤ key.length) {disk : Disk}
    (hroot : disk ((jsonEnv K X E).rootName key) = none) (hfree : ∀ t, T t → disk ((jsonEnv K X E).fileName key salt t) = none)
    {n : Node (Val F)} {now₀ : Int} (hn : openNode (jsonEnv K X E) disk key salt now₀ = .ok n)
    (ops : List (Op Cipher.Draws (Val F))) (hops : ∀ op ∈ ops, op.Allowed (jsonEnv K X E) (fun d => d.Fit X.cfg) T)
    {t : String} (ht : T t) {v : Val F} (hv : Json.Faithful v) (hw : Json.Writable E.limit v) (cache : Bool) {r : Cipher.Draws} (hr : r.Fit X.cfg)
    (rs : String → Cipher.Draws) (hrs : ∀ name, (rs name).Fit X.cfg) (salt' : Bytes) (now₁ : Int) :
    let s := (Sys.run (jsonEnv K X E) ⟨n, disk⟩ (ops ++ [.set t (.json v) cache r])).step (jsonEnv K X E) (.save rs)
    ∃ m, openNode (jsonEnv K X E) s.disk key salt' now₁ = .ok m ∧
      ∀ silent cache now, (m.queryTag (jsonEnv K X E) s.disk t none silent cache now).1 = .ok (some (.json v)) := by
  have law := C87_database_law hK h hframe hE
  have hst : Storable (jsonEnv K X E) (.json v) := (Json.C87_storable_iff hE rfl rfl _).2 ⟨hw, hv⟩
  have hall : ∀ op ∈ ops ++ [.set t (.json v) cache r], op.Allowed (jsonEnv K X E) (fun d => d.Fit X.cfg) T := by
    intro op ho
    rcases List.mem_append.1 ho with ho | ho
    · exact hops op ho
    · rw [List.mem_singleton.1 ho]
      exact ⟨ht, hst, hr⟩
  obtain ⟨m, hm, -, hq⟩ := C41_one_database law hap hk hroot hfree hn _ hall rs hrs salt' now₁
  refine ⟨m, hm, fun silent c now => ?_⟩
  rw [hq t ht silent c now, C40_query law hap hk hroot hfree hn _ hall ht silent c now, List.foldl_append]
  cases cache <;> simp [View.after, setAt, answer]

/-! ### a sample -/

/-- A sum of what was absorbed. -/
def spread (x : Bytes) : Nat := x.foldl (fun acc b => (acc * 31 + b.toNat + 1) % 65521) 7

/-- Digests of the right sizes that differ for the inputs of the sample. -/
def spreadKdf : KdfEnv where
  shake128 := ⟨168, 0, fun x n => ([UInt8.ofNat (spread x / 256), UInt8.ofNat (spread x)] ++ List.replicate n 7).take n⟩
  sha3_512 := ⟨72, 64, fun x n => ([UInt8.ofNat (spread x / 256), UInt8.ofNat (spread x)] ++ List.replicate n 7).take n⟩
  salt := [1]
  kdfDomain := [2]
  dom := ⟨[3], [4], [5], [6], [7], [8]⟩

theorem spreadKdf_shapes : spreadKdf.Shapes where
  block := rfl
  xof := rfl
  size := by intro x n; simp [spreadKdf]; omega
  block512 := rfl
  digest512 := rfl
  size512 := by intro x; simp [spreadKdf]

/-- The names of two tags are apart. -/
theorem spread_apart : Apart (jsonEnv spreadKdf Cipher.sampleChunky Json.sampleFloats) (fun t => t = "a" ∨ t = "b") (List.replicate 64 1) [5] where
  inj := by
    rintro t u (rfl | rfl) (rfl | rfl) h
    · rfl
    · exact absurd h (by decide +kernel)
    · exact absurd h (by decide +kernel)
    · rfl
  root := by
    rintro t (rfl | rfl) <;> decide +kernel
  plain := by
    rintro t (rfl | rfl) <;> decide +kernel
  rootPlain := by decide +kernel

/-- `db["b"] = True`, then `db.set_tag("a", value)`, then `db.save_database()`. -/
example (r : Cipher.Draws) (hr : r.Fit Cipher.sampleChunky.cfg) :=
  C87_saved_tag spreadKdf_shapes Cipher.sampleChunky_setup (by decide) Json.sampleFloats_law spread_apart (by decide) (disk := fun _ => none) rfl
    (fun _ _ => rfl) (n := ⟨List.replicate 64 1, ⟨[5], [], []⟩, []⟩) (now₀ := 0) (by rfl) [.set "b" (.json (.bool true)) true r]
    (fun op ho => (by
      rw [List.mem_singleton.1 ho]
      exact ⟨.inr rfl, (Json.C87_storable_iff Json.sampleFloats_law rfl rfl _).2 ⟨trivial, trivial⟩, hr⟩))
    (t := "a") (.inl rfl) Json.sampleValue_faithful Json.sampleValue_writable true hr (fun _ => r) (fun _ => hr) [6] 0

example : (Cipher.sampleDraws Cipher.sampleChunky.cfg).Fit Cipher.sampleChunky.cfg := Cipher.sampleDraws_fit _ rfl

end Aiootp.Database
