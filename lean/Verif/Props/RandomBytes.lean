import Verif.Lemmas.RandomBytes

/-!
C109: what `csprng` returns looks random.
-/

namespace Aiootp.Random

open Secrecy (Digest Hash)
open Kdf (share cut)
open Oracle (Tree)

instance (K : Nat) : Nonempty (Digest K) := ⟨⟨List.replicate K 0, List.length_replicate⟩⟩

/-- **C109**. Whatever threads and processes call `csprng` and `hash`, with whatever arguments, chosen by whoever sees all that was returned before: nobody can tell the bytes that are returned from bytes
that are drawn at random. -/
theorem C109 {ι : Type} [DecidableEq ι] (K : Nat) : LooksRandom ι K := by
  intro seed context player hf known n
  obtain ⟨h1, h2⟩ := gameTree_fresh (seed := seed) hf n 0 ⟨fun _ => none, .init seed⟩ [] ∅ (Sound.init context seed) (fun m hm => hm.elim)
  obtain ⟨D0, hD0⟩ := (gameTree K player n 0 ⟨fun _ => none, .init seed⟩ []).finite
  classical
  refine ⟨D0.filter (seed <+: ·), fun q hq => (Finset.mem_filter.1 hq).2, fun D hD test => ?_⟩
  have hall : (gameTree K player n 0 ⟨fun _ => none, .init seed⟩ []).AllIn (D : Set Bytes) := by
    refine (hD0.inter h2).mono fun q hq => hD ?_
    exact Finset.mem_filter.2 ⟨hq.1, hq.2⟩
  have real : ∀ T : Hash D K, (play seed (fun _ m size => (T.xof known).digest m size) player n).2 = (gameTree K player n 0 ⟨fun _ => none, .init seed⟩ []).run (Tree.ext T) := by
    intro T
    rw [run_go (Tree.ext T) D (fun m size => (T.xof known).digest m size) ?_ player n 0 _ [] hall]
    · have := play_go seed (fun _ m size => (T.xof known).digest m size) player n 0
      rw [Nat.zero_add] at this
      exact this.symm
    · intro m hm size
      have hm : m ∈ D := hm
      simp only [Hash.xof, dif_pos hm, Tree.ext, cut]
  have ideal : ∀ drawn : Finset.range n → Digest K, (play seed (fun i _ size => if h : i ∈ Finset.range n then cut size (drawn ⟨i, h⟩).1 else []) player n).2 =
      ((gameTree K player n 0 ⟨fun _ => none, .init seed⟩ []).number 0).run (Tree.ext drawn) := by
    intro drawn
    have h := number_go (Tree.ext drawn) (fun i size => if h : i ∈ Finset.range n then cut size (drawn ⟨i, h⟩).1 else []) n ?_ player n 0 ⟨fun _ => none, .init seed⟩ [] (by simp)
    · rw [List.length_nil] at h
      rw [h]
      have := play_go seed (fun i _ size => if h : i ∈ Finset.range n then cut size (drawn ⟨i, h⟩).1 else []) player n 0
      rw [Nat.zero_add] at this
      exact this.symm
    · intro i hi size
      have hm : i ∈ Finset.range n := Finset.mem_range.2 hi
      simp only [dif_pos hm, Tree.ext]
  simp only [real, ideal]
  rw [Tree.share_fresh h1 hall, Tree.share_fresh (t := Tree.number 0 _), Tree.mean_number]
  · exact (Tree.fresh_number _ 0).mono (Set.empty_subset _)
  · have := Tree.allIn_number 0 (gameTree_steps (K := K) (player := player) n 0 ⟨fun _ => none, .init seed⟩ [])
    rwa [Nat.zero_add] at this

/-! ### a game -/

def sampleContext : Fin 3 → Bytes := ![List.replicate 56 1, List.replicate 56 2, List.replicate 56 3]

/-- Three calls in two processes. What the first one returns is the entropy of the second, and is in the pool that the second and the third read. -/
def samplePlayer : Player (Fin 3) := fun n seen =>
  match n with
  | 0 => .begin 0 0 (.csprng (sampleContext 0) [9] []) 32
  | 1 => .advance 0 []
  | 2 => .fork 0 1
  | 3 => .advance 0 []
  | 4 => .advance 0 [7]
  | 5 => .begin 1 0 (.csprng (sampleContext 1) seen.flatten []) 16
  | 6 => .advance 1 []
  | 7 => .begin 2 1 (.hash true (sampleContext 2) [7] 64 [[1], []]) 0
  | 8 => .advance 2 []
  | 9 => .advance 1 []
  | 10 => .advance 2 []
  | 11 => .advance 2 []
  | 12 => .advance 1 seen.flatten
  | _ => .fork 0 0

set_option maxRecDepth 100000 in
theorem samplePlayer_fair : Fair sampleContext 64 samplePlayer := by
  refine ⟨by decide, by decide, ?_, ?_⟩
  · intro n seen k process call size h
    unfold samplePlayer at h
    split at h <;> cases h <;> exact ⟨rfl, by simp [Entry.bytes]⟩
  · intro n seen k process async pool size' data size t h ht j hp
    have hcall : async = true ∧ k = 2 ∧ pool = [7] ∧ size' = 64 ∧ data = [[1], []] := by
      unfold samplePlayer at h
      split at h <;> cases h <;> exact ⟨rfl, rfl, rfl, rfl, rfl⟩
    obtain ⟨rfl, rfl, rfl, rfl, rfl⟩ := hcall
    have h2 : (match (Call.hash true (sampleContext 2) [7] 64 [[1], []]).token with | .ok t => t.head? == some 8 | _ => true) = true := by decide +kernel
    have h1 : ∀ j, (sampleContext j).head? ≠ some 8 ∧ sampleContext j ≠ [] := by decide
    rw [ht] at h2
    obtain ⟨x, rfl⟩ := hp
    cases hc : sampleContext j with
    | nil => exact (h1 j).2 hc
    | cons a l =>
      have := (h1 j).1
      rw [hc] at this h2
      simp at this h2
      exact this h2

/-- All three calls return. -/
example : (play [5] (fun i _ size => List.replicate size (UInt8.ofNat i)) samplePlayer 13).2 = [List.replicate 32 0, List.replicate 64 1, List.replicate 16 2] := by decide +kernel

example := C109 64 [5] sampleContext samplePlayer samplePlayer_fair ⟨fun _ n => List.replicate n 0, fun _ n => List.length_replicate⟩ 13

end Aiootp.Random
