import Verif.Model.Random
import Verif.Spec.KdfSecrecy

/-
What `csprng` and the hash method of the entropy pool return, if `shake_256` is drawn at random.
-/

namespace Aiootp.Random

open Secrecy (Digest Hash)
open Kdf (share cut)

variable {ι : Type} [DecidableEq ι]

/-- What may happen next: a thread of a process calls `csprng` (with a size) or `hash` (whose size is one of its arguments), a call goes on, and reads `pool` in `_pool[0]` if that is what it does, or a
process forks. -/
inductive Move (ι : Type) where
  | begin (k : ι) (process : Nat) (call : Call) (size : Nat)
  | advance (k : ι) (pool : Bytes)
  | fork (parent child : Nat)

/-- A call that was begun. -/
structure Entry where
  process : Nat
  call : Call
  size : Nat

/-- How many bytes it returns: rng.py:113, threading_safe_entropy_pool.py:165. -/
def Entry.bytes (e : Entry) : Nat :=
  match e.call with
  | .csprng .. => e.size
  | .hash _ _ _ size _ => size

/-- rng.py:112: `csprng` reads `_pool[0]` after the shared object was copied. (`hash` reads it before the first step.) -/
def Entry.reads (e : Entry) (pool : Bytes) : Entry :=
  match e.call with
  | .csprng context entropy _ => { e with call := .csprng context entropy pool }
  | .hash .. => e

/-- The calls that were begun, and the model's state. -/
structure World (ι : Type) where
  entries : ι → Option Entry
  state : State ι

/-- The calls. Calls that were not begun do not go on. -/
def World.calls (w : World ι) (k : ι) : Call := ((w.entries k).map Entry.call).getD (.csprng [] [] [])

/-- Their processes. -/
def World.home (w : World ι) (k : ι) : Nat := ((w.entries k).map Entry.process).getD 0

/-- One move. If a call ends with it, the bytes whose digest it returns are given too, and how many bytes of the digest it returns. -/
def World.move (w : World ι) : Move ι → World ι × Option (Bytes × Nat)
  | .begin k process call size =>
    match w.entries k with
    | some _ => (w, none)
    | none => ({ w with entries := put w.entries k (some ⟨process, call, size⟩) }, none)
  | .fork parent child => ({ w with state := step w.calls w.home w.state (.fork parent child) }, none)
  | .advance k pool =>
    match w.entries k with
    | none => (w, none)
    | some e =>
      match w.state.phase k with
      | .copied .. =>
        let w : World ι := { w with entries := put w.entries k (some (e.reads pool)) }
        let s := step w.calls w.home w.state (.advance k)
        match s.phase k with
        | .done m => ({ w with state := s }, some (m, e.bytes))
        | _ => ({ w with state := s }, none)
      | _ => ({ w with state := step w.calls w.home w.state (.advance k) }, none)

/-- Someone who chooses all that happens, and sees what the calls return: the next move is chosen by the number of the moves before it and all that was returned so far. -/
abbrev Player (ι : Type) : Type := Nat → List Bytes → Move ι

/-- The first `n` moves, and what the calls returned. `answer i m size` is the answer number `i`, which is `size` bytes of the digest of `m`. -/
def play (seed : Bytes) (answer : Nat → Bytes → Nat → Bytes) (player : Player ι) : Nat → World ι × List Bytes
  | 0 => (⟨fun _ => none, .init seed⟩, [])
  | n + 1 =>
    let (w, seen) := play seed answer player n
    match w.move (player n seen) with
    | (w, none) => (w, seen)
    | (w, some (m, size)) => (w, seen ++ [answer seen.length m size])

/-- The tokens of the calls, `context k` for the call `k`, are different (C65_token says why), the calls ask for at most `K` bytes, and no token of a call is the beginning of a packed encoding. -/
structure Fair (context : ι → Bytes) (K : Nat) (player : Player ι) : Prop where
  length : ∀ k, (context k).length = 56
  different : ∀ i j, context i = context j → i = j
  used : ∀ n seen k process call size, player n seen = .begin k process call size → call.context = context k ∧ Entry.bytes ⟨process, call, size⟩ ≤ K
  header : ∀ n seen k process async pool size' data size t, player n seen = .begin k process (.hash async (context k) pool size' data) size →
    (Call.hash async (context k) pool size' data).token = .ok t → ∀ j, ¬ context j <+: t

/-- The bytes that are returned are as good as bytes drawn at random, if `shake_256` is drawn at random on the inputs that begin with the secret seed: no test of all that is returned succeeds for a larger
or smaller share of the hash functions than of the drawn bytes. -/
def LooksRandom (ι : Type) [DecidableEq ι] (K : Nat) : Prop :=
  ∀ (seed : Bytes) (context : ι → Bytes) (player : Player ι), Fair context K player → ∀ (known : Xof) (n : Nat), ∃ D0 : Finset Bytes, (∀ q ∈ D0, seed <+: q) ∧ ∀ D, D0 ⊆ D →
    ∀ test : List Bytes → Prop,
      share (fun T : Hash D K => test (play seed (fun _ m size => (T.xof known).digest m size) player n).2) =
      share (fun drawn : Finset.range n → Digest K => test (play seed (fun i _ size => if h : i ∈ Finset.range n then cut size (drawn ⟨i, h⟩).1 else []) player n).2)

end Aiootp.Random
