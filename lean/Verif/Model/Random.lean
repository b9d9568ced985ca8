import Verif.Model.Canon

/-
`aiootp/randoms/`: `canonical_token`, `csprng`, `ThreadingSafeEntropyPool.hash`, the salted multiplications, and the event loop of `random_number_generator`. The async
versions differ in `await`s only (a task is a thread that is interrupted at `await`s).

Any number of threads, in any number of processes made by `fork`, make any number of calls. A thread does one operation on a shared object at a time: `update`, `copy` and
`digest` of a `hashlib` object hold the object's lock, and loads and stores of globals are single instructions.
-/

namespace Aiootp.Random

open Canon

/-- simple.py:127-153 `canonical_token`: 256 random bits, the counter, the thread and the process. -/
def canonicalToken (bits counter thread process : Nat) : Except Err Bytes :=
  toBytesBE 56 ((bits <<< 192) ^^^ (counter <<< 128) ^^^ (thread <<< 64) ^^^ process)

/-! ### the entropy pool -/

/-- A call that uses the shared hash object. `context` is its `canonical_token()`, `pool` is the value of `_pool[0]` that it reads. -/
inductive Call where
  /-- rng.py:93-113 `csprng` (69-90 `acsprng`); `entropy` is encoded -/
  | csprng (context entropy pool : Bytes)
  /-- threading_safe_entropy_pool.py:153-165 `hash` (139-151 `ahash`) -/
  | hash (async : Bool) (context pool : Bytes) (size : Nat) (data : List Bytes)

/-- Its token of the context. -/
def Call.context : Call → Bytes
  | .csprng context _ _ => context
  | .hash _ context _ _ _ => context

/-- rng.py:106-109; threading_safe_entropy_pool.py:117-137 `_make_token`, 159-160. The block size of `shake_256` is 136. -/
def Call.token : Call → Except Err Bytes
  | .csprng context entropy _ => .ok (context ++ entropy)
  | .hash async context pool size data => do
    let size ← toBytesBE 8 size
    canonicalPack (context :: pool :: size :: data) 136 [if async then 0x5c else 0x36] 8

/-- What is given to the copy of the hash object (rng.py:112, threading_safe_entropy_pool.py:163). -/
def Call.last (token : Bytes) : Call → Bytes
  | .csprng _ _ pool => token ++ pool
  | .hash .. => token

/-- How far a call is. -/
inductive Phase where
  | idle
  /-- the token was given to the shared object -/
  | updated (token : Bytes)
  /-- the shared object was copied -/
  | copied (copy token : Bytes)
  /-- the message whose digest is returned -/
  | done (message : Bytes)
  /-- an exception -/
  | failed (e : Err)

/-- What the shared object of each process has absorbed (`none`: there is no such process yet), and the phases of the calls. -/
structure State (ι : Type) where
  absorbed : Nat → Option Bytes
  phase : ι → Phase

/-- What happens: a call goes on, or a process forks. -/
inductive Event (ι : Type) where
  | advance (k : ι)
  | fork (parent child : Nat)

/-- A new value at one place. -/
def put {κ α : Type} [DecidableEq κ] (f : κ → α) (k : κ) (a : α) : κ → α := fun n => if n = k then a else f n

variable {ι : Type} [DecidableEq ι] (calls : ι → Call) (home : ι → Nat)

/-- The next operation of a call on the shared object of its process. -/
def advance (s : State ι) (k : ι) : State ι :=
  match s.absorbed (home k) with
  | none => s
  | some absorbed =>
    match s.phase k with
    | .idle =>
      match (calls k).token with
      | .error e => { s with phase := put s.phase k (.failed e) }
      | .ok token => ⟨put s.absorbed (home k) (some (absorbed ++ token)), put s.phase k (.updated token)⟩
    | .updated token => { s with phase := put s.phase k (.copied absorbed token) }
    | .copied copy token => { s with phase := put s.phase k (.done (copy ++ (calls k).last token)) }
    | .done _ => s
    | .failed _ => s

/-- One event. A forked process has a copy of the memory of its parent, and none of its threads is inside of a call. -/
def step (s : State ι) : Event ι → State ι
  | .advance k => advance calls home s k
  | .fork parent child =>
    match s.absorbed child with
    | some _ => s
    | none => { s with absorbed := put s.absorbed child (s.absorbed parent) }

/-- The first process, after rng.py:46-54. -/
def State.init {ι : Type} (seed : Bytes) : State ι := ⟨fun p => if p = 0 then some seed else none, fun _ => .idle⟩

/-- A schedule. -/
def run (s : State ι) (events : List (Event ι)) : State ι := events.foldl (step calls home) s

/-! ### salted multiplications -/

/-- _early_salts.py:43-46: the globals. `_int_pool` is used only in sums. -/
structure Globals where
  mix : Nat
  seed : Nat
  offset : Nat

/-- _early_salts.py:43 `_MOD`. -/
def modulus : Nat := 2 ^ 256

/-- A call of `_salt_multiply` (_early_salts.py:73-92): its arguments and what it reads: the counter, the sum of `_int_pool` and the numbers, and `pool[0]`. -/
structure Multiply where
  numbers : List Nat
  counter : Nat
  sum : Nat
  pool : Bytes

/-- How far a call of `_salt_multiply` is: the locals it still needs. -/
inductive At where
  | line84
  | line85 (start : Nat)
  | line86 (start mix : Nat)
  | line87 (start mix : Nat)
  /-- line 87, after the load -/
  | line87b (start mix seed : Nat)
  | line88 (start mix : Nat)
  | line88b (start mix offset : Nat)
  | line88c (start mix offset seed : Nat)
  | line90 (start mix : Nat) (numbers : List Nat)
  | returned (result : Nat)

/-- _early_salts.py:84-92: the next load or store of a global. The sum `start + sum(_int_pool) + sum(numbers)` is not negative. -/
def multiplyStep (m : Multiply) (g : Globals) : At → Globals × At
  | .line84 => (g, .line85 (m.counter * g.offset))
  | .line85 start => (g, .line86 start (g.mix ^^^ (start + m.sum)))
  | .line86 start mix =>
    let mix := (mix ^^^ fromBE m.pool) % modulus
    ({ g with mix := mix }, .line87 start mix)
  | .line87 start mix => (g, .line87b start mix g.seed)
  | .line87b start mix seed => ({ g with seed := seed ^^^ mix }, .line88 start mix)
  | .line88 start mix => (g, .line88b start mix g.offset)
  | .line88b start mix offset => (g, .line88c start mix offset g.seed)
  | .line88c start mix offset seed => ({ g with offset := offset ^^^ seed }, .line90 start mix m.numbers)
  | .line90 start mix (n :: numbers) =>
    let mix := mix + g.offset
    (g, .line90 ((start ^^^ mix) * (n ^^^ mix)) mix numbers)
  | .line90 start mix [] => (g, .returned (g.seed ^^^ ((start ^^^ mix) % modulus)))
  | .returned result => (g, .returned result)

/-- A schedule of calls of `_salt_multiply`, each of which is at some place. -/
def multiplyRun (calls : Nat → Multiply) (g : Globals) (pcs : Nat → At) : List Nat → Globals × (Nat → At)
  | [] => (g, pcs)
  | k :: ks =>
    let (g', pc) := multiplyStep (calls k) g (pcs k)
    multiplyRun calls g' (put pcs k pc) ks

/-! ### the event loop -/

/-- rng.py:67 `_run = new_event_loop().run_until_complete`, rng.py:278-283: all calls of `random_number_generator` use one event loop. Threads enter
`run_until_complete`, which raises `RuntimeError` if the loop is running, and leave it. -/
inductive LoopEvent where
  | enter (k : Nat)
  | leave (k : Nat)

/-- Which thread runs the loop, and the threads whose calls have raised. -/
structure Loop where
  runner : Option Nat
  raised : List Nat
  returned : List Nat

/-- One event. -/
def Loop.step (s : Loop) : LoopEvent → Loop
  | .enter k =>
    match s.runner with
    | none => { s with runner := some k }
    | some _ => { s with raised := k :: s.raised }
  | .leave k => if s.runner = some k then { s with runner := none, returned := k :: s.returned } else s

end Aiootp.Random
