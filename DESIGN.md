# A Lean 4 model of rmlibre/aiootp

`properties.jsonl` lists the properties, `MANIFEST.json` maps each one to the
theorems that settle it, `lean/Verif/` holds the model and the proofs,
`seeded/LOG.jsonl` logs the wrong programs the theorems were tried against.

## 1. Layout and conventions

* One model file per area of the code (`Verif/Model/*.lean`): shallow, total,
  computable functions that mirror the Python functions branch by branch.
  Every definition cites the file and lines of `/repo` it models and states the
  simplifications.
* Helper lemmas live in `Verif/Lemmas/*.lean`; the theorems named in the
  manifest live in `Verif/Props/*.lean`, next to `example`s showing that their
  hypotheses are met by a concrete, non-trivial case.
* Bytes are `List UInt8`, Python integers are `Nat`/`Int`, exceptions are values
  (`Except Err α`), so error branches are part of the model.
* Randomness, clocks and hash functions are *parameters*: a theorem that does not
  constrain them holds for whatever they return. `hashlib` objects are modelled
  by the list of bytes absorbed so far, with `digest` an arbitrary function of it.
* Concurrency is modelled by small-step transition systems whose atomic steps are
  the individual deque / attribute / file-system operations; properties are
  invariants proved by induction over arbitrary schedules.
* When the code does not have a property, the negation is proved with a concrete
  witness and the part that does hold is proved under the suffix `_partial`.

## 2. Plan per property

| Id | What is modelled | How it is proved |
|----|------------------|------------------|
| C01-C04, C06 | `generics/canon.py` completely (pack, unpack, key encoding, ljust) incl. all error branches | structural induction over items; a decoding lemma for `encode ++ rest`; C03 is false as stated: counterexamples + exact characterisation |
| C05 | `generics/hashing.py` absorbed bytes | injectivity for keys that take the same number of blocks; counterexamples for different numbers of blocks and for calls with and without a key |
| C07 | `byte_io.py` url-safe base64 (RFC 4648 codec modelled at the bit level) | induction on 3-byte groups |
| C08, C10 | `transform.py` base conversion, `byte_io.py` filenames | induction on digits; C08 false for leading zero bytes |
| C09 | phrase codec, with the word table as parameter + table facts checked | induction on bytes; false for the empty string |
| C11 | `_gentools.py` batch, resize | well-founded induction on length |
| C12-C14 | `_permutations/*` arithmetic incl. cycle walking loops | number theory mod a prime; orbit argument for termination |
| C15-C18 | `randoms/ids/*` | bijectivity of C13 + field packing; step model of the ticker for C17 |
| C19 | `asynchs/clocks.py` | arithmetic |
| C20 | `ciphers/padding.py` | list arithmetic for every config |
| C21-C28 | `ciphers/*` one-shot and streaming encryption, over an abstract XOF | induction over blocks with a lock-step invariant of the two sides; transcript injectivity for C24, C28 |
| C29, C31 | `stream_hmac.py`, `key_bundle.py` state machines | invariants over call histories |
| C30 | `decipher_streams.py` flag logic | counterexample history + partial theorem; `Props/StreamTimestamp` for timestamps of any size |
| C32 | config checks | linear arithmetic over all configs |
| C33-C37 | `asynchs/guards/*` as transition systems | inductive invariants |
| C38-C39 | `_paths.py` salt files as interleaved file-system steps | counterexample schedule + invariants |
| C40-C46 | `databases/*`, file system = map from names to blobs, crash points between writes | refinement to an abstract map; invariants; counterexamples |
| C47-C49 | `keygens/passcrypt/*` format, ranges, index arithmetic | codec round trip; arithmetic |
| C50-C51 | `commons/*` attribute protocols | invariants over call histories |
| C52-C56 | DH, key objects, signer/verifier, mnemonics, kdf copies | equational reasoning over abstract primitives |
| C57 | the decoder of `byte_io.py` on texts that no encoder made | counterexample for every token + injectivity on made tokens |
| C58 | `asynchs/clocks.py` with binary64 division (round to nearest even) written out | arithmetic; counterexample |
| C59 | `cipher_interface.py` tokens = C07 composed with C21/C22 | composition; counterexample for changed tokens |
| C60 | `_paths.py` asynchronous functions on one event loop, beside threads | a task pauses after a bounded number of operations, so the loop's schedule is fair to the guards and C35 applies; every continuation of a blocked state stays blocked |
| C61-C62 | `curve_25519/*` exchange objects, derivation inputs | injectivity of the packed transcript; induction over call histories |
| C63 | `mnemonics.py`, the word list of `datasets.py` | counting residues; the list is checked to have 2048 different words |
| C64 | `profile_tokens.py`, `generate_profile`, `delete_database` | induction over histories of logins and deletions; counterexample |
| C65-C66 | `randoms/*` generators, threads and forks as interleaved steps | inductive invariant; counterexample schedule |
| C67 | the hash inputs behind the keys of each block of `ciphers/*` | induction over the blocks, injectivity of the hashed bytes |
| C68 | `commons/configs.py: Config.set_config_id, ConfigMap` as a state machine with the ids of all configs | invariant over histories; the part without `clear()`, and the negation for `clear()` |
| C69 | `asynchs/concurrency_interface.py: submit, gather` with the pool of the standard library as a step relation over callers, queue and workers; functions are leaves or call `gather` | invariant of all reachable states, evaluation relation as specification, a measure for termination; the part without nesting, and a deadlock for every number of workers |
| C70 | `asynchs/concurrency_interface.py: new` with caller, worker and a pipe of limited capacity, over all schedules | invariants; parts for threads and results that fit, negations for larger results and exceptions |
| C71 | `databases/async_database.py`: calls as steps between `await`s, the tasks of a `gather` as parts with steps of their own; the model of the synchronous class is the specification | simulation of a coroutine by the synchronous calls; invariants of the spawned tasks |
| C72 | the same with any number of coroutines and all schedules | coroutines with tags of their own: frame and agreement with a run alone, by induction on the schedule; for one tag, schedules with an outcome that no order has |
| C73 | `databases/async_database.py: ametatag` over all schedules | invariant for the part; for every database, a schedule with two objects; what it does to the data, with the model of databases |
| C74 | `_exceptions.py: Ignore` as an interpreter of blocks, with handlers as parameters; a `try` statement as specification | equality of the two as state transformers; induction on programs for the records of handlers; a witness for the stale `error` |
| C75 | `commons/slots.py`, `commons/namespaces.py`: containers with ordered dictionaries and what is seen of them; a map as specification | refinement over histories; order and copies by induction; `repr` of masked containers as independence of values |
| C76 | `_gentools.py`: iterators as functions on a shared state, generators as iterators over sources; what a loop sees as a relation | induction on runs of the sources; induction on histories for `popleft`; a run without end for `azip()` |
| C77 | `randoms/entropy_daemon.py`: stores and loads as single steps of callers and daemon threads, a clock that moves by itself | invariants over all schedules; a distance to the end after `cancel`; schedules for the three failures |
| C78 | `generics/byte_io.py`: calls as open and any number of transfers of any positive size, interleaved | invariants over all schedules; schedules for the two failures |
| C79 | `ciphers/cipher_streams.py`: each access of `buffer`, iteration and `finalize` to what the stream shares is a step, steps of all users interleave | invariant over all schedules (queue, counted bytes, guard, ratchet), refinement to the sequential stream of C26; schedules for the failures with two takers |
| C80 | `ciphers/decipher_streams.py`: each access of `buffer`, iteration and `finalize` to what the stream shares is a step, steps of all users interleave | linearization: an invariant relates every state to one that calls of a single thread reach; termination measures for progress; schedules for the failures |
| C81 | `_permutations/affine_permutation_config.py`: `_count_bit_switches`, `is_likely_safe_multiplier`, `_derive_new_multiplier`, and the table of primes | Pocklington's theorem, and for the large sizes the theorem of Goldwasser and Kilian on elliptic curves (Lemmas/Ecpp), with a certificate for each prime that the kernel computes; Fermat's test for the numbers before it; the search loop by induction |
| C82 | `keygens/curve_25519/ed25519.py`: `sign`, `verify` | on C53, by cases on the argument |
| C83 | `keygens/curve_25519/shared_interface.py` with threads, a step for each access to the object | invariants over all schedules; schedules that break the property |
| C84 | the exchange objects as programs of reads and assignments of their attributes; bursts of coroutines between `await`s, single accesses of threads | invariants over all schedules, by induction on the programs; schedules that break it for threads |
| C85 | the orders of unlinked files that `delete_database` allows, cut off anywhere; opening and deleting what is left | mutual induction on trees and their metatags: a database is whole in the manifest, or gone |
| C86 | registries as functions from ids; `GUIDConfig`, `GUID.__init__`, `new`, `read` for any configuration | equal sizes: the chain is a permutation; else a history that ends in a raw guid of bytes 0xff, or a key chosen so that the result does not fit |
| C87 | `json.dumps(value).encode()` and `json.loads` of CPython for trees of values, with floats as a parameter | mutual induction over the value: the scanner reads each dumped text up to the delimiter; a lemma about pairs of surrogates; pairs with equal keys by induction from the right |
| C88 | the coroutines of C71 with cancellations at any step, and what helper threads still do after them | coroutines that are not cancelled agree with one that is alone; invariants of each call say that only files of cached tags and the manifest are touched; a save makes them whole |
| C89 | any number of database objects with their own caches and manifests, and one directory; calls of all objects in any order | each object agrees with one that is alone, as far as its own tags are concerned; the manifest is always one that some object wrote |
| C90 | the existing models of the receiving functions | case analysis of every way to refuse, for all inputs; the accepted texts are described independently in `Spec/Refusals.lean` |
| C91 | the salt file calls of C38/C39, for a list of processes that end after any number of steps | invariants over all steps of all processes |
| C92 | the messages hashed for constants, at all places of the package, with the table of names | injectivity of the encoding (C05), case analysis over places |
| C93 | `deniable_filename` for all keys and sizes | segments as a list of byte strings, xor of numbers and bytes |
| C94 | every call of the asynchronous streams, cancelled at any of the places where it waits | simulation by the synchronous streams of C26 (sender), balance of bytes taken and given out (receiver) |
| C95 | the ciphers of C21 with a hash function drawn at random on inputs that contain the key | `bytes_encrypt` as a decision tree of hash queries; no query is asked twice, and each answer is added to a part of the message; counting of functions by trees |
| C96 | the ciphers of C21 with a hash function drawn at random on inputs that contain the key | another tag of the input that is hashed last for an attempt changes neither the messages nor what is hashed for the attempt (injectivity from C24); so hash functions can be counted with all tags in place of one |
| C97 | C26 and C27 with a hash function drawn at random on inputs that contain the key | another tag of the transcript that was hashed changes neither the packets sent nor which packets are taken, as block ids are made of shorter digests; then as for C96 |
| C98 | C26 with a hash function drawn at random on inputs that contain the key and on inputs of block ids; calls on any number of streams, chosen by what was seen | the whole play is a tree of hash queries; means over lazily drawn answers, a coupling of two plays with alike choices up to a repeated query; the chance of one is summed over pairs of blocks |
| C99 | C95 and C96 together: calls of bytes_encrypt and bytes_decrypt in any order, each chosen by what was seen | unless one of q decryptions passes, the play is the one in which all are refused; that one is a tree of hash queries without repetitions, so its outcomes are as frequent for alike choices; the bound of C96 for the first that passes |
| C100 | Model/Database.lean with the keys, names and cipher of Model/DatabaseKdf.lean; an author chooses calls by what was written | simulation with a database whose ciphertexts stand for what was encrypted, so that the run is a program that only asks for encryptions; C95's trees without repetitions; the names of exchanged tags are exchanged in the hash function, and unlucky functions counted |
| C101 | the same machines as C95, in conversations that may repeat sessions | the first digest of a session is asked for once and remembered; what a message asks after that begins with its own header, and with halves of a digest that is new to it; the chance that halves meet those of an earlier message is bounded by induction over the messages |
| C102 | C101 with ivs and siv keys from a uniform tape | birthday bound by an injection for each pair of places and a union bound; C101 for each tape without repetition, summed over all tapes |
| C103 | `Model/CipherShared.lean`: hash objects on a heap, calls as trees of uses of hash objects, an interpreter that interleaves them | a logic of calls that change only objects they made; each function refines the functional model in it; the invariant that calls own disjoint objects is kept by each turn; well-founded induction on the call for endless schedules |
| C104 | the models of C96 and C100; `Spec/DatabaseTamper.lean`: a directory that is replaced before a reading, and what it means to be deceived | the calls are a program of requests (C100); a reading that deceives is a ciphertext that is not a message under its key and gets through; the counting of C96 for such programs, with keys of two sizes |
| C105 | the models of C96 and C100; `Spec/DatabaseAttack.lean`: a directory that is replaced before every call, what is seen of the calls, and values that nobody stored | a program of requests whose database refuses what it did not ask for; as long as nothing gets through the program and the database do the same, by a simulation; the first time something gets through is an attempt as in C104; if nothing gets through, an invariant traces each value to the call that stored it; for C105_chance the chance that names or keys meet is counted, where a key's question depends on the name's digest |
| C106 | `KdfUse`: a kdf's life, with the four hash functions; `Spec/KdfUse.lean`: all that is hashed for a key | injectivity of each of the three messages (C04, C05); a second key and domain that encode to the same message, by a size that does not depend on its own digits |
| C107 | the model of C106 with hash functions drawn at random; `Spec/KdfSecrecy.lean`: an attack, the test of a key, and of drawn bytes in its place | the attack is a tree of hash queries; the last query's answer can be drawn anew unless it was asked before; that happens only if two digests begin with the same 64 bytes, or one with those of a key or the salt (C04, C05), whose chance is summed over pairs of queries |
| C108 | the models of C59 and C96; `Spec/TokenForgery.lean`: orders, what a token grants, and a forged token | a forged token is a forged ciphertext, as ciphertexts come back with their own data and age (C21, C22); C96 counts these |
| C109 | the model of C65; `Spec/RandomBytes.lean`: a player who chooses all moves, the game with a drawn `shake_256`, and with drawn answers | the game is a tree of hash queries; on each path it is a run of the model of C65 with the calls that were chosen, so that no question is asked twice, and the answers are independent |
| C110 | `DatabaseWith`: arbitrary code in the block, and `__exit__` | a block is some history of C41, by induction on the block; writes of a metatag do not touch the manifest of the parent |
| C111 | C26 and C27 with a hash function drawn at random on inputs of block ids; any number of attempts, chosen by what was sent | what is sent and what is hashed before a made up packet do not depend on the digest that is its block id, as the constants of the hash objects differ; so for each packet offered, at most 1 in 256^id digests lets it through |
| C112 | C48 with a hash function drawn at random; all that is hashed, by the calls and by the one who guesses, as one tree of queries | by C48 an accepted wrong guess shows two inputs, both among those hashed, whose digests begin with the same bytes; of all functions, few give that among so many digests (birthday bound) |
| C113 | the trees of C112; one drawn passphrase of a set, hashed, and all that the guesser hashes after | the tag's message begins with a session's result, which is hashed from a message that begins with a digest of the parameters with the passphrase: unless those were hashed by the guesser, each is met by chance only; so the tag may be drawn anew, without the passphrase; then count the candidates whose parameters are hashed or that are guessed |
| C114 | the trees of C112 and C113 | by lengths, the inputs of the walk are different; each of their digests is a piece of the memory that the first of the last steps absorbs whole, but for the first piece, whose digest is also at the reflected place; so the last input shows them all, and the message of the tag shows the results of all cores: whoever has hashed it without one of those inputs has met a digest by chance. If no digests meet, the inputs of different candidates and cores differ, as they begin with the digests of different messages; count them. For the converse, a guesser that follows the tree of the calls |
| C115 | `ChainShared`: a chain and all calls on it, asynchronous ones from one `await` to the next, plain ones by single accesses | linearization: a log of the calls in the order in which they take effect (`permute` when it reads `_in_key` at its begin, `invert` at its end) is kept by every action, and shows what each call under way will give; a schedule that loses a step, for every key, with C14 |
| C116 | `GuidShared`: a GUID object and all calls on it, from one `await` to the next, with the readings of clock and random source | invariant: the object is what `new()` for each reading, in their order, makes of it; each call under way will give the guid of its reading, or what `read` gives; distinctness by C17; a rank for the end of each call |
| C117 | `BundleShared`: the bundle of `Bundle` with all calls on it; those of threads by single accesses (the check, the check of the frozen slot, the assignment, the checks of the modes) | invariant: a call that has registered is the only one, and the register is set from then on; another invariant for the directions; the schedule in which both threads check first |
| C118 | `Signer`: the signer of `Package` from its creation through any sequence of calls | the scope and the files are what was given, one assignment after the other; a dictionary holds what was assigned last; invariant: every stored signature was made for contents that were the summary at the time |
| C119 | `Registry`: `add_type` with its checks; threads by the accesses to the class dictionary (the look-up, the assignment) | case analysis of the checks; invariant: what was checked is not defined yet, what was returned is defined; the schedule in which both threads check first |
| C120 | `Packaging`: `make_module`, `remake_module`, `remake_subpackage` on trees of packages, with `sys.modules` | mutual induction on the tree: what is returned does not depend on `sys.modules`, a call changes only the names in its tree, and each name of the tree is set once |
| C121 | `Passcrypt` with any `Config` | the format is read back with any limits; the check of the default salt size in `verify`; a stricter config hashes as `passcrypt_spec` does |
| C122 | `Metadata`: `_construct_metadata_constant` of the three config classes, with the texts of ints, slices and ranges | the texts are split at their first commas, `canonical_pack` is injective (C01), so every item and from the items every value is determined; what a tag hashes begins with the constant made of the metadata, so a ciphertext that two ciphers decrypt shows that the metadata agree; the same metadata for two units of time |
| C123 | `KdfTable`: the `ShakeConfig` objects as a heap of attributes that can be set once, the dict of roles, the order of the steps of a config, histories of configs | induction over the KDFs of a config and over the history: what is set is kept; C122 for the bytes that two KDFs begin with; the same bytes for KDFs with the same name |
| C124 | the models of C21 and C22 with configs that were accepted and nothing more | C21 and C22 for the good ones; a tag that is compared has another length than the one that is made; `ljust` raises for pads of other lengths |
| C125 | `Debug`: the flag, the debug modes of event loops, calls in steps, schedules of threads; `Views` for `repr` | induction over histories and schedules; C75 for `repr`; counterexample histories |
| C126 | `GuidSets`: the comparisons and hashes of containers, sets and dicts as lists of keys that are compared if their hashes are equal | the parts of a guid have the sizes of the config, so the sort key determines it; `bytes` are totally ordered; induction over what is added |
| C127 | `Messages`: `str.replace` as a loop over the text; the templates and the order in which they are filled | a character that is not in the placeholder cuts the text; ints contain no letters; what does not contain the placeholder is left as it is |
| C128 | `PasscryptErrors`: values with class, length and content; the checks and the exceptions they raise | two inputs of the same classes and lengths give the same exception; case analysis of the checks |

Not expressible in such a model: pseudo-randomness and collision resistance of
SHAKE (computational; C95–C102, C104, C105, C107–C109, C111 say what follows for the ciphers if the function is one
drawn at random on inputs that contain the key), quality of entropy, side
channels (timing of comparisons), memory wiping, OS scheduling fairness.

## 3. Trusted base

* Lean 4.33.0's kernel; the only axioms used are `propext`, `Classical.choice`
  and `Quot.sound`.
* The reading of Python semantics stated in the comments of each model file.
* What is not modelled is listed in section 4 and grows with the work.

## 4. Modelled / not modelled

Every model file names the functions it covers with their line numbers. In short:

| Model file | Code |
|------------|------|
| `Py`, `Slice` | the Python operations used (integers <-> bytes, slices, exceptions) |
| `Canon` | `generics/canon.py`, `generics/hashing.py` |
| `Text`, `WordList` | `generics/byte_io.py`, `generics/transform.py`, `_gentools.py` (batch, resize) |
| `Perm` | `_permutations/*` |
| `Ids` | `randoms/ids/*` |
| `Clock` | `asynchs/clocks.py` |
| `Padding`, `CipherConfig`, `Cipher`, `Shmac`, `Bundle`, `Stream`, `Token` | `ciphers/*` |
| `Guard`, `GuardMulti` | `asynchs/guards/*` |
| `Salt` | `_paths.py` salt files |
| `Database`, `DatabaseTree`, `DatabaseKdf` | `databases/*` |
| `Passcrypt` | `keygens/passcrypt/*` |
| `DomainKdf`, `Keys`, `Mnemonic`, `Package` | `keygens/*` |
| `Slots`, `ConfigMap` | `commons/*` |
| `Profile` | the user profiles of `databases/*` |
| `AsyncDb`, `AsyncMetatag` | `databases/async_database.py` under concurrent use |
| `Ignore` | `_exceptions.py: Ignore` |
| `Views` | `commons/slots.py`, `commons/namespaces.py`: views and `repr` |
| `Pool`, `Spawn` | `asynchs/concurrency_interface.py`, `threads.py`, `processes.py` |
| `Random` | `randoms/*` (tokens, seeds, threads, forks, salted multiplication, the shared event loop) |
| `Gens` | `_gentools.py`, the generators that are not in `Text` |
| `Daemon` | `randoms/entropy_daemon.py`: the delays and the loop, without the values that are hashed |
| `Files` | `generics/byte_io.py`: `read`, `write`, `append` and the asynchronous versions |
| `StreamShared` | `ciphers/cipher_streams.py`: `CipherStream` used by many threads or coroutines |
| `UnstreamShared` | `ciphers/decipher_streams.py`: `DecipherStream` used by many threads or coroutines |
| `KeyShared`, `ExchangeShared` | key objects and key exchange objects that threads or coroutines share: `keygens/curve_25519/`, `commons/instances.py` |
| `DatabaseAsync`, `DatabaseDelete` | the orders in which `asave_database` writes files and in which a database is deleted: `databases/async_database.py`, `sync_database.py` |
| `IdConfigs` | `randoms/ids/guid_config.py`, `sequence_id_config.py`, `guid.py`, `raw_guid.py` for configurations that users register |
| `Json`, `DatabaseManifest` | the module `json` of the standard library, as `cipher_interface.py` and the databases use it; the text of a manifest |
| `AsyncCancel` | `async_database.py`: calls that are cancelled; what threads still do (`byte_io.py` `awrite`, `loops.py` `wrap_in_executor`) |
| `EventLoop` | `_paths.py`: the guards of the salt file functions, used by the tasks of an event loop and by threads |
| `DatabaseShared` | `sync_database.py`: several objects on one directory |
| `SaltCrash` | `_paths.py`: salt files of processes that die |
| `Domains` | `generics/domains.py`, the strings of `_constants/misc.py`, and the callers of `encode_constant` |
| `Deniable` | `_paths.py`: names of salt files |
| `StreamCancel` | `cipher_streams.py`, `decipher_streams.py`: cancelled calls of the asynchronous classes |
| `CipherShared` | `cipher_kdfs.py`, `key_bundle.py`, `stream_hmac.py`, both ciphers and `cipher_interface.py` with mutable shared hash objects, and calls that take turns (C103) |
| `KdfUse` | `keygens/domain_kdf.py`: construction, updates and derivation with the four hash functions |
| `DatabaseWith` | `with` blocks of `databases/sync_database.py` and `async_database.py` |
| `ChainShared` | `_permutations/affine_xor_chain.py`: one object that coroutines and threads share |
| `GuidShared` | `randoms/ids/guid.py`: one object that coroutines share |
| `BundleShared` | `ciphers/key_bundle.py`, `stream_junction.py`: one bundle that coroutines and threads share |
| `Signer` | `keygens/package_signer.py`: the creation of a `PackageSigner`, and any sequence of calls |
| `Registry` | `_typing/interface.py`: `Typing.add_type` (of `Typing` itself, not of classes derived from it) |
| `Packaging` | `commons/packaging.py`: trees of packages and `sys.modules` |
| `Metadata` | `PACKED_METADATA` of `keygens/passcrypt/config.py`, `ciphers/shake_permute_cipher_config.py`, `ciphers/dual_output_shake_cipher_config.py`; `ShakeConfig.prepare_factory` |
| `KdfTable` | `ShakeConfig.prepare_factory`, `_alias_primitives_values` (the table), `_prepare_kdf_factories`, `key_base_kdf`, `DualOutputKDFs.__init__`, `ShakePermuteKDFs.__init__` of `ciphers/` |
| `Debug` | `_debug_control.py`: `DebugControl` (without its warning), and the switch in `asynchs/loops.py` |
| `GuidSets` | `RawGUIDContainer.__hash__`, `__eq__`, `__lt__`, `__gt__`, `sort_key` of `randoms/ids/raw_guid_config.py`; the sets of Python |
| `Messages` | `TimestampExpired`, `InvalidCiphertextSize`, `invalid_length`, `must_be_type`, `invalid_key_size`, `block_id_is_too_small`, `block_id_is_too_big` and the `invalid_…` messages of `PasscryptIssue` in `_exceptions.py` |
| `PasscryptErrors` | `Metadata` and the `improper_…` and `untrusted_resource_consumption` exceptions of `PasscryptIssue` (`_exceptions.py`), `validate_inputs` of `keygens/passcrypt/config.py`, the check of resources of `keygens/passcrypt/hash_format.py` |

What the models take as given, as parameters or hypotheses that are written in
the statements:

* SHAKE and SHA3 are arbitrary functions from the absorbed bytes to the output.
  No theorem assumes that they are one-way or free of collisions: where a
  property needs that, its theorem ends with "or here is a collision" and names the
  two inputs, which are always messages that the calls in question hash (`Spec/Collision.lean`;
  that some collision exists somewhere is true of every hash function and says nothing).
  C95–C102, C104, C105, C107–C109, C111–C114 count the functions for which something happens, of all functions on
  finitely many inputs.
* Curve operations are an arbitrary structure; Diffie-Hellman commutativity and
  "a signature made is valid" are hypotheses where they are used.
* JSON is a pair of functions in most models; the theorems say for which values they assume
  that reading gives back what was written. `Model/Json.lean` models the functions, and
  C87 says for which values it is so. There, writing and reading finite floats is a parameter
  (`float.__repr__` gives a text of the usual form from which `float` gives the number back).
* Random values and system clocks are arbitrary inputs.
* The synchronous and the asynchronous variant of a function differ only in
  `await asleep()`; one model stands for both, except for guards, salt files,
  databases and metatags, where the difference matters and is modelled.
  `tools/twins.py` compares the 190 pairs as text, without awaits, prefixes of names, sleeps,
  strings and annotations. What differs beyond that: the salt-file functions and `ByteIO`
  (`aiofiles` for `Path`; the sync `delete_salt_file` passes the path as `missing_ok`, after a
  `chmod` that raises for missing files anyway), the pad byte of the entropy pool (modelled),
  databases (`gather`, modelled), functions which call their twin (GUIDs, permutations, X25519,
  Ed25519, the random number generator), the mode of key bundles and junctions, the concurrency
  interface (takes async functions), `_gentools` and iterators (`async for` for `for`).
* A file write is one step, unless a theorem says that it is torn.
* Threads interleave between single operations on deques, attributes and files.
  Single operations of these kinds are atomic, as in CPython.
* Machine limits (memory, recursion depth, sizes of 2^64 and more) are not
  modelled, except where the code itself has a width.

Not modelled: `_typing/*` (no behaviour), `__engagement` (interactive helper),
`asynchs/loops.py` (thin wrappers of the standard library), pools that break or
are reset, `asynchs/aos.py` (wrappers of `os`), documentation strings.

## 5. Disagreements found between code and properties

Each is a theorem (in brackets) about the model, with a witness or for every
input. The properties concerned are marked "partial", unless the finding is
beside the property.

* `canonical_unpack` accepts surplus padding blocks and truncated trailing empty
  items, and lets `ZeroDivisionError` and `OverflowError` escape (C03).
* `hash_bytes` with keys that take different numbers of blocks, or with and without a key, can absorb the same bytes (C05).
  `passcrypt` with one core inherits this: for every passphrase there is another
  one, with another aad, that is accepted (`C48_collision`).
* Filenames lose leading zero bytes (C08); the empty phrase raises `KeyError`
  (C09); `int_as_base` with base 1 never ends (`C10_base_one_diverges`).
* The url-safe decoder skips foreign characters and ignores unused bits, so a
  token has many spellings (C57) and a changed token may be accepted (C59).
* `AffinePermutation.permute` never ends for most inputs outside of its domain
  (`C12_outside_domain_diverges`).
* `SequenceID` repeats within the documented span (C15).
* Guids repeat when threads share an object, when two objects share a node id,
  and when the clock stands still for longer than the ticker (C17).
* Clock readings are divided as floats and are not exact (C58); timestamps of
  the future are accepted by `test_timestamp` (`C19_future_accepted`).
* Padding frames above 256 bytes are accepted but the sentinel is truncated
  (C20); headers that do not fit into the frame are accepted (C32).
* A missing salt is not refused for decryption, and a failed call uses a key
  bundle up (C31).
* Iterating a `DecipherStream` before the first packet switches the check of the
  time to live off (C30).
* Two monitors may start out of order (C34). A task cancelled while it waits
  blocks the deques for ever (C35). A stray `__exit__` breaks the exclusion of
  others (`C36_stray_exit_breaks_exclusion`). Records of multi guards leak (C37).
* Concurrent readers of a salt file fail (C38). Privileged users replace salts
  (C39). `adelete_salt_file` may hang the event loop (C60).
* Databases: cached values ignore the time to live, a failed
  `set_tag(cache=False)` drops the earlier value (`C40_*`); a database that was
  never saved loses `set_tag(cache=False)` values, a torn manifest cannot be
  opened, a torn file may read as `None`, a crash after the manifest was written
  lists a tag without a file (C42); files stay behind after a reload without a
  save, and files named 0 and 1 are deleted (C44); a tag may be listed without a
  value, and `db[tag]` sees only the cache (C45).
* `PasscryptHash` does not check the size of the timestamp
  (`C47_timestamp_size`); the first row absorbs nothing of its reflected row
  (`C49_reflected_row`).
* Frozen objects: `clear()` empties the dictionary before it raises,
  `__class__` can be replaced by item assignment, `_slots_set` hides slots, an
  undeclared `__dict__` can be replaced (C50); `_validate_type` can be hidden
  (C51).
* An exchange server that is given a malformed key is spent
  (`C62_malformed_key`).
* The checksum and signature of a package summary can be respelled
  (`C54_respelled`); files are read and compared before the signature is checked
  (`C54_unsigned_probe`); files with the name of a method cannot be added
  (`C54_file_names`).
* Profiles: a wrong passphrase is never refused but opens a database of its own;
  deleting that one deletes the salt of the right one (`C64_wrong_delete`); an
  empty passphrase is refused only after a salt file was written
  (`C64_empty_passphrase`); the minimum length of passphrases is not checked
  (`C64_accepts`).
* All calls of `random_number_generator` share one event loop: a call during the
  call of another thread raises `RuntimeError` (`C66_overlap_raises`).
* `ConfigMap.clear()` raises and has emptied the map (`C68_clear_empties`); a
  config that is refused is marked with the id all the same
  (`C68_refused_is_marked`); names of methods are accepted and hide the method
  (`C68_method_shadowed`); an entry `_slots_set` lets the declared type be
  replaced (`C68_type_replaced`).
* A guard that is entered again while its first user waits makes that user fail
  (`C36_reentered_never_starts`); a task that is cancelled while it leaves a
  guard leaves the record behind (`C37_cancel_leaving_keeps_record`).
* A function that runs in the shared pool and calls `gather` on it can wait for
  ever: for every number of workers there is a program without recursion whose
  workers all wait for tasks in the queue (`C69_nested_deadlock`). Processes
  have pools of their own in each child and are not affected.
* `Processes.new` never ends if the pickled result is larger than what the pipe
  holds, because the pipe is read after the process has ended
  (`C70_large_result_hangs`). An exception of the function, and a result that
  cannot be pickled, reach the caller as `queue.Empty` (`C70_exception_is_empty`,
  `C70_unpicklable_lost`).
* Coroutines that use one tag of an `AsyncDatabase`: a query with `cache=True`
  may undo a set (`C72_set_lost`), the end of a `set(cache=False)` drops a newer
  value (`C72_set_dropped`) or makes another one raise (`C72_set_raises`), a
  query may return `None` for a tag that always had a value (`C72_query_none`),
  a file may become a mixture of two ciphertexts (`C72_torn_file`). A save of the
  database may overwrite a newer saved value (`C72_save_stale`) and raises
  `AttributeError` if a value leaves the cache meanwhile (`C72_save_raises`).
* Two coroutines that ask for a new metatag at the same time get two objects with
  different salts; what is saved through the first one is lost
  (`C73_two_objects`, `C73_data_lost`).
* An `Ignore` object that is used for two blocks still has the exception of the
  first one in `error` after a second one that raised nothing
  (`C74_error_stale`).
* `repr` of a container with an item named `""` raises `IndexError`, also while
  debugging is off and whatever else it holds (`C75_repr_raises`).
* `azip()` without arguments never ends, and never lets the event loop run
  (`C76_azip_none`).
* A temporary delay of the entropy daemon that ends while the daemon sleeps is
  never used (`C77_temporary_unused`). The package's own calls ask for at least
  the longest sleep, so they are not of this kind.
* `set_temporary_max_delay` during the end of an earlier temporary delay may
  make the new one last for ever (`C77_temporary_forever`).
* `EntropyDaemon.start` after `cancel` runs one round and ends
  (`C77_cancelled`).
* `ByteIO.write` (and with it every saved file of the package) empties the file
  first: a crash then loses both contents, and a reader sees nothing
  (`C78_write_loses`); two writes at once may leave a mixture (`C78_write_mixed`).
* Only `buffer` and the padding of `finalize` are guarded. Two threads that take
  packets from one cipher stream at once may get `ValueError`
  (`C79_permute_two_takers_raise`), or a packet with a wrong id, while the right
  one is given to nobody (`C79_permute_two_takers`).
* A decipher stream marks its timestamp as tested before it tests it. A second
  thread that iterates at that moment skips the test and gets plaintext of a
  stream that has expired (`C80_permute_two_takers`). A single thread that
  iterates before there is a packet gets `IndexError`; if it goes on while
  another buffers packets, the first block it gets begins with the timestamp and
  the random key of the stream (`C80_permute_impatient`).
* `AffinePermutationConfig` says that it takes sizes up to 4096; all but 41 of them
  raise `KeyError` (`C81_other_sizes_raise`).
* Two threads that call `generate` on a key object at the same time can both return,
  and leave the secret key of one with the public key of the other: the object rejects
  its own signatures. A key can also be replaced after `generate` has returned
  (`C83_keys_that_do_not_match`, `C83_secret_key_lost`).
* Two threads that call `receive` on one exchange object can both get a kdf, although
  its attributes can be assigned once: `FrozenInstance.__setattr__` checks first and
  assigns later (`C84_threads_two_kdfs`). The kdf of a 2DH client can then have a secret
  of one peer and a transcript of another (`C84_threads_mixed_transcript`).
* `GUID` ignores `raw_guid_config_id`: it takes the raw guids that are registered under
  the id of the configuration itself (`C86_raw_id_ignored`). Configurations whose sizes do
  not match are accepted, and some of their guids cannot be made or read
  (`C86_reads_back_iff`). The key size of a configuration is that of the permutation
  registered under its size, not of `permutation_config_id`, so that the default key may not fit
  (`C86_keys`, `C86_configurations_not_checked`).
* `json_encrypt` and tags change some values silently: tuples come back as lists
  (`C87_tuple_changed`), keys that are not strings come back as strings, so that of
  `{1: a, "1": b}` only one item comes back (`C87_item_lost`), and a high surrogate before
  a low one comes back as one character (`C87_surrogates_changed`). The docstring of
  `AsyncDatabase` mentions the keys.
* A timeout around `aset_tag(cache=False)` can lose the old and the new value of the tag:
  the file is emptied, the cached value dropped, and queries return `None`
  (`C88_set_lost`). A cancelled `apop_tag` can leave the value that was saved before the
  current one, for a tag that is not listed (`C88_pop_half`). A thread of a cancelled
  `asave_database` can empty the manifest after a later save has returned
  (`C88_late_thread`); the database can then not be opened.
* Two `Database` objects (or processes) on one directory: the list of tags is that of the
  object that saves last, so a tag that another one has added and saved is no longer
  listed (`C89_unlisted`). Objects that were opened before the first save have different
  salts; after both have saved, all values of one of them can no longer be read
  (`C89_new_salts`). An object that has only read a tag writes the old value back when it
  saves (`C89_reverted`).
* Input from outside can raise exceptions that are not meant for it: `canonical_unpack`
  raises `ZeroDivisionError` for every encoding with a block size of zero
  (`C90_unpack_zero_division`) and `OverflowError` for every declared size of 2^63 or more
  (`C90_unpack_overflow`); `PackageVerifier.verify_summary` raises `KeyError`, `TypeError`
  and `AttributeError` (`C90_package_other_exceptions`).
* `SecureSaltPath` that is killed after it has opened the file leaves an empty file: later
  processes neither make a salt nor read one (`C91_ensure_dies`). `update_salt_file` that is
  killed loses both salts (`C91_update_dies`). `read_salt_file` that is killed leaves the file
  open, so that `make_salt_file` replaces the salt (`C91_read_dies`).
* A dictionary stored as `slots_types` in a typed object with an instance dictionary switches
  the checks of types off (`C51_types_hidden`).
* Keys that differ in the order of their segments of eight bytes, or in segments of zeros, name
  the same salt file (`C93_shared`). The documentation says that names are forgeable.
* A call of `abuffer` that is cancelled while it divides its data has buffered the first part of
  it. If the stream is finalized then and the data that is missing has the right size, the tag is
  that of a stream of the first part, and the recipient accepts it (`C94_permute_part_sent`).
* `_atest_timestamp` sets `_is_streaming` before it tests. If it is cancelled in the test, no test
  is made any more, and an expired stream is given out (`C94_permute_ttl_forgotten`).
* After a cancellation inside of the cipher a stream gives out nothing any more
  (`C94_cipher_ends`); a cancelled `afinalize` cannot be tried again (`C94_no_second_try`); and a
  cancellation in `ConcurrencyGuard.__aexit__` makes all later calls of `abuffer` wait for ever
  (`C94_sender_stuck`, `C94_receiver_stuck`).
* Two `DomainKDF`s with one key and different domains can be the same kdf: a long domain can contain the encoding of another call's domain and data (C106). Whoever chooses the domain of one and
  the data of another can make their keys equal without a collision of the hash functions; programs whose domains are constants are not concerned.
* `with db: db.delete_database()` raises `AttributeError` at the end of the block, in place of any exception of the block (C110).
* `with db.metatag("a") as a: ...` writes the files of the metatag only. If `db` has never been saved, its salt is in no file, and
  the values of the metatag cannot be found again (C110, compare C42).
* Threads that call `step` of one `AffineXORChain` at the same time may lose a step: the same input is then permuted to the same
  output as before (`C115_threads_lose_a_step`).
* Two threads that use one key bundle at the same time can both start to encrypt with it (`C117_threads_start_twice`): the register
  is checked first and set afterwards.
* A `PackageSigner` that is given the date 0 states today's date instead (`C118_date_zero`): `date or self._clock.time()`.
* Two threads that add types of one name to `Typing` can both succeed, and one type is lost (`C119_threads_replace`).
* With a passcrypt config whose limits exclude salts of 8 bytes, hashes are made and can never be verified (`C121_strict`).
* The metadata of ciphers does not contain the unit of time (that of passcrypt does). A cipher with seconds and one with minutes that are
  otherwise the same decrypt each other's ciphertexts, and the ttl is misread (`C122_time_unit`, `C122_ttl_misread`).
* The names of KDFs and roles of a cipher config are not checked. KDFs of the same name begin with the same bytes (`C123_same_name`); a config
  whose role names are not those of the package is accepted, but its cipher raises `KeyError` (`C123_permute`), or uses the KDFs of other roles
  (`C123_exchanged`). A config that is refused for its sizes has used up its KDF objects, as they are prepared before the checks
  (`C123_refused_uses`).
* The constructors of cipher configs do not check that a tag fits into what the hash gives for it, or that it is not empty. Such a cipher
  encrypts everything and decrypts nothing (`C124_lost`). They do not compare the size of block ids with its limits: outside of them no
  stream works (`C124_block_ids_never`), and a size of zero, with a lower limit of zero, accepts every block (`C124_block_ids_empty`).
* SHAKE-permute configs whose timestamps are longer than a block are accepted, but a stream reads only the part of the timestamp that is in its
  first block. It is refused as expired at the moment at which it was made, while the same data, decrypted at once, are accepted
  (`C124_fresh_permute`).
* `enable_debugging` raises `RuntimeError` in a thread without an event loop, but debug mode is on afterwards and masked containers show their
  values (`C125_raised_reveals`). An event loop stays in debug mode if `disable_debugging` is called where another one runs (`C125_left`), or
  if threads switch at the same time (`C125_race`).
* Comparing a guid object with anything else raises `AttributeError` instead of giving `False`, and a dict that holds other keys can raise it when a
  guid is looked up (`C126_other`).
* Messages are filled one placeholder after the other, so a name that contains the next placeholder is garbled: the message about the type of an
  attribute `FILE_TYPE` calls it `FILE_<class 'int'>` (`C127_garbled`).

Remark without a theorem: config constructors accept negative sizes.
