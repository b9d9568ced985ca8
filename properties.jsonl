{"id": "C01", "title": "canonical_pack / canonical_unpack round trip", "statement": "canonical_unpack(canonical_pack(*items, blocksize=b, pad=p, int_bytes=s)) returns exactly the sequence `items`, for every call to canonical_pack which does not raise (b >= 1, one pad byte, sizes fitting the declared integer width).", "quantifier": "every finite sequence of byte strings (including empty sequences and empty items), every blocksize >= 1, every pad byte, every integer width 1..255 in which the lengths fit", "why_tests_cant": "The input space is unbounded in number, length and content of items, and in blocksize; delimiters and pad bytes can also occur inside items.", "anchors": ["aiootp/generics/canon.py: canonical_pack, canonical_unpack, encode_items, decode_items, test_canonical_padding, fullblock_ljust"]}
{"id": "C02", "title": "canonical_pack is unambiguous", "statement": "Two calls to canonical_pack that return the same byte string were given the same items in the same order, the same blocksize, the same pad byte and the same int_bytes.", "quantifier": "every pair of argument tuples accepted by canonical_pack", "why_tests_cant": "It quantifies over all pairs of inputs; a canonicalization collision is exactly the pair a test author did not think of.", "anchors": ["aiootp/generics/canon.py: canonical_pack, encode_items, fullblock_ljust"]}
{"id": "C03", "title": "canonical_unpack accepts only canonical encodings", "statement": "If canonical_unpack accepts a byte string and returns `items`, that byte string is the output of canonical_pack on `items` for some blocksize, pad and int_bytes; every malformed, truncated or extended input is refused with CanonicalEncodingError.", "quantifier": "every byte string", "why_tests_cant": "Ranges over all adversarial byte strings, of which only a measure-zero set can be tried.", "anchors": ["aiootp/generics/canon.py: canonical_unpack, decode_items, test_canonical_padding"]}
{"id": "C04", "title": "packed encodings never run into each other", "statement": "No output of canonical_pack is a proper prefix of another one with the same blocksize, so a byte stream obtained by concatenating packed messages (as DomainKDF.update does) determines the whole sequence of messages: two different update histories always feed different byte streams to the hash object.", "quantifier": "every pair of finite histories of update calls, each with an arbitrary non-empty tuple of byte strings", "why_tests_cant": "It is a statement about all pairs of unbounded histories.", "anchors": ["aiootp/generics/canon.py: canonical_pack", "aiootp/keygens/domain_kdf.py: DomainKDF.update"]}
{"id": "C05", "title": "hash_bytes feeds an unambiguous message to the hash", "statement": "Two hash_bytes calls that make the hash object absorb the same bytes agree on the key (or on its absence), on the digest size and on every item of the collection.", "quantifier": "every pair of (key, size, collection) arguments, every hash blocksize", "why_tests_cant": "All pairs of inputs, including keys of different lengths which embed encoded data.", "anchors": ["aiootp/generics/hashing.py: hash_bytes", "aiootp/generics/canon.py: encode_key, canonical_pack"]}
{"id": "C06", "title": "block padding is minimal and block aligned", "statement": "The output of canonical_pack (and of the key encoding used by hash_bytes) has a length which is a positive multiple of the blocksize, and fewer than blocksize pad bytes are added.", "quantifier": "every input and every blocksize >= 1", "why_tests_cant": "Alignment must hold for every residue of the input length modulo every blocksize.", "anchors": ["aiootp/generics/canon.py: fullblock_ljust, encode_key, canonical_pack"]}
{"id": "C07", "title": "urlsafe tokens round trip", "statement": "ByteIO.urlsafe_to_bytes(ByteIO.bytes_to_urlsafe(b)) == b, and the token only contains letters, digits, '-' and '_'.", "quantifier": "every byte string", "why_tests_cant": "Infinitely many byte strings; padding behaviour depends on length mod 3 and the content of the tail.", "anchors": ["aiootp/generics/byte_io.py: ByteIO.bytes_to_urlsafe, ByteIO.urlsafe_to_bytes"]}
{"id": "C08", "title": "bytes <-> filename round trip", "statement": "ByteIO.filename_to_bytes(ByteIO.bytes_to_filename(b)) == b, so distinct byte strings get distinct filenames, made only of characters of the 38-character table.", "quantifier": "every byte string", "why_tests_cant": "Quantifies over all byte strings; the failing class (leading zero bytes) is exponentially rare for random tests.", "anchors": ["aiootp/generics/byte_io.py: ByteIO.bytes_to_filename, ByteIO.filename_to_bytes", "aiootp/generics/transform.py: int_as_base, base_as_int"]}
{"id": "C09", "title": "bytes <-> phrase round trip", "statement": "The phrase made from a byte string by the 256-word table is converted back to the same byte string.", "quantifier": "every byte string", "why_tests_cant": "All byte strings of all lengths, including the empty one.", "anchors": ["aiootp/generics/byte_io.py: ByteIO._bytes_to_phrase, ByteIO._phrase_to_bytes", "aiootp/_constants/datasets.py: _WORD_LIST_256"]}
{"id": "C10", "title": "number <-> string base conversion round trip", "statement": "base_as_int(int_as_base(n, base, table), base, table) == n for every natural number and every table of at least `base` distinct characters (base >= 2), and int_as_base never emits a leading zero digit for n > 0.", "quantifier": "every natural number, base >= 2 and table without repeated characters", "why_tests_cant": "Unbounded integers, bases and tables.", "anchors": ["aiootp/generics/transform.py: int_as_base, base_as_int"]}
{"id": "C11", "title": "batch and resize partition their input", "statement": "Concatenating the chunks produced by batch(data, size=n) or resize(data, n) gives back `data`; every chunk but the last has exactly n elements and the last is non-empty; resize with a `blocks` limit yields exactly the first min(blocks, ceil(len/n)) chunks.", "quantifier": "every sequence, every size >= 1, every blocks limit >= 1", "why_tests_cant": "All lengths and sizes; off-by-one errors occur only at residues.", "anchors": ["aiootp/_gentools.py: batch, resize"]}
{"id": "C12", "title": "AffinePermutation is a bijection inverted by invert", "statement": "For an accepted key, permute maps the integers below 256**size one-to-one onto themselves and invert(permute(x)) == x == permute(invert(x)); the cycle-walking loops always terminate.", "quantifier": "every configured size, every key with a multiplier invertible modulo the prime, every x in the domain", "why_tests_cant": "The domain has 2^(8*size) elements and the loop may iterate an a-priori unbounded number of times.", "anchors": ["aiootp/_permutations/affine_permutation.py: AffinePermutation.permute, invert", "aiootp/_permutations/affine_permutation_config.py"]}
{"id": "C13", "title": "affine xor chains are stepped bijections", "statement": "For AffineXORChain and FastAffineXORChain, at every step of the key schedule invert undoes permute on the whole domain, and two chain objects with the same key that have been stepped/updated the same way stay mutually inverse.", "quantifier": "every key, every size, every history of step/update calls, every x", "why_tests_cant": "Histories and the domain are unbounded.", "anchors": ["aiootp/_permutations/affine_xor_chain.py", "aiootp/_permutations/fast_affine_xor_chain.py"]}
{"id": "C14", "title": "stepping an affine xor chain gives a latin square", "statement": "Between updates, stepping the chain visits 256^size distinct in-keys before repeating, and for a fixed input no two of those steps give the same output.", "quantifier": "every key, every odd increment, every input, every pair of step counts below 256^size", "why_tests_cant": "The period is 256^size: unreachable for any test beyond size 2.", "anchors": ["aiootp/_permutations/affine_xor_chain.py: AffineXORChain.step, update_increment, permute"]}
{"id": "C15", "title": "SequenceID is a reversible, collision free numbering", "statement": "SequenceID.read(SequenceID.new(i)) == i and distinct indexes give distinct ids, for indexes whose span (max - min) is no larger than 256**size as documented.", "quantifier": "every key, every size, every pair of indexes", "why_tests_cant": "All pairs of indexes up to 256^32.", "anchors": ["aiootp/randoms/ids/sequence_id.py: SequenceID.new, read"]}
{"id": "C16", "title": "GUID.read inverts GUID.new", "statement": "Reading a guid made by the same key returns the timestamp, token, node id and ticker it was made from; two guids made with the same key are equal only if all their raw fields are equal.", "quantifier": "every key, size 12..32, timestamp, token, node id, ticker", "why_tests_cant": "All values of 256^size.", "anchors": ["aiootp/randoms/ids/guid.py: GUID.new, read", "aiootp/randoms/ids/raw_guid.py", "aiootp/randoms/ids/raw_guid_config.py"]}
{"id": "C17", "title": "guids never repeat", "statement": "No two guids created by one process-wide node (one RawGUID object used by any threads) are equal, and guids from nodes with different node ids are never equal.", "quantifier": "every sequence/interleaving of new() calls, every clock reading sequence, every random token", "why_tests_cant": "Depends on thread schedules and clock behaviour.", "anchors": ["aiootp/randoms/ids/raw_guid.py: RawGUID.new, _incremented_tick"]}
{"id": "C18", "title": "guid sort order is chronological", "statement": "Sorting read guids by their sort key orders them first by creation timestamp.", "quantifier": "every pair of guids", "why_tests_cant": "All pairs.", "anchors": ["aiootp/randoms/ids/raw_guid_config.py: RawGUIDContainer.sort_key, __lt__"]}
{"id": "C19", "title": "timestamps round trip and time-to-live is exact", "statement": "Clock.read_timestamp(Clock.make_timestamp()) gives back the clock reading; test_timestamp raises TimestampExpired exactly when ttl is not None and the age in clock units exceeds ttl, reporting age - ttl as the excess.", "quantifier": "every unit, epoch, timestamp width, reading, ttl", "why_tests_cant": "All times and ttls including boundaries, past and future.", "anchors": ["aiootp/asynchs/clocks.py: Clock.make_timestamp, read_timestamp, test_timestamp, delta"]}
{"id": "C20", "title": "plaintext padding is reversible", "statement": "Depadding a padded plaintext returns exactly the plaintext; the padded length is a positive multiple of the padding frame and at least header + data + 1 bytes.", "quantifier": "every plaintext, every accepted cipher configuration, every timestamp/siv-key/random padding", "why_tests_cant": "All lengths modulo the frame and all content, including content that looks like padding.", "anchors": ["aiootp/ciphers/padding.py: Padding.pad_plaintext, depad_plaintext, start_padding, end_padding, depadding_end_index"]}
{"id": "C21", "title": "Slick256 decrypt inverts encrypt", "statement": "bytes_decrypt(bytes_encrypt(data, aad=a), aad=a) == data with the same key, for whatever salt, iv, timestamp and siv-key were drawn, whatever the extendable-output function computes.", "quantifier": "every plaintext, key, aad, salt, iv, inner header, xof; every accepted configuration with a padding frame up to 256 bytes", "why_tests_cant": "All inputs; internal feedback makes each block depend on all previous ones.", "anchors": ["aiootp/ciphers/cipher_interface.py", "aiootp/ciphers/shake_permute_cipher.py", "aiootp/ciphers/synthetic_iv.py", "aiootp/ciphers/stream_junction.py"]}
{"id": "C22", "title": "Chunky2048 decrypt inverts encrypt", "statement": "Same as for Slick256, for the dual-output shake cipher.", "quantifier": "every plaintext, key, aad, salt, iv, inner header, xof pair; every accepted configuration with a padding frame up to 256 bytes", "why_tests_cant": "All inputs; internal feedback makes each block depend on all previous ones.", "anchors": ["aiootp/ciphers/cipher_interface.py", "aiootp/ciphers/dual_output_shake_cipher.py", "aiootp/ciphers/synthetic_iv.py", "aiootp/ciphers/stream_junction.py"]}
{"id": "C23", "title": "no plaintext is released before the tag is checked", "statement": "bytes_decrypt returns plaintext only if the 'shmac' in the ciphertext equals the one recomputed from key, salt, aad, iv and the ciphertext body; on any mismatch it raises InvalidSHMAC and returns nothing, regardless of timestamps and padding.", "quantifier": "every byte string given as ciphertext, every key, aad, ttl", "why_tests_cant": "All adversarial byte strings.", "anchors": ["aiootp/ciphers/cipher_interface.py: bytes_decrypt", "aiootp/ciphers/stream_hmac.py: test_shmac", "aiootp/ciphers/ciphertext_formatting.py"]}
{"id": "C24", "title": "the tag covers every byte of the message", "statement": "Two different messages (salt, aad, iv, body) accepted under one key with the same tag yield an explicit collision of the underlying keyed hash: the bytes hashed for the tag determine salt, aad, iv and every ciphertext byte.", "quantifier": "every pair of messages of any lengths", "why_tests_cant": "A statement about all pairs of messages.", "anchors": ["aiootp/ciphers/key_bundle.py: KeyAADBundle", "aiootp/ciphers/cipher_kdfs.py", "aiootp/ciphers/stream_hmac.py", "aiootp/ciphers/shake_permute_cipher.py", "aiootp/ciphers/dual_output_shake_cipher.py"]}
{"id": "C25", "title": "the ciphertext parser accepts exactly well-sized messages", "statement": "A byte string is accepted as a ciphertext iff it is longer than the header and the rest is a multiple of the blocksize; the parts returned are then the header fields in order and concatenate to the input.", "quantifier": "every byte string, every accepted config", "why_tests_cant": "All lengths/residues.", "anchors": ["aiootp/ciphers/ciphertext_formatting.py: Ciphertext"]}
{"id": "C26", "title": "streamed encryption is independent of chunking", "statement": "The packets produced by CipherStream for given data do not depend on how the data was split into buffer() calls nor on when the stream was iterated, and DecipherStream fed with these packets in arbitrary splits yields the same plaintext.", "quantifier": "every plaintext, every split into buffer calls, every interleaving of buffer, iteration and finalize", "why_tests_cant": "Exponentially many splits and interleavings.", "anchors": ["aiootp/ciphers/cipher_streams.py: CipherStream.buffer, __iter__, finalize", "aiootp/ciphers/decipher_streams.py: DecipherStream.buffer, __iter__, finalize"]}
{"id": "C27", "title": "a stream rejects forged blocks and recovers", "statement": "DecipherStream.buffer raises InvalidBlockID at the first packet whose block id does not match; the blocks accepted before stay accepted, the refused block never reaches the output, and buffering the genuine packets afterwards yields the genuine plaintext.", "quantifier": "every history of genuine and forged packets", "why_tests_cant": "All histories of attacks.", "anchors": ["aiootp/ciphers/decipher_streams.py: DecipherStream.buffer, _digest_data", "aiootp/ciphers/stream_hmac.py: test_next_block_id", "aiootp/ciphers/cipher_stream_properties.py: AuthFail"]}
{"id": "C28", "title": "dropped, reordered or replayed packets are refused", "statement": "If a stream accepts packets that were all sent, but in another order, with gaps or repeated (not a prefix of the packets sent), then one of them has a colliding block id: the same id for the same block after two different transcripts.", "quantifier": "every history of calls and every accepted sequence of sent packets", "why_tests_cant": "All permutations and replays.", "anchors": ["aiootp/ciphers/stream_hmac.py: next_block_id, test_next_block_id", "aiootp/ciphers/decipher_streams.py"]}
{"id": "C29", "title": "stream hmac life cycle", "statement": "A stream-hmac object computes for encryption or decryption but never both, cannot produce its result before finalization, cannot be finalized twice, and accepts no update nor block id after finalization; the result never changes once made.", "quantifier": "every finite sequence of calls on the object", "why_tests_cant": "All call histories.", "anchors": ["aiootp/ciphers/stream_hmac.py: StreamHMAC"]}
{"id": "C30", "title": "stream decryption enforces the time-to-live", "statement": "DecipherStream with a ttl never releases plaintext of a stream whose timestamp is older than the ttl.", "quantifier": "every history of buffer, iterate and finalize calls", "why_tests_cant": "All call histories, including iterating too early.", "anchors": ["aiootp/ciphers/decipher_streams.py: DecipherStream._test_timestamp, __iter__, finalize"]}
{"id": "C31", "title": "key bundles are single use", "statement": "A key bundle registers at most one stream-hmac, salt and iv lengths are enforced, and a missing salt or iv is replaced by a fresh random one for encryption and refused for decryption.", "quantifier": "every call history", "why_tests_cant": "All call histories and argument combinations.", "anchors": ["aiootp/ciphers/key_bundle.py: SaltAADIV, KeyAADBundle"]}
{"id": "C32", "title": "accepted cipher configs are sound", "statement": "Every configuration accepted by the config constructors has key slices that cover every byte of the block exactly once, a positive padding frame, an inner header smaller than the padding frame and a sentinel able to encode every padding size.", "quantifier": "every tuple of configuration integers", "why_tests_cant": "Unbounded configuration space.", "anchors": ["aiootp/ciphers/shake_permute_cipher_config.py", "aiootp/ciphers/dual_output_shake_cipher_config.py", "aiootp/ciphers/chunky_2048_config.py", "aiootp/ciphers/slick_256_config.py"]}
{"id": "C33", "title": "guards give mutual exclusion", "statement": "While a block under an exclusive ConcurrencyGuard runs, no other block guarded by the same deques runs; several non-exclusive (monitor) guards may run together but never with an exclusive one.", "quantifier": "every number of threads, every interleaving of the individual deque operations", "why_tests_cant": "Unbounded schedules.", "anchors": ["aiootp/asynchs/guards/concurrency_guard.py: ConcurrencyGuard", "aiootp/asynchs/guards/policies.py: Exclusive, NonExclusive"]}
{"id": "C34", "title": "guards are first-come first-served", "statement": "Guards start running in the order in which they got into the queue.", "quantifier": "every schedule", "why_tests_cant": "Unbounded schedules.", "anchors": ["aiootp/asynchs/guards/policies.py: get_in_queue, is_free_to_run", "aiootp/asynchs/guards/concurrency_guard.py"]}
{"id": "C35", "title": "guards never deadlock", "statement": "In every reachable state in which some guard waits and no guard runs, some waiting guard is able to start; when all have left, queue and observers are empty.", "quantifier": "every reachable state of every schedule, including tasks cancelled while waiting", "why_tests_cant": "Unbounded schedules and cancellation points.", "anchors": ["aiootp/asynchs/guards/concurrency_guard.py: __enter__, __exit__", "aiootp/asynchs/guards/policies.py"]}
{"id": "C36", "title": "a guard object can be used once", "statement": "Re-entering a used guard object, or leaving one that is not running, raises and never lets the guarded block run twice.", "quantifier": "every history of transitions", "why_tests_cant": "All histories.", "anchors": ["aiootp/asynchs/guards/state_machine.py: UseTracker"]}
{"id": "C37", "title": "multi guards isolate targets and clean up", "statement": "Guards of one MultiConcurrencyGaurd on different targets never wait on each other, concurrent users of one target share one queue, and the record of a target is discarded exactly when its last user has left.", "quantifier": "every interleaving of initialisation and cleanup by any number of users", "why_tests_cant": "Unbounded schedules.", "anchors": ["aiootp/asynchs/guards/manager.py: MultiConcurrencyGaurd._initialize_guard, _cleanup_references, ManagedConcurrecyGuard"]}
{"id": "C38", "title": "concurrent salt-file reads succeed", "statement": "Any number of threads may read an existing salt file at the same time; each obtains the salt, and afterwards the file has mode 000.", "quantifier": "every interleaving of chmod/read/chmod steps of all readers", "why_tests_cant": "Schedule dependent.", "anchors": ["aiootp/_paths.py: read_salt_file, make_salt_file, update_salt_file, SecureSaltPath"]}
{"id": "C39", "title": "a salt is never lost or silently replaced", "statement": "Once a salt file has been made, SecureSaltPath and make_salt_file never replace its content; only update_salt_file and delete_salt_file do.", "quantifier": "every interleaving of creators and readers", "why_tests_cant": "Schedule and crash-point dependent.", "anchors": ["aiootp/_paths.py: make_salt_file, SecureSaltPath"]}
{"id": "C40", "title": "database tags behave like a map", "statement": "After any history of set, query, pop, rollback, clear-cache and save operations, querying a tag returns the last value set (or the last value saved, after a rollback), and operations on one tag never affect another.", "quantifier": "every finite history of operations", "why_tests_cant": "Unbounded histories.", "anchors": ["aiootp/databases/sync_database.py: set_tag, query_tag, pop_tag, rollback_tag, save_tag, clear_cache", "aiootp/databases/database_properties.py"]}
{"id": "C41", "title": "saved databases reopen to the same contents", "statement": "A database opened with the same key after save_database (or leaving the `with` block) has the same tags, the same value for each, and the same metatags.", "quantifier": "every history of operations before the save", "why_tests_cant": "Unbounded histories and contents.", "anchors": ["aiootp/databases/sync_database.py: save_database, load_database, _load_manifest, _save_manifest"]}
{"id": "C42", "title": "a crash during save never loses previously saved values", "statement": "If the process dies between any two file writes of a save, reopening gives for each tag either its old or its new value.", "quantifier": "every history, every crash point", "why_tests_cant": "Crash points multiply with histories.", "anchors": ["aiootp/databases/sync_database.py: save_database, save_tag, set_tag, pop_tag"]}
{"id": "C43", "title": "metatags are isolated", "statement": "Operations on a metatag database never change tags of its parent or of sibling metatags.", "quantifier": "every history over the tree of databases", "why_tests_cant": "Unbounded histories and depth.", "anchors": ["aiootp/databases/sync_database.py: metatag, delete_metatag, _metatag_key"]}
{"id": "C44", "title": "delete_database leaves no files behind", "statement": "After delete_database no file written by the database or any of its metatags remains on disk.", "quantifier": "every history and every depth of metatags", "why_tests_cant": "Unbounded histories.", "anchors": ["aiootp/databases/sync_database.py: delete_database, _delete_file, delete_metatag"]}
{"id": "C45", "title": "database views agree", "statement": "`tag in db`, `db.tags`, `len(db)` and the query results describe the same set of tags at all times.", "quantifier": "every history", "why_tests_cant": "Unbounded histories.", "anchors": ["aiootp/databases/database_properties.py: __contains__, tags, filenames, __len__"]}
{"id": "C46", "title": "database encryption is bound to the filename and aad", "statement": "A ciphertext made for one filename/aad of a database is decrypted under another only with the same derived key: derivation inputs for different filenames or aad never coincide.", "quantifier": "every pair of filenames and aads", "why_tests_cant": "All pairs.", "anchors": ["aiootp/databases/sync_database.py: bytes_encrypt, bytes_decrypt", "aiootp/keygens/domain_kdf.py"]}
{"id": "C47", "title": "passcrypt hashes export and import faithfully", "statement": "For a hash whose timestamp has the configured size, import_hash(export_hash(h)) returns the settings, timestamp, salt and tag of h; and every accepted byte string re-exports to itself; all others are refused.", "quantifier": "every setting in range, every byte string", "why_tests_cant": "All byte strings.", "anchors": ["aiootp/keygens/passcrypt/hash_format.py: PasscryptHash.import_hash, export_hash"]}
{"id": "C48", "title": "passcrypt verify accepts its own hashes and respects allowed ranges", "statement": "verify(hash_passphrase(p), p, aad) succeeds within the ttl, raises on any other passphrase/aad unless the derivation collides, and never starts work with settings outside of the allowed ranges.", "quantifier": "every passphrase, setting, ttl and range", "why_tests_cant": "All inputs.", "anchors": ["aiootp/keygens/passcrypt/interface.py: verify, hash_passphrase, new", "aiootp/keygens/passcrypt/hash_format.py: in_allowed_ranges"]}
{"id": "C49", "title": "passcrypt memory walk stays inside its buffer", "statement": "The memory proof never changes the size of the allocated ram, the loops over rows and columns write full 168-byte segments inside of it and overwrite every segment exactly once, and the allocated size is at least the requested mebibytes.", "quantifier": "every mb, cpu, cores setting", "why_tests_cant": "Settings up to 2^24 MiB cannot be executed.", "anchors": ["aiootp/keygens/passcrypt/session_init.py: PasscryptSession.prepare_session, allocate_ram", "aiootp/keygens/passcrypt/sessions_manager.py: _work_memory_prover"]}
{"id": "C50", "title": "frozen containers are immutable", "statement": "Once an attribute of a FrozenInstance / FrozenSlots / FrozenTypedSlots / FrozenNamespace instance is set, no sequence of public operations (setattr, delattr, setitem, delitem, update, clear) changes or removes it.", "quantifier": "every history of public operations", "why_tests_cant": "All histories.", "anchors": ["aiootp/commons/instances.py: FrozenInstance", "aiootp/commons/slots.py: FrozenSlots", "aiootp/commons/namespaces.py: FrozenNamespace", "aiootp/commons/typed_slots.py: FrozenTypedSlots"]}
{"id": "C51", "title": "typed slots always hold declared types", "statement": "Every attribute of a TypedSlots instance that is present has its declared type, and restricted names are never assigned through item access.", "quantifier": "every history of public operations", "why_tests_cant": "All histories.", "anchors": ["aiootp/commons/typed_slots.py", "aiootp/commons/slots.py"]}
{"id": "C52", "title": "key exchanges agree", "statement": "The client and the server of a 2DH or 3DH exchange derive identical key-derivation objects from the exchanged public keys.", "quantifier": "every key pair on both sides", "why_tests_cant": "All key pairs, assuming only commutativity of the exchange.", "anchors": ["aiootp/keygens/curve_25519/double_diffie_hellman_client.py", "aiootp/keygens/curve_25519/double_diffie_hellman_server.py", "aiootp/keygens/curve_25519/triple_diffie_hellman_client.py", "aiootp/keygens/curve_25519/triple_diffie_hellman_server.py"]}
{"id": "C53", "title": "asymmetric key objects are write-once", "statement": "Once a key object holds a public key no import or generate call changes its keys, and the public key always belongs to the secret key when there is one.", "quantifier": "every history of import/generate calls", "why_tests_cant": "All histories.", "anchors": ["aiootp/keygens/curve_25519/shared_interface.py: Base25519"]}
{"id": "C54", "title": "package summaries verify iff intact", "statement": "PackageVerifier accepts the summary made by PackageSigner.summarize; it accepts a summary only if the public key is the expected one, the checksum is the hash of the remaining fields, each listed file has the listed digest and the signature over the checksum verifies. A version that was not signed has no summary, and keys are those set last.", "quantifier": "every summary", "why_tests_cant": "All summaries.", "anchors": ["aiootp/keygens/package_signer.py: summarize", "aiootp/keygens/package_verifier.py: verify_summary"]}
{"id": "C55", "title": "keyed selections are in range and complete", "statement": "keyed_choices yields exactly selection_size elements, each of them one of the choices, and the same for the same inputs; mnemonic with a passphrase is determined by passphrase, salt and settings, without one by fresh randomness.", "quantifier": "every non-empty sequence of choices, every size, key and domain", "why_tests_cant": "All inputs.", "anchors": ["aiootp/keygens/mnemonics.py: keyed_choices"]}
{"id": "C56", "title": "DomainKDF copies are independent", "statement": "Updating a copy of a DomainKDF never changes the original, and a kdf and its copy updated alike give the same output.", "quantifier": "every interleaving of updates of both objects", "why_tests_cant": "All histories.", "anchors": ["aiootp/keygens/domain_kdf.py: DomainKDF.copy, update"]}
{"id": "C57", "title": "each byte string has one url-safe token", "statement": "Two texts that urlsafe_to_bytes decodes to the same bytes are the same text, so tokens can be compared or used as database keys.", "quantifier": "every pair of texts", "why_tests_cant": "All pairs of texts, also ones no encoder produced.", "anchors": ["aiootp/generics/byte_io.py: urlsafe_to_bytes, bytes_to_urlsafe"]}
{"id": "C58", "title": "clock readings are exact and never go back", "statement": "Clock.time() is the number of whole units since the epoch, so distinct nanoseconds have distinct nanosecond readings, and readings never decrease while the system time does not.", "quantifier": "every integer time unit, epoch and pair of system times", "why_tests_cant": "All instants; the rounding of floating point division only shows for some.", "anchors": ["aiootp/asynchs/clocks.py: TimeUnit.time, Clock.time"]}
{"id": "C59", "title": "tokens round trip", "statement": "read_token of a token that make_token returned, with the same keys and associated data and a time to live that has not run out, is the data that was given; and it is refused before any plaintext is released if the token was changed.", "quantifier": "every data, key, aad, salt, iv and instant; both ciphers", "why_tests_cant": "All inputs; the token passes through an encoder, a decoder, padding, a cipher and a tag.", "anchors": ["aiootp/ciphers/cipher_interface.py: make_token, read_token"]}
{"id": "C60", "title": "asynchronous salt file functions never stop the event loop", "statement": "An asynchronous salt file function waits without blocking the event loop, so that tasks which hold a guard of the same file can go on and leave it.", "quantifier": "every state in which another task of the loop is inside of a guarded block", "why_tests_cant": "Schedule dependent; a hang is an infinite execution.", "anchors": ["aiootp/_paths.py: adelete_salt_file, amake_salt_file, aread_salt_file, aupdate_salt_file"]}
{"id": "C61", "title": "key exchanges bind the transcript", "statement": "Two exchanges that end with the same key-derivation object used the same public keys and the same shared secrets in the same places; a 2DH exchange never gives the object of a 3DH exchange.", "quantifier": "every pair of exchanges with honest or hostile keys", "why_tests_cant": "All pairs of inputs; a missing delimiter or a swapped key shows only for some pairs.", "anchors": ["aiootp/keygens/curve_25519/double_diffie_hellman.py", "aiootp/keygens/curve_25519/triple_diffie_hellman.py", "aiootp/keygens/domain_kdf.py: DomainKDF"]}
{"id": "C62", "title": "exchange objects are used once", "statement": "One object of a DH exchange hands out its key-derivation object at most once, and only for the keys that it received first.", "quantifier": "every history of calls of an exchange object", "why_tests_cant": "All histories, with failing calls in between.", "anchors": ["aiootp/keygens/curve_25519/double_diffie_hellman.py", "aiootp/keygens/curve_25519/triple_diffie_hellman.py"]}
{"id": "C63", "title": "keyed selections are fair", "statement": "If the numbers drawn for a selection are spread evenly then no choice is preferred by more than the remainder of the division, and for the default word list every word has exactly the same share.", "quantifier": "every number of choices and every word list", "why_tests_cant": "A statement about the whole range of the hash function's output.", "anchors": ["aiootp/keygens/mnemonics.py: keyed_choices, mnemonic", "aiootp/_constants/datasets.py: WORD_LIST"]}
{"id": "C64", "title": "profiles open the same database with the same login", "statement": "Database.generate_profile with the same username, passphrase and extra inputs opens a database with the same root key and filenames as long as its salt was not deleted; logins that differ in any input get another database; a wrong passphrase does not damage the profile of the right one.", "quantifier": "every history of logins and deletions on one device", "why_tests_cant": "All histories of several users with several passphrases; unit tests try a few.", "anchors": ["aiootp/databases/profile_tokens.py", "aiootp/databases/sync_database.py: Database.generate_profile, Database.delete_database", "aiootp/databases/async_database.py: AsyncDatabase.agenerate_profile"]}
{"id": "C65", "title": "no two calls of the random generators hash the same bytes", "statement": "The tokens that separate calls of the random generators are encoded without loss, so that two calls with different tokens, in whatever threads and forks, never hash the same bytes. (Tokens start with 256 random bits; left out are tokens that start like the packed encoding that hash makes.)", "quantifier": "every interleaving of calls in threads and forked processes", "why_tests_cant": "All schedules and process trees; collisions only show in rare interleavings.", "anchors": ["aiootp/randoms/simple.py: canonical_token", "aiootp/randoms/rng.py: csprng, acsprng", "aiootp/randoms/threading_safe_entropy_pool.py"]}
{"id": "C66", "title": "the random number generators may be used from several threads", "statement": "random_number_generator and its salted multiplication return a number of the promised size and never fail or freeze at a fixed value, also when several threads call them at the same time.", "quantifier": "every interleaving of the loads and stores of several threads", "why_tests_cant": "Schedule dependent.", "anchors": ["aiootp/randoms/rng.py: random_number_generator, arandom_number_generator"]}
{"id": "C67", "title": "no two blocks are enciphered with keys from the same hash input", "statement": "The key material of each block comes from a hash of the key, the salt, the aad, the iv and everything that was enciphered before, so that two blocks of any two encryptions get keys from the same hash input only if all of these are the same.", "quantifier": "every pair of encryptions with keys of one length, every position and every plaintext", "why_tests_cant": "All pairs of histories; repeated key streams do not show in round trips.", "anchors": ["aiootp/ciphers/shake_permute_cipher.py", "aiootp/ciphers/dual_output_shake_cipher.py: _new_keystream", "aiootp/ciphers/stream_hmac.py: _update_mac"]}
{"id": "C68", "title": "configuration registries keep their entries", "statement": "Once map[config_id] = config has returned, map[config_id] is that config for ever; a config is stored under one id only and knows it; a call that raises changes nothing in the map; only configs of the declared type are stored.", "quantifier": "every history of assignments, deletions, clear calls and direct id assignments, with any ids and configs", "why_tests_cant": "All histories; only some sequences of names and failing calls show the difference.", "anchors": ["aiootp/commons/configs.py: Config.set_config_id, ConfigMap", "aiootp/commons/namespaces.py: OpenFrozenNamespace", "aiootp/commons/slots.py: Slots"]}
{"id": "C69", "title": "gather on the shared pools gives what the functions give", "statement": "Threads.gather and Processes.gather return the results of the functions in the order of the arguments, or raise what the first failing function has raised, whatever the order in which the workers run them; each function runs once, none begins after gather has returned or raised, and gather returns if the functions return.", "quantifier": "every number of workers, every list of functions, every nesting of gather calls and every schedule of the workers", "why_tests_cant": "All schedules of callers and workers, and all nestings.", "anchors": ["aiootp/asynchs/concurrency_interface.py: submit, asubmit, gather, agather", "aiootp/asynchs/threads.py: Threads", "aiootp/asynchs/processes.py: Processes"]}
{"id": "C70", "title": "new gives what the function gives", "statement": "Threads.new and Processes.new return what the function returns in the new thread or process, raise what it raises, and end when it has ended.", "quantifier": "every function, every size of result and every schedule of caller and worker", "why_tests_cant": "All schedules and all sizes of results; unit tests return small values.", "anchors": ["aiootp/asynchs/concurrency_interface.py: new, anew", "aiootp/asynchs/threads.py: Threads", "aiootp/asynchs/processes.py: Processes"]}
{"id": "C71", "title": "an asynchronous database does what the synchronous one does", "statement": "A call of AsyncDatabase that nobody interferes with returns or raises what the call of Database does, and leaves the same cached values, records and files, whatever the order in which the tasks that it spawns run; a save or load raises exactly if the synchronous one does.", "quantifier": "every object, directory and list of calls on tags, every save and load, and every schedule of the spawned tasks", "why_tests_cant": "All states and all orders of the spawned tasks; unit tests run one order.", "anchors": ["aiootp/databases/async_database.py: AsyncDatabase", "aiootp/databases/sync_database.py: Database"]}
{"id": "C72", "title": "coroutines that share an asynchronous database act as if in some order", "statement": "Coroutines that use one AsyncDatabase object see and leave what they would if their calls were made one after another in some order: nothing that was set or saved is lost, no call raises that would not, and files are never mixtures.", "quantifier": "every number of coroutines, every list of calls and every schedule at the await points", "why_tests_cant": "Schedule dependent; interleavings at await points are not controlled by unit tests.", "anchors": ["aiootp/databases/async_database.py: AsyncDatabase.aset_tag, aquery_tag, apop_tag, arollback_tag, asave_tag, asave_database, aload_tags", "aiootp/commons/byte_io.py: ByteIO.awrite"]}
{"id": "C73", "title": "a metatag is one object", "statement": "parent.ametatag(tag) returns to every caller the one object that is the attribute of the parent, so that what is stored through it is saved with the parent.", "quantifier": "every number of coroutines, tags and schedules", "why_tests_cant": "Schedule dependent.", "anchors": ["aiootp/databases/async_database.py: AsyncDatabase.ametatag"]}
{"id": "C74", "title": "an Ignore block is a try statement", "statement": "with Ignore(*classes): body does what the corresponding try statement does: exceptions of the classes listed by then go to except_code and are raised again unless it gives something true, other exceptions are raised, else_code runs if nothing was raised, finally_code runs exactly once whenever the block is left; relay.error is the exception of the body, or None.", "quantifier": "every body, including nested and repeated blocks with the same object, every set of handlers and every exception", "why_tests_cant": "All programs that can be written in the block, with handlers that raise or change the object.", "anchors": ["aiootp/_exceptions.py: Ignore"]}
{"id": "C75", "title": "containers are ordered maps, and masked ones do not show values", "statement": "After any history of assignments, deletions, updates and clear calls, in, [], iteration, len, bool, keys, values and items of a container agree with one finite map; iteration gives declared slots first and the other names in the order in which they were set; a container made of the items of another one has the same items; repr of a masked container returns, and does not depend on its values.", "quantifier": "every class of containers, every history of operations, all names and values", "why_tests_cant": "All histories; a wrong order or a value that shows need particular sequences of operations and names.", "anchors": ["aiootp/commons/slots.py: Slots, FrozenSlots", "aiootp/commons/namespaces.py: Namespace, FrozenNamespace", "aiootp/_debug_control.py: DebugControl"]}
{"id": "C76", "title": "generators give the items they promise, in order and once", "statement": "collate, cycle, count, bytes_count, bytes_range, azip and popleft (and their async versions) give exactly the items of their sources in the promised order, ask the sources for no more than they need, end or raise exactly where the promise ends, and azip gives what zip gives; generators that share a deque give every item once.", "quantifier": "all iterators (finite, endless, raising, sharing state), all numbers and sizes, all interleavings of generators and appends", "why_tests_cant": "All sources, including those without end and those that change while they are read.", "anchors": ["aiootp/_gentools.py: collate, acollate, cycle, acycle, count, acount, bytes_count, abytes_count, bytes_range, abytes_range, azip, popleft, apopleft"]}
{"id": "C77", "title": "the delays of the entropy daemon are the ones asked for", "statement": "The entropy daemon never sleeps longer than the largest delay that was asked for, and other than positive delays are refused; a temporary delay is used from the call on, for the time asked for, and is then replaced by the permanent one, at most a second late; after cancel every thread of the daemon ends, and start lets it run again.", "quantifier": "all delays, durations and clocks, all interleavings of the threads of the daemon with calls from other threads", "why_tests_cant": "The interleavings of the daemon with the callers cannot be enumerated by tests, and tests cannot wait for all durations.", "anchors": ["aiootp/randoms/entropy_daemon.py: EntropyDaemon._acknowledge_temporary_frequency_deadline, set_temporary_max_delay, set_max_delay, _araw_loop, start, cancel", "aiootp/randoms/simple.py: arandom_sleep"]}
{"id": "C78", "title": "files hold the data of whole calls", "statement": "ByteIO.write leaves a file with exactly its data, ByteIO.append adds exactly its data to the end, ByteIO.read returns the content (at most size bytes of it); calls at once, and crashes, leave each file with its earlier content or with the data of whole calls, and calls for one file do not touch another.", "quantifier": "all contents, data, sizes and numbers of concurrent calls, all interleavings of their system calls, all amounts transferred by each of these, all crash points", "why_tests_cant": "Tests run one interleaving, without short transfers and without crashes.", "anchors": ["aiootp/generics/byte_io.py: ByteIO.read, aread, write, awrite, append, aappend"]}
{"id": "C79", "title": "one cipher stream may be used by many threads at once", "statement": "If several threads or coroutines call buffer on one cipher stream at once while others take packets from it or finalize it, then what is given out is what one thread would get that buffers the data of the calls one after another, in an order in which a call that returned before another began comes first; no data is lost or used twice, no call raises but for a stream that was finalized, and the stream can always be finished.", "quantifier": "all numbers of concurrent calls, all data, all interleavings of their steps, all times at which packets are taken and the stream is finalized", "why_tests_cant": "Tests run one interleaving; the number of interleavings grows without bound with the number of calls.", "anchors": ["aiootp/ciphers/cipher_streams.py: CipherStream, AsyncCipherStream, buffer, finalize, __iter__, __aiter__", "aiootp/asynchs/concurrency_guard.py: ConcurrencyGuard"]}
{"id": "C80", "title": "one decipher stream may be used by many threads at once", "statement": "If several threads or coroutines call buffer on one decipher stream at once while others take plaintext from it or finalize it, then there are calls of one thread that buffer the same packets one at a time, in an order in which the packets of a call stay together and a call that returned before another began comes first, of which the same packets are taken and refused and which give out the same plaintext; a call of buffer that returns has had all its data taken, one that refuses a packet reports what it has not read, and nobody gets stuck.", "quantifier": "all numbers of concurrent calls, all data, forged or not, all interleavings of their steps, all clock readings, all times at which plaintext is taken and the stream is finalized", "why_tests_cant": "Tests run one interleaving; the number of interleavings grows without bound with the number of calls.", "anchors": ["aiootp/ciphers/decipher_streams.py: DecipherStream, AsyncDecipherStream, buffer, finalize, __iter__, __aiter__", "aiootp/asynchs/concurrency_guard.py: ConcurrencyGuard"]}
{"id": "C81", "title": "permutations can have the sizes they are said to have", "statement": "For every size from 1 to 4096 an affine permutation configuration can be made, whatever its aad: the modulus is the least prime above 256**size, the multiplier that is derived for it is the first candidate that is odd, about half as long as the modulus and has about as many switches between zeros and ones as a random number, such a candidate exists, and it has an inverse.", "quantifier": "all sizes, all values of the hash", "why_tests_cant": "That a number of hundreds of digits is a prime, and that each of its residues has an inverse, is not a finite number of runs.", "anchors": ["aiootp/_permutations/affine_permutation_config.py: AffinePermutationConfig, is_likely_safe_multiplier", "aiootp/_constants/datasets.py: PRIMES"]}
{"id": "C82", "title": "signatures made by a key object are accepted", "statement": "Whatever was done with an Ed25519 object before: if sign returns a signature, verify accepts it with this object, with an object that imported its public key, public bytes or secret bytes, and with any object that is given the public key or its bytes. verify uses the key given to it, else the key of the object, and returns just if that key accepts the signature; InvalidSignature means that it does not. An object that has a key keeps it, and signs and verifies with it for good.", "quantifier": "all histories of imports, all messages, signatures and arguments", "why_tests_cant": "The histories and the arguments are unbounded.", "anchors": ["aiootp/keygens/curve_25519/ed25519.py: Ed25519.sign, Ed25519.verify", "aiootp/keygens/curve_25519/shared_interface.py: Base25519"]}
{"id": "C83", "title": "a key object never holds keys that do not match, also if threads share it", "statement": "While several threads import keys into the same object or call generate on it: one of them wins, the others raise PermissionError, and the object holds the keys of the winner from then on.", "quantifier": "all interleavings of all numbers of threads", "why_tests_cant": "The interleavings of threads are unbounded in number and hard to provoke.", "anchors": ["aiootp/keygens/curve_25519/shared_interface.py: Base25519.import_secret_key, Base25519.import_public_key, Base25519.generate"]}
{"id": "C84", "title": "an exchange object that is used by several coroutines or threads gives one key", "statement": "While several coroutines or threads call the send and receive methods of one 2DH or 3DH exchange object: at most one gets a kdf, and all that get public bytes get the same. An attribute that was assigned keeps its value.", "quantifier": "all numbers of coroutines and threads, all arguments, all interleavings", "why_tests_cant": "The interleavings are unbounded in number, and races are hard to provoke.", "anchors": ["aiootp/keygens/curve_25519/double_diffie_hellman_client.py: DoubleDiffieHellmanClient", "aiootp/keygens/curve_25519/double_diffie_hellman_server.py: DoubleDiffieHellmanServer", "aiootp/keygens/curve_25519/triple_diffie_hellman_client.py: TripleDiffieHellmanClient", "aiootp/keygens/curve_25519/triple_diffie_hellman_server.py: TripleDiffieHellmanServer", "aiootp/commons/instances.py: FrozenInstance.__setattr__"]}
{"id": "C85", "title": "a deletion that a crash cuts off can be finished", "statement": "If deleting a saved database and its metatags stops after any number of files, then the database can be opened again with its key, and deleting it then leaves no file of it and of its metatags behind. Files of others stay, except for files that are named 0 or 1.", "quantifier": "all histories of calls on a database and its metatags at any depth, all points at which the deletion stops, all orders of the metatags", "why_tests_cant": "The point of the crash, the depth of the tree and the history are unbounded.", "anchors": ["aiootp/databases/sync_database.py: Database.delete_database, Database.load_metatags", "aiootp/databases/async_database.py: AsyncDatabase.adelete_database"]}
{"id": "C86", "title": "guids and sequence ids of registered configurations can be read back", "statement": "Guids that objects of a configuration registered by the user make are of the configured size, and reading them gives back the timestamp, token, node id and ticker, whatever the key and the history; likewise sequence ids give back their index. The configuration uses the raw guids and the permutation that it names, and its default key fits.", "quantifier": "all registries, configurations, keys, node ids, histories of calls, clock readings and tokens", "why_tests_cant": "Configurations, keys and histories are unbounded; a size that does not match shows only for some keys or values.", "anchors": ["aiootp/randoms/ids/guid_config.py: GUIDConfig", "aiootp/randoms/ids/guid.py: GUID", "aiootp/randoms/ids/raw_guid_config.py: RawGUIDConfig", "aiootp/randoms/ids/sequence_id_config.py: SequenceIDConfig"]}
{"id": "C87", "title": "json_decrypt and query_tag give back the value that json_encrypt or set_tag was given", "statement": "A value that json_encrypt accepts, or that is stored under a tag, comes back from json_decrypt, or from query_tag after a save, as it was: None, booleans, integers, floats, strings, lists and dicts of them, in the same order. What cannot be represented is refused with an exception. A JSON text is never taken for bytes, and different values have different texts.", "quantifier": "all values that JSON knows, of every size and depth, with all strings of code points", "why_tests_cant": "Values are unbounded trees; the result depends on each character of each string, each digit and each key.", "anchors": ["aiootp/ciphers/cipher_interface.py: json_encrypt, json_decrypt", "aiootp/databases/sync_database.py: json_encrypt, json_decrypt, _save_file, query_tag"]}
{"id": "C88", "title": "Cancelling a call on an AsyncDatabase loses no value", "statement": "If a call on an AsyncDatabase is cancelled (by Task.cancel or a timeout) at any point where it waits, then each tag has the value it had before the call or the one the call gives it, also after a later save and a reopening. Calls of other coroutines on other tags are not affected, whatever the helper threads of cancelled calls still do.", "quantifier": "all histories, all calls, all points of cancellation, all interleavings with other coroutines, and all orders in which helper threads do or do not finish what they had begun", "why_tests_cant": "A cancellation can arrive at every await of every call, and a helper thread can finish at any later time; tests can only try a few of these.", "anchors": ["aiootp/databases/async_database.py: aset_tag, asave_tag, apop_tag, arollback_tag, asave_database, aload_tags", "aiootp/generics/byte_io.py: awrite", "aiootp/asynchs/loops.py: wrap_in_executor"]}
{"id": "C89", "title": "Several Database objects on one directory lose nothing", "statement": "If several Database objects, in one process or in several, use the same key and the same directory, then what one of them has saved is not lost by calls of another one: each object gets what its own calls say, and a database that is opened later has every saved value and lists every saved tag.", "quantifier": "all numbers of objects, all lists of calls, all orders in which the calls of different objects follow each other", "why_tests_cant": "The order of the calls of different processes is not under control of a test, and there are more of them than can be tried.", "anchors": ["aiootp/databases/sync_database.py: __init__, _load_manifest, set_tag, query_tag, pop_tag, rollback_tag, save_tag, save_database"]}
{"id": "C90", "title": "Input from outside is refused with the exceptions that are meant for it", "statement": "Whatever bytes or texts come from outside, the call that receives them either returns or raises one of the exceptions that are meant for it. bytes_decrypt: InvalidCiphertextSize (a matter of the size alone), InvalidSHMAC, and TimestampExpired only if a time to live was given; read_token also ValueError for what cannot be decoded. Passcrypt.verify: ValueError, TimestampExpired, ResourceWarning, InvalidPassphrase. GUID.read: every value of the right size is read, every other one is a ValueError. urlsafe_to_bytes, filename_to_bytes: ValueError, phrase_to_bytes: KeyError, exactly for the texts that encode nothing. canonical_unpack: CanonicalEncodingError. PackageVerifier.verify_summary: InvalidSignature, ValueError, InvalidDigest.", "quantifier": "all byte strings, texts and summaries; all keys, times and limits", "why_tests_cant": "A program that catches the documented exceptions stops at the first input that raises another one, and nobody can try all inputs.", "anchors": ["aiootp/ciphers/cipher_interface.py: bytes_decrypt, read_token, json_decrypt", "aiootp/keygens/passcrypt/interface.py: verify", "aiootp/randoms/ids/guid.py: read", "aiootp/generics/byte_io.py", "aiootp/generics/canon.py: canonical_unpack", "aiootp/keygens/package_verifier.py: verify_summary", "aiootp/asynchs/clocks.py: test_timestamp"]}
{"id": "C91", "title": "A process that dies leaves the old salt or the new one", "statement": "Whenever a process dies, also in the middle of a salt file call, the next one finds in the file the salt that was there before, or the salt that was to be set, or no file; never anything else. After calls that have ended the file can be neither read nor written without changing its mode first.", "quantifier": "all files, all sequences of processes, all calls of their threads, all interleavings, and all moments at which they die", "why_tests_cant": "A test would have to kill the process between any two system calls.", "anchors": ["aiootp/_paths.py: make_salt_file, read_salt_file, update_salt_file, delete_salt_file, SecureSaltPath"]}
{"id": "C92", "title": "Domain constants are made from different messages", "statement": "Two calls of encode_constant that hash the same bytes were given the same constant, size, domain, aad and pad. No two constants of the package are digests of the same message, whatever names, configurations, labels and primes they are made for, and no two attributes of Domains.", "quantifier": "all constants, sizes, domains, aads and pads, and all places of the package that encode constants with all their arguments", "why_tests_cant": "A test compares the digests of the constants it knows; ciphers, key derivation classes and permutations make constants for arguments without bound.", "anchors": ["aiootp/generics/domains.py: DomainEncoder.encode_constant, Domains", "aiootp/databases/dbdomains.py: DBDomains", "aiootp/ciphers/cipher_kdfs.py: ShakeConfig.prepare_factory", "aiootp/keygens/domain_kdf.py: HashTupleKDF.__init_subclass__", "aiootp/_permutations/affine_permutation_config.py: _derive_new_multiplier"]}
{"id": "C93", "title": "The names of salt files are deniable", "statement": "The name of a salt file depends on the key only through the exclusive or of its segments. For every beginning of at least one segment there is exactly one last segment with which another key is condensed to the same bytes; that key has the same name and finds the same salt. deniable_filename raises ValueError exactly if the size is not from 1 to 16 or the key has less than two segments.", "quantifier": "all keys, all sizes, all beginnings of forged keys, all hash functions", "why_tests_cant": "Deniability is about all beginnings of keys that someone may claim.", "anchors": ["aiootp/_paths.py: deniable_filename, find_salt_file, SecureSaltPath", "aiootp/generics/transform.py: xi_mix"]}
{"id": "C94", "title": "Cancelling a coroutine that uses an asynchronous stream", "statement": "Calls of an AsyncCipherStream or AsyncDecipherStream may be cancelled wherever they wait. Sender: the packets given out are packets, in their order, of the one stream of the data of some of the calls of abuffer, each taken as a whole or left out as a whole, and taken if the call returned. Receiver: what is given out is the first part of what the taken packets decrypt to in one run, without the inner header: nothing twice, out of order or with a gap. After a cancellation nothing is accepted by the recipient that was not buffered as a whole, an expired stream still gives out nothing, and the stream can still be used.", "quantifier": "all ciphers, keys, data, histories of calls, and all places where each call is cancelled", "why_tests_cant": "A cancellation may come at any of the places where any call of a history waits.", "anchors": ["aiootp/ciphers/cipher_streams.py: AsyncCipherStream", "aiootp/ciphers/decipher_streams.py: AsyncDecipherStream", "aiootp/asynchs/guards/concurrency_guard.py: ConcurrencyGuard.__aexit__"]}
{"id": "C95", "title": "Ciphertexts of chosen plaintexts", "statement": "If the hash function cannot be told from a random one on inputs that contain the key, the ciphertexts of bytes_encrypt show nothing but their salts, ivs and sizes. This holds for all ways to choose the key, plaintext, salt, aad and draws of each message, also depending on the earlier ciphertexts, if the keys have one size and no two messages have the same key, salt, aad and iv: each list of strings of the right sizes is the list of ciphertexts with the same probability, and no test has a different probability of success for one way of choosing than for another way that chooses plaintexts of the same sizes.", "quantifier": "all ciphers, keys, numbers of messages, sizes, ways of choosing the messages, tests of the ciphertexts, and values of the hash function on all other inputs", "why_tests_cant": "It is a statement about the number of hash functions for which an adversary succeeds, for all adversaries.", "anchors": ["aiootp/ciphers/cipher_interface.py: CipherInterface.bytes_encrypt", "aiootp/ciphers/stream_hmac.py: StreamHMAC", "aiootp/ciphers/synthetic_iv.py: SyntheticIV", "aiootp/ciphers/cipher_kdfs.py: CipherKDFs", "aiootp/ciphers/shake_permute_cipher.py: ShakePermuteStreamJunction", "aiootp/ciphers/dual_output_shake_cipher.py: DualOutputStreamJunction"]}
{"id": "C96", "title": "Forged ciphertexts", "statement": "If the hash function cannot be told from a random one on inputs that contain the key, bytes_decrypt lets no ciphertext through that was not made by bytes_encrypt for the same key and aad, but for the chance of guessing the tag: of all hash functions, at most q in 256 to the number of tag bytes let one of q attempts through. This holds for all ways to choose the messages that are encrypted before, also depending on the earlier ciphertexts and with repeated salts and ivs, and all ways to make up ciphertexts from the messages seen, also with truncated, extended, reordered or recombined parts. No better bound holds.", "quantifier": "all ciphers, keys, numbers of messages and attempts, ways of choosing the messages and the attempts, sizes, and values of the hash function on all other inputs", "why_tests_cant": "It is a statement about the number of hash functions for which an adversary succeeds, for all adversaries.", "anchors": ["aiootp/ciphers/cipher_interface.py: CipherInterface.bytes_encrypt", "aiootp/ciphers/cipher_interface.py: CipherInterface.bytes_decrypt", "aiootp/ciphers/stream_hmac.py: StreamHMAC.test_shmac", "aiootp/ciphers/synthetic_iv.py: SyntheticIV", "aiootp/ciphers/shake_permute_cipher.py: ShakePermuteStreamJunction", "aiootp/ciphers/dual_output_shake_cipher.py: DualOutputStreamJunction"]}
{"id": "C97", "title": "Forged streams", "statement": "If the hash function cannot be told from a random one on inputs that contain the key, a recipient of a stream for whom finalize and then test_shmac raise nothing has taken the packets of a stream that was sent with the same key, salt, aad, iv and tag, all of them and in their order, but for the chance of guessing the tag: of all hash functions, at most q in 256 to the number of tag bytes let one of q attempts through. This holds for all calls of the senders and of the recipients, with any data buffered in any portions, and for all ways to make up what is buffered from the streams seen. What was sent is accepted.", "quantifier": "all ciphers, keys, numbers of streams and attempts, calls of senders and recipients, ways of choosing the data and the attempts, and values of the hash function on all other inputs", "why_tests_cant": "It is a statement about the number of hash functions for which an adversary succeeds, for all adversaries.", "anchors": ["aiootp/ciphers/cipher_streams.py: CipherStream", "aiootp/ciphers/decipher_streams.py: DecipherStream.buffer", "aiootp/ciphers/decipher_streams.py: DecipherStream.finalize", "aiootp/ciphers/stream_hmac.py: StreamHMAC.test_shmac", "aiootp/ciphers/stream_hmac.py: StreamHMAC.next_block_id"]}
{"id": "C98", "title": "Streams hide what they encrypt", "statement": "If the hash function cannot be told from a random one on inputs that contain the key and on those from which block ids are made, then whoever sees the packets of streams, block ids and tags included, learns nothing about the plaintext but its size, even if they choose every piece of it after seeing all packets before, of this stream and of others that are made at the same time: of all hash functions, at most N * N in 256 to the size of a stream-hmac block let a test of what is seen tell one way of choosing from another that has as many bytes buffered by each call, if at most N blocks are encrypted and no two streams have the same key, salt, aad and iv. Keys, aads and the bytes drawn for the plaintext's header may be different too.", "quantifier": "all ciphers, keys, numbers of streams and of interleaved calls, ways of choosing each call by what was seen, tests, and values of the hash function on all other inputs", "why_tests_cant": "It is a statement about the number of hash functions for which an adversary succeeds, for all adversaries.", "anchors": ["aiootp/ciphers/cipher_streams.py: CipherStream", "aiootp/ciphers/cipher_stream_properties.py: CipherStreamProperties", "aiootp/ciphers/stream_hmac.py: StreamHMAC", "aiootp/ciphers/cipher_kdfs.py: CipherKDFs", "aiootp/ciphers/shake_permute_cipher.py: ShakePermuteStreamJunction", "aiootp/ciphers/dual_output_shake_cipher.py: DualOutputStreamJunction"]}
{"id": "C99", "title": "Ciphertexts hide their plaintexts from those who have other ciphertexts decrypted", "statement": "If the hash function cannot be told from a random one on inputs that contain the key, then whoever has messages encrypted and made up ciphertexts decrypted, in any order, and chooses each call when they have seen what came of those before, exceptions included, learns nothing about what is encrypted but its size: of all hash functions, at most q in 256 to the size of the tag let one of q decryptions get past the tag, and at most 2 * q in as many let a test of all that is seen tell one way of choosing from another whose plaintexts and ciphertexts have the same sizes. No message may be given to be decrypted with the key and aad that it was made for, and no two messages may have the same key, salt, aad and iv.", "quantifier": "all ciphers, keys, numbers and orders of calls, ways of choosing each call by what was seen, tests, and values of the hash function on all other inputs", "why_tests_cant": "It is a statement about the number of hash functions for which an adversary succeeds, for all adversaries.", "anchors": ["aiootp/ciphers/cipher_interface.py: CipherInterface.bytes_encrypt, CipherInterface.bytes_decrypt", "aiootp/ciphers/stream_hmac.py: StreamHMAC", "aiootp/ciphers/cipher_kdfs.py: CipherKDFs", "aiootp/ciphers/shake_permute_cipher.py: ShakePermuteStreamJunction", "aiootp/ciphers/dual_output_shake_cipher.py: DualOutputStreamJunction"]}
{"id": "C100", "title": "The directory of a database hides its tags and values", "statement": "If the hash functions cannot be told from random ones on inputs that contain keys, then whoever chooses each call on a new database (setting, querying, popping, deleting, rolling back and saving of tags, saving of all, loading, clearing of the cache) by what the calls before did to its directory, and sees for each call which files were written or deleted, in which order and with what content, learns nothing about the values but the sizes of their plaintexts; and nothing about the tags but which calls concern the same tag and the size of the manifest, except for a chance of at most 2 * n / 256^24 for n tags.", "quantifier": "all keys, root salts, sets of tags, numbers and kinds of calls, ways of choosing each call by what was seen, tests of what was seen, and values of the hash functions on all other inputs", "why_tests_cant": "It is a statement about the number of hash functions for which an observer succeeds, for all observers and histories.", "anchors": ["aiootp/databases/sync_database.py: Database.set_tag, Database.query_tag, Database.pop_tag, Database.rollback_tag, Database.save_tag, Database.save_database, Database.filename, Database._encrypt_manifest", "aiootp/databases/dbkdf.py: DBKDF", "aiootp/keygens/domain_kdf.py: DomainKDF", "aiootp/ciphers/chunky_2048.py: Chunky2048"]}
{"id": "C101", "title": "Messages stay hidden if salts and ivs repeat", "statement": "If the hash function cannot be told from a random one on inputs that contain the key, then whoever chooses each message to be encrypted by the ciphertexts before learns nothing about the plaintexts but their sizes, even if all messages have the same key, salt, aad and iv, as long as no two of these also have the same clock reading and siv key. For Chunky2048 this is true except for a chance of at most 2 * n * (n - 1) / 256^168 for n messages. For Slick256 it is always true, but only of what comes after the first block of the padded plaintexts.", "quantifier": "all keys, salts, aads and ivs, with or without repetitions, numbers of messages, ways of choosing each by the ciphertexts before, tests of the ciphertexts, and values of the hash function on all other inputs", "why_tests_cant": "It is a statement about the number of hash functions for which an observer succeeds, for all observers.", "anchors": ["aiootp/ciphers/cipher_interface.py: CipherInterface.bytes_encrypt", "aiootp/ciphers/dual_output_shake_cipher.py: DualOutputKeyAADBundle, DualOutputStreamHMAC, DualOutputSyntheticIV", "aiootp/ciphers/chunky_2048_config.py: _dual_output_shake_config_inputs", "aiootp/ciphers/shake_permute_cipher.py: ShakePermuteStreamHMAC", "aiootp/ciphers/padding.py: Padding"]}
{"id": "C102", "title": "The risk that a context repeats is as small as documented", "statement": "If ivs and siv keys are drawn at random, then even if the key, salt, aad and clock reading are the same for all messages, the chance that two of n messages get the same iv and siv key is at most n * (n - 1) / (2 * 256^len(iv + siv_key)); so it is at most half of 256^(-r) after 256^r messages with r = len(iv + siv_key) / 3, as the documentation says. Except for that chance and the one of C101, ciphertexts hide their plaintexts as C101 says.", "quantifier": "all numbers of messages, keys, salts, aads and clock readings, ways of choosing each message by the ciphertexts before, tests of the ciphertexts, and values of the hash function on other inputs", "why_tests_cant": "It is a statement about the number of draws and hash functions for which something happens, for all observers.", "anchors": ["aiootp/ciphers/cipher_interface.py: CipherInterface.bytes_encrypt", "aiootp/ciphers/key_bundle.py: SaltAADIV._process_iv, KeyAADBundle.salt", "aiootp/ciphers/padding.py: Padding"]}
{"id": "C103", "title": "One cipher object serves any number of calls at once", "statement": "Threads and coroutines may call (a)bytes_encrypt and (a)bytes_decrypt on the same cipher objects, and make further ones, all at the same time. However the calls are interleaved, each returns or raises exactly what it does if it is alone, and each that keeps getting turns ends.", "quantifier": "all numbers of cipher objects, keys, calls, arguments and draws, and all schedules that switch between calls at any use of a hash object", "why_tests_cant": "Tests see a few schedules; hash objects are mutable and shared, so one missing copy shows only in some interleavings.", "anchors": ["aiootp/ciphers/cipher_interface.py: CipherInterface.abytes_encrypt, CipherInterface.bytes_encrypt, CipherInterface.abytes_decrypt, CipherInterface.bytes_decrypt", "aiootp/ciphers/cipher_kdfs.py: KeyedCipherKDF.new_session_copy, ShakeConfig.prepare_factory", "aiootp/ciphers/key_bundle.py: KeyAADBundle._initialize_session", "aiootp/ciphers/dual_output_shake_cipher.py: DualOutputKeyAADBundle._new_keystream"]}
{"id": "C104", "title": "Files that a database did not write are refused", "statement": "Someone who chooses all calls on a database and sees all that it does to its directory replaces the files by whatever they like, and a tag is queried or the database is opened. If the cipher's hash function is drawn at random, the chance that something is read that the same reading would not have given at some moment of the past is at most the number of such attempts divided by 256 to the power of the size of the authentication tag.", "quantifier": "all databases with a key and salt, all adaptive choices of calls, all numbers of attempts, each after any number of calls, with any files and any object of the database, and all known values of the hash function elsewhere", "why_tests_cant": "Tests damage a few files in a few ways; here the files are chosen by someone who has seen all others.", "anchors": ["aiootp/databases/sync_database.py: Database.query_tag, Database._query_ciphertext, Database._open_manifest, Database._load_manifest, Database.save_tag, Database.save_database", "aiootp/databases/async_database.py: AsyncDatabase.query_tag", "aiootp/ciphers/cipher_interface.py: CipherInterface.bytes_decrypt"]}
{"id": "C105", "title": "A database in a hostile directory returns only what was stored", "statement": "While a database object is in use, someone else chooses before every call what is in its directory, having seen what all calls before returned, raised and wrote, and chooses the calls. If the cipher's hash function is drawn at random, the chance that one of n calls of query_tag or pop_tag returns a value that no earlier call stored with that tag is at most n times the number of files divided by 256 to the power of the size of the authentication tag.", "quantifier": "all databases with a key and salt, all numbers of calls, all adaptive choices of the calls and of the whole directory before each of them, and all known values of the hash function elsewhere", "why_tests_cant": "Tests damage a few files once; here the files change before every call, and are chosen with knowledge of all reactions so far.", "anchors": ["aiootp/databases/sync_database.py: Database.set_tag, Database.query_tag, Database.pop_tag, Database.rollback_tag, Database.load_tags, Database.save_tag, Database.save_database", "aiootp/databases/async_database.py: AsyncDatabase.query_tag", "aiootp/ciphers/cipher_interface.py: CipherInterface.bytes_decrypt"]}
{"id": "C106", "title": "Kdfs for different domains derive different keys", "statement": "Two keys that DomainKDF objects derive with the same method and size are equal only if the objects were made with the same key, domain and data, had the same updates in the same order, and were given the same arguments and aad; or else two different messages that were hashed for the two keys have the same digest.", "quantifier": "all hash functions, keys, domains, data, histories of updates, methods, sizes, aads and arguments", "why_tests_cant": "It ranges over all pairs of kdfs and of their histories; two that meet by accident of the encoding have to be constructed.", "anchors": ["aiootp/keygens/domain_kdf.py: DomainKDF.__init__, DomainKDF.update, DomainKDF.sha3_256, DomainKDF.sha3_512, DomainKDF.shake_128, DomainKDF.shake_256", "aiootp/generics/hashing.py: hash_bytes"]}
{"id": "C107", "title": "Derived keys look random", "statement": "If the hash functions cannot be told from random ones, then whoever has n keys derived by DomainKDF objects, and chooses for each the secret key to use out of c, the domain, data, updates, method, size, aad and arguments after seeing all keys derived before, cannot tell another key, whose kdf or arguments differ from all of these in anything, from bytes drawn at random: of all hash functions, at most (3 * n + 3 + c) squared in 256 to the power of 64 let a test succeed more or less often, if secret keys have at least 64 bytes, and key and domain together less than 152.", "quantifier": "all numbers of keys, all adaptive choices of kdfs and arguments, all tests, and all values of the hash functions on inputs that are not used", "why_tests_cant": "It is a statement about the number of hash functions for which an adversary succeeds, for all adversaries.", "anchors": ["aiootp/keygens/domain_kdf.py: DomainKDF.__init__, DomainKDF.update, DomainKDF.sha3_256, DomainKDF.sha3_512, DomainKDF.shake_128, DomainKDF.shake_256", "aiootp/generics/hashing.py: hash_bytes"]}
{"id": "C108", "title": "read_token returns only what was given to make_token", "statement": "Whoever sees n tokens, and chooses for each the key, aad and data after seeing the earlier ones, and then makes up tokens, gets read_token to return data for a key, an aad and a time to live only if make_token was called with that key, aad and data, and not longer ago than the time to live: of all hash functions, at most the number of attempts in 256 to the power of the size of the tag let them do otherwise. So no change of a token changes what it holds, who it is for, or how long it lasts.", "quantifier": "all numbers of tokens and attempts, all adaptive choices of orders, all made up tokens (url-safe or not), keys, aads, times and times to live, all configurations with padding frames up to 256, and all values of the hash function on other inputs", "why_tests_cant": "It is a statement about the number of hash functions for which a forger succeeds, for all forgers.", "anchors": ["aiootp/ciphers/cipher_interface.py: CipherInterface.make_token, CipherInterface.read_token", "aiootp/generics/byte_io.py: ByteIO.urlsafe_to_bytes, ByteIO.bytes_to_urlsafe"]}
{"id": "C109", "title": "Random bytes look random", "statement": "If shake_256 cannot be told from a random function on inputs that begin with the secret seed of the process, then no one who chooses all calls of csprng and of the entropy pool's hash method, their arguments, sizes, threads and processes, and their interleaving, each after seeing all that was returned before, can tell what is returned from bytes drawn at random: every test of all results accepts exactly the same share of hash functions as of drawn bytes.", "quantifier": "all seeds, all numbers of threads, forked processes and calls, all schedules, all adaptive choices of entropy, data and sizes, all contents of the pool, all tests", "why_tests_cant": "It is a statement about all tests and all hash functions.", "anchors": ["aiootp/randoms/rng.py: csprng, acsprng", "aiootp/randoms/threading_safe_entropy_pool.py: ThreadingSafeEntropyPool.hash, ThreadingSafeEntropyPool.ahash", "aiootp/randoms/simple.py: canonical_token"]}
{"id": "C110", "title": "A with block of a database saves what it did", "statement": "However the block of a with statement of a database ends, an object that is opened afterwards on the directory has the metatags, the tags and the values that the object had at the end of the block; an exception of the block goes on, and none is raised that the block did not raise, unless a value cannot be represented.", "quantifier": "all histories before the block, all blocks (any calls on the database and its metatags, which may depend on what earlier calls returned or raised), all ways to end, all places of the object in the tree", "why_tests_cant": "It ranges over all programs in the block and all points where they may raise.", "anchors": ["aiootp/databases/sync_database.py: Database.__enter__, Database.__exit__, Database.save_database, Database._nullify", "aiootp/databases/async_database.py: AsyncDatabase.__aenter__, AsyncDatabase.__aexit__"]}
{"id": "C111", "title": "A packet that was never sent is not taken", "statement": "If the hash function cannot be told from a random one on inputs from which block ids are made, then a recipient who is offered packets, in any portions and before any tag is checked, does not take a packet that was in none of the streams sent, up to a guess of its block id: of all hash functions, at most as many as the number of packets offered in 256 to the size of a block id let a packet through that was never sent, after packets that begin a stream with the same key, salt, aad and iv, or at the very beginning. This holds even if whoever makes the packets up knows the key and chooses all that is sent by what was sent before. The packets of a stream that was sent are taken, in any portions.", "quantifier": "all ciphers, keys, salts, aads, ivs, ways of choosing the streams, numbers of attempts, calls of the recipient, and values of the hash function on all other inputs", "why_tests_cant": "It is a statement about the number of hash functions for which an adversary succeeds, for all adversaries.", "anchors": ["aiootp/ciphers/decipher_streams.py: DecipherStream.buffer, DecipherStream.__iter__", "aiootp/ciphers/stream_hmac.py: StreamHMAC.next_block_id, StreamHMAC.test_next_block_id", "aiootp/ciphers/cipher_streams.py: CipherStream", "aiootp/ciphers/cipher_kdfs.py: CipherKDFs"]}
{"id": "C112", "title": "A wrong passphrase is refused for all but few hash functions", "statement": "If shake_128 is drawn at random, then whoever is given the hash of a passphrase, asks for digests of inputs of their choice, each chosen by what was seen before, and then calls verify with passphrases and aads of their choice, has one accepted that is not the passphrase and aad that were hashed for at most (q + (n + 1) N)^2 / 256^s of the hash functions: q is the number of digests, n is the number of guesses, N is how often a call hashes and s is the size of the tag, or 168 if that is less. The aad is the right one, or the passphrase has the right length, or more than one core is used. It makes no difference if the passphrase, the salt and the pepper are known. Some hash functions are bad: a constant one accepts every guess.", "quantifier": "all settings, peppers, passphrases, aads, salts, times, ways of choosing what is hashed and guessed, numbers of digests and guesses, and values of the hash function on all other inputs", "why_tests_cant": "It is a statement about the number of hash functions for which an adversary succeeds, for all adversaries; one call of verify takes seconds.", "anchors": ["aiootp/keygens/passcrypt/interface.py: Passcrypt.hash_passphrase, Passcrypt.verify, Passcrypt.new", "aiootp/keygens/passcrypt/sessions_manager.py: SessionsManager", "aiootp/keygens/passcrypt/session_init.py: PasscryptSession"]}
{"id": "C113", "title": "A passphrase is not found from its hash but by trying candidates", "statement": "If the passphrase is drawn from a set W, each as likely as the others, and shake_128 is drawn at random, then whoever is given the hash of the passphrase and knows the pepper, the aad, the salt and the settings, asks for q digests of inputs of their choice, each chosen by what was seen before, and then makes n guesses, has the passphrase among them with a chance of at most (q + n) / |W| + (2 q + 6 N) / 256^168, where N is how often a call hashes. So a digest rules out one candidate at most, the hash itself rules out none, and whoever names n candidates finds those without a digest.", "quantifier": "all sets of passphrases of ordinary sizes, settings, peppers, aads, salts, times, ways of choosing what is hashed and guessed, numbers of digests and guesses, and values of the hash function on all other inputs", "why_tests_cant": "It is a statement about the number of hash functions and passphrases for which an adversary succeeds, for all adversaries.", "anchors": ["aiootp/keygens/passcrypt/interface.py: Passcrypt.hash_passphrase, Passcrypt.new", "aiootp/keygens/passcrypt/sessions_manager.py: SessionsManager", "aiootp/keygens/passcrypt/session_init.py: PasscryptSession"]}
{"id": "C114", "title": "Each candidate for a passphrase costs the work of a whole call", "statement": "If the passphrase is drawn from a set W and shake_128 is drawn at random, then whoever is given the hash of the passphrase and knows all else, asks for q digests of inputs of their choice and then makes n guesses has the passphrase among them with a chance of at most (q / w + n) / |W| + (q^2 + N^2 q + 3 N) / 256^168. Here N is how often a call hashes at most, and w is how many different inputs all cores of one call hash to overwrite the blocks of their memory, which is nearly all of N. So no part of the memory of a core can be left out, no core can be left out, and nothing that was hashed for one candidate helps with another. Conversely, with the digests of k calls k candidates can be tried.", "quantifier": "all sets of passphrases of ordinary sizes, settings, peppers, aads, salts, times, ways of choosing what is hashed and guessed, numbers of digests and guesses, and values of the hash function on all other inputs", "why_tests_cant": "It is a statement about the number of hash functions and passphrases for which an adversary succeeds, for all adversaries: a shortcut would be a way of hashing that no test tries.", "anchors": ["aiootp/keygens/passcrypt/interface.py: Passcrypt.hash_passphrase, Passcrypt.new", "aiootp/keygens/passcrypt/sessions_manager.py: SessionsManager._work_memory_prover", "aiootp/keygens/passcrypt/session_init.py: PasscryptSession"]}
{"id": "C115", "title": "A permutation object may be used by many coroutines", "statement": "If coroutines and threads share one AffineXORChain or FastAffineXORChain, the calls of permute, invert, step and update_increment (and of their asynchronous versions) that have returned act as if they had been made one after another, in an order in which no call comes before one that had ended when it was begun; calls that were cancelled have had no effect; and no call hangs.", "quantifier": "all keys and sizes, all numbers of callers, all calls, schedules and cancellations", "why_tests_cant": "The order in which the steps of calls interleave is chosen by the event loop and the interpreter; a test sees few of them.", "anchors": ["aiootp/_permutations/affine_xor_chain.py: AffineXORChain.apermute, AffineXORChain.ainvert, AffineXORChain.astep, AffineXORChain.aupdate_increment, AffineXORChain.permute, AffineXORChain.invert, AffineXORChain.step, AffineXORChain.update_increment", "aiootp/_permutations/affine_permutation.py: AffinePermutation.apermute, AffinePermutation.ainvert", "aiootp/_permutations/fast_affine_xor_chain.py: FastAffineXORChain"]}
{"id": "C116", "title": "A GUID object may be used by many coroutines", "statement": "If coroutines of an event loop share one GUID object, the calls of anew, new and aread give what the same readings of the clock and of the random source give to one caller who calls new and read: the same guids, each to one call, also if other calls are cancelled; no call hangs or raises (aread where read raises the same); every call ends when it has gone on four times; and no two calls are given the same guid, if fewer than 255 guids are made between two equal readings of the clock.", "quantifier": "all keys, sizes and node ids, all numbers of coroutines, all calls, schedules and cancellations, all readings and tokens", "why_tests_cant": "The order in which the steps of calls interleave is chosen by the event loop; a test sees few of them.", "anchors": ["aiootp/randoms/ids/guid.py: GUID.anew, GUID.aread, GUID.new, GUID.read", "aiootp/randoms/ids/raw_guid.py: RawGUID.anew, RawGUID.new", "aiootp/_permutations/affine_xor_chain.py: AffineXORChain.apermute, AffineXORChain.ainvert"]}
{"id": "C117", "title": "A key bundle is used once also if it is shared", "statement": "If coroutines and threads share one key bundle and the stream-hmacs made from it, at most one of their calls of bytes_encipher, abytes_encipher, bytes_decipher and abytes_decipher returns a stream, the others raise; and no call encrypts with an iv that was given, or decrypts with one that was drawn.", "quantifier": "all numbers of coroutines and threads, all calls on the bundle and its stream-hmacs, all schedules", "why_tests_cant": "Whether a thread is interrupted between the check and the registration depends on the interpreter; a test hardly ever sees it.", "anchors": ["aiootp/ciphers/key_bundle.py: KeyAADBundle._register_shmac, KeyAADRegisters.register, KeyAADMode.set_sync_mode, KeyAADMode.set_async_mode", "aiootp/ciphers/stream_hmac.py: StreamHMAC._for_encryption, StreamHMAC._for_decryption", "aiootp/ciphers/stream_junction.py: StreamJunction.bytes_encipher, StreamJunction.bytes_decipher", "aiootp/commons/slots.py: FrozenSlots.__setitem__"]}
{"id": "C118", "title": "A package signer summarizes what it was told last, and only after it was signed", "statement": "Whatever calls are made on a PackageSigner in which order: a summary that summarize returns states for every name the last value given for it (at the creation or by update_scope), for every file the digest of the last content given to add_file, the public credentials and the signing key given last, and nothing else; and sign_package was called with success when exactly these were the contents, or their signature was stored before.", "quantifier": "all sequences of calls, also calls that raise; all names, values, file contents, stored databases", "why_tests_cant": "The calls can be made in any order, and contents change after they were signed; tests run one order.", "anchors": ["aiootp/keygens/package_signer.py: PackageSigner.__init__, PackageSignerScope.__init__, PackageSigner.connect_to_secure_database, PackageSigner.update_scope, PackageSigner.update_signing_key, PackageSigner.add_file, PackageSigner.sign_package, PackageSigner.summarize"]}
{"id": "C119", "title": "A type that was added to Typing is never replaced", "statement": "Typing.add_type returns exactly for classes whose name is an identifier without underscores that begins with a capital and is not yet an attribute of Typing; then the name stands for the class from then on and no other name changes. A call that raises changes nothing. This holds for all orders of calls, also of threads.", "quantifier": "all sequences of calls, all objects given, all names, all numbers of threads and schedules", "why_tests_cant": "Names are arbitrary strings, and whether one thread is interrupted between the check and the assignment depends on the interpreter.", "anchors": ["aiootp/_typing/interface.py: Typing.add_type, Typing._test_type, Typing._test_type_name"]}
{"id": "C120", "title": "What can be imported from the package", "statement": "After remake_subpackage has been applied to a package, every package in its tree and every module of one can be imported under its name, and has exactly the names of its module_api, its subpackages and its modules, and the five that all modules have; no other name that the source file defines can be imported. A name of the api stands for what the api has; the name of a subpackage or module for the same things as importing it gives. All other modules stay as they are.", "quantifier": "all trees of packages and modules whose names are different, all apis, all states of sys.modules", "why_tests_cant": "Trees have any depth and width, and the names that must not be there cannot be listed.", "anchors": ["aiootp/commons/packaging.py: make_module, remake_module, remake_subpackage", "aiootp/__init__.py: subpackages, modules, module_api"]}
{"id": "C121", "title": "Passcrypt configs that can verify what they hash", "statement": "With any PasscryptConfig, whatever its limits and header sizes are, every hash that hash_passphrase returned is accepted by verify with the same config, passphrase, aad and pepper, within the ttl and if the settings are allowed.", "quantifier": "all configs, settings, salts, passphrases, aads, peppers, times", "why_tests_cant": "Configs are made by users with limits of their own; tests use passcrypt_spec.", "anchors": ["aiootp/keygens/passcrypt/interface.py: Passcrypt.hash_passphrase, Passcrypt.verify", "aiootp/keygens/passcrypt/config.py: PasscryptConfig.validate_settings", "aiootp/keygens/passcrypt/hash_format.py: PasscryptHash.export_hash, PasscryptHash.import_hash"]}
{"id": "C122", "title": "Configurations are told apart", "statement": "The metadata that is hashed with every use of a passcrypt config, a SHAKE-permute cipher or a dual-output cipher determines every value the config was made of, so that no two different configs derive the same keys and no cipher decrypts the ciphertext of another config; the KDFs of ciphers with different ids, metadata, names or block sizes begin with different bytes, unless shake_128 collides.", "quantifier": "all configs, with all ids, names, sizes, limits, epochs, units of time, pads, hash functions and key slices", "why_tests_cant": "Whether two configs are confused depends on all pairs of configs; a test compares a few.", "anchors": ["aiootp/keygens/passcrypt/config.py: PasscryptConfig", "aiootp/ciphers/shake_permute_cipher_config.py: ShakePermuteCipherConfig", "aiootp/ciphers/dual_output_shake_cipher_config.py: DualOutputShakeCipherConfig", "aiootp/ciphers/cipher_kdfs.py: ShakeConfig.prepare_factory"]}
{"id": "C123", "title": "The KDFs of a cipher config are its own", "statement": "Once a cipher config is made, the constants that its KDFs begin with are those of its own id and metadata and never change, whatever configs are made or refused before and after, with the same KDF objects or others; a KDF object serves one role of one config, so that making a config with one that is in use raises; a cipher keys every role with the KDF that was given for it, and no two roles begin with the same bytes unless shake_128 collides.", "quantifier": "all sequences of configs, made or refused, with all choices of KDF objects, role names, KDF names, ids and metadata", "why_tests_cant": "What a KDF begins with depends on the whole history of configs that share KDF objects; a test makes a few configs.", "anchors": ["aiootp/ciphers/cipher_kdfs.py: ShakeConfig.prepare_factory, CipherKDFs.key_base_kdf", "aiootp/ciphers/shake_permute_cipher_config.py: ShakePermuteCipherConfig", "aiootp/ciphers/dual_output_shake_cipher_config.py: DualOutputShakeCipherConfig", "aiootp/ciphers/dual_output_shake_cipher.py: DualOutputKDFs", "aiootp/ciphers/shake_permute_cipher.py: ShakePermuteKDFs"]}
{"id": "C124", "title": "Accepted cipher configs decrypt what they encrypt", "statement": "Every cipher config that the constructor accepts, with any pads, sizes of tags and KDFs, decrypts everything that it encrypts, under all keys, salts, aads and plaintexts, and makes block ids that its streams can check.", "quantifier": "all configs of both kinds that are accepted; all keys, salts, aads, random draws and plaintexts", "why_tests_cant": "A test uses the configs of the package; a bad size of tags loses every plaintext.", "anchors": ["aiootp/ciphers/shake_permute_cipher_config.py: ShakePermuteCipherConfig", "aiootp/ciphers/dual_output_shake_cipher_config.py: DualOutputShakeCipherConfig", "aiootp/ciphers/stream_hmac.py: StreamHMAC.finalize, test_shmac", "aiootp/ciphers/cipher_kdfs.py: KeyedCipherKDF"]}
{"id": "C125", "title": "Debug mode is on from enable_debugging to disable_debugging, and only then", "statement": "After any calls of enable_debugging and disable_debugging, from any threads and wherever event loops run, debug mode is what the last call that returned asked for: is_debugging tells it, masked containers show no values once it is off, and asyncio's debug mode of the event loops follows it. A call that raises changes nothing.", "quantifier": "all histories of calls; all interleavings of calls of threads; all containers and values", "why_tests_cant": "Tests switch on and off once in one thread; what is left on by another history shows keys in logs.", "anchors": ["aiootp/_debug_control.py: DebugControl", "aiootp/asynchs/loops.py: the switch of DebugControl", "aiootp/commons/slots.py: Slots.__repr__"]}
{"id": "C126", "title": "Guids that were read can be compared, sorted and put into sets", "statement": "The objects that RawGUID.read and GUID.read return are equal exactly if the guids are; < and > are a strict total order with it; equal objects have equal hashes; sorting the same guids gives the same list with ascending timestamps, and sets and dicts hold each guid once and find exactly those that were added. Comparing them with other objects gives False.", "quantifier": "all guids, all accepted configs, all lists of guids, all sets", "why_tests_cant": "A test compares a few guids; an order that is not transitive or a hash that disagrees with equality loses items of sets and dicts silently.", "anchors": ["aiootp/randoms/ids/raw_guid_config.py: RawGUIDContainer.__eq__, __lt__, __gt__, __hash__, sort_key"]}
{"id": "C127", "title": "Messages of exceptions tell the values they are about", "statement": "The message of a TimestampExpired tells by how many of the clock's units the timestamp expired; the messages about ciphertext sizes, key sizes, block ids, lengths and the difficulties, salt sizes and tag sizes of Passcrypt tell the value that was given and the limits, each in its place; the message about a wrong type names the value and the type that is needed.", "quantifier": "all ints (also negative ones), all limits, all units, all names and types", "why_tests_cant": "The messages are filled by replacing placeholders one after the other; a test with one value does not see that a placeholder is part of another one or of a value that was filled in before.", "anchors": ["aiootp/_exceptions.py: TimestampExpired, InvalidCiphertextSize, Issue.invalid_length, Issue.must_be_type, KeyAADIssue.invalid_key_size, SHMACIssue.block_id_is_too_small, PasscryptIssue.invalid_mb"]}
{"id": "C128", "title": "Exceptions of Passcrypt tell what is missing and hide the inputs", "statement": "A passphrase, salt or aad that is refused gets an exception that depends only on the classes and lengths of the inputs, never on their contents. If the passphrase is too short, the exception says how many bytes are missing, in its message and its attribute, and exactly so many further bytes make it accepted. The warning about resources names the first of mb, cpu and cores that is not allowed, its value, and all that the hash asks for.", "quantifier": "all passphrases, salts and aads of all classes, all limits, all resources and allowed ranges", "why_tests_cant": "That nothing of a secret is shown is a statement about pairs of runs; a test sees one message.", "anchors": ["aiootp/_exceptions.py: Metadata, PasscryptIssue.improper_passphrase, PasscryptIssue.improper_salt, PasscryptIssue.improper_aad, PasscryptIssue.untrusted_resource_consumption", "aiootp/keygens/passcrypt/config.py: PasscryptConfig.validate_inputs", "aiootp/keygens/passcrypt/hash_format.py: PasscryptHash.in_allowed_ranges"]}
