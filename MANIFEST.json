{
 "claims": [
  {
   "property": "C01",
   "status": "proved",
   "theorems": [
    "Aiootp.Canon.C01_unpack_pack",
    "Aiootp.Canon.C01_pack_total"
   ],
   "note": "round trip for every successful pack; pack succeeds on all well-formed arguments"
  },
  {
   "property": "C02",
   "status": "proved",
   "theorems": [
    "Aiootp.Canon.C02_pack_injective"
   ],
   "note": ""
  },
  {
   "property": "C03",
   "status": "partial",
   "theorems": [
    "Aiootp.Canon.C03_accepted_language_partial",
    "Aiootp.Canon.C03_nonempty_tail_partial",
    "Aiootp.Canon.C03_not_only_canonical",
    "Aiootp.Canon.C03_wrong_exception_types",
    "Aiootp.Canon.C03_refusals_partial",
    "Aiootp.Canon.C03_extra_padding_accepted",
    "Aiootp.Canon.C03_truncation_accepted"
   ],
   "note": "The claim is false of the code (surplus padding blocks and truncated trailing empty items are accepted, ZeroDivisionError/OverflowError escape): negations proved. The exact accepted language is proved."
  },
  {
   "property": "C04",
   "status": "proved",
   "theorems": [
    "Aiootp.Canon.C04_prefix_free",
    "Aiootp.Kdf.C04_update_history_injective"
   ],
   "note": ""
  },
  {
   "property": "C05",
   "status": "partial",
   "theorems": [
    "Aiootp.Canon.C05_same_blocks_partial",
    "Aiootp.Canon.C05_same_key_length_partial",
    "Aiootp.Canon.C05_key_length_collision",
    "Aiootp.Canon.C05_no_key_collision",
    "Aiootp.Canon.C05_not_unambiguous"
   ],
   "note": "False for keys that take different numbers of blocks, and between calls with and without a key (explicit collisions with the sha3_512 blocksize); proved for keys that take the same number of blocks."
  },
  {
   "property": "C06",
   "status": "proved",
   "theorems": [
    "Aiootp.Canon.C06_pack_aligned",
    "Aiootp.Canon.C06_key_aligned"
   ],
   "note": ""
  },
  {
   "property": "C07",
   "status": "proved",
   "theorems": [
    "Aiootp.Text.C07_urlsafe_round_trip",
    "Aiootp.Text.C07_urlsafe_alphabet"
   ],
   "note": ""
  },
  {
   "property": "C08",
   "status": "partial",
   "theorems": [
    "Aiootp.Text.C08_leading_zero_lost",
    "Aiootp.Text.C08_round_trip_partial",
    "Aiootp.Text.C08_fixed_length_injective_partial"
   ],
   "note": "False of the code for leading zero bytes (negation proved). Proved: result up to leading zeros, injectivity at one length."
  },
  {
   "property": "C09",
   "status": "partial",
   "theorems": [
    "Aiootp.Text.C09_empty_phrase_raises",
    "Aiootp.Text.C09_phrase_round_trip_partial"
   ],
   "note": "False for the empty byte string (KeyError, negation proved); proved for all others."
  },
  {
   "property": "C10",
   "status": "proved",
   "theorems": [
    "Aiootp.Text.C10_base_round_trip",
    "Aiootp.Text.C10_default_base_round_trip",
    "Aiootp.Text.C10_base_one_diverges"
   ],
   "note": ""
  },
  {
   "property": "C11",
   "status": "proved",
   "theorems": [
    "Aiootp.Text.C11_batch_join",
    "Aiootp.Text.C11_batch_chunks",
    "Aiootp.Text.C11_batch_sizes",
    "Aiootp.Text.C11_resize",
    "Aiootp.Text.C11_resize_refuses"
   ],
   "note": ""
  },
  {
   "property": "C12",
   "status": "proved",
   "theorems": [
    "Aiootp.Perm.C12_affine_bijection",
    "Aiootp.Perm.C12_affine_injective",
    "Aiootp.Perm.C12_affine_accepts",
    "Aiootp.Perm.C12_config_accepted",
    "Aiootp.Perm.C12_outside_domain_diverges"
   ],
   "note": "the primality of the table entries is a hypothesis of C12_config_accepted only; see C81"
  },
  {
   "property": "C13",
   "status": "proved",
   "theorems": [
    "Aiootp.Perm.C13_chain_bijection",
    "Aiootp.Perm.C13_two_parties",
    "Aiootp.Perm.C13_chain_accepts"
   ],
   "note": ""
  },
  {
   "property": "C14",
   "status": "proved",
   "theorems": [
    "Aiootp.Perm.C14_latin_square",
    "Aiootp.Perm.C14_period"
   ],
   "note": ""
  },
  {
   "property": "C15",
   "status": "partial",
   "theorems": [
    "Aiootp.Ids.C15_documented_span_collides",
    "Aiootp.Ids.C15_read_new_partial",
    "Aiootp.Ids.C15_unique_partial",
    "Aiootp.Ids.C15_onto_partial",
    "Aiootp.Ids.C15_large_index_not_read_back"
   ],
   "note": "False of the code for indexes of 256**size and above (negation proved); proved for indexes below."
  },
  {
   "property": "C16",
   "status": "proved",
   "theorems": [
    "Aiootp.Ids.C16_read_new",
    "Aiootp.Ids.C16_equal_only_if"
   ],
   "note": ""
  },
  {
   "property": "C17",
   "status": "partial",
   "theorems": [
    "Aiootp.Ids.C17_sequence_partial",
    "Aiootp.Ids.C17_nodes_partial",
    "Aiootp.Ids.C17_different_nanoseconds_partial",
    "Aiootp.Ids.C17_threads_repeat",
    "Aiootp.Ids.C17_two_instances_repeat",
    "Aiootp.Ids.C17_ticker_wraps"
   ],
   "note": "False for threads sharing an object, for two instances with one node id and for a clock that stands still (negations proved); proved for one-at-a-time use and for different node ids."
  },
  {
   "property": "C18",
   "status": "proved",
   "theorems": [
    "Aiootp.Ids.C18_sort_chronological",
    "Aiootp.Ids.C18_guids_sort_by_time",
    "Aiootp.Ids.C18_lexicographic"
   ],
   "note": ""
  },
  {
   "property": "C19",
   "status": "proved",
   "theorems": [
    "Aiootp.Clock.C19_timestamp_round_trip",
    "Aiootp.Clock.C19_ttl_exact",
    "Aiootp.Clock.C19_future_accepted"
   ],
   "note": ""
  },
  {
   "property": "C20",
   "status": "partial",
   "theorems": [
    "Aiootp.Cipher.C20_lengths",
    "Aiootp.Cipher.C20_round_trip_partial",
    "Aiootp.Cipher.C20_round_trip_small_frame",
    "Aiootp.Cipher.C20_truncated_sentinel"
   ],
   "note": "Lengths proved in full. The round trip is false for accepted configurations with padding frames above 256 bytes (negation proved); proved for frames up to 256 bytes, which includes both shipped ciphers, and for larger ones whenever the sentinel fits into the padding."
  },
  {
   "property": "C21",
   "status": "proved",
   "theorems": [
    "Aiootp.Cipher.C21_decrypt_encrypt",
    "Aiootp.Cipher.C21_decrypt_encrypt_large_frame"
   ],
   "note": "for every configuration the constructor accepts whose padding frame is at most 256 bytes (the shipped one is 256), and for larger frames whenever the padding is longer than the sentinel"
  },
  {
   "property": "C22",
   "status": "proved",
   "theorems": [
    "Aiootp.Cipher.C22_decrypt_encrypt",
    "Aiootp.Cipher.C22_decrypt_encrypt_large_frame"
   ],
   "note": "as C21"
  },
  {
   "property": "C23",
   "status": "proved",
   "theorems": [
    "Aiootp.Cipher.C23_permute",
    "Aiootp.Cipher.C23_dual",
    "Aiootp.Cipher.C23_short_key"
   ],
   "note": ""
  },
  {
   "property": "C24",
   "status": "proved",
   "theorems": [
    "Aiootp.Cipher.C24_permute",
    "Aiootp.Cipher.C24_dual"
   ],
   "note": "the collision is one of the xof at the tag length, on the explicit hash inputs"
  },
  {
   "property": "C25",
   "status": "proved",
   "theorems": [
    "Aiootp.Cipher.C25_accepts_exactly",
    "Aiootp.Cipher.C25_parts"
   ],
   "note": ""
  },
  {
   "property": "C26",
   "status": "proved",
   "theorems": [
    "Aiootp.Cipher.C26_permute_encrypt",
    "Aiootp.Cipher.C26_dual_encrypt",
    "Aiootp.Cipher.C26_permute_decrypt",
    "Aiootp.Cipher.C26_dual_decrypt"
   ],
   "note": "for accepted configurations whose block ids have an allowed size and, for decryption, whose padding frame is at most 256 bytes"
  },
  {
   "property": "C27",
   "status": "proved",
   "theorems": [
    "Aiootp.Cipher.C27_permute_refuses",
    "Aiootp.Cipher.C27_dual_refuses",
    "Aiootp.Cipher.C27_permute_recovers",
    "Aiootp.Cipher.C27_dual_recovers"
   ],
   "note": "same range of configurations as C26"
  },
  {
   "property": "C28",
   "status": "proved",
   "theorems": [
    "Aiootp.Cipher.C28_permute",
    "Aiootp.Cipher.C28_dual"
   ],
   "note": "same range of configurations as C26"
  },
  {
   "property": "C29",
   "status": "proved",
   "theorems": [
    "Aiootp.Cipher.C29_finalize",
    "Aiootp.Cipher.C29_not_finalized",
    "Aiootp.Cipher.C29_one_direction",
    "Aiootp.Cipher.C29_no_update_without_direction"
   ],
   "note": ""
  },
  {
   "property": "C30",
   "status": "partial",
   "theorems": [
    "Aiootp.Cipher.C30_ttl_bypassed_permute",
    "Aiootp.Cipher.C30_ttl_bypassed_dual",
    "Aiootp.Cipher.C30_permute_partial",
    "Aiootp.Cipher.C30_dual_partial",
    "Aiootp.Cipher.C30_dual_any_partial",
    "Aiootp.Cipher.C30_judged_permute",
    "Aiootp.Cipher.C30_nothing_permute_partial",
    "Aiootp.Cipher.C30_read_whole"
   ],
   "note": "False of the code: iterating before the first packet raises IndexError but marks the stream as checked, after which expired plaintext is released (negation proved). Proved: once a packet was buffered before the first iteration nothing is released, whatever the size of the timestamps (C30_nothing_permute_partial, C30_dual_any_partial); a stream is judged by the part of its timestamp that is in the first block (C30_judged_permute), which is all of it if it fits (C30_read_whole)."
  },
  {
   "property": "C31",
   "status": "partial",
   "theorems": [
    "Aiootp.Cipher.C31_single_use",
    "Aiootp.Cipher.C31_salt_and_iv",
    "Aiootp.Cipher.C31_iv_source",
    "Aiootp.Cipher.C31_iv_source_shipped",
    "Aiootp.Cipher.C31_missing_salt_for_decryption",
    "Aiootp.Cipher.C31_failed_call_uses_up"
   ],
   "note": "One clause is false: a missing salt is not refused for decryption (proved). All other clauses are proved."
  },
  {
   "property": "C32",
   "status": "partial",
   "theorems": [
    "Aiootp.Cipher.C32_frame_partial",
    "Aiootp.Cipher.C32_permute_slices_partial",
    "Aiootp.Cipher.C32_dual_slices_partial",
    "Aiootp.Cipher.C32_header_larger_than_frame"
   ],
   "note": "The clause about the inner header is false (negation proved); the other clauses are proved."
  },
  {
   "property": "C33",
   "status": "proved",
   "theorems": [
    "Aiootp.Guard.C33_mutual_exclusion",
    "Aiootp.Guard.C33_monitors_together",
    "Aiootp.Guard.C33_never_incoherent"
   ],
   "note": "for any number of guards and every interleaving of single deque operations, including reentered guards and cancelled tasks"
  },
  {
   "property": "C34",
   "status": "partial",
   "theorems": [
    "Aiootp.Guard.C34_order_partial",
    "Aiootp.Guard.C34_monitors_out_of_order"
   ],
   "note": "False for two monitors (negation proved: micro interleaving); proved for any two guards of which one is exclusive."
  },
  {
   "property": "C35",
   "status": "partial",
   "theorems": [
    "Aiootp.Guard.C35_everyone_ends_partial",
    "Aiootp.Guard.C35_empty_when_left",
    "Aiootp.Guard.C35_cancelled_task_blocks"
   ],
   "note": "False for tasks cancelled while waiting: they block the deques for ever (negation proved for every continuation). Without cancellation: starvation freedom under every fair schedule is proved."
  },
  {
   "property": "C36",
   "status": "proved",
   "theorems": [
    "Aiootp.Guard.C36_each_transition_once",
    "Aiootp.Guard.C36_wrong_state_raises",
    "Aiootp.Guard.C36_faulted_raises",
    "Aiootp.Guard.C36_block_starts_once",
    "Aiootp.Guard.C36_stray_exit_breaks_exclusion",
    "Aiootp.Guard.C36_reentered_never_starts"
   ],
   "note": "the last theorem is a finding beside the property: a stray __exit__ raises but disturbs others"
  },
  {
   "property": "C37",
   "status": "partial",
   "theorems": [
    "Aiootp.Guard.C37_deques_shared",
    "Aiootp.Guard.C37_targets_isolated",
    "Aiootp.Guard.C37_mutual_exclusion",
    "Aiootp.Guard.C37_discarded_partial",
    "Aiootp.Guard.C37_reuse_keeps_record",
    "Aiootp.Guard.C37_cancel_keeps_record",
    "Aiootp.Guard.C37_cancel_leaving_keeps_record"
   ],
   "note": "Isolation and sharing are proved for all schedules. Discarding of records is false when guards are entered again or tasks cancelled (negations proved), and proved otherwise."
  },
  {
   "property": "C38",
   "status": "partial",
   "theorems": [
    "Aiootp.Salt.C38_readers_fail",
    "Aiootp.Salt.C38_readers_partial",
    "Aiootp.Salt.C38_privileged",
    "Aiootp.Salt.C38_one_at_a_time_partial"
   ],
   "note": "False of the code: of two concurrent readers one may fail with PermissionError (schedule proved to fail). Proved for every schedule: only the salt or PermissionError, the content stays, the mode is 000 when no one reads; no one fails if reads do not overlap, or for privileged users."
  },
  {
   "property": "C39",
   "status": "partial",
   "theorems": [
    "Aiootp.Salt.C39_kept",
    "Aiootp.Salt.C39_existing_kept",
    "Aiootp.Salt.C39_one_maker",
    "Aiootp.Salt.C39_no_torn_salt",
    "Aiootp.Salt.C39_privileged_replaces",
    "Aiootp.Salt.C39_sequential",
    "Aiootp.Salt.C39_ensure_existing",
    "Aiootp.Salt.C39_no_short_salt"
   ],
   "note": "Proved in full for users bound by file modes; false for privileged users (negation proved)."
  },
  {
   "property": "C40",
   "status": "proved",
   "theorems": [
    "Aiootp.Database.C40_query",
    "Aiootp.Database.C40_query_ttl",
    "Aiootp.Database.C40_pop",
    "Aiootp.Database.C40_other_tags",
    "Aiootp.Database.C40_cached_ignores_ttl",
    "Aiootp.Database.C40_failed_set",
    "Aiootp.Database.C40_tree"
   ],
   "note": "For values that JSON gives back. Two limits are proved as well: cached values ignore the ttl, and a failed set_tag(cache=False) drops the earlier cached value."
  },
  {
   "property": "C41",
   "status": "proved",
   "theorems": [
    "Aiootp.Database.C41_reopen",
    "Aiootp.Database.C41_async",
    "Aiootp.Database.C41_one_database",
    "Aiootp.Database.C41_save_complete",
    "Aiootp.Database.C41_save_complete_tree",
    "Aiootp.Database.C41_save_raises"
   ],
   "note": "For every history over a tree of databases whose new keys and salts are new (Fresh)."
  },
  {
   "property": "C42",
   "status": "partial",
   "theorems": [
    "Aiootp.Database.C42_crash_partial",
    "Aiootp.Database.C42_tree_partial",
    "Aiootp.Database.C42_never_saved",
    "Aiootp.Database.C42_torn_manifest",
    "Aiootp.Database.C42_torn_file",
    "Aiootp.Database.C42_listed_without_file"
   ],
   "note": "Proved between any two file writes for databases that were saved before, also with metatags and for asynchronous saves in any order of their files. False for a database that was never saved, and if a single write can stop half way (negations proved)."
  },
  {
   "property": "C43",
   "status": "proved",
   "theorems": [
    "Aiootp.Database.C43_isolated",
    "Aiootp.Database.C43_tags",
    "Aiootp.Database.C43_metatag_failed"
   ],
   "note": "For every history over a tree of databases; a call at one place changes no database that is not at or below it, and a call on tags changes one database only."
  },
  {
   "property": "C44",
   "status": "partial",
   "theorems": [
    "Aiootp.Database.C44_deleted_partial",
    "Aiootp.Database.C44_others_stay",
    "Aiootp.Database.C44_reserved_names",
    "Aiootp.Database.C44_reload_leaves_files",
    "Aiootp.Database.C44_unknown_metatag",
    "Aiootp.Database.C44_unreachable"
   ],
   "note": "Proved for every history of calls on live objects. False if the manifest is reloaded, or the database opened again, after set_tag(cache=False) without a save: the file stays. Files named 0 and 1 are deleted although no database wrote them."
  },
  {
   "property": "C45",
   "status": "partial",
   "theorems": [
    "Aiootp.Database.C45_views_partial",
    "Aiootp.Database.C45_listed_without_value",
    "Aiootp.Database.C45_getitem_only_cache"
   ],
   "note": "False of the code: a tag that was set and cleared from the cache is listed but has no value, and db[tag] sees only the cache. `in`, tags and len agree and contain every tag with a value (proved for every history)."
  },
  {
   "property": "C46",
   "status": "proved",
   "theorems": [
    "Aiootp.Database.C46_derivations",
    "Aiootp.Database.C46_messages_differ",
    "Aiootp.Database.C46_same_key",
    "Aiootp.Database.C46_same_filename",
    "Aiootp.Database.C46_round_trip",
    "Aiootp.Database.C46_bound",
    "Aiootp.Database.C46_short_key",
    "Aiootp.Database.C46_same_metatag_key",
    "Aiootp.Database.realEnv_law"
   ],
   "note": "The hash function is a parameter: equal keys for different filenames or aads would be a collision between the two messages that are hashed. realEnv_law shows that the derivations and the cipher meet the assumptions of C40 to C45."
  },
  {
   "property": "C47",
   "status": "proved",
   "theorems": [
    "Aiootp.Passcrypt.C47_export",
    "Aiootp.Passcrypt.C47_import",
    "Aiootp.Passcrypt.C47_round_trip",
    "Aiootp.Passcrypt.C47_export_import",
    "Aiootp.Passcrypt.C47_timestamp_size"
   ],
   "note": "The last theorem shows why the size of the timestamp is part of the statement: it is not checked by PasscryptHash."
  },
  {
   "property": "C48",
   "status": "partial",
   "theorems": [
    "Aiootp.Passcrypt.C48_accepts",
    "Aiootp.Passcrypt.C48_hash_total",
    "Aiootp.Passcrypt.C48_expired",
    "Aiootp.Passcrypt.C48_not_allowed",
    "Aiootp.Passcrypt.C48_ranges",
    "Aiootp.Passcrypt.C48_ttl_exact",
    "Aiootp.Passcrypt.C48_outcome",
    "Aiootp.Passcrypt.C48_refuses_partial",
    "Aiootp.Passcrypt.C48_collision"
   ],
   "note": "One clause is false with a single core: for every hash function, passphrase p and aad there are another aad and a longer passphrase that is accepted for the hash of p (the key is put before the packed items without being delimited). With two and more cores, or the right aad, or a passphrase of the right length, acceptance of anything else is a collision between inputs that the two calls hash."
  },
  {
   "property": "C49",
   "status": "proved",
   "theorems": [
    "Aiootp.Passcrypt.C49_size",
    "Aiootp.Passcrypt.C49_allocate",
    "Aiootp.Passcrypt.C49_step_keeps_size",
    "Aiootp.Passcrypt.C49_segments",
    "Aiootp.Passcrypt.C49_prover",
    "Aiootp.Passcrypt.C49_cores",
    "Aiootp.Passcrypt.C49_reflected_row"
   ],
   "note": "For every setting within the limits of passcrypt_spec. C49_reflected_row is a finding beside the property: in the first row nothing is absorbed from the reflected row."
  },
  {
   "property": "C50",
   "status": "partial",
   "theorems": [
    "Aiootp.Slots.C50_instance",
    "Aiootp.Slots.C50_frozen_partial",
    "Aiootp.Slots.C50_denied",
    "Aiootp.Slots.C50_clear_empties",
    "Aiootp.Slots.C50_class_replaced",
    "Aiootp.Slots.C50_slots_set_hidden",
    "Aiootp.Slots.C50_dict_replaced",
    "Aiootp.Slots.C50_del_dict"
   ],
   "note": "Proved for FrozenInstance, and for the other frozen classes for every history without the operations named in FrozenSafe. The full statement is false of the code: clear() empties the dictionary before it raises, item assignment of __class__ replaces the class, and the name _slots_set hides the slots of hybrid objects (last four theorems)."
  },
  {
   "property": "C51",
   "status": "partial",
   "theorems": [
    "Aiootp.Slots.C51_types_partial",
    "Aiootp.Slots.C51_assignment",
    "Aiootp.Slots.C51_declared",
    "Aiootp.Slots.C51_check_hidden",
    "Aiootp.Slots.C51_types_hidden"
   ],
   "note": "Proved for every history without the operations named in TypedSafe. The full statement is false of typed objects with an instance dictionary, whose _validate_type can be hidden by an item of that name."
  },
  {
   "property": "C52",
   "status": "proved",
   "theorems": [
    "Aiootp.Keys.C52_dh2",
    "Aiootp.Keys.C52_dh2_ok",
    "Aiootp.Keys.C52_dh3",
    "Aiootp.Keys.C52_dh3_ok"
   ],
   "note": "The curve is a parameter with the law of Diffie-Hellman."
  },
  {
   "property": "C53",
   "status": "proved",
   "theorems": [
    "Aiootp.Keys.C53_write_once",
    "Aiootp.Keys.C53_imports"
   ],
   "note": "For every history of import and generate calls, with well formed and malformed arguments."
  },
  {
   "property": "C54",
   "status": "proved",
   "theorems": [
    "Aiootp.Package.C54_not_signed",
    "Aiootp.Package.C54_connect",
    "Aiootp.Package.C54_update_key",
    "Aiootp.Package.C54_accepts_iff",
    "Aiootp.Package.C54_summary_accepted",
    "Aiootp.Package.C54_signed_summary",
    "Aiootp.Package.C54_end_to_end",
    "Aiootp.Package.C54_summary_signed",
    "Aiootp.Package.C54_only_signed",
    "Aiootp.Package.C54_files_bound",
    "Aiootp.Package.C54_order",
    "Aiootp.Package.C54_respelled",
    "Aiootp.Package.C54_unsigned_probe",
    "Aiootp.Package.C54_file_names"
   ],
   "note": "JSON serialisation, the hash and the curve are parameters. The last three are findings beside the property: the spelling of the checksum and the signature is not bound, files are read before the signature is checked, and some file names cannot be added."
  },
  {
   "property": "C55",
   "status": "proved",
   "theorems": [
    "Aiootp.Mnemonic.C55_passphrase",
    "Aiootp.Mnemonic.C55_no_passphrase",
    "Aiootp.Mnemonic.C55_selected",
    "Aiootp.Mnemonic.C55_total",
    "Aiootp.Mnemonic.C55_positions",
    "Aiootp.Mnemonic.C55_no_choices",
    "Aiootp.Mnemonic.C55_mnemonic"
   ],
   "note": "For every stream of hash output."
  },
  {
   "property": "C56",
   "status": "proved",
   "theorems": [
    "Aiootp.Kdf.C56_copies_independent",
    "Aiootp.Kdf.C56_same_updates_same_output"
   ],
   "note": ""
  },
  {
   "property": "C57",
   "status": "partial",
   "theorems": [
    "Aiootp.Text.C57_tokens_not_unique",
    "Aiootp.Text.C57_made_tokens_unique_partial"
   ],
   "note": "False of the code: the decoder skips foreign characters and ignores unused bits (negation proved)."
  },
  {
   "property": "C58",
   "status": "partial",
   "theorems": [
    "Aiootp.Clock.C58_readings_not_exact",
    "Aiootp.Clock.C58_monotone_partial",
    "Aiootp.Clock.C58_exact_partial",
    "Aiootp.Clock.C58_off_by_one_partial"
   ],
   "note": "Exactness is false (floating point division, negation proved); monotonicity and the error bounds are proved."
  },
  {
   "property": "C59",
   "status": "partial",
   "theorems": [
    "Aiootp.Cipher.C59_permute_token",
    "Aiootp.Cipher.C59_dual_token",
    "Aiootp.Cipher.C59_permute_checked",
    "Aiootp.Cipher.C59_dual_checked",
    "Aiootp.Cipher.C59_changed_token_accepted",
    "Aiootp.Cipher.C59_permute_json",
    "Aiootp.Cipher.C59_dual_json"
   ],
   "note": "One clause is false: a token with characters outside of the alphabet put into it is still accepted (proved for every token). All other clauses are proved, also for JSON messages."
  },
  {
   "property": "C60",
   "status": "partial",
   "theorems": [
    "Aiootp.EventLoop.C60_loop_goes_on_partial",
    "Aiootp.EventLoop.C60_adelete_hangs"
   ],
   "note": "Proved for all tasks and threads that call the other salt file functions. False of the code for adelete_salt_file: it uses the blocking guard, and hangs the loop for ever whenever another task of the loop is inside."
  },
  {
   "property": "C61",
   "status": "proved",
   "theorems": [
    "Aiootp.Keys.C61_same",
    "Aiootp.Keys.C61_dh2_bound",
    "Aiootp.Keys.C61_dh3_bound",
    "Aiootp.Keys.C61_kinds_differ"
   ],
   "note": "The hash function is a parameter: anything else would be a collision between the two messages that the client and the server hash."
  },
  {
   "property": "C62",
   "status": "proved",
   "theorems": [
    "Aiootp.Keys.C62_one_kdf",
    "Aiootp.Keys.C62_first_keys",
    "Aiootp.Keys.C62_one_key",
    "Aiootp.Keys.C62_malformed_key"
   ],
   "note": "First are the first well formed ones. The last theorem is a finding beside the property: a server that is given a malformed key is spent, a client is not."
  },
  {
   "property": "C63",
   "status": "proved",
   "theorems": [
    "Aiootp.Mnemonic.C63_fair",
    "Aiootp.Mnemonic.C63_default_list",
    "Aiootp.Mnemonic.C63_default_uniform"
   ],
   "note": "The default word list is part of the model."
  },
  {
   "property": "C64",
   "status": "partial",
   "theorems": [
    "Aiootp.Profile.C64_made",
    "Aiootp.Profile.C64_same_key",
    "Aiootp.Profile.C64_separate",
    "Aiootp.Profile.C64_accepts",
    "Aiootp.Profile.C64_empty_passphrase",
    "Aiootp.Profile.C64_wrong_passphrase",
    "Aiootp.Profile.C64_wrong_delete"
   ],
   "note": "One clause is false: a wrong passphrase opens a database of its own that shares the salt file of the right one, and deleting it deletes that salt, after which the right passphrase opens another database (proved). The other clauses are proved for every history."
  },
  {
   "property": "C65",
   "status": "proved",
   "theorems": [
    "Aiootp.Random.C65_hash_token",
    "Aiootp.Random.C65_token",
    "Aiootp.Random.C65_messages"
   ],
   "note": "For every interleaving of threads and forks, if the 56 random bytes drawn for the calls differ and no key of a generator starts with the header of a token (NoHeader)."
  },
  {
   "property": "C66",
   "status": "partial",
   "theorems": [
    "Aiootp.Random.C66_multiply",
    "Aiootp.Random.C66_multiply_returns",
    "Aiootp.Random.C66_alone",
    "Aiootp.Random.C66_overlap_raises",
    "Aiootp.Random.C66_two_threads",
    "Aiootp.Random.C66_apart_partial"
   ],
   "note": "False of the code: all calls share one event loop, and a call that starts while one of another thread runs raises RuntimeError. Calls that do not overlap never raise, and the salted multiplications are proved for every interleaving."
  },
  {
   "property": "C67",
   "status": "proved",
   "theorems": [
    "Aiootp.Cipher.C67_permute_key",
    "Aiootp.Cipher.C67_permute_distinct",
    "Aiootp.Cipher.C67_dual_key",
    "Aiootp.Cipher.C67_dual_distinct",
    "Aiootp.Cipher.C67_dual_ratchet"
   ],
   "note": "Keys of different lengths are left out as in C05. For the dual-output ciphers the position and the session are part of the hash input of both sides; the earlier blocks are part of it through the ratchet key, which is a digest of all of them."
  },
  {
   "property": "C68",
   "status": "partial",
   "theorems": [
    "Aiootp.ConfigMap.C68_permanent_partial",
    "Aiootp.ConfigMap.C68_known",
    "Aiootp.ConfigMap.C68_raising_keeps",
    "Aiootp.ConfigMap.C68_found",
    "Aiootp.ConfigMap.C68_outcomes_partial",
    "Aiootp.ConfigMap.C68_mark",
    "Aiootp.ConfigMap.C68_clear_empties",
    "Aiootp.ConfigMap.C68_refused_is_marked",
    "Aiootp.ConfigMap.C68_method_shadowed",
    "Aiootp.ConfigMap.C68_type_replaced"
   ],
   "note": "Proved for every history without clear(). The full statement is false of the code: clear() raises but has emptied the map. The other findings: a refused config is marked with the id all the same, names of methods are accepted and hide the method, and an entry named _slots_set lets the declared type be replaced."
  },
  {
   "property": "C69",
   "status": "partial",
   "theorems": [
    "Aiootp.Pool.C69_results",
    "Aiootp.Pool.C69_schedule_independent",
    "Aiootp.Pool.C69_once",
    "Aiootp.Pool.C69_at_most_once",
    "Aiootp.Pool.C69_none_later",
    "Aiootp.Pool.C69_bounded",
    "Aiootp.Pool.C69_stuck",
    "Aiootp.Pool.C69_returns_partial",
    "Aiootp.Pool.C69_nested_deadlock"
   ],
   "note": "Everything but the last clause is proved for all programs and schedules. That gather returns is proved if the functions do not call gather on the same pool, and false otherwise: with any number of workers there is a finite program that waits for ever (C69_nested_deadlock)."
  },
  {
   "property": "C70",
   "status": "partial",
   "theorems": [
    "Aiootp.Spawn.C70_returned",
    "Aiootp.Spawn.C70_thread_returns",
    "Aiootp.Spawn.C70_process_returns_partial",
    "Aiootp.Spawn.C70_large_result_hangs",
    "Aiootp.Spawn.C70_exception_lost",
    "Aiootp.Spawn.C70_exception_is_empty",
    "Aiootp.Spawn.C70_unpicklable_lost"
   ],
   "note": "Values of threads, and values of processes that fit into a pipe, are proved. The rest is false of the code: larger results of processes make the call hang in every schedule, and exceptions are replaced by queue.Empty."
  },
  {
   "property": "C71",
   "status": "proved",
   "theorems": [
    "Aiootp.AsyncDb.C71_calls",
    "Aiootp.AsyncDb.C71_clear",
    "Aiootp.AsyncDb.C71_save",
    "Aiootp.AsyncDb.C71_load",
    "Aiootp.AsyncDb.C71_ends"
   ],
   "note": "Lists of calls on tags, a cleared cache, a save and a load, each over all schedules of the spawned tasks, compared with the model of the synchronous class. For databases without metatags. If a save raises, then which of the other values were written may differ."
  },
  {
   "property": "C72",
   "status": "partial",
   "theorems": [
    "Aiootp.AsyncDb.C72_own_tags_partial",
    "Aiootp.AsyncDb.C72_set_lost",
    "Aiootp.AsyncDb.C72_set_dropped",
    "Aiootp.AsyncDb.C72_set_raises",
    "Aiootp.AsyncDb.C72_query_none",
    "Aiootp.AsyncDb.C72_torn_file",
    "Aiootp.AsyncDb.C72_save_stale",
    "Aiootp.AsyncDb.C72_save_raises"
   ],
   "note": "Proved for coroutines that use different tags. For coroutines that use one tag, or save the database while others change it, the property is false of the code; each of the other theorems is a schedule whose outcome is that of no order of the calls."
  },
  {
   "property": "C73",
   "status": "partial",
   "theorems": [
    "Aiootp.AsyncMetatag.C73_one_object_partial",
    "Aiootp.AsyncMetatag.C73_two_objects",
    "Aiootp.Database.C73_data_lost"
   ],
   "note": "Proved if the metatag exists or one coroutine only asks for it. False if two coroutines ask for a new one at the same time: C73_two_objects, for every database and tag; C73_data_lost is what it does to the data."
  },
  {
   "property": "C74",
   "status": "partial",
   "theorems": [
    "Aiootp.Ignore.C74_try_statement",
    "Aiootp.Ignore.C74_finally_once",
    "Aiootp.Ignore.C74_finally_count",
    "Aiootp.Ignore.C74_plain",
    "Aiootp.Ignore.C74_error_partial",
    "Aiootp.Ignore.C74_error_stale"
   ],
   "note": "Everything but the last clause is proved for all programs, handlers and nestings. The last clause is proved for blocks that raise; it is false of the code for an object that is used again: after a clean block it shows the exception of an earlier one (C74_error_stale)."
  },
  {
   "property": "C75",
   "status": "partial",
   "theorems": [
    "Aiootp.Views.C75_views",
    "Aiootp.Views.C75_accepts",
    "Aiootp.Views.C75_order",
    "Aiootp.Views.C75_copy",
    "Aiootp.Views.C75_masked",
    "Aiootp.Views.C75_repr_partial",
    "Aiootp.Views.C75_repr_raises",
    "Aiootp.Views.C75_repr_text",
    "Aiootp.Views.C75_clear_frozen"
   ],
   "note": "Proved for names that the containers do not use themselves (C50 has the others). That repr returns is proved if no name is empty, and false otherwise: repr of a container with an empty name raises IndexError."
  },
  {
   "property": "C76",
   "status": "partial",
   "theorems": [
    "Aiootp.Gens.C76_collate",
    "Aiootp.Gens.C76_collate_raises",
    "Aiootp.Gens.C76_collate_lazy",
    "Aiootp.Gens.C76_cycle",
    "Aiootp.Gens.C76_cycle_ends",
    "Aiootp.Gens.C76_count",
    "Aiootp.Gens.C76_bytes_count",
    "Aiootp.Gens.C76_bytes_range",
    "Aiootp.Gens.C76_bytes_range_raises",
    "Aiootp.Gens.C76_azip_partial",
    "Aiootp.Gens.C76_azip_raises",
    "Aiootp.Gens.C76_azip_none",
    "Aiootp.Gens.C76_popleft",
    "Aiootp.Gens.C76_popleft_ends"
   ],
   "note": "Proved for all of the generators, azip for at least one iterable. False of the code: azip() without iterables gives empty rows for ever, zip() gives nothing."
  },
  {
   "property": "C77",
   "status": "partial",
   "theorems": [
    "Aiootp.Daemon.C77_delays",
    "Aiootp.Daemon.C77_refused",
    "Aiootp.Daemon.C77_set",
    "Aiootp.Daemon.C77_temporary_partial",
    "Aiootp.Daemon.C77_temporary_unused",
    "Aiootp.Daemon.C77_temporary_forever",
    "Aiootp.Daemon.C77_cancelled",
    "Aiootp.Daemon.C77_cancel_ends"
   ],
   "note": "Proved: bounds of all delays under all interleavings, refusal, cancellation, and the end of a temporary delay for rounds of the daemon that no call interrupts. False of the code: a temporary delay that ends during a sleep is never used; one that is set while an earlier one ends may stay for ever; a cancelled daemon cannot be started again."
  },
  {
   "property": "C78",
   "status": "partial",
   "theorems": [
    "Aiootp.Files.C78_frame",
    "Aiootp.Files.C78_write_alone",
    "Aiootp.Files.C78_append_alone",
    "Aiootp.Files.C78_returns",
    "Aiootp.Files.C78_append_whole",
    "Aiootp.Files.C78_append_bytes",
    "Aiootp.Files.C78_read",
    "Aiootp.Files.C78_read_raises",
    "Aiootp.Files.C78_write_same_size_partial",
    "Aiootp.Files.C78_write_mixed",
    "Aiootp.Files.C78_write_loses"
   ],
   "note": "Proved: calls that nothing interrupts; any number of appends at once, with whole and with short transfers; readers during appends; writes of equal size at once, up to the moment where the file is empty. False of the code: writes of different sizes at once may leave a mixture, and a crash during a write loses both contents."
  },
  {
   "property": "C79",
   "status": "partial",
   "theorems": [
    "Aiootp.Cipher.Shared.C79_permute_one_taker_partial",
    "Aiootp.Cipher.Shared.C79_dual_one_taker_partial",
    "Aiootp.Cipher.Shared.C79_permute_ends",
    "Aiootp.Cipher.Shared.C79_dual_ends",
    "Aiootp.Cipher.Shared.C79_order",
    "Aiootp.Cipher.Shared.C79_permute_two_takers",
    "Aiootp.Cipher.Shared.C79_dual_two_takers",
    "Aiootp.Cipher.Shared.C79_permute_two_takers_raise",
    "Aiootp.Cipher.Shared.C79_dual_two_takers_raise"
   ],
   "note": "Proved: any number of threads that give data and one that takes packets. False of the code with two takers: one of them may get the exception of a generator that is running, or a block with the id of another place."
  },
  {
   "property": "C80",
   "status": "partial",
   "theorems": [
    "Aiootp.Cipher.SharedDec.C80_permute_one_taker_partial",
    "Aiootp.Cipher.SharedDec.C80_dual_one_taker_partial",
    "Aiootp.Cipher.SharedDec.C80_ends",
    "Aiootp.Cipher.SharedDec.C80_order",
    "Aiootp.Cipher.SharedDec.C80_permute_impatient",
    "Aiootp.Cipher.SharedDec.C80_dual_impatient",
    "Aiootp.Cipher.SharedDec.C80_permute_two_takers",
    "Aiootp.Cipher.SharedDec.C80_dual_two_takers"
   ],
   "note": "Proved: any number of threads that give packets and one that takes plaintext and first waits for a packet (for configurations whose inner header fits into one block). False of the code for a taker that does not wait (it may get the inner header) and for two takers (one may get plaintext of a stream that has expired)."
  },
  {
   "property": "C81",
   "status": "partial",
   "theorems": [
    "Aiootp.Perm.C81_table",
    "Aiootp.Perm.C81_config",
    "Aiootp.Perm.C81_sizes",
    "Aiootp.Perm.C81_other_sizes_raise",
    "Aiootp.Perm.C81_multiplier",
    "Aiootp.Perm.C81_multiplier_exists"
   ],
   "note": "Proved for the sizes 1 to 32, 48 and the multiples of 64 up to 512: the modulus is the least prime, by certificates (Pocklington, and elliptic curves for the large ones) that the kernel checks. False of the code: all other sizes up to 4096 raise KeyError (C81_other_sizes_raise)."
  },
  {
   "property": "C82",
   "status": "proved",
   "theorems": [
    "Aiootp.Keys.C82_signatures_accepted",
    "Aiootp.Keys.C82_verify_uses",
    "Aiootp.Keys.C82_signer_fixed"
   ],
   "note": "The signature scheme of the cryptography package is a parameter; it is assumed that a public key accepts what its secret key signs and that keys survive their encodings."
  },
  {
   "property": "C83",
   "status": "partial",
   "theorems": [
    "Aiootp.Keys.C83_one_at_a_time_partial",
    "Aiootp.Keys.C83_keys_come_from_calls",
    "Aiootp.Keys.C83_settles",
    "Aiootp.Keys.C83_same_key",
    "Aiootp.Keys.C83_keys_that_do_not_match",
    "Aiootp.Keys.C83_secret_key_lost"
   ],
   "note": "Proved for calls that do not overlap, for calls after the last overlapping one has ended, and for threads that import the same key. False of the code otherwise: two threads that call generate can leave the secret key of one with the public key of the other."
  },
  {
   "property": "C84",
   "status": "partial",
   "theorems": [
    "Aiootp.Keys.C84_alone",
    "Aiootp.Keys.C84_coroutines_one_kdf",
    "Aiootp.Keys.C84_coroutines_one_key",
    "Aiootp.Keys.C84_coroutines_attributes_fixed",
    "Aiootp.Keys.C84_threads_two_kdfs",
    "Aiootp.Keys.C84_threads_mixed_transcript"
   ],
   "note": "Proved for coroutines, in every schedule. False of the code for threads: an assignment checks and then assigns, so two threads can both get a kdf, and a kdf can have a transcript with the key of another thread's peer."
  },
  {
   "property": "C85",
   "status": "proved",
   "theorems": [
    "Aiootp.Database.C85_delete_again"
   ],
   "note": "For a database that was saved just before it is deleted. C44_reload_leaves_files says what happens to one that was not."
  },
  {
   "property": "C86",
   "status": "partial",
   "theorems": [
    "Aiootp.Ids.C86_reads_back_iff",
    "Aiootp.Ids.C86_sequence_reads_back_iff",
    "Aiootp.Ids.C86_keys",
    "Aiootp.Ids.C86_raw_id_ignored",
    "Aiootp.Ids.C86_builtin_reads_back",
    "Aiootp.Ids.C86_configurations_not_checked"
   ],
   "note": "The code accepts configurations for which it is false: raw_guid_config_id is not used, sizes that do not match are accepted, and the default key is made for the permutation registered under the size. C86_reads_back_iff and C86_keys say for which configurations it holds."
  },
  {
   "property": "C87",
   "status": "partial",
   "theorems": [
    "Aiootp.Json.C87_round_trip",
    "Aiootp.Json.C87_writes_iff",
    "Aiootp.Json.C87_same_iff",
    "Aiootp.Json.C87_again",
    "Aiootp.Json.C87_injective",
    "Aiootp.Json.C87_tuple_changed",
    "Aiootp.Json.C87_item_lost",
    "Aiootp.Json.C87_surrogates_changed",
    "Aiootp.Json.C87_permute",
    "Aiootp.Json.C87_dual",
    "Aiootp.Json.C87_storable_iff",
    "Aiootp.Database.C87_manifest",
    "Aiootp.Database.C87_database_law",
    "Aiootp.Database.C87_saved_tag"
   ],
   "note": "False of the code for values that JSON changes silently: tuples become lists, keys become strings (and items with the same string are lost), surrogate pairs become one character. C87_same_iff says exactly which values come back; C87_round_trip what comes back otherwise. The module json is modelled as CPython 3.11 implements it."
  },
  {
   "property": "C88",
   "status": "partial",
   "theorems": [
    "Aiootp.AsyncDb.C88_others",
    "Aiootp.AsyncDb.C88_values_partial",
    "Aiootp.AsyncDb.C88_set_lost",
    "Aiootp.AsyncDb.C88_pop_half",
    "Aiootp.AsyncDb.C88_late_thread"
   ],
   "note": "False of the code for aset_tag(cache=False), apop_tag and threads that are late; proved for the other calls with nobody else there, and for all coroutines with tags of their own that are not cancelled. Databases without metatags."
  },
  {
   "property": "C89",
   "status": "partial",
   "theorems": [
    "Aiootp.Database.C89_own_tags_partial",
    "Aiootp.Database.C89_unlisted",
    "Aiootp.Database.C89_new_salts",
    "Aiootp.Database.C89_reverted"
   ],
   "note": "False of the code, which has no locks and reads the manifest only when an object is created; proved of the values of objects that were opened after a save and name different tags. Calls of different objects do not overlap in time; databases without metatags."
  },
  {
   "property": "C90",
   "status": "partial",
   "theorems": [
    "Aiootp.Refusals.C90_permute_decrypt",
    "Aiootp.Refusals.C90_dual_decrypt",
    "Aiootp.Refusals.C90_permute_messages",
    "Aiootp.Refusals.C90_dual_messages",
    "Aiootp.Refusals.C90_urlsafe",
    "Aiootp.Refusals.C90_filename",
    "Aiootp.Refusals.C90_phrase",
    "Aiootp.Refusals.C90_guid",
    "Aiootp.Refusals.C90_raw_guid",
    "Aiootp.Refusals.C90_passcrypt",
    "Aiootp.Refusals.C90_keys",
    "Aiootp.Refusals.C90_hex",
    "Aiootp.Refusals.C90_package_partial",
    "Aiootp.Refusals.C90_package_other_exceptions",
    "Aiootp.Refusals.C90_unpack_zero_division",
    "Aiootp.Refusals.C90_unpack_overflow"
   ],
   "note": "False of the code for canonical_unpack (ZeroDivisionError, OverflowError; see C03_refusals_partial for what holds) and for package summaries (KeyError, TypeError, AttributeError). Input of another type than bytes or str is not modelled."
  },
  {
   "property": "C91",
   "status": "partial",
   "theorems": [
    "Aiootp.Salt.C91_content",
    "Aiootp.Salt.C91_never_lost_partial",
    "Aiootp.Salt.C91_locked_partial",
    "Aiootp.Salt.C91_uses_keep",
    "Aiootp.Salt.C91_uses_outcomes",
    "Aiootp.Salt.C91_ensure_dies",
    "Aiootp.Salt.C91_update_dies",
    "Aiootp.Salt.C91_salts_are_lost",
    "Aiootp.Salt.C91_read_dies",
    "Aiootp.Salt.C91_mended"
   ],
   "note": "False of the code for processes that die in the middle of a call: an empty file is left, for which no salt is ever made and which is never read; update loses both salts; a file that is being read is left open. Proved if no process dies in the middle of a call, and for processes that only use a file that is there."
  },
  {
   "property": "C92",
   "status": "proved",
   "theorems": [
    "Aiootp.Domains.C92_messages",
    "Aiootp.Domains.C92_returns",
    "Aiootp.Domains.C92_refused",
    "Aiootp.Domains.C92_same_constant",
    "Aiootp.Domains.C92_str_is_bytes",
    "Aiootp.Domains.C92_sites",
    "Aiootp.Domains.C92_names_differ",
    "Aiootp.Domains.C92_domains"
   ],
   "note": "For the hash function shake_128 as a parameter with digests of the size asked for. A str and its encoding are the same constant. Not modelled: the strings Python adds to the module of constants."
  },
  {
   "property": "C93",
   "status": "proved",
   "theorems": [
    "Aiootp.Profile.C93_condensed",
    "Aiootp.Profile.C93_short_segment",
    "Aiootp.Profile.C93_outcomes",
    "Aiootp.Profile.C93_condensed_decides",
    "Aiootp.Profile.C93_same_name",
    "Aiootp.Profile.C93_forged",
    "Aiootp.Profile.C93_shared",
    "Aiootp.Profile.C93_forged_salt"
   ],
   "note": "Keys that differ in the order of their segments, or in segments of zeros, share a file (C93_shared): the other side of deniability."
  },
  {
   "property": "C94",
   "status": "partial",
   "theorems": [
    "Aiootp.Cipher.Cancel.C94_permute_sender_partial",
    "Aiootp.Cipher.Cancel.C94_dual_sender_partial",
    "Aiootp.Cipher.Cancel.C94_permute_receiver",
    "Aiootp.Cipher.Cancel.C94_dual_receiver",
    "Aiootp.Cipher.Cancel.C94_part_buffered",
    "Aiootp.Cipher.Cancel.C94_permute_part_sent",
    "Aiootp.Cipher.Cancel.C94_dual_part_sent",
    "Aiootp.Cipher.Cancel.C94_permute_ttl_forgotten",
    "Aiootp.Cipher.Cancel.C94_dual_ttl_forgotten",
    "Aiootp.Cipher.Cancel.C94_cipher_ends",
    "Aiootp.Cipher.Cancel.C94_no_second_try",
    "Aiootp.Cipher.Cancel.C94_receiver_no_second_try",
    "Aiootp.Cipher.Cancel.C94_sender_stuck",
    "Aiootp.Cipher.Cancel.C94_receiver_stuck"
   ],
   "note": "The receiver part and the sender part without cancellations in the middle of abuffer are proved; the rest is false of the code: C94_*_part_sent (a cancelled abuffer leaves the first part of its data, and the recipient accepts it), C94_*_ttl_forgotten (a cancelled test of the timestamp is not repeated), C94_cipher_ends, C94_no_second_try and C94_*_stuck (what cannot be used any more)."
  },
  {
   "property": "C95",
   "status": "proved",
   "theorems": [
    "Aiootp.Secrecy.C95_permute",
    "Aiootp.Secrecy.C95_dual"
   ],
   "note": "The probability is over the hash function, a function drawn uniformly on finitely many inputs, all of which begin with a domain constant and a key that is used; on other inputs it is any known function. For the dual output cipher the three domain constants are assumed to be different and of equal length (their messages are different by C92)."
  },
  {
   "property": "C96",
   "status": "proved",
   "theorems": [
    "Aiootp.Secrecy.C96_permute",
    "Aiootp.Secrecy.C96_dual",
    "Aiootp.Secrecy.C96_guess_permute",
    "Aiootp.Secrecy.C96_guess_dual"
   ],
   "note": "The probability is over the hash function, a function drawn uniformly on finitely many inputs, all of which begin with a domain constant and the key of an attempt; on other inputs it is any known function. All keys have one length. The tag is assumed to be no longer than the block size of the hash function, as it is for both ciphers. An attempt may depend on all messages seen; that it depends on the failures of earlier attempts adds nothing, as it is known what a failure returns."
  },
  {
   "property": "C97",
   "status": "proved",
   "theorems": [
    "Aiootp.Secrecy.C97_permute",
    "Aiootp.Secrecy.C97_dual",
    "Aiootp.Secrecy.C97_sent_permute",
    "Aiootp.Secrecy.C97_sent_dual"
   ],
   "note": "The hash function is random as in C96; the block ids are made with the same hash function, as in the code. What is chosen for a stream may depend on the streams before it, but not on earlier packets of the same stream. Block ids are assumed to be no longer than the block size of the hash function, as they are for both ciphers."
  },
  {
   "property": "C98",
   "status": "proved",
   "theorems": [
    "Aiootp.Secrecy.C98_permute",
    "Aiootp.Secrecy.C98_dual"
   ],
   "note": "The hash function is random on finitely many inputs, which include all that are hashed after the key, and all that are hashed after the constant of the block ids. That constant must differ from the others and be as long: in the code all are made by encode_constant with different names and one size. That they differ is assumed, as it rests on SHAKE (C92 says that different messages are hashed for them). Streams of one run use one cipher configuration and keys of one size."
  },
  {
   "property": "C99",
   "status": "proved",
   "theorems": [
    "Aiootp.Secrecy.C99_permute",
    "Aiootp.Secrecy.C99_dual"
   ],
   "note": "The hash function is random on finitely many inputs, all of which have a key after one of the ciphers' constants, as in C95 and C96. A decryption counts as refused if it raises InvalidSHMAC or the error for a ciphertext of a wrong size. That the constants of the dual output ciphers differ is assumed, as in C95. Streams with chosen ciphertexts are not covered."
  },
  {
   "property": "C100",
   "status": "proved",
   "theorems": [
    "Aiootp.Database.C100_values",
    "Aiootp.Database.C100_tags",
    "Aiootp.Database.C100_manifest_sizes"
   ],
   "note": "One new database object with an empty directory; reopening, metatags and the mirrors of other directories are not covered. The values that are set must come back from json as they are. In C100_values only the hash function of the cipher is random, and no file of a tag has the name of the manifest's file or a key that begins the manifest's key; in C100_tags the function of the names and keys is random, too, on what is hashed for the names and the manifest's key, and the chance includes those cases. The first two steps of the root kdf are part of what is known. No salt may be drawn twice together with the same iv."
  },
  {
   "property": "C101",
   "status": "proved",
   "theorems": [
    "Aiootp.Secrecy.C101_dual",
    "Aiootp.Secrecy.C101_permute"
   ],
   "note": "Two choosers are compared that have the same keys, salts, aads, ivs, clock readings, siv keys and sizes of plaintexts after the same ciphertexts. For the shake-permute ciphers the first blocks are the same as well. The keys all have the same size. The ratchet keys of the dual output ciphers are split into even and odd bytes as Chunky2048 does it. That clock readings and siv keys do not repeat is assumed, not derived from how they are drawn."
  },
  {
   "property": "C102",
   "status": "proved",
   "theorems": [
    "Aiootp.Secrecy.C102_repeats",
    "Aiootp.Secrecy.C102_risk",
    "Aiootp.Secrecy.C102_dual",
    "Aiootp.Secrecy.C102_permute"
   ],
   "note": "Draws and hash functions are counted together, each pair with the same weight. Draws are uniform and independent of the hash function and of what is chosen. The restrictions of C101 apply."
  },
  {
   "property": "C103",
   "status": "proved",
   "theorems": [
    "Aiootp.Cipher.C103_dual",
    "Aiootp.Cipher.C103_permute"
   ],
   "note": "Hash objects are mutable and referred to; calls are suspended between any two uses of one. A use is atomic. Draws and clock readings are given to each call."
  },
  {
   "property": "C104",
   "status": "proved",
   "theorems": [
    "Aiootp.Database.C104",
    "Aiootp.Database.C104_replay"
   ],
   "note": "Old files of the same name may be put back unnoticed (C104_replay). Metatags are not in it. Names and keys are fixed; that different files have different names and keys is assumed (C46). The calls before an attempt see the directory as the database left it."
  },
  {
   "property": "C105",
   "status": "proved",
   "theorems": [
    "Aiootp.Database.C105",
    "Aiootp.Database.C105_files",
    "Aiootp.Database.C105_chance"
   ],
   "note": "C105_files: no file that the database did not write under its name is read at any moment, by any reading, the opening of the database included. Old files of the same name may be put back unnoticed (C104_replay). Metatags are not in it. In C105 names and keys are fixed, and different tags have different ones; in C105_chance the hash function that makes them is drawn, too, and this has its own small chance. The object stays the same during the history."
  },
  {
   "property": "C106",
   "status": "partial",
   "theorems": [
    "Aiootp.Kdf.C106_partial",
    "Aiootp.Kdf.C106_one_block_partial",
    "Aiootp.Kdf.C106_long_domain",
    "Aiootp.Kdf.C106_not_separate"
   ],
   "note": "Proved for keys and domains that take the same number of blocks together, and so for all that have less than 152 bytes together. False in general: C106_long_domain constructs, whatever the hash functions, for each key and domain another domain, and data for both, whose kdfs are the same; C106_not_separate is the negation of the full statement, Spec/KdfUse.lean: DomainsSeparate. The domain that is constructed contains bytes of the encoding, so programs with fixed domains are not concerned. Outputs of different methods are not compared."
  },
  {
   "property": "C107",
   "status": "proved",
   "theorems": [
    "Aiootp.Kdf.C107",
    "Aiootp.Kdf.exists_covered"
   ],
   "note": "For a number s of bytes up to 72 that the secret keys and the payload's salt have at least; s = 64 in the title statement. The four hash functions are random on finitely many inputs, which include all that are hashed; exists_covered: there are such inputs for every attack. One that asks for hashes of these inputs directly is not covered, as it would have to guess a key. Keys and domains together fit in one block (C106 says why)."
  },
  {
   "property": "C108",
   "status": "proved",
   "theorems": [
    "Aiootp.Secrecy.C108_permute",
    "Aiootp.Secrecy.C108_dual"
   ],
   "note": "The data of tokens; C59_changed_token_accepted shows that the text of a token is not unique, so tokens that differ may hold the same data."
  },
  {
   "property": "C109",
   "status": "proved",
   "theorems": [
    "Aiootp.Random.C109"
   ],
   "note": "As for C65, the tokens of the calls are taken to be different (C65_token), and none to be the beginning of a packed encoding. The share is exact: there is no error term, as no message is hashed twice."
  },
  {
   "property": "C110",
   "status": "partial",
   "theorems": [
    "Aiootp.Database.C110_saves_partial",
    "Aiootp.Database.C110_raises",
    "Aiootp.Database.C110_unstorable",
    "Aiootp.Database.C110_deleted",
    "Aiootp.Database.C110_metatag",
    "Aiootp.Database.C110_metatag_lost"
   ],
   "note": "C110_saves_partial is for blocks of the outermost database that do not delete it. A block that deletes it raises AttributeError, whatever leaves the block (C110_deleted). A block of a metatag saves the database of the metatag (C110_metatag), which is lost if the parent is not saved too, for the metatag's key comes from a salt that only the parent's manifest has (C110_metatag_lost)."
  },
  {
   "property": "C111",
   "status": "proved",
   "theorems": [
    "Aiootp.Secrecy.C111_permute",
    "Aiootp.Secrecy.C111_dual",
    "Aiootp.Secrecy.C111_sent_permute",
    "Aiootp.Secrecy.C111_sent_dual"
   ],
   "note": "The hypotheses on the constants of the hash objects are those of C98, and hold of both ciphers of the package. The hash function is random on all inputs of block ids, so that whoever makes packets up may know the key but not the digests of such inputs, other than by what is sent. Streams that are sent are sent whole. A packet of one stream that is offered in another is not a packet that was never sent; C28 is about those."
  },
  {
   "property": "C112",
   "status": "proved",
   "theorems": [
    "Aiootp.Passcrypt.C112_refuses",
    "Aiootp.Passcrypt.C112_some_lose",
    "Aiootp.Passcrypt.C48_collision"
   ],
   "note": "The case of one core with another aad and a passphrase of another length is left out, because there a wrong pair is accepted, whatever the hash function (C48_collision). How often a call hashes is counted exactly: once for each block of the memory of each core, and a few times more. The guesses are not limited to what verify would refuse otherwise: it may be given any lifetime and ranges, at any time."
  },
  {
   "property": "C113",
   "status": "proved",
   "theorems": [
    "Aiootp.Passcrypt.C113_finds",
    "Aiootp.Passcrypt.C113_guesses"
   ],
   "note": "The bound counts one digest for each candidate, not all those that a call makes for it: see C114 for the work of a whole call. The candidates may have different lengths."
  },
  {
   "property": "C114",
   "status": "proved",
   "theorems": [
    "Aiootp.Passcrypt.C114_costs",
    "Aiootp.Passcrypt.C114_enough"
   ],
   "note": "Counts hash queries, whatever their length: how much memory is held at a time, and how long a digest takes, is not modelled. In the first row the two blocks of a pair are digests of one input (C49), so that w counts them once."
  },
  {
   "property": "C115",
   "status": "partial",
   "theorems": [
    "Aiootp.ChainShared.C115_in_some_order_partial",
    "Aiootp.ChainShared.C115_coroutines_partial",
    "Aiootp.ChainShared.C115_never_hangs",
    "Aiootp.ChainShared.C115_threads_lose_a_step"
   ],
   "note": "Holds for coroutines of one event loop with any threads that only permute and invert (C115_coroutines_partial), and if calls of threads that change the object do not overlap (C115_in_some_order_partial). False for threads that step at the same time: of two steps one can be lost, whatever the key (C115_threads_lose_a_step), so that an output is repeated that the latin square of C14 excludes."
  },
  {
   "property": "C116",
   "status": "proved",
   "theorems": [
    "Aiootp.GuidShared.C116_as_alone",
    "Aiootp.GuidShared.C116_distinct",
    "Aiootp.GuidShared.C116_ends"
   ],
   "note": "For coroutines of one event loop. Threads that share a generator may be given the same counter, which is C17."
  },
  {
   "property": "C117",
   "status": "partial",
   "theorems": [
    "Aiootp.BundleShared.C117_once_partial",
    "Aiootp.BundleShared.C117_coroutines_partial",
    "Aiootp.BundleShared.C117_directions",
    "Aiootp.BundleShared.C117_threads_start_twice"
   ],
   "note": "That a bundle is used once is proved for coroutines (C117_coroutines_partial), and for threads whose calls of the four functions do not overlap, whatever else overlaps (C117_once_partial). False for threads that call them at the same time: both can start, from every state in which the bundle is ready (C117_threads_start_twice). The directions are proved for every schedule (C117_directions)."
  },
  {
   "property": "C118",
   "status": "partial",
   "theorems": [
    "Aiootp.Package.C118_states_partial",
    "Aiootp.Package.C118_key",
    "Aiootp.Package.C118_credentials",
    "Aiootp.Package.C118_signed",
    "Aiootp.Package.C118_date_zero"
   ],
   "note": "False for the date 0, which is replaced by today's date (C118_date_zero). All else is proved for every sequence of calls. C118_signed assumes that a signature is valid for one message only, and ends in the same text or a collision of the hash. C118_key and C118_credentials are for the calls since update_signing_key, or since the database was connected, if none of them connects a database or changes the name of the package."
  },
  {
   "property": "C119",
   "status": "partial",
   "theorems": [
    "Aiootp.Registry.C119_adds",
    "Aiootp.Registry.C119_refuses",
    "Aiootp.Registry.C119_kept",
    "Aiootp.Registry.C119_threads_partial",
    "Aiootp.Registry.C119_threads_replace"
   ],
   "note": "Proved for all calls one after another, and for threads that add types of different names, in every schedule. False for two threads that add types of one name at the same time: both calls can return, and one of the types is replaced (C119_threads_replace)."
  },
  {
   "property": "C120",
   "status": "proved",
   "theorems": [
    "Aiootp.Packaging.C120_package",
    "Aiootp.Packaging.C120_module",
    "Aiootp.Packaging.C120_others"
   ],
   "note": "Where a subpackage or module has a name that the api has too, the name stands for the subpackage or module. Names that a namespace refuses, as keys, are not modelled here (C50)."
  },
  {
   "property": "C121",
   "status": "partial",
   "theorems": [
    "Aiootp.Passcrypt.C121_accepts_partial",
    "Aiootp.Passcrypt.C121_never",
    "Aiootp.Passcrypt.C121_never_value",
    "Aiootp.Passcrypt.C121_strict"
   ],
   "note": "Proved for every config that allows salts of 8 bytes, with no other condition on its limits. False for every other config: verify makes a Passcrypt object with the default salt size of 8, so that it raises ValueError for every hash (C121_never, C121_never_value), while hash_passphrase works (C121_strict). That PACKED_METADATA depends on the config is covered by its being any bytes."
  },
  {
   "property": "C122",
   "status": "partial",
   "theorems": [
    "Aiootp.Metadata.C122_passcrypt",
    "Aiootp.Metadata.C122_passcrypt_sessions_partial",
    "Aiootp.Metadata.C122_permute_partial",
    "Aiootp.Metadata.C122_dual_partial",
    "Aiootp.Metadata.C122_kdfs",
    "Aiootp.Metadata.C122_permute_refused_partial",
    "Aiootp.Metadata.C122_dual_refused_partial",
    "Aiootp.Metadata.C122_time_unit",
    "Aiootp.Metadata.C122_ttl_misread"
   ],
   "note": "Proved in full for the metadata of passcrypt. For the ciphers it is proved of everything but the unit of time, the limits of the sizes of block ids and the names and offsets of KDFs (the names are in C122_kdfs), and it is false of the unit of time: two ciphers that differ in it alone decrypt each other's ciphertexts, and misread the ttl (C122_time_unit, C122_ttl_misread). C122_passcrypt_sessions_partial needs equal lengths of passphrase, salt and aad together, as in C48. C122_permute_refused_partial and C122_dual_refused_partial: a ciphertext that two ciphers decrypt, under any keys and aads, shows that their configs agree in those values, or exhibits a collision of the hash. Modelled with FastAffineXORChain as the permutation, as in the package."
  },
  {
   "property": "C123",
   "status": "partial",
   "theorems": [
    "Aiootp.KdfTable.C123_own",
    "Aiootp.KdfTable.C123_refused",
    "Aiootp.KdfTable.C123_roles",
    "Aiootp.KdfTable.C123_dual",
    "Aiootp.KdfTable.C123_permute",
    "Aiootp.KdfTable.C123_dual_only",
    "Aiootp.KdfTable.C123_seeds_partial",
    "Aiootp.KdfTable.C123_same_name",
    "Aiootp.KdfTable.C123_refused_uses",
    "Aiootp.KdfTable.C123_exchanged"
   ],
   "note": "C123_own and C123_refused hold for every history of configs. C123_seeds_partial needs different names of the KDFs: the names are not compared, and two roles whose KDFs have the same name and block size begin with the same bytes (C123_same_name). Roles get their own KDFs if their names are those of the package (C123_dual, C123_permute); other names are accepted by the config but no cipher can be made (C123_permute, C123_dual_only), and exchanged names exchange the KDFs (C123_exchanged). A config that is refused by the last checks has used up its KDF objects (C123_refused_uses)."
  },
  {
   "property": "C124",
   "status": "partial",
   "theorems": [
    "Aiootp.Cipher.C124_permute_partial",
    "Aiootp.Cipher.C124_dual_partial",
    "Aiootp.Cipher.C124_never_tag",
    "Aiootp.Cipher.C124_never_pad",
    "Aiootp.Cipher.C124_lost",
    "Aiootp.Cipher.C124_block_ids_never",
    "Aiootp.Cipher.C124_block_ids_empty",
    "Aiootp.Cipher.C124_fresh_permute",
    "Aiootp.Cipher.C124_fresh_some"
   ],
   "note": "For padding frames of at most 256 bytes (larger ones are subject of C20) an accepted config works if the pads of its KDFs are single bytes and its tags are not empty and not longer than what the hash gives, and decrypts nothing at all otherwise (C124_permute_partial, C124_dual_partial). The constructor checks none of these: a SHAKE-permute cipher with longer tags encrypts everything and decrypts nothing (C124_lost), so the full claim is false. Nor is the size of block ids checked: out of its own limits, no stream ever makes or accepts one (C124_block_ids_never), and with none, the empty id is right for every block (C124_block_ids_empty). SHAKE-permute configs with timestamps that are longer than a block are accepted, but their streams are refused as expired at the moment at which they are made (C124_fresh_permute)."
  },
  {
   "property": "C125",
   "status": "partial",
   "theorems": [
    "Aiootp.Debug.C125_flag",
    "Aiootp.Debug.C125_masked",
    "Aiootp.Debug.C125_loop_partial",
    "Aiootp.Debug.C125_raises",
    "Aiootp.Debug.C125_raised_reveals",
    "Aiootp.Debug.C125_left",
    "Aiootp.Debug.C125_threads",
    "Aiootp.Debug.C125_threads_loop_partial",
    "Aiootp.Debug.C125_race"
   ],
   "note": "The mode is what the last call asked for (C125_flag), so nothing is shown after disable_debugging (C125_masked), and however threads interleave that all disable it (C125_threads). The event loop follows if all calls are made on one (C125_loop_partial, C125_threads_loop_partial). False of the code: without an event loop enable_debugging raises after the mode was switched on, and values are shown (C125_raised_reveals); an event loop stays in debug mode if another one runs when the mode is switched off (C125_left), or if threads switch at the same time (C125_race)."
  },
  {
   "property": "C126",
   "status": "partial",
   "theorems": [
    "Aiootp.Ids.C126_eq",
    "Aiootp.Ids.C126_hash",
    "Aiootp.Ids.C126_order",
    "Aiootp.Ids.C126_sorted",
    "Aiootp.Ids.C126_set",
    "Aiootp.Ids.C126_sizes",
    "Aiootp.Ids.C126_configs",
    "Aiootp.Ids.C126_other"
   ],
   "note": "Proved for the guids of one config, whatever its sizes (C126_eq, C126_sorted, C126_set), for the order of all guids together (C126_order, C126_hash), and guids of different sizes of the configs of the package are never equal (C126_sizes). False of the code: guids of other configs can be equal though they are different bytes (C126_configs), and comparing a guid with another object, or looking it up among objects of the same hash, raises AttributeError (C126_other)."
  },
  {
   "property": "C127",
   "status": "partial",
   "theorems": [
    "Aiootp.Messages.C127_ciphertext_size",
    "Aiootp.Messages.C127_timestamp",
    "Aiootp.Messages.C127_timestamp_units",
    "Aiootp.Messages.C127_sizes",
    "Aiootp.Messages.C127_passcrypt",
    "Aiootp.Messages.C127_tag_size",
    "Aiootp.Messages.C127_length_partial",
    "Aiootp.Messages.C127_type_partial",
    "Aiootp.Messages.C127_garbled"
   ],
   "note": "Proved for all numbers and for every name in which the next placeholder does not occur. False of the code for other names: an attribute FILE_TYPE is garbled in the message about its type (C127_garbled)."
  },
  {
   "property": "C128",
   "status": "proved",
   "theorems": [
    "Aiootp.Messages.C128_contents_hidden",
    "Aiootp.Messages.C128_short",
    "Aiootp.Messages.C128_accepts",
    "Aiootp.Messages.C128_missing_exact",
    "Aiootp.Messages.C128_type",
    "Aiootp.Messages.C128_salt",
    "Aiootp.Messages.C128_danger"
   ],
   "note": "The class, message and attributes of the exceptions are covered. Tracebacks, which refer to the frames of the callers, are not modelled."
  }
 ]
}