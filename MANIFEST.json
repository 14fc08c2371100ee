{
 "claims": [
  {
   "property": "C01",
   "status": "proved",
   "theorems": [
    "Verif.Props.c01_fletcher64_exact",
    "Verif.Props.c01_refuses_partial_words",
    "Verif.Props.c01_object_accept_iff",
    "Verif.Props.c01_write_then_verify",
    "Verif.Props.c01_detects_burst"
   ],
   "note": "sizes up to 370 KB (64-bit sums); the library checks 4096 byte blocks"
  },
  {
   "property": "C02",
   "status": "proved",
   "theorems": [
    "Verif.Props.c02_crc_is_bit_serial",
    "Verif.Props.c02_crc_chains",
    "Verif.Props.c02_no_masking",
    "Verif.Props.c02_detects_byte_change"
   ],
   "note": ""
  },
  {
   "property": "C03",
   "status": "partial",
   "theorems": [
    "Verif.Props.c03_case_insensitive_partial",
    "Verif.Props.c03_case_sensitive_partial",
    "Verif.Props.c03_same_form",
    "Verif.Props.c03_fold_invariant",
    "Verif.Props.c03_bound",
    "Verif.Props.c03_nul",
    "Verif.Props.c03_safe",
    "Verif.Props.c03_hangul",
    "Verif.Props.c03_marks"
   ],
   "note": "Invariance under case folding, the 22-bit bound and independence of characters after end-of-string hold for all names. Equality with the specified hash holds for names without Hangul syllables and recent characters and with marks in canonical order; for others it is false (c03_hangul, c03_marks)."
  },
  {
   "property": "C04",
   "status": "proved",
   "theorems": [
    "Verif.Props.c04_adler32_exact",
    "Verif.Props.c04_adler32_chains",
    "Verif.Props.c04_closed_form",
    "Verif.Props.c04_detects_byte_change"
   ],
   "note": ""
  },
  {
   "property": "C05",
   "status": "partial",
   "theorems": [
    "Verif.Props.c05_reads_in_order_partial",
    "Verif.Props.c05_reads_safe",
    "Verif.Props.c05_unaligned_wide_read_wrong"
   ],
   "note": "false in general: reads of more than 25 bits at an unaligned position return swapped parts (witness); proved for all other read sequences, which include every read the library performs"
  },
  {
   "property": "C06",
   "status": "proved",
   "theorems": [
    "Verif.Props.c06_accepts_iff",
    "Verif.Props.c06_decode_iff",
    "Verif.Props.c06_prefix_free"
   ],
   "note": ""
  },
  {
   "property": "C07",
   "status": "proved",
   "theorems": [
    "Verif.Props.c07_deflate_safe",
    "Verif.Props.c07_zlib_safe"
   ],
   "note": "the built-in inflate; zlib itself is external"
  },
  {
   "property": "C08",
   "status": "partial",
   "theorems": [
    "Verif.Props.c08_rfc1951_partial",
    "Verif.Props.c08_complete_stream_partial",
    "Verif.Props.c08_unambiguous",
    "Verif.Props.c08_refuses_literal_only_block"
   ],
   "note": "exact characterisation of accepted streams; false for dynamic blocks without distance codes (witness)"
  },
  {
   "property": "C09",
   "status": "partial",
   "theorems": [
    "Verif.Props.c09_zlib_partial",
    "Verif.Props.c09_accepts_valid_partial",
    "Verif.Props.c09_trailer_checked_partial",
    "Verif.Props.c09_missing_checksum_accepted",
    "Verif.Props.c09_truncated_stream_accepted",
    "Verif.Props.c09_header_check_ignored"
   ],
   "note": "exact characterisation of accepted inputs; the full claim is false (three witnesses)"
  },
  {
   "property": "C10",
   "status": "proved",
   "theorems": [
    "Verif.Props.c10_raw_chunk",
    "Verif.Props.c10_dispatch",
    "Verif.Props.c10_output_bounded",
    "Verif.Props.c10_builtin_bounded"
   ],
   "note": "zlib and LZVN are parameters; the bound is proved for the built-in inflate"
  },
  {
   "property": "C11",
   "status": "partial",
   "theorems": [
    "Verif.Props.c11_history_partial",
    "Verif.Props.c11_until_failure_partial",
    "Verif.Props.c11_stale_segment",
    "Verif.Props.c11_overread_after_failure",
    "Verif.Props.c11_answered"
   ],
   "note": "proved for every file whose chunks decode, with storage faults at any time; false after a chunk failed to decode (witness)"
  },
  {
   "property": "C12",
   "status": "partial",
   "theorems": [
    "Verif.Props.c12_table_safe_partial",
    "Verif.Props.c12_table_overflow",
    "Verif.Props.c12_lzvn_table",
    "Verif.Props.c12_zlib_table",
    "Verif.Props.c12_large_last_block_refused",
    "Verif.Props.c12_large_lzvn_refused"
   ],
   "note": "safe except for zlib forks that claim 8160 to 2^25-1 blocks, for which the overflow is proved"
  },
  {
   "property": "C13",
   "status": "proved",
   "theorems": [
    "Verif.Props.c13_unwrap_wrap",
    "Verif.Props.c13_unwrap_safe",
    "Verif.Props.c13_unwrap_sound"
   ],
   "note": "for every block cipher; AES itself is external (libcaes)"
  },
  {
   "property": "C14",
   "status": "proved",
   "theorems": [
    "Verif.Props.c14_pbkdf2",
    "Verif.Props.c14_zero_iterations",
    "Verif.Props.c14_oversized_output"
   ],
   "note": "for every pseudo random function with 32-byte output; HMAC-SHA256 is external (libhmac)"
  },
  {
   "property": "C15",
   "status": "partial",
   "theorems": [
    "Verif.Props.c15_safe_partial",
    "Verif.Props.c15_overread",
    "Verif.Props.c15_overread_three",
    "Verif.Props.c15_fields",
    "Verif.Props.c15_long_length_refused"
   ],
   "note": "fields of well-formed objects proved; reading stays within 3 bytes of the object, which is sharp: an over-read is proved for a truncated object"
  },
  {
   "property": "C16",
   "status": "proved",
   "theorems": [
    "Verif.Props.c16_volume_bag_safe",
    "Verif.Props.c16_container_bag_safe",
    "Verif.Props.c16_volume_bag_iff",
    "Verif.Props.c16_container_bag_iff",
    "Verif.Props.c16_extent_first",
    "Verif.Props.c16_extent_none"
   ],
   "note": "exact characterisation of accepted blocks"
  },
  {
   "property": "C17",
   "status": "partial",
   "theorems": [
    "Verif.Props.c17_safe",
    "Verif.Props.c17_within",
    "Verif.Props.c17_complete",
    "Verif.Props.c17_sound_partial",
    "Verif.Props.c17_value_offset_checked",
    "Verif.Props.c17_key_offset_wraps"
   ],
   "note": "Exposed keys and values are always parts of the block and valid nodes are read exactly. Not every malformed offset is refused: key offsets wrap modulo 2^16."
  },
  {
   "property": "C18",
   "status": "proved",
   "theorems": [
    "Verif.Props.c18_lookup",
    "Verif.Props.c18_not_found",
    "Verif.Props.c18_stored",
    "Verif.Props.c18_object_zero"
   ],
   "note": "For every object map stored as a tree of at most 257 levels, every valid (nonzero) object identifier and every transaction."
  },
  {
   "property": "C19",
   "status": "partial",
   "theorems": [
    "Verif.Props.c19_lookup_partial",
    "Verif.Props.c19_identifier",
    "Verif.Props.c19_wide_identifier_finds_other"
   ],
   "note": "Proved for every tree of up to 257 levels and every valid identifier (less than 2^60). False for wider identifiers, which can find another inode (witness)."
  },
  {
   "property": "C20",
   "status": "proved",
   "theorems": [
    "Verif.Props.c20_listing",
    "Verif.Props.c20_listing_records",
    "Verif.Props.c20_no_loss",
    "Verif.Props.c20_before_first_error"
   ],
   "note": "For every directory whose inode is stored. An identifier without inode in front of all records is an error instead of an empty list."
  },
  {
   "property": "C21",
   "status": "partial",
   "theorems": [
    "Verif.Props.c21_safe",
    "Verif.Props.c21_query",
    "Verif.Props.c21_found",
    "Verif.Props.c21_sound",
    "Verif.Props.c21_absent",
    "Verif.Props.c21_case_variant_partial",
    "Verif.Props.c21_case_variant",
    "Verif.Props.c21_hangul",
    "Verif.Props.c21_zero_hash",
    "Verif.Props.c21_plain_order"
   ],
   "note": "Names outside the covered set (Hangul and the few characters listed under C03, names with hash 0) and case variants that are before the stored name in case-sensitive order are not found; these are defects shown by c21_case_variant, c21_hangul and c21_zero_hash."
  },
  {
   "property": "C22",
   "status": "partial",
   "theorems": [
    "Verif.Props.c22_safe",
    "Verif.Props.c22_walk",
    "Verif.Props.c22_resolves",
    "Verif.Props.c22_missing",
    "Verif.Props.c22_compose",
    "Verif.Props.c22_utf8_name",
    "Verif.Props.c22_utf16_name",
    "Verif.Props.c22_one_character",
    "Verif.Props.c22_end_of_string"
   ],
   "note": "Paths of one code unit lead to the starting directory (c22_one_character), so the claim is false for them; names as in C21."
  },
  {
   "property": "C23",
   "status": "proved",
   "theorems": [
    "Verif.Props.c23_listing",
    "Verif.Props.c23_listing_records",
    "Verif.Props.c23_no_loss"
   ],
   "note": ""
  },
  {
   "property": "C24",
   "status": "proved",
   "theorems": [
    "Verif.Props.c24_listing",
    "Verif.Props.c24_ordered",
    "Verif.Props.c24_unordered_extent_lost"
   ],
   "note": "Well-formed includes strictly ascending logical addresses; without, an extent can be lost (witness)."
  },
  {
   "property": "C25",
   "status": "partial",
   "theorems": [
    "Verif.Props.c25_order_checked",
    "Verif.Props.c25_read_partial",
    "Verif.Props.c25_read_sparse_partial",
    "Verif.Props.c25_byte_unique",
    "Verif.Props.c25_hole_ignored",
    "Verif.Props.c25_block_number_wraps",
    "Verif.Props.c25_block_number_overflow"
   ],
   "note": "proved for extents whose byte offsets are below 2^63, encrypted or not; block numbers beyond wrap to other blocks or overflow (witnesses). libfdata vector and stream are external"
  },
  {
   "property": "C26",
   "status": "partial",
   "theorems": [
    "Verif.Props.c26_sector_tweaks",
    "Verif.Props.c26_roundtrip",
    "Verif.Props.c26_block_partial",
    "Verif.Props.c26_tweak_unique",
    "Verif.Props.c26_identifier_wraps",
    "Verif.Props.c26_partial_sector"
   ],
   "note": "for block identifiers with identifier * block size below 2^64; beyond that two blocks share tweaks (witness)"
  },
  {
   "property": "C27",
   "status": "partial",
   "theorems": [
    "Verif.Props.c27_newest_superblock",
    "Verif.Props.c27_newest_map",
    "Verif.Props.c27_opens",
    "Verif.Props.c27_size",
    "Verif.Props.c27_reads_beyond_area",
    "Verif.Props.c27_area_truncated",
    "Verif.Props.c27_superblock_beyond_area",
    "Verif.Props.c27_stale_size"
   ],
   "note": "Proved for every image: the superblock in use has the greatest transaction identifier of all those in the area; the map too if the superblocks agree about the area. False in part: the block after the area is considered as well, the upper 32 bits of the area block number are dropped, the container size is that of block 0."
  },
  {
   "property": "C28",
   "status": "partial",
   "theorems": [
    "Verif.Props.c28_torn_superblock_refused",
    "Verif.Props.c28_torn_map_refused",
    "Verif.Props.c28_previous_partial",
    "Verif.Props.c28_witness"
   ],
   "note": "False of the code: a superblock in the area whose checksum does not match makes opening fail; the negation is proved in general and with a concrete image. Proved where the write did not reach the header."
  },
  {
   "property": "C29",
   "status": "partial",
   "theorems": [
    "Verif.Props.c29_number",
    "Verif.Props.c29_slot",
    "Verif.Props.c29_reachable_partial",
    "Verif.Props.c29_hole_hides_volume",
    "Verif.Props.c29_index_safe",
    "Verif.Props.c29_hole_witness"
   ],
   "note": "Proved if the used slots come first; false if there is an unused slot before a used one."
  },
  {
   "property": "C30",
   "status": "partial",
   "theorems": [
    "Verif.Props.c30_state_machine_partial",
    "Verif.Props.c30_state_machine_locked",
    "Verif.Props.c30_no_leak",
    "Verif.Props.c30_reusable",
    "Verif.Props.c30_callers_handles",
    "Verif.Props.c30_closed_answers",
    "Verif.Props.c30_lock_failure_stuck",
    "Verif.Props.c30_lock_failure_dangling"
   ],
   "note": "Proved for every history of calls with arbitrary failures of reading, allocation, opening and closing of files, together with absence of leaks and invalid memory use, and the state of the caller's file IO handles. False of the code for libfsapfs_container_is_locked, which answers 0 for a closed container (negation proved). If a lock cannot be grabbed after reading, the container is left half open (proved)."
  },
  {
   "property": "C31",
   "status": "partial",
   "theorems": [
    "Verif.Props.c31_balanced_partial",
    "Verif.Props.c31_no_deadlock_partial",
    "Verif.Props.c31_exclusive_partial",
    "Verif.Props.c31_free_at_end_partial",
    "Verif.Props.c31_snapshot_keeps_lock",
    "Verif.Props.c31_snapshot_blocks"
   ],
   "note": "False of the code for one function: libfsapfs_volume_get_snapshot_by_index returns with the read lock held if the entry cannot be read (volume.c 3476-3491), proved with an interleaving in which another thread waits forever. Proved for the other functions, for every branch and failure and every interleaving of any number of threads. Only the flow of control around the locks is modelled; calls made while the lock is held do not use the lock of the same handle."
  },
  {
   "property": "C32",
   "status": "partial",
   "theorems": [
    "Verif.Props.c32_unlock_sound",
    "Verif.Props.c32_only_secret_partial",
    "Verif.Props.c32_unlocks_without_secret",
    "Verif.Props.c32_secret_found",
    "Verif.Props.c32_malformed_entry_blocks"
   ],
   "note": "proved for every volume with a key bag and every history of calls; false if the container key bag could not be read: such a volume unlocks without a secret (witness)"
  },
  {
   "property": "C33",
   "status": "partial",
   "theorems": [
    "Verif.Props.c33_exact_partial",
    "Verif.Props.c33_short_length_uninitialised",
    "Verif.Props.c33_long_length_overflow",
    "Verif.Props.c33_unterminated"
   ],
   "note": "proved if the length argument is the string length; all other lengths are shown to go wrong"
  },
  {
   "property": "C34",
   "status": "partial",
   "theorems": [
    "Verif.Props.c34_utf16_password",
    "Verif.Props.c34_same_key_partial",
    "Verif.Props.c34_differs_64",
    "Verif.Props.c34_differs_longer"
   ],
   "note": "proved for passwords up to 63 UTF-8 bytes; false for longer ones"
  },
  {
   "property": "C35",
   "status": "partial",
   "theorems": [
    "Verif.Props.c35_safe",
    "Verif.Props.c35_listed_partial",
    "Verif.Props.c35_listed_mapped",
    "Verif.Props.c35_branch_refused",
    "Verif.Props.c35_two_levels",
    "Verif.Props.c35_superblock_partial",
    "Verif.Props.c35_superblock_truncated",
    "Verif.Props.c35_name_partial",
    "Verif.Props.c35_name_overread",
    "Verif.Props.c35_name_cut",
    "Verif.Props.c35_unterminated"
   ],
   "note": "Listing proved for a tree of one node, and for deeper trees only if the object map resolves the children; the format has block numbers there, and such a tree makes the enumeration, and with it opening the volume, fail. Superblock reference proved below block 2^32, refuted above. Name proved if it ends within 256 bytes, refuted otherwise (over-read or cut)."
  },
  {
   "property": "C36",
   "status": "proved",
   "theorems": [
    "Verif.Props.c36_plain",
    "Verif.Props.c36_hashed",
    "Verif.Props.c36_safe",
    "Verif.Props.c36_name_within",
    "Verif.Props.c36_other_field_refused"
   ],
   "note": "Names of 1 to 1023 bytes (the size field has 10 bits), with extended fields of type 1, the only one defined for directory records."
  },
  {
   "property": "C37",
   "status": "partial",
   "theorems": [
    "Verif.Props.c37_safe",
    "Verif.Props.c37_faithful_partial",
    "Verif.Props.c37_stored_partial",
    "Verif.Props.c37_times_swapped",
    "Verif.Props.c37_one_field_refused",
    "Verif.Props.c37_valid_fields_refused"
   ],
   "note": "Memory safety for all bytes. For inodes laid out as in the file system format (Spec.InodeFixed, checked against the APFS reference and the documentation in the repository) every field is returned as stored except that the creation and modification times are exchanged (c37_times_swapped, for every file whose two times differ). Extended fields of type 16 and empty ones are refused (c37_valid_fields_refused), so inodes with those are missing from the positive theorems."
  },
  {
   "property": "C38",
   "status": "proved",
   "theorems": [
    "Verif.Props.c38_safe",
    "Verif.Props.c38_embedded",
    "Verif.Props.c38_empty",
    "Verif.Props.c38_stream",
    "Verif.Props.c38_within"
   ],
   "note": ""
  },
  {
   "property": "C39",
   "status": "partial",
   "theorems": [
    "Verif.Props.c39_small_minor_partial",
    "Verif.Props.c39_major_zero",
    "Verif.Props.c39_large_minor_wrong",
    "Verif.Props.c39_witness",
    "Verif.Props.c39_no_device"
   ],
   "note": "Holds for minor numbers less than 256; false for all greater ones (proved)."
  },
  {
   "property": "C40",
   "status": "partial",
   "theorems": [
    "Verif.Props.c40_safe",
    "Verif.Props.c40_size",
    "Verif.Props.c40_size_available",
    "Verif.Props.c40_size_unknown",
    "Verif.Props.c40_source_partial",
    "Verif.Props.c40_source_available_partial",
    "Verif.Props.c40_lzfse_refused",
    "Verif.Props.c40_contents_partial",
    "Verif.Props.c40_method5_zeros"
   ],
   "note": "For every file, every history of calls on its entry and every failure of storage or memory during them: sizes and contents that are returned are those the method prescribes, and no freed memory is used. Refuted: method 5 reads as zeros instead of being refused; LZFSE (11, 12) is always refused; the size 2^64-1 is returned once and then fails. Name comparison (libuna) and reading of data streams are assumed to answer correctly or fail."
  },
  {
   "property": "C41",
   "status": "proved",
   "theorems": [
    "Verif.Props.c41_parse_iff",
    "Verif.Props.c41_safe",
    "Verif.Props.c41_found_iff",
    "Verif.Props.c41_not_found_iff",
    "Verif.Props.c41_lookup"
   ],
   "note": "Exact parsing, first match, not found."
  },
  {
   "property": "C42",
   "status": "proved",
   "theorems": [
    "Verif.Props.c42_object_map",
    "Verif.Props.c42_lookup",
    "Verif.Props.c42_listing",
    "Verif.Props.c42_far_nodes_ignored",
    "Verif.Props.c42_cycle_error",
    "Verif.Props.c42_object_map_cycle_error",
    "Verif.Props.c42_safe",
    "Verif.Props.c42_exponential_listing"
   ],
   "note": "The depth is bounded; the number of visits is not: a listing over n+1 nodes can return 2^n records."
  },
  {
   "property": "C43",
   "status": "partial",
   "theorems": [
    "Verif.Props.c43_order",
    "Verif.Props.c43_case_sensitive",
    "Verif.Props.c43_case_insensitive",
    "Verif.Props.c43_equal_nfd",
    "Verif.Props.c43_equal_caseless",
    "Verif.Props.c43_equal_hash",
    "Verif.Props.c43_equal_complete_partial",
    "Verif.Props.c43_composed",
    "Verif.Props.c43_special_folding",
    "Verif.Props.c43_not_form_order",
    "Verif.Props.c43_safe"
   ],
   "note": "Comparison is a consistent total order of all names and equality implies the same normal form. The converse is false: precomposed and decomposed names (c43_composed) and multi-character case foldings (c43_special_folding) compare unequal."
  },
  {
   "property": "C44",
   "status": "proved",
   "theorems": [
    "Verif.Props.c44_fold",
    "Verif.Props.c44_decompose",
    "Verif.Props.c44_hash",
    "Verif.Props.c44_compare",
    "Verif.Props.c44_fold_idempotent",
    "Verif.Props.c44_decompose_full",
    "Verif.Props.c44_unicode",
    "Verif.Props.c44_hangul"
   ],
   "note": "All 32-bit code points; in addition agreement with Unicode 14 except for Hangul syllables and characters added later."
  },
  {
   "property": "C45",
   "status": "proved",
   "theorems": [
    "Verif.Props.c45_refines",
    "Verif.Props.c45_pieces"
   ],
   "note": ""
  },
  {
   "property": "C46",
   "status": "proved",
   "theorems": [
    "Verif.Props.c46_open_safe",
    "Verif.Props.c46_parsers_safe",
    "Verif.Props.c46_superblock_iff"
   ],
   "note": "For every image of blocks of at most 4096 bytes; the cipher is assumed not to change sizes."
  },
  {
   "property": "C47",
   "status": "partial",
   "theorems": [
    "Verif.Props.c47_target",
    "Verif.Props.c47_target_available_partial",
    "Verif.Props.c47_target_refused",
    "Verif.Props.c47_by_name",
    "Verif.Props.c47_by_name_available",
    "Verif.Props.c47_count"
   ],
   "note": "Proved for all histories and failures; refuted for targets that are empty or larger than 128 MiB, which are refused. Names in UTF-8; comparison (libuna) is assumed to be correct or fail."
  },
  {
   "property": "C48",
   "status": "partial",
   "theorems": [
    "Verif.Props.c48_safe",
    "Verif.Props.c48_safe_to",
    "Verif.Props.c48_printed_partial",
    "Verif.Props.c48_unique",
    "Verif.Props.c48_info",
    "Verif.Props.c48_mount_partial",
    "Verif.Props.c48_mount_slash",
    "Verif.Props.c48_noncharacter",
    "Verif.Props.c48_nul"
   ],
   "note": "Safety for all byte strings and codecs, printing, uniqueness and fsapfsinfo round trip for all names. Not true: names with a slash in a mounted volume, noncharacters U+FDE0-U+FDEF, end-of-string characters. Wide system characters and Windows are not modelled."
  },
  {
   "property": "C49",
   "status": "partial",
   "theorems": [
    "Verif.Props.c49_line_partial",
    "Verif.Props.c49_lines",
    "Verif.Props.c49_target",
    "Verif.Props.c49_negative_time"
   ],
   "note": "All names and values without link target and without negative times. False for link targets (not escaped, lines can be forged) and for times before 1970."
  },
  {
   "property": "C50",
   "status": "partial",
   "theorems": [
    "Verif.Props.c50_safe",
    "Verif.Props.c50_metadata",
    "Verif.Props.c50_opens_partial",
    "Verif.Props.c50_trees",
    "Verif.Props.c50_reach_partial",
    "Verif.Props.c50_listing_partial",
    "Verif.Props.c50_snapshot_tree"
   ],
   "note": "Safety, reported metadata and the file system tree in use are proved for all images. That every well-formed volume opens is false: c50_snapshot_tree shows that a snapshot metadata tree of two levels prevents it; c50_opens_partial, c50_reach_partial and c50_listing_partial are for trees of one level and volumes that are not encrypted (C51 has encrypted ones). Verif.VolumeExample has an image with three volumes that meets the hypotheses."
  },
  {
   "property": "C51",
   "status": "partial",
   "theorems": [
    "Verif.Props.c51_unlock",
    "Verif.Props.c51_keys",
    "Verif.Props.c51_container_bag",
    "Verif.Props.c51_opens",
    "Verif.Props.c51_reach_partial",
    "Verif.Props.c51_listing_partial",
    "Verif.Props.c51_no_container_bag",
    "Verif.Props.c51_empty_extent"
   ],
   "note": "Passwords are restricted to a set S in which no password opens a KEK by accident (with other key material); the snapshot metadata tree has one level. If the container key bag could not be read, an encrypted volume unlocks without password and its blocks are read undecrypted (c51_no_container_bag)."
  },
  {
   "property": "C52",
   "status": "partial",
   "theorems": [
    "Verif.Props.c52_history_partial",
    "Verif.Props.c52_small_container",
    "Verif.Props.c52_narrow_listings_partial",
    "Verif.Props.c52_lookups",
    "Verif.Props.c52_replaced_root",
    "Verif.Props.c52_freed",
    "Verif.Props.c52_not_faithful"
   ],
   "note": "Any policy, any history: proved if the cache has an entry for each readable block (containers of at most 32 MiB), for least-recently-used if each listing needs at most as many nodes as there are entries, and for lookups without restriction. False in general: listings that need more nodes use a freed root node, with a directory of 10000 files as witness."
  },
  {
   "property": "C53",
   "status": "partial",
   "theorems": [
    "Verif.Props.c53_opened_partial",
    "Verif.Props.c53_tree_partial",
    "Verif.Props.c53_volume_partial",
    "Verif.Props.c53_encrypted_partial",
    "Verif.Props.c53_answered"
   ],
   "note": "From the image of a container, through opening, passwords, path lookup and any calls on the file entry, to the bytes of reads at any offsets. Not for LZFSE, gaps between the extents of sparse files, snapshot metadata trees of more than one level, names that C21 excludes; these are false, see the theorems named in C40, C25, C50 and C21. Verif.FileExample has a sparse and a compressed file, in a plain and in an encrypted container, that meet the hypotheses."
  },
  {
   "property": "C54",
   "status": "partial",
   "theorems": [
    "Verif.Props.c54_history",
    "Verif.Props.c54_sub_entries",
    "Verif.Props.c54_path",
    "Verif.Props.c54_parent_partial",
    "Verif.Props.c54_root",
    "Verif.Props.c54_hard_link"
   ],
   "note": "Proved for all sequences of calls and read failures. That the parent lists the entry is false for hard links (c54_hard_link): the parent is the one in the inode, so it is proved for entries whose inode has the directory as parent."
  },
  {
   "property": "C55",
   "status": "partial",
   "theorems": [
    "Verif.Props.c55_paths",
    "Verif.Props.c55_lines_partial",
    "Verif.Props.c55_volume_partial",
    "Verif.Props.c55_distinct_partial",
    "Verif.Props.c55_uuid",
    "Verif.Props.c55_volumes",
    "Verif.Props.c55_selected",
    "Verif.Props.c55_beyond",
    "Verif.Props.c55_deep",
    "Verif.Props.c55_cycle",
    "Verif.Props.c55_slash",
    "Verif.Props.c55_failing",
    "Verif.Props.c55_hidden",
    "Verif.Props.c55_root_name"
   ],
   "note": "One line per path is proved from the image of a container to the printed text, for directories that are not nested more deeply than calls fit on the stack. The full claim is false: c55_deep and c55_cycle (stack overflow), c55_slash (two files with the same line), c55_hidden (a locked volume hides those behind it), c55_root_name."
  },
  {
   "property": "C56",
   "status": "partial",
   "theorems": [
    "Verif.Props.c56_session_partial",
    "Verif.Props.c56_volume_partial",
    "Verif.Props.c56_encrypted_partial",
    "Verif.Props.c56_links",
    "Verif.Props.c56_modification",
    "Verif.Props.c56_before_1970",
    "Verif.Props.c56_slash",
    "Verif.Props.c56_slash_missing",
    "Verif.Props.c56_root_parent",
    "Verif.Props.c56_unnamed_parent",
    "Verif.Props.c56_dangling",
    "Verif.Props.c56_short_list",
    "Verif.Props.c56_short_link",
    "Verif.Props.c56_leak",
    "Verif.Props.c56_getxattr_leak"
   ],
   "note": "Proved for all histories of requests, from the image of a container to the answers, plain and encrypted, for volumes that have the files of the specification, with the exceptions that are false: number of links, time of modification, times before 1970, names with slashes, '..' of the root directory, inodes without names, entries without inodes, buffers that are too small, memory of closed directories and of attributes that do not fit."
  },
  {
   "property": "C57",
   "status": "partial",
   "theorems": [
    "Verif.Props.c57_one_handle_partial",
    "Verif.Props.c57_lookups_partial",
    "Verif.Props.c57_requests_partial",
    "Verif.Props.c57_volumes_partial",
    "Verif.Props.c57_locks",
    "Verif.Props.c57_race",
    "Verif.Props.c57_volumes_race",
    "Verif.Props.c57_freed",
    "Verif.Props.c57_volumes_freed",
    "Verif.Props.c57_evicted"
   ],
   "note": "Proved for all threads, calls and interleavings if all calls that use the tree are made on one handle, whose lock they take for writing (c57_locks): no race and the results of the calls one after the other. False for two handles of one volume, which share the cache of nodes but not a lock, and for libfsapfs_container_get_volume_by_index, which takes the lock for reading."
  },
  {
   "property": "C58",
   "status": "partial",
   "theorems": [
    "Verif.Props.c58_detects",
    "Verif.Props.c58_byte",
    "Verif.Props.c58_container_partial",
    "Verif.Props.c58_block0",
    "Verif.Props.c58_key_bag_partial",
    "Verif.Props.c58_volume_partial",
    "Verif.Props.c58_node_checksum",
    "Verif.Props.c58_object_map_checksum",
    "Verif.Props.c58_volume_bag_checksum",
    "Verif.Props.c58_unverified",
    "Verif.Props.c58_damage_shown"
   ],
   "note": "Proved for the superblocks of containers and volumes, checkpoint maps and the key bag of the container. Refuted for object maps, nodes of B-trees and key bags of volumes, whose checksums are never compared: c58_unverified for any stored checksums, c58_damage_shown is a name changed by one byte of damage that is listed without error."
  },
  {
   "property": "C59",
   "status": "proved",
   "theorems": [
    "Verif.Props.c59_exact",
    "Verif.Props.c59_restores",
    "Verif.Props.c59_no_handle_left",
    "Verif.Props.c59_by_name",
    "Verif.Props.c59_container",
    "Verif.Props.c59_volume_does_not_open",
    "Verif.Props.c59_short"
   ],
   "note": "The answer for files shorter than 36 bytes is an error, not no (c59_short); a file that is taken for a volume never opens (c59_volume_does_not_open)."
  },
  {
   "property": "C60",
   "status": "partial",
   "theorems": [
    "Verif.Props.c60_lookup",
    "Verif.Props.c60_mapping",
    "Verif.Props.c60_listing_partial",
    "Verif.Props.c60_shared",
    "Verif.Props.c60_does_not_finish",
    "Verif.Props.c60_no_bound"
   ],
   "note": "Lookups are bounded for every image. Listings are bounded if no leaf is reached twice; refuted otherwise: an image of less than 1.5 MB gives more than 2^64 entries, since neither levels nor nodes that were seen before are compared."
  },
  {
   "property": "C61",
   "status": "partial",
   "theorems": [
    "Verif.Props.c61_orderly",
    "Verif.Props.c61_nothing_left_partial",
    "Verif.Props.c61_no_snapshots",
    "Verif.Props.c61_snapshot_leaks",
    "Verif.Props.c61_freed_first",
    "Verif.Props.c61_free_after",
    "Verif.Props.c61_closed_first",
    "Verif.Props.c61_python_partial",
    "Verif.Props.c61_python_no_close",
    "Verif.Props.c61_python_nothing_left",
    "Verif.Props.c61_python_close",
    "Verif.Props.c61_python_reopened"
   ],
   "note": "Proved for every orderly history of C calls and every program in Python that does not close a container with objects in use nor open one with a file object twice. Refuted for Python programs that do: every volume obtained before closing then reads through a freed file IO handle, and open_file_object of a container that is open with a file object frees the file IO handle that the container still uses. For C programs that free in another order the access to freed memory is proved for every such history. That nothing is left when all is freed is proved but for snapshots and refuted for those: each leaves its volume superblock."
  },
  {
   "property": "C62",
   "status": "partial",
   "theorems": [
    "Verif.Props.c62_time_partial",
    "Verif.Props.c62_unique",
    "Verif.Props.c62_1999",
    "Verif.Props.c62_negative"
   ],
   "note": "Proved for every time from 1970 except those of 31 December 1999. Refuted for every time of that day, for which an exception is raised, and for every time before 1970, for which an exception is raised or a loop is run more than 5 * 10^14 times."
  },
  {
   "property": "C63",
   "status": "partial",
   "theorems": [
    "Verif.Props.c63_read",
    "Verif.Props.c63_results",
    "Verif.Props.c63_short",
    "Verif.Props.c63_safe_partial",
    "Verif.Props.c63_data",
    "Verif.Props.c63_overflow",
    "Verif.Props.c63_size",
    "Verif.Props.c63_size_failed",
    "Verif.Props.c63_image",
    "Verif.Props.c63_image_blocks"
   ],
   "note": "Proved for every file object that behaves as a file, and memory safety for every object that returns not more bytes than asked. Refuted for objects that return more: every such read writes behind the buffer. The size of an object that fails to give it is reported as success with the value from before; the library does not use the size. libbfio is external: reading at an offset seeks and reads."
  },
  {
   "property": "C64",
   "status": "partial",
   "theorems": [
    "Verif.Props.c64_opened_partial",
    "Verif.Props.c64_determined",
    "Verif.Props.c64_large",
    "Verif.Props.c64_answered"
   ],
   "note": "Proved for every opened file and every sequence of calls. Refuted for reading without a size in files of 2 GiB or more: it raises an exception at every position, even if nothing remains. The library below is that of C53; Seeking from the position and the end is in C89."
  },
  {
   "property": "C65",
   "status": "partial",
   "theorems": [
    "Verif.Props.c65_uses_partial",
    "Verif.Props.c65_directory_partial",
    "Verif.Props.c65_second_iterator",
    "Verif.Props.c65_nested",
    "Verif.Props.c65_stuck",
    "Verif.Props.c65_answered"
   ],
   "note": "Proved for every history with one iterator, with failures. Refuted for a second iterator: the object is its own iterator and is never reset, so a second loop gets nothing and a nested loop ends the outer one. An item that cannot be obtained hides those after it from a loop."
  },
  {
   "property": "C66",
   "status": "partial",
   "theorems": [
    "Verif.Props.c66_session_partial",
    "Verif.Props.c66_absent_raises",
    "Verif.Props.c66_never_none",
    "Verif.Props.c66_wraps",
    "Verif.Props.c66_one_character",
    "Verif.Props.c66_answered"
   ],
   "note": "Proved for every program, for paths of names that are found (C22) and identifiers up to 2^60. Creation and modification times are swapped (C37). Refuted: an identifier that no file has raises an exception instead of giving None; identifiers are taken modulo 2^64; a path of one ASCII character gives the directory itself."
  },
  {
   "property": "C67",
   "status": "partial",
   "theorems": [
    "Verif.Props.c67_file_partial",
    "Verif.Props.c67_attribute_partial",
    "Verif.Props.c67_embedded",
    "Verif.Props.c67_hole",
    "Verif.Props.c67_wraps"
   ],
   "note": "Proved for every volume and all calls with failures, for streams whose extents follow each other. Refuted for holes of sparse files: they are returned as offset 0 with flags 0, which is where the container superblock is. Block numbers beyond the container are taken modulo 2^52."
  },
  {
   "property": "C68",
   "status": "partial",
   "theorems": [
    "Verif.Props.c68_column_partial",
    "Verif.Props.c68_line_partial",
    "Verif.Props.c68_text",
    "Verif.Props.c68_safe",
    "Verif.Props.c68_distinct",
    "Verif.Props.c68_other",
    "Verif.Props.c68_whole",
    "Verif.Props.c68_lzfse",
    "Verif.Props.c68_method5"
   ],
   "note": "Proved for every file of C53, for any digest that libhmac calculates of pieces; the text is memory safe and faithful for all digests and buffers; a digest is never of a part. Refuted for files compressed with LZFSE, which stop the listing, and with method 5, whose digest is that of zeros. libhmac is not modelled."
  },
  {
   "property": "C69",
   "status": "partial",
   "theorems": [
    "Verif.Props.c69_lines_partial",
    "Verif.Props.c69_volume_partial",
    "Verif.Props.c69_untouched",
    "Verif.Props.c69_no_omission",
    "Verif.Props.c69_volumes",
    "Verif.Props.c69_selected",
    "Verif.Props.c69_volume_fails",
    "Verif.Props.c69_swapped",
    "Verif.Props.c69_lzfse"
   ],
   "note": "Proved for volumes of C56 with any directory tree that fits on the stack, with and without MD5; no silent omission is proved for all data. Missing and refuted: times of modification and creation are in each other's columns, targets of symbolic links are not escaped (C49), times before 1970 (C49), and a file that is compressed with LZFSE stops the whole listing if MD5 hashes are calculated."
  },
  {
   "property": "C70",
   "status": "partial",
   "theorems": [
    "Verif.Props.c70_asked_partial",
    "Verif.Props.c70_only",
    "Verif.Props.c70_offset_partial",
    "Verif.Props.c70_secret_partial",
    "Verif.Props.c70_files_partial",
    "Verif.Props.c70_encrypted_partial",
    "Verif.Props.c70_info_partial",
    "Verif.Props.c70_options_safe",
    "Verif.Props.c70_ignored",
    "Verif.Props.c70_wraps",
    "Verif.Props.c70_negative",
    "Verif.Props.c70_offset_far",
    "Verif.Props.c70_offset_wraps",
    "Verif.Props.c70_offset_text",
    "Verif.Props.c70_info_offset",
    "Verif.Props.c70_locked_container",
    "Verif.Props.c70_empty_password"
   ],
   "note": "Proved from the command line to what programs see, for numbers of volumes up to 100 and offsets below 2^63; a volume with a key bag is mounted only with a password that opens it. Refuted: an argument of -f that is not a number of a volume is ignored instead of refused, numbers are taken modulo 2^64 and may be negative, fsapfsinfo replaces offsets that are not numbers by 0, an encrypted volume of a container whose key bag cannot be read is mounted without a password, and an empty password is an error also for volumes that need none."
  },
  {
   "property": "C71",
   "status": "partial",
   "theorems": [
    "Verif.Props.c71_identifier_partial",
    "Verif.Props.c71_missing",
    "Verif.Props.c71_all_partial",
    "Verif.Props.c71_no_omission",
    "Verif.Props.c71_path_partial",
    "Verif.Props.c71_argument_partial",
    "Verif.Props.c71_argument_safe",
    "Verif.Props.c71_volume_partial",
    "Verif.Props.c71_encrypted_partial",
    "Verif.Props.c71_swapped",
    "Verif.Props.c71_nameless",
    "Verif.Props.c71_forged",
    "Verif.Props.c71_argument_wraps"
   ],
   "note": "Proved from the command line to the printed lines, for plain and encrypted volumes, for files with a name whose targets and extended attributes are on one line. Refuted: the times of creation and modification are each shown as the other one, the name of an extended attribute with a line feed looks like two attributes, an inode without name ends -E all with an error so that files behind it are not shown, and identifiers are taken modulo 2^64."
  },
  {
   "property": "C72",
   "status": "partial",
   "theorems": [
    "Verif.Props.c72_shown_partial",
    "Verif.Props.c72_volumes_partial",
    "Verif.Props.c72_readable",
    "Verif.Props.c72_forged",
    "Verif.Props.c72_stops",
    "Verif.Props.c72_snapshot_unreadable",
    "Verif.Props.c72_snapshot_overread",
    "Verif.Props.c72_index_ignored"
   ],
   "note": "Proved from the command line to the printed lines, in both directions: what is printed is stored in the newest superblocks, and what is stored there is printed; the lines can be read in one way only. For names of volumes and snapshots on one line. Refuted: names with a line feed, volumes behind one that does not open or whose snapshots cannot be read, names of snapshots without end-of-string character (read out of bounds), and -f, which makes no difference."
  },
  {
   "property": "C73",
   "status": "partial",
   "theorems": [
    "Verif.Props.c73_session_partial",
    "Verif.Props.c73_long_name",
    "Verif.Props.c73_overflow",
    "Verif.Props.c73_devices",
    "Verif.Props.c73_epoch",
    "Verif.Props.c73_before_1970",
    "Verif.Props.c73_exchanged",
    "Verif.Props.c73_root_parent",
    "Verif.Props.c73_slash",
    "Verif.Props.c73_slash_missing",
    "Verif.Props.c73_open_always",
    "Verif.Props.c73_write_data"
   ],
   "note": "Proved for every history of requests on every volume: answers are those of the volume, for directories whose names have up to 25 characters of UTF-16 and for the attributes that fsapfsmount shows correctly. Refuted: directories with longer names cannot be listed (with HAVE_DOKAN_LONG_PATHS cFileName overflows), block devices and sockets are shown as directories, times of creation and modification are exchanged, times before 1970 are rounded up, 1970-01-01 is shown as 1601, `..` of the root directory is a file, names with a slash are not found, OPEN_ALWAYS does not open existing files, FILE_WRITE_DATA is not refused. Reads of files without known contents (directories, links) may have any answer."
  },
  {
   "property": "C74",
   "status": "partial",
   "theorems": [
    "Verif.Props.c74_released_partial",
    "Verif.Props.c74_released_single_partial",
    "Verif.Props.c74_losing",
    "Verif.Props.c74_losing_single",
    "Verif.Props.c74_exactly",
    "Verif.Props.c74_returns",
    "Verif.Props.c74_open_leaves",
    "Verif.Props.c74_data_stream_leaks",
    "Verif.Props.c74_data_size_leaks",
    "Verif.Props.c74_btree_initialize_leaks",
    "Verif.Props.c74_path_leaks",
    "Verif.Props.c74_snapshot_free_leaks",
    "Verif.Props.c74_container_initialize_leaks",
    "Verif.Props.c74_container_free_leaks",
    "Verif.Props.c74_container_open_dangles",
    "Verif.Props.c74_release_leaks",
    "Verif.Props.c74_single_safe"
   ],
   "note": "Proved for every execution of 249 of the 271 functions in the build with threads, and of 263 without; refuted for each of the others by an execution: leaks on success (data of compressed files, freeing a snapshot) and on failure, and a container that refers to a freed file IO handle. After a failure members that were empty are empty again, except for two functions. The graphs of the functions leave out all but the places that hold pointers (DESIGN.md, Graphs of ownership); pointers that are borrowed from a cache or array are not followed into it."
  },
  {
   "property": "C75",
   "status": "partial",
   "theorems": [
    "Verif.Props.c75_released_partial",
    "Verif.Props.c75_losing",
    "Verif.Props.c75_exactly",
    "Verif.Props.c75_returns",
    "Verif.Props.c75_getxattr_leaks",
    "Verif.Props.c75_releasedir_leaks",
    "Verif.Props.c75_open_leaks",
    "Verif.Props.c75_snapshot_name_leaks",
    "Verif.Props.c75_main_dokan_leaks"
   ],
   "note": "Proved for every execution of 58 of the 63 functions; refuted for the other 5 by an execution. The graphs leave out all but the places that hold pointers (DESIGN.md, Graphs of ownership)."
  },
  {
   "property": "C76",
   "status": "partial",
   "theorems": [
    "Verif.Props.c76_released_partial",
    "Verif.Props.c76_losing",
    "Verif.Props.c76_exactly",
    "Verif.Props.c76_returns",
    "Verif.Props.c76_reopen_frees",
    "Verif.Props.c76_fetch_leaks",
    "Verif.Props.c76_repr_crashes",
    "Verif.Props.c76_read_crashes",
    "Verif.Props.c76_tuple_crashes",
    "Verif.Props.c76_init_leaks",
    "Verif.Props.c76_free_leaks",
    "Verif.Props.c76_open_leaks",
    "Verif.Props.c76_clone_without_lock",
    "Verif.Props.c76_type_check_pending",
    "Verif.Props.c76_name_crashes",
    "Verif.Props.c76_module_leaks"
   ],
   "note": "Proved for every execution of 125 of the 150 graphs (140 functions, 10 of them in two builds); refuted for the other 25 by an execution. The graphs leave out all but the places that hold pointers and whether an exception is set, threads are allowed and the lock is held (DESIGN.md, Graphs of ownership)."
  },
  {
   "property": "C77",
   "status": "partial",
   "theorems": [
    "Verif.Props.c77_volume",
    "Verif.Props.c77_file_entry",
    "Verif.Props.c77_extended_attribute",
    "Verif.Props.c77_snapshot",
    "Verif.Props.c77_container_partial",
    "Verif.Props.c77_volume_atomic_partial",
    "Verif.Props.c77_file_entry_atomic",
    "Verif.Props.c77_extended_attribute_atomic",
    "Verif.Props.c77_open_race",
    "Verif.Props.c77_open_open_race",
    "Verif.Props.c77_close_race",
    "Verif.Props.c77_volume_by_index_race",
    "Verif.Props.c77_abort_race"
   ],
   "note": "Proved for volumes, file entries, extended attributes and snapshots, and for the queries of an open container; for volumes atomicity without libfsapfs_volume_get_snapshot_by_index, which can keep the lock (C31). Refuted for containers by interleavings of two threads. Places are the members of a handle and what they point to; what handles share is the subject of C57."
  },
  {
   "property": "C78",
   "status": "partial",
   "theorems": [
    "Verif.Props.c78_options_string",
    "Verif.Props.c78_tables",
    "Verif.Props.c78_getopt_partial",
    "Verif.Props.c78_info_partial",
    "Verif.Props.c78_mount_partial",
    "Verif.Props.c78_dash",
    "Verif.Props.c78_long",
    "Verif.Props.c78_unknown_again",
    "Verif.Props.c78_wrap",
    "Verif.Props.c78_too_long",
    "Verif.Props.c78_wrap_endless"
   ],
   "note": "Proved for all tables and all command lines without an argument - and without arguments that start with -- and have more characters; false for those two (c78_dash, c78_long), and lines are longer than 80 characters (c78_too_long). fsapfsmount is modelled as it is with FUSE. The usage line of the help is not modelled."
  },
  {
   "property": "C79",
   "status": "partial",
   "theorems": [
    "Verif.Props.c79_name",
    "Verif.Props.c79_path_partial",
    "Verif.Props.c79_file_partial",
    "Verif.Props.c79_encodings",
    "Verif.Props.c79_one_unit"
   ],
   "note": "Proved for all volumes and all paths but those that are one character from 0x80 to 0xffff, for which it is false (c79_one_unit). The functions for UTF-8 and UTF-16 have one model: their texts were compared and are the same but for the types and the functions of libuna. Names of extended attributes are compared by libuna and not covered."
  },
  {
   "property": "C80",
   "status": "partial",
   "theorems": [
    "Verif.Props.c80_fusion",
    "Verif.Props.c80_container_partial",
    "Verif.Props.c80_container",
    "Verif.Props.c80_container_safe",
    "Verif.Props.c80_volume",
    "Verif.Props.c80_volume_safe",
    "Verif.Props.c80_kek_partial",
    "Verif.Props.c80_kek_room_partial",
    "Verif.Props.c80_kek_overread",
    "Verif.Props.c80_compressed",
    "Verif.Props.c80_compressed_safe",
    "Verif.Props.c80_fusion_differs",
    "Verif.Props.c80_container_differs",
    "Verif.Props.c80_volume_differs",
    "Verif.Props.c80_compressed_differs"
   ],
   "note": "False as stated: Fusion drives, damaged objects that are only printed, packed keys and resource forks (see the theorems named differs and overread). Proved: whatever is opened is the same in all modes, exactly which containers (where the superblocks agree about the area), volumes and compressed files are refused, and safety of all of it but packed keys. Only the blocks for diagnostic output that can change a result are modelled; that the others only read fields of structs whose size has been compared was checked by a script, not proved. Printing a time or an identifier is assumed to succeed."
  },
  {
   "property": "C81",
   "status": "partial",
   "theorems": [
    "Verif.Props.c81_session_partial",
    "Verif.Props.c81_far_extent",
    "Verif.Props.c81_short_extent",
    "Verif.Props.c81_packed_key",
    "Verif.Props.c81_fork_table"
   ],
   "note": "False as stated: four forms of data that are not checked leave the memory of the library, each shown by a whole image and a session with it. Proved for all other images and all sessions, as far as modelled: snapshots, names of snapshots (C35), the caches of nodes (C52) and directory listings (C42) are not part of a session; external libraries are assumed to stay inside of the buffers they are given."
  },
  {
   "property": "C82",
   "status": "partial",
   "theorems": [
    "Verif.Props.c82_value_partial",
    "Verif.Props.c82_by_index_partial",
    "Verif.Props.c82_by_name_partial",
    "Verif.Props.c82_no_stream",
    "Verif.Props.c82_answered"
   ],
   "note": "False for records with neither flag (c82_no_stream). Proved for all others, for values in the record and in data streams without gaps between extents. What libfdata does with positions is assumed."
  },
  {
   "property": "C83",
   "status": "partial",
   "theorems": [
    "Verif.Props.c83_browse_partial",
    "Verif.Props.c83_answered"
   ],
   "note": "False for images with one of four forms of data (Checked in Props/C81.lean), for which C81 has whole images as counterexamples. Proved for all others. Handles are not freed (C61), strings of libuna are left out, extended attributes by UTF-16 name are not modelled."
  },
  {
   "property": "C84",
   "status": "partial",
   "theorems": [
    "Verif.Props.c84_told_partial"
   ],
   "note": "False for images with one of four forms of data (Checked in Props/C81.lean), after which anything may happen. For all others proved for file entries, sub file entries, extents and sizes of attributes. For attributes by index and name it is proved that those given are right; that stored ones are given is in C40 and C47 for sound attributes. Bytes read are in C53 and C82, link targets in C47."
  },
  {
   "property": "C85",
   "status": "partial",
   "theorems": [
    "Verif.Props.c85_ask",
    "Verif.Props.c85_names",
    "Verif.Props.c85_listed_partial",
    "Verif.Props.c85_sound_partial",
    "Verif.Props.c85_lookup_partial",
    "Verif.Props.c85_attributes_partial",
    "Verif.Props.c85_encodings_partial",
    "Verif.Props.c85_one_unit",
    "Verif.Props.c85_slash",
    "Verif.Props.c85_no_name"
   ],
   "note": "False for names of one code unit: such a name leads to the directory itself, in UTF-16 also for characters such as Korean ones (c85_one_unit). False for names with a slash, which are taken for paths (c85_slash). False for a file entry that was got by identifier and whose inode has no name field, which tells no name (c85_no_name). Proved for names of two or more units that lookups find (see C03 and C21), and for all well-formed names of attributes; libuna is assumed to convert and compare well-formed names rightly."
  },
  {
   "property": "C86",
   "status": "partial",
   "theorems": [
    "Verif.Props.c86_passwords",
    "Verif.Props.c86_replaced",
    "Verif.Props.c86_utf8",
    "Verif.Props.c86_utf16",
    "Verif.Props.c86_unlock_partial",
    "Verif.Props.c86_unlock_agrees",
    "Verif.Props.c86_unwrap_left",
    "Verif.Props.c86_derivation_left"
   ],
   "note": "Proved for the passwords of a volume and for the buffers of unlocking, whatever fails. False for two buffers further down: the block of the AES key unwrap is left with the first eight bytes of the key (c86_unwrap_left), and the hash buffer of the password derivation with the last hash, which is the derived key if there is one iteration (c86_derivation_left). The compiler is assumed to keep the clearing of buffers that are not read again; contexts of libcaes and libhmac are not modelled."
  },
  {
   "property": "C87",
   "status": "partial",
   "theorems": [
    "Verif.Props.c87_does_not_wait_partial",
    "Verif.Props.c87_changes_only_flag_partial",
    "Verif.Props.c87_stops_nothing",
    "Verif.Props.c87_flag_makes_no_difference",
    "Verif.Props.c87_size_waits"
   ],
   "note": "Proved that asking to abort does not wait and changes nothing but a flag. That the activity ends is false: no function reads the flag, so that whatever the calls of other threads do with what they read, they do and read the same as without the request (c87_stops_nothing). About the places of the graphs of C77; the handlers of signals in the tools, which are never attached, are not modelled."
  },
  {
   "property": "C88",
   "status": "partial",
   "theorems": [
    "Verif.Props.c88_read_partial",
    "Verif.Props.c88_large",
    "Verif.Props.c88_no_stream",
    "Verif.Props.c88_answered"
   ],
   "note": "Proved for the values of C82, for any objects, calls and failures. False for values of 2 GiB or more, which are not read without a size (c88_large), and for attributes with neither flag, where seeking to -5 succeeds (c88_no_stream). Positions of 2^63 and more are not treated, as in C89. Failing allocations of Python itself are not modelled."
  },
  {
   "property": "C89",
   "status": "partial",
   "theorems": [
    "Verif.Props.c89_library_partial",
    "Verif.Props.c89_python_partial"
   ],
   "note": "Proved for every file of C53 and every sequence of calls, while the storage may fail in any of them: such a call gives an error and leaves the position or has set it to where it was to read. Not for LZFSE; positions of 2^63 and more, where libfdata, which is external, adds numbers of 64 bits, are not treated. libfdata is assumed to keep and set the position."
  },
  {
   "property": "C90",
   "status": "partial",
   "theorems": [
    "Verif.Props.c90_pieces_partial",
    "Verif.Props.c90_whole_partial",
    "Verif.Props.c90_python_partial"
   ],
   "note": "Proved for every file of C53, from C89, in C and in Python (there with sizes of less than 2 GiB, others are refused). Not for LZFSE. Failures are of the storage; compressed data that does not decode is in C11."
  },
  {
   "property": "C91",
   "status": "partial",
   "theorems": [
    "Verif.Props.c91_handle_partial",
    "Verif.Props.c91_python_partial"
   ],
   "note": "Proved for every attribute with one of the flags, from C82, and in Python from C88 (there with sizes of less than 2 GiB, others are refused). Attributes with neither flag have no value to read, see c82_no_stream. Calls are one after the other; that calls at the same time are like calls in a row is not part of this. libfdata, which is external, is assumed to keep a position for each stream and to leave it if reading fails."
  },
  {
   "property": "C92",
   "status": "partial",
   "theorems": [
    "Verif.Props.c92_file_partial",
    "Verif.Props.c92_python_partial",
    "Verif.Props.c92_attribute_partial",
    "Verif.Props.c92_attribute_fails_partial",
    "Verif.Props.c92_python_attribute_partial"
   ],
   "note": "Proved for every file of C53, from C89, and for every attribute with one of the flags, from C82, and in Python from C88. Not for LZFSE."
  }
 ]
}