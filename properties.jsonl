{"id": "C01", "title": "Object checksum is exactly Fletcher-64 and a stored checksum verifies", "statement": "For every 32-bit-word buffer the object checksum computed by the library equals the mathematical APFS Fletcher-64 value, a 4 KiB object whose first 8 bytes carry that value is accepted, and an object in which one 32-bit word was changed (to a value different modulo 2^32-1) is rejected.", "quantifier": "every buffer of every length that is a multiple of four bytes, every single-word modification at every position", "why_tests_cant": "The value space is 2^(8n) buffers; detection of every single-word change is an algebraic statement over all positions and values.", "anchors": ["libfsapfs/libfsapfs_checksum.c: libfsapfs_checksum_calculate_fletcher64", "libfsapfs/libfsapfs_object.c", "libfsapfs/libfsapfs_volume_superblock.c: libfsapfs_volume_superblock_read_data"]}
{"id": "C02", "title": "CRC-32C used for names is the table-free polynomial CRC and can be chained", "statement": "The table driven CRC equals the bit-by-bit reflected CRC with polynomial 0x82f63b78 for every buffer and start value, and computing it over a buffer in pieces gives the same value as computing it at once.", "quantifier": "every buffer, every start value, every split", "why_tests_cant": "Unbounded buffers; one wrong table entry is only exercised by data that happens to index it.", "anchors": ["libfsapfs/libfsapfs_checksum.c: libfsapfs_checksum_calculate_weak_crc32, libfsapfs_checksum_crc32_table"]}
{"id": "C03", "title": "Directory name hash is invariant under case folding and only depends on the name", "statement": "Two names that differ only in characters with the same case folding get the same stored 22-bit hash when the volume is case-insensitive; the hash is always below 2^22; characters following an end-of-string character do not matter.", "quantifier": "every pair of names (sequences of Unicode code points), both case folding modes", "why_tests_cant": "Names range over all Unicode strings; the folding and decomposition tables have thousands of entries.", "anchors": ["libfsapfs/libfsapfs_name_hash.c: libfsapfs_name_hash_calculate_from_utf8_string", "libfsapfs/libfsapfs_name.h", "libfsapfs/libfsapfs_name.c"]}
{"id": "C04", "title": "Adler-32 is exactly RFC 1950", "statement": "The Adler-32 value computed over any buffer with any previous value equals the RFC 1950 definition, no intermediate sum overflows 32 bits, and it can be computed piecewise.", "quantifier": "every buffer of every length, every start value", "why_tests_cant": "Overflow of the deferred modulo reduction appears only for long runs of large bytes; unrolled block loop has boundary at 5552 and 16 bytes.", "anchors": ["libfsapfs/libfsapfs_deflate.c: libfsapfs_deflate_calculate_adler32"]}
{"id": "C05", "title": "Bit reader returns the stream's bits in order", "statement": "Any sequence of reads of n1,n2,... bits from a compressed stream returns consecutive little-endian bit groups of the input, a read past the end fails, and no byte outside the input is touched.", "quantifier": "every input, every sequence of read sizes up to 32 bits", "why_tests_cant": "Errors depend on the alignment reached by the whole preceding history of reads.", "anchors": ["libfsapfs/libfsapfs_bit_stream.c: libfsapfs_bit_stream_get_value"]}
{"id": "C06", "title": "Huffman decoding inverts canonical Huffman coding", "statement": "For every list of code sizes accepted by the decoder, the bit string that RFC 1951 assigns to a symbol decodes to that symbol and consumes exactly its bits; over-subscribed code size lists are refused; no table is indexed out of bounds.", "quantifier": "every list of code sizes, every symbol, every bit stream", "why_tests_cant": "Exponentially many code size lists; bugs show for shapes a test does not draw.", "anchors": ["libfsapfs/libfsapfs_huffman_tree.c: libfsapfs_huffman_tree_build, libfsapfs_huffman_tree_get_symbol_from_bit_stream"]}
{"id": "C07", "title": "Decompression of arbitrary bytes is memory safe and terminates", "statement": "Decompressing any byte string into a buffer of any size terminates, never reads outside the input, never writes outside the output buffer and never copies from before its start; on success the reported size does not exceed the buffer size.", "quantifier": "every (possibly hostile) input and every output buffer size", "why_tests_cant": "Hostile inputs: fuzzing samples them, a proof covers all.", "anchors": ["libfsapfs/libfsapfs_deflate.c: libfsapfs_deflate_decompress, libfsapfs_deflate_decompress_zlib, libfsapfs_deflate_decode_huffman, libfsapfs_deflate_build_dynamic_huffman_trees, libfsapfs_deflate_read_block"]}
{"id": "C08", "title": "DEFLATE decompression follows RFC 1951", "statement": "A stream consisting of any sequence of valid RFC 1951 blocks (stored, fixed and dynamic Huffman) whose expansion fits the output buffer is decompressed to exactly that expansion.", "quantifier": "every valid DEFLATE stream", "why_tests_cant": "Unbounded family of encodings of the same data; tests only see what one compressor emits.", "anchors": ["libfsapfs/libfsapfs_deflate.c: libfsapfs_deflate_read_block, libfsapfs_deflate_decode_huffman, libfsapfs_deflate_decompress"]}
{"id": "C09", "title": "Corrupted zlib data is never returned as good", "statement": "If zlib decompression reports success, the stream ended with a final block followed by the Adler-32 of the returned bytes.", "quantifier": "every input byte string", "why_tests_cant": "A negative statement over all corruptions and truncations.", "anchors": ["libfsapfs/libfsapfs_deflate.c: libfsapfs_deflate_decompress_zlib"]}
{"id": "C10", "title": "Uncompressed chunks of compressed files round-trip", "statement": "A chunk stored with the raw marker byte is returned verbatim, an unsupported method is refused and the output size never exceeds the chunk buffer.", "quantifier": "every payload and every supported method", "why_tests_cant": "Ranges over all payloads and sizes including the boundary where payload exceeds the buffer.", "anchors": ["libfsapfs/libfsapfs_compression.c: libfsapfs_decompress_data"]}
{"id": "C11", "title": "Random access to a compressed file equals slicing its decompressed contents", "statement": "For any history of seeks and reads on a compressed file, a successful read at offset o of n bytes returns bytes o..o+n of the decompressed file, independent of what was read before.", "quantifier": "every compressed file, every sequence of seek/read operations including failing ones", "why_tests_cant": "History dependence: the decoded segment is cached and failures happen in the middle of a history.", "anchors": ["libfsapfs/libfsapfs_compressed_data_handle.c: libfsapfs_compressed_data_handle_read_segment_data, libfsapfs_compressed_data_handle_seek_segment_offset"]}
{"id": "C12", "title": "Reading a compressed file's block table is memory safe", "statement": "Whatever the resource fork or attribute contains, building the block offset table never writes outside the buffers allocated for it and the resulting offsets are monotone with every block at most 65537 bytes.", "quantifier": "every attribute/resource fork content and size", "why_tests_cant": "Hostile on-disk data.", "anchors": ["libfsapfs/libfsapfs_compressed_data_handle.c: libfsapfs_compressed_data_handle_get_compressed_block_offsets"]}
{"id": "C13", "title": "Key unwrapping inverts RFC 3394 key wrap", "statement": "Unwrapping the RFC 3394 wrapping of any key data under the same key-encryption key yields the integrity value 0xa6 x 8 followed by the key data, for every block cipher; every buffer index used is in bounds.", "quantifier": "every key of every supported size, every KEK, any 128-bit block cipher", "why_tests_cant": "Cryptographic round trip over all keys.", "anchors": ["libfsapfs/libfsapfs_encryption_context.c: libfsapfs_encryption_aes_key_unwrap"]}
{"id": "C14", "title": "Password key derivation is PBKDF2", "statement": "The derived key equals RFC 2898 PBKDF2 output T1||T2||... truncated to the requested length for every password, salt and iteration count.", "quantifier": "every password, salt, iteration count >= 1, output length; any pseudo random function with 32 byte output", "why_tests_cant": "Unbounded iteration counts and lengths.", "anchors": ["libfsapfs/libfsapfs_password.c: libfsapfs_password_pbkdf2"]}
{"id": "C15", "title": "Parsing a packed key-encrypted key never leaves the blob", "statement": "Whatever bytes a key bag contains, parsing a key-encrypted key object reads only bytes of that object, and a well-formed object yields exactly its fields.", "quantifier": "every byte string", "why_tests_cant": "Hostile on-disk data; DER lengths.", "anchors": ["libfsapfs/libfsapfs_key_encrypted_key.c: libfsapfs_key_encrypted_key_read_data"]}
{"id": "C16", "title": "Key bag parsing is memory safe and returns exactly the entries", "statement": "Parsing any key bag block terminates, stays within the block, and for a well-formed bag returns its entries in order; looking up a volume's key bag extent returns the first entry for that volume.", "quantifier": "every block content, every list of entries", "why_tests_cant": "Entry sizes and paddings compose over the whole list.", "anchors": ["libfsapfs/libfsapfs_volume_key_bag.c: libfsapfs_volume_key_bag_read_data", "libfsapfs/libfsapfs_container_key_bag.c", "libfsapfs/libfsapfs_key_bag_entry.c: libfsapfs_key_bag_entry_read_data", "libfsapfs/libfsapfs_key_bag_header.c"]}
{"id": "C17", "title": "Parsing a B-tree node never leaves the node", "statement": "For every 4 KiB block, every key and value a B-tree node exposes lies within the block; malformed offsets are refused.", "quantifier": "every block content and size", "why_tests_cant": "16-bit offset arithmetic wraps; hostile data.", "anchors": ["libfsapfs/libfsapfs_btree_node.c: libfsapfs_btree_node_read_data"]}
{"id": "C18", "title": "Object map lookup returns the newest version not newer than the requested transaction", "statement": "On a well-formed object map tree of any shape and depth, looking up (object, transaction) returns the mapping with the greatest transaction identifier not above the requested one, or reports not found exactly if there is none.", "quantifier": "every sorted multi-level object map tree, every valid (nonzero) object identifier and every transaction identifier", "why_tests_cant": "Correct child selection at node boundaries depends on tree shape.", "anchors": ["libfsapfs/libfsapfs_object_map_btree.c: libfsapfs_object_map_btree_get_entry_from_node_by_identifier, libfsapfs_object_map_btree_get_entry_by_identifier"]}
{"id": "C19", "title": "Inode lookup by identifier finds exactly the stored inode", "statement": "On a well-formed file system tree, looking up a file by identifier succeeds exactly when an inode record with that identifier exists and returns that record.", "quantifier": "every sorted multi-level file system tree, every identifier", "why_tests_cant": "Child selection at node boundaries, unbounded shapes.", "anchors": ["libfsapfs/libfsapfs_file_system_btree.c: libfsapfs_file_system_btree_get_entry_from_node_by_identifier, libfsapfs_file_system_btree_get_entry_by_identifier, libfsapfs_file_system_btree_get_inode_by_identifier"]}
{"id": "C20", "title": "Directory listing is complete, exact and ordered", "statement": "On a well-formed tree, enumerating a directory returns every directory record of that directory exactly once, in key order, and nothing else.", "quantifier": "every sorted multi-level tree, every directory identifier", "why_tests_cant": "Records of a directory may span any number of leaves at any depth.", "anchors": ["libfsapfs/libfsapfs_file_system_btree.c: libfsapfs_file_system_btree_get_directory_entries_from_leaf_node, libfsapfs_file_system_btree_get_directory_entries_from_branch_node"]}
{"id": "C21", "title": "Lookup by name finds a directory entry whenever it exists", "statement": "On a well-formed tree, looking up a name in a directory returns the record with that name if present (up to case on case-insensitive volumes) and reports not found otherwise.", "quantifier": "every tree, directory, name, both case sensitivity modes", "why_tests_cant": "Interaction between hash order, case folding and child selection across tree shapes.", "anchors": ["libfsapfs/libfsapfs_file_system_btree.c: libfsapfs_file_system_btree_get_entry_from_branch_node_by_utf8_name, libfsapfs_file_system_btree_get_directory_record_from_leaf_node_by_utf8_name", "libfsapfs/libfsapfs_directory_record.c: libfsapfs_directory_record_compare_name_with_utf8_string"]}
{"id": "C22", "title": "Path lookup resolves each path component in turn", "statement": "Resolving '/a/b/c' returns the same file entry as looking up a, then b, then c by name; a leading or single trailing separator does not matter; a missing component is reported as not found.", "quantifier": "every directory hierarchy and every path", "why_tests_cant": "Unbounded path length and component contents, including one-character components.", "anchors": ["libfsapfs/libfsapfs_file_system_btree.c: libfsapfs_file_system_btree_get_inode_by_utf8_path", "libfsapfs/libfsapfs_file_entry.c: libfsapfs_file_entry_get_sub_file_entry_by_utf8_name", "libfsapfs/libfsapfs_volume.c: libfsapfs_volume_get_file_entry_by_utf8_path"]}
{"id": "C23", "title": "Extended attribute listing is complete, exact and ordered", "statement": "On a well-formed tree, a file's extended attributes are returned exactly once each in key order and no other file's attribute is returned.", "quantifier": "every sorted multi-level tree, every identifier", "why_tests_cant": "Records may span any number of leaves.", "anchors": ["libfsapfs/libfsapfs_file_system_btree.c: libfsapfs_file_system_btree_get_attributes_from_leaf_node, libfsapfs_file_system_btree_get_attributes_from_branch_node"]}
{"id": "C24", "title": "File extent listing is complete, exact and ordered", "statement": "On a well-formed tree, a file's extents are returned exactly once each, ordered by logical address.", "quantifier": "every sorted multi-level tree, every identifier", "why_tests_cant": "Records may span any number of leaves; the branch code tests the logical address.", "anchors": ["libfsapfs/libfsapfs_file_system_btree.c: libfsapfs_file_system_btree_get_file_extents_from_leaf_node, libfsapfs_file_system_btree_get_file_extents_from_branch_node"]}
{"id": "C25", "title": "File contents are the extents' blocks in logical order", "statement": "Reading a file returns for each logical byte the byte of the block its extent maps it to, zero bytes for sparse ranges, nothing beyond the file size; out-of-order or gapped extents are refused for non-sparse files.", "quantifier": "every extent list, file size, offset and length", "why_tests_cant": "Extent boundaries, gaps and sizes compose arbitrarily.", "anchors": ["libfsapfs/libfsapfs_data_stream.c", "libfsapfs/libfsapfs_data_block_vector.c", "libfsapfs/libfsapfs_file_system_data_handle.c", "libfsapfs/libfsapfs_data_block_data_handle.c"]}
{"id": "C26", "title": "Each encrypted sector is decrypted with its own tweak number", "statement": "Decrypting a block of n sectors uses tweak number first, first+1, ... for consecutive 512-byte sectors, so that two different sectors of one volume never share a tweak and decrypting inverts encrypting.", "quantifier": "every block, sector size multiple, start sector, any tweakable cipher", "why_tests_cant": "Quantifies over all blocks and cipher instances.", "anchors": ["libfsapfs/libfsapfs_encryption_context.c: libfsapfs_encryption_context_crypt", "libfsapfs/libfsapfs_data_block.c: libfsapfs_data_block_read", "libfsapfs/libfsapfs_file_system_data_handle.c"]}
{"id": "C27", "title": "Opening a container selects the most recent checkpoint", "statement": "When opening succeeds the container superblock in use has the greatest transaction identifier among the superblocks in the checkpoint descriptor area, and the checkpoint map in use has the greatest transaction identifier among the maps there.", "quantifier": "every checkpoint area content and order", "why_tests_cant": "Ring buffer order and identifiers are arbitrary.", "anchors": ["libfsapfs/libfsapfs_container.c: libfsapfs_internal_container_open_read"]}
{"id": "C28", "title": "A torn checkpoint write does not prevent opening the previous checkpoint", "statement": "If the last checkpoint superblock was only partly written at the crash (its checksum does not match), the container still opens with the latest intact checkpoint.", "quantifier": "every crash point while the newest checkpoint superblock is being written", "why_tests_cant": "Crash points cannot be enumerated by unit tests.", "anchors": ["libfsapfs/libfsapfs_container.c: libfsapfs_internal_container_open_read", "libfsapfs/libfsapfs_container_superblock.c: libfsapfs_container_superblock_read_data"]}
{"id": "C29", "title": "All volumes of a container are reachable by index", "statement": "For every container with k volumes, get_number_of_volumes is k and get_volume_by_index(0..k-1) reaches each of the k volumes; other indices are refused.", "quantifier": "every arrangement of the 100 volume slots", "why_tests_cant": "2^100 arrangements of used slots.", "anchors": ["libfsapfs/libfsapfs_container.c: libfsapfs_container_get_volume_by_index, libfsapfs_container_get_number_of_volumes", "libfsapfs/libfsapfs_container_superblock.c"]}
{"id": "C30", "title": "Open and close form a well-behaved state machine", "statement": "After any sequence of open, close and query calls on a container a query only succeeds while open, a second open without close is refused, close after close is refused, and a failed open leaves the handle closed and reusable.", "quantifier": "every sequence of API calls, each with arbitrary success or failure of the underlying IO", "why_tests_cant": "Histories.", "anchors": ["libfsapfs/libfsapfs_container.c: libfsapfs_container_open_file_io_handle, libfsapfs_container_close, libfsapfs_internal_container_open_read"]}
{"id": "C31", "title": "Every API call releases the locks it takes", "statement": "On return of any API call, successful or failed, the handle's read/write lock is in the state it had before the call, so no later call from any thread can block forever.", "quantifier": "every API call, every failure point inside it, every history of calls", "why_tests_cant": "Failure points inside calls are not reachable by ordinary tests.", "anchors": ["libfsapfs/libfsapfs_volume.c: libfsapfs_volume_get_snapshot_by_index", "libfsapfs/libfsapfs_container.c", "libfsapfs/libfsapfs_file_entry.c"]}
{"id": "C32", "title": "A locked volume is only unlocked by a correct secret", "statement": "An encrypted volume reports unlocked only after a password or recovery password unwrapped its keys with a matching integrity value.", "quantifier": "every key bag content, every history of set password / unlock calls", "why_tests_cant": "Negative statement over all histories and secrets.", "anchors": ["libfsapfs/libfsapfs_volume.c: libfsapfs_internal_volume_unlock, libfsapfs_volume_unlock, libfsapfs_internal_volume_open_read", "libfsapfs/libfsapfs_volume_key_bag.c: libfsapfs_volume_key_bag_get_volume_key", "libfsapfs/libfsapfs_key_encrypted_key.c"]}
{"id": "C33", "title": "Setting a password stores exactly the given bytes", "statement": "After set_utf8_password(s, n) the stored password is the first n bytes of s; no byte outside the caller's string or the allocated copy is touched.", "quantifier": "every string and every length argument", "why_tests_cant": "Length argument and string content vary independently; over-reads are silent in tests.", "anchors": ["libfsapfs/libfsapfs_volume.c: libfsapfs_volume_set_utf8_password, libfsapfs_volume_set_utf8_recovery_password"]}
{"id": "C34", "title": "UTF-8 and UTF-16 forms of a password are interchangeable", "statement": "Setting the same password through the UTF-16 API derives the same key as through the UTF-8 API.", "quantifier": "every Unicode password of every length", "why_tests_cant": "Differences only appear for long passwords.", "anchors": ["libfsapfs/libfsapfs_volume.c: libfsapfs_volume_set_utf16_password, libfsapfs_volume_set_utf8_password", "libfsapfs/libfsapfs_password.c"]}
{"id": "C35", "title": "Snapshots are listed completely and their metadata is faithful", "statement": "On a well-formed snapshot metadata tree every snapshot is listed exactly once in order, the snapshot refers to the stored volume superblock, and reading its name touches only the stored name.", "quantifier": "every snapshot tree, block number and name", "why_tests_cant": "Block numbers beyond 2^32 and unterminated names do not occur in test images.", "anchors": ["libfsapfs/libfsapfs_snapshot_metadata.c: libfsapfs_snapshot_metadata_read_value_data, libfsapfs_snapshot_metadata_get_utf8_name", "libfsapfs/libfsapfs_snapshot_metadata_tree.c"]}
{"id": "C36", "title": "Directory record keys and values decode to what was encoded", "statement": "For every parent, hash and name, parsing the encoded directory record returns them; parsing arbitrary bytes never leaves the record.", "quantifier": "every record content and size, both key layouts", "why_tests_cant": "The two key layouts are distinguished by a size comparison on attacker controlled data.", "anchors": ["libfsapfs/libfsapfs_directory_record.c: libfsapfs_directory_record_read_key_data, libfsapfs_directory_record_read_value_data"]}
{"id": "C37", "title": "Inode parsing is memory safe and faithful", "statement": "Parsing any inode record value stays within the value; for a well-formed value the fixed fields and the name, data stream and device extended fields are returned as stored.", "quantifier": "every value content and size, every list of extended fields", "why_tests_cant": "Extended fields compose: offset of each depends on padded sizes of all previous.", "anchors": ["libfsapfs/libfsapfs_inode.c: libfsapfs_inode_read_value_data"]}
{"id": "C38", "title": "Extended attribute records decode to what was encoded", "statement": "For every attribute name and embedded value, parsing the encoded record returns them; parsing arbitrary bytes never leaves the record.", "quantifier": "every record content and size", "why_tests_cant": "All sizes, hostile data.", "anchors": ["libfsapfs/libfsapfs_attribute_values.c: libfsapfs_attribute_values_read_key_data, libfsapfs_attribute_values_read_value_data"]}
{"id": "C39", "title": "Device numbers are decoded as the operating system encoded them", "statement": "For a device special file created on macOS with device number (major, minor), get_device_number returns (major, minor).", "quantifier": "every major < 256 and minor < 2^24", "why_tests_cant": "2^32 device numbers.", "anchors": ["libfsapfs/libfsapfs_inode.c: libfsapfs_inode_get_device_number"]}
{"id": "C40", "title": "A compressed file's contents are taken from where its compression method stores them", "statement": "Methods 3, 7, 11 read the attribute, methods 4, 8, 12 read the resource fork, unknown methods are refused; the reported size is the uncompressed size.", "quantifier": "every compression method value and attribute set", "why_tests_cant": "All 2^32 method values, combination with the presence of attributes.", "anchors": ["libfsapfs/libfsapfs_file_entry.c: libfsapfs_internal_file_entry_get_data_stream, libfsapfs_internal_file_entry_get_data_size", "libfsapfs/libfsapfs_compressed_data_header.c"]}
{"id": "C41", "title": "Checkpoint map resolves ephemeral objects", "statement": "Looking up an ephemeral object in a checkpoint map returns the address of the first entry for it or not found if there is none; parsing never leaves the block.", "quantifier": "every map content", "why_tests_cant": "All contents and numbers of entries.", "anchors": ["libfsapfs/libfsapfs_checkpoint_map.c: libfsapfs_checkpoint_map_read_data, libfsapfs_checkpoint_map_get_physical_address_by_object_identifier"]}
{"id": "C42", "title": "Lookups and listings terminate on cyclic or corrupted trees", "statement": "On any graph of B-tree nodes, including cyclic ones, every lookup and enumeration terminates and follows a path of at most 258 nodes, reporting an error if the depth is exceeded.", "quantifier": "every node graph", "why_tests_cant": "Cycles of any length, hostile data.", "anchors": ["libfsapfs/libfsapfs_object_map_btree.c", "libfsapfs/libfsapfs_file_system_btree.c", "libfsapfs/libfsapfs_snapshot_metadata_tree.c"]}
{"id": "C43", "title": "Name comparison is a consistent order and agrees with normalisation", "statement": "Comparing a query with a stored name returns equal exactly if they have the same normalised (and, if requested, case folded) form; otherwise less/greater consistently orders them.", "quantifier": "every pair of Unicode strings, both modes", "why_tests_cant": "All pairs of Unicode strings.", "anchors": ["libfsapfs/libfsapfs_name.c: libfsapfs_name_compare_with_utf8_string, libfsapfs_name_compare_with_utf16_string"]}
{"id": "C44", "title": "Case folding and decomposition tables are never indexed out of bounds", "statement": "For every 32-bit code point the folding and decomposition steps read inside their tables and the decomposition has at most four code points.", "quantifier": "every 32-bit code point", "why_tests_cant": "2^32 code points times 30 ranges.", "anchors": ["libfsapfs/libfsapfs_name.h: libfsapfs_name_get_case_folding_mapping, libfsapfs_name_get_decomposition_mapping", "libfsapfs/libfsapfs_name.c"]}
{"id": "C45", "title": "In-memory attribute streams behave like byte arrays", "statement": "Any sequence of seeks and reads on an inline attribute stream behaves like the same operations on a byte array: correct bytes, short read at the end, no out-of-bounds access.", "quantifier": "every buffer, every sequence of operations", "why_tests_cant": "Histories.", "anchors": ["libfsapfs/libfsapfs_buffer_data_handle.c: libfsapfs_buffer_data_handle_read_segment_data, libfsapfs_buffer_data_handle_seek_segment_offset"]}
{"id": "C46", "title": "Opening a container accesses memory within bounds for every file", "statement": "For every file, opening it as a container either fails or succeeds without reading or writing outside of a buffer; a container superblock is accepted exactly if it is a valid one of a supported kind and then all its fields are the stored ones.", "quantifier": "every file content and size, including unreadable blocks", "why_tests_cant": "All files; the checks on sizes, counts and checksums have to exclude every bad combination.", "anchors": ["libfsapfs/libfsapfs_container.c: libfsapfs_internal_container_open_read", "libfsapfs/libfsapfs_container_superblock.c: libfsapfs_container_superblock_read_data", "libfsapfs/libfsapfs_checkpoint_map.c", "libfsapfs/libfsapfs_object_map.c", "libfsapfs/libfsapfs_container_key_bag.c"]}
{"id": "C47", "title": "Symbolic link targets and extended attributes by name are those of the file", "statement": "After any sequence of calls on a file entry, whatever failed during them, a symbolic link target that is returned is the complete value of the com.apple.fs.symlink attribute, an extended attribute returned for a name is the one with that name and reads as its value, and 'not available' is returned only if the file has none; without failures they are always returned.", "quantifier": "all files with any extended attributes (embedded or in data streams), all sequences of calls, all failures of storage and memory allocation during each of them", "why_tests_cant": "tests open a fresh file entry on an intact image; the attributes are cached with pointers into an array that is freed when reading it fails half way, which only shows after particular failures", "anchors": ["libfsapfs/libfsapfs_file_entry.c:libfsapfs_internal_file_entry_get_extended_attributes", "libfsapfs/libfsapfs_file_entry.c:libfsapfs_internal_file_entry_get_symbolic_link_data", "libfsapfs/libfsapfs_file_entry.c:libfsapfs_internal_file_entry_get_attribute_values_by_utf8_name", "libfsapfs/libfsapfs_attributes.c:libfsapfs_attributes_get_data_stream"]}
{"id": "C48", "title": "Names that the tools print identify files", "statement": "Whatever characters a file name has, fsapfsinfo, its bodyfile and a mounted volume show it as text of printable characters that fits in the buffer, different names are shown differently, and what a tool showed is taken for the same name when it is given back to that tool.", "quantifier": "every byte string as a name (safety); every name of Unicode characters; every path of names of a mounted volume", "why_tests_cant": "names are arbitrary text from the volume; escapes of escapes, truncated escapes and the worst case of the buffer size are never covered by a few sample names", "anchors": ["fsapfstools/path_string.c:path_string_copy_from_file_entry_path", "fsapfstools/path_string.c:path_string_copy_to_file_entry_path", "fsapfstools/bodyfile.c:bodyfile_path_string_copy_from_file_entry_path", "fsapfstools/mount_path_string.c:mount_path_string_copy_from_file_entry_path", "fsapfstools/mount_path_string.c:mount_path_string_copy_to_file_entry_path"]}
{"id": "C49", "title": "Every file entry gets one faithful line in a bodyfile", "statement": "For every file entry the bodyfile has exactly one line of 11 fields, and path, name, identifier, type, permissions, owner, group, size and times can be read back from it.", "quantifier": "every file entry: any path and name, any values, any link target and any times", "why_tests_cant": "a bodyfile is parsed by other programs; whether some name, link target or time breaks a line cannot be settled with sample volumes", "anchors": ["fsapfstools/info_handle.c:info_handle_file_entry_value_with_name_fprint", "fsapfstools/info_handle.c:info_handle_bodyfile_name_value_fprint", "fsapfstools/bodyfile.c:bodyfile_path_string_copy_from_file_entry_path"]}
{"id": "C50", "title": "Opening a volume gives what the container stores for it", "statement": "For every image, opening a volume of an open container by any index never has undefined behaviour. If it succeeds, name, identifier, feature flags and next file entry identifier are those of the volume superblock that the container's object map has for the identifier in that slot as of the checkpoint in use, and that superblock has a right checksum, type and signature. A well-formed volume that is not encrypted opens unlocked, with all its snapshots, and lists every directory of its file system tree with exactly the stored directory records, through any sequence of calls to the password, locking and file system functions.", "quantifier": "all images, all containers opened from them, all indexes, all object maps and file system trees of any shape, all call sequences", "why_tests_cant": "The superblock is found through the checkpoint area, an object map B-tree of any shape and multiplications of stored block numbers; tests use a handful of images with a few volumes and almost no snapshots.", "anchors": ["libfsapfs/libfsapfs_container.c: libfsapfs_container_get_volume_by_index", "libfsapfs/libfsapfs_volume.c: libfsapfs_internal_volume_open_read, libfsapfs_internal_volume_get_file_system", "libfsapfs/libfsapfs_volume_superblock.c: libfsapfs_volume_superblock_read_data", "libfsapfs/libfsapfs_container_data_handle.c: libfsapfs_container_data_handle_read_data_block"]}
{"id": "C51", "title": "A correct password gives access to the files of an encrypted volume", "statement": "For a container image with an encrypted volume whose key bags are in order: the container opens with the key bag stored (encrypted with the container identifier) where the superblock says; the volume opens locked, with the key bag stored (encrypted with its identifier) where the container key bag says; after any calls, unlocking succeeds if a correct password is set as user or recovery password; and whenever the volume reports not to be locked, every directory lists the directory records that the file system tree had before encryption.", "quantifier": "every image, cipher, hash and password; every sequence of calls to set passwords, unlock and access files, with any previous contents of local buffers", "why_tests_cant": "the claim spans key bags, key derivation, key wrapping, sector tweaks and two trees in any image; tests use one image and one password", "anchors": ["libfsapfs/libfsapfs_volume.c:libfsapfs_internal_volume_unlock", "libfsapfs/libfsapfs_volume_key_bag.c:libfsapfs_volume_key_bag_read_file_io_handle", "libfsapfs/libfsapfs_container_key_bag.c:libfsapfs_container_key_bag_get_volume_master_key_by_identifier", "libfsapfs/libfsapfs_file_system_data_handle.c:libfsapfs_file_system_data_handle_read_data_block", "libfsapfs/libfsapfs_encryption_context.c:libfsapfs_encryption_context_crypt"]}
{"id": "C52", "title": "The node cache does not change results and no replaced node is used", "statement": "A history of lookups and listings on a file system has, call by call, the results it has when every node is read anew, and no call uses a node that the cache has replaced.", "quantifier": "every storage, every history of calls, every policy by which the cache replaces values under the stated assumptions, every capacity", "why_tests_cant": "A use after free needs more nodes than the cache has entries (8192, that is trees of more than 32 MiB) and depends on the replacement policy and on the history of calls; unit tests use images of a few nodes.", "anchors": ["libfsapfs/libfsapfs_file_system_btree.c: libfsapfs_file_system_btree_get_root_node, libfsapfs_file_system_btree_get_sub_node, libfsapfs_file_system_btree_get_entry_by_identifier, libfsapfs_file_system_btree_get_directory_entries_from_branch_node, libfsapfs_file_system_btree_get_attributes_from_branch_node, libfsapfs_file_system_btree_get_file_extents_from_branch_node", "libfsapfs/libfsapfs_definitions.h.in: LIBFSAPFS_MAXIMUM_CACHE_ENTRIES_BTREE_NODES"]}
{"id": "C53", "title": "A file in a container gives its stored contents, from block image to bytes", "statement": "Given the image of a container with a well-formed volume, a file is found by its path and by its identifier, and for any sequence of seeks and reads the opened file gives the bytes that are stored for it: in extents, in holes of sparse files, or compressed in an extended attribute or resource fork. In an encrypted volume the same holds after unlocking with a correct password.", "quantifier": "every image with well-formed trees of any shape, every file with contiguous extents or zlib or LZVN data, every history of calls for passwords and locking and of calls on the file entry, every sequence of seeks and reads", "why_tests_cant": "Every layer, from object map over keys, tree, path lookup, extents and chunks to the read offset, can distort the bytes; a test volume has a few layouts of each, and combinations multiply.", "anchors": ["libfsapfs/libfsapfs_volume.c: libfsapfs_volume_get_file_entry_by_utf8_path, libfsapfs_volume_get_file_entry_by_identifier", "libfsapfs/libfsapfs_file_entry.c: libfsapfs_file_entry_read_buffer, libfsapfs_file_entry_seek_offset, libfsapfs_internal_file_entry_get_data_stream", "libfsapfs/libfsapfs_data_stream.c: libfsapfs_data_stream_initialize_from_file_extents", "libfsapfs/libfsapfs_file_system.c: libfsapfs_file_system_get_file_entry_by_identifier"]}
{"id": "C54", "title": "Sub file entries and parents", "statement": "For a file entry of a directory, the number of sub file entries and the sub file entries by index are those of the stored directory, in its order and with their names and inodes, through any calls in any order and also after calls that failed because of read errors; an index outside the range is an error. The parent of a file entry has the sub file entry among its own; the root directory has no parent.", "quantifier": "all volumes with readable inodes and directories, all sequences of calls with failing reads in between", "why_tests_cant": "Depends on every directory size, every order of calls and every pattern of failing reads.", "anchors": ["libfsapfs/libfsapfs_file_entry.c:libfsapfs_file_entry_get_number_of_sub_file_entries", "libfsapfs/libfsapfs_file_entry.c:libfsapfs_file_entry_get_sub_file_entry_by_index", "libfsapfs/libfsapfs_file_entry.c:libfsapfs_file_entry_get_parent_file_entry", "libfsapfs/libfsapfs_file_entry.c:libfsapfs_internal_file_entry_get_directory_entries"]}
{"id": "C55", "title": "The printed hierarchy has one line per file", "statement": "fsapfsinfo -H prints, for each volume of a container or for the selected one, one line for the root directory and one for every path below it, a directory before what is inside it. Each line can be read back as the UUID of the volume and the names of the path, and lines of different files differ. The program ends for every volume.", "quantifier": "all containers, all directory trees and names, all numbers of volumes", "why_tests_cant": "Depends on every shape of directory tree, every depth and every character in names.", "anchors": ["fsapfstools/info_handle.c:info_handle_file_system_hierarchy_fprint", "fsapfstools/info_handle.c:info_handle_file_system_hierarchy_fprint_file_entry", "fsapfstools/info_handle.c:info_handle_name_value_fprint", "libfsapfs/libfsapfs_file_entry.c:libfsapfs_file_entry_get_utf8_name"]}
{"id": "C56", "title": "A mounted volume shows every file with its attributes and contents", "statement": "Programs that use a volume mounted with fsapfsmount see its files: every path leads to the file that has it, or to none; attributes, contents, symbolic links, extended attributes and the lists of directories are those of the volume, whatever is asked and in whatever order, and files that are open stay those that they were when they were opened. Answers that are not possible are the errors that POSIX has for them, and a volume can be used for any length of time.", "quantifier": "all volumes, all histories of requests", "why_tests_cant": "Depends on every file of every volume and on every history of requests; handles of open files keep state between requests.", "anchors": ["fsapfstools/mount_fuse.c:mount_fuse_getattr", "fsapfstools/mount_fuse.c:mount_fuse_read", "fsapfstools/mount_fuse.c:mount_fuse_readdir", "fsapfstools/mount_fuse.c:mount_fuse_readlink", "fsapfstools/mount_fuse.c:mount_fuse_getxattr", "fsapfstools/mount_fuse.c:mount_fuse_listxattr", "fsapfstools/mount_file_system.c:mount_file_system_get_filename_from_file_entry", "fsapfstools/mount_handle.c:mount_handle_get_file_entry_by_path", "fsapfstools/mount_file_entry.c:mount_file_entry_get_parent_file_entry"]}
{"id": "C57", "title": "Calls from several threads", "statement": "Calls on handles of one container made by several threads return what the same calls return when they are made one after the other, no call uses memory another call freed, and no two calls access the same memory at the same time if one of them changes it.", "quantifier": "All numbers of threads, all lists of calls of each thread on the same or on different handles of a volume, all images, all replacement policies of the cache of tree nodes, and all interleavings of the steps of the calls", "why_tests_cant": "A test runs one of the interleavings the scheduler happens to choose; the ones that go wrong need two threads between two adjacent statements of the library.", "anchors": ["libfsapfs/libfsapfs_file_system.c: libfsapfs_file_system_get_file_entry_by_identifier", "libfsapfs/libfsapfs_file_system_btree.c: libfsapfs_file_system_btree_get_root_node, libfsapfs_file_system_btree_get_sub_node", "libfsapfs/libfsapfs_object_map_btree.c: libfsapfs_object_map_btree_get_entry_by_identifier", "libfsapfs/libfsapfs_container.c: libfsapfs_container_get_volume_by_index", "libfsapfs/libfsapfs_volume.c, libfsapfs/libfsapfs_file_entry.c: read_write_lock"]}
{"id": "C58", "title": "Damage to the metadata of a container is noticed", "statement": "If a stored metadata object (superblock of the container or of a volume, checkpoint map, object map, B-tree node, key bag) is damaged so that its checksum no longer matches, then the calls that need the object fail, instead of returning what the damaged object says.", "quantifier": "every image, every object, every damage that is confined to the checksum or to two adjacent words, every call", "why_tests_cant": "there are unboundedly many damaged images; a test corrupts a few bytes of one image and cannot tell which objects are never verified", "anchors": ["libfsapfs/libfsapfs_container_superblock.c:libfsapfs_container_superblock_read_data", "libfsapfs/libfsapfs_checkpoint_map.c:libfsapfs_checkpoint_map_read_data", "libfsapfs/libfsapfs_volume_superblock.c:libfsapfs_volume_superblock_read_data", "libfsapfs/libfsapfs_container_key_bag.c:libfsapfs_container_key_bag_read_data", "libfsapfs/libfsapfs_btree_node.c:libfsapfs_btree_node_read_data", "libfsapfs/libfsapfs_object_map.c:libfsapfs_object_map_read_data"]}
{"id": "C59", "title": "Checking the signature of a file agrees with opening it", "statement": "The signature checks of a file answer yes exactly if the signature is there; every file that opens as a container has the signature of a container; the file IO handle is left as it was, and none is left behind, whatever fails.", "quantifier": "every file, every failure of the file IO functions, handles that are open or closed", "why_tests_cant": "a test checks a few files with file IO that works", "anchors": ["libfsapfs/libfsapfs_support.c:libfsapfs_check_container_signature_file_io_handle", "libfsapfs/libfsapfs_support.c:libfsapfs_check_volume_signature_file_io_handle", "libfsapfs/libfsapfs_support.c:libfsapfs_check_container_signature", "libfsapfs/libfsapfs_support.c:libfsapfs_check_volume_signature"]}
{"id": "C60", "title": "The work of a call is bounded by the size of the image", "statement": "For every image, also a damaged or malicious one, a call for a record, an identifier or an object visits a bounded number of nodes, and a listing of a directory gives at most as many entries as fit in the blocks of the container. Trees with cycles or with nodes that are reached more than once do not keep a call from finishing.", "quantifier": "all images (as functions from blocks to bytes), all identifiers and transaction identifiers, all states and replacement policies of the cache of nodes; for listings all file system trees whose leaves are in different blocks", "why_tests_cant": "A test can use a few damaged images, but the time of a call as a function of every possible tree, including trees built to be slow, cannot be covered by running some of them; a call that does not return cannot even be observed to not return.", "anchors": ["libfsapfs/libfsapfs_file_system_btree.c:libfsapfs_file_system_btree_get_entry_by_identifier", "libfsapfs/libfsapfs_file_system_btree.c:libfsapfs_file_system_btree_get_directory_entries", "libfsapfs/libfsapfs_object_map_btree.c:libfsapfs_object_map_btree_get_entry_by_identifier", "libfsapfs/libfsapfs_definitions.h:LIBFSAPFS_MAXIMUM_BTREE_NODE_RECURSION_DEPTH"]}
{"id": "C61", "title": "A handle can be used as long as what it was obtained from lives", "statement": "If a program frees and closes a handle only after the handles that were obtained from it (volumes from a container, snapshots and file entries from a volume, extended attributes from a file entry), no function accesses freed memory, and after all handles are freed no memory is left apart from the file IO handles of the program. In Python, where objects keep what they were obtained from, no program accesses freed memory.", "quantifier": "all histories of calls by a C program, with any number of handles and names, containers opened by path or with a file IO handle of the program, encrypted or not, and any calls failing; all programs in Python, with any number of variables, sequence objects and items, and any order of dropping them", "why_tests_cant": "Use of freed memory often has no visible effect in a test, and the number of orders in which handles can be obtained, used, closed and freed is unbounded.", "anchors": ["libfsapfs/libfsapfs_container.c:libfsapfs_container_close", "libfsapfs/libfsapfs_container.c:libfsapfs_container_free", "libfsapfs/libfsapfs_volume.c:libfsapfs_volume_initialize", "libfsapfs/libfsapfs_file_entry.c:libfsapfs_file_entry_initialize", "libfsapfs/libfsapfs_extended_attribute.c:libfsapfs_extended_attribute_initialize", "libfsapfs/libfsapfs_snapshot.c:libfsapfs_snapshot_initialize", "pyfsapfs/pyfsapfs_container.c:pyfsapfs_container_close", "pyfsapfs/pyfsapfs_volume.c:pyfsapfs_volume_free", "pyfsapfs/pyfsapfs_file_entries.c:pyfsapfs_file_entries_getitem"]}
{"id": "C62", "title": "A time in Python is the time that is stored", "statement": "The properties of a file entry in Python that are times (creation, modification, inode change, access and added time) are the date of the Gregorian calendar and the time of that day, in microseconds, that the stored number of nanoseconds since 1 January 1970 denotes.", "quantifier": "all values of a signed 64-bit number of nanoseconds", "why_tests_cant": "Errors in the conversion of days to dates concern single days or years in a range of 584 years, and a loop whose number of rounds depends on the value.", "anchors": ["pyfsapfs/pyfsapfs_datetime.c:pyfsapfs_datetime_new_from_time_elements", "pyfsapfs/pyfsapfs_datetime.c:pyfsapfs_datetime_new_from_posix_time_in_micro_seconds", "pyfsapfs/pyfsapfs_file_entry.c:pyfsapfs_file_entry_get_creation_time", "pyfsapfs/pyfsapfs_file_entry.c:pyfsapfs_file_entry_get_added_time"]}
{"id": "C63", "title": "A file object of Python is read as the image that it is", "statement": "Opening a container from a file object of Python gives what the bytes of the file object give: every read gets the bytes at its offset or fails. Whatever the methods of the file object return or raise, no memory outside of buffers is accessed, and a method that raises makes the call fail.", "quantifier": "all file objects, with any methods that keep any state and return or raise anything; all computations that read at offsets, where each read can depend on earlier ones; all positions of the file object before", "why_tests_cant": "The behaviour of a file object is arbitrary code of the user and every read of the library goes through it.", "anchors": ["pyfsapfs/pyfsapfs_file_object_io_handle.c:pyfsapfs_file_object_read_buffer", "pyfsapfs/pyfsapfs_file_object_io_handle.c:pyfsapfs_file_object_io_handle_seek_offset", "pyfsapfs/pyfsapfs_file_object_io_handle.c:pyfsapfs_file_object_io_handle_get_size", "pyfsapfs/pyfsapfs_integer.c:pyfsapfs_integer_signed_copy_to_64bit"]}
{"id": "C64", "title": "Reading a file in Python gives its bytes", "statement": "For a file that is opened in Python, any sequence of reads, reads at offsets and seeks, with any arguments, returns the bytes of the contents of the file at the position that the calls before lead to; without a size, read returns the rest of the file. Arguments that are refused raise an exception and do not change the position.", "quantifier": "all files with readable contents, stored plainly or compressed; all sequences of calls with any integers, None, no argument or objects of other types", "why_tests_cant": "Sequences of calls and integers of any size cannot be enumerated; the position after each call depends on all calls before.", "anchors": ["pyfsapfs/pyfsapfs_file_entry.c:pyfsapfs_file_entry_read_buffer", "pyfsapfs/pyfsapfs_file_entry.c:pyfsapfs_file_entry_read_buffer_at_offset", "pyfsapfs/pyfsapfs_file_entry.c:pyfsapfs_file_entry_seek_offset"]}
{"id": "C65", "title": "A sequence in Python gives each item to each loop", "statement": "The sequences of volumes, file entries and extended attributes behave as sequences of Python: len gives the number of items, an index from either end gives the item, and every loop over a sequence gets each item once and in order, also if other uses are in between and if getting an item fails in between. The sub file entries of a directory are its entries with their inodes.", "quantifier": "all directories, all sequences of uses of the object (len, indices, iterators and their next), all patterns of failures", "why_tests_cant": "The order of uses and failures is arbitrary, and the state of the object that they share must never show.", "anchors": ["pyfsapfs/pyfsapfs_file_entries.c:pyfsapfs_file_entries_getitem", "pyfsapfs/pyfsapfs_file_entries.c:pyfsapfs_file_entries_iternext", "pyfsapfs/pyfsapfs_file_entries.c:pyfsapfs_file_entries_iter", "pyfsapfs/pyfsapfs_file_entry.c:pyfsapfs_file_entry_get_sub_file_entries"]}
{"id": "C66", "title": "A Python program sees the files of the volume", "statement": "Whatever a program asks of a volume in Python and in whatever order - the root directory, files by path, by identifier or by a path from a directory, and of each object its numbers, times, name, size, symbolic link target and whether it has an extended attribute - it gets what the volume holds: a file that is there is found, None is returned if it is not there, and objects obtained before keep their answers.", "quantifier": "all volumes, all programs (sequences of requests with any strings, integers and objects)", "why_tests_cant": "Programs are of any length, the volume is arbitrary, and answers depend on caches filled by earlier requests.", "anchors": ["pyfsapfs/pyfsapfs_volume.c:pyfsapfs_volume_get_file_entry_by_identifier", "pyfsapfs/pyfsapfs_volume.c:pyfsapfs_volume_get_file_entry_by_path", "pyfsapfs/pyfsapfs_volume.c:pyfsapfs_volume_get_root_directory", "pyfsapfs/pyfsapfs_file_entry.c:pyfsapfs_file_entry_get_name", "pyfsapfs/pyfsapfs_file_entry.c:pyfsapfs_file_entry_get_sub_file_entry_by_name", "libfsapfs/libfsapfs_volume.c:libfsapfs_volume_get_file_entry_by_utf8_path"]}
{"id": "C67", "title": "Extents tell where the bytes of a file are", "statement": "For a file that is neither compressed nor encrypted, the number of extents and the extents by index describe one list of places in the container, whatever calls are made and whichever of them fail to read; the bytes at these places, in order and cut to the size of the file, are the bytes that reading the file gives. Indices out of range are refused. The same holds for extended attributes whose values are in data streams; values in the record have no extents.", "quantifier": "all volumes, files and extended attributes, all sequences of calls and patterns of failures", "why_tests_cant": "The layout of extents is arbitrary, and the array of extents is read once by whichever call comes first and shared by later ones, also after failures.", "anchors": ["libfsapfs/libfsapfs_file_entry.c:libfsapfs_file_entry_get_number_of_extents", "libfsapfs/libfsapfs_file_entry.c:libfsapfs_file_entry_get_extent_by_index", "libfsapfs/libfsapfs_extended_attribute.c:libfsapfs_extended_attribute_get_number_of_extents", "libfsapfs/libfsapfs_extended_attribute.c:libfsapfs_extended_attribute_get_extent_by_index", "libfsapfs/libfsapfs_attribute_values.c:libfsapfs_attribute_values_get_extent_by_index"]}
{"id": "C68", "title": "The MD5 that a bodyfile shows is that of the contents", "statement": "With the option to calculate MD5 hashes, the first column of the line of a regular file is the MD5 of the contents of the file as 32 hexadecimal digits in lower case, also for sparse, compressed and encrypted files and whatever has been read of the file before; it is never the MD5 of a part of the contents. Without the option, and for other files, the column has zeros.", "quantifier": "all volumes and files, all sizes of contents, all digests and buffers", "why_tests_cant": "The size of the contents is arbitrary and is read in pieces of 4096 bytes; the text depends on all 128 bits.", "anchors": ["fsapfstools/digest_hash.c:digest_hash_copy_to_string", "fsapfstools/info_handle.c:info_handle_file_entry_calculate_md5", "fsapfstools/info_handle.c:info_handle_file_entry_value_with_name_fprint"]}
{"id": "C69", "title": "A bodyfile has one faithful line for each file of a volume", "statement": "fsapfsinfo writes one line for the root directory and for each path below it, in the order of the directories, and nothing else. From each line the path, the target of a symbolic link, the identifier, the mode, owner, group, size, the times and the MD5 of the contents of the file at that path can be read. If a line cannot be written the program reports an error; it never leaves out a file silently.", "quantifier": "all volumes and directory trees, all names, all files; all damaged volumes for the last part", "why_tests_cant": "The number, the order and the names of files are arbitrary; a file that is left out or whose columns are mixed up shows only with a volume that has it.", "anchors": ["fsapfstools/info_handle.c:info_handle_file_system_hierarchy_fprint", "fsapfstools/info_handle.c:info_handle_file_system_hierarchy_fprint_file_entry", "fsapfstools/info_handle.c:info_handle_file_entry_value_with_name_fprint"]}
{"id": "C70", "title": "fsapfsmount mounts the volume that its options name, or none", "statement": "With the option -f and a number, fsapfsmount mounts the volume with that number or reports an error; without it, it mounts the only volume of a container or reports an error. With -o the container is read from the byte with that number on. An argument that is not such a number is an error. An encrypted volume is mounted only with a correct password, and with a correct password it is mounted and programs see its files.", "quantifier": "all arguments of the options, all files, all containers and volumes, all passwords", "why_tests_cant": "There are more arguments, offsets and containers than can be tried; wrong numbers show only for particular digits, and a volume that must stay locked only with a particular damage.", "anchors": ["fsapfstools/fsapfsmount.c:main", "fsapfstools/mount_handle.c:mount_handle_system_string_copy_from_64_bit_in_decimal", "fsapfstools/mount_handle.c:mount_handle_set_file_system_index", "fsapfstools/mount_handle.c:mount_handle_set_offset", "fsapfstools/mount_handle.c:mount_handle_open", "fsapfstools/mount_handle.c:mount_handle_get_volume_by_index", "fsapfstools/info_handle.c:info_handle_get_volume_by_index"]}
{"id": "C71", "title": "fsapfsinfo shows the values of the file that is asked for, and with all each file once", "statement": "With -E and an identifier, fsapfsinfo prints lines from which identifier, name, size, times, number of links, owner, group, mode, target of a symbolic link and names of extended attributes of the file with that identifier can be read; with -F and a path those of the file that the path leads to, with the path; with -E all those of each file of the volume, once and in the order of identifiers. An identifier or path of no file is an error. No file is left out without an error.", "quantifier": "all containers, volumes and files in them, all identifiers and paths, all options and passwords", "why_tests_cant": "There are more files and values than can be tried; exchanged times, names that look like other lines and identifiers that wrap show only for particular values.", "anchors": ["fsapfstools/fsapfsinfo.c:main", "fsapfstools/info_handle.c:info_handle_file_entry_value_fprint", "fsapfstools/info_handle.c:info_handle_file_entry_fprint_by_identifier", "fsapfstools/info_handle.c:info_handle_file_entry_fprint_by_path", "fsapfstools/info_handle.c:info_handle_file_entries_fprint", "fsapfstools/info_handle.c:info_handle_posix_time_in_nano_seconds_value_fprint"]}
{"id": "C72", "title": "Without options for files, fsapfsinfo shows what the container and its volumes store", "statement": "fsapfsinfo prints lines from which the identifier of the container, the number of its volumes, and for each volume its identifier, name, flags of features, whether it is locked and the names of all its snapshots can be read, in one way only; they are the values that the newest superblocks store. A volume is shown as not locked exactly if it is not encrypted or one of the passwords given is correct. With the option -f only the volume with that number is shown.", "quantifier": "all containers and volumes in them, all names and features, all options and passwords", "why_tests_cant": "The stored names, flags and numbers of volumes and snapshots are unlimited; names that look like other lines, and volumes behind one that cannot be read, show only in particular containers.", "anchors": ["fsapfstools/fsapfsinfo.c:main", "fsapfstools/info_handle.c:info_handle_container_fprint", "fsapfstools/info_handle.c:info_handle_volume_fprint", "fsapfstools/info_handle.c:info_handle_get_volume_by_index", "fsapfstools/info_handle.c:info_handle_volume_compatible_features_flags_fprint", "fsapfstools/info_handle.c:info_handle_volume_incompatible_features_flags_fprint", "libfsapfs/libfsapfs_volume.c:libfsapfs_volume_get_snapshot_by_index"]}
{"id": "C73", "title": "A volume mounted on Windows shows every file with its attributes and contents", "statement": "Programs that use a volume mounted with fsapfsmount on Windows (Dokan) see its files: names are shown without characters that Windows does not allow, and in such a way that the stored names are seen from them; every path leads to the file that has it, or to none; sizes, times, whether a file is a directory, contents and lists of directories are those of the volume, whatever is asked and in whatever order. Files are not opened for writing. Nothing is written or read out of bounds.", "quantifier": "all volumes, names of any length and characters, all histories of requests, all versions of Dokan that are supported", "why_tests_cant": "Depends on every file of every volume and on every history of requests; nearly all names are short and without special characters, and times before 1970, devices and sockets are rare.", "anchors": ["fsapfstools/mount_dokan.c:mount_dokan_filldir", "fsapfstools/mount_dokan.c:mount_dokan_CreateFile", "fsapfstools/mount_dokan.c:mount_dokan_ReadFile", "fsapfstools/mount_dokan.c:mount_dokan_FindFiles", "fsapfstools/mount_dokan.c:mount_dokan_GetFileInformation", "fsapfstools/mount_dokan.c:mount_dokan_GetVolumeInformation", "fsapfstools/mount_path_string.c:mount_path_string_copy_from_file_entry_path", "fsapfstools/mount_path_string.c:mount_path_string_copy_to_file_entry_path", "fsapfstools/mount_handle.c:mount_handle_get_file_entry_by_path", "fsapfstools/mount_file_entry.c:mount_file_entry_get_creation_time"]}
{"id": "C74", "title": "A call that fails, at whatever point, has released what it allocated, and nothing is freed twice", "statement": "Whatever fails in a call of the library (an allocation, a lock, a read, a check of what was read), and at whatever point: memory that was allocated in the call is released, or is kept by the object that is returned or by the structure that the call was given; nothing is freed twice, nothing is freed that belongs to another structure, nothing is used after it was freed, and no pointer to freed memory is left where the caller can find it. A successful call that creates an object has put it in the place for it. Freeing an object frees what it owns.", "quantifier": "all functions of the library that handle memory, all executions of each of them: every combination of failures, every number of turns of a loop, builds with and without threads", "why_tests_cant": "Tests make an allocation fail at one point of one call, if at all; most of the thousands of error paths are never run, and a leak is not seen by a test that only looks at results.", "anchors": ["libfsapfs/libfsapfs_file_entry.c:libfsapfs_internal_file_entry_get_data_stream", "libfsapfs/libfsapfs_file_system_btree.c:libfsapfs_file_system_btree_get_inode_by_utf8_path", "libfsapfs/libfsapfs_snapshot.c:libfsapfs_snapshot_free", "libfsapfs/libfsapfs_container.c:libfsapfs_container_open", "libfsapfs/libfsapfs_container.c:libfsapfs_internal_container_open_read", "libfsapfs/libfsapfs_volume.c:libfsapfs_internal_volume_open_read", "libfsapfs/libfsapfs_object_map_btree.c:libfsapfs_object_map_btree_initialize", "common/memory.h:memory_free"]}
{"id": "C75", "title": "fsapfsinfo and fsapfsmount release what they allocate, whatever fails", "statement": "Whatever fails in fsapfsinfo or in a callback of fsapfsmount, and at whatever point, what was allocated for it is released: objects of the library, strings and the errors that are reported. What opening a file or directory of a mounted volume allocates is released when it is closed, or at once if opening fails. Nothing is freed twice or used after it was freed. So a program that runs for as long as a volume is mounted does not need more and more memory.", "quantifier": "all functions of fsapfstools that handle memory, all executions of each: every combination of failures, every number of turns of a loop, with FUSE and with Dokan", "why_tests_cant": "A leak in a callback is seen only after many requests, and the paths after a failure are hardly ever run; that an error object is freed on each of them cannot be seen from results.", "anchors": ["fsapfstools/mount_fuse.c:mount_fuse_getxattr", "fsapfstools/mount_fuse.c:mount_fuse_releasedir", "fsapfstools/mount_handle.c:mount_handle_open", "fsapfstools/mount_handle.c:mount_handle_close", "fsapfstools/info_handle.c:info_handle_volume_fprint", "fsapfstools/mount_file_entry.c:mount_file_entry_initialize", "fsapfstools/mount_dokan.c:mount_dokan_FindFiles", "fsapfstools/fsapfsmount.c:main"]}
{"id": "C76", "title": "pyfsapfs counts references, raises exceptions and holds the lock as Python expects, whatever fails", "statement": "Whatever fails in a method of the Python module, and at whatever point, each reference and each handle that it got is released exactly once or belongs to the object that is returned, and what an object held before a failed call it still holds. A call that fails has set an exception, and one that succeeds has not. Python is used only while the lock of the interpreter is held, and the lock is as before at the return. So a program in Python neither loses memory nor crashes because of an error that it handles.", "quantifier": "all functions of pyfsapfs, all executions of each: every combination of failures of Python, of the library and of memory, in the builds for Python 3, Python 2 and Windows", "why_tests_cant": "A lost reference or an exception that is left set shows much later or never; a path after a failure of memory or of a file object is hardly ever run, and whether the lock is held there cannot be seen from results.", "anchors": ["pyfsapfs/pyfsapfs_error.c:pyfsapfs_error_fetch", "pyfsapfs/pyfsapfs_error.c:pyfsapfs_error_raise", "pyfsapfs/pyfsapfs_container.c:pyfsapfs_container_open_file_object", "pyfsapfs/pyfsapfs_container.c:pyfsapfs_container_init", "pyfsapfs/pyfsapfs_file_entry.c:pyfsapfs_file_entry_new", "pyfsapfs/pyfsapfs_file_entry.c:pyfsapfs_file_entry_read_buffer", "pyfsapfs/pyfsapfs_file_entry.c:pyfsapfs_file_entry_get_device_number", "pyfsapfs/pyfsapfs_file_object_io_handle.c:pyfsapfs_file_object_io_handle_read", "pyfsapfs/pyfsapfs_volume.c:pyfsapfs_volume_get_file_entry_by_path"]}
{"id": "C77", "title": "Threads that share a handle do not disturb each other", "statement": "Several threads can make calls for one handle at the same time: no call reads what another is changing of the handle, and what a call reads of it does not change until the call has made its last access, so that each call has the effect it has when it is made alone.", "quantifier": "all calls of the API for a handle (but creating and freeing it), any number of threads, each with any sequence of calls, all interleavings of their accesses, all failures of grabbing the lock", "why_tests_cant": "A race shows in a few of very many interleavings; a test runs some of them and cannot choose which.", "anchors": ["libfsapfs/libfsapfs_container.c:libfsapfs_container_open", "libfsapfs/libfsapfs_container.c:libfsapfs_container_get_size", "libfsapfs/libfsapfs_container.c:libfsapfs_container_get_volume_by_index", "libfsapfs/libfsapfs_volume.c:libfsapfs_volume_set_utf8_password", "libfsapfs/libfsapfs_volume.c:libfsapfs_volume_unlock", "libfsapfs/libfsapfs_file_entry.c:libfsapfs_file_entry_read_buffer", "libfsapfs/libfsapfs_file_entry.c:libfsapfs_file_entry_get_size", "libfsapfs/libfsapfs_extended_attribute.c:libfsapfs_extended_attribute_read_buffer", "libfsapfs/libfsapfs_snapshot.c:libfsapfs_snapshot_get_utf8_name"]}
{"id": "C78", "title": "The tools do what their command line says", "statement": "Where the system has no getopt, the tools take from every command line the options, their arguments and the operands that POSIX says, read no string behind its end, and report an option that is not known or has no argument; fsapfsinfo uses the last argument of an option that is given more than once and stops at the first -h or -V. Making the string of options never leaves its buffer. Help texts are printed completely, broken between words, and in lines of 80 characters.", "quantifier": "every table of options, every command line, every size of the buffer of the string of options, every text and width", "why_tests_cant": "the meaning of a command line depends on how options are grouped, on whether their arguments are attached, and on what came before: no list of command lines covers all of them, and reads behind the end of a string are not seen", "anchors": ["fsapfstools/fsapfstools_getopt.c:fsapfstools_getopt", "fsapfstools/fsapfstools_getopt.c:fsapfstools_getopt_get_options_string", "fsapfstools/fsapfstools_getopt.c:fsapfstools_getopt_wrapped_fprint", "fsapfstools/fsapfsinfo.c:main", "fsapfstools/fsapfsmount.c:main"]}
{"id": "C79", "title": "A file is found by its UTF-16 path exactly if it is found by its UTF-8 path", "statement": "Looking up a name or a path given as UTF-8 and given as UTF-16 has the same outcome for the same characters: the same file, no file, or an error.", "quantifier": "every volume, also a damaged one, every directory to start from, every string of Unicode characters", "why_tests_cant": "the calls exist twice, and whether they agree depends on the string, on how many bytes and units its characters have and on every node of the tree that is visited, also for damaged trees: tests compare a few names on sound volumes", "anchors": ["libfsapfs/libfsapfs_file_system_btree.c:libfsapfs_file_system_btree_get_inode_by_utf8_path", "libfsapfs/libfsapfs_file_system_btree.c:libfsapfs_file_system_btree_get_inode_by_utf16_path", "libfsapfs/libfsapfs_volume.c:libfsapfs_volume_get_file_entry_by_utf8_path", "libfsapfs/libfsapfs_volume.c:libfsapfs_volume_get_file_entry_by_utf16_path", "libfsapfs/libfsapfs_name.c:libfsapfs_name_compare_with_utf16_string", "libfsapfs/libfsapfs_name_hash.c:libfsapfs_name_hash_calculate_from_utf16_string"]}
{"id": "C80", "title": "Diagnostic output does not change results", "statement": "Whether the library is built with diagnostic output, and whether verbose output is on, does not change which containers and volumes are opened, what they contain, which keys and compressed files are read, and no memory outside of a buffer is read in order to be printed.", "quantifier": "every image, every packed key and the memory around it, every resource fork, all three modes: without diagnostic output, with it, verbose", "why_tests_cant": "what is printed is read only in the mode that prints it; tests run in one mode and on sound images, for which all modes agree", "anchors": ["libfsapfs/libfsapfs_container.c:libfsapfs_internal_container_open_read", "libfsapfs/libfsapfs_volume.c:libfsapfs_internal_volume_open_read", "libfsapfs/libfsapfs_key_encrypted_key.c:libfsapfs_key_encrypted_key_read_data", "libfsapfs/libfsapfs_compressed_data_handle.c:libfsapfs_compressed_data_handle_get_compressed_block_offsets", "libfsapfs/libfsapfs_space_manager.c:libfsapfs_space_manager_read_data", "libfsapfs/libfsapfs_container_reaper.c:libfsapfs_container_reaper_read_data", "libfsapfs/libfsapfs_fusion_middle_tree.c:libfsapfs_fusion_middle_tree_read_data", "libfsapfs/libfsapfs_extent_reference_tree.c:libfsapfs_extent_reference_tree_read_data", "libfsapfs/libfsapfs_notify.c:libfsapfs_notify_set_verbose"]}
{"id": "C81", "title": "Reading a hostile image does not leave the memory of the library", "statement": "Whatever the bytes of an image are, a program that opens the container, gets a volume, sets passwords and unlocks it in any order, finds a file entry by identifier or path, calls functions of the file entry in any order, some of which fail, and seeks and reads never makes the library read or write outside of an object or compute a signed number that overflows.", "quantifier": "every image, every sequence of calls on a volume, every path or identifier, every sequence of calls on a file entry and of seeks and reads, every choice of the calls that run out of memory or of storage", "why_tests_cant": "each part is safe only if the parts before it gave it what it relies on; tests run sessions with sound images, fuzzers reach few of the checked structures because of checksums and keys", "anchors": ["libfsapfs/libfsapfs_container.c:libfsapfs_container_open", "libfsapfs/libfsapfs_container.c:libfsapfs_container_get_volume_by_index", "libfsapfs/libfsapfs_volume.c:libfsapfs_volume_unlock", "libfsapfs/libfsapfs_volume.c:libfsapfs_volume_get_file_entry_by_identifier", "libfsapfs/libfsapfs_volume.c:libfsapfs_volume_get_file_entry_by_utf8_path", "libfsapfs/libfsapfs_file_entry.c:libfsapfs_file_entry_get_size", "libfsapfs/libfsapfs_file_entry.c:libfsapfs_file_entry_read_buffer", "libfsapfs/libfsapfs_file_entry.c:libfsapfs_file_entry_seek_offset", "libfsapfs/libfsapfs_data_block.c:libfsapfs_data_block_read", "libfsapfs/libfsapfs_key_encrypted_key.c:libfsapfs_key_encrypted_key_read_data", "libfsapfs/libfsapfs_compressed_data_handle.c:libfsapfs_compressed_data_handle_get_compressed_block_offsets"]}
{"id": "C82", "title": "Extended attributes give the values that are stored", "statement": "An extended attribute that is got by index or name gives the bytes that are stored as its value, whether these are in the record or in a data stream: any number of handles to it may be got, read, read at offsets, moved and freed in any order. Each handle has a position of its own, an index gives the attribute at that place, positions before the start are refused, and a call that failed because of storage or memory can be made again.", "quantifier": "every file of a file system tree of any shape, every extended attribute, every history of handles, reads and seeks, and every choice of the calls during which storage or memory fails", "why_tests_cant": "handles share the extents of the value, which are read on first use; what a handle returns depends on what was done with the others and on what failed before", "anchors": ["libfsapfs/libfsapfs_file_entry.c:libfsapfs_file_entry_get_extended_attribute_by_index", "libfsapfs/libfsapfs_file_entry.c:libfsapfs_file_entry_get_extended_attribute_by_utf8_name", "libfsapfs/libfsapfs_extended_attribute.c:libfsapfs_extended_attribute_read_buffer", "libfsapfs/libfsapfs_extended_attribute.c:libfsapfs_extended_attribute_read_buffer_at_offset", "libfsapfs/libfsapfs_extended_attribute.c:libfsapfs_extended_attribute_seek_offset", "libfsapfs/libfsapfs_extended_attribute.c:libfsapfs_extended_attribute_get_offset", "libfsapfs/libfsapfs_extended_attribute.c:libfsapfs_extended_attribute_get_size", "libfsapfs/libfsapfs_attributes.c:libfsapfs_attributes_get_data_stream", "libfsapfs/libfsapfs_attributes.c:libfsapfs_attributes_get_file_extents"]}
{"id": "C83", "title": "Going through a hostile volume with any number of handles stays in memory", "statement": "Whatever an image contains, a program that opens it, unlocks a volume and then gets file entries, their parents, their sub file entries and their extended attributes, by index, name, path or identifier, and uses all of these handles in any order (sizes, link targets, numbers of entries, attributes and extents, extents, seeking and reading of files and of attributes), with calls failing for lack of memory or storage, makes the library read or write nothing outside of its objects and overflow no signed number.", "quantifier": "every image, every external library that stays in its buffers, every list of calls on any number of handles, and every choice of what fails during each of them", "why_tests_cant": "an image is any bytes, and what a call finds in a handle depends on all calls before it, on this and other handles, and on which of them failed", "anchors": ["libfsapfs/libfsapfs_volume.c:libfsapfs_volume_get_file_entry_by_identifier", "libfsapfs/libfsapfs_volume.c:libfsapfs_volume_get_file_entry_by_utf8_path", "libfsapfs/libfsapfs_file_entry.c:libfsapfs_file_entry_get_parent_file_entry", "libfsapfs/libfsapfs_file_entry.c:libfsapfs_file_entry_get_sub_file_entry_by_index", "libfsapfs/libfsapfs_file_entry.c:libfsapfs_file_entry_get_sub_file_entry_by_utf8_name", "libfsapfs/libfsapfs_file_entry.c:libfsapfs_file_entry_get_extended_attribute_by_index", "libfsapfs/libfsapfs_file_entry.c:libfsapfs_file_entry_get_extended_attribute_by_utf8_name", "libfsapfs/libfsapfs_file_entry.c:libfsapfs_file_entry_read_buffer", "libfsapfs/libfsapfs_file_entry.c:libfsapfs_file_entry_get_extent_by_index", "libfsapfs/libfsapfs_extended_attribute.c:libfsapfs_extended_attribute_read_buffer", "libfsapfs/libfsapfs_extended_attribute.c:libfsapfs_extended_attribute_get_extent_by_index"]}
{"id": "C84", "title": "What is told through a handle does not depend on earlier calls or failures", "statement": "A handle to a file entry or an extended attribute stands for the same stored file or attribute from the call that gave it on. Whatever calls were made before through this or other handles, and whichever of them failed for lack of memory or storage, a file entry found by identifier, path, name, index or as parent is the one stored there, the number of sub file entries and the extents are those stored, and an attribute is the one at the index or the first that has the name. A failure makes only the call during which it happens fail.", "quantifier": "every image, every external library that stays in its buffers, every list of calls on any number of handles, and every choice of what fails during each of them", "why_tests_cant": "handles keep lists, extents and attributes after the first call that needs them, so that an answer could be wrong only after a certain history of calls and failures", "anchors": ["libfsapfs/libfsapfs_file_entry.c:libfsapfs_internal_file_entry_get_directory_entries", "libfsapfs/libfsapfs_file_entry.c:libfsapfs_internal_file_entry_get_file_extents", "libfsapfs/libfsapfs_file_entry.c:libfsapfs_internal_file_entry_get_extended_attributes", "libfsapfs/libfsapfs_file_entry.c:libfsapfs_file_entry_get_sub_file_entry_by_index", "libfsapfs/libfsapfs_file_entry.c:libfsapfs_file_entry_get_parent_file_entry", "libfsapfs/libfsapfs_file_entry.c:libfsapfs_file_entry_get_extended_attribute_by_index", "libfsapfs/libfsapfs_extended_attribute.c:libfsapfs_extended_attribute_get_extent_by_index"]}
{"id": "C85", "title": "Names lead back to what has them, in UTF-8 and UTF-16", "statement": "A sub file entry tells the name of its directory entry, in UTF-8 and in UTF-16, into a buffer of the size that is told and into none that is smaller. When that name is used to look up a sub file entry of the same directory, it gives the same file. An extended attribute that is got by index tells the name that is stored, and looking it up by that name gives that attribute, with the same result in both encodings.", "quantifier": "every volume, directory and file with well-formed names, every index, every history of calls before, both encodings", "why_tests_cant": "which names are found depends on the name, on the order of records and on the encoding of the string, so that samples of names cannot show that all lead back", "anchors": ["libfsapfs/libfsapfs_file_entry.c:libfsapfs_file_entry_get_utf8_name_size", "libfsapfs/libfsapfs_file_entry.c:libfsapfs_file_entry_get_utf8_name", "libfsapfs/libfsapfs_file_entry.c:libfsapfs_file_entry_get_utf16_name_size", "libfsapfs/libfsapfs_file_entry.c:libfsapfs_file_entry_get_utf16_name", "libfsapfs/libfsapfs_file_entry.c:libfsapfs_file_entry_get_sub_file_entry_by_utf8_name", "libfsapfs/libfsapfs_file_entry.c:libfsapfs_file_entry_get_sub_file_entry_by_utf16_name", "libfsapfs/libfsapfs_file_entry.c:libfsapfs_file_entry_has_extended_attribute_by_utf8_name", "libfsapfs/libfsapfs_file_entry.c:libfsapfs_file_entry_get_extended_attribute_by_utf8_name", "libfsapfs/libfsapfs_file_entry.c:libfsapfs_file_entry_get_extended_attribute_by_utf16_name", "libfsapfs/libfsapfs_attribute_values.c:libfsapfs_attribute_values_get_utf8_name"]}
{"id": "C86", "title": "Passwords and keys are erased", "statement": "Before memory that held a password of a volume or a key computed for unlocking is given back, it is overwritten with zeros: when a password is replaced, when setting one fails, when the volume is freed, and when an attempt to unlock succeeds, finds no key or fails anywhere. No block with a password is lost.", "quantifier": "every history of setting passwords and freeing, every key bag, every password, every point of failure, every prior content of memory", "why_tests_cant": "a test sees what calls return and not what they leave in memory; whether a buffer is cleared differs between the paths that leave a function, of which those of errors need failures of memory, conversion or decryption at each point", "anchors": ["libfsapfs/libfsapfs_volume.c:libfsapfs_volume_set_utf8_password", "libfsapfs/libfsapfs_volume.c:libfsapfs_volume_set_utf16_password", "libfsapfs/libfsapfs_volume.c:libfsapfs_volume_set_utf8_recovery_password", "libfsapfs/libfsapfs_volume.c:libfsapfs_volume_set_utf16_recovery_password", "libfsapfs/libfsapfs_volume.c:libfsapfs_internal_volume_close", "libfsapfs/libfsapfs_volume.c:libfsapfs_internal_volume_unlock", "libfsapfs/libfsapfs_key_encrypted_key.c:libfsapfs_key_encrypted_key_unlock_with_password", "libfsapfs/libfsapfs_key_encrypted_key.c:libfsapfs_key_encrypted_key_unlock_with_key", "libfsapfs/libfsapfs_volume_key_bag.c:libfsapfs_volume_key_bag_get_volume_key", "libfsapfs/libfsapfs_container_key_bag.c:libfsapfs_container_key_bag_get_volume_master_key_by_identifier", "libfsapfs/libfsapfs_encryption_context.c:libfsapfs_encryption_aes_key_unwrap", "libfsapfs/libfsapfs_password.c:libfsapfs_password_pbkdf2"]}
{"id": "C87", "title": "Asking to abort ends the current activity", "statement": "A thread can ask a container to abort what it is doing while other threads use it. The call returns without waiting, even if another thread holds the lock, it changes nothing of what other calls return later, and the activity that is going on ends early.", "quantifier": "every point of every execution of any number of threads that make any calls for a container, and every way in which calls depend on what they read", "why_tests_cant": "a test asks at some moments of some calls; that no call waits, is disturbed or heeds the request is about all moments of all calls", "anchors": ["libfsapfs/libfsapfs_container.c:libfsapfs_container_signal_abort", "libfsapfs/libfsapfs_container.c:libfsapfs_container_close", "libfsapfs/libfsapfs_io_handle.c:libfsapfs_io_handle_clear", "pyfsapfs/pyfsapfs_container.c:pyfsapfs_container_signal_abort"]}
{"id": "C88", "title": "Reading an extended attribute in Python gives its value", "statement": "Objects for an extended attribute read the bytes of its value: read without a size gives the rest, read with a size or at an offset gives as many as there are, seeking goes to the offset from the start, the position or the end, and the offset and size are told. Each object has a position of its own. Arguments that are out of range raise an exception and change nothing, and a call that failed can be made again.", "quantifier": "every value, number of objects and sequence of calls with any arguments, and every way in which memory and storage fail meanwhile", "why_tests_cant": "tests read a few attributes with a few sizes; arguments are any integers and the position depends on all earlier calls and failures", "anchors": ["pyfsapfs/pyfsapfs_extended_attribute.c:pyfsapfs_extended_attribute_read_buffer", "pyfsapfs/pyfsapfs_extended_attribute.c:pyfsapfs_extended_attribute_read_buffer_at_offset", "pyfsapfs/pyfsapfs_extended_attribute.c:pyfsapfs_extended_attribute_seek_offset", "pyfsapfs/pyfsapfs_extended_attribute.c:pyfsapfs_extended_attribute_get_offset", "pyfsapfs/pyfsapfs_extended_attribute.c:pyfsapfs_extended_attribute_get_size", "libfsapfs/libfsapfs_extended_attribute.c:libfsapfs_extended_attribute_read_buffer", "libfsapfs/libfsapfs_extended_attribute.c:libfsapfs_extended_attribute_seek_offset"]}
{"id": "C89", "title": "An open file has one position, which is set from the start, the position or the end", "statement": "Reading from a file entry continues where the call before ended. Seeking sets the position from the start, the position or the end of the contents and returns it; positions before the start and other values of whence are refused and leave it. Reading at an offset leaves the position behind what was read. The offset and size that are told are the position and the length of the contents. The same holds for the methods in Python.", "quantifier": "every file, plain, encrypted or compressed, and every sequence of calls with any arguments, while the storage may fail in any of them", "why_tests_cant": "the answer of a call depends on all calls before; tests make a few calls on a few files", "anchors": ["libfsapfs/libfsapfs_file_entry.c:libfsapfs_file_entry_read_buffer", "libfsapfs/libfsapfs_file_entry.c:libfsapfs_file_entry_read_buffer_at_offset", "libfsapfs/libfsapfs_file_entry.c:libfsapfs_file_entry_seek_offset", "libfsapfs/libfsapfs_file_entry.c:libfsapfs_file_entry_get_offset", "libfsapfs/libfsapfs_file_entry.c:libfsapfs_file_entry_get_size", "pyfsapfs/pyfsapfs_file_entry.c:pyfsapfs_file_entry_seek_offset", "pyfsapfs/pyfsapfs_file_entry.c:pyfsapfs_file_entry_get_offset"]}
{"id": "C90", "title": "A file that is read in pieces is complete, also if calls that fail are repeated", "statement": "A program that opens a file and reads it in pieces of any sizes, and goes on reading after errors, has the start of the contents: the bytes it was given, one after the other, are as many as it asked for in the calls that did not fail, or all. A call fails only if the storage fails. If a call that asks for something gives nothing, the program has all of the contents. The same holds for the method in Python.", "quantifier": "every file, plain, encrypted or compressed, every list of sizes below 2^63, and every failure of the storage in any of the calls", "why_tests_cant": "the pieces and the failures are arbitrary; tests read a few files with a few sizes and do not fail between", "anchors": ["libfsapfs/libfsapfs_file_entry.c:libfsapfs_file_entry_read_buffer", "libfsapfs/libfsapfs_compressed_data_handle.c:libfsapfs_compressed_data_handle_read_segment_data", "libfsapfs/libfsapfs_data_block_data_handle.c:libfsapfs_data_block_data_handle_read_segment_data"]}
{"id": "C91", "title": "Handles for an extended attribute do not disturb each other", "statement": "A program obtains a handle for an extended attribute and reads its value with it in pieces of any sizes. Whatever is done with other handles for the same attribute before and meanwhile (they may be obtained, read, moved and freed), and whichever calls fail, the bytes it was given with its handle are the start of the value, as many as it asked for in the calls that did not fail, or all. A call with the handle fails only if the storage or memory fail. If a call that asks for something gives nothing, the program has all of the value.", "quantifier": "every extended attribute with a value in its record or in a data stream, every interleaving of calls with any number of handles, every list of sizes below 2^63, and every failure of storage and memory in any of the calls", "why_tests_cant": "handles share the values and the extents of the attribute; interleavings and failures are arbitrary, and tests use one handle at a time", "anchors": ["libfsapfs/libfsapfs_extended_attribute.c:libfsapfs_extended_attribute_read_buffer", "libfsapfs/libfsapfs_extended_attribute.c:libfsapfs_extended_attribute_initialize", "libfsapfs/libfsapfs_extended_attribute.c:libfsapfs_extended_attribute_free", "libfsapfs/libfsapfs_attributes.c:libfsapfs_attributes_get_data_stream"]}
{"id": "C92", "title": "Reading at an offset does not depend on what was done before", "statement": "In any row of calls of an open file, and in Python, each call that reads at an offset gives the bytes of the content at this offset, as many as asked for or up to the end, or an error, and an error only if the storage fails during this very call: it does not matter what was read before, where the position is, what is cached, or which calls failed. With any handles of an extended attribute, each call that reads at an offset and does not fail gives the bytes of the value there; with a handle that was obtained and not freed it fails only if storage or memory do.", "quantifier": "every file, plain, encrypted or compressed, and every extended attribute with a value; every row of calls of any kind, every offset and size below 2^63 (size below 2^31 in Python), every failure of the storage in any of the calls", "why_tests_cant": "blocks are cached and streams keep positions, so that what a call gives could depend on every call before it; tests try a few rows", "anchors": ["libfsapfs/libfsapfs_file_entry.c:libfsapfs_file_entry_read_buffer_at_offset", "libfsapfs/libfsapfs_extended_attribute.c:libfsapfs_extended_attribute_read_buffer_at_offset", "pyfsapfs/pyfsapfs_file_entry.c:pyfsapfs_file_entry_read_buffer_at_offset", "libfsapfs/libfsapfs_compressed_data_handle.c:libfsapfs_compressed_data_handle_read_segment_data"]}
