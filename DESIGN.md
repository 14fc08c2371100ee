# Formal model of libfsapfs in Lean 4

## Layout

* `properties.jsonl` – the list of properties.
* `lean/Verif/Model/*.lean` – executable model, function by function. Every definition cites the C file and lines it models.
* `lean/Verif/Spec/*.lean` – small independent specifications (RFC 1951/1950/2898/3394, CRC, sorted-tree semantics ...).
  Nothing in `Spec` refers to `Model`, except for the byte-list helpers (`Bytes`, `leNat`, `toLE`) of `Model/Base.lean`.
* `lean/Verif/Lemmas/*.lean` – helper lemmas.
* `lean/Verif/Props/Cxx*.lean` – the property theorems, each with an `example` that shows its hypotheses are met.
* `MANIFEST.json` – which theorem settles which property. `seeded/LOG.jsonl` – mutation log.

## Modelling conventions

* Bytes are `UInt8` in `List`s/`Array`s (`Bytes`); sizes, offsets and counters are `Nat` unless the C code can
  wrap, in which case the wrap is written out (`% 2^16`, `% 2^32`, `% 2^64`) or `BitVec`/`UIntN` is used.
* The result of a C function is `Res α`: `ok a` (return value 1, or 0 where the model says so), `err` (return -1)
  and `ub` – undefined behaviour: an access outside of an allocated object. `ub` is never produced by a check, only by
  an access primitive whose index is out of range, so "no `ub`" is memory safety of the modelled accesses.
* `NULL` argument checks, memory allocation failure, `libcnotify` debug output and error object bookkeeping
  are dropped: they return -1 without touching state. Exceptions are stated at the definition. What happens to
  memory when an allocation or a call fails is the subject of C74, for all functions of the library.
* Loops are structural recursion, well-founded recursion or recursion over explicit fuel; where fuel is
  used the code's own bound is the fuel, or a theorem shows the fuel is never exhausted.
* External libraries (libbfio, libcdata, libfdata, libfcache, libuna, libcaes, libhmac, zlib, LZFSE/LZVN in libfmos,
  pthreads) are not in the repository. They appear as parameters of the model, with the assumed behaviour listed under
  "Trusted base".

## Plan per property

| id | modelled | how |
|---|---|---|
| C01 | checksum.c Fletcher-64 | fold with 64-bit wrap; equality to the mathematical sums; detection by arithmetic mod 2^32-1 |
| C02 | checksum.c CRC table + loop | table generator = bitwise CRC, whole table checked in kernel, lifted by induction |
| C03 | name_hash.c, name.h | CRC over folded, decomposed code points; congruence + bound |
| C04 | deflate.c adler32 | loop with 5552/16 blocks, 32-bit sums; equality to RFC 1950 |
| C05 | bit_stream.c | refinement to a bit list; negation for unaligned reads of more than 25 bits |
| C06 | huffman_tree.c | canonical code spec; decode (code s ++ rest) = s |
| C07 | deflate.c | no `ub` for all inputs, size bounds, total functions |
| C08 | deflate.c | RFC 1951 as an inductive relation on bit lists; simulation. Known disagreement: dynamic blocks without distance codes |
| C09 | deflate.c zlib wrapper | partial (checked if 4 bytes remain) + negation |
| C10 | compression.c | round trip |
| C11 | compressed_data_handle.c | cache invariant over operation lists; negation for failing decompression |
| C12 | compressed_data_handle.c | `ub`-freedom under the size guard; negation for large counts |
| C13 | encryption_context.c key unwrap | inverse of RFC 3394 wrap for abstract cipher |
| C14 | password.c | equality with RFC 2898 for abstract PRF |
| C15 | key_encrypted_key.c | negation (over-read) + partial |
| C16 | key bag files | parser safety, round trip |
| C17 | btree_node.c | parser safety |
| C18 | object_map_btree.c | trees as inductive type, floor lookup |
| C19–C21, C23, C24 | file_system_btree.c | trees as inductive type; in-order list as specification |
| C22 | path functions | fold over components; negation for one-character paths |
| C25 | data streams | extent map specification |
| C26 | encryption crypt loop | per-sector map |
| C27, C28, C46 | container.c open, container_superblock.c, object_map.c, container_key_bag.c | scan of checkpoint area; safety over all images; exact characterisation of accepted superblocks; negation for torn superblock |
| C29 | container superblock | partial + negation for holes |
| C30, C31, C32 | container.c, volume.c | state machines over operation lists |
| C33, C34 | volume.c password setters | heap-object model; negations |
| C35 | snapshot files | tree + record parsing; negations |
| C36–C38 | record parsers | safety, round trip |
| C39 | inode values | full case analysis |
| C40, C47 | file_entry.c, attributes.c, compressed_data_header.c | invariant over histories of calls with failing storage; pointers into a freed array are `ub` |
| C48, C49 | fsapfstools/path_string.c, bodyfile.c, mount_path_string.c, bodyfile part of info_handle.c | induction over names for every libuna that reads and writes UTF-8; safety for every libuna |
| C41 | checkpoint_map.c | first match |
| C42 | tree walks | node graphs instead of trees, depth fuel |
| C43, C44 | name.c, name.h | tables transcribed mechanically; whole-table kernel checks |
| C45 | buffer_data_handle.c | refinement to array slice |
| C50 | volume_superblock.c, open_read and get_file_system of volume.c, get_volume_by_index of container.c, container_data_handle.c | composition of C18, C20, C27, C29, C35 over images; negation for snapshot trees of two levels |
| C51 | key bags, unlock, volume open and file_system_data_handle.c as modelled for C15, C16, C26, C32, C50 | composition from the image to directory listings with abstract ciphers; keys by uniqueness of unwrapping; invariant over histories of calls |
| C52 | node cache of file_system_btree.c: get_root_node, get_sub_node, get_entry_by_identifier, the branch node functions; libfcache itself is an argument (`Policy`), with the assumptions `KeepsValues`, `ReplacesWhenFull` or `OldestFirst` stated in each theorem | simulation of the uncached functions with an invariant over the cache and the nodes in use; window argument for the use after free; a directory of 10000 files built with a node encoder as witness |
| C53 | file_system.c, volume.c and file_entry.c functions between path or identifier and bytes (`Model/FileRead.lean`), on top of the models for C11, C19, C22, C24, C25, C39, C40, C50 and C51 | composition: the records of a file are the extents, attributes and inode of the specification, the environment of the file entry is healthy, the open file refines a byte sequence with a read offset |
| C54 | parent and sub file entries of file_entry.c (`Model/Hierarchy.lean`) with lookups that can fail in each call | invariant: the cached entries are those of the directory; calls refine functions of the stored directory; parents from the inode |
| C55 | recursive printing of info_handle.c, loop over volumes, UUID text (`Model/Hierarchy.lean`); the stack is a number of calls | induction on levels: output is the list of paths of the specification (`Spec/Hierarchy.lean`), escapes are undone by the reader of C48; induction on the stack for deep and cyclic directories; composition with C50 |
| C56 | requests of mount_fuse.c with mount_handle.c, mount_file_system.c and mount_file_entry.c (`Model/Mount.lean`); open files are handles with state, memory that is lost is counted; libfuse itself, the dispatch and the Windows (Dokan) callbacks are not modelled | trace specification of POSIX requests (`Spec/Mount.lean`), simulation: every request keeps the relation between handles and open files; composition with C52, C53 and C54; witnesses for what is false |
| C57 | lookups and listings of `file_system_btree.c` and `object_map_btree.c` as sequences of steps on the shared cache (`Model/Threads.lean`), threads with lists of calls, the lock of a handle; reading and parsing a block is one step with the insertion of its node, see the definition | `Spec/Threads.lean`: race, serial execution; invariant over all steps of all threads; refinement of the steps to `Model/NodeCache.lean` carries C52 over; a volume with 10000 files for the refutation with the real number of cache entries |
| C58 | opening of containers and volumes (`Model/Container.lean`, `Model/VolumeOpen.lean`), where the model calls `Checksum.checkObject` exactly where the code verifies a checksum | `Spec/Damage.lean`: damage to two adjacent words or the checksum; from C01, C27 and C50; for what is not verified, trees and object maps are shown to be invariant under any replacement of checksums (`Lemmas/Restamp.lean`), and a witness |
| C59 | `libfsapfs_support.c`, signature checks with all outcomes of the file IO functions and the state of the handle (`Model/Support.lean`) | signature at its offset in the bytes of a file; with C27 for files that open |
| C60 | lookups and listings (`Model/Threads.lean`, `Model/FsTree.lean`), counted by the requests to the cache of nodes (`Props/C60.lean`) | bound by induction over the loops for every answer of the cache; for listings a bound by induction over trees with leaves in different blocks (`Spec/Cost.lean`), and an image for each depth whose nodes are shared |
| C61 | which memory handles point to, own and free; histories of C calls; Python objects with references (`Model/Handles.lean`) | which handle depends on which from the calls and their results (`Spec/Handles.lean`); invariant over handles and allocated memory (`Lemmas/Handles.lean`), for Python with the count of references |
| C62 | conversion of a POSIX time to a `datetime` (`Model/PyTime.lean`); CPython's check of the parts | the Gregorian calendar with days numbered from 1 January 1970 (`Spec/Calendar.lean`); a closed form of the days before a year by induction, invariants of the loops over centuries, years and months |
| C63 | the functions that call the methods of a file object, with any methods (`Model/PyFileObject.lean`) | files as the documentation of Python describes them and computations that read adaptively (`Spec/FileObject.lean`); induction over the computation |
| C64 | the methods of file entries that read and seek, with their arguments (`Model/PyRead.lean`) | positions and results of calls (`Spec/PyRead.lean`), shown to be determined; the traces of C53, the sizes of C40 and induction over the calls |
| C65 | the sequence objects, with a function that gets items and can fail (`Model/PySequence.lean`), sub file entries of C54 | sequences with iterators that each have a position (`Spec/Sequence.lean`); induction over the uses with an invariant for the index |
| C66 | the methods of volume and file entry objects in Python with their arguments and results (`Model/PyVolume.lean`), on the lookups and getters of C19, C22, C40, C53 | what the volume holds (`Spec/Mount.lean`, `Spec/PyVolume.lean`); induction over the requests, every object is that of a file and of the directory entry by which it was found |
| C67 | the arrays of extents of file entries and attribute values and the functions that return them (`Model/Extents.lean`), on the listing of C24 | bytes at places of the container (`Spec/Extents.lean`); induction over the calls with the state of the array, induction over the mappings of the stream for the bytes |
| C68 | `digest_hash_copy_to_string` with its buffer, the loop that reads a file entry in pieces, and the MD5 column (`Model/Digest.lean`), on C40, C53 and C49; MD5 is an argument | reading the text back (`Spec/Digest.lean`) and digests of data in pieces; induction over the digest and over the bytes that are left |
| C69 | the listing of a container with a bodyfile, line by line (`Model/Bodyfile.lean`), on C49, C54, C55, C56 and C68 | lines of the files of a view (`Spec/Bodyfile.lean`); induction over the levels of directories; for the absence of omissions induction over the file entries that are found |
| C70 | the options of fsapfsmount and fsapfsinfo that select a container and a volume, opening, passwords and unlocking (`Model/Program.lean`), on C27, C32, C50, C51 and C56 | decimal numerals (`Spec/Decimal.lean`); induction over the characters; composition of the theorems from the image to the mounted volume; refutations for wrapped numbers, ignored arguments and unreadable key bags |
| C71 | fsapfsinfo with `-E` and `-F`: arguments, selection of the volume, lines of a file entry (`Model/Info.lean`), on C50, C51, C56, C66 and C70 | reading lines back into labels and values (`Spec/Info.lean`); induction over identifiers; composition from the command line and the image; refutations for exchanged times, line feeds and wrapped identifiers |
| C72 | fsapfsinfo without `-E`, `-F`, `-H`: options, lines for container, volumes, features and snapshots (`Model/InfoContainer.lean`), on C29, C35, C50, C51 and C70 | reading lines back into containers (`Spec/InfoContainer.lean`), in both directions; the text determines the container; refutations for line feeds, unreadable volumes and snapshots, unterminated names, `-f` |
| C73 | fsapfsmount on Windows: mount_dokan.c, escapes of names in UTF-16 (`Model/PathWindows.lean`, `Model/Dokan.lean`), on C21, C22, C40, C56 and C66 | answers of a volume to every history of requests (`Spec/Windows.lean`), by induction over the history with the open files as in C56; refutations for long names, devices and sockets, times, `..`, slashes, `OPEN_ALWAYS` and rights to write |
| C74 | the 271 functions of libfsapfs/*.c that handle memory, as control flow graphs over the places that hold pointers (`Model/Ownership.lean`, `Model/Owner*.lean`; see Graphs of ownership below), with and without threads | `Safe` of `Spec/Ownership.lean` for all executions: an abstract state gives each place one of NULL, borrowed, freed, NULL or owned, owned with these other places; that every step keeps the relation between states and abstract states is proved once (`Lemmas/Owner.lean`), the finite set of abstract states of a function is computed and checked by the kernel; each function outside of it is refuted by an execution |
| C75 | the 63 functions of fsapfstools/*.c that handle memory, with FUSE and with Dokan, as control flow graphs as in C74; the error of a callback is a place (`Model/OwnerTools.lean`) | `Safe` of `Spec/Ownership.lean` for all executions, as C74 (`Lemmas/OwnerOfTools.lean`); 5 functions refuted by executions |
| C76 | the 140 functions of pyfsapfs/*.c as control flow graphs as in C74, 150 with those that differ between the builds; references, the exception, the released threads and the lock of the interpreter are places (`Model/OwnerPython.lean`) | `Safe` of `Spec/Ownership.lean` for all executions, as C74 (`Lemmas/OwnerOfPython.lean`); 25 refuted by executions (`Spec/OwnershipPoints.lean`, `Lemmas/OwnerPoints.lean`) |
| C77 | what the 85 functions of libfsapfs.h for a handle read and change of it, as graphs with the lock (`Model/Access.lean`, `Model/AccessOf.lean`, made by `tools/ownership/emit77.py`); values are left out | `Spec/Access.lean`: threads, races, atomicity; invariant over all steps of all threads from a check of each graph (`Lemmas/Access.lean`); refutations by executions of two threads (`Lemmas/AccessRace.lean`) |
| C78 | `fsapfstools_getopt`, `_get_options_string`, `_wrapped_fprint` and the option loops of fsapfsinfo and fsapfsmount (`Model/Getopt.lean`): strings are lists of characters, a pointer is what is left of the string; `optopt` and the messages are left out | the calls follow the option parser of `Spec/Getopt.lean`, written after POSIX, by induction on the characters that are left; the buffer by induction on the table; lines by induction on the text. Two kinds of arguments are refuted |
| C79 | the lookup functions of C21 and C22 (`Model/Name.lean`, `Model/NameLookup.lean`), one model for both encodings: the texts of the 30 pairs of functions in the library were compared and, apart from setting passwords (C34), differ in types, names and messages only | hash, comparison, lookup in nodes and splitting a path are shown to depend on the characters of the string only (`Lemmas/Transcode.lean`), by induction on the characters; no assumption on the tree. Refuted for paths of one unit |
| C80 | the differences that HAVE_DEBUG_OUTPUT and verbose output make to opening containers and volumes, to reading packed keys and the tables of compressed files (`Model/Debug.lean`); the text that is printed is not modelled | the functions of each mode are related to those of the models without diagnostic output; conditions for the objects that are only printed are stated about the image (`Spec/Debug.lean`). Refuted with images, and for packed keys for all memory that is too short |
| C81 | a session of a caller: the models of opening, volumes, unlocking, lookup, file entries, data streams and compressed data put together (`Model/Session.lean`) | invariants handed from part to part (`Lemmas/Session*.lean`): keys have 32 bytes, passwords fit, segments come from extents that fit, cached attributes answer as the tree does, tables of compressed data ascend. Refuted for all images by four whole images, evaluated by the kernel (`Lemmas/Hostile*.lean`) |
| C82 | handles to an extended attribute that share its extents and have data streams of their own, each call with what fails during it (`Model/AttributeRead.lean`) | invariant over handles and kept extents (`Lemmas/AttributeRead.lean`), against a string of bytes with positions (`Spec/Value.lean`); a read with failing storage gives an error or what it gives otherwise; the bytes of data streams are those of C53. Refuted for records with neither flag |
| C83 | a caller with a table of handles to file entries and extended attributes, on the models of C40, C42, C54, C67, C81 and C82 (`Model/Browse.lean`); each call has what fails during it | invariant over the table: what a handle keeps is read from the volume and fits (`Lemmas/Browse.lean`), under the conditions of C81 |
| C84 | the model of C83; `Spec/Browse.lean` says what each call may tell, given only what its handle stands for and what failed during it | simulation between the table of handles and a list of identities: what a handle keeps is what the tree has (`Lemmas/BrowseTold.lean`) |
| C85 | `Model/EntryName.lean`: names of file entries and attributes with libuna as parameter, lookups of attributes by name; `Spec/EntryName.lean` says what libuna does with well-formed names and nothing about others | listings of C54 and paths of C22 with a path of one name; induction over attributes; witnesses for names of one unit and for inodes without name |
| C86 | `Model/Secrets.lean`: passwords as blocks of the heap with a separate size, unlocking with the content of every buffer on the stack, and the functions that it calls as parameters that write anything to their buffer and fail anywhere; `Spec/Secrets.lean` says what may be left | invariant that the size is that of the block; induction over calls and over the entries of key bags; the two buffers that keep keys are refuted for all inputs; `c86_unlock_agrees` ties the result to the model of unlocking without buffers (C32), so that the buffers are those of the same computation |
| C87 | graphs of the functions of a container (`Model/AccessOf.lean`), to which `Spec/Abort.lean` adds values: calls choose and write by any function of what they have read, and wait for the lock | simulation of two executions that differ in the place of the flag and in the thread that asks; induction over schedules |
| C88 | methods of objects for extended attributes in Python (`Model/PyAttribute.lean`), over handles of `Model/AttributeRead.lean`; `Spec/PyAttribute.lean` has positions in a value | each call is one of a handle (`opOf_means`) and steps as the value (`call_spec` of C82); induction over calls |
| C89 | functions and methods of an open file with whence, offset and size (`Model/FileSeek.lean`), over readers of `Model/FileRead.lean`; `Spec/FileSeek.lean` has one position in the contents | a reader gives the contents from a position (C53, C64) and keeps that position and the size, also when a read fails because the storage does (C11 for compressed files); induction over calls, each with its own failures |
| C90 | as C89; `Spec/Pieces.lean` and `Spec/PiecesPython.lean` put together what calls give | induction over the calls from the answers of C89: a call that fails leaves the position, so the next one goes on there |
| C91 | as C82 and C88; `Spec/HandlePieces.lean` and `Spec/HandlePiecesPython.lean` put together what calls with one handle give | induction over the actions from what C82 and C88 state about all handles: an action with another handle leaves this one where it is, so does a call that fails |
| C92 | as C89, C82 and C88; `Spec/Range.lean` has the bytes of a range, one by one | induction over the calls from the answers of C89, C82 and C88: reading at an offset does not use the position |
| C11, C53, C64, C65, C66, C82, C83, C88 | the pairs of calls and answers in these theorems (`Props/Answered.lean`) | `cNN_answered`: no call is without an answer, so the pairs are about all calls made, in their order; C89 states it itself |

## Disagreements between code and property found while proving

Each has a theorem (negation or exact characterisation with a concrete witness).

| property | what the code does | theorem |
|---|---|---|
| C05 | a bit stream read of more than 25 bits at an unaligned position returns swapped parts (no caller does this) | `c05_unaligned_wide_read_wrong` |
| C08 | a dynamic DEFLATE block without any distance code (valid by RFC 1951 3.2.7) is refused | `c08_refuses_literal_only_block` |
| C09 | zlib data without checksum, with a truncated stream or with a wrong header check value is accepted | `c09_missing_checksum_accepted`, `c09_truncated_stream_accepted`, `c09_header_check_ignored` |
| C11 | after a chunk failed to decode the segment buffer is overwritten but still named after the old block: later reads return wrong bytes or run over the buffer | `c11_stale_segment`, `c11_overread_after_failure` |
| C12 | the block table of a zlib resource fork with 8160 or more blocks (any file of 510 MiB or more) is written over the end of its 65537 byte buffer | `c12_table_overflow` |
| C12 | an LZVN fork with 16384 or more blocks, and a zlib fork whose last block plus resource map exceeds 65537 bytes, are refused | `c12_large_lzvn_refused`, `c12_large_last_block_refused` |
| C15 | a truncated attribute header at the end of a key-encrypted key makes the parser read up to 3 bytes behind the object | `c15_overread`, `c15_overread_three` |
| C15 | two-byte DER sizes are read as little endian, so objects with 256 or more bytes are refused | `c15_long_length_refused` |
| C26 | block identifier times block size is computed modulo 2^64, so far apart blocks share tweaks; a block size that is not a multiple of the sector size is read past its end | `c26_identifier_wraps`, `c26_partial_sector` |
| C32 | a volume that is locked because the container key bag could not be read is reported unlocked by the first unlock call, without any password | `c32_unlocks_without_secret` |
| C32 | one malformed or unsupported entry in a volume key bag makes unlocking fail although a later entry matches the password | `c32_malformed_entry_blocks` |
| C33 | `set_utf8_password` allocates for the NUL-terminated string but copies the number of bytes given: overflow or uninitialised password bytes; an unterminated string is read past its end | `c33_long_length_overflow`, `c33_short_length_uninitialised`, `c33_unterminated` |
| C34 | `set_utf16_password` includes the end-of-string character in the password: a password of 64 or more UTF-8 bytes derives a different key | `c34_differs_64`, `c34_differs_longer` |
| C25 | the byte offset of an extent is computed modulo 2^64, so a block number of 2^52 or more reads another block; block number 2^63 leads to a signed overflow | `c25_block_number_wraps`, `c25_block_number_overflow` |
| C25 | the logical offset of holes in sparse files is not checked; holes fill whatever is between the extents with blocks | `c25_hole_ignored`, `c25_read_sparse_partial` |
| C17 | A key offset of a B-tree node is added modulo 2^16, so that an offset such as 65472 points back into the node header and is accepted; in a root node a value offset from 65496 wraps into the footer. Offsets are otherwise checked (`c17_value_offset_checked`). | `c17_key_offset_wraps` |
| C18 | Looking up object identifier 0 in an object map whose first key is greater is an error instead of not found. | `c18_object_zero` |
| C19 | An identifier of 2^60 or more is combined with the record type by a bitwise or, so that looking up 0x3000000000000005 finds inode 5. | `c19_wide_identifier_finds_other` |
| C20 | Listing an identifier that is in front of all records of a tree with more than one level is an error instead of an empty list (such an identifier has no inode). | `c20_before_first_error` |
| C24 | If the logical addresses of extents are not in order an extent can be lost silently. | `c24_unordered_extent_lost` |
| C42 | Recursion is bounded in depth only: n + 1 nodes whose entries name the same child twice make a directory listing return 2^n records, n up to 256. | `c42_exponential_listing` |
| C36 | A directory record with an extended field of a type other than 1 is refused, and with it the listing of the directory. | `c36_other_field_refused` |
| C37 | An inode with an extended field of type 16 (original sync root identifier), a reserved type, or an empty extended field is refused, so that the file cannot be accessed. | `c37_one_field_refused`, `c37_valid_fields_refused` |
| C39 | A device with a minor number of 256 or more is returned with other numbers, for instance (0, 300) as (1, 44), or not at all. | `c39_large_minor_wrong`, `c39_witness` |
| C03 | Hangul syllables, except the first and the last, are not decomposed, so the name hash of Korean names differs from the stored one; combining marks are not reordered. | `c03_hangul`, `c03_marks`, `c44_hangul` |
| C43 | Names are compared character by character: precomposed and decomposed forms of a name, and "straße" and "STRASSE" on a case-insensitive volume, have the same name hash but compare unequal. | `c43_composed`, `c43_special_folding` |
| C43 | The order of names is not the one of their normal forms. | `c43_not_form_order` |
| C21 | on a case-insensitive volume an entry that is the first record of a leaf is not found by an upper case variant of its name, since branch nodes are searched with regard to case | `c21_case_variant` |
| C21 | entries with Hangul syllables in the name are not found by name | `c21_hangul` |
| C21 | an entry whose name hash is 0 is not found by name if it follows others, 0 being taken for a missing hash | `c21_zero_hash` |
| C22 | a path or name of one code unit always resolves to the directory where the lookup starts | `c22_one_character` |
| C22 | an end-of-string character in a path acts as a separator | `c22_end_of_string` |
| C27 | The loop over the checkpoint descriptor area runs to `<=` the number of blocks: the block after the area is read, must be readable, and a superblock or map in it is used | `c27_reads_beyond_area`, `c27_superblock_beyond_area` |
| C27 | The block number of the area has 64 bits in the file and 32 in memory (container_superblock.h 65-67) | `c27_area_truncated` |
| C27 | The size of the container and the data block vector are those of the superblock in block 0, not of the most recent checkpoint | `c27_size`, `c27_stale_size` |
| C28 | A block of the area with the type of a superblock that does not parse makes opening fail, also if older checkpoints are intact; the same for the most recent map | `c28_torn_superblock_refused`, `c28_torn_map_refused`, `c28_witness` |
| C29 | The number of volumes counts used slots, the index is that of a slot: after an unused slot the last volumes cannot be reached | `c29_hole_hides_volume`, `c29_hole_witness` |
| C31 | libfsapfs_volume_get_snapshot_by_index returns while it holds the read lock if the snapshot cannot be retrieved (for example an index out of range); a later call that needs the lock for writing waits forever | `c31_snapshot_keeps_lock`, `c31_snapshot_blocks` |
| C30 | libfsapfs_container_is_locked succeeds on a container that is not open | `c30_closed_answers` |
| C30 | if the lock cannot be grabbed in libfsapfs_container_open_file_io_handle after the container was read, the fields stay set: the failed open cannot be repeated, close is refused, and queries answer | `c30_lock_failure_stuck` |
| C30 | if the second lock of libfsapfs_container_open cannot be grabbed the file IO handle is freed while the container refers to it | `c30_lock_failure_dangling` |
| C35 | Children of branch nodes of the snapshot metadata tree are looked up in the object map although they are physical objects; a volume with so many snapshots that the tree has two levels cannot be opened (libfsapfs_snapshot_metadata_tree.c 1916; the unused lookup in 1314 reads the block number) | `c35_branch_refused`, `c35_two_levels` |
| C35 | The block number of the superblock of a snapshot is read with 32 of its 64 bits (libfsapfs_snapshot_metadata.c 289) | `c35_superblock_truncated` |
| C35 | Name functions pass the size 256 instead of the size of the name: a name without a zero is read beyond its allocation, a longer one is cut (libfsapfs_snapshot_metadata.c 480, 521, 562, 603) | `c35_name_overread`, `c35_name_cut`, `c35_unterminated` |
| C40 | Compression method 5 is not refused, the file reads as zeros | `c40_method5_zeros` |
| C40 | Files compressed with LZFSE (methods 11 and 12) cannot be read | `c40_lzfse_refused` |
| C40 | An uncompressed size of 2^64-1 is returned by the first call and is an error afterwards | `c40_size_unknown` |
| C47 | A symbolic link with an empty target, or one larger than 128 MiB, is refused | `c47_target_refused` |
| C48 | A stored name with a slash is shown as `\x2f` in a mounted volume but its path is taken for the path with a slash: another file is opened, or none | `c48_mount_slash` |
| C48 | U+FDE0 to U+FDEF are noncharacters but are printed unescaped | `c48_noncharacter` |
| C48 | The escape `\x00` is printed but not accepted | `c48_nul` |
| C49 | The target of a symbolic link is written to the bodyfile without escapes: a link can forge lines | `c49_target` |
| C49 | Times before 1970 are written with a sign in the fraction | `c49_negative_time` |
| C50 | A volume whose snapshot metadata tree has more than one level (many snapshots) cannot be opened at all: its open function enumerates that tree and looks up the block numbers of children as object identifiers. Also `libfsapfs_volume_get_size` always fails (libfsapfs_volume.c 1497-1505, not implemented). | `c50_snapshot_tree` |
| C51 | An encrypted volume in a container whose key bag could not be read is unlocked by any call to unlock, without password, and its blocks are then used without decryption. | `c51_no_container_bag` |
| C52 | Listings keep pointers to branch nodes owned by the node cache while children are loaded. When the children need more nodes than the cache has entries (8192) the branch node is freed and then used: listing a valid directory whose records are in more than 8192 nodes is a use after free, if libfcache replaces the oldest value. | `c52_replaced_root`, `c52_freed`, `c52_not_faithful` |
| C54 | The parent of a file entry that was reached through a directory is not always that directory: for hard links it is the directory in the inode, which may not have been opened at all. | `c54_hard_link` |
| C55 | fsapfsinfo -H calls itself for every level of directories without limit: deep directories and directories that contain themselves overflow the stack. | `c55_deep`, `c55_cycle` |
| C55 | Names with slashes are printed as they are: two files can have the same line. | `c55_slash` |
| C55 | A volume that fails, for instance a locked one, ends the output: volumes behind it are missing. A root directory whose inode has no name, which is not printed anyway, is such a failure. | `c55_hidden`, `c55_failing`, `c55_root_name` |
| C37 | creation and modification times of files are exchanged: `fsapfs_file_system_btree_value_inode` (libfsapfs/fsapfs_file_system.h 225-233) has the modification time at 16 and the creation time at 24, the file system (and documentation/Apple File System (APFS).asciidoc 1670-1673) the other way round | `c37_times_swapped` |
| C56 | fsapfsmount shows 1 or 2 as the number of links, not that of the inode; block devices and sockets have 2 as directories do. | `c56_links` |
| C56 | The time of modification of a mounted file is its time of creation, because both are exchanged in inodes. | `c56_modification` |
| C56 | Times before 1970 have negative nanoseconds in the stat info. | `c56_before_1970` |
| C56 | The slash in a name is shown as an escape, which is undone before the path is split: such a file is listed and cannot be opened. | `c56_slash`, `c56_slash_missing` |
| C56 | .. of the root directory has no attributes. | `c56_root_parent` |
| C56 | A directory cannot be listed if the inode of its parent has no name, although the name is optional. | `c56_unnamed_parent` |
| C56 | One entry without an inode makes a whole directory unreadable. | `c56_dangling` |
| C56 | listxattr with a buffer that is too small gives EIO instead of ERANGE, readlink gives EIO instead of the truncated target. | `c56_short_list`, `c56_short_link` |
| C56 | releasedir does not free the file entry: memory grows with every directory that is opened and closed. | `c56_leak` |
| C56 | getxattr does not free the extended attribute if the buffer is too small. | `c56_getxattr_leak` |
| C57 | File entries of one volume have a lock each but share the cache of nodes of the file system tree: for every volume and every two requests on two handles there is an interleaving in which both change the cache at the same time. | `c57_race` |
| C57 | libfsapfs_container_get_volume_by_index takes the lock for reading and changes the cache of the object map: two threads that open volumes on one handle race. | `c57_volumes_race` |
| C57 | A thread uses a node that another thread freed, both if the cache keeps one value for a block and if it replaces the oldest of its 8192 values. | `c57_freed`, `c57_volumes_freed`, `c57_evicted` |
| C58 | the checksums of object maps, of B-tree nodes and of the key bags of volumes are never compared: damage to them is returned as if it were stored | `c58_unverified`, `c58_damage_shown`, `c58_node_checksum`, `c58_object_map_checksum`, `c58_volume_bag_checksum` |
| C59 | checking the signature of a file of fewer than 36 bytes is an error instead of the answer no; the check for volumes says yes only for files that the library cannot open | `c59_short`, `c59_volume_does_not_open` |
| C60 | the number of entries of a directory is not bounded by the size of the image: nodes of the file system tree can be shared, each level doubles the entries, and an image of less than 1.5 MB makes a listing of more than 2^64 entries | `c60_shared`, `c60_does_not_finish`, `c60_no_bound` |
| C61 | `close` of a container in Python frees the file IO handle that its volumes point to: the next method of a volume that reads the image accesses freed memory | `c61_python_close` |
| C61 | `open_file_object` of a container that is open with a file object raises an exception and frees the file IO handle in use: the next method, closing and releasing the last reference access freed memory | `c61_python_reopened` |
| C61 | `libfsapfs_snapshot_free` does not free the volume superblock of the snapshot: each snapshot that was obtained leaves one | `c61_snapshot_leaks` |
| C62 | a time of 31 December 1999 raises an exception in Python: the day is counted from 2000 as day 0 | `c62_1999` |
| C62 | a time before 1970 raises an exception in Python, or the loop over centuries is run more than 5 · 10 ^ 14 times because a negative number of days is converted to an unsigned one | `c62_negative` |
| C63 | `read` of a file object in Python that returns more bytes than asked writes behind the buffer | `c63_overflow` |
| C63 | the function for the size of a file object returns success when a method raised an exception | `c63_size_failed` |
| C64 | `read()` in Python of a file of 2 GiB or more raises an exception at every position, although the documentation reads the file | `c64_large` |
| C65 | a second loop over the same sequence object in Python gets no items; a loop inside a loop over the same object gets the rest and ends both | `c65_second_iterator`, `c65_nested` |
| C65 | a directory entry whose inode does not exist stops a loop over the sub file entries for good; the entries after it can only be obtained by index | `c65_stuck` |
| C66 | `get_file_entry_by_identifier` raises an exception for an identifier that no file has, the documentation says `None` | `c66_absent_raises`, `c66_never_none` |
| C66 | identifiers in Python are taken modulo 2^64: 2 + 2^64 and 2 - 2^64 give the root directory | `c66_wraps` |
| C66 | a sub file entry whose name is one ASCII character is not found by name in Python: the directory itself is returned | `c66_one_character` |
| C67 | a hole of a sparse file is returned as an extent at offset 0 with flags 0, like the superblock of the container; reading there does not give the contents of the file | `c67_hole` |
| C67 | the offset of an extent with a block number of 2^52 or more is taken modulo 2^64 and not refused | `c67_wraps` |
| C68 | with MD5 hashes the line of a file compressed with LZFSE cannot be written and the listing fails | `c68_lzfse` |
| C68 | the MD5 of a file with compression method 5 is that of zeros, not of its contents | `c68_method5` |
| C69 | the columns mtime and crtime of a bodyfile show the time of creation and the time of modification: the wrong way round | `c69_swapped` |
| C69 | with MD5 hashes one file that is compressed with LZFSE stops the bodyfile of the whole container | `c69_lzfse`, `c69_volume_fails` |
| C70 | an argument of -f that is no number of a volume is ignored: the only volume of the container is mounted | `c70_ignored` |
| C70 | numbers in arguments are taken modulo 2^64 and may have a sign: -f 18446744073709551617 and -f -18446744073709551615 mean volume 1, likewise for -o | `c70_wraps`, `c70_negative`, `c70_offset_wraps` |
| C70 | fsapfsinfo reads from the first byte of the file if the argument of -o is not a number, where fsapfsmount reports an error | `c70_info_offset`, `c70_offset_text` |
| C70 | fsapfsmount mounts an encrypted volume of a container whose key bag cannot be read, without a password | `c70_locked_container` |
| C71 | fsapfsinfo shows the time of creation as that of modification and the other way around | `c71_swapped` |
| C71 | fsapfsinfo prints names of extended attributes without escapes: an attribute whose name has a line feed looks like two attributes | `c71_forged` |
| C71 | with -E all, an inode without name ends the output with an error and the files behind it are not shown | `c71_nameless` |
| C71 | -E takes identifiers modulo 2^64: -E 18446744073709551618 shows the file with identifier 2 | `c71_argument_wraps` |
| C72 | fsapfsinfo -f with the number of a volume shows all volumes, though it is documented to show that one | `c72_index_ignored` |
| C72 | names of volumes and snapshots are printed without escapes: other snapshots are shown with the same text | `c72_forged` |
| C72 | a volume that does not open, or a snapshot whose superblock cannot be read, ends the list of volumes | `c72_stops`, `c72_snapshot_unreadable` |
| C72 | for a snapshot whose stored name does not end with a zero, fsapfsinfo reads behind the name | `c72_snapshot_overread` |
| C73 | on Windows, a directory that has a name of more than 25 characters cannot be listed: the buffer of a name has ten characters for each, and its size is compared with MAX_PATH | `c73_long_name` |
| C73 | with HAVE_DOKAN_LONG_PATHS, which nothing in the sources defines, names are copied out of the bounds of `cFileName` | `c73_overflow` |
| C73 | on Windows, block devices and sockets are shown as directories | `c73_devices` |
| C73 | on Windows, times of creation and modification are exchanged, the time 0 is shown as 1601 and times before 1970 are rounded up | `c73_exchanged`, `c73_epoch`, `c73_before_1970` |
| C73 | on Windows, `..` in the root directory is a file without attributes | `c73_root_parent` |
| C73 | on Windows, a file with a slash in its name is listed and cannot be opened | `c73_slash`, `c73_slash_missing` |
| C73 | before Dokan 0.8, OPEN_ALWAYS for a file that exists says that it does not exist | `c73_open_always` |
| C73 | since Dokan 0.8, which passes rights that are not generic, files are opened for writing | `c73_write_data` |
| C74 | opening the data of a compressed file loses the stream of the compressed data: `libfsapfs_compressed_data_handle_free` does not free it, nor does the caller | `c74_data_stream_leaks` |
| C74 | the size of a compressed file whose header cannot be read: `return -1` loses the stream | `c74_data_size_leaks` |
| C74 | if the second cache of a tree cannot be allocated, the first is lost | `c74_btree_initialize_leaks` |
| C74 | looking up a path with an empty component (/a//b) loses a directory record, and says that the path was not found | `c74_path_leaks` |
| C74 | freeing a snapshot does not free its volume superblock | `c74_snapshot_free_leaks` |
| C74 | `libfsapfs_container_initialize` loses the IO handle if the lock cannot be made; `libfsapfs_container_free` loses what the container read if the lock cannot be grabbed | `c74_container_initialize_leaks`, `c74_container_free_leaks` |
| C74 | if the lock cannot be grabbed after opening, `libfsapfs_container_open` frees the file IO handle to which the container still refers | `c74_container_open_dangles` |
| C74 | ten functions that return objects return -1 with the object set if the lock cannot be released | `c74_release_leaks` |
| C74 | opening a volume that fails can leave the array of snapshots (the wrong member is tested), and opening a snapshot that fails leaves its superblock, so that opening it again would fail | `c74_open_leaves` |
| C75 | getxattr of a mounted volume loses the extended attribute if its value does not fit in the buffer (ERANGE) or cannot be read | `c75_getxattr_leaks` |
| C75 | closing a directory of a mounted volume loses its file entry | `c75_releasedir_leaks` |
| C75 | mounting loses the container handle: neither closing nor freeing the mount handle frees it | `c75_open_leaks` |
| C75 | fsapfsinfo loses the memory for the name of a snapshot if the name cannot be retrieved | `c75_snapshot_name_leaks` |
| C75 | fsapfsmount with Dokan does not free the mount handle at the end | `c75_main_dokan_leaks` |
| C76 | opening a container again with a file object fails, and frees the file object handle that the open container reads from: it is used after it was freed | `c76_reopen_frees` |
| C76 | each exception of a file object that becomes an error of the library loses the exception, its type and its traceback | `c76_fetch_leaks` |
| C76 | an exception whose `__repr__` raises one makes the interpreter crash (NULL is converted to a string) | `c76_repr_crashes` |
| C76 | reading with a size for which there is no memory makes the interpreter crash instead of raising MemoryError | `c76_read_crashes` |
| C76 | without memory the device number and the extents crash the interpreter or are returned with the exception set | `c76_tuple_crashes`, `c76_name_crashes` |
| C76 | calling `__init__` of a container again loses the container that it had | `c76_init_leaks` |
| C76 | a container that cannot be closed is never freed; each opening and each freeing loses a reference to None | `c76_free_leaks`, `c76_open_leaks` |
| C76 | copying a file object handle changes a count of references without the lock of the interpreter (libfsapfs does not copy it) | `c76_clone_without_lock` |
| C76 | an exception of the type test of what a file object returned stays set | `c76_type_check_pending` |
| C76 | a failure to set up the module loses it, and one to add a type is not reported | `c76_module_leaks` |
| C77 | a container is opened without its lock: calls of other threads for the handle read the superblock, the object map and others while they are set, and two threads can open it at once | `c77_open_race`, `c77_open_open_race` |
| C77 | libfsapfs_container_get_size, _get_number_of_volumes and _get_volume_by_index test the superblock before they take the lock, while libfsapfs_container_close may free it | `c77_close_race` |
| C77 | libfsapfs_container_get_volume_by_index changes the cache of the object map with the lock for reading; libfsapfs_container_signal_abort sets its flag without the lock (nothing reads the flag) | `c77_volume_by_index_race`, `c77_abort_race` |
| C78 | the argument - makes the own getopt of the tools (used where the system has none) read behind the end of the argument | `c78_dash` |
| C78 | an argument such as --help is dropped silently by the own getopt and ends the options | `c78_long` |
| C78 | the help of fsapfsinfo asks for lines of 80 characters and prints its description in one line of 84; with a line that starts where it has to end printing would not end | `c78_too_long`, `c78_wrap_endless` |
| C78 | after an unknown option in a group the own getopt returns the same option again if it is called again; the tools do not call it again | `c78_unknown_again` |
| C79 | a path or name of one character from 0x80 to 0xffff, such as é: the call for UTF-8 looks it up, the call for UTF-16 returns the directory where the lookup starts, also if there is no such file | `c79_one_unit` |
| C80 | a Fusion drive is refused, but only by a library without diagnostic output | `c80_fusion_differs` |
| C80 | verbose output makes opening a container fail if the space manager, the reaper, the Fusion middle tree or an older checkpoint map, none of which is used, cannot be read | `c80_container_differs` |
| C80 | a library with diagnostic output, even if not verbose, refuses volumes whose extent reference tree, which is not used, cannot be read | `c80_volume_differs` |
| C80 | verbose output prints as many bytes of a packed key as it tells, up to 65535, before that number is compared with the size of the data: it reads behind the buffer | `c80_kek_overread` |
| C80 | verbose output makes reading a compressed file fail if the footer of its resource fork, which is not used, is not where the header tells | `c80_compressed_differs` |
| C81 | a file with an extent in block 2^63 makes reading compute a signed number that overflows | `c81_far_extent` |
| C81 | an encrypted extent whose size is not a multiple of 512 makes reading decrypt behind the buffer of the extent | `c81_short_extent` |
| C81 | a packed key that ends within a tag makes unlocking read behind it | `c81_packed_key` |
| C81 | a resource fork of more than 65537 bytes that announces between 8160 and 33554431 blocks makes reading write behind the buffer for compressed data | `c81_fork_table` |
| C82 | an extended attribute whose record has neither flag has no data stream: seeking to -5 succeeds with that offset whatever is sought from, and the offset is not set although getting it succeeds | `c82_no_stream` |
| C85 | a file whose name is one code unit: its own name leads to the directory, not to the file | `c85_one_unit` |
| C85 | a name with a slash is taken for a path: it leads to another file or to none | `c85_slash` |
| C85 | a file entry that was got by identifier and whose inode has no name field tells no name | `c85_no_name` |
| C86 | unwrapping a key leaves its first eight bytes in a buffer on the stack that is not cleared | `c86_unwrap_left` |
| C86 | deriving a key from a password leaves the last hash in a buffer on the stack that is not cleared; with one iteration it is the derived key | `c86_derivation_left` |
| C87 | asking a container to abort stops nothing: the flag that it sets is never read | `c87_stops_nothing`, `c87_flag_makes_no_difference` |
| C88 | Python does not read a value of 2 GiB or more without a size, and seeks to -5 in an attribute with neither flag | `c88_large`, `c88_no_stream` |

## Trusted base

* The kernel of Lean 4.33.0. Every theorem of `MANIFEST.json` depends on at most the axioms `propext`, `Classical.choice` and `Quot.sound`; there are no other axioms, no `sorry`, no `native_decide` and
  no `bv_decide`. `decide +kernel` is used for whole finite tables and for the concrete witnesses of refutations and examples; it is checked by the kernel.
* The reading of the C code. It was never compiled or run; each definition of the model cites the lines it was written from, so that both can be compared. `seeded/LOG.jsonl` records edits of the model and the
  theorems that noticed them. That a theorem or lemma failed means that its proof no longer builds, which does not by itself show that the statement became false; where the statement was found to hold still, it was
  tightened and the entry says so. Edits with which the model itself did not compile are marked and do not count.
* Lean binds unknown names in statements as variables (`autoImplicit`). The implicit variables with names of three letters or more were listed and compared by a script with the binders in the sources; the
  remaining ones (`enc` in lemmas on unlocking) were read: none takes the place of a definition that was meant.
* The specifications in `lean/Verif/Spec`, written from the published formats (RFC 1950, 1951, 2898, 3394, POSIX, Unicode 14 tables for decomposition and case folding) and from
  `documentation/Apple File System (APFS).asciidoc`.
* C semantics as described under "Modelling conventions": two's complement, 8-bit bytes, `size_t` of 64 bits, functions that return -1 if memory is exhausted.

### External libraries

None of them is in the repository. They are parameters of the model, and theorems hold for every value of the parameter that meets the hypothesis stated in the theorem.

| library | in the model | what is assumed |
|---|---|---|
| libbfio | an image is a list of bytes; reading at an offset gives the bytes there, fewer at the end | nothing more; in the life cycle model opening, closing and freeing may fail |
| libfdata vectors and streams | lists of segments, `Model/DataStream.lean` | the element at an offset is that of the segment list; whether a vector can be created is the parameter `vector` |
| libfcache | `Policy` in `Model/NodeCache.lean`: any order after a hit, any value replaced | transparent in the tree models; C52 and C57 are about what happens without that assumption |
| libcdata arrays and lists | lists | appending and getting by index |
| libuna | `Decoder`, `Codec`, `una`, `compare` | decoders consume at least one unit; a converted string ends with an end-of-string character |
| libcaes | `dec key`, `xts` | total functions that keep the size of their data; C13 assumes encryption and decryption to be inverse to each other |
| libhmac | `prf`, `sha` | total functions with an output of 32 bytes |
| zlib | `Codec` in `Model/Compression.lean`; the built-in inflate is modelled | a result that fits into the buffer |
| libfmos (LZVN) | `Codec` | a result that fits into the buffer |
| libcthreads | `Model/Locks.lean` and `Model/Threads.lean`: readers or one writer | grabbing and releasing may fail in `Model/Locks.lean` and in the graphs of C74, not in `Model/Threads.lean` |
| libfuse | the callbacks of mount_fuse.c are called one at a time | opened files are released once |
| Dokan | the callbacks of mount_dokan.c are called one at a time; access masks and dispositions of winnt.h, fileapi.h and winternl.h | structures are cleared, `fill_find_data` accepts every entry |
| libcerror, libcnotify, libclocale, libcpath, libfguid | left out | no effect on results |

### Left out throughout

* Functions that only allocate and zero (`_initialize`) or free (`_free`) an object, unless a property is about them (C30 to C34, C44, C56), except for what C74 says of all functions.
* Getters that return a member after checks for NULL, and wrappers `_read_file_io_handle` that read a block and call `_read_data`.
* Debug output, apart from what can change a result (C80): the text that is printed, the chunk information blocks, and the fields of structs that are only printed.
* Signal handling of the tools, the usage line of their help and their texts for versions.
* Of mount_dokan.c: what is in a buffer behind the end-of-string character of a name, which is copied to `cFileName` too; fields that `GetFileInformation` does not set. `HAVE_DOKAN_LONG_PATHS` is not defined by any file of the sources; it is a parameter of the model.

### Graphs of ownership

The graphs of C74, C75 and C76 (`Model/Owner*.lean`) were made from the sources by the scripts in `tools/ownership`. The rules:

* Places are local variables and arguments that hold pointers to objects, `*x` for arguments `x` that are pointers to pointers, and the members of structures that a function assigns, frees or passes by reference. A local `int` variable that is tested against a constant after it was assigned constants is a place too.
* A condition that does not test a place is a choice, as is whether a call succeeds, how often a loop turns and which case of a switch is taken. `memory_set` and `memory_copy` do not fail: memset and memcpy return their argument.
* `X_initialize`, `X_clone` and getters that create an object: on success the target holds new memory; on failure it is unchanged. The graph of such a function ends in instructions that check this: `live` (or `held`, if NULL is a success too) before it returns 1, and `none` otherwise, if the place held NULL at the start, which a number remembers. They succeed only if the target was NULL, unless they do not check this, in which case the caller must have made sure of it (`none`).
* `X_free(&x)` frees x and what it owns and sets x to NULL, and may then report a failure, unless its body has only calls of `memory_free`. That X_free frees all that X owns is what `Safe` says of it. `memory_free(x)` frees x only.
* A structure owns those members that its `_free`, `_close` or `_clear` frees. Structures that a caller passes are there, and what they own is NULL or allocated.
* `libcdata_array_append_entry`, `libfdata_vector_set_element_value_by_index`, `libfcache_cache_set_value_by_identifier`, libfdata streams and vectors that are created with the flag MANAGED, and `libfsapfs_file_entry_initialize` and `libfsapfs_file_system_initialize` for the arguments that their object frees, take over what they are given if they succeed. The graphs of the last two check it of themselves: what they are given must be kept by the object on success, and be there still on failure.
* A new structure has all members that its type owns, with junk in them until they are set; a variable that is declared without a value holds junk (there is none).
* The graph of a `_close` function checks that the members that it frees hold NULL when it returns `result`.
* Other arguments `&x` receive a pointer that belongs to something else (caches, arrays, nodes); if the call fails they may or may not have changed. (`libfsapfs_file_system_btree_get_entry_by_identifier` leaves them alone: its graph checks this.) Whether that lives long enough is not part of C74 (but see C52, C57 and C61).
* Functions that are passed a structure and assign its members may have changed them in any way that keeps ownership.
* `libfsapfs_internal_file_entry_get_extended_attributes` is called only if the attributes were not read before, and `libfsapfs_snapshot_metadata_read_value_data` once for an object; `_free` of containers, volumes and snapshots gets an object that is either open or closed.
* Arrays of pointers are one place that holds the array; their entries belong to it.
* After a failure, members of the arguments that the function fills and that were empty at the start must be empty again. (`libfsapfs_internal_volume_open_read` and `libfsapfs_internal_snapshot_open_read` have graphs with this check in `Model/OwnerLeaving.lean`, and others without it for one member each, the snapshots and the superblock.)
* In the tools (C75) a local `error` is a place: a call that is given `&error` and fails may set it if it is NULL; a call that succeeds, or returns 0, leaves it alone. A local number that is assigned from such a call is a place, with the values -1, 0 and 1. The global handles are places of `main` and of the callback `mount_fuse_destroy`, which `fuse_destroy` calls.
* The file entry in the information about an open file (`fh`, `Context`) is owned by it. It must be NULL after a failure to open if it was before, and after the callback that closes the file.
* The volume of a mount handle is owned by its file system structure while it is open: `mount_file_system_set_volume` takes it, and with NULL hands it to its caller; `mount_handle_open` is called for a handle that is not open.
* In pyfsapfs (C76) a reference that a function owns is allocated memory: the functions of Python that return a new one, and the functions of pyfsapfs that return an object, give one or NULL with an exception; `Py_IncRef` gives one, `Py_DecRef` and `PyMem_Free` release one, `PyTuple_SetItem` takes one and does not fail on a tuple that was just made, `PyModule_AddObject` takes one unless it fails, `_PyBytes_Resize` releases it if it fails. `Py_None`, `Py_True` and `Py_False` are borrowed at the start. Static type objects are not counted. The last `Py_DecRef` of an object of pyfsapfs frees its members.
* Functions of Python that look at an argument without a test for NULL read it: `PyUnicode_AsUTF8String`, `PyBytes_AsString`, `PyObject_IsInstance`, `PyBytes_AsStringAndSize`, `PyTuple_SetItem` (the tuple), `PyObject_HasAttr`, `PyModule_AddObject`. `PyBytes_AsString` does not fail for an object that the function made itself. `Py_TYPE` and `tp_free` of an object are not NULL.
* The place `exception` is set by a function of Python that fails, by `PyErr_Format`, `PyErr_SetNone` and `pyfsapfs_error_raise`, and emptied by `PyErr_Clear`, `PyErr_Fetch` and `pyfsapfs_error_fetch`. It is empty at the start, must be set when a method returns NULL or -1 and empty when it succeeds, and empty when a function with an `error` argument returns. Functions that free an object (`tp_dealloc`) may leave it set: that is not checked.
* Before each call of Python `threads allowed` must be empty, and in the functions that the library calls (`pyfsapfs_file_object_io_handle_*`, without `_initialize`) `gil_state` must be held.
* A member that is set at the start of a call that fails, other than one that initializes, closes or frees, must hold its own at the end; a new object holds a reference to its parent and the handle that it was given; `pyfsapfs_container_close` leaves no file IO handle if it succeeds. Opening a file whose name is NULL fails.
* The graphs of C77 (`Model/AccessOf.lean`) have other rules: the header of that file states them. Which calls change what an argument points to is a table made by reading these functions.

### Functions

Generated from the citations in `lean/Verif/Model`: a function is modelled if a definition of the model cites it or lines of it. Functions of a file without mention in the last column are all modelled. The graphs of C74 to C77 do not count; functions of which there is only such a graph are marked °. `~` is the name of the file without extension.

| file | modelled | of | not modelled |
|---|---|---|---|
| bodyfile.c | 1 | 1 |  |
| digest_hash.c | 1 | 1 |  |
| fsapfsinfo.c | 1 | 2 | `~_signal_handler` |
| fsapfsmount.c | 1 | 2 | `~_signal_handler` |
| fsapfstools_getopt.c | 3 | 4 | `~_usage_fprint` |
| fsapfstools_output.c | 0 | 4 | `~_initialize`, `~_copyright_fprint`, `~_version_fprint`, `~_version_detailed_fprint` |
| fsapfstools_signal.c | 0 | 5 | `~_initialize_memory_debug`, `~_attach`, `~_detach`, `~_attach`, `~_detach` |
| info_handle.c | 22 | 29 | `~_initialize`, `~_free`, `~_signal_abort`, `~_set_bodyfile`, `~_set_password`, `~_set_recovery_password`, `~_close_input` |
| mount_dokan.c | 12 | 12 |  |
| mount_file_entry.c | 13 | 15 | `~_free`, `~_get_number_of_sub_file_entries` |
| mount_file_system.c | 2 | 8 | `~_initialize`, `~_free`, `~_signal_abort`, `~_set_volume`, `~_get_volume`, `~_get_mounted_timestamp` |
| mount_fuse.c | 12 | 13 | `~_destroy` |
| mount_handle.c | 6 | 13 | `~_initialize`, `~_free`, `~_signal_abort`, `~_set_password`, `~_set_recovery_password`, `~_close`, `~_is_locked` |
| mount_path_string.c | 3 | 3 |  |
| path_string.c | 3 | 3 |  |
| libfsapfs.c | 0 | 1 | `~_is_dll` |
| libfsapfs_attribute_values.c | 10 | 12 | `~_initialize`°, `~_free`° |
| libfsapfs_attributes.c | 2 | 2 |  |
| libfsapfs_bit_stream.c | 2 | 3 | `~_free`° |
| libfsapfs_btree_entry.c | 0 | 4 | `~_initialize`°, `~_free`°, `~_set_key_data`°, `~_set_value_data`° |
| libfsapfs_btree_footer.c | 1 | 3 | `~_initialize`°, `~_free`° |
| libfsapfs_btree_node.c | 4 | 7 | `~_initialize`°, `~_get_number_of_entries`, `~_get_entry_by_index`° |
| libfsapfs_btree_node_header.c | 1 | 3 | `~_initialize`°, `~_free`° |
| libfsapfs_buffer_data_handle.c | 3 | 4 | `~_free`° |
| libfsapfs_checkpoint_map.c | 2 | 5 | `~_initialize`°, `~_free`°, `~_read_file_io_handle` |
| libfsapfs_checkpoint_map_entry.c | 1 | 3 | `~_initialize`°, `~_free`° |
| libfsapfs_checksum.c | 3 | 3 |  |
| libfsapfs_chunk_information_block.c | 0 | 4 | `~_initialize`°, `~_free`°, `~_read_file_io_handle`, `~_read_data` |
| libfsapfs_compressed_data_handle.c | 4 | 5 | `~_free`° |
| libfsapfs_compressed_data_header.c | 1 | 3 | `~_initialize`°, `~_free`° |
| libfsapfs_compression.c | 1 | 1 |  |
| libfsapfs_container.c | 12 | 13 | `~_signal_abort` |
| libfsapfs_container_data_handle.c | 1 | 3 | `~_initialize`°, `~_free`° |
| libfsapfs_container_key_bag.c | 5 | 6 | `~_free`° |
| libfsapfs_container_reaper.c | 2 | 4 | `~_initialize`°, `~_free`° |
| libfsapfs_container_superblock.c | 4 | 5 | `~_free`° |
| libfsapfs_data_block.c | 2 | 4 | `~_free`°, `~_clear_data` |
| libfsapfs_data_block_data_handle.c | 3 | 4 | `~_free`° |
| libfsapfs_data_block_vector.c | 1 | 1 |  |
| libfsapfs_data_stream.c | 3 | 3 |  |
| libfsapfs_debug.c | 0 | 20 | `~_print_btree_flags`, `~_print_btree_node_flags`, `~_print_checkpoint_flags`, `~_print_container_compatible_features_flags`, `~_print_container_incompatible_features_flags`, `~_print_container_read_only_compatible_features_flags`, `~_print_directory_entry_flags`, `~_print_extended_attribute_flags`, `~_print_extended_field_flags`, `~_print_inode_flags`, `~_print_volume_compatible_features_flags`, `~_print_volume_flags`, `~_print_volume_incompatible_features_flags`, `~_print_volume_read_only_compatible_features_flags`, `~_print_file_system_data_type`, `~_print_directory_record_extended_field_type`, `~_print_inode_extended_field_type`, `~_print_posix_time_value`, `~_print_guid_value`, `~_print_read_offsets` |
| libfsapfs_deflate.c | 9 | 9 |  |
| libfsapfs_directory_record.c | 8 | 13 | `~_initialize`°, `~_free`°, `~_clone`°, `~_get_identifier`, `~_get_added_time` |
| libfsapfs_encryption_context.c | 2 | 5 | `~_initialize`°, `~_free`°, `~_set_keys` |
| libfsapfs_error.c | 0 | 5 | `~_free`, `~_fprint`, `~_sprint`, `~_backtrace_fprint`, `~_backtrace_sprint` |
| libfsapfs_extended_attribute.c | 15 | 16 | `~_get_data_stream` |
| libfsapfs_extent_reference_tree.c | 2 | 4 | `~_initialize`°, `~_free`° |
| libfsapfs_file_entry.c | 49 | 49 |  |
| libfsapfs_file_extent.c | 2 | 4 | `~_initialize`°, `~_free`° |
| libfsapfs_file_system.c | 5 | 5 |  |
| libfsapfs_file_system_btree.c | 22 | 25 | `~_free`°, `~_get_inode_by_utf8_name`°, `~_get_inode_by_utf16_name`° |
| libfsapfs_file_system_data_handle.c | 1 | 3 | `~_initialize`°, `~_free`° |
| libfsapfs_fusion_middle_tree.c | 2 | 4 | `~_initialize`°, `~_free`° |
| libfsapfs_huffman_tree.c | 3 | 4 | `~_free`° |
| libfsapfs_inode.c | 17 | 23 | `~_initialize`°, `~_free`°, `~_get_device_identifier`, `~_get_flags`, `~_get_data_stream_identifier`, `~_get_data_stream_size` |
| libfsapfs_io_handle.c | 0 | 3 | `~_initialize`°, `~_free`°, `~_clear` |
| libfsapfs_key_bag_entry.c | 1 | 3 | `~_initialize`°, `~_free`° |
| libfsapfs_key_bag_header.c | 1 | 3 | `~_initialize`°, `~_free`° |
| libfsapfs_key_encrypted_key.c | 3 | 5 | `~_initialize`°, `~_free`° |
| libfsapfs_name.c | 2 | 2 |  |
| libfsapfs_name_hash.c | 2 | 2 |  |
| libfsapfs_notify.c | 1 | 4 | `~_set_stream`, `~_stream_open`, `~_stream_close` |
| libfsapfs_object.c | 1 | 4 | `~_initialize`°, `~_free`°, `~_read_file_io_handle` |
| libfsapfs_object_map.c | 2 | 4 | `~_free`°, `~_read_file_io_handle` |
| libfsapfs_object_map_btree.c | 5 | 7 | `~_initialize`°, `~_free`° |
| libfsapfs_object_map_descriptor.c | 2 | 4 | `~_initialize`°, `~_free`° |
| libfsapfs_password.c | 1 | 1 |  |
| libfsapfs_profiler.c | 0 | 6 | `~_initialize`, `~_free`, `~_open`, `~_close`, `~_start_timing`, `~_stop_timing` |
| libfsapfs_snapshot.c | 8 | 8 |  |
| libfsapfs_snapshot_metadata.c | 3 | 8 | `~_initialize`°, `~_free`°, `~_get_utf8_name`, `~_get_utf16_name_size`, `~_get_utf16_name` |
| libfsapfs_snapshot_metadata_tree.c | 9 | 11 | `~_initialize`°, `~_free`° |
| libfsapfs_space_manager.c | 2 | 4 | `~_initialize`°, `~_free`° |
| libfsapfs_support.c | 6 | 10 | `libfsapfs_get_version`, `libfsapfs_get_access_flags_read`, `libfsapfs_get_codepage`, `libfsapfs_set_codepage` |
| libfsapfs_volume.c | 26 | 26 |  |
| libfsapfs_volume_key_bag.c | 3 | 5 | `~_initialize`°, `~_free`° |
| libfsapfs_volume_superblock.c | 6 | 9 | `~_initialize`°, `~_free`°, `~_read_file_io_handle` |
