{"id": "C01", "title": "MD5 streaming digest is RFC 1321 MD5", "statement": "If a MD5 context is initialised, fed a message by any sequence of successful update calls and finalised, the 16 bytes stored are the MD5 digest of the concatenated message as RFC 1321 defines it. This includes messages of 2^61 bytes and more, for which RFC 1321 uses only the low 64 bits of the bit length.", "quantifier": "every message of any length, every way of cutting it into update calls (including empty ones)", "why_tests_cant": "The set of messages and cuts is infinite; the test-suite has a handful of vectors, and none crosses the 2^64 bit length wrap.", "anchors": ["libhmac/libhmac_md5_context.c: libhmac_md5_context_initialize, _update, _finalize, _transform"]}
{"id": "C02", "title": "SHA-1 streaming digest is FIPS 180 SHA-1", "statement": "If a SHA-1 context is initialised, fed a message by any sequence of successful update calls and finalised, the 20 bytes stored are the SHA-1 digest (FIPS 180-4 / RFC 3174) of the concatenated message.", "quantifier": "every message shorter than 2^61 bytes (the standard's own limit of 2^64 bits), every way of cutting it into update calls", "why_tests_cant": "Infinite domain; padding has one behaviour per residue of the length modulo 64 and the length field has one per 64-bit value.", "anchors": ["libhmac/libhmac_sha1_context.c: libhmac_sha1_context_initialize, _update, _finalize, _transform"]}
{"id": "C03", "title": "SHA-224 streaming digest is FIPS 180 SHA-224", "statement": "If a SHA-224 context is initialised, fed a message by any sequence of successful update calls and finalised, the 28 bytes stored are the SHA-224 digest (FIPS 180-4) of the concatenated message.", "quantifier": "every message shorter than 2^61 bytes, every way of cutting it into update calls", "why_tests_cant": "Infinite domain.", "anchors": ["libhmac/libhmac_sha224_context.c: libhmac_sha224_context_initialize, _update, _finalize, _transform"]}
{"id": "C04", "title": "SHA-256 streaming digest is FIPS 180 SHA-256", "statement": "If a SHA-256 context is initialised, fed a message by any sequence of successful update calls and finalised, the 32 bytes stored are the SHA-256 digest (FIPS 180-4) of the concatenated message.", "quantifier": "every message shorter than 2^61 bytes, every way of cutting it into update calls", "why_tests_cant": "Infinite domain.", "anchors": ["libhmac/libhmac_sha256_context.c: libhmac_sha256_context_initialize, _update, _finalize, _transform"]}
{"id": "C05", "title": "SHA-512 streaming digest is FIPS 180 SHA-512", "statement": "If a SHA-512 context is initialised, fed a message by any sequence of successful update calls and finalised, the 64 bytes stored are the SHA-512 digest (FIPS 180-4, 128-bit length field) of the concatenated message.", "quantifier": "every message shorter than 2^128 bits allowed by the standard, every way of cutting it into update calls", "why_tests_cant": "Infinite domain; the code writes only a 64-bit length, so the claim can only be expected below 2^61 bytes and no test can reach beyond.", "anchors": ["libhmac/libhmac_sha512_context.c: libhmac_sha512_context_initialize, _update, _finalize, _transform"]}
{"id": "C06", "title": "Digest depends only on the concatenation of the updates", "statement": "Two contexts of the same algorithm that received the same byte string through differently cut update calls give the same digest; the cut points are unobservable.", "quantifier": "every pair of update histories with equal concatenation, all five algorithms, any total length", "why_tests_cant": "Quantifies over pairs of unbounded histories.", "anchors": ["libhmac/libhmac_md5_context.c: libhmac_md5_context_initialize, _update, _finalize, _transform", "libhmac/libhmac_sha1_context.c: libhmac_sha1_context_initialize, _update, _finalize, _transform", "libhmac/libhmac_sha224_context.c: libhmac_sha224_context_initialize, _update, _finalize, _transform", "libhmac/libhmac_sha256_context.c: libhmac_sha256_context_initialize, _update, _finalize, _transform", "libhmac/libhmac_sha512_context.c: libhmac_sha512_context_initialize, _update, _finalize, _transform"]}
{"id": "C07", "title": "Empty updates and rejected updates are invisible", "statement": "An update of zero bytes returns 1 and an update with invalid arguments (NULL buffer, size above SSIZE_MAX) returns -1; both leave the context exactly as it was, so inserting them anywhere in a history never changes the digest.", "quantifier": "every history, every insertion point, every out-of-range size", "why_tests_cant": "Needs all insertion points in all histories; tests only look at the return code of a rejected call.", "anchors": ["libhmac/libhmac_md5_context.c: libhmac_md5_context_update", "libhmac/libhmac_sha1_context.c: libhmac_sha1_context_update", "libhmac/libhmac_sha224_context.c: libhmac_sha224_context_update", "libhmac/libhmac_sha256_context.c: libhmac_sha256_context_update", "libhmac/libhmac_sha512_context.c: libhmac_sha512_context_update"]}
{"id": "C08", "title": "One-shot calculate equals the standard digest", "statement": "libhmac_X_calculate returns 1 and stores the standard digest of the buffer, the same bytes the streaming interface gives for any cutting of the buffer.", "quantifier": "every buffer, all five algorithms, whenever memory can be allocated", "why_tests_cant": "Infinite domain.", "anchors": ["libhmac/libhmac_md5.c: libhmac_md5_calculate", "libhmac/libhmac_sha1.c: libhmac_sha1_calculate", "libhmac/libhmac_sha224.c: libhmac_sha224_calculate", "libhmac/libhmac_sha256.c: libhmac_sha256_calculate", "libhmac/libhmac_sha512.c: libhmac_sha512_calculate"]}
{"id": "C09", "title": "HMAC equals RFC 2104", "statement": "libhmac_X_calculate_hmac returns 1 and stores H((K' xor opad) || H((K' xor ipad) || message)), where K' is the key, or its hash when longer than the block, zero padded to the block size (64 bytes, 128 for SHA-512).", "quantifier": "every key (empty, shorter, equal, longer than the block), every message, all five algorithms", "why_tests_cant": "Infinite domain of (key, message) pairs; tests use RFC vectors only.", "anchors": ["libhmac/libhmac_md5.c: libhmac_md5_calculate_hmac", "libhmac/libhmac_sha1.c: libhmac_sha1_calculate_hmac", "libhmac/libhmac_sha224.c: libhmac_sha224_calculate_hmac", "libhmac/libhmac_sha256.c: libhmac_sha256_calculate_hmac", "libhmac/libhmac_sha512.c: libhmac_sha512_calculate_hmac"]}
{"id": "C10", "title": "HMAC key normalisation", "statement": "A key of at most block-size bytes gives the same HMAC as that key with zero bytes appended up to the block size, and a longer key gives the same HMAC as its own digest used as key.", "quantifier": "every key and message, all five algorithms", "why_tests_cant": "Relational property over all pairs of keys.", "anchors": ["libhmac/libhmac_md5.c: libhmac_md5_calculate_hmac lines 320-440", "libhmac/libhmac_sha1.c: libhmac_sha1_calculate_hmac lines 320-440", "libhmac/libhmac_sha224.c: libhmac_sha224_calculate_hmac lines 320-440", "libhmac/libhmac_sha256.c: libhmac_sha256_calculate_hmac lines 320-440", "libhmac/libhmac_sha512.c: libhmac_sha512_calculate_hmac lines 320-440"]}
{"id": "C11", "title": "Output buffers: exactly the digest is written", "statement": "A successful finalize, calculate or calculate_hmac with an output buffer of any accepted size changes exactly the first HASH_SIZE bytes and leaves every later byte of the buffer as it was; nothing outside the buffer is written.", "quantifier": "every accepted output size, every prior content of the output buffer, every message and key", "why_tests_cant": "Over-writes depend on size and content; tests pass exactly-sized buffers.", "anchors": ["libhmac/libhmac_md5_context.c: libhmac_md5_context_finalize", "libhmac/libhmac_sha1_context.c: libhmac_sha1_context_finalize", "libhmac/libhmac_sha224_context.c: libhmac_sha224_context_finalize", "libhmac/libhmac_sha256_context.c: libhmac_sha256_context_finalize", "libhmac/libhmac_sha512_context.c: libhmac_sha512_context_finalize"]}
{"id": "C12", "title": "finalize rejects bad arguments without effect", "statement": "finalize returns -1 for a NULL context, a NULL output, an output size below the digest size or above SSIZE_MAX, and in these cases neither the context nor the output buffer changes; it returns 1 otherwise.", "quantifier": "every context state, every output size", "why_tests_cant": "The size domain is 2^64 values and the no-effect clause is about all states.", "anchors": ["libhmac/libhmac_md5_context.c: libhmac_md5_context_finalize", "libhmac/libhmac_sha1_context.c: libhmac_sha1_context_finalize", "libhmac/libhmac_sha224_context.c: libhmac_sha224_context_finalize", "libhmac/libhmac_sha256_context.c: libhmac_sha256_context_finalize", "libhmac/libhmac_sha512_context.c: libhmac_sha512_context_finalize"]}
{"id": "C13", "title": "No undefined behaviour in the hashing API", "statement": "For every sequence of initialize, update, finalize and free calls whose non-NULL buffers really have the stated number of bytes, no out-of-bounds access, NULL dereference, over-wide shift or read of an indeterminate value takes place.", "quantifier": "every call sequence, every size, every content", "why_tests_cant": "Memory safety for all inputs and histories cannot be sampled.", "anchors": ["libhmac/libhmac_md5_context.c: libhmac_md5_context_initialize, _update, _finalize, _transform", "libhmac/libhmac_sha1_context.c: libhmac_sha1_context_initialize, _update, _finalize, _transform", "libhmac/libhmac_sha224_context.c: libhmac_sha224_context_initialize, _update, _finalize, _transform", "libhmac/libhmac_sha256_context.c: libhmac_sha256_context_initialize, _update, _finalize, _transform", "libhmac/libhmac_sha512_context.c: libhmac_sha512_context_initialize, _update, _finalize, _transform"]}
{"id": "C14", "title": "Context invariant", "statement": "After every successful call sequence the context has fewer than block-size buffered bytes, those are the tail of the message, and its processed counter equals the number of whole blocks times the block size (modulo 2^64).", "quantifier": "every call history, including reuse after finalize and rejected calls", "why_tests_cant": "Induction over unbounded histories.", "anchors": ["libhmac/libhmac_md5_context.c: libhmac_md5_context_initialize, _update, _finalize, _transform", "libhmac/libhmac_sha1_context.c: libhmac_sha1_context_initialize, _update, _finalize, _transform", "libhmac/libhmac_sha224_context.c: libhmac_sha224_context_initialize, _update, _finalize, _transform", "libhmac/libhmac_sha256_context.c: libhmac_sha256_context_initialize, _update, _finalize, _transform", "libhmac/libhmac_sha512_context.c: libhmac_sha512_context_initialize, _update, _finalize, _transform"]}
{"id": "C15", "title": "finalize wipes the context", "statement": "After a successful finalize the whole context structure (counter, chaining value, buffered bytes including both padding blocks) is zero, so no message-derived data remains in it.", "quantifier": "every message and history", "why_tests_cant": "Tests never look inside the context; must hold for all lengths (one or two padding blocks).", "anchors": ["libhmac/libhmac_md5_context.c: libhmac_md5_context_finalize", "libhmac/libhmac_sha1_context.c: libhmac_sha1_context_finalize", "libhmac/libhmac_sha224_context.c: libhmac_sha224_context_finalize", "libhmac/libhmac_sha256_context.c: libhmac_sha256_context_finalize", "libhmac/libhmac_sha512_context.c: libhmac_sha512_context_finalize"]}
{"id": "C16", "title": "A finalised context does not restart the standard hash", "statement": "Updating and finalising a context again after finalize succeeds, but computes the hash chain from the all-zero chaining value, not from the initial value of the standard: the caller must free and re-initialise to hash another message. The precise function computed is the zero-IV Merkle-Damgard hash.", "quantifier": "every first message, every second message, every cutting", "why_tests_cant": "Behavioural claim about all histories with two finalize calls.", "anchors": ["libhmac/libhmac_md5_context.c: libhmac_md5_context_initialize, _update, _finalize, _transform", "libhmac/libhmac_sha1_context.c: libhmac_sha1_context_initialize, _update, _finalize, _transform", "libhmac/libhmac_sha224_context.c: libhmac_sha224_context_initialize, _update, _finalize, _transform", "libhmac/libhmac_sha256_context.c: libhmac_sha256_context_initialize, _update, _finalize, _transform", "libhmac/libhmac_sha512_context.c: libhmac_sha512_context_initialize, _update, _finalize, _transform"]}
{"id": "C17", "title": "Initialize / free life cycle", "statement": "initialize succeeds only on a NULL context slot and never overwrites a live one; free releases exactly the slot's context and sets it to NULL; free of a NULL slot is a successful no-op, so double free through the slot is harmless; no history of these calls leaks or double-frees.", "quantifier": "every sequence of initialize and free calls on one slot, every allocation failure schedule", "why_tests_cant": "Histories and failure schedules are unbounded.", "anchors": ["libhmac/libhmac_md5_context.c: libhmac_md5_context_initialize, libhmac_md5_context_free", "libhmac/libhmac_sha1_context.c: libhmac_sha1_context_initialize, libhmac_sha1_context_free", "libhmac/libhmac_sha224_context.c: libhmac_sha224_context_initialize, libhmac_sha224_context_free", "libhmac/libhmac_sha256_context.c: libhmac_sha256_context_initialize, libhmac_sha256_context_free", "libhmac/libhmac_sha512_context.c: libhmac_sha512_context_initialize, libhmac_sha512_context_free"]}
{"id": "C18", "title": "calculate under allocation failure and bad arguments", "statement": "libhmac_X_calculate returns 1 if and only if the buffer and output are non-NULL, sizes are in range and the allocation succeeds; otherwise it returns -1 with the output unchanged; in every case no memory is leaked.", "quantifier": "every argument combination, every allocation outcome", "why_tests_cant": "Product of unbounded argument domains and failure outcomes.", "anchors": ["libhmac/libhmac_md5.c: libhmac_md5_calculate", "libhmac/libhmac_sha1.c: libhmac_sha1_calculate", "libhmac/libhmac_sha224.c: libhmac_sha224_calculate", "libhmac/libhmac_sha256.c: libhmac_sha256_calculate", "libhmac/libhmac_sha512.c: libhmac_sha512_calculate"]}
{"id": "C19", "title": "calculate_hmac never leaks, for every failure schedule", "statement": "Whatever subset of its (five or six) allocations fails and whatever arguments are passed, calculate_hmac frees everything it allocated exactly once before returning.", "quantifier": "every allocation failure schedule, every argument combination", "why_tests_cant": "Exhausting the schedules times the argument cases is not done by tests (only first-failure sweeps on OpenSSL-less builds).", "anchors": ["libhmac/libhmac_md5.c: libhmac_md5_calculate_hmac", "libhmac/libhmac_sha1.c: libhmac_sha1_calculate_hmac", "libhmac/libhmac_sha224.c: libhmac_sha224_calculate_hmac", "libhmac/libhmac_sha256.c: libhmac_sha256_calculate_hmac", "libhmac/libhmac_sha512.c: libhmac_sha512_calculate_hmac"]}
{"id": "C20", "title": "calculate_hmac result code", "statement": "calculate_hmac returns 1 if and only if key, buffer and output are non-NULL, key size and buffer size and output size are at most SSIZE_MAX, the output size is at least the digest size and every allocation succeeds; otherwise it returns -1.", "quantifier": "every argument combination, every allocation failure schedule", "why_tests_cant": "Unbounded argument domain times failure schedules.", "anchors": ["libhmac/libhmac_md5.c: libhmac_md5_calculate_hmac", "libhmac/libhmac_sha1.c: libhmac_sha1_calculate_hmac", "libhmac/libhmac_sha224.c: libhmac_sha224_calculate_hmac", "libhmac/libhmac_sha256.c: libhmac_sha256_calculate_hmac", "libhmac/libhmac_sha512.c: libhmac_sha512_calculate_hmac"]}
{"id": "C21", "title": "calculate_hmac output may alias its inputs", "statement": "The HMAC output area may overlap the key or message area in any way: the result is still the HMAC of the key and message contents at call time, because output is written only after all input was read.", "quantifier": "every overlap of the three memory areas, every content", "why_tests_cant": "All relative placements of three areas in memory.", "anchors": ["libhmac/libhmac_md5.c: libhmac_md5_calculate_hmac", "libhmac/libhmac_sha1.c: libhmac_sha1_calculate_hmac", "libhmac/libhmac_sha224.c: libhmac_sha224_calculate_hmac", "libhmac/libhmac_sha256.c: libhmac_sha256_calculate_hmac", "libhmac/libhmac_sha512.c: libhmac_sha512_calculate_hmac"]}
{"id": "C22", "title": "A failed calculate_hmac never leaves a valid HMAC; partial output is the inner hash or nothing", "statement": "When calculate_hmac returns -1, the output area is either unchanged or (only when an allocation fails after the inner pass) its first HASH_SIZE bytes hold the inner hash; bytes beyond the digest size never change.", "quantifier": "every failure schedule, every argument combination", "why_tests_cant": "Crash/failure point quantification.", "anchors": ["libhmac/libhmac_md5.c: libhmac_md5_calculate_hmac", "libhmac/libhmac_sha1.c: libhmac_sha1_calculate_hmac", "libhmac/libhmac_sha224.c: libhmac_sha224_calculate_hmac", "libhmac/libhmac_sha256.c: libhmac_sha256_calculate_hmac", "libhmac/libhmac_sha512.c: libhmac_sha512_calculate_hmac"]}
{"id": "C23", "title": "Unrolled and loop block transforms agree", "statement": "The two compile-time variants of each block transform (unrolled macros and loops, LIBHMAC_UNFOLLED_LOOPS) compute the same chaining value for every block and state, so the build option is unobservable in digests.", "quantifier": "every chaining value and every block, all five algorithms", "why_tests_cant": "2^(256+512) or more inputs per algorithm; a test build contains only one variant.", "anchors": ["libhmac/libhmac_md5_context.c: libhmac_md5_context_transform and unfolded macros", "libhmac/libhmac_sha1_context.c: libhmac_sha1_context_transform and unfolded macros", "libhmac/libhmac_sha224_context.c: libhmac_sha224_context_transform and unfolded macros", "libhmac/libhmac_sha256_context.c: libhmac_sha256_context_transform and unfolded macros", "libhmac/libhmac_sha512_context.c: libhmac_sha512_context_transform and unfolded macros"]}
{"id": "C24", "title": "Transform consumes exactly the whole blocks", "statement": "The block transform processes exactly the whole blocks contained in its buffer in order, returns the number of bytes consumed (size rounded down to the block size), never reads the remaining tail, and rejects NULL and oversized arguments with -1 and no effect.", "quantifier": "every buffer and size", "why_tests_cant": "All sizes and contents.", "anchors": ["libhmac/libhmac_md5_context.c: libhmac_md5_context_transform", "libhmac/libhmac_sha1_context.c: libhmac_sha1_context_transform", "libhmac/libhmac_sha224_context.c: libhmac_sha224_context_transform", "libhmac/libhmac_sha256_context.c: libhmac_sha256_context_transform", "libhmac/libhmac_sha512_context.c: libhmac_sha512_context_transform"]}
{"id": "C25", "title": "Transform leaves no message-derived scratch data", "statement": "When the block transform returns successfully, its local copies of the chaining value and of the message schedule have been zeroed completely.", "quantifier": "every buffer, size and state, all five algorithms", "why_tests_cant": "Residue on the stack is invisible to tests; must hold for all data.", "anchors": ["libhmac/libhmac_md5_context.c: libhmac_md5_context_transform, final memory_set calls", "libhmac/libhmac_sha1_context.c: libhmac_sha1_context_transform, final memory_set calls", "libhmac/libhmac_sha224_context.c: libhmac_sha224_context_transform, final memory_set calls", "libhmac/libhmac_sha256_context.c: libhmac_sha256_context_transform, final memory_set calls", "libhmac/libhmac_sha512_context.c: libhmac_sha512_context_transform, final memory_set calls"]}
{"id": "C26", "title": "calculate_hmac wipes key material it allocated", "statement": "On return, with either result, every heap buffer that calculate_hmac filled with key-derived data (padded key, inner pad, outer pad, hash contexts) was zero at the moment it was freed, and no key-derived data is left in its locals.", "quantifier": "every key, message, argument combination and failure schedule", "why_tests_cant": "Content of freed memory for all failure points.", "anchors": ["libhmac/libhmac_md5.c: libhmac_md5_calculate_hmac", "libhmac/libhmac_sha1.c: libhmac_sha1_calculate_hmac", "libhmac/libhmac_sha224.c: libhmac_sha224_calculate_hmac", "libhmac/libhmac_sha256.c: libhmac_sha256_calculate_hmac", "libhmac/libhmac_sha512.c: libhmac_sha512_calculate_hmac"]}
{"id": "C27", "title": "Byte order conversions are exact inverses", "statement": "The big- and little-endian load and store macros for 16, 24, 32, 48 and 64 bit values are mutual inverses and agree with the positional value of the bytes, independent of host byte order.", "quantifier": "every value and every byte string", "why_tests_cant": "2^64 values per macro.", "anchors": ["common/byte_stream.h: byte_stream_copy_to_*, byte_stream_copy_from_*", "libhmac/libhmac_byte_stream.h: libhmac_byte_stream_copy_to_*"]}
{"id": "C28", "title": "Rotations are true rotations", "statement": "The 32 and 64 bit rotate macros rotate by exactly the given amount and never shift by the full width, for every amount used by the library; rotating left then right by the same amount is the identity.", "quantifier": "every value, every amount from 1 to width-1", "why_tests_cant": "2^32 * 31 and 2^64 * 63 cases.", "anchors": ["common/byte_stream.h: byte_stream_bit_rotate_left_*, byte_stream_bit_rotate_right_*"]}
{"id": "C29", "title": "Constant tables are the standard's mathematical constants", "statement": "The round constants and initial values are the ones the standards define: fractional parts of cube and square roots of the first primes for SHA-2, floor(2^32*|sin i|) for MD5, 2^30 times square roots for SHA-1.", "quantifier": "every table entry (complete finite tables) against a mathematical definition over the reals/primes", "why_tests_cant": "A unit test vector exercises the tables only through a digest; here each entry is tied to its definition.", "anchors": ["libhmac/libhmac_sha256_context.c:47-71", "libhmac/libhmac_sha224_context.c:47-71", "libhmac/libhmac_sha512_context.c:47-75", "libhmac/libhmac_md5_context.c:48-93", "libhmac/libhmac_sha1_context.c:47-49"]}
{"id": "C30", "title": "Contexts are independent", "statement": "Operations on different contexts may be interleaved in any order: each context's digest depends only on the operations applied to it.", "quantifier": "every interleaving of the histories of any number of contexts of any mix of algorithms", "why_tests_cant": "All interleavings of unbounded histories.", "anchors": ["libhmac/libhmac_*_context.c: all functions use only the passed context"]}
{"id": "C31", "title": "Deprecated function set is equivalent", "statement": "libhmac_X_initialize, _update, _finalize and _free have the same observable behaviour as the libhmac_X_context_* functions for every argument and state, and may be mixed freely with them.", "quantifier": "every state and argument, every mixed history", "why_tests_cant": "Mixed histories are unbounded.", "anchors": ["libhmac/libhmac_md5.c:35-138", "libhmac/libhmac_sha1.c:35-138", "libhmac/libhmac_sha224.c:35-138", "libhmac/libhmac_sha256.c:35-138", "libhmac/libhmac_sha512.c:35-138"]}
{"id": "C32", "title": "Padding is injective: digest collisions come from the compression function", "statement": "Two different messages (of lengths within the standard's limit) are always compressed as different block sequences; hence any digest collision of the implementation contains a collision (or output-truncation collision) of the block transform.", "quantifier": "every pair of different messages", "why_tests_cant": "Pairs of unbounded messages.", "anchors": ["libhmac/libhmac_md5_context.c: libhmac_md5_context_finalize", "libhmac/libhmac_sha1_context.c: libhmac_sha1_context_finalize", "libhmac/libhmac_sha224_context.c: libhmac_sha224_context_finalize", "libhmac/libhmac_sha256_context.c: libhmac_sha256_context_finalize", "libhmac/libhmac_sha512_context.c: libhmac_sha512_context_finalize"]}
{"id": "C33", "title": "Number of block transforms is minimal and exact", "statement": "Hashing n bytes runs the block transform on exactly floor((n + L) / B) + 1 blocks (B the block size; L the 8, for SHA-512 16, bytes of the length field), the smallest number of blocks that holds the message, one padding byte and the length field, independent of the cutting; finalize itself processes one or two blocks.", "quantifier": "every message length and cutting", "why_tests_cant": "All lengths and cuts.", "anchors": ["libhmac/libhmac_md5_context.c: libhmac_md5_context_finalize", "libhmac/libhmac_sha1_context.c: libhmac_sha1_context_finalize", "libhmac/libhmac_sha224_context.c: libhmac_sha224_context_finalize", "libhmac/libhmac_sha256_context.c: libhmac_sha256_context_finalize", "libhmac/libhmac_sha512_context.c: libhmac_sha512_context_finalize"]}
{"id": "C34", "title": "SHA-224 and SHA-256 share the compression; SHA-224 is not a SHA-256 prefix by construction", "statement": "The SHA-224 context runs the same transform as SHA-256 from its own initial value and outputs the first seven chaining words; consequently the two contexts fed the same message process the same padded blocks.", "quantifier": "every message and cutting", "why_tests_cant": "All messages.", "anchors": ["libhmac/libhmac_sha224_context.c", "libhmac/libhmac_sha256_context.c"]}
{"id": "C35", "title": "Hex digest string", "statement": "digest_hash_copy_to_string stores exactly 2n lowercase hexadecimal characters followed by a terminator, such that decoding gives back the n digest bytes; it returns -1 without writing for NULL arguments or a string size below 2n+1 or sizes above SSIZE_MAX, and never writes beyond 2n+1 characters.", "quantifier": "every digest, every string size and prior content", "why_tests_cant": "All digests and sizes.", "anchors": ["hmactools/digest_hash.c: digest_hash_copy_to_string"]}
{"id": "C36", "title": "hmacsum prints the digests of the whole file", "statement": "If processing the input returns success without an abort, each enabled digest string is the hex form of the standard digest of the complete file contents, whatever the process buffer size and however the reads are shortened by the operating system.", "quantifier": "every file content, every process buffer size, every schedule of (possibly short) reads, every subset of digests", "why_tests_cant": "All files, sizes and read schedules.", "anchors": ["hmactools/sum_handle.c: sum_handle_process_input, sum_handle_update_integrity_hash, sum_handle_finalize_integrity_hash"]}
{"id": "C37", "title": "Read failure or premature end of data is an error", "statement": "If a read fails or returns no data before the size reported for the file was processed, processing returns -1 and no digest string is produced.", "quantifier": "every file, every failing read position and buffer size", "why_tests_cant": "All failure positions.", "anchors": ["hmactools/sum_handle.c: sum_handle_process_input"]}
{"id": "C38", "title": "Abort stops after the current buffer and the tool reports failure", "statement": "If an abort is signalled during processing, at most one further buffer is hashed, and the tool exits with failure without printing digests.", "quantifier": "every file, every abort moment", "why_tests_cant": "All signal moments.", "anchors": ["hmactools/sum_handle.c: sum_handle_process_input, sum_handle_signal_abort", "hmactools/hmacsum.c: main"]}
{"id": "C39", "title": "A sum handle can process only once", "statement": "A second process call on the same handle fails instead of returning a digest of mixed data; it never reports success with a digest other than the one of the data it read.", "quantifier": "every handle state reachable by calls", "why_tests_cant": "Histories.", "anchors": ["hmactools/sum_handle.c: sum_handle_process_input, sum_handle_initialize_integrity_hash"]}
{"id": "C40", "title": "Digest type selection", "statement": "The digest list enables exactly the algorithms named in it in one of the accepted spellings (plus those already enabled, MD5 by default); unknown names are ignored; order and repetition do not matter.", "quantifier": "every string", "why_tests_cant": "All strings.", "anchors": ["hmactools/sum_handle.c: sum_handle_set_digest_types"]}
{"id": "C41", "title": "Byte size strings are parsed to their value", "statement": "For digits followed by an optional factor letter (K, M, G, T, P, E, Z, Y in either case) and optional unit (none or iB = 1024, B = 1000), conversion returns digits * unit^factor when this fits 64 bits.", "quantifier": "every number, factor and unit combination", "why_tests_cant": "All strings.", "anchors": ["hmactools/byte_size_string.c: byte_size_string_convert"]}
{"id": "C42", "title": "Byte size conversion stays in bounds and terminates", "statement": "Conversion of any NUL-terminated string reads only up to and including its terminator, terminates and returns 1 or -1; on -1 the result variable is unchanged.", "quantifier": "every NUL-terminated string", "why_tests_cant": "All strings.", "anchors": ["hmactools/byte_size_string.c: byte_size_string_convert"]}
{"id": "C43", "title": "Byte size formatting", "statement": "byte_size_string_create for units 1000 or 1024 terminates, always returns 1 for a string length of at least 9, writes at most 8 characters and a terminator, leaves the rest of the string alone and shows floor(size / units^factor) for the largest factor that is not above the size, with the letter of that factor.", "quantifier": "every 64-bit size", "why_tests_cant": "2^64 sizes.", "anchors": ["hmactools/byte_size_string.c: byte_size_string_create"]}
{"id": "C44", "title": "Formatted sizes parse back", "statement": "The text created for a size parses back to a value that is not above the size and less than one factor (1000^f or 1024^f) below it, and less than an eighth of the factor below it if a fraction is shown.", "quantifier": "every 64-bit size", "why_tests_cant": "2^64 sizes.", "anchors": ["hmactools/byte_size_string.c"]}
{"id": "C45", "title": "Process buffer size option", "statement": "After setting the process buffer size the handle holds a size between 0 and SSIZE_MAX; unsupported values leave the previous size; processing with size 0 fails rather than loops forever.", "quantifier": "every string", "why_tests_cant": "All strings.", "anchors": ["hmactools/sum_handle.c: sum_handle_set_process_buffer_size", "hmactools/hmacsum.c: main"]}
{"id": "C46", "title": "Fallback option parser", "statement": "The replacement getopt returns the options of well-formed command lines in order with their arguments and terminates; it never reads outside the argument strings.", "quantifier": "every argument vector", "why_tests_cant": "All argument vectors.", "anchors": ["hmactools/hmactools_getopt.c: hmactools_getopt"]}
{"id": "C47", "title": "Python contexts behave as the C streaming interface", "statement": "A Python context object fed any sequence of bytes objects and finalised returns the standard digest of the concatenation; calculate and calculate_hmac return the standard digest and HMAC of their arguments; every non-bytes argument raises and has no effect.", "quantifier": "every sequence of Python calls", "why_tests_cant": "Histories.", "anchors": ["pyhmac/pyhmac_*_context.c", "pyhmac/pyhmac_sha256.c"]}
{"id": "C48", "title": "OpenSSL backends refine the built-in one", "statement": "Assuming the cryptographic library computes the standard hash, a libhmac build with the OpenSSL one-shot or EVP backend returns the same result codes and digests as the built-in implementation for every valid single-message history.", "quantifier": "every history of update calls, every message", "why_tests_cant": "All histories; a test build has one backend.", "anchors": ["libhmac/libhmac_md5_context.c: HAVE_LIBCRYPTO branches", "libhmac/libhmac_sha1_context.c: HAVE_LIBCRYPTO branches", "libhmac/libhmac_sha224_context.c: HAVE_LIBCRYPTO branches", "libhmac/libhmac_sha256_context.c: HAVE_LIBCRYPTO branches", "libhmac/libhmac_sha512_context.c: HAVE_LIBCRYPTO branches"]}
{"id": "C49", "title": "Any sequence of sum handle calls is safe and releases its memory", "statement": "Every sequence of calls of the sum handle functions on a handle variable terminates without undefined behaviour (no access outside a buffer, of freed memory or through NULL, no double free), and when the handle is freed at the end all memory allocated by the calls has been released.", "quantifier": "every sequence of calls including misuse, every outcome of allocations, every file, read schedule, signal moment and option string", "why_tests_cant": "Histories and allocation failures.", "anchors": ["hmactools/sum_handle.c: all functions"]}
{"id": "C50", "title": "Exit status and output of hmacsum", "statement": "If hmacsum ends with exit status 0 it has shown the usage text, the copyright text, or the correct hexadecimal digests of the file for MD5 and every selected algorithm and nothing else; a wrong digest is never printed, whatever the exit status; and it does succeed on a readable file when nothing fails. Without a source it fails.", "quantifier": "every command line, file, read schedule, allocation outcome and signal moment", "why_tests_cant": "All command lines, files and failures.", "anchors": ["hmactools/hmacsum.c: main", "hmactools/sum_handle.c", "hmactools/hmactools_getopt.c"]}
{"id": "C51", "title": "hmacsum is memory safe and releases its memory", "statement": "hmacsum terminates without undefined behaviour and releases all contexts, buffers, strings and handles it allocated before it exits.", "quantifier": "every command line, file, read schedule, allocation outcome and signal moment", "why_tests_cant": "All command lines and allocation failures.", "anchors": ["hmactools/hmacsum.c: main", "hmactools/sum_handle.c", "hmactools/hmactools_getopt.c"]}
{"id": "C52", "title": "One-shot functions in the builds with a crypto library", "statement": "In every build that uses a crypto library, the one-shot digest and HMAC functions return 1 or -1 without undefined behaviour; with valid arguments (sizes within the limits of the build) and no failure they return 1; whenever they return 1, whatever calls of the library failed before or would fail, the stored value is the standard digest or RFC 2104 HMAC of the bytes at call time; they release every context and buffer they allocated, the buffers with key material after clearing them; they write at most the digest at the start of the output area. With a good library, results and stored values are those of the built-in implementation.", "quantifier": "every build branch, algorithm, library behaviour including failures of any call, key, message (shorter than 2^61 - 128 bytes for the values), placement of the areas in memory, outcome of allocations", "why_tests_cant": "Library and allocation failures at every point, all builds, all inputs.", "anchors": ["libhmac/libhmac_md5.c: libhmac_md5_calculate, libhmac_md5_calculate_hmac", "libhmac/libhmac_sha1.c", "libhmac/libhmac_sha224.c", "libhmac/libhmac_sha256.c", "libhmac/libhmac_sha512.c", "libhmac/libhmac_sha256_context.c: HAVE_LIBCRYPTO branches"]}
{"id": "C53", "title": "Equal HMACs come only from equivalent keys and equal messages, or from an explicit hash collision", "statement": "If two calls of the one-shot HMAC function of one algorithm store the same value, then either the keys are equivalent (the same block after hashing a long key and filling up with zero bytes) and the messages are equal, or the inner or the outer inputs of the two computations are two different byte strings with the same digest. Conversely equivalent keys and equal messages give equal HMACs. Keys up to the block size are equivalent exactly if they differ by trailing zero bytes; two longer keys exactly if they are equal or collide.", "quantifier": "all algorithms, all pairs of keys and messages, placements in memory, build variants and allocation schedules", "why_tests_cant": "Quantifies over all pairs of inputs; no test can search for unexpected collisions introduced by the padding of the key.", "anchors": ["libhmac/libhmac_md5.c: libhmac_md5_calculate_hmac", "libhmac/libhmac_sha1.c: libhmac_sha1_calculate_hmac", "libhmac/libhmac_sha224.c: libhmac_sha224_calculate_hmac", "libhmac/libhmac_sha256.c: libhmac_sha256_calculate_hmac", "libhmac/libhmac_sha512.c: libhmac_sha512_calculate_hmac"]}
{"id": "C54", "title": "A call reports an error exactly when it fails, and the error names the cause", "statement": "With the built-in code, every call through either set of functions returns 1 and adds no error, or returns -1 and adds at least one error; asking for errors changes nothing else. Which errors are added, in order, depends only on which pointers are NULL, the sizes, whether the variable holds a context, and which allocations succeed: the first error names the cause (the first failing check), the following ones the functions it failed in. In particular a one-shot HMAC call with valid arguments that fails reports lack of memory first, and reports it only if an allocation failed.", "quantifier": "all algorithms, both build variants, every history of calls (even invalid ones for the first sentence), all arguments, all schedules of allocation failures, all errors there before", "why_tests_cant": "Every failure point of every function in every state, including allocation failures.", "anchors": ["libhmac/libhmac_sha256_context.c: libcerror_error_set calls", "libhmac/libhmac_sha256.c: libhmac_sha256_initialize, libhmac_sha256_free, libhmac_sha256_update, libhmac_sha256_finalize, libhmac_sha256_calculate, libhmac_sha256_calculate_hmac", "the same functions for md5, sha1, sha224, sha512"]}
{"id": "C55", "title": "Error reporting in the builds with a crypto library", "statement": "In every build over a crypto library each call of a context function returns 1 without an error or -1 with an error; asking for errors changes nothing else; refused arguments and failed allocations are reported as such, and any other failure is a failure of the library and gives the one error of the function.", "quantifier": "every build branch, every library behaviour including failures of any call, every history of calls, all arguments and allocation failures", "why_tests_cant": "Library failures at every point, all builds, all histories.", "anchors": ["libhmac/libhmac_sha256_context.c: HAVE_LIBCRYPTO branches, libhmac_sha256_context_free (EVP_MD_CTX_cleanup)", "libhmac/libhmac_md5_context.c", "libhmac/libhmac_sha1_context.c", "libhmac/libhmac_sha224_context.c", "libhmac/libhmac_sha512_context.c"]}
{"id": "C56", "title": "Branches and memory accesses do not depend on secret bytes", "statement": "With the built-in code, which branches are taken, which array elements are read and written in which order, the lengths of copies, the shift counts, and the sequence of allocations, releases and accessed addresses depend only on the calls made, their pointers and sizes, and which allocations succeed - never on the bytes of keys, messages, digests, contexts or uninitialised memory. Two calls that differ only in such bytes run in lock step, and have the same results.", "quantifier": "all algorithms, both build variants, every history of calls (valid or not) and every one-shot digest or HMAC call, all pairs of memories that agree except in contents, all schedules of allocation failures", "why_tests_cant": "A relation between all pairs of executions; timing tests only sample, and noise hides differences.", "anchors": ["libhmac/libhmac_sha256_context.c: libhmac_sha256_context_update, libhmac_sha256_context_finalize, libhmac_sha256_transform", "libhmac/libhmac_sha256.c: libhmac_sha256_calculate, libhmac_sha256_calculate_hmac", "the same functions for md5, sha1, sha224, sha512", "common/byte_stream.h"]}
{"id": "C57", "title": "Python exceptions carry the message and the library's description, in one line and within bounds", "statement": "When a function of the Python module fails, the exception raised is of the class given, and its text is the function's message (cut to 2047 bytes) followed by the library's description of the error, if there is one, with line ends replaced by spaces; so it is one line without zero bytes of at most 4095 bytes. When the module meets a Python exception, it raises one whose text is its message without full stop, \" with error: \" and the description of that exception. No memory outside the text buffers is read or written, and no references are lost.", "quantifier": "all messages and descriptions of any length and content (including line ends, missing terminators, empty ones), all failures of formatting and encoding", "why_tests_cant": "Arbitrary contents and lengths around the buffer sizes, and failures inside the interpreter.", "anchors": ["pyhmac/pyhmac_error.c: pyhmac_error_raise, pyhmac_error_fetch, pyhmac_error_fetch_and_raise"]}
{"id": "C58", "title": "Importing the Python module gives a complete module or an error", "statement": "Importing the module returns a module without an exception only if every function and every context type is in it, under the name of its algorithm, once; otherwise it returns NULL with an exception. The interpreter lock is held as often after as before, and no reference to the module or a type is lost.", "quantifier": "every combination of failures of module creation, type setup and adding of types", "why_tests_cant": "Failures inside the interpreter cannot be provoked by tests; reference counts are not visible.", "anchors": ["pyhmac/pyhmac.c: PyInit_pyhmac, pyhmac_module_methods"]}
{"id": "C59", "title": "hmacsum tells why it failed, and only then", "statement": "Exit status 0 comes with no message on standard error except warnings (buffer size replaced by the default, signal handler not attached or detached). A failure comes with exactly one message that is not a warning, as the last one, or with the line ABORTED after a signal. Each message is printed only for its reason: the file cannot be opened, a read failed or ended too early, memory was refused, the argument of an option is invalid, and so on; if there is only one reason for failure, that message is the only one printed. If nothing fails nothing is printed.", "quantifier": "all command lines, files, read schedules, allocation failures, failures of system and library calls, signals", "why_tests_cant": "All combinations of failures; system calls that do not fail in tests.", "anchors": ["hmactools/hmacsum.c: main", "hmactools/hmactools_output.c: hmactools_output_initialize", "hmactools/hmactools_signal.c: hmactools_signal_attach, hmactools_signal_detach"]}
{"id": "C60", "title": "The message for an invalid option names the argument with that option", "statement": "If the command line contains an unknown option, or an option without its argument at the end, hmacsum prints \"Invalid argument: \" and the argument that contains the option.", "quantifier": "all command lines with well-formed options before the first invalid one, all positions of the invalid option in its argument", "why_tests_cant": "All groupings of options.", "anchors": ["hmactools/hmacsum.c: main (lines 172-218)", "hmactools/hmactools_getopt.c: hmactools_getopt"]}
{"id": "C61", "title": "Error reporting of the one-shot functions over a crypto library", "statement": "In every build over a crypto library a one-shot digest or HMAC call returns 1 without an error or -1 with an error; asking for errors changes neither the result nor memory, and keeps errors there before. The errors are those of the first check that fails (a NULL area, a size beyond the limits of the build, an output area that is too small, a failed allocation), or two errors that name the function in which the library failed. With a library that does not fail, the build over the functions of libcrypto reports exactly the errors of the built-in code.", "quantifier": "every build branch, algorithm, library behaviour including failures of any call, all arguments and areas, all schedules of allocation failures, all errors there before", "why_tests_cant": "A failure of the library or of an allocation at each of up to twenty points, in all builds.", "anchors": ["libhmac/libhmac_sha256.c: libhmac_sha256_calculate, libhmac_sha256_calculate_hmac", "libhmac/libhmac_md5.c", "libhmac/libhmac_sha1.c", "libhmac/libhmac_sha224.c", "libhmac/libhmac_sha512.c", "libhmac/libhmac_sha256_context.c: HAVE_LIBCRYPTO branches"]}
{"id": "C62", "title": "The work of a call is proportional to the bytes given", "statement": "The number of steps (branches, shifts, element accesses, elements copied or set) that a call to the built-in code takes is bounded by a constant per call plus a constant per whole block of the bytes given to it; it does not grow with the number of earlier calls or with the bytes given to earlier calls. So a history of calls takes at most linear work in the number of bytes and of calls, however the bytes are split, and a one-shot HMAC takes at most linear work in the lengths of the key and the message. Holds also for calls that fail.", "quantifier": "every algorithm and build (loops or unrolled), all histories of calls with any sizes and NULL arguments, all outcomes of allocations; one-shot functions with any arguments", "why_tests_cant": "Worst case over all sizes, splits and histories; a quadratic case shows only for the right pattern of calls.", "anchors": ["libhmac/libhmac_sha256_context.c: libhmac_sha256_context_update, libhmac_sha256_context_finalize, libhmac_sha256_transform", "libhmac/libhmac_md5_context.c", "libhmac/libhmac_sha1_context.c", "libhmac/libhmac_sha224_context.c", "libhmac/libhmac_sha512_context.c", "libhmac/libhmac_sha256.c"]}
{"id": "C63", "title": "Concurrent calls on different contexts do not race", "statement": "A call on a context touches only that context, the areas given to it, its own stack and constant tables; update writes no area, finalize reads no area and writes the output area, the constant tables are never written. So two calls that run at the same time on different contexts, whose output areas do not meet the areas of the other, have no data race; they may read the same input. The one-shot functions use and free only heap objects that they allocated themselves and write neither the key nor the message.", "quantifier": "every pair of algorithms and builds, all calls, arguments and memories with contexts used through the API only; every trace of accesses", "why_tests_cant": "A race shows only under some schedules; the claim is about every access of every call.", "anchors": ["libhmac/libhmac_sha256_context.c", "libhmac/libhmac_md5_context.c", "libhmac/libhmac_sha1_context.c", "libhmac/libhmac_sha224_context.c", "libhmac/libhmac_sha512_context.c", "libhmac/libhmac_sha256.c: libhmac_sha256_calculate, libhmac_sha256_calculate_hmac"]}
{"id": "C64", "title": "Digests extend: the digest and length of a message give the digest of longer messages", "statement": "For MD5, SHA-1, SHA-256 and SHA-512: from the digest that the library gives for a message and the length of the message alone, the digest of the message followed by its padding and any further bytes can be computed; the library gives exactly that digest for the longer message. So hashing a secret followed by data is no authentication, and two messages of equal length and equal digest, each followed by its padding, have equal digests with every common continuation; a concrete pair of 128 byte messages with equal MD5 is given, and with it pairs of equal MD5 for every continuation.", "quantifier": "all four functions, builds, messages, continuations and divisions of them into updates", "why_tests_cant": "The claim is a relation between digests of all messages and continuations.", "anchors": ["libhmac/libhmac_md5_context.c: libhmac_md5_context_finalize", "libhmac/libhmac_sha1_context.c: libhmac_sha1_context_finalize", "libhmac/libhmac_sha256_context.c: libhmac_sha256_context_finalize", "libhmac/libhmac_sha512_context.c: libhmac_sha512_context_finalize"]}
{"id": "C65", "title": "The fuzz targets accept every input", "statement": "A fuzz target (LLVMFuzzerTestOneInput of each function) returns 0 on every input of the fuzzing engine, in any sequence of inputs in one process and with any failures of allocation; it has no undefined behaviour, leaves the memory of the engine as it was, and leaks nothing. If allocation works and the input is not empty it hashes it in one update.", "quantifier": "every function, all sequences of inputs, all allocation outcomes", "why_tests_cant": "Fuzzing samples inputs; the claim is about all of them.", "anchors": ["ossfuzz/md5_context_fuzzer.cc: LLVMFuzzerTestOneInput", "ossfuzz/sha1_context_fuzzer.cc", "ossfuzz/sha224_context_fuzzer.cc", "ossfuzz/sha256_context_fuzzer.cc", "ossfuzz/sha512_context_fuzzer.cc"]}
{"id": "C66", "title": "Threads of a Python program can update contexts", "statement": "Threads of a Python program may call update at the same time: there is no undefined behaviour, every call has the outcome it would have alone, and the bytes of every call that returned are in the message of its object, each call's bytes in one piece.", "quantifier": "every function, any number of threads and objects, all arguments, every interleaving of the statements of the library (which runs without the interpreter lock)", "why_tests_cant": "Only rare schedules show the difference; the claim is about all of them.", "anchors": ["pyhmac/pyhmac_sha256_context.c: pyhmac_sha256_context_update", "pyhmac/pyhmac_md5_context.c: pyhmac_md5_context_update", "libhmac/libhmac_sha256_context.c: libhmac_sha256_context_update"]}
{"id": "C67", "title": "The library computes the same on hosts with a narrower size_t", "statement": "On a host whose size_t has any width from 16 to 64 bits: streaming a message in pieces of at most SSIZE_MAX bytes gives the standard digest whatever the total length (it may exceed the address space); calls with larger sizes are refused with -1 and change nothing; the one-shot functions return 1 exactly for sizes up to SSIZE_MAX of the host (valid pointers, memory available) and then store the digest or RFC 2104 HMAC; programs that stay within the limit have the same results, outputs and memory as on a 64-bit host.", "quantifier": "all five functions, builds, widths of size_t from 16 to 64, programs, arguments and allocation outcomes", "why_tests_cant": "Tests run on one host, and the truncation of a count would show only for messages beyond 4 GiB.", "anchors": ["libhmac/libhmac_sha256_context.c: libhmac_sha256_context_update", "libhmac/libhmac_sha256_context.c: libhmac_sha256_context_finalize", "libhmac/libhmac_sha256.c: libhmac_sha256_calculate", "libhmac/libhmac_sha256.c: libhmac_sha256_calculate_hmac", "libhmac/libhmac_sha256_context.h: libhmac_internal_sha256_context"]}
{"id": "C68", "title": "hmacsum and interrupts at any moment", "statement": "Whenever and however often SIGINT arrives while hmacsum runs: if the program exits, its exit status, output and messages are those of a run with at most one interrupt at a test of the abort flag; exit status 0 means that no interrupt was handled before the end and the output is that of an undisturbed run; an interrupt during reading or printing makes it exit with failure and say so; a killed program printed a beginning of a regular output; every digest line printed is right; standard input is closed exactly if an interrupt was handled; a program whose handler could not be attached handles none; an interrupt during a read is seen right after it, before a further read; no undefined behaviour occurs; the error of a failed call is released. The last two are false in the code: the handler can use the handle after it was freed, and an aborted program leaves the error object.", "quantifier": "all command lines, files, read results, allocation outcomes, outcomes of attach and detach, and all numbers of signals at every point of the program", "why_tests_cant": "The interleavings of a signal with the program cannot be enumerated by tests, and the window in which the handler uses freed memory is two instructions wide.", "anchors": ["hmactools/hmacsum.c: hmacsum_signal_handler", "hmactools/hmacsum.c: main", "hmactools/hmactools_signal.c: hmactools_signal_attach", "hmactools/hmactools_signal.c: hmactools_signal_detach", "hmactools/sum_handle.c: sum_handle_signal_abort", "hmactools/sum_handle.c: sum_handle_free", "hmactools/sum_handle.c: sum_handle_process_input"]}
{"id": "C69", "title": "The characters on hmacsum's standard output can be trusted", "statement": "A successful hmacsum writes the version line, an empty line and one line per selected digest, to the character, whatever the name of the file; a reader that looks for complete lines of the form 'NAME hash calculated over data:' with tabs and the right number of hexadecimal digits finds exactly the selected digests of the file. If the output device loses any part of any write, signals arrive and the program fails or is killed, the reader still finds only right digests, in order. If nothing is lost, a program stopped by signals has written a beginning of these lines, and its output ends in 'hmacsum: ABORTED' exactly if it was aborted, and then it fails. The help text lists exactly the options that the program takes. -V tells the version, the copyright, that there is no warranty and where to report bugs. Exit status 0 means that the digests were written; this last claim is false in the code, which does not look at the results of its writes.", "quantifier": "all files, names, option lists, versions, losses of the device at every write, signals, allocation outcomes", "why_tests_cant": "Partial writes can occur at every character of every write and combine; tests look at a few outputs on a device that works.", "anchors": ["hmactools/sum_handle.c: sum_handle_hash_values_fprint", "hmactools/hmactools_output.c: hmactools_output_version_fprint", "hmactools/hmactools_output.c: hmactools_output_copyright_fprint", "hmactools/hmactools_output.c: hmactools_output_initialize", "hmactools/hmacsum.c: usage_fprint", "hmactools/hmacsum.c: main"]}
{"id": "C70", "title": "Python threads that lock their objects, or keep them to themselves, get right digests", "statement": "Threads of a Python program call update and finalize any number of times, on objects of any of the five kinds. If the program holds a lock for an object during each call on it, then in every interleaving the results and the objects are those of whole calls made one after the other, in the order in which they began, and there is no deadlock. If each thread has objects of its own, no locks are needed: each thread gets what it would get alone, so a thread that hashes a message in pieces gets its standard digest. Without locks every call returns in a bounded number of steps of its thread. One of the two precautions is needed: with overlapping calls on one object finalize can return, without an exception, bytes that are no digest of anything given to the object, or zeros only.", "quantifier": "all numbers of threads, programs of calls, kinds of the objects, contents given, interleavings of the statements of the library functions, initial contents of local arrays, both builds", "why_tests_cant": "The number of interleavings is unbounded; tests of threads run into few of them, and not at will.", "anchors": ["pyhmac/pyhmac_sha256_context.c: pyhmac_sha256_context_update", "pyhmac/pyhmac_sha256_context.c: pyhmac_sha256_context_finalize", "libhmac/libhmac_sha256_context.c: libhmac_sha256_context_update", "libhmac/libhmac_sha256_context.c: libhmac_sha256_context_finalize", "pyhmac/pyhmac_md5_context.c", "pyhmac/pyhmac_sha1_context.c", "pyhmac/pyhmac_sha224_context.c", "pyhmac/pyhmac_sha512_context.c"]}
{"id": "C71", "title": "Digests of a file that changes while hmacsum reads it", "statement": "hmacsum reads its source once: whatever the source is and however it changes during the run, all digests that are printed are digests of one and the same sequence of bytes, of the size that was reported at the beginning, namely of what the reads delivered one after the other. The bytes of a file that is hashed were in the file, each at its position, at moments that do not go back. If the file only grows, the digests are those of the content that it had when its size was determined. If it is cut and stays shorter, no digest is printed and the exit status is failure. Processing ends on any source. No more can be promised: a file that is overwritten during the run can get, with exit status 0, the digests of something that was never its content.", "quantifier": "all sources (what each read delivers at any position and for any request), reported sizes, buffer sizes, options, allocation outcomes, signals, builds", "why_tests_cant": "A test reads files that stay as they are, or races once with a writer; the histories of a file during the reads are unbounded.", "anchors": ["hmactools/sum_handle.c: sum_handle_process_input", "hmactools/sum_handle.c: sum_handle_read_buffer", "hmactools/sum_handle.c: sum_handle_update_integrity_hash", "hmactools/hmacsum.c: main"]}
{"id": "C72", "title": "hmacsum with the getopt of the C library", "statement": "Built with the getopt of the C library, hmacsum behaves on a well-formed command line (options before the source) exactly as with its own option parser, for any getopt that keeps the promises of POSIX. With a GNU getopt, options and operands may be mixed, and the result is that of the line with the options first: exit status 0 means that the digests named by the last -d were printed for the first operand. With any getopt that stays within the argument vector and reports an end, and on any command line, there is no undefined behaviour, the program ends, and exit status 0 means usage text, copyright text or the digests of a file that one of the arguments names. -h and -V stop with success, an unknown option or no operand with the usage text and failure. The two kinds of builds do differ: `hmacsum file -d sha1` ignores the -d with the project's own parser.", "quantifier": "all implementations of getopt (as a contract), command lines, mixtures of options and operands, environments, allocation outcomes", "why_tests_cant": "Tests run against the one getopt of the build machine and a few command lines; contracts over all implementations and all lines cannot be enumerated.", "anchors": ["hmactools/hmacsum.c: main", "hmactools/hmactools_getopt.h: hmactools_getopt", "hmactools/hmactools_getopt.c: hmactools_getopt"]}
{"id": "C73", "title": "hmacsum in every build: built-in hash functions, a crypto library, or a mixture", "statement": "Each algorithm is compiled either with the project's own code or with calls of a crypto library, independently of the others. In each of these builds of hmacsum, with any crypto library that computes the standard functions when its calls succeed, exit status 0 means that standard output is the version line and the standard digests of the file for the selected algorithms, and a wrong digest is never printed, even if any call of the library fails at any time. Two builds that succeed on the same file print the same. There is no undefined behaviour on any command line without an argument \"-\", all contexts of the library and of the project are released exactly once, and at most one other block is left, only after a failed allocation. If nothing fails the program does print the digests; in builds that pass sizes of 32 bits to the library this needs a file of less than 4 GiB or no -p.", "quantifier": "all 4^5 and more combinations of builds, all crypto libraries (as a contract), command lines, files below 2^61 bytes, read schedules, buffer sizes, allocation outcomes, failures of library calls, signals", "why_tests_cant": "A test suite runs one build against one library whose calls do not fail; combinations, contents and failure points are unbounded.", "anchors": ["hmactools/hmacsum.c: main", "hmactools/sum_handle.c: sum_handle_process_input", "hmactools/sum_handle.c: sum_handle_free", "libhmac/libhmac_md5_context.h", "libhmac/libhmac_sha1_context.h", "libhmac/libhmac_sha224_context.h", "libhmac/libhmac_sha256_context.h", "libhmac/libhmac_sha512_context.h", "libhmac/libhmac_md5_context.c: libhmac_md5_context_update"]}
{"id": "C74", "title": "hmacsum on hosts of other widths, and files larger than the address space", "statement": "On a host whose size_t has 17 to 64 bits (such as a 32-bit system), hmacsum with exit status 0 has printed the version line and the standard digests of the whole file for the selected algorithms, also if the file is larger than 4 GiB or than any size_t; a wrong digest is never printed. If nothing fails it does print them. A buffer size given with -p is used if it is at most the SSIZE_MAX of the host and is otherwise ignored, never truncated. Hosts of different widths that succeed on the same file print the same. There is no undefined behaviour on any command line without an argument \"-\", all contexts are released exactly once, and at most one other block is left, only after a failed allocation.", "quantifier": "all widths of size_t from 17 to 64 bits, command lines, files below 2^61 bytes, read schedules, buffer sizes, allocation outcomes, signals", "why_tests_cant": "Tests run on one host with small files; truncations of sizes show only for files or buffer sizes beyond the host's limits.", "anchors": ["hmactools/sum_handle.c: sum_handle_process_input", "hmactools/sum_handle.c: sum_handle_set_process_buffer_size", "hmactools/sum_handle.c: sum_handle_read_buffer", "hmactools/sum_handle.c: sum_handle_update_integrity_hash", "hmactools/hmacsum.c: main", "common/types.h.in: SSIZE_MAX"]}
{"id": "C75", "title": "Contexts are independent in every build", "statement": "Each algorithm is compiled with the project's own code or with calls of a crypto library. A program uses any number of contexts of any mix of algorithms with their calls interleaved in any way. A finalize that succeeds returns the standard digest of the message given to its own context and to no other, even if any allocation and any call of the library fails, including calls on other contexts. A context used for one message gets exactly the replies that it would get alone from the built-in functions, if its own allocation and library calls do not fail. After the program has freed the variables that it used, all of them are NULL and the blocks in memory are exactly those from before. There is no undefined behaviour.", "quantifier": "all combinations of builds, all crypto libraries (as a contract), numbers of contexts, mixes of algorithms, interleavings, messages below 2^61 bytes, chunk sizes, allocation outcomes, failures of library calls", "why_tests_cant": "Interleavings, builds and failure points multiply without bound; a test exercises one context at a time in one build.", "anchors": ["libhmac/libhmac_md5_context.c: libhmac_md5_context_initialize", "libhmac/libhmac_md5_context.c: libhmac_md5_context_update", "libhmac/libhmac_sha1_context.c: libhmac_sha1_context_finalize", "libhmac/libhmac_sha224_context.c: libhmac_sha224_context_free", "libhmac/libhmac_sha256_context.c: libhmac_sha256_context_update", "libhmac/libhmac_sha512_context.c: libhmac_sha512_context_finalize"]}
{"id": "C76", "title": "The Python module gives standard results in every build", "statement": "Each algorithm is compiled with the project's own code or with calls of a crypto library. A Python program that makes objects, feeds, finalises, re-initialises and drops them, and calls the one-shot functions, in any order, runs without undefined behaviour. Every digest that finalize returns is the standard digest of the bytes accepted by that object since it was made or initialised again. calculate and calculate_hmac return the standard digest or HMAC, or raise, and raise only for lack of memory, a failure of the library, or data larger than the library takes. A program that does not go on using a finalised object cannot tell the builds apart if the library does not fail. When all objects are gone and none was initialised twice, the memory of the project and of the library is as it was before.", "quantifier": "all combinations of builds, all crypto libraries (as a contract) and their failures, all Python programs, numbers of objects, arguments, allocation outcomes", "why_tests_cant": "The project's Python tests run against one build, with a library that does not fail; histories, builds and failure points are unbounded.", "anchors": ["pyhmac/pyhmac_md5_context.c: pyhmac_md5_context_update", "pyhmac/pyhmac_sha1_context.c: pyhmac_sha1_context_init", "pyhmac/pyhmac_sha224_context.c: pyhmac_sha224_context_finalize", "pyhmac/pyhmac_sha256_context.c: pyhmac_sha256_context_free", "pyhmac/pyhmac_sha512.c: pyhmac_sha512_calculate_hmac", "libhmac/libhmac_md5_context.c: libhmac_md5_calculate"]}
{"id": "C77", "title": "A Python exception tells what failed and why", "statement": "Every exception that a statement raises through the Python module, in every build, has a text that begins with the name of the function that was called, tells the algorithm and the reason (wrong type of data, size, no context, failure of the library, no memory for the result), is of the class that belongs to that reason, and carries the description of the library's error. Two calls that fail with the same text failed in the same function, for the same algorithm and the same reason.", "quantifier": "all combinations of builds, all crypto libraries and their failures, all Python programs and arguments, allocation outcomes, all descriptions of errors and contents of the local arrays", "why_tests_cant": "Tests check the class of an exception at most; the failures of the library and of the allocator do not occur in tests, and descriptions are unbounded texts.", "anchors": ["pyhmac/pyhmac_sha256.c: pyhmac_sha256_calculate_hmac", "pyhmac/pyhmac_sha256_context.c: pyhmac_sha256_context_init", "pyhmac/pyhmac_sha256_context.c: pyhmac_sha256_context_free", "pyhmac/pyhmac_md5_context.c: pyhmac_md5_context_update", "pyhmac/pyhmac_sha512_context.c: pyhmac_sha512_context_finalize", "pyhmac/pyhmac_error.c: pyhmac_error_raise"]}
{"id": "C78", "title": "hmacsum tells what failed, in every build and on every host", "statement": "Whichever crypto library the tool is built with, and whatever the width of size_t: success comes with warnings only, each of them due; a failure without a signal comes with exactly one error message, the last one, and every message has its reason. If nothing fails nothing is told. A failure of a crypto library is told as a failure to process the input, never as another one and never silently. A command line that is refused is refused by all builds alike.", "quantifier": "all combinations of builds per algorithm, all crypto libraries and their failures, host widths of 17 to 64 bits, all command lines with a source, files, read schedules, allocation outcomes, outcomes of the system calls", "why_tests_cant": "Tests run one build on one host and do not read standard error; calls of the crypto library do not fail in tests.", "anchors": ["hmactools/hmacsum.c: main", "hmactools/sum_handle.c: sum_handle_process_input", "hmactools/sum_handle.c: sum_handle_set_process_buffer_size", "hmactools/sum_handle.c: sum_handle_initialize_integrity_hash", "libhmac/libhmac_md5.c: libhmac_md5_initialize"]}
{"id": "C79", "title": "The messages of a failure name the function and the cause", "statement": "A call that succeeds gives no message. A call that fails gives messages of which the last names the function that was called, and every message is of that function or of one it uses, of the same algorithm. The first message tells the cause: the argument that is wrong, the context that is missing or already there, or the memory that is lacking. The text of a message tells algorithm, function and reason: no two have the same text. No message ever tells of an inconsistent state of the library, if the calls are valid. Giving messages changes neither results nor memory, and their domains and codes are those of C54.", "quantifier": "all five algorithms, both variants of the built-in code, all histories of calls through both sets of functions, all arguments, all states, all allocation outcomes", "why_tests_cant": "Tests look at the return value and whether an error was set, not at its messages; there is no end to the histories and arguments.", "anchors": ["libhmac/libhmac_sha256_context.c: libhmac_sha256_context_update", "libhmac/libhmac_sha256_context.c: libhmac_sha256_context_finalize", "libhmac/libhmac_md5_context.c: libhmac_md5_context_finalize", "libhmac/libhmac_sha256.c: libhmac_sha256_calculate", "libhmac/libhmac_sha256.c: libhmac_sha256_calculate_hmac"]}
{"id": "C80", "title": "The error messages in the builds over a crypto library, and whom they blame", "statement": "In the builds over a crypto library, with a library of which nothing is assumed: asking for messages changes nothing; every call and every one-shot function gives exactly the messages of the first check that fails, or the message about what the library failed to do, or none with success; only a failing clean up can add a message to a success. A message that blames the library is true: the library can fail so in that build. The deprecated functions add their own message if they fail, and not otherwise. With a library that does not fail the direct build gives the messages of the built-in code. Within a build a message tells function, algorithm and text; the text about an output area of wrong size differs between builds, and the EVP builds do not tell too small from too large.", "quantifier": "all five algorithms, all builds over a crypto library, all libraries and their failures, both sets of functions mixed, all histories and arguments of one-shot functions, allocation outcomes", "why_tests_cant": "Tests run one build whose library does not fail, and do not read the messages.", "anchors": ["libhmac/libhmac_md5_context.c: libhmac_md5_context_initialize", "libhmac/libhmac_sha256_context.c: libhmac_sha256_context_free", "libhmac/libhmac_sha512_context.c: libhmac_sha512_context_finalize", "libhmac/libhmac_sha1.c: libhmac_sha1_calculate_hmac", "libhmac/libhmac_sha224.c: libhmac_sha224_initialize"]}
{"id": "C81", "title": "hmacsum and interrupts at any moment, in every build and on hosts of other widths", "statement": "In every build, whatever the crypto library does, and on every host width: whenever and however often SIGINT arrives, if hmacsum exits, its exit status, output and messages are those of a run with at most one interrupt at a test of the abort flag; exit status 0 means that no interrupt arrived before, between or after any of the reads and lines; a killed program printed a beginning of a regular output; standard input is closed exactly if an interrupt was handled; an interrupt during a read is seen before a further read. If the library is right whenever its calls succeed, every digest line printed is right, an interrupt while the handler is attached ends the program with a failure that is told, and there is no undefined behaviour. The last is false in the code in every build (the handler can use the handle after it was freed), and an aborted program leaves the error object.", "quantifier": "all choices of built-in code or crypto library for each algorithm, all libraries and failures of their calls, host widths of 17 to 64 bits, all command lines, files, read results, allocation outcomes, outcomes of attach and detach, and all numbers of signals at every point of the program", "why_tests_cant": "The interleavings of a signal with the program cannot be enumerated by tests, tests run one build on one host, and a crypto library does not fail on demand.", "anchors": ["hmactools/hmacsum.c: hmacsum_signal_handler", "hmactools/hmacsum.c: main", "hmactools/hmactools_signal.c: hmactools_signal_attach", "hmactools/sum_handle.c: sum_handle_signal_abort", "hmactools/sum_handle.c: sum_handle_free", "hmactools/sum_handle.c: sum_handle_process_input", "libhmac/libhmac_sha256_context.c: libhmac_sha256_context_update"]}
{"id": "C82", "title": "The fuzz targets in every build and on hosts of other widths", "statement": "In every build over a crypto library, whose calls may fail at any time, and with the built-in code on hosts of other widths: for any sequence of inputs a fuzz target has no undefined behaviour, ends, returns 0 each time, does not change the inputs or other memory of the engine, and leaves nothing allocated, neither its own nor the library's. With a library that is right and succeeds, the input is hashed completely.", "quantifier": "all five algorithms, all builds over a crypto library and all failures of the library, host widths of 16 to 64 bits, all sequences of inputs of any sizes (also NULL), allocation outcomes, contents of uninitialised memory", "why_tests_cant": "A fuzzer samples inputs in one build on one host; its own harness is not examined, and the crypto library does not fail on demand.", "anchors": ["ossfuzz/md5_context_fuzzer.cc: LLVMFuzzerTestOneInput", "ossfuzz/sha1_context_fuzzer.cc: LLVMFuzzerTestOneInput", "ossfuzz/sha224_context_fuzzer.cc: LLVMFuzzerTestOneInput", "ossfuzz/sha256_context_fuzzer.cc: LLVMFuzzerTestOneInput", "ossfuzz/sha512_context_fuzzer.cc: LLVMFuzzerTestOneInput", "libhmac/libhmac_sha256.c: libhmac_sha256_calculate"]}
{"id": "C83", "title": "What configure decides about the crypto library is what is compiled, linked and told", "statement": "Wherever configure ends well, each algorithm is compiled as exactly one of: the built-in code, the direct functions of the crypto library, EVP with a context in the structure, EVP with a context made by the library; the structure, the four context functions and the declarations agree. With --without-openssl, --disable-shared-libs or static executables everything is built-in. With OpenSSL 1.1 or later, and with 1.0, every algorithm uses EVP; without OpenSSL configure falls back to the built-in code; where EVP is incomplete it falls back to the direct functions. libhmac.pc names the library if it is used. The summary printed at the end tells what is compiled, the code calls only functions that configure found, all names it uses are declared, and the options --enable-openssl-evp-md and --disable-openssl-evp-md do what they say.", "quantifier": "all systems (any set of headers and functions of the crypto library, with or without pkg-config), all values of the four options, all five algorithms", "why_tests_cant": "A test run has one system with one library; the combinations of some thirty facts about the system and the options cannot be installed one after the other.", "anchors": ["m4/libcrypto.m4: AX_LIBCRYPTO_CHECK_LIB, AX_LIBCRYPTO_CHECK_OPENSSL_EVP_MD, AX_LIBCRYPTO_CHECK_MD5, AX_LIBCRYPTO_CHECK_SHA1, AX_LIBCRYPTO_CHECK_ENABLE", "acinclude.m4: AX_LIBHMAC_CHECK_LOCAL", "configure.ac", "libhmac.pc.in", "libhmac/libhmac_sha256_context.h: libhmac_internal_sha256_context", "libhmac/libhmac_sha256_context.c: libhmac_sha256_context_initialize, libhmac_internal_sha256_context_free"]}
{"id": "C84", "title": "Every configuration of the build gives the standard digests", "statement": "Wherever configure ends well there is exactly one build, and if it compiles and links: hmacsum has no undefined behaviour for any command line and, if it succeeds, prints the standard digests of the bytes of the file; the context functions, the Python module and hmacsum under interrupts never deliver a wrong digest; two builds configured with any options on any systems print the same. With OpenSSL 1.0 or later, without OpenSSL, or where long is as wide as size_t, hmacsum prints the digests for every buffer size if memory, file and library do not fail; otherwise an update of 4 GiB or more is refused.", "quantifier": "all systems, all values of the options of configure, all crypto libraries that compute the standard functions when their calls succeed (any call may fail), all command lines, files, sequences of calls and moments of interrupts", "why_tests_cant": "A test run is one build on one system with one library; the claim ties every outcome of configure to every use of the result.", "anchors": ["m4/libcrypto.m4: AX_LIBCRYPTO_CHECK_LIB, AX_LIBCRYPTO_CHECK_ENABLE", "configure.ac", "hmactools/hmacsum.c: main", "libhmac/libhmac_sha256_context.c: libhmac_sha256_context_update, libhmac_sha256_context_finalize", "pyhmac/pyhmac_sha256_context.c: pyhmac_sha256_context_finalize"]}
{"id": "C85", "title": "The builds with a crypto library on hosts of other widths", "statement": "With a size_t of 16 to 64 bits, in every build over a crypto library whose calls may fail: context functions never deliver a wrong digest as success, have no undefined behaviour and release everything; exactly the updates above SSIZE_MAX (above ULONG_MAX in the direct build where long is narrower) and the output areas above SSIZE_MAX (above UINT_MAX with EVP) or below the digest are refused, without effect; with other sizes results and memory are those of a 64-bit host. The one-shot functions return 1 exactly for the arguments within these limits if nothing fails, and then store the standard digest or the HMAC of RFC 2104 and nothing else. hmacsum, for every command line, has no undefined behaviour and, if it succeeds, prints the standard digests of the file, the same on every host and in every build; files of more than 4 GiB are hashed on 32-bit hosts; interrupts never lead to a wrong digest.", "quantifier": "all widths of size_t from 16 (hmacsum: 17) to 64 bits, all builds and all failures of the library, five algorithms, all sequences of calls with any sizes, all placements of areas, command lines, files, allocation outcomes and moments of interrupts", "why_tests_cant": "The test suite runs on one host with one library; the limits lie at sizes of gigabytes, and a library does not fail on demand.", "anchors": ["libhmac/libhmac_sha256_context.c: libhmac_sha256_context_update, libhmac_sha256_context_finalize", "libhmac/libhmac_sha256.c: libhmac_sha256_calculate, libhmac_sha256_calculate_hmac", "hmactools/sum_handle.c: sum_handle_set_process_buffer_size, sum_handle_process_input", "hmactools/hmacsum.c: main"]}
{"id": "C86", "title": "Interleaved contexts, the Python module and the fuzz targets in every build on hosts of other widths", "statement": "With a size_t of 16 to 64 bits, each algorithm built in or over a crypto library whose calls may fail: any number of contexts with interleaved calls, also with sizes that are refused, have no undefined behaviour, never deliver a wrong digest as success, do not influence each other (a context that hashes one message gets the replies that it would get alone, whatever is refused or fails on the others), and after they are freed memory is as before. A Python program has the same outcomes and effects as on a 64-bit host for all bytes objects that can exist on the host: digests and HMACs are the standard ones or an exception is raised. A fuzz target returns 0 for every input, leaves nothing allocated and does not change its input.", "quantifier": "all widths of size_t from 16 to 64 bits, all choices of builds per algorithm and all failures of the library and of allocations, all numbers of contexts, all interleavings of calls with any sizes, all Python programs, all inputs of the fuzz targets", "why_tests_cant": "The tests run single calls on one host with one library; interleavings, refused sizes of gigabytes and failures of the library on narrow hosts are not exercised.", "anchors": ["libhmac/libhmac_sha256_context.c: libhmac_sha256_context_update, libhmac_sha256_context_finalize", "libhmac/libhmac_sha256.c: libhmac_sha256_calculate, libhmac_sha256_calculate_hmac", "pyhmac/pyhmac_sha256_context.c: pyhmac_sha256_context_update, pyhmac_sha256_context_finalize", "pyhmac/pyhmac_sha256.c: pyhmac_sha256_calculate, pyhmac_sha256_calculate_hmac", "ossfuzz/sha256_context_fuzzer.cc: LLVMFuzzerTestOneInput"]}
{"id": "C87", "title": "Each byte given is fetched once and each digest byte is stored once", "statement": "A successful update reads each byte of the given buffer exactly once and no byte beyond it; a successful finalize writes each byte of the digest exactly once and nothing else of the output area; a call that fails reads nothing of its input and writes nothing of its output. The same holds for the one-shot digest. A successful HMAC reads each byte of the key once and each byte of the message once, in that order, and writes the digest area twice: first with the inner digest, then with the result. So a buffer that another party changes during a call is never seen with two values for one byte, and memory-mapped input is consumed once.", "quantifier": "all algorithms and both forms of the block code, all buffers, sizes and splits, all call histories before the call, all contents of memory, all allocation outcomes", "why_tests_cant": "A digest test cannot see whether a byte is fetched twice, or a byte of the result is stored more than once: the result is the same as long as nobody changes the buffer.", "anchors": ["libhmac/libhmac_sha256_context.c: libhmac_sha256_context_update, libhmac_sha256_context_finalize, libhmac_sha256_transform", "libhmac/libhmac_sha512_context.c: libhmac_sha512_context_update, libhmac_sha512_context_finalize", "libhmac/libhmac_md5_context.c: libhmac_md5_context_update, libhmac_md5_transform", "libhmac/libhmac_sha256.c: libhmac_sha256_calculate, libhmac_sha256_calculate_hmac", "libhmac/libhmac_byte_stream.h: byte_stream_copy_to_uint32_big_endian, byte_stream_copy_from_uint32_big_endian"]}
{"id": "C88", "title": "Memory use does not depend on the amount of data", "statement": "The library asks for memory only to create a context: updating, finalizing and freeing ask for none, so a stream of any length in any number of pieces needs one allocation. A one-shot digest asks for exactly one allocation. An HMAC asks for five, or six if the key is longer than a block, and never more, also when it fails. A run of hmacsum, for any command line, any file of any size and any failing read, asks for at most thirteen allocations in all: the handle, the file object, the read buffer, and one string and one context per algorithm. This holds in every build and for every width of size_t.", "quantifier": "all algorithms, all builds, all widths of size_t, all call histories, sizes, keys and buffers, all command lines and files, all allocation outcomes and all failures of the crypto library", "why_tests_cant": "A test runs on files and streams of a few sizes; that no size, split, option or failure makes the code allocate per block, per read or per update is a statement over all of them.", "anchors": ["libhmac/libhmac_sha256_context.c: libhmac_sha256_context_initialize, libhmac_sha256_context_update, libhmac_sha256_context_finalize", "libhmac/libhmac_sha256.c: libhmac_sha256_calculate, libhmac_sha256_calculate_hmac", "hmactools/sum_handle.c: sum_handle_initialize, sum_handle_set_digest_types, sum_handle_process_input", "hmactools/hmacsum.c: main"]}
{"id": "C89", "title": "Sum handle calls report what happened and change only their own setting", "statement": "For every call on a sum handle the result tells what happened: creating gives 1 and a handle with MD5 and a 32 KiB buffer, or -1 and none; a second creation on the same variable gives -1 and leaves the handle alone; freeing always clears the variable and gives -1 only if the file could not be closed; opening gives 1 or -1 and closing 0 or -1 as the file did; setting the buffer size gives -1 or 0 without any change, or 1 with a size that fits ssize_t; selecting digests gives 0 or -1, 0 only if nothing failed, never deselects one, selects only what the list names and, with result 0, all of it; processing gives 1 or -1 and changes neither digests nor buffer size. A request to stop is kept until the handle is freed, and after it each processing reads at most once.", "quantifier": "all calls and sequences of calls, all handles and memories, all strings, files, read outcomes, allocation outcomes and stop requests", "why_tests_cant": "The tests call each function a few times in a fixed order; that no order of calls, string or failure loses a stop request, drops a selected digest or changes a setting on a failed call ranges over all of them.", "anchors": ["hmactools/sum_handle.c: sum_handle_initialize, sum_handle_free, sum_handle_signal_abort, sum_handle_open_input, sum_handle_close, sum_handle_process_input, sum_handle_set_digest_types, sum_handle_set_process_buffer_size, sum_handle_hash_values_fprint", "hmactools/sum_handle.h: struct sum_handle"]}
{"id": "C90", "title": "Any history of sum handle calls is safe and right in every build and on every host", "statement": "In every build (each algorithm built in or with any branch for a crypto library) and on hosts of every width: any sequence of calls on a sum handle that does not print runs without undefined behaviour and ends. If processing reports success after any history, each selected digest is the standard digest of exactly the bytes this processing read, all of the file unless the handle was asked to stop, and printing then prints those digests. It does report success if nothing fails. Freeing the handle gives back all contexts, all objects of the crypto library and all memory, except one block for each creation that failed for lack of memory. Each call reports and changes what C89 says.", "quantifier": "all builds, all crypto libraries that keep their contract whatever calls of them fail, hosts of 17 to 64 bits, all sequences of calls with all strings, files, read schedules, allocation outcomes and stop requests", "why_tests_cant": "A test runs one build on one host with a library that does not fail, and a few orders of calls.", "anchors": ["hmactools/sum_handle.c: sum_handle_initialize, sum_handle_free, sum_handle_signal_abort, sum_handle_open_input, sum_handle_close, sum_handle_process_input, sum_handle_set_digest_types, sum_handle_set_process_buffer_size, sum_handle_hash_values_fprint", "hmactools/sum_handle.h: struct sum_handle", "libhmac/libhmac_md5_context.c, libhmac_sha1_context.c, libhmac_sha224_context.c, libhmac_sha256_context.c, libhmac_sha512_context.c: the crypto branches"]}
{"id": "C91", "title": "Messages of hmacsum tell the truth in every build and on every host", "statement": "In every build (each algorithm built in or with any branch for a crypto library), on hosts of every width: every message hmacsum prints has its reason, the bound of the buffer size being the SSIZE_MAX of the host. If nothing fails it succeeds and prints no message. If exactly one message has a reason, a failing run prints this message and no other. A failure inside a crypto library shows as \"unable to process input\" and nothing else. A file that cannot be opened is named as such. Success prints exactly the warnings that are due, in order; a buffer size above SSIZE_MAX of the host is replaced with a warning.", "quantifier": "all builds, all crypto libraries that keep their contract whatever calls of them fail, hosts of 17 to 64 bits, all command lines with a source, all files, environments and failures", "why_tests_cant": "A test runs one build on one host; combinations of failures, builds and widths are too many to try, and most failures cannot be provoked.", "anchors": ["hmactools/hmacsum.c: main", "hmactools/sum_handle.c: sum_handle_process_input, sum_handle_set_process_buffer_size, sum_handle_open_input", "hmactools/byte_size_string.c: byte_size_string_convert", "libhmac/libhmac_md5_context.c, libhmac_sha1_context.c, libhmac_sha224_context.c, libhmac_sha256_context.c, libhmac_sha512_context.c: the crypto branches"]}
{"id": "C92", "title": "Selecting digests gives back the memory it needs to read the list of names", "statement": "sum_handle_set_digest_types (the -d option of hmacsum) leaves nothing allocated that it needed only to split the list of names, whatever call fails. Over any sequence of calls on a handle, what is left is bounded by the number of calls in which the list could be split but then not be read, and each call reports and does what C40, C89 and C90 say whatever calls of the splitting library fail.", "quantifier": "all strings, all outcomes of every call of the splitting library and of the allocator, all sequences of calls on a handle, all builds, hosts of 17 to 64 bits", "why_tests_cant": "The calls of the splitting library do not fail in a test, and a leak on an error path does not show in a result.", "anchors": ["hmactools/sum_handle.c: sum_handle_set_digest_types", "hmactools/hmactools_system_split_string.h: system_string_split, system_split_string_free, system_split_string_get_number_of_segments, system_split_string_get_segment_by_index"]}
{"id": "C93", "title": "Equal digests printed for two files mean equal files or a collision that the two computations run into", "statement": "If two runs of hmacsum, in any builds, on any hosts, with any options, successful or not, interrupted or not, print the same characters as digests of two files, then both are digests of the same hash function and the files are equal byte for byte, or the two computations meet: they have different chaining values or blocks before some block and the same value after it (for SHA-224 possibly only in the seven words that are put out). Copies of a file always get the same digest. The exception occurs: the known pair of MD5 collisions.", "quantifier": "all pairs of files below 2^61 bytes, all builds with the project's code or a crypto library that may fail, hosts of 17 to 64 bits, all options, all signals", "why_tests_cant": "A test compares a few pairs of files in one build; the claim is about all pairs, including those nobody has seen.", "anchors": ["hmactools/hmacsum.c: main", "hmactools/sum_handle.c: sum_handle_process_input, sum_handle_print_hash_to_stdout", "hmactools/digest_hash.c: digest_hash_copy_to_string", "libhmac/libhmac_md5_context.c: libhmac_md5_context_finalize"]}
{"id": "C94", "title": "hmacsum uses the file library as it is to be used and leaves no file open", "statement": "In every run of hmacsum the calls of the file library follow its rules, whatever fails and whenever the program is interrupted: the object is created first, a file is opened at most once, the size is asked for and bytes are read only while it is open, only an open file is closed, the object is freed once, nothing is called after that, and when the program ends no object is left. No read asks for no bytes or for bytes past the size, and there is none after a failed or empty read. Success means that exactly the named file was opened, read completely, and closed.", "quantifier": "all command lines, all files, all outcomes of opening, reading, closing, freeing and allocating, all times at which the abort flag is set, any number of signals at any moments, all implementations of the hash contexts, all widths of size_t", "why_tests_cant": "Tests do not make each call of the file library and each allocation fail, and a file that is left open does not show in the output.", "anchors": ["hmactools/hmacsum.c: main", "hmactools/sum_handle.c: sum_handle_initialize, sum_handle_free, sum_handle_open_input, sum_handle_close, sum_handle_read_buffer, sum_handle_process_input"]}
{"id": "C95", "title": "hmacsum, the C library and the Python module give the same digests and HMACs", "statement": "For the same bytes, hmacsum (any options, interrupted or not), a context of the C library (whatever else the program does with this and other contexts), its one-call functions, an object of the Python module and the module's one-call methods give the same digest where they give one: the standard one. The two builds, the hosts, and the crypto libraries (which may fail at any call) may differ. The same holds for the HMAC of a key and bytes. Each interface does give them if nothing fails. If two interfaces give the same digest for two messages, it is by the same hash function, and the messages are equal or their computations meet.", "quantifier": "all pairs of interfaces, builds, hosts of 16 to 64 bits (hmacsum: 17 to 64), crypto libraries that keep their contract, programs and command lines around the call, all messages below 2^61 bytes (HMAC: keys below 2^61, messages below 2^61 - 128 bytes)", "why_tests_cant": "A test compares a few vectors on one build and one host; the pairs of builds, hosts, interfaces and messages cannot be enumerated.", "anchors": ["libhmac/libhmac_md5_context.c: libhmac_md5_finalize", "libhmac/libhmac_md5.c: libhmac_md5_calculate", "libhmac/libhmac_md5.c: libhmac_md5_calculate_hmac", "libhmac/libhmac_sha1.c, libhmac_sha224.c, libhmac_sha256.c, libhmac_sha512.c and their context files", "hmactools/hmacsum.c: main", "pyhmac/pyhmac_md5_context.c: pyhmac_md5_context_finalize", "pyhmac/pyhmac_md5.c, pyhmac_sha1.c, pyhmac_sha224.c, pyhmac_sha256.c, pyhmac_sha512.c"]}
