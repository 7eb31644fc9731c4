{"id": "C01", "title": "AVL tree is a sorted map", "statement": "After any sequence of avl_tree_put/pop/pop_first/pop_last/detach/remove calls, avl_tree_get(k) returns an element whose key and value are those of the latest put of a key comparing equal to k that has not been removed since, and NULL if there is none; avl_tree_put returns the displaced element (old key, old value) or NULL.", "quantifier": "all operation sequences of any length, all keys and values, all comparators that are total preorders, all allocators", "why_tests_cant": "Tests exercise a handful of fixed operation sequences; the claim is about every history, every key order and every allocator behaviour.", "anchors": ["src/avltree.c:avl_tree_put", "src/avltree.c:avl_tree_get", "src/avltree.c:avl_tree_pop", "src/avltree.c:avl_tree_detach", "src/avltree.c:avl_tree_remove"]}
{"id": "C02", "title": "AVL ordered queries", "statement": "avl_tree_get_before / get_on_or_before / get_after / get_on_or_after / get_first / get_last return exactly the element documented (last below, last at or below, first above, first at or above, least, greatest), or NULL exactly when no such element exists.", "quantifier": "all reachable trees, all query keys, all total-preorder comparators", "why_tests_cant": "Tests exercise a handful of fixed operation sequences; the claim is about every history, every key order and every allocator behaviour.", "anchors": ["src/avltree.c:avl_tree_get_before", "src/avltree.c:avl_tree_get_on_or_before", "src/avltree.c:avl_tree_get_after", "src/avltree.c:avl_tree_get_on_or_after", "src/avltree.c:avl_tree_get_first", "src/avltree.c:avl_tree_get_last"]}
{"id": "C03", "title": "AVL iteration visits every element once in order", "statement": "Starting from avl_tree_get_first and repeatedly calling avl_tree_next visits every stored element exactly once in ascending key order and then returns NULL; avl_tree_get_last/avl_tree_previous visits the exact reverse.", "quantifier": "all reachable trees", "why_tests_cant": "Tests exercise a handful of fixed operation sequences; the claim is about every history, every key order and every allocator behaviour.", "anchors": ["src/avltree.c:avl_tree_next", "src/avltree.c:avl_tree_previous"]}
{"id": "C04", "title": "AVL tree stays balanced: logarithmic depth", "statement": "After any operation sequence every node's two subtrees differ in height by at most one, so a tree of n elements has height h with fib(h+2)-1 <= n, hence h < 1.45 log2(n+2), and a lookup inspects at most h elements.", "quantifier": "all operation sequences of any length", "why_tests_cant": "Balance is an invariant over all histories; rotation cases are reached only by particular shapes and heights.", "anchors": ["src/avltree.c:avl_tree_put", "src/avltree.c:avl_tree_detach", "src/avltree.c:lighten"]}
{"id": "C05", "title": "AVL size and emptiness", "statement": "avl_tree_size equals the number of distinct keys currently stored and avl_tree_empty is true iff that number is zero, after every operation sequence.", "quantifier": "all operation sequences", "why_tests_cant": "Tests exercise a handful of fixed operation sequences; the claim is about every history, every key order and every allocator behaviour.", "anchors": ["src/avltree.c:avl_tree_size", "src/avltree.c:avl_tree_empty"]}
{"id": "C06", "title": "AVL operations are memory safe and terminate", "statement": "No AVL call on a live tree dereferences NULL or freed memory, fails an assertion, frees a block twice or loops forever.", "quantifier": "all operation sequences, all allocators including ones that reuse freed addresses", "why_tests_cant": "A crash may need a particular shape or an address reuse pattern; tests only see those they happen to build.", "anchors": ["src/avltree.c:*"]}
{"id": "C07", "title": "AVL elements never move", "statement": "An element pointer obtained from the tree keeps identifying the same key and value until that element itself is detached or replaced: insertion or removal of other keys never moves contents between elements.", "quantifier": "all reachable trees, all operations on other keys", "why_tests_cant": "Tests exercise a handful of fixed operation sequences; the claim is about every history, every key order and every allocator behaviour.", "anchors": ["src/avltree.c:exchange_nodes", "src/avltree.c:avl_tree_detach"]}
{"id": "C08", "title": "AVL copy is an independent equal tree", "statement": "avl_tree_copy returns a fresh tree with the same comparator and the same ordered associations, leaves the original unchanged and shares no memory with it.", "quantifier": "all reachable trees", "why_tests_cant": "Tests exercise a handful of fixed operation sequences; the claim is about every history, every key order and every allocator behaviour.", "anchors": ["src/avltree.c:avl_tree_copy"]}
{"id": "C09", "title": "AVL destruction releases everything exactly once", "statement": "destroy_avl_tree frees the tree and every element in it exactly once and touches nothing else; together with destroy_avl_element on returned elements no block allocated by the API leaks.", "quantifier": "all reachable trees, all operation sequences", "why_tests_cant": "Tests exercise a handful of fixed operation sequences; the claim is about every history, every key order and every allocator behaviour.", "anchors": ["src/avltree.c:destroy_avl_tree", "src/avltree.c:destroy_avl_element"]}
{"id": "C10", "title": "AVL put of an already stored value has no effect", "statement": "As documented, avl_tree_put(tree, key, value) with value already stored at key has no effect and returns NULL.", "quantifier": "all reachable trees, keys and values", "why_tests_cant": "Documented special case that the test suite never calls.", "anchors": ["src/avltree.c:avl_tree_put", "include/avltree.h:avl_tree_put"]}
{"id": "C11", "title": "List is a sequence", "statement": "Every sequence of list_append/prepend/insert_before/remove/pop_first/pop_last calls acts on the stored value sequence exactly as the same operations on a mathematical sequence; pops return the removed value or NULL when empty.", "quantifier": "all operation sequences, all values, all allocators", "why_tests_cant": "Tests exercise a handful of fixed operation sequences; the claim is about every history, every key order and every allocator behaviour.", "anchors": ["src/list.c:list_append", "src/list.c:list_prepend", "src/list.c:list_insert_before", "src/list.c:list_remove", "src/list.c:list_pop_first", "src/list.c:list_pop_last"]}
{"id": "C12", "title": "List operations are memory safe and leak free", "statement": "No list call on a live list with elements of that list has undefined behaviour; destroy_list frees the list and each of its elements exactly once and nothing else.", "quantifier": "all operation sequences, all allocators", "why_tests_cant": "Tests exercise a handful of fixed operation sequences; the claim is about every history, every key order and every allocator behaviour.", "anchors": ["src/list.c:*"]}
{"id": "C13", "title": "List navigation", "statement": "list_get_first/last/next/previous walk the sequence in order and its reverse; list_get_by_index(i) is the i-th element or NULL when i < 0 or i >= size (a negative i on fewer than 2^31 elements, see C82); list_get(v) is the first element holding v or NULL; list_size and list_empty are exact.", "quantifier": "all reachable lists, all indices and values", "why_tests_cant": "Tests exercise a handful of fixed operation sequences; the claim is about every history, every key order and every allocator behaviour.", "anchors": ["src/list.c:list_get_by_index", "src/list.c:list_get", "src/list.c:list_next", "src/list.c:list_previous", "src/list.c:list_size"]}
{"id": "C14", "title": "List copy and foreach", "statement": "list_copy yields a fresh list with the same value sequence that shares no memory with the unchanged original; list_foreach calls the callback once per value from first to last.", "quantifier": "all reachable lists", "why_tests_cant": "Tests exercise a handful of fixed operation sequences; the claim is about every history, every key order and every allocator behaviour.", "anchors": ["src/list.c:list_copy", "src/list.c:list_foreach"]}
{"id": "C15", "title": "Hash table is a finite map", "statement": "After any sequence of put/pop/detach/remove/pop_any calls, hash_table_get(k) returns the element most recently stored under a key comparing equal to k, or NULL; put returns the displaced element or NULL; size is exact.", "quantifier": "all operation sequences, all capacities >= 1, all hash functions compatible with an equivalence comparator", "why_tests_cant": "Tests exercise a handful of fixed operation sequences; the claim is about every history, every key order and every allocator behaviour.", "anchors": ["src/hashtable.c:hash_table_put", "src/hashtable.c:hash_table_get", "src/hashtable.c:hash_table_pop", "src/hashtable.c:hash_table_detach", "src/hashtable.c:hash_table_pop_any", "src/hashtable.c:hash_table_size"]}
{"id": "C16", "title": "Hash put of an already stored value has no effect", "statement": "hash_table_put(table, key, value) with value already stored under an equal key leaves the table unchanged and returns NULL.", "quantifier": "all reachable tables, keys, values", "why_tests_cant": "Tests exercise a handful of fixed operation sequences; the claim is about every history, every key order and every allocator behaviour.", "anchors": ["src/hashtable.c:hash_table_put", "include/hashtable.h:hash_table_put"]}
{"id": "C17", "title": "Hash table traversal is exhaustive", "statement": "hash_table_get_any followed by repeated hash_table_get_other visits every stored element exactly once and then returns NULL.", "quantifier": "all reachable tables", "why_tests_cant": "Tests exercise a handful of fixed operation sequences; the claim is about every history, every key order and every allocator behaviour.", "anchors": ["src/hashtable.c:hash_table_get_any", "src/hashtable.c:hash_table_get_other"]}
{"id": "C18", "title": "Hash table memory safety and leak freedom", "statement": "No hash-table call on a live table has undefined behaviour and every bucket index is in range; destroy_hash_table frees every block of the table (buckets, bucket lists, elements) exactly once and nothing else.", "quantifier": "all operation sequences, all capacities, all hash values", "why_tests_cant": "Tests exercise a handful of fixed operation sequences; the claim is about every history, every key order and every allocator behaviour.", "anchors": ["src/hashtable.c:*"]}
{"id": "C19", "title": "Hash functions respect key equality", "statement": "hash_string gives equal results for equal strings and hash_blob depends only on the bytes; hash_integer and hash_unsigned depend only on the integer value; hash_string(s) equals hash_blob(s, strlen(s)) for every 7-bit string.", "quantifier": "all strings, blobs, integers", "why_tests_cant": "Tests check a finite sample of inputs; the input space is unbounded and boundary interactions are not enumerable.", "anchors": ["src/hashtable.c:hash_string", "src/hashtable.c:hash_blob", "src/hashtable.c:hash_integer", "src/hashtable.c:hash_unsigned"]}
{"id": "C20", "title": "Priority queue dequeues a minimum", "statement": "priorq_dequeue and priorq_peek return an element no other queued element precedes, and NULL iff the queue is empty.", "quantifier": "all operation sequences, all comparators that are total preorders", "why_tests_cant": "Tests exercise a handful of fixed operation sequences; the claim is about every history, every key order and every allocator behaviour.", "anchors": ["src/priority_queue.c:priorq_dequeue", "src/priority_queue.c:priorq_peek"]}
{"id": "C21", "title": "Priority queue conserves elements", "statement": "The multiset of queued elements is exactly those enqueued and not yet returned by dequeue, pop or remove; size and empty are exact; duplicates are kept.", "quantifier": "all operation sequences; total-preorder comparators, and any comparator whatsoever as long as priorq_remove is not given the locator of the last slot", "why_tests_cant": "Tests exercise a handful of fixed operation sequences; the claim is about every history, every key order and every allocator behaviour.", "anchors": ["src/priority_queue.c:priorq_enqueue", "src/priority_queue.c:priorq_dequeue", "src/priority_queue.c:priorq_pop", "src/priority_queue.c:priorq_remove", "src/priority_queue.c:priorq_size"]}
{"id": "C22", "title": "Priority queue locators are accurate", "statement": "If all queued elements are distinct and every reloc call is recorded, then after every operation the recorded locator of each queued element makes priorq_remove remove and return exactly that element.", "quantifier": "all operation sequences over distinct elements", "why_tests_cant": "Tests exercise a handful of fixed operation sequences; the claim is about every history, every key order and every allocator behaviour.", "anchors": ["src/priority_queue.c:set_loc", "src/priority_queue.c:priorq_remove"]}
{"id": "C23", "title": "Draining the queue sorts", "statement": "Repeated priorq_dequeue until empty returns all queued elements in non-decreasing order.", "quantifier": "all reachable queues, all total-preorder comparators", "why_tests_cant": "Tests exercise a handful of fixed operation sequences; the claim is about every history, every key order and every allocator behaviour.", "anchors": ["src/priority_queue.c:priorq_dequeue"]}
{"id": "C24", "title": "Priority queue storage bounds and termination", "statement": "Every slot access is within the allocated storage, storage always has room for the next enqueue, and sift-up / sift-down terminate for any comparator.", "quantifier": "all operation sequences, any comparator (even inconsistent)", "why_tests_cant": "Tests exercise a handful of fixed operation sequences; the claim is about every history, every key order and every allocator behaviour.", "anchors": ["src/priority_queue.c:priorq_enqueue", "src/priority_queue.c:priorq_remove"]}
{"id": "C25", "title": "Integer set membership", "statement": "After any sequence of add/remove/fill on a set of a given size, intset_has(e) is true iff e was last added (or filled) and not removed since.", "quantifier": "all sizes, all operation sequences, all elements below size", "why_tests_cant": "Tests exercise a handful of fixed operation sequences; the claim is about every history, every key order and every allocator behaviour.", "anchors": ["src/intset.c:intset_add", "src/intset.c:intset_remove", "src/intset.c:intset_fill", "src/intset.c:intset_has"]}
{"id": "C26", "title": "intset_find_next_hit is the least member at or above", "statement": "intset_find_next_hit(s, e) returns the least member >= e, or -1 when none exists.", "quantifier": "all sizes up to 2^31, all sets, all start values", "why_tests_cant": "Tests check a finite sample of inputs; the input space is unbounded and boundary interactions are not enumerable.", "anchors": ["src/intset.c:intset_find_next_hit", "src/intset.c:find_next"]}
{"id": "C27", "title": "intset_find_next_miss is the least non-member at or above", "statement": "intset_find_next_miss(s, e) returns the least non-member in [e, size), or -1 when none exists, also after intset_fill.", "quantifier": "all sizes up to 2^31, all sets, all start values", "why_tests_cant": "Tests check a finite sample of inputs; the input space is unbounded and boundary interactions are not enumerable.", "anchors": ["src/intset.c:intset_find_next_miss", "src/intset.c:find_next"]}
{"id": "C28", "title": "intset stays in bounds", "statement": "No intset call with elements below the size touches a word outside the allocated array, and intset_empty is true iff no member exists.", "quantifier": "all sizes, all operation sequences", "why_tests_cant": "Tests check a finite sample of inputs; the input space is unbounded and boundary interactions are not enumerable.", "anchors": ["src/intset.c:*"]}
{"id": "C29", "title": "Byte array contents", "statement": "byte_array_copy/append/append_string/copy_string/resize/clear act on the byte sequence exactly as overwrite-and-extend, append, truncate/pad and clear; data and size report that sequence.", "quantifier": "all max sizes >= 1, all operation sequences, all positions and lengths", "why_tests_cant": "Tests exercise a handful of fixed operation sequences; the claim is about every history, every key order and every allocator behaviour.", "anchors": ["src/bytearray.c:byte_array_copy", "src/bytearray.c:byte_array_append", "src/bytearray.c:byte_array_resize", "src/bytearray.c:byte_array_clear"]}
{"id": "C30", "title": "Byte array is always NUL terminated and within its limit", "statement": "After every call the stored bytes are followed by a NUL, the allocated block covers contents plus NUL, and size + 1 <= max_size; a call that would exceed the limit returns false/-1 and changes nothing.", "quantifier": "all max sizes >= 1, all operation sequences, all lengths including near SIZE_MAX", "why_tests_cant": "Overflow boundaries near SIZE_MAX cannot be run.", "anchors": ["src/bytearray.c:ensure_space", "src/bytearray.c:byte_array_copy", "src/bytearray.c:byte_array_resize", "src/bytearray.c:byte_array_append_stream"]}
{"id": "C31", "title": "byte_array_append_stream appends what the callback delivered", "statement": "byte_array_append_stream asks the callback for at most what fits with the NUL, appends exactly the first count bytes the callback delivered when it returns count > 0, leaves contents and terminator intact when it returns zero or a negative value, and returns the callback's count (-1 without calling it when there is no room).", "quantifier": "all callbacks honouring count <= len, all arrays, all lengths", "why_tests_cant": "Tests check a finite sample of inputs; the input space is unbounded and boundary interactions are not enumerable.", "anchors": ["src/bytearray.c:byte_array_append_stream"]}
{"id": "C32", "title": "Zero-capacity byte array", "statement": "make_byte_array(0) and operations on it never write outside allocated memory.", "quantifier": "max_size = 0", "why_tests_cant": "Out-of-bounds one-byte writes go unnoticed in a test run.", "anchors": ["src/bytearray.c:make_byte_array"]}
{"id": "C33", "title": "Byte array reference counting", "statement": "A byte array shared n times is freed by exactly the (n+1)-th destroy_byte_array and is usable until then.", "quantifier": "all interleavings of share and destroy, fewer than 2^32 references", "why_tests_cant": "Tests exercise a handful of fixed operation sequences; the claim is about every history, every key order and every allocator behaviour.", "anchors": ["src/bytearray.c:share_byte_array", "src/bytearray.c:destroy_byte_array"]}
{"id": "C34", "title": "Base64 encoding follows RFC 4648", "statement": "base64_encode_buffer with enough room writes exactly the RFC 4648 encoding with the chosen 62nd/63rd characters and '=' padding, and base64_encode_simple returns that string.", "quantifier": "all byte strings, all alphabets", "why_tests_cant": "Tests check a finite sample of inputs; the input space is unbounded and boundary interactions are not enumerable.", "anchors": ["src/base64.c:base64_encode_buffer", "src/base64.c:base64_encode_simple"]}
{"id": "C35", "title": "Base64 encoder truncates like snprintf", "statement": "For any dest_size, base64_encode_buffer writes only inside dest, the written text is the longest prefix of the full encoding that leaves room for the NUL, NUL-terminated if dest_size > 0, and the return value is the full encoded length.", "quantifier": "all byte strings, all destination sizes", "why_tests_cant": "Tests check a finite sample of inputs; the input space is unbounded and boundary interactions are not enumerable.", "anchors": ["src/base64.c:base64_encode_buffer", "src/base64.c:put4"]}
{"id": "C36", "title": "Base64 round trip", "statement": "base64_decode_buffer applied to the encoding of any byte string with the same alphabet returns that byte string and its length.", "quantifier": "all byte strings, all alphabets with two distinct non-conflicting extra characters", "why_tests_cant": "Tests check a finite sample of inputs; the input space is unbounded and boundary interactions are not enumerable.", "anchors": ["src/base64.c:base64_decode_buffer", "src/base64.c:base64_encode_buffer"]}
{"id": "C37", "title": "Base64 decoder accepts exactly valid encodings", "statement": "base64_decode_buffer returns a non-negative value iff the source (up to NUL or source_size, whitespace removed when ignored) is a well-formed padded encoding, in which case the value is the decoded length and the first dest_size decoded bytes are written; otherwise -1.", "quantifier": "all source strings, all destination sizes", "why_tests_cant": "Tests check a finite sample of inputs; the input space is unbounded and boundary interactions are not enumerable.", "anchors": ["src/base64.c:base64_decode_buffer", "src/base64.c:good_termination"]}
{"id": "C38", "title": "Base64 decoder memory safety", "statement": "base64_decode_buffer never reads past the NUL or source_size and never writes at or past dest_size; base64_decode_simple never writes outside its allocation.", "quantifier": "all source strings, sizes", "why_tests_cant": "Tests check a finite sample of inputs; the input space is unbounded and boundary interactions are not enumerable.", "anchors": ["src/base64.c:base64_decode_buffer", "src/base64.c:base64_decode_simple"]}
{"id": "C39", "title": "Base64 decoding table matches its documentation", "statement": "base64_bitfield_decoding maps the 64 alphabet characters to their values, ' \\t\\n\\f\\r' to whitespace, '=' to trailer, NUL to NUL and every other character to a negative illegal value.", "quantifier": "all 256 character codes", "why_tests_cant": "The existing tests never look at codes above 126.", "anchors": ["src/base64.c:base64_bitfield_decoding", "include/base64.h:base64_bitfield_decoding"]}
{"id": "C40", "title": "base64_encoding_size is exact or reports overflow", "statement": "base64_encoding_size(n) is 4*ceil(n/3) whenever that is representable in size_t and -1 otherwise.", "quantifier": "all 2^64 sizes", "why_tests_cant": "Sizes near SIZE_MAX; the overflow test in the code is an indirect comparison.", "anchors": ["src/base64.c:base64_encoding_size"]}
{"id": "C41", "title": "binary64_to_integer is exact", "statement": "binary64_to_integer(v, &n) succeeds iff the IEEE-754 binary64 number with bit pattern v is a finite integer in the range of long long, and then n is that integer.", "quantifier": "all 2^64 bit patterns", "why_tests_cant": "2^64 inputs; only a few are tested.", "anchors": ["src/float.c:binary64_to_integer"]}
{"id": "C42", "title": "binary64_to_unsigned is exact", "statement": "binary64_to_unsigned(v, &n) succeeds iff the number with bit pattern v is a finite integer in [0, 2^64), and then n is that integer.", "quantifier": "all 2^64 bit patterns", "why_tests_cant": "2^64 inputs; only a few are tested.", "anchors": ["src/float.c:binary64_to_unsigned"]}
{"id": "C43", "title": "epoch_to_utc gives the proleptic Gregorian date and time", "statement": "For every time value from 1970-01-01 on whose day number fits the int the code uses, epoch_to_utc yields the unique year, month, day, hour, minute, second whose distance from 1970-01-01T00:00:00 in the proleptic Gregorian calendar is the given number of seconds, all fields in range.", "quantifier": "all time_t values with 0 <= epoch and day number + 135080 < 2^31", "why_tests_cant": "Too many days and boundary cases (leap years, centuries) to enumerate.", "anchors": ["src/date.c:epoch_to_utc"]}
{"id": "C44", "title": "epoch_to_utc weekday", "statement": "tm_wday is the day of the week (0 = Sunday) of that date.", "quantifier": "all time_t values with 0 <= epoch in the same range", "why_tests_cant": "Tests check a finite sample of inputs; the input space is unbounded and boundary interactions are not enumerable.", "anchors": ["src/date.c:epoch_to_utc"]}
{"id": "C45", "title": "epoch_to_utc before 1970", "statement": "For negative epochs epoch_to_utc, documented as a replacement for gmtime_r, yields in-range fields of the right date.", "quantifier": "all negative time_t values", "why_tests_cant": "Tests only use a few non-negative values.", "anchors": ["src/date.c:epoch_to_utc", "include/date.h:epoch_to_utc"]}
{"id": "C46", "title": "UTF-8 encode/decode round trip", "statement": "Decoding the bytes written by charstr_encode_utf8_codepoint(cp) returns cp and consumes exactly those bytes, for every Unicode scalar value, whatever follows.", "quantifier": "all scalar values, all continuations, all bounds", "why_tests_cant": "Tests check a finite sample of inputs; the input space is unbounded and boundary interactions are not enumerable.", "anchors": ["src/charstr.c:charstr_encode_utf8_codepoint", "src/charstr.c:charstr_decode_utf8_codepoint"]}
{"id": "C47", "title": "UTF-8 decoder accepts exactly legal encodings", "statement": "charstr_decode_utf8_codepoint returns non-NULL iff the bytes at s begin with a legal UTF-8 encoding of a scalar value that fits before end.", "quantifier": "all byte strings, all bounds", "why_tests_cant": "Tests check a finite sample of inputs; the input space is unbounded and boundary interactions are not enumerable.", "anchors": ["src/charstr.c:charstr_decode_utf8_codepoint"]}
{"id": "C48", "title": "UTF-8 validation is exact", "statement": "charstr_valid_utf8 and charstr_valid_utf8_bounded return true iff the string is a concatenation of legal UTF-8 encodings.", "quantifier": "all byte strings", "why_tests_cant": "Tests check a finite sample of inputs; the input space is unbounded and boundary interactions are not enumerable.", "anchors": ["src/charstr.c:charstr_valid_utf8", "src/charstr.c:charstr_valid_utf8_bounded"]}
{"id": "C49", "title": "Sanitized strings are valid", "statement": "charstr_sanitize_utf8 returns a string that charstr_valid_utf8 accepts, equal to the input if the input was accepted, and in general the input with each byte not part of an accepted encoding replaced by EF BF BD; no write outside its allocation.", "quantifier": "all NUL-terminated strings", "why_tests_cant": "Tests check a finite sample of inputs; the input space is unbounded and boundary interactions are not enumerable.", "anchors": ["src/charstr.c:charstr_sanitize_utf8"]}
{"id": "C50", "title": "UTF-8 encoder respects its bound", "statement": "charstr_encode_utf8_codepoint returns NULL iff the encoding does not fit before end (or s is NULL); otherwise it writes exactly the encoding at s and returns the pointer just after it. In no case does it write before s or at or past end (when it does not fit, a proper prefix may be left between s and end).", "quantifier": "all codepoints, all bounds", "why_tests_cant": "Tests check a finite sample of inputs; the input space is unbounded and boundary interactions are not enumerable.", "anchors": ["src/charstr.c:charstr_encode_utf8_codepoint"]}
{"id": "C51", "title": "UTF-8 decoder never over-reads", "statement": "charstr_decode_utf8_codepoint never reads at or past end, and without an end never reads past the terminating NUL.", "quantifier": "all byte strings, all bounds", "why_tests_cant": "Over-reads are silent in tests.", "anchors": ["src/charstr.c:charstr_decode_utf8_codepoint"]}
{"id": "C52", "title": "Case-insensitive comparison is a total preorder agreeing with lowercased strcmp", "statement": "charstr_case_cmp(a,b) has the sign of the lexicographic comparison of the ASCII-lowercased strings; charstr_ncase_cmp the same on the first n characters, reading no more than n, so that arrays of n characters need no NUL; hence zero is an equivalence and the order is transitive.", "quantifier": "all strings, all n", "why_tests_cant": "Tests check a finite sample of inputs; the input space is unbounded and boundary interactions are not enumerable.", "anchors": ["src/charstr.c:charstr_case_cmp", "src/charstr.c:charstr_ncase_cmp"]}
{"id": "C53", "title": "Prefix and suffix tests", "statement": "charstr_skip_prefix(s,p) returns the remainder of s after p iff p is a prefix of s, else NULL; the case variants the same up to ASCII case; charstr_ends_with iff the suffix is a suffix.", "quantifier": "all pairs of strings", "why_tests_cant": "Tests check a finite sample of inputs; the input space is unbounded and boundary interactions are not enumerable.", "anchors": ["src/charstr.c:charstr_skip_prefix", "src/charstr.c:charstr_case_skip_prefix", "src/charstr.c:charstr_ends_with"]}
{"id": "C54", "title": "Character classes match their documentation", "statement": "charstr_char_class(c) contains each documented class flag exactly for the characters documented for the flag.", "quantifier": "all 256 character codes", "why_tests_cant": "Only some characters are tested.", "anchors": ["src/charstr.c:charstr_char_class", "include/charstr.h:CHARSTR_*"]}
{"id": "C55", "title": "Case conversion", "statement": "charstr_lcase_char/ucase_char map exactly the ASCII letters and fix every other byte; lcase/ucase of strings and substrings act bytewise in place, preserve length and are idempotent; charstr_digit_value is the hexadecimal value of every hexadecimal digit.", "quantifier": "all bytes, all strings", "why_tests_cant": "Tests check a finite sample of inputs; the input space is unbounded and boundary interactions are not enumerable.", "anchors": ["src/charstr.c:charstr_lcase_char", "src/charstr.c:charstr_ucase_char", "src/charstr.c:charstr_lcase_str", "src/charstr.c:charstr_lcase_substr", "src/charstr.c:charstr_digit_value"]}
{"id": "C56", "title": "charstr_strip removes exactly surrounding whitespace", "statement": "charstr_strip returns the string without its longest all-whitespace prefix and suffix (whitespace per charstr_char_class), never reads outside the string, and returns NULL for NULL.", "quantifier": "all strings", "why_tests_cant": "Tests check a finite sample of inputs; the input space is unbounded and boundary interactions are not enumerable.", "anchors": ["src/charstr.c:charstr_strip"]}
{"id": "C57", "title": "charstr_split splits and joins back", "statement": "charstr_split returns pieces whose join with the delimiter is the input; no piece but possibly the last contains the delimiter; the number of pieces is min(count of delimiter, max_split) + 1, and the last contains no delimiter unless the limit was reached.", "quantifier": "all strings, all non-NUL delimiters, all limits", "why_tests_cant": "Tests check a finite sample of inputs; the input space is unbounded and boundary interactions are not enumerable.", "anchors": ["src/charstr.c:charstr_split"]}
{"id": "C58", "title": "charstr_split_into_array agrees with charstr_split", "statement": "charstr_split_into_array stores the same pieces as charstr_split at array[0..r], returns r <= max_split, and never writes past array[max_split].", "quantifier": "all strings, delimiters, limits", "why_tests_cant": "Tests check a finite sample of inputs; the input space is unbounded and boundary interactions are not enumerable.", "anchors": ["src/charstr.c:charstr_split_into_array"]}
{"id": "C59", "title": "charstr_split_str splits at leftmost occurrences", "statement": "charstr_split_str with a non-empty delimiter returns pieces whose join with the delimiter is the input, split at the leftmost non-overlapping occurrences up to the limit.", "quantifier": "all strings, all non-empty delimiters, all limits", "why_tests_cant": "Tests check a finite sample of inputs; the input space is unbounded and boundary interactions are not enumerable.", "anchors": ["src/charstr.c:charstr_split_str"]}
{"id": "C60", "title": "charstr_split_atoms returns the maximal non-whitespace runs", "statement": "charstr_split_atoms returns, in order, exactly the maximal runs of non-whitespace characters; the empty list iff there are none.", "quantifier": "all strings", "why_tests_cant": "Tests check a finite sample of inputs; the input space is unbounded and boundary interactions are not enumerable.", "anchors": ["src/charstr.c:charstr_split_atoms"]}
{"id": "C61", "title": "String duplication", "statement": "charstr_dupstr / charstr_dupsubstr return a fresh NUL-terminated copy of exactly the given bytes.", "quantifier": "all strings and substrings", "why_tests_cant": "Tests check a finite sample of inputs; the input space is unbounded and boundary interactions are not enumerable.", "anchors": ["src/charstr.c:charstr_dupstr", "src/charstr.c:charstr_dupsubstr"]}
{"id": "C62", "title": "URL encoding round trip", "statement": "charstr_url_decode(charstr_url_encode(s), true) yields s.", "quantifier": "all strings", "why_tests_cant": "Tests check a finite sample of inputs; the input space is unbounded and boundary interactions are not enumerable.", "anchors": ["src/charstr.c:charstr_url_encode", "src/charstr.c:charstr_url_decode"]}
{"id": "C63", "title": "URL encoding of each byte is as documented", "statement": "charstr_url_encode_byte yields '+' for space, the byte itself for alphanumerics and the documented punctuation, and %XX in upper-case hexadecimal for all others.", "quantifier": "all 256 bytes", "why_tests_cant": "Documented list never checked exhaustively.", "anchors": ["src/charstr.c:charstr_url_encode_byte", "include/charstr.h:charstr_url_encode_byte"]}
{"id": "C64", "title": "Custom URL encoders", "statement": "A custom encoder passes every unreserved character unchanged, percent-encodes every reserved character that is not also unreserved, and encodes all others as the default; the round trip through charstr_url_decode holds whenever '%' is not unreserved and, for plus-as-space decoding, '+' is not unreserved, or, for plus-as-plus decoding, the space is reserved or unreserved.", "quantifier": "all reserve and unreserve strings, all strings", "why_tests_cant": "Tests check a finite sample of inputs; the input space is unbounded and boundary interactions are not enumerable.", "anchors": ["src/charstr.c:charstr_create_url_encoder", "src/charstr.c:charstr_url_custom_encode"]}
{"id": "C65", "title": "URL decoder accepts exactly well-formed input", "statement": "charstr_url_decode fails iff some '%' is not followed by two hexadecimal digits; otherwise it returns the bytes denoted, their number in size, and never reads past the NUL.", "quantifier": "all strings, both plus modes", "why_tests_cant": "Tests check a finite sample of inputs; the input space is unbounded and boundary interactions are not enumerable.", "anchors": ["src/charstr.c:charstr_url_decode"]}
{"id": "C66", "title": "Allocation wrappers", "statement": "fscalloc(n, s) returns a zeroed block of n*s bytes; fsfree(NULL) is harmless; every allocation goes through the installed reallocator, and skew is forwarded to the counter iff one is installed.", "quantifier": "all sizes, all reallocators", "why_tests_cant": "Tests check a finite sample of inputs; the input space is unbounded and boundary interactions are not enumerable.", "anchors": ["src/fsalloc.c:fscalloc", "src/fsalloc.c:fsalloc", "src/fsalloc.c:fsfree", "src/fsalloc.c:fs_reallocator_skew"]}
{"id": "C67", "title": "Unboxed integers", "statement": "as_intptr(as_integer(v)) == v and likewise for unsigned; integer_cmp and unsigned_cmp have the sign of the numeric comparison of the (signed resp. unsigned) values, so they are total orders usable as AVL comparators.", "quantifier": "all 2^64 values", "why_tests_cant": "Tests check a finite sample of inputs; the input space is unbounded and boundary interactions are not enumerable.", "anchors": ["src/integer.c:integer_cmp", "src/integer.c:unsigned_cmp", "include/integer.h:*"]}
{"id": "C68", "title": "Generated category lookup is exact", "statement": "The code emitted by categorize.py for charstr_unicode_category returns, for each codepoint, the category recorded in the data.", "quantifier": "all category tables, all codepoints", "why_tests_cant": "The table has over a million codepoints and the generator must work for every future data file.", "anchors": ["src/categorize.py:*", "src/charstr_unicode.c:charstr_unicode_category"]}
{"id": "C69", "title": "Normalization quick check reports faithfully", "statement": "charstr_detect_unicode_normal_form decodes the text up to its end or the first undecodable byte. It returns disallowed iff one of the code points read has the disallowed flag or a non-zero combining class follows a larger one; otherwise -1 iff decoding failed; otherwise maybe iff some code point has the maybe flag; otherwise 0.", "quantifier": "all byte strings, all bounds, all property tables", "why_tests_cant": "Tests check a finite sample of inputs; the input space is unbounded and boundary interactions are not enumerable.", "anchors": ["src/charstr_unicode.c:charstr_detect_unicode_normal_form"]}
{"id": "C70", "title": "Decomposition produces canonical decomposition", "statement": "charstr_unicode_decompose with enough room outputs the full canonical decomposition of the input with every maximal run of combining characters stably sorted by combining class, NUL-terminated.", "quantifier": "all legal inputs, all decomposition and class tables", "why_tests_cant": "Tests check a finite sample of inputs; the input space is unbounded and boundary interactions are not enumerable.", "anchors": ["src/charstr_decompose.c:charstr_unicode_decompose", "src/charstr_decompose.c:*"]}
{"id": "C71", "title": "Decomposition buffer bound", "statement": "An output buffer of three times the input size plus one always suffices for charstr_unicode_decompose (the result is the canonical decomposition, or EILSEQ for badly encoded text), and no byte is written at or past output_end for any size.", "quantifier": "all inputs, all buffer sizes", "why_tests_cant": "Tests check a finite sample of inputs; the input space is unbounded and boundary interactions are not enumerable.", "anchors": ["src/charstr_decompose.c:charstr_unicode_decompose"]}
{"id": "C72", "title": "Recomposition output never exceeds its buffer and keeps canonical equivalence", "statement": "charstr_unicode_recompose never writes at or past output_end, and the canonical decomposition of its output equals that of its input.", "quantifier": "all canonically decomposed inputs", "why_tests_cant": "Tests check a finite sample of inputs; the input space is unbounded and boundary interactions are not enumerable.", "anchors": ["src/charstr_recompose.c:charstr_unicode_recompose"]}
{"id": "C73", "title": "Hangul composition inverts decomposition", "statement": "For each of the 11172 Hangul syllables, arithmetic decomposition followed by recomposition yields the syllable.", "quantifier": "all Hangul syllables", "why_tests_cant": "Tests check a finite sample of inputs; the input space is unbounded and boundary interactions are not enumerable.", "anchors": ["src/charstr_decompose.c:decompose_hangul", "src/charstr_recompose.c:*"]}
{"id": "C74", "title": "Punycode encoding decodes back", "statement": "The xn-- label produced for a non-ASCII label is the RFC 3492 encoding of the mapped label: an RFC 3492 decoder returns exactly the label's codepoints (ASCII lower-cased).", "quantifier": "all labels", "why_tests_cant": "Tests check a finite sample of inputs; the input space is unbounded and boundary interactions are not enumerable.", "anchors": ["src/charstr_puny.c:punycode_encode*"]}
{"id": "C75", "title": "Punycode arithmetic cannot overflow", "statement": "For hostnames the encoder accepts, no int computation in the punycode encoder overflows and every loop terminates.", "quantifier": "all accepted hostnames", "why_tests_cant": "Tests check a finite sample of inputs; the input space is unbounded and boundary interactions are not enumerable.", "anchors": ["src/charstr_puny.c:*"]}
{"id": "C76", "title": "All-ASCII hostnames pass through", "statement": "charstr_idna_encode of an all-ASCII hostname returns an identical copy.", "quantifier": "all ASCII strings", "why_tests_cant": "Tests check a finite sample of inputs; the input space is unbounded and boundary interactions are not enumerable.", "anchors": ["src/charstr_puny.c:charstr_idna_encode"]}
{"id": "C77", "title": "charstr_idna_encode never aborts", "statement": "charstr_idna_encode returns a string or NULL for every valid UTF-8 hostname; it never fails an assertion or invokes undefined behaviour.", "quantifier": "all UTF-8 strings", "why_tests_cant": "Aborts need unusual label length combinations.", "anchors": ["src/charstr_puny.c:charstr_idna_encode"]}
{"id": "C78", "title": "Generated IDNA status sets are exact", "statement": "The predicates emitted by gen_idna_table (charstr_idna_status_is_*) hold exactly for the codepoints with that status in the data file.", "quantifier": "all data files, all codepoints", "why_tests_cant": "Tests check a finite sample of inputs; the input space is unbounded and boundary interactions are not enumerable.", "anchors": ["src/gen_idna_table.c:generate_set", "src/gen_idna_table.c:generate_test"]}
{"id": "C79", "title": "Generated IDNA mapping lookup is exact", "statement": "charstr_idna_mapping(cp) returns the mapping recorded for cp and NULL if none, never reading outside the table.", "quantifier": "all sorted mapping tables, all codepoints", "why_tests_cant": "Tests check a finite sample of inputs; the input space is unbounded and boundary interactions are not enumerable.", "anchors": ["src/gen_idna_table.c:generate_mappings"]}
{"id": "C80", "title": "Integer sets larger than the result type", "statement": "intset_find_next_hit and intset_find_next_miss return (terminate) for every set, also when the size exceeds 2^31, and report a member when there is one.", "quantifier": "all sizes above 2^31", "why_tests_cant": "Half-gigabyte sets are not built in unit tests.", "anchors": ["src/intset.c:find_next", "include/intset.h:intset_find_next_hit"]}
{"id": "C81", "title": "Reference count of a byte array does not wrap", "statement": "However often a byte array is shared, it is not freed while a reference is left.", "quantifier": "all numbers of references", "why_tests_cant": "2^32 shares are not made in a unit test.", "anchors": ["src/bytearray.c:share_byte_array", "src/bytearray.c:destroy_byte_array"]}
{"id": "C82", "title": "list_get_by_index with a negative index on huge lists", "statement": "list_get_by_index(list, i) returns NULL for i < 0 whatever the length of the list.", "quantifier": "all reachable lists, all negative indices", "why_tests_cant": "needs a list of more than 2^31 elements", "anchors": ["src/list.c:48-57", "include/list.h:56-59"]}
{"id": "C83", "title": "charstr_idna_status names the recorded status", "statement": "charstr_idna_status(cp) returns the status the data file records for the code point, and \"?\" for integers that are not code points.", "quantifier": "all data files, all codepoints", "why_tests_cant": "Depends on every boundary of the generated tables; 1.1 million code points times the possible data files.", "anchors": ["src/charstr_puny.c:charstr_idna_status", "src/gen_idna_table.c:main"]}
{"id": "C84", "title": "Generated normalization tables say what the data files say", "statement": "The functions generated by decomposition.py, recomposition.py, canonical_combining_classes.py and allowed_in_normal_form.py from the data files of the repository return, for each code point, the canonical mapping, combining class, primary composite and quick check values of its line, and the defaults for other code points.", "quantifier": "all code points", "why_tests_cant": "Over a million code points and pairs of them; tests look at a few.", "anchors": ["src/decomposition.py", "src/recomposition.py", "src/canonical_combining_classes.py", "src/allowed_in_normal_form.py"]}
{"id": "C85", "title": "A decomposition is complete or reported as not fitting", "statement": "If charstr_unicode_decompose returns non-NULL, the output is the complete canonical decomposition; if there is no room for it, NULL is returned with EOVERFLOW.", "quantifier": "all texts, all buffer sizes", "why_tests_cant": "Needs every combination of text and buffer size.", "anchors": ["src/charstr_decompose.c:charstr_unicode_decompose", "src/charstr_decompose.c:decompose_fully"]}
{"id": "C86", "title": "Recomposition succeeds with the documented room", "statement": "charstr_unicode_recompose succeeds for every well encoded text in canonical form if the output buffer has the size of the text plus one.", "quantifier": "all canonically decomposed texts", "why_tests_cant": "Tests check a finite sample of strings; combining sequences are unbounded and the tables have thousands of entries.", "anchors": ["src/charstr_recompose.c:charstr_unicode_recompose"]}
{"id": "C87", "title": "Decomposing and recomposing is normalization form C", "statement": "charstr_unicode_decompose followed by charstr_unicode_recompose yields the normalization form C of the text as defined by the Unicode Standard, and both normal forms are stable under a second normalization.", "quantifier": "all legal UTF-8 texts without more than 100 consecutive non-starters, for the data files of the repository", "why_tests_cant": "Tests check a finite sample of strings; combining sequences are unbounded and the tables have thousands of entries.", "anchors": ["src/charstr_decompose.c", "src/charstr_recompose.c"]}
{"id": "C88", "title": "Decomposition decides canonical equivalence", "statement": "Two texts have the same output of charstr_unicode_decompose exactly if they are canonically equivalent.", "quantifier": "all pairs of texts, sufficient buffers", "why_tests_cant": "Tests check a finite sample of strings; combining sequences are unbounded and the tables have thousands of entries.", "anchors": ["src/charstr_decompose.c:charstr_unicode_decompose"]}
{"id": "C89", "title": "Normal form predicates are sound", "statement": "If charstr_unicode_canonically_composed or charstr_unicode_canonically_decomposed returns true, the text is valid UTF-8 and in normalization form C or D; for form D the converse holds as well.", "quantifier": "all texts, for the data files of the repository", "why_tests_cant": "Tests check a finite sample of strings; combining sequences are unbounded and the tables have thousands of entries.", "anchors": ["src/charstr_unicode.c:charstr_unicode_canonically_composed", "src/charstr_unicode.c:charstr_unicode_canonically_decomposed", "include/charstr.h"]}
{"id": "C90", "title": "Different host names have different encodings", "statement": "If charstr_idna_encode returns the same string for two host names, they are the same after normalization and mapping, up to ASCII capitals.", "quantifier": "all host names, for every mapping the generated IDNA functions represent", "why_tests_cant": "Tests check a finite sample of host names; code points, label lengths and combining sequences combine without bound.", "anchors": ["src/charstr_puny.c:charstr_idna_encode"]}
{"id": "C91", "title": "Every host name within the DNS limits is encoded", "statement": "If the normalized and mapped host name has an ASCII form whose labels have 1 to 63 characters and which has at most 253 characters, charstr_idna_encode returns it.", "quantifier": "all host names, for every mapping the generated IDNA functions represent", "why_tests_cant": "Tests check a finite sample of host names; code points, label lengths and combining sequences combine without bound.", "anchors": ["src/charstr_puny.c:charstr_idna_encode"]}
{"id": "C92", "title": "Malformed UTF-8 is refused", "statement": "charstr_idna_encode returns NULL for a string that is not valid UTF-8.", "quantifier": "all strings", "why_tests_cant": "Tests check a finite sample of host names; code points, label lengths and combining sequences combine without bound.", "anchors": ["src/charstr_puny.c:charstr_idna_encode"]}
{"id": "C93", "title": "Malformed labels are refused", "statement": "If charstr_idna_encode returns a string for a host name that is not ASCII, no label is empty (except at the end), begins or ends with a hyphen or begins with a spacing combining mark, and the ASCII characters of labels are letters, digits and hyphens.", "quantifier": "all host names, for every mapping the generated IDNA functions represent", "why_tests_cant": "Tests check a finite sample of host names; code points, label lengths and combining sequences combine without bound.", "anchors": ["src/charstr_puny.c:charstr_idna_encode"]}
{"id": "C94", "title": "Canonically equivalent host names are encoded alike", "statement": "charstr_idna_encode has the same result for host names with the same canonical decomposition.", "quantifier": "all host names, for every mapping the generated IDNA functions represent", "why_tests_cant": "Tests check a finite sample of host names; code points, label lengths and combining sequences combine without bound.", "anchors": ["src/charstr_puny.c:charstr_idna_encode"]}
{"id": "C95", "title": "Encoded labels are normalized", "statement": "The labels encoded by charstr_idna_encode decode to text in normalization form C (UTS #46, section 4, step 2).", "quantifier": "all host names, for every mapping the generated IDNA functions represent", "why_tests_cant": "Tests check a finite sample of host names; code points, label lengths and combining sequences combine without bound.", "anchors": ["src/charstr_puny.c:charstr_idna_encode"]}
{"id": "C96", "title": "The encoding is a DNS name", "statement": "Whatever the bytes of the argument (not all ASCII), a string returned by charstr_idna_encode is NUL-terminated, consists of lower-case letters, digits, hyphens and full stops, has at most 253 characters, and at most 63 between full stops.", "quantifier": "all strings", "why_tests_cant": "Tests check a finite sample of host names; code points, label lengths and combining sequences combine without bound.", "anchors": ["src/charstr_puny.c:charstr_idna_encode"]}
{"id": "C97", "title": "Encoding is idempotent", "statement": "If charstr_idna_encode returns a string, applying it to this string returns the same string.", "quantifier": "all strings", "why_tests_cant": "Tests check a finite sample of host names; code points, label lengths and combining sequences combine without bound.", "anchors": ["src/charstr_puny.c:charstr_idna_encode"]}
{"id": "C98", "title": "The IDNA table is read as written", "statement": "If IdnaMappingTable.txt has the format described in UTS #46 section 5 and exactly one line about each code point, gen_idna_table records for each code point the status and the mapping of that line; if a code point has no line or more than one, the program stops without output.", "quantifier": "all files in the format, of any layout (spaces, tabs, comments, empty lines, letter case of numbers)", "why_tests_cant": "There is one data file in the repository; a later Unicode version has another, and the layouts a file can have are unbounded.", "anchors": ["src/gen_idna_table.c:main"]}
{"id": "C100", "title": "Letter case follows UnicodeData.txt", "statement": "charstr_naive_lcase_unicode returns the simple lower-case mapping of each code point of category Lu that has one, charstr_naive_ucase_unicode the simple upper-case mapping of each code point of category Ll that has one; every other integer is returned unchanged.", "quantifier": "all integers, with the data of Unicode 13", "why_tests_cant": "2^32 integers, and code generated from 34 thousand lines.", "anchors": ["src/lower_case.py:*", "src/upper_case.py:*", "src/charstr.c:charstr_naive_lcase_unicode", "src/charstr.c:charstr_naive_ucase_unicode"]}
{"id": "C101", "title": "Letter case conversions are idempotent", "statement": "Applying charstr_naive_lcase_unicode or charstr_naive_ucase_unicode twice gives the same as applying it once; scalar values become scalar values, the UTF-8 encoding grows by at most one byte, on ASCII the result is that of charstr_lcase_char and charstr_ucase_char; converting an Lu letter to lower case and back loses it for six letters, an Ll letter to upper case and back for 49.", "quantifier": "all integers, with the data of Unicode 13", "why_tests_cant": "2^32 integers, and code generated from 34 thousand lines.", "anchors": ["src/lower_case.py:*", "src/upper_case.py:*"]}
{"id": "C99", "title": "Host names are processed by UTS #46 with the shipped tables", "statement": "With the tables generated from the data files in the repository, charstr_idna_encode returns the ASCII form of the host name obtained by normalization form C and step 1 of UTS #46 (non-transitional, STD3 rules), if there is one in its limits, and no string otherwise; every code point of the encoded labels is valid or a deviation in IdnaMappingTable.txt, and the encoded labels decode to it by RFC 3492.", "quantifier": "all host names in UTF-8, all layouts of the data file", "why_tests_cant": "1.1 million code points in all combinations, through three generated tables.", "anchors": ["src/charstr_puny.c:charstr_idna_encode", "src/gen_idna_table.c:main", "src/categorize.py:*"]}
{"id": "C102", "title": "Splitting functions hand over strings the caller owns", "statement": "charstr_split, charstr_split_atoms, charstr_split_str and charstr_split_into_array return (or store) the pieces as new NUL-terminated strings, each in a block of its own, and change no other memory; freeing the strings and destroying the list leaves memory as it was before the call.", "quantifier": "all strings at any offset of any block, all delimiters, all limits, all allocators (including ones that reuse freed addresses), all other memory contents", "why_tests_cant": "A test sees one allocator and one string; leaks, sharing of blocks and writes outside the result are not visible in the result.", "anchors": ["src/charstr.c:charstr_split", "src/charstr.c:charstr_split_atoms", "src/charstr.c:charstr_split_str", "src/charstr.c:charstr_split_into_array"]}
{"id": "C103", "title": "The host name encoder leaves nothing behind", "statement": "charstr_idna_encode returns NULL with memory as before, or one new block that holds the encoded name and its NUL; every work area is freed on every path, the host name is not changed, and freeing the result leaves memory as it was.", "quantifier": "all host names, all Unicode and IDNA tables, all allocators, all other memory contents", "why_tests_cant": "The paths depend on normalization state and on failures deep in the encoder; leaks do not show in results.", "anchors": ["src/charstr_puny.c:charstr_idna_encode", "src/charstr_puny.c:encode_nfd"]}
{"id": "C104", "title": "charstr_printf allocates exactly the text", "statement": "charstr_vprintf and charstr_printf return NULL and change nothing if the formatter fails or the text has 2^31 bytes or more; otherwise they return a new block that holds exactly the formatted text and its NUL.", "quantifier": "all formatters that read only memory live before the call, all allocators, all memory contents", "why_tests_cant": "All formats, arguments and lengths.", "anchors": ["src/charstr.c:charstr_vprintf", "src/charstr.c:charstr_printf"]}
{"id": "C105", "title": "Sets, queues and byte arrays do not disturb each other or the rest of memory", "statement": "In any program that makes, uses, shares and destroys any number of integer sets, priority queues and byte arrays, every call returns what the abstract object allows (set of numbers, multiset of elements, bytes with a limit and a number of owners), no call touches memory other than the blocks of its own object and the source it is given, everything that was in memory before stays unchanged, the blocks in use are at most two per object not yet destroyed, and when all objects are destroyed memory is as before.", "quantifier": "all programs that respect the preconditions, all allocators (including ones that reuse freed addresses), all initial memories, all comparators that order", "why_tests_cant": "Interleavings of many objects, growth and reuse of freed addresses are unbounded; leaks and writes into foreign blocks do not show in results.", "anchors": ["src/intset.c", "src/priority_queue.c", "src/bytearray.c"]}
{"id": "C106", "title": "A byte array can be given a part of itself", "statement": "byte_array_append and byte_array_copy accept a source that points into the array itself: the bytes written are the ones the source held before the call.", "quantifier": "all arrays, all parts of the contents, all positions, all allocators", "why_tests_cant": "Whether the block moves when it grows depends on the allocator and on the sizes.", "anchors": ["src/bytearray.c:byte_array_append", "src/bytearray.c:byte_array_copy", "src/bytearray.c:ensure_space"]}
{"id": "C107", "title": "All data types can be used together in one memory", "statement": "A program that uses AVL trees, lists, hash tables, integer sets, priority queues and byte arrays at the same time, storing pointers to the ones in the others and freeing and reusing memory in any order, gets from every call what the documentation of that data type promises, as if the other data types were not there. No call has undefined behaviour, memory of the program's own is untouched, no block serves two of them, and when everything is destroyed all memory has been given back.", "quantifier": "all interleavings of calls in which each data type's rules are kept, where later calls may depend on earlier results; any number of parts, all comparators and hash functions, all allocators including ones that reuse freed addresses, all initial memories", "why_tests_cant": "The interleavings and the allocator's choices are unbounded; a write into a block of another object shows only much later, if at all.", "anchors": ["src/avltree.c", "src/list.c", "src/hashtable.c", "src/intset.c", "src/priority_queue.c", "src/bytearray.c", "src/fsalloc.c"]}
{"id": "C108", "title": "Searching costs a logarithmic number of comparisons", "statement": "A priority queue with n elements consults the comparator about O(log n) pairs of values per call and calls the relocation callback O(log n) times; peeking and popping consult nobody. A search in an AVL tree of n elements depends on at most 2 log2(n+1) answers of the comparator, and calls that look for no key depend on none. A search in a hash table made for n elements depends on at most as many answers as there are elements whose hash codes agree with the sought one's modulo the number of buckets, and that number is at least n (up to the largest supported one).", "quantifier": "all programs that lead to the structure, all sizes, all comparators (for hash tables all that agree with the hash function), all allocators", "why_tests_cant": "The cost depends on the shape that a whole history of calls has produced; a linear search returns the same results as a logarithmic one.", "anchors": ["src/priority_queue.c", "src/avltree.c", "src/hashtable.c"]}
{"id": "C109", "title": "UTF-8 calls can be chained and checked once at the end", "statement": "A caller may encode a run of code points by passing each returned pointer to the next call, looking only at the last one: it is not NULL exactly if the whole UTF-8 text fits before the end, in which case precisely that text has been stored; otherwise nothing before the start or from the end on has changed. Decoding in the same way succeeds exactly if the text begins with as many encodings before the end as there were calls, stores their code points in order, and never reads at or after the end. What one run has encoded another decodes.", "quantifier": "all lists of Unicode scalar values, all buffers and positions, all byte strings and numbers of calls", "why_tests_cant": "The failure can happen at any position of a chain of any length, with every split of a sequence by the end of the buffer.", "anchors": ["src/charstr.c", "include/charstr.h"]}
{"id": "C110", "title": "errno says why a call was refused", "statement": "A byte array call that is refused for lack of room leaves ENOSPC in errno; a call that succeeds leaves errno alone, and a stream call leaves what its callback left. The single exception is a copy to a position past the end, which is refused with errno unchanged. charstr_url_decode leaves EILSEQ exactly if it returns NULL, and so does charstr_vprintf, whatever the C library put there.", "quantifier": "all histories of calls on a byte array of any limit, all arguments and callbacks, all strings, all previous values of errno", "why_tests_cant": "Which call runs out of room depends on the whole history; that errno is never touched otherwise is a statement about every path.", "anchors": ["src/bytearray.c", "src/charstr.c", "include/charstr.h"]}
{"id": "C111", "title": "Strings and encoders made by calls are blocks of their own", "statement": "A program that makes, splits, encodes, decodes, strips, sanitizes, prints, recases and frees strings, in any order and with each call's arguments pointing into user memory or into strings made by earlier calls, runs without undefined behaviour; every call's result is a new block, distinct from all blocks in use, with exactly the promised text and NUL (plus two bytes per percent sign that a custom URL encoder leaves alone); in-place calls change the given block only; after everything is freed memory is as it was. This also holds when the program uses trees, lists, tables, sets, queues and byte arrays in between.", "quantifier": "all programs, allocators, initial memories, string contents and pointer offsets", "why_tests_cant": "Tests call each function once on literals; ownership mistakes (results that share memory with arguments, blocks not freed, stale pointers) show only in sequences of calls, of which there are infinitely many.", "anchors": ["/repo/src/charstr.c:326-449", "/repo/src/charstr.c:510-541", "/repo/src/charstr.c:607-737", "/repo/src/base64.c:123-132", "/repo/src/base64.c:249-259"]}
{"id": "C112", "title": "The generators read the data files as written", "statement": "For every UnicodeData.txt, CompositionExclusions.txt and DerivedNormalizationProps.txt in the formats of UAX #44, with the lines in order, ranges closed and code points below 0x110000, the Python scripts run to the end, and the C functions they emit return for every code point what its line says: the category (Cn if it has none), the case mapping, the combining class, the canonical decomposition, the composite of a pair, and the quick check flags.", "quantifier": "all texts in the formats, of any length, and all code points", "why_tests_cant": "There is one version of the files in the repository; each Unicode version brings others, and names, comments, padding and the number of lines are unbounded.", "anchors": ["src/categorize.py:main", "src/lower_case.py:main", "src/upper_case.py:main", "src/canonical_combining_classes.py:main", "src/decomposition.py:main", "src/recomposition.py:main", "src/allowed_in_normal_form.py:main"]}
{"id": "C113", "title": "What a callback of list_foreach may do", "statement": "A callback of list_foreach may call any list function, list_foreach included, on any list, including the list being visited: it may add elements anywhere and remove any element except the one it was called for. Elements it adds after that one are visited, elements removed before their turn are not. Such a program runs without undefined behaviour and leaves the lists as these rules say, and other memory as it was. A callback that removes the element it was called for is undefined behaviour.", "quantifier": "all programs of list calls with callbacks nested to any depth, allocators, initial memories, and the choices of the callbacks", "why_tests_cant": "A callback can interleave any calls with the walk; the header is silent on the matter and which interleavings are safe depends on which pointers the loop keeps, for lists of any length.", "anchors": ["src/list.c:169-175", "include/list.h:117-124"]}
{"id": "C114", "title": "Trees, hash tables and queues keep the callbacks they were made with", "statement": "Every AVL tree, hash table and priority queue uses, in every call, the comparator, hash function, context and relocation callback given when it was made, whatever other trees, tables and queues with other callbacks are made, copied, used or destroyed in between. A copy of a tree uses the callbacks of the original. A queue made with a NULL relocation callback never calls NULL.", "quantifier": "all legal programs, all functions behind the callback pointers, any number of objects with different callbacks, all allocators and initial memories", "why_tests_cant": "The unit tests use one comparator at a time; mixing up the callbacks of two objects, or losing the context on copying, goes unnoticed there.", "anchors": ["src/avltree.c:make_avl_tree", "src/avltree.c:avl_tree_copy", "src/hashtable.c:make_hash_table", "src/priority_queue.c:make_priority_queue"]}
{"id": "C115", "title": "Byte arrays and priority queues grow in amortised linear time and space", "statement": "Along any history of calls on a byte array with a limit of at most 2^63, the heap block never has more bytes than the larger of 128 and twice the most bytes any accepted call asked room for; the number r of reallocations satisfies 128 * 2^r <= that number, and all reallocations together copy fewer bytes than that number. Along any history of operations on a priority queue that never holds more than n elements, the storage never has more than 2n - 1 slots, the number r of reallocations satisfies 2^r <= 4n (r = 0 if nothing is ever queued), and all reallocations together copy at most 2n - 1 slots, whatever the comparator does.", "quantifier": "all limits up to 2^63, all histories of calls with all arguments, callbacks and contents of fresh memory; all element types, comparators and histories of queue operations", "why_tests_cant": "Growth by a constant step, a block sized to one more than asked for, or sizes that lag behind pass every functional test; only the cost over arbitrarily long histories differs.", "anchors": ["src/bytearray.c:16-28", "src/bytearray.c:44-69", "src/priority_queue.c:67-84"]}
{"id": "C116", "title": "When memory runs out the library aborts and does nothing else", "statement": "If the allocator has no room for a block, the call aborts. A program that uses any number of AVL trees, lists, hash tables, sets, queues, byte arrays and strings and keeps their rules either is aborted, which happens only with an allocator that has no room for some block, or does exactly what it does with unlimited memory: every result is right, no block is lost, and when everything is destroyed memory is as before. It never has undefined behaviour and never hangs. The same holds for charstr_idna_encode. The library relies on this abort: if a reallocator set by the user returns NULL, making a list, a list element, a tree, a tree element, a hash table, a set, a queue or a byte array is undefined behaviour.", "quantifier": "all programs, all callbacks, all initial memories, all allocators and all choices of the memories in which, and the blocks for which, they have no room", "why_tests_cant": "Failures of malloc can come at any allocation of any program; tests do not run out of memory.", "anchors": ["src/fsalloc.c:5-18", "src/fsalloc.c:53-56", "src/list.c", "src/avltree.c", "src/hashtable.c", "src/intset.c", "src/priority_queue.c", "src/bytearray.c", "src/charstr.c", "src/charstr_puny.c:charstr_idna_encode"]}
{"id": "C117", "title": "The recursion of the library is shallow", "statement": "A program on AVL trees that never have more than n elements has at most 4 log2(n+1) + 1 calls of the functions that call themselves or each other (destroy_subtree, put, put_left, put_right, lighten_parent, lighten_left, lighten_right, copy_tree) active at a time: with a stack for that many calls it does what it does with an unlimited one. Destroying a tree of n elements does need log2(n) + 2 of them. decompose_fully, the recursion in Unicode decomposition, has at most four calls active at a time for every character, and four are needed for U+1F82.", "quantifier": "all programs on trees, all comparators, all sizes n, all stacks; all code points", "why_tests_cant": "A stack overflow shows only with a tree of a particular shape and a small stack; a test has a few trees and a large stack.", "anchors": ["src/avltree.c:32-39", "src/avltree.c:218-243", "src/avltree.c:273-332", "src/avltree.c:360-419", "src/avltree.c:514-527", "src/charstr_decompose.c:29-42"]}
{"id": "C118", "title": "Memory use follows contents, block by block", "statement": "After every legal program on the data types and strings, the number of blocks in use that were not in use before is what the contents say: for each AVL tree and each list one block and one for each of its elements, one for each element that has left its tree or hash table and is not destroyed, for a hash table one for itself, one for its array of buckets, two for each of its elements, and one for each list in its buckets, of which there are never more than buckets, so at most 53 or three times the capacity asked for; two for each set, priority queue and byte array, or one for a set of size 0 and an empty queue; and one for each string and URL encoder. Every such block belongs to exactly one of them, so nothing is kept longer than needed during the life of a container, not only at its end.", "quantifier": "all legal programs on any number of parts of the library, all allocators, all initial memories, at every point of a program", "why_tests_cant": "Leak checkers see memory that is unreachable or never freed at the end of a run; memory that is kept too long but freed with its container is not seen, and only the test's own calls are looked at.", "anchors": ["src/avltree.c:16-60", "src/list.c:6-22", "src/list.c:69-136", "src/hashtable.c:39-86", "src/hashtable.c:112-130", "src/intset.c:12-24", "src/priority_queue.c:18-46", "src/priority_queue.c:70-90", "src/bytearray.c:14-68"]}
{"id": "C119", "title": "Elements can be removed while a loop goes through a container", "statement": "A loop over a tree, a list or a hash table that fetches the next element (forwards or backwards for trees and lists, with get_other for tables) and then removes the current element if it likes, ends without undefined behaviour, visits every element exactly once (in order for trees and lists), and leaves exactly the elements it did not remove, in their order. Other containers, loose elements and other memory stay as they were, nothing leaks, and the container can be used as before from there on. Which elements to remove may depend on all elements visited so far.", "quantifier": "all programs before and after the loop, all contents, all ways to choose what to remove, all comparators and hash functions, all allocators", "why_tests_cant": "Removal moves elements in trees (rotations, swaps with neighbours); a test tries a few trees and patterns of removal, but whether the pointer to the next element survives depends on the shape.", "anchors": ["src/avltree.c:92-100", "src/avltree.c:146-154", "src/avltree.c:421-459", "src/list.c:59-67", "src/list.c:119-137", "src/hashtable.c:142-152", "src/hashtable.c:175-198", "include/hashtable.h:125-139"]}
{"id": "C120", "title": "Popping until there is nothing left empties a container", "statement": "Calling avl_tree_pop_first (or pop_last) and destroying the element until NULL comes delivers all elements in ascending (descending) order, each once, and leaves an empty tree; the same holds for hash_table_pop_any without an order. Calling list_pop_first (or list_pop_last) until list_empty delivers all values in order. Calling it until NULL comes delivers the values in front of the first NULL value, and leaves the values after it: a loop of that kind empties the list if and only if there is no NULL value but perhaps at the end.", "quantifier": "all programs before and after the loop, all contents, all comparators and hash functions, all allocators", "why_tests_cant": "A loop that ends early or late shows only for certain shapes of trees, distributions over buckets, or values.", "anchors": ["src/avltree.c:498-512", "src/list.c:139-161", "src/hashtable.c:162-173"]}
{"id": "C121", "title": "Base64 decoding and recomposition may overwrite their input", "statement": "base64_decode_buffer and charstr_unicode_recompose can be called with the destination at or before the source in the same object: they return and store what they would with a destination of their own, for valid and invalid input, and base64_decode_buffer changes nothing behind the given size. In particular, a buffer that charstr_unicode_decompose has filled can be recomposed where it is, which yields normalization form C. charstr_unicode_decompose cannot be called in that way: there is a valid text that it then refuses as malformed.", "quantifier": "all inputs, all distances between destination and source, all sizes, all alphabets; for the normalization form, texts without runs of more than 100 marks", "why_tests_cant": "In-place use goes wrong only where the output gets ahead of the input, at particular positions of particular texts.", "anchors": ["src/base64.c:192-247", "src/charstr_recompose.c:223-281", "src/charstr_decompose.c:81-105"]}
{"id": "C122", "title": "Texts can be normalized and checked piece by piece", "statement": "If a text is cut in front of a character of combining class 0 with NFC_Quick_Check=Yes, the output of charstr_unicode_decompose for the whole is the outputs for the pieces one after the other, the same holds for decomposing and recomposing, and each of the two checks accepts the whole if and only if it accepts both pieces. A check that accepts a text accepts its pieces wherever it is cut between two characters. Without the condition on the cut, pieces may be accepted and the whole not.", "quantifier": "all valid texts, all cuts of that kind, all buffers with the documented room; for recomposition, pieces without runs of more than 100 marks", "why_tests_cant": "Composition and reordering look at neighbouring characters; whether a cut separates them depends on all pairs of characters and on the marks between them.", "anchors": ["src/charstr_decompose.c:81-105", "src/charstr_recompose.c:223-281", "src/charstr_unicode.c:1-42"]}
{"id": "C123", "title": "Base64 can be encoded and decoded piece by piece", "statement": "Encoding pieces one after the other, each where the encoding of the one before ended, yields the encoding of the whole if the lengths of all pieces but the last are divisible by three. Decoding valid encodings of that kind one after the other yields what decoding their concatenation yields. A valid text may be cut for decoding after any number of characters that are not ignored, if the number is divisible by four and more such characters follow.", "quantifier": "all numbers and contents of pieces, all alphabets, with and without whitespace, all buffers with enough room", "why_tests_cant": "The number of ways to cut a text is unbounded, and whitespace may be anywhere.", "anchors": ["src/base64.c:65-121", "src/base64.c:192-247", "include/base64.h:12-55"]}
{"id": "C124", "title": "Queries change nothing", "statement": "A program that calls nothing but queries of lists, trees, hash tables and byte arrays (the get functions, next and previous, first and last, size, empty, key, value, list_foreach with a callback of the same kind) leaves the whole memory exactly as it was. Two such programs may run in either order and find the same.", "quantifier": "all programs built from the queries, all memories whether or not they hold well-formed containers, all pointers, all comparators and hash functions", "why_tests_cant": "A cache, a counter or a self-adjusting structure updated by a query only shows as a data race or as a stale pointer; a test compares results, not all of memory.", "anchors": ["src/list.c:24-67", "src/list.c:159-175", "src/avltree.c:6-14", "src/avltree.c:62-188", "src/avltree.c:469-496", "src/hashtable.c:86-113", "src/hashtable.c:175-201", "src/bytearray.c:155-163"]}
{"id": "C125", "title": "UTC conversion keeps the order of times and reaches every second", "statement": "Of two non-negative time values the smaller yields the earlier time when year, month, day, hour, minute and second of the results of epoch_to_utc are compared in this order. For every existing date from 1970 up to the year 4999999 and every time of day there is exactly one non-negative time value that epoch_to_utc turns into it.", "quantifier": "all pairs of non-negative time values whose day number fits an int, all dates and times", "why_tests_cant": "A misplaced month or century boundary makes some dates appear twice and others never; there are 1.5e14 seconds to check.", "anchors": ["src/date.c:12-427"]}
{"id": "C126", "title": "Byte-wise string functions keep UTF-8 texts intact", "statement": "Applied to a UTF-8 text, charstr_split at an ASCII character and charstr_split_str at a UTF-8 text return pieces that are UTF-8 texts and whose characters, joined by the delimiter, are the characters of the whole. What charstr_strip, charstr_split_atoms and charstr_skip_prefix return are UTF-8 texts. charstr_lcase_str and charstr_ucase_str map the ASCII letters and leave all other characters. charstr_case_cmp orders texts by the numbers of their characters in ASCII lower case. The same holds for what charstr_valid_utf8 accepts, apart from the last two. A delimiter that is not ASCII may tear a character apart.", "quantifier": "all valid texts, all ASCII delimiters, all valid delimiter strings, all limits", "why_tests_cant": "A byte-wise function may hit any byte of any multi-byte character; the claim rests on properties of all encodings.", "anchors": ["src/charstr.c:charstr_split", "src/charstr.c:charstr_split_str", "src/charstr.c:charstr_split_atoms", "src/charstr.c:charstr_strip", "src/charstr.c:charstr_skip_prefix", "src/charstr.c:charstr_lcase_str", "src/charstr.c:charstr_ucase_str", "src/charstr.c:charstr_case_cmp", "include/charstr.h"]}
{"id": "C127", "title": "Loops over integer sets visit every number once", "statement": "A loop that starts with intset_find_next_hit(s, 0) and goes on with intset_find_next_hit(s, e + 1) while the result is not negative visits exactly the members of the set, each once and in ascending order, and the same with intset_find_next_miss visits the numbers that are missing. The body may add and remove numbers up to the current one without disturbing the loop; a body that removes the current one leaves the set empty. The size must be below 2^31: with the largest int in a set of size 2^31, e + 1 overflows.", "quantifier": "all sizes below 2^31, all sequences of calls before the loop, all bodies of that kind, depending on what was visited before", "why_tests_cant": "The number of sets and of bodies is unbounded; the functions work on words of 64 bits and reload them between calls.", "anchors": ["src/intset.c:50-86", "include/intset.h:18-29"]}
{"id": "C128", "title": "Decomposition into a small buffer stays equivalent to the text", "statement": "For every text and every room, charstr_unicode_decompose returns what follows from decomposing one character after the other, where a Hangul syllable whose jamo do not fit is copied if it fits itself. So a returned text always has the canonical decomposition of the input, holds at most two undecomposed syllables, and is the canonical decomposition if at least six bytes of room are left over. Recomposing it yields normalization form C of the input whenever both calls succeed, whatever the sizes of the buffers.", "quantifier": "all texts, all buffer sizes", "why_tests_cant": "The defect shows only if the room ends within a few bytes of a Hangul syllable; that nothing else goes wrong is a statement about all texts and rooms.", "anchors": ["src/charstr_decompose.c:29-105", "src/charstr_recompose.c:223-281", "include/charstr.h:217-255"]}
{"id": "C129", "title": "Exact outcome of charstr_idna_encode", "statement": "For every string that is not ASCII, charstr_idna_encode returns the ASCII form of the host name after normalization and mapping if that form lies within the limits of the code and normalization succeeds, and NULL otherwise, except for the crashes of C77. Normalization succeeds just if the quick check for form C answers yes, or if the canonical decomposition is shorter than three times the text and has no more than 100 pending marks. A string that is returned is therefore never derived from a wrong normalization, and canonically equivalent host names never have two different results. For strings with overlong encodings the outcome is described as well.", "quantifier": "all strings of bytes that are not ASCII, for every mapping the generated IDNA functions represent", "why_tests_cant": "Normalization takes three different paths, each with limits of its own; that the limits can only cause NULL and never a wrong result is a statement about all texts.", "anchors": ["src/charstr_puny.c:223-289"]}
{"id": "C130", "title": "Trees, priority queues and integer sets deliver the same sequence", "statement": "Put any collection of elements, no two of which compare equal, into an AVL tree and into a priority queue in any order. A loop over the tree from first to last finds exactly the sequence that dequeueing until the queue is empty delivers: the elements in ascending order. A loop backwards finds the reverse, and no call to avl_tree_put reports a replaced element. If the elements are numbers below the size of an integer set to which they are added, the loop with intset_find_next_hit finds that sequence as well.", "quantifier": "all collections of elements of any number up to 2^60, all orders of insertion, all comparators that are total orders", "why_tests_cant": "The project's priorq_test compares tree and queue for one random collection; agreement for all collections and insertion orders needs the invariants of the data structures.", "anchors": ["src/avltree.c:avl_tree_put", "src/avltree.c:avl_tree_next", "src/priority_queue.c:priorq_dequeue", "src/intset.c:intset_find_next_hit"]}
{"id": "C131", "title": "Forms of URL-encoded fields", "statement": "charstr_url_encode encodes byte by byte, so the encoding of a concatenation is the concatenation of the encodings, and its output contains no separator such as & = ; , : or space. Names and values of arbitrary bytes, encoded and joined by two different separators, are recovered by charstr_split at the first, charstr_split of each piece at the second with a maximum of one, and charstr_url_decode.", "quantifier": "all non-empty lists of pairs of NUL-free byte strings, all pairs of different separators, any maximum number of splits that suffices", "why_tests_cant": "The fields may contain separators, percent signs, plus signs, spaces and bytes that are not ASCII in any combination.", "anchors": ["src/charstr.c:charstr_url_encode", "src/charstr.c:charstr_url_decode", "src/charstr.c:charstr_split"]}
{"id": "C132", "title": "A loop over a whole tree takes linear time", "statement": "In whatever state a tree of n elements is, the loop from avl_tree_get_first with avl_tree_next until NULL meets every element once, in order, and its n+1 calls together look at no more than 3n+1 objects in memory (an object counts once for each call that looks at it); the same holds for the loop from avl_tree_get_last with avl_tree_previous.", "quantifier": "all programs of calls to the AVL tree functions that keep to the rules, all comparators, all trees of any size in existence afterwards", "why_tests_cant": "A single call of avl_tree_next can climb the whole height of the tree, so the total is an amortized bound that depends on the shape of the tree; no output of a test shows it.", "anchors": ["src/avltree.c:avl_tree_next", "src/avltree.c:avl_tree_previous", "src/avltree.c:avl_tree_get_first", "src/avltree.c:avl_tree_get_last"]}
{"id": "C133", "title": "The C source text that the scripts write means what the data files say", "statement": "For every text in the format of UnicodeData.txt, CompositionExclusions.txt and DerivedNormalizationProps.txt, the seven Python scripts write C source text that is lexically and syntactically correct, that compiles against the constants of charstr.h, and whose function, executed on any argument according to the C standard, returns what the lines of the file say: lower case, upper case, combining class, decomposition, primary composite, normal form flags and category, with the documented default for every other integer.", "quantifier": "all texts in the format of the files, of any length; all integer arguments", "why_tests_cant": "The scripts are run on one version of the data. Whether every output of the format strings is a C program with the intended meaning (numbers not read as octal, no label twice, nested calls and conditions grouped as meant) is a statement about all outputs.", "anchors": ["src/lower_case.py", "src/upper_case.py", "src/canonical_combining_classes.py", "src/decomposition.py", "src/recomposition.py", "src/allowed_in_normal_form.py", "src/categorize.py"]}
{"id": "C134", "title": "The C source text that gen_idna_table writes means what IdnaMappingTable.txt says", "statement": "For every file in the format of IdnaMappingTable.txt with just one line about each code point, gen_idna_table writes C source text that is lexically and syntactically correct, that compiles, and whose functions, executed on any argument according to the C standard, say what the lines of the file say: charstr_idna_mapping returns the recorded mapping in UTF-8 or NULL, and charstr_idna_status_is_S is true for just the code points with status S.", "quantifier": "all files in the format, of any length; all int arguments", "why_tests_cant": "The generator is run on one version of the data. That every array, octal escape, hexadecimal word and comparison it prints is C with the intended meaning, and that the emitted binary search stays within its array and within int, is a statement about all outputs and arguments.", "anchors": ["src/gen_idna_table.c:19-38", "src/gen_idna_table.c:40-72", "src/gen_idna_table.c:74-114", "src/gen_idna_table.c:116-191"]}
{"id": "C135", "title": "The generated C text for the shipped Unicode data is the data that the library functions are proved with", "statement": "For every layout of UnicodeData.txt, CompositionExclusions.txt, DerivedNormalizationProps.txt and IdnaMappingTable.txt with the contents shipped in the repository, the C source text that the build generates compiles, and its functions return, for every code point, the combining class, decomposition, primary composite, normal form flags, case, category, IDNA status and IDNA mapping in these tables.", "quantifier": "all layouts of the shipped data; all arguments from 0 on, and negative ones for all but the IDNA functions", "why_tests_cant": "A test calls the generated functions for some of 1,114,112 code points (and of the pairs of them), and for one layout of the files.", "anchors": ["src/SConscript", "src/lower_case.py", "src/upper_case.py", "src/categorize.py", "src/canonical_combining_classes.py", "src/decomposition.py", "src/recomposition.py", "src/allowed_in_normal_form.py", "src/gen_idna_table.c"]}
{"id": "C136", "title": "The order of a loop over a hash table is determined", "statement": "A loop with hash_table_get_any and hash_table_get_other, and repeated hash_table_pop_any, deliver the elements bucket by bucket, the elements of one bucket from the oldest to the newest, where putting a different value under a key counts as a new element. Lookups and removals do not change the order of the others.", "quantifier": "all hash functions, comparators, capacities and programs", "why_tests_cant": "A test tries some keys; the order depends on every operation before and on the collisions of the hash function.", "anchors": ["include/hashtable.h", "src/hashtable.c"]}
{"id": "C137", "title": "Which host names have the same encoding", "statement": "charstr_idna_encode returns the same string for two host names just if, after normalization and mapping, they have as many labels and each label is the same as the one at its place in the other, up to ASCII capitals, or one of the two is \"xn--\" and the Punycode of the other.", "quantifier": "all host names in UTF-8 that are encoded, for every mapping the generated IDNA functions represent", "why_tests_cant": "A test compares some pairs of host names; the claim is about every pair.", "anchors": ["src/charstr_puny.c:charstr_idna_encode"]}
{"id": "C138", "title": "Byte arrays filled by any callback", "statement": "Whatever a callback of byte_array_append_stream stores in the room it is given and reports, results, bytes and size of the array are as specified and no later call leaves the block. The terminating NUL is missing just if a callback stored a first byte other than NUL and reported none, until a call appends, resizes or clears with success or copies past the end.", "quantifier": "all programs of calls and all callbacks that keep to their room and do not report more than they stored", "why_tests_cant": "A test has a few callbacks; the claim is about every history with any number of failing reads.", "anchors": ["src/bytearray.c:byte_array_append_stream", "src/bytearray.c"]}
{"id": "C139", "title": "What the shipped UnicodeData.txt says", "statement": "The file unicode/UnicodeData.txt of the repository, byte by byte, has the format of Unicode Standard Annex #44 and gives each code point the category, combining class, canonical decomposition and case mappings that the other theorems are about. For these very bytes the scripts emit the functions for category and case that those theorems describe.", "quantifier": "all 1.8 million bytes and all 33797 lines of the file, all code points", "why_tests_cant": "A test samples code points; a line that is read differently than meant, or left out, shows only at its own code point.", "anchors": ["src/categorize.py:7-48", "src/lower_case.py:8-30", "src/upper_case.py:8-30"]}
{"id": "C140", "title": "What the other shipped data files say", "statement": "The files idna/IdnaMappingTable.txt, unicode/DerivedNormalizationProps.txt and unicode/CompositionExclusions.txt of the repository, byte by byte, have the formats they document and say what the theorems about normalization and host names assume. gen_idna_table run on the lines of the first file emits the tables for host names; the scripts run on the UTF-8 text of the others, with UnicodeData.txt, emit the combining classes, decompositions, compositions and quick checks that the theorems about normalization use.", "quantifier": "all bytes and lines of the files, all contents of the uninitialized line buffers, all code points, every decoder of lines that keeps ASCII (UTF-8 and Latin-1 among them)", "why_tests_cant": "A test samples code points and host names; a line that is read differently than meant, or left out, shows only at its own code points.", "anchors": ["src/gen_idna_table.c:116-191", "src/allowed_in_normal_form.py:12-60", "src/recomposition.py:6-51", "src/decomposition.py:8-36", "src/canonical_combining_classes.py:11-36"]}
{"id": "C141", "title": "From the bytes of the shipped data files to the meaning of the emitted C source", "statement": "The scripts and gen_idna_table, run on the data files of the repository byte for byte, write C source; a call of an emitted function with any int returns what the line of the file for that code point says (case, combining class, decomposition, composition, quick checks, category, IDNA status and mapping), and the documented default for numbers without a line.", "quantifier": "all int arguments, all bytes of the four files, all contents of uninitialized buffers of gen_idna_table", "why_tests_cant": "There are over a million arguments and two generated levels between the file and the call; a test samples some of them.", "anchors": ["src/categorize.py:7-48", "src/lower_case.py:8-30", "src/upper_case.py:8-30", "src/canonical_combining_classes.py:11-36", "src/decomposition.py:8-36", "src/recomposition.py:6-51", "src/allowed_in_normal_form.py:12-60", "src/gen_idna_table.c:19-191"]}
{"id": "C142", "title": "Normalization is that of the shipped data files", "statement": "The functions for decomposition, recomposition and the checks, linked with the C source that the scripts emit for the data files of the repository, compute normalization forms D and C of the Unicode Standard for the mappings, combining classes and primary composites that the lines of UnicodeData.txt and CompositionExclusions.txt give; the files give exactly one set of such data. Recomposition fails only for bytes that cannot be decoded, for more than 100 combining marks after a starter and for want of room.", "quantifier": "all texts, buffers and bounds, all bytes of the three files", "why_tests_cant": "Conformance tests cover a list of strings; the claim is about all texts and ties the result to the very bytes of the data files through the scripts and the emitted source.", "anchors": ["src/charstr_decompose.c:6-105", "src/charstr_recompose.c:10-281", "src/charstr_unicode.c:5-42", "src/canonical_combining_classes.py:11-36", "src/decomposition.py:8-36", "src/recomposition.py:6-51", "src/allowed_in_normal_form.py:12-60"]}
{"id": "C143", "title": "Host names are encoded by the shipped data files", "statement": "charstr_idna_encode, linked with the C source that the scripts and gen_idna_table emit for the data files of the repository, returns exactly the ASCII form (RFC 3492 with the checks the function makes) of the host name after normalization to form C and step 1 of UTS #46, where the normalization data, the quick check values, the status and mapping of each character and the category Mc are what the lines of UnicodeData.txt, CompositionExclusions.txt, DerivedNormalizationProps.txt and IdnaMappingTable.txt say. Every call ends; it is undefined just when nothing is left of the name, fails an assertion just for an ASCII label of more than 63 characters with everything before in order, and returns NULL otherwise.", "quantifier": "all legal UTF-8 texts with a character outside ASCII, all bytes of the four files, all buffers of the generator", "why_tests_cant": "Tests cover a handful of host names; the claim is about all texts and ties the result to the very bytes of the data files through the scripts, the generator and the emitted source.", "anchors": ["src/charstr_puny.c:1-309", "src/gen_idna_table.c:1-191", "src/categorize.py:*", "src/allowed_in_normal_form.py:12-60"]}
{"id": "C144", "title": "The source text of float.c and date.c does what the calendar and IEEE 754 say", "statement": "The text of src/float.c and src/date.c, lexed, parsed and executed by the rules of C for LP64 (promotions, conversions, undefined overflow and shifts, pointers that must stay inside their objects), has these effects: binary64_to_integer and binary64_to_unsigned return for every bit pattern, store the integer it denotes if it is in range and store nothing otherwise; epoch_to_utc returns its second argument and sets the members of the structure to the date and time of every second from 1970 on whose day number fits an int. No other object changes.", "quantifier": "for all 64-bit patterns, all seconds with a day number below 2^31 - 135080, all contents of the target and all other objects in memory", "why_tests_cant": "There are 2^64 patterns and 10^14 seconds, and a test runs what one compiler made of the text; the absence of undefined behaviour and the meaning of the text itself cannot be observed.", "anchors": ["src/float.c:1-74", "src/date.c:1-427"]}
{"id": "C145", "title": "The source text of the string comparisons and character tables does what the specification says", "statement": "The text of lines 8 to 324 of src/charstr.c, lexed, parsed and executed by the rules of C for LP64 with signed char, has these effects: charstr_case_cmp and charstr_ncase_cmp compare two strings, or their first n characters, as their lower-case versions compare in lexicographic order; charstr_skip_prefix, charstr_case_starts_with and their case-insensitive variants return a pointer to what follows the prefix if it is one and NULL otherwise; the functions of one character give the ASCII cases, the value of a hexadecimal digit and the documented class, except for the flags of line feed, form feed and carriage return, for which they give the sets stated in C54. Every loop ends, nothing outside the strings, or behind their first n characters, is read and no object changes.", "quantifier": "for all strings, wherever they are in memory and whatever follows their NUL, in one object or two, all n of a size_t, all values of a char and all other objects in memory", "why_tests_cant": "There are infinitely many strings and placements of strings in memory; a read behind the NUL or an overflow need not show in a test, which also runs only what one compiler made of the text.", "anchors": ["src/charstr.c:8-324"]}
{"id": "C146", "title": "The source text of the UTF-8 decoder, validators and encoder does what the specification says", "statement": "The text of lines 451 to 508 and 543 to 564 of src/charstr.c, lexed, parsed and executed by the rules of C for LP64 with signed char, has these effects: charstr_decode_utf8_codepoint returns a pointer behind the encoding of a scalar value if the bytes begin with one, storing the value through a non-NULL codepoint, and otherwise NULL with nothing changed; charstr_valid_utf8 and charstr_valid_utf8_bounded are true exactly for concatenations of such encodings; charstr_encode_utf8_codepoint writes the encoding of a scalar value exactly if it fits in front of end and otherwise returns NULL, and for any int it writes only between s and end. Nothing at or behind end, or behind the NUL if end is NULL, is read, no other object changes, every loop ends, no variable is used before it has a value, no shift overflows, and a NULL s gives NULL or false. The encodings are those of C47, which may be longer than necessary.", "quantifier": "for all byte sequences, wherever they are in memory and whatever is around them, all ends and NULL, all scalar values and all values of an int, with and without codepoint, and all other objects in memory", "why_tests_cant": "There are infinitely many byte sequences and placements in memory; a read or a write past the end, a use of an unset variable or an overflow of a shift need not show in a test, which also runs only what one compiler made of the text.", "anchors": ["src/charstr.c:451-508", "src/charstr.c:543-564"]}
{"id": "C147", "title": "The source text of the case conversions of strings converts in place", "statement": "The text of lines 344 to 376 of src/charstr.c, lexed, parsed and executed by the rules of C for LP64 with signed char together with lines 8 to 324, has these effects: charstr_lcase_str and charstr_ucase_str convert every character in front of the NUL, charstr_lcase_substr and charstr_ucase_substr every byte between s and end, NULs included, to what ASCII says; each returns s. No other byte of the object and no other object changes, nothing behind the NUL or at end is read, every loop ends, and p is not used before it has a value.", "quantifier": "for all byte sequences, wherever they are in memory and whatever is before and behind them, all distances between s and end, and all other objects in memory", "why_tests_cant": "There are infinitely many byte sequences and placements in memory; a read or a write one byte too far need not show in a test, which also runs only what one compiler made of the text.", "anchors": ["src/charstr.c:344-376", "src/charstr.c:8-324"]}
{"id": "C148", "title": "The source text of base64_encoding_size and of the base64 tables means what is documented, but for two elements", "statement": "The text of lines 8 to 36 of src/base64.c, lexed, parsed and executed by the rules of C for LP64 with signed char, makes base64_encoding_size(n) return 4*ceil(n/3) whenever that is representable in size_t and (size_t) -1 otherwise, without a change of any object. base64_bitfield_encoding has 64 elements, the alphabet of RFC 4648 in its order, without a NUL. base64_bitfield_decoding has 256 elements, as documented in base64.h for every code but 127 and 255, where the comma missing at the end of line 27 makes them -2 and 0.", "quantifier": "for all 2^64 sizes, all 64 values, all 256 codes, and all objects of the caller", "why_tests_cant": "There are 2^64 sizes; a test sees only what one compiler made of the text, and no test of the project looks at the codes that the missing comma changes.", "anchors": ["src/base64.c:8-36", "include/base64.h:57-71"]}
{"id": "C149", "title": "The source text of integer.c and of the functions of integer.h boxes, unboxes and compares integers", "statement": "The text of lines 4 to 20 of src/integer.c and of the typedefs and functions of include/integer.h, lexed, parsed and executed by the rules of C for LP64, makes of any intptr_t value a pointer from which as_intptr gives the value back, and of any two of them pointers for which integer_cmp returns -1, 0 or 1, the sign of their difference. The same holds of as_unsigned, as_uintptr and unsigned_cmp for any uintptr_t values, above INTPTR_MAX too, although the first comparison of unsigned_cmp takes its left operand as an intptr_t. No object changes.", "quantifier": "for all pairs of 64-bit values, signed and unsigned, and all objects of the caller", "why_tests_cant": "There are 2^128 pairs; a test of a few of them does not settle the comparison of a signed with an unsigned operand, nor 0, whose box is NULL.", "anchors": ["src/integer.c:4-20", "include/integer.h:22-59"]}
{"id": "C150", "title": "The source text of list_get and of the member functions of list.c does what is documented", "statement": "The text of lines 24 to 46 and 59 to 67 of src/list.c with the structures of include/list_imp.h, lexed, parsed and executed by the rules of C for LP64, makes list_get return the first element of the list whose value is the pointer searched for, and NULL if there is none, and makes list_elem_get_value, list_get_first, list_get_last, list_next and list_previous return the member they are named after. No object changes and no member of anything but the list and its elements is read.", "quantifier": "for all lists of any length, wherever their elements are in memory, all values that are pointers to objects, NULL or boxed integers, and all other objects in memory", "why_tests_cant": "The number of lists and of the ways their elements can lie in memory is unbounded; a test sees only what one compiler made of the text.", "anchors": ["src/list.c:24-46", "src/list.c:59-67", "include/list_imp.h:1-9"]}
{"id": "C151", "title": "The source text of list_get_by_index returns the element with the index", "statement": "The text of lines 48 to 57 of src/list.c with the structures of include/list_imp.h, lexed, parsed and executed by the rules of C for LP64, makes list_get_by_index return the element whose index, counted from 0, is the argument, and NULL if the argument is negative or there are not so many elements, without a change of any object, provided that the argument is not negative or the list has fewer than 2^31 elements. Otherwise the counter of the loop overflows, which is undefined behaviour.", "quantifier": "for all lists of any length, wherever their elements are in memory, all values of int, and all other objects in memory", "why_tests_cant": "The number of lists is unbounded, and no test has the memory for a list of 2^31 elements, where a negative index overflows the counter.", "anchors": ["src/list.c:48-57", "include/list_imp.h:1-9", "include/list.h:17-22"]}
