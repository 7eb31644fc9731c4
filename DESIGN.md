# Formal model of fsdyn: design

The code under study is F-Secure/fsdyn, pinned in `/repo` and read as text. Nothing is compiled or run. This
file says what is modelled, how each property of `properties.jsonl` is stated and proved, and what is trusted.

## Trusted base

* Lean 4.33.0's kernel. Every theorem is checked by it. The build uses no `sorry`, `admit`, `native_decide`,
  `bv_decide`, and declares no axiom. Theorems depend on at most `propext`, `Classical.choice`, `Quot.sound`.
* The reading of the C text that turned it into Lean definitions (each definition cites file and lines). For `float.c`, `date.c` and lines 8 to 324, 344 to 376, 451 to 508 and 543 to 564 of `charstr.c`, lines 8 to 36 of `base64.c`, `integer.c` with the functions of `integer.h`, and lines 24 to 67 of `list.c`,
  this reading is proved (C144 to C151; that an integer converted to a pointer and back is the same number, and that 0
  becomes NULL, is implementation-defined and part of the reading):
  their text is in `Verif/Data/Source`, copied line by line by `tools/gen_source.py`, and `Verif/Spec/CSource.lean` defines what such text means.
  Trusted instead: that copy and that definition, with what it takes from the headers (`true`, `false`, `NULL`, `LLONG_MIN`, the members of `struct tm`, the flags of `charstr.h`).
* The platform reading: LP64, `char` signed, two's complement, `int` 32 bits, `size_t` 64 bits,
  asserts enabled (the build sets no `NDEBUG`).
* Allocation (`fsalloc`) never returns NULL. `fsalloc.c` aborts through `naive_realloc` when memory runs out: the allocator of the model
  may have no room for a block (`Alloc.full`), and then the call aborts. The theorems about memory assume that there is room, except
  `Props/NoMemory.lean` (C116), which says that without room the same programs abort or do the same. An empty block for which there is no room
  is an abort in the model; in the code it is NULL, which the model has as a choice of the allocator anyway (`null` in `callocWords`). A
  user's own reallocator that returns NULL makes the library dereference NULL (`null_reallocator_undefined`).

## Layout

| Directory | Content |
|---|---|
| `Verif/Base` | outcome monad, memory model, generic lemmas |
| `Verif/Model` | one file per C file: the model, with line citations |
| `Verif/Spec` | independent specifications (RFC 4648 text encoding, UTF-8 table, calendars, sorted maps ...) |
| `Verif/Proofs` | helper lemmas |
| `Verif/Props` | the property theorems, each beside a concrete instance of its hypotheses |

## Modelling conventions

* **Outcome.** A C call yields a value, an `abort` (failed assertion) or undefined behaviour (`ub`). These are
  distinct constructors. A theorem `f x = ok v` therefore also says that no assertion fails and no access is out of
  bounds.
* **Strings.** A `const char *` is the list of bytes from that position to the end of its buffer. Reading the head of an
  empty list is `ub`. A C string with contents `s` is exactly `s ++ [0]`, so an over-read is caught.
  An `end` pointer is an optional remaining count.
* **Output buffers.** A write past the end of an output area is `ub`.
* **Machine integers.** Unsigned arithmetic is taken modulo 2^32 or 2^64 where wrap is possible. Signed arithmetic is on `Int`
  with an overflow check where the code could overflow.
* **Pointer structures** (`list.c`, `hashtable.c`, `avltree.c`). A memory maps addresses to cells. Load, store and free of an
  address that is not live are `ub`. The allocator is a parameter: any function that returns a non-zero address that is not
  live, so address reuse is covered. Loops and recursion are written with `partial_fixpoint`, so a result value also means
  termination. There is no fuel and no bound.
* **Callbacks.** Trees, hash tables and queues in memory store the pointers to their comparator, hash function, context and
  relocation callback (C114). `Funs` (`Base/Heap.lean`) says which function each pointer is; it is a parameter of every theorem.
  The functions are pure on opaque keys. What a theorem needs of them (for example a total preorder) is a hypothesis. The functional
  models of `priority_queue.c` and the models of string functions take their callbacks as parameters.

* **Generated code.** The Python scripts and `gen_idna_table.c` write C functions. The model has a function from the parsed
  data to the meaning of the emitted code (`Model/Categorize.lean`, `Model/IdnaGen.lean`, `Model/UniGen.lean`), and the code that
  calls the emitted functions takes them as parameters (`Ucd`, `Idna`).
* **Data.** The Unicode 13 data files of the repository are Lean data in `Verif/Data`, written by `tools/gen_unidata.py` and
  `tools/gen_idna.py`. These scripts split lines into fields. They are trusted. What the emitted functions say about these lines is proved (C84).
  C112 closes the gap from the other side: any text of the files that says what `Verif/Data` records makes the generators emit exactly these
  functions. The bytes of the four shipped files are in `Verif/Data/Text` as numbers, written by `tools/gen_text.py`, and the kernel
  has checked that they say it (C139, C140). So the scripts that wrote `Verif/Data` need no trust for these theorems, only the copying of the
  bytes: 2 hexadecimal digits for each byte, the last byte of each part first. The text of the files that are not in ASCII is any text whose
  UTF-8 form is these bytes.
* **Uninitialized memory** is a parameter (`fresh`), so theorems hold for any contents.

## Where the code does not do what its documentation says

For each of these the negation is proved on a concrete witness, and the strongest true part is proved as a `_partial` theorem.

1. `base64.c:27` misses a comma. Code 127 is classed as whitespace and code 255 decodes as `A` (C39, C37).
2. `charstr.c:122-125`: the classes of HT, LF, FF, CR sit one or two slots too low. Code 8 counts as LF, `\n` as FF, and `\f`, `\r` are not whitespace (C54).
3. `charstr_decode_utf8_codepoint` accepts overlong encodings (C47, C48).
4. The URL table passes `"` and `}` through and percent-encodes `]`, against `charstr.h` (C63).
5. `make_byte_array(0)` writes one byte outside its zero-sized block (C32).
6. `avl_tree_put` always replaces, even if the value is already stored at the key (C10).
7. A priority-queue element enqueued twice can leave a stale locator (C22 needs distinct elements).
8. `intset_find_next` wraps for sizes above 2^32-64 and never ends (C80; C26, C27 need size at most 2^31).
9. `epoch_to_utc` gives negative fields for negative times that are not whole days, and reads `YDAY_INFO` at a negative index for almost all days before 1600-03-01 (C45).
10. `fscalloc` multiplies without an overflow check (C66).
11. `charstr_unicode_decompose` copies a Hangul syllable undecomposed when its decomposition does not fit (C85).
12. `charstr_unicode_recompose` returns NULL with ENOBUFS, which is not documented, for more than 100 marks after a starter (C86).
13. `charstr_unicode_canonically_composed` and `_decomposed` accept overlong encodings (C89).
14. `categorize.py` emits singleton ranges without a lower bound test. With Unicode 13, 716587 unassigned code points get the
    category of the next assigned one (C68).
15. `gen_idna_table.c` drops the highest member of a set and the run that reaches U+10FFFF (C78, C83). With the shipped data the valid
    character U+3134A is refused in host names (C99), and `charstr_idna_status` returns "?" for it, U+2FA1D and U+E01F0..U+10FFFF.
16. A `byte_array_append_stream` callback that stores bytes and reports none removes the terminator (C31).
17. The 32-bit reference count of a byte array wraps unchecked (C81).
18. `charstr_split` with delimiter NUL reads past the string (C57 requires a non-NUL delimiter).
19. `list_get_by_index` counts in `int` (C82).
20. `charstr_idna_encode` lower-cases ASCII host names though a copy is promised (C76).
21. It fails an assertion for an ASCII label of more than 63 characters in a host name that is not ASCII, and is undefined for a host
    name of ignored characters only (C77).
22. It does not check ASCII labels that begin with `xn--`, so two host names can have the same result (C90).
23. It refuses names of 253 characters, names of more than 254 bytes of UTF-8 whose ASCII form is short, and names whose
    decomposition is exactly three times as long (C91).
24. It accepts overlong encodings, and the overlong NUL `C0 80` can silently cut the host name (C92).
25. It accepts empty labels, labels that end with a hyphen except the last, and labels that begin with a mark of category Mn (C93).
26. It does not normalize again after mapping (C95).
27. `byte_array_append` and `byte_array_copy` of a part of the array to itself read freed memory if the array grows and its block moves
    (C106).

## Model and proof per property

| Property | Model | Proof |
|---|---|---|
| C01-C09 | `Model/Avl.lean`: all of `avltree.c` on the pointer memory, with parent pointers | functional AVL tree with addresses, exact-heap predicate, induction on the tree and on zipper contexts; then induction over operation sequences against a sorted association list |
| C10 | same | negation by witness; partial: the map is unchanged up to the element's identity |
| C11-C14, C82 | `Model/List.lean`: all of `list.c` | exact-heap predicate for doubly linked segments; induction |
| C15-C18 | `Model/HashTable.lean`: all of `hashtable.c` on top of the list model | buckets as lists of pairs; refinement to a finite map |
| C19 | hash functions on 64-bit words | direct |
| C20-C24 | `Model/Prioq.lean` | heap invariant with one hole; induction on the index; trace of `reloc` calls |
| C25-C28, C80 | `Model/IntSet.lean`: words as 64-bit vectors | bit lemmas; loop induction |
| C29-C33, C81 | `Model/ByteArray.lean`: 64-bit sizes, explicit block | invariant and refinement to byte sequences |
| C34-C40 | `Model/Base64.lean` | round trip, refinement to RFC 4648 specification |
| C41-C42 | `Model/Float.lean` | exact rational value of the bit pattern |
| C43-C45 | `Model/Date.lean` | day-number function of the calendar, uniqueness |
| C46-C51 | `Model/Utf8.lean` | refinement to the scalar-value table |
| C52-C61 | `Model/Charstr.lean` | list inductions |
| C62-C65 | `Model/Url.lean` | round trip; table lemma over 256 codes lifted |
| C66-C67 | `Model/Fsalloc.lean`, `Model/Integer.lean` | direct |
| C68, C79 | `Model/Categorize.lean`, `Model/Category13.lean`: the emitted decision tree as a function of the data, and with the real data | induction over the table |
| C99 | `Model/Idna13.lean`: the output of `gen_idna_table` for the shipped data, used by the encoder | composition of the generator, table and encoder theorems; facts about the data by evaluation over the whole table |
| C98 | `Model/IdnaRead.lean`: the reading part of `gen_idna_table.c` | refinement to a grammar of the file (`Spec/IdnaTable.lean`) |
| C100, C101 | `Model/Case.lean`: `lower_case.py` and `upper_case.py` on the real data | evaluation over the whole table |
| C78, C83 | `Model/IdnaGen.lean`: `gen_idna_table.c` and `charstr_idna_status` | induction over the sorted sets |
| C69-C73, C85-C89 | `Model/Unicode.lean`: the three normalization files | refinement to sections 3.11 and 3.12 of the Unicode Standard (`Spec/Unicode.lean`); facts about the real tables by evaluation in the kernel over the whole table |
| C84 | `Model/UniGen.lean`, `Model/Unidata.lean`: the four generators on the real data files | the emitted functions against the lines |
| C74-C77, C90-C97 | `Model/Puny.lean`: all of `charstr_puny.c` | RFC 3492 decoder (`Spec/Punycode.lean`) inverts the encoder and determines it; refinement of the host name encoder to normalization, mapping and ASCII forms |
| C102-C104 | `Model/Owned.lean`: the splitting functions, `charstr_idna_encode` and `charstr_vprintf` on the pointer memory | exact-heap predicates; each run follows the functional model, whose theorems give the contents |
| C105, C106 | `Model/Objects.lean`: sets, priority queues and byte arrays on the pointer memory | each object has its blocks, the blocks are apart; induction over programs; refinement to `Spec/Objects.lean` |
| C107 | all parts of the library in one memory: `Spec/Whole.lean` puts the specifications of trees, lists (`Spec/Lists.lean`, in terms of pointers), hash tables and objects side by side | a part owns the blocks that its view of the rest does not have; a step of one part leaves the blocks of the others alone; induction over programs |
| C108 | how many answers of the comparator the outcome of a call depends on (`Spec/Cost.lean`: a list of so many pairs settles the outcome for every comparator that agrees on them), and the length of the queue's trace of `reloc` calls | composition of such bounds along the loops; balance of the tree from C04, length of a bucket's chain from the table's invariant |
| C109 | runs of UTF-8 calls that pass each returned pointer, NULL included, to the next call (`Model/Utf8Null.lean`); specification: concatenation of `enc`, sequences of `Loose` encodings | induction over the run, from the theorems for one call (C46-C51) |
| C110 | `Model/Errno.lean`: the functions of bytearray.c and charstr.c that assign to `errno`, with `errno` as a state; specification `errnoAfter`, a function of size, limit and arguments | outcome of each function = outcome without `errno` plus the value left; then C29-C33, C65 |
| C111 | strings and URL encoders as one more part of C107: `Spec/Strings.lean` maps pointers to the blocks that belong to the user, `Model/Strings.lean` reads arguments from the block they point into at the time of the call | the result of each function from C36-C38, C49, C55-C65; one block added, changed or removed per call; the strings of a split are taken out of the list or array, which is then destroyed |
| C112 | `Model/PyText.lean`: Python's string functions; `Model/PyGen.lean`: all seven scripts from the text of the files to the emitted functions | refinement to a grammar of the files (`Spec/DataFiles.lean`, after UAX #44); then the theorems on records (C68, C84, C100, C101) |
| C113 | programs of list calls with `list_foreach` whose callbacks are such programs themselves (`Spec/Foreach.lean`) | mutual induction over the derivations that the program and its callbacks keep the rules, on top of the simulation of single calls (C107) |
| C114 | the pointers given to the constructors, against what the blocks hold after any program | read off the invariants of C01, C15 and C105; C107 for objects with different callbacks side by side |
| C115 | sizes of the blocks along a history, against the room the calls ask for and the number of queued elements | the size is the limit or a power of two, each change at least doubles it and at most doubles the room asked for; sums over the chain of sizes |
| C116 | programs on all parts with an allocator that may have no room, against the same programs with room | `Sub`: each allocating function does the same as with the allocator that always has room, or aborts; fixed point induction for loops |
| C117 | `Model/Stack.lean`: the recursive functions of `avltree.c` and `decompose_fully` with the number of calls for which the stack has room | `Short`: each does the same as its unlimited version or aborts; the specifications of C01-C09 are proved for the limited versions with room for two calls per level and carried over to the others; kernel check of the Unicode table for the depth of mappings |
| C118 | the number of blocks that are new in memory after a program, against the contents of trees, lists, tables, sets, queues, byte arrays and strings (`size` in `Spec/Whole.lean`) | the blocks in the invariants of C107 are pairwise different, within a part and between parts; their lists are counted |
| C119 | loops of the user that remove elements while going through a tree, list or table (`sweep` in `Proofs/AvlSweep.lean`, `ListSweep.lean`, `HashSweep.lean`), against `Spec/Sweep.lean` | induction over the elements still to be visited, with the invariants of C01, C10 and C15: the pointer fetched before the removal is the next one after it |
| C120 | loops that pop until NULL or until the container is empty (`drain`, `drainValues`, same files) | the same |
| C121 | `base64_decode_buffer`, `charstr_unicode_recompose` and `charstr_unicode_decompose` with source and destination in one object (`Model/InPlace.lean`) | simulation: what has been written never reaches what is still to be read; for recomposition because no encoding in the output is longer than what it stands for. For decomposition the negation, with a witness |
| C122 | normalization and the quick checks for texts that are cut into pieces (`Proofs/Pieces.lean`), against `Spec/Unicode.lean` and the data files | composing never looks behind the last starter; a starter that is composed with nothing before it separates the text |
| C123 | the user's loops over pieces with `base64_encode_buffer` and `base64_decode_buffer` (`encodeChunks`, `decodeChunks` in `Props/Base64Pieces.lean`) | induction over the pieces, with C34 and C37 |
| C124 | queries of lists, trees, hash tables, byte arrays | `ReadOnly` is closed under sequencing and fixed points; induction over programs that call only queries |
| C125 | `date.c` | order from C43 and the order of the calendar; every date is reached by counting days, months and years |
| C126 | splitting, stripping, prefixes, case and comparison in `charstr.c`, on UTF-8 texts | a text can be cut in front of any byte that is no continuation byte (`seq_cut`), and encodings sort like code points (`enc_lt`); with C52 to C60 |
| C127 | the loop over an integer set (`sweep` in `Props/IntSetLoop.lean`) | induction over the numbers not yet passed, with C25 to C27 |
| C128 | same as C70 and C72 | exact result of every step in a given room; replacing syllables by jamo commutes with reordering and composing |
| C129 | same as C74 | exact result of each of the three normalization paths; decompositions are never more than three times as long |
| C130 | avltree.c, priority_queue.c, intset.c used to sort | the sweeps of C119 and C127 and the draining of C23 give ascending arrangements of the same elements, which is unique |
| C131 | charstr.c: URL coding with charstr_split | the encoder is a concatenation of entries free of separators; uniqueness of splits (C57); the decoder's denotation (C65) |
| C132 | avltree.c: first, last, next, previous in a loop | the addresses that settle each call; potential of an element: twice the number of elements before it plus the turns above it |
| C133 | `Model/Emit.lean`: the C source text that the seven scripts write | lexer, parser and semantics of that part of C as a specification (`Spec/CText.lean`); one lemma per construct that takes text to tokens to syntax to meaning; then C112 |
| C134 | `Model/EmitIdna.lean`: the C source text that `gen_idna_table.c` writes | the same specification of C as C133; each part of the text is a piece that parses by itself; the emitted loop by induction over the search of the model; then C78, C79, C98 |
| C135 | the emitted text for the shipped data | C133 and C134 for the tables of `Verif/Data`; bounds of the numbers in the tables by evaluation over the whole tables |
| C136 | order of hash table loops | items by age; each bucket holds its items in this order (`Ord`), kept by every call |
| C137 | host names with the same encoding | the labels of both results are ASCII forms (`ToAscii`), which agree just if the labels do or one is the other's ASCII form |
| C138 | byte arrays with any callback | the invariant of C29 with any byte in the place of the NUL (`Ends`); induction over programs |
| C139 | the bytes of the shipped UnicodeData.txt | a checker of lines proved sound against `Spec/DataFiles.lean` (`line_sound`, `chunk_sound`); the kernel evaluates it over the whole file; entries in order, each in the tables, as many as the tables have |
| C140 | the bytes of the other shipped data files | checkers of lines proved sound against `Spec/IdnaTable.lean` and `Spec/DataFiles.lean` (`idnaLine_sound`, `propsLine_sound`, `exclLine_sound`); the kernel evaluates them over the files; distinct entries, each in the tables, as many as the tables have |
| C141 | bytes of the data files to the meaning of the emitted C source | C139 and C140 are the hypotheses of the theorems on emitted text (C133, C134); two known defects of the code with witnesses in the shipped files |
| C142 | normalization is that of the shipped data files | the formats are unambiguous (Proofs/Unambiguous.lean), so the files give one set of character data and the scripts emit one set of functions; then C70, C86, C87 and C89 |
| C143 | host names are encoded by the shipped data files | the emitted functions agree with the tables below U+110000, the formats are unambiguous and the lines give the rows; then C99, C129 and C142. Violated for U+3134A, hence `_partial` |
| C144 | the source text of float.c and date.c does what IEEE 754 and the calendar say | the kernel lexes and parses the text; the statements are executed one by one for arbitrary arguments and give the model; then C41 to C44 |
| C145 | the source text of the string comparisons and character tables does what the specification says | the kernel lexes and parses the text and computes the tables; the rounds of each loop are executed for arbitrary strings, by induction on the string; then C52 to C55 |
| C146 | the source text of the UTF-8 decoder, validators and encoder does what the specification says | the kernel lexes and parses the text; every branch is executed for arbitrary bytes, the loops by induction on what is left; then C46 to C51 |
| C147 | the source text of the case conversions of strings converts in place | the kernel lexes and parses the text; the loops by induction on what is left, the object changing in every round; then C55 |
| C148 | the source text of base64_encoding_size and of the base64 tables | the kernel lexes, parses and evaluates the tables; the function is executed for an arbitrary argument; then C39 and C40 |
| C149 | the source text of integer.c and of the functions of integer.h | the kernel lexes and parses the text; the functions are executed for arbitrary arguments |
| C150 | the source text of list_get and of the member functions of list.c | the kernel lexes and parses the text; induction on the elements from the one `element` points to |
| C151 | the source text of list_get_by_index | as C150, with the counter; a negative index in 2^31 elements is undefined, with such a list |

## What is simplified and what is left out

* Not modelled: the C++ smart-pointer aliases in the headers, and `errno` values other than the ones named in a theorem.
* `gen_idna_table.c` reads the lines that `getline` gives. The Python scripts read decoded characters; carriage returns, decimal digits
  outside ASCII and negative numbers in the files are not modelled.
* The C text that the Python scripts and `gen_idna_table.c` emit is modelled character by character (C133, C134); it includes charstr.h, from which only the names and values of
  constants are taken (`Model/EmitHeader.lean`). Compiling it is taken to mean what `Spec/CText.lean` says.
* Comparators and hash functions are pure functions; the callbacks of `list_foreach` are any programs on lists (C113), the other callbacks
  do not call the library.
* `make_avl_tree` and `make_priority_queue` cast a comparator of two arguments to one of three and pass NULL as the third. ISO C leaves the
  call through such a pointer undefined; on the ABIs in use the callee ignores the extra argument. The model takes it so: `F.cmp f 0`.
* AVL balances are unbounded integers in the model; C04 shows they stay between -1 and 1.
* The input and the output buffer of the normalization functions and of the base64 functions do not overlap, except in C121.
* In C74-C77 and C90-C97 the IDNA mapping is any mapping that the generated functions represent (`Represents`), and the category
  test is any predicate. C99 and the `idna13_` theorems are about the functions generated from the shipped data (`Real`).
* Where memory is allocated and freed is modelled for all data structures, the splitting functions, `charstr_idna_encode` and
  `charstr_printf` (C102-C106). The other string functions allocate at most their result; for them the result is a list of bytes.
* The formatter of the C library is a parameter of `charstr_vprintf`; it does not write through `%n`.
* `recomposition.py` does not exclude decompositions that begin with a non-starter. This has no effect on texts (C72).
* `priorq_remove` with an inconsistent comparator, or NULL elements, is outside the hypotheses of C20-C24.

## The model compared with the project's own test data

This is a test of the model, not a proof. The model is computable, so it was run on the data of the project's own tests, with the
evaluator of Lean (the programs are in `validation/`; from `lean/`, copy one to a `.lean` file elsewhere and use `lake env lean --run`):

* `conformance.txt norm`: all 18853 lines of `/repo/unicode/NormalizationTest.txt`, with the ten checks that
  `charstr_normalization_test.c` makes for each. No line differs.
* `conformance.txt idna`: all 6225 lines of `/repo/idna/IdnaTestV2.txt`, as in `charstr_idna_test.c`. No line is encoded differently from
  the file; 2947 are refused, which that test allows. No line leads to undefined behaviour.
* `vectors.txt`: the literal cases of `base64_test.c` (except decoding into short buffers), `float_test.c`, `bytearray_test.c` (except the
  stream at the end) and `charstr_test.c` (ends-with, sanitizing, URL coding). All pass.
* `dates.txt`: the 125397 instants of `date_test.c`, compared with the calendar of Python. No field that `epoch_to_utc` supports differs.
