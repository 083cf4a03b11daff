{"id": "C01", "title": "Sequence behaves as a deque for every history", "statement": "After any history of `append:`, `prepend:`, `pop`, `shift`, the replies of `count`, `first`, `last`, `penultimate`, `position:`, `pop` and `shift` are exactly those of the mathematical list obtained by the same history; out-of-range positions and removals from an empty sequence answer None and change nothing.", "quantifier": "every finite history of sequence messages, every element value, every queried position", "why_tests_cant": "The buffer has a moving tail, a growing head and reallocation; which combination of head/tail/capacity a call meets depends on the whole history, which tests only sample.", "anchors": ["collections.c: ctr_array_new, ctr_array_push, ctr_array_unshift, ctr_array_pop, ctr_array_shift, ctr_array_get, ctr_array_first, ctr_array_last, ctr_array_second_last, ctr_array_count"]}
{"id": "C02", "title": "Sequence operations never touch memory outside the element buffer", "statement": "In every history of sequence messages each element slot read or written lies inside the currently allocated buffer, and the element range is well formed.", "quantifier": "every finite history of sequence messages (append, prepend, pop, shift, put:at:, fill:with:, position:, ...)", "why_tests_cant": "An out-of-bounds slot is silent in most test runs, and growth happens only at particular head/capacity combinations.", "anchors": ["collections.c: ctr_array_push, ctr_array_unshift, ctr_array_put, ctr_array_get, ctr_array_min, ctr_array_max"]}
{"id": "C03", "title": "put:at: then position: reads the value back", "statement": "For every sequence s, index n >= 1 and value x, after `s put: x at: n` the message `s position: n` answers x, every other position that was in range keeps its value and positions newly created in between hold None; n < 1 raises an error and changes nothing.", "quantifier": "every reachable sequence state (including after shift), every index, every value", "why_tests_cant": "The index is absolute while position: is relative to the tail; only sequences that have been shifted reveal the difference.", "anchors": ["collections.c: ctr_array_put, ctr_array_get"]}
{"id": "C04", "title": "Copying and concatenating sequences", "statement": "`s copy` is a sequence with exactly the elements of s in the same order, and `a + b` has the elements of a followed by those of b; the operands do not change.", "quantifier": "every pair of reachable sequence states", "why_tests_cant": "The loops mix absolute and relative indices; agreement depends on how many elements were ever shifted off either operand.", "anchors": ["collections.c: ctr_array_copy, ctr_array_add, ctr_array_get"]}
{"id": "C05", "title": "by: pairs keys with values", "statement": "`values by: keys` yields a map in which the i-th element of `keys` is bound to the i-th element of `values` (last binding wins for repeated keys, positions whose key is None or missing are skipped) and which has no other bindings.", "quantifier": "every pair of reachable sequence states", "why_tests_cant": "Depends on the operands' shift history and on repeated keys at arbitrary distances.", "anchors": ["collections.c: ctr_array_combine, ctr_map_put"]}
{"id": "C06", "title": "find: answers a position that holds the sought element", "statement": "If `s find: x` answers p > 0 then `s position: p` is textually equal to x and no earlier position is; if it answers the not-found value then no position is textually equal to x.", "quantifier": "every reachable sequence of texts, every sought text", "why_tests_cant": "Depends on shift history and on byte content (NUL bytes).", "anchors": ["collections.c: ctr_array_index_of"]}
{"id": "C07", "title": "minimum and maximum are taken over the current elements", "statement": "`s minimum` (`s maximum`) answers an element of s that is <= (>=) every element of s; the empty sequence answers 0.", "quantifier": "every reachable sequence of numbers", "why_tests_cant": "Wrong answers need an extreme element that was shifted off earlier.", "anchors": ["collections.c: ctr_array_min, ctr_array_max"]}
{"id": "C08", "title": "from:length: and replace:length:with: are the list slice and the list splice", "statement": "`s from: i length: n` holds the n elements at positions i..i+n-1 (None where out of range); `s replace: i length: n with: r` is the prefix before i, then r, then the elements from i+n on.", "quantifier": "every reachable sequence, every start, length and replacement", "why_tests_cant": "Boundary arithmetic over all starts/lengths and all shift histories.", "anchors": ["collections.c: ctr_array_from_length, ctr_array_splice, ctr_array_add"]}
{"id": "C09", "title": "fill:with: appends exactly n copies", "statement": "`s fill: n with: x` appends exactly max(n,0) copies of x and leaves the existing elements alone.", "quantifier": "every reachable sequence, every n, every value", "why_tests_cant": "Unbounded n; growth of the buffer happens inside the loop.", "anchors": ["collections.c: ctr_array_fill"]}
{"id": "C10", "title": "each: on a sequence visits every element once, in order, with its position", "statement": "`s each: block` runs the block with (1, first element), (2, second element), ... for every element present, in order; `break` ends the iteration and is consumed, `continue` moves to the next element, an error ends the iteration and stays pending.", "quantifier": "every sequence and every block behaviour (including blocks that append to or remove from the sequence)", "why_tests_cant": "The block is arbitrary code; all interleavings of flow signals with iteration must be covered.", "anchors": ["collections.c: ctr_array_map"]}
{"id": "C11", "title": "Map refines a finite map for every history", "statement": "After any history of `put:at:`, `-` (delete) and copies, `at:` answers the value most recently put for that key and None if absent or deleted, `has:`-style key presence and `count` agree with the set of present keys, and no key is stored twice.", "quantifier": "every finite history of map messages over every key set, whatever the hash function collides on", "why_tests_cant": "Correctness must hold for all hash collisions and for arbitrarily long histories of insert/delete.", "anchors": ["world.c: ctr_internal_object_find_property, ctr_internal_object_delete_property, ctr_internal_object_add_property, ctr_internal_object_set_property", "collections.c: ctr_map_put, ctr_map_get, ctr_map_delete, ctr_map_count"]}
{"id": "C12", "title": "entries, values and each: enumerate the same bindings consistently", "statement": "`m entries` and `m values` have equal length `m count`, the i-th value is the value bound to the i-th entry, and `m each:` presents exactly the bindings of m, each once, in order of insertion; `m has: v` is true exactly when some binding has a value that is the same as v.", "quantifier": "every reachable map", "why_tests_cant": "Consistency of three separate traversals over all histories.", "anchors": ["collections.c: ctr_map_keys, ctr_map_values, ctr_map_copy, ctr_map_each"]}
{"id": "C13", "title": "Variable lookup and assignment are lexically innermost", "statement": "Reading a name answers the value in the innermost open scope that declares it, otherwise the world's value, otherwise an error; assigning changes exactly that one binding and nothing else, and is an error (with no change) if no scope declares the name; declaring a local affects only the innermost scope; closing a scope makes earlier outer bindings visible again unchanged. Assigning to a property of the object itself changes that property only and answers the value.", "quantifier": "every sequence of scope openings, closings, declarations, reads and assignments", "why_tests_cant": "Shadowing depth and order of operations are unbounded.", "anchors": ["world.c: ctr_open_context, ctr_close_context, ctr_find, ctr_set, ctr_assign_value, ctr_assign_value_to_local"]}
{"id": "C14", "title": "Scope nesting never overruns the scope table", "statement": "However deeply blocks nest, opening a scope never writes outside the scope table: at the nesting limit an error is raised instead.", "quantifier": "every program (every nesting of block invocations, including those that catch the nesting error)", "why_tests_cant": "Needs specific recursion patterns at the exact limit, with errors caught at depth.", "anchors": ["world.c: ctr_open_context, ctr_close_context", "base.c: ctr_block_run"]}
{"id": "C15", "title": "Garbage collection never frees a reachable object", "statement": "A collection frees no object that the program can still reach from its live scopes (through properties, methods, sequence elements or prototype links).", "quantifier": "every heap graph, every root set", "why_tests_cant": "Requires all heap shapes, including sharing and cycles and prototype-only references.", "anchors": ["system.c: ctr_gc_mark, ctr_gc_sweep, ctr_gc_internal_collect"]}
{"id": "C16", "title": "Garbage collection frees every unreachable object and leaves no stale marks", "statement": "After a collection every object that is neither permanent nor reachable is gone, each exactly once, and no survivor stays marked, so the next collection is exact again.", "quantifier": "every heap graph, every sequence of collections", "why_tests_cant": "Unbounded heaps; stale marks show only in later collections.", "anchors": ["system.c: ctr_gc_mark, ctr_gc_sweep, ctr_gc_internal_collect"]}
{"id": "C17", "title": "Memory accounting is exact", "statement": "At all times the memory in use reported to the program equals the sum of the sizes of the live blocks; it returns to zero when all blocks are released; an allocation that would pass the configured limit ends the program instead of succeeding.", "quantifier": "every history of allocate, reallocate and free calls", "why_tests_cant": "Ledger drift accumulates over arbitrary histories (grow in place, moves, pool/heap mix).", "anchors": ["memory.c: ctr_heap_allocate, ctr_heap_free, ctr_heap_reallocate, ctr_pool_bucket"]}
{"id": "C18", "title": "The pool never hands out overlapping live blocks", "statement": "Blocks that are live at the same time never overlap, each lies inside the pool area of its size class, and a released block becomes available again; when a class is exhausted the heap is used.", "quantifier": "every history of pool allocations and releases, every pool size accepted by the program", "why_tests_cant": "Depends on free-list order over arbitrary histories, and on arithmetic for extreme pool sizes.", "anchors": ["memory.c: ctr_pool_init, ctr_pool_bucket, ctr_pool_alloc, ctr_pool_dealloc"]}
{"id": "C19", "title": "Fresh memory is zeroed; growing a block preserves its contents", "statement": "A newly allocated block reads as zero bytes, and after reallocation the first min(old,new) bytes are unchanged.", "quantifier": "every history of allocate, write, reallocate and free calls", "why_tests_cant": "Reuse of freed blocks happens only in particular histories and modes.", "anchors": ["memory.c: ctr_heap_allocate, ctr_heap_reallocate, ctr_pool_alloc, ctr_pool_dealloc"]}
{"id": "C20", "title": "Text length counts characters", "statement": "For every valid UTF-8 text, `length` is its number of code points, the characters sequence has that many entries, each one character, and their concatenation is the text; `bytes` is the number of bytes of its encoding.", "quantifier": "every sequence of Unicode scalar values", "why_tests_cant": "All code points and all mixtures of 1-4 byte characters.", "anchors": ["utf8.c: ctr_utf8size, ctr_getutf8len, getBytesUtf8", "base.c: ctr_string_length, ctr_string_characters"]}
{"id": "C21", "title": "Substring selects characters, never bytes outside the text", "statement": "For valid UTF-8 text, `from: a length: n` is the n characters starting at the a-th, cut off at the end of the text (a negative n means the -n characters before the a-th, a start before the text counts as the first character), `offset: n` drops the first n characters, `character: i` is the i-th character; no byte outside the text is read.", "quantifier": "every valid text, every start and length (including negative and oversized ones)", "why_tests_cant": "Start/length are compared in one unit (bytes) and used in another (characters); only multi-byte texts near the end differ.", "anchors": ["base.c: ctr_string_from_length, ctr_string_skip, ctr_string_at", "utf8.c: getBytesUtf8"]}
{"id": "C22", "title": "Joining the parts of a split restores the text", "statement": "For every text t and delimiter d, splitting t by d and combining the parts with d gives back t byte for byte.", "quantifier": "every text and every delimiter", "why_tests_cant": "All texts with partial, overlapping and adjacent delimiter occurrences.", "anchors": ["base.c: ctr_string_split", "collections.c: ctr_array_join"]}
{"id": "C23", "title": "split: cuts at every delimiter", "statement": "No part produced by `t split: d` contains d, for every non-empty d.", "quantifier": "every text and every non-empty delimiter", "why_tests_cant": "Self-overlapping partial matches directly before a real one.", "anchors": ["base.c: ctr_string_split"]}
{"id": "C24", "title": "replace:with: replaces every occurrence, left to right", "statement": "`t replace: p with: r` equals the text obtained by scanning left to right and replacing each non-overlapping occurrence of p by r; texts without p and empty p are unchanged.", "quantifier": "every text, pattern and replacement", "why_tests_cant": "Overlap structure of the pattern and buffer growth for all lengths.", "anchors": ["base.c: ctr_string_replace_with", "world.c: ctr_internal_memmem"]}
{"id": "C25", "title": "find:, last: and contains: agree with occurrence", "statement": "`t find: p` is the character position of the first occurrence, `t last: p` of the last occurrence, and `contains:` is true exactly when an occurrence exists (the empty pattern is never found).", "quantifier": "every text and pattern", "why_tests_cant": "All positions, overlapping occurrences and multi-byte texts.", "anchors": ["world.c: ctr_internal_memmem", "base.c: ctr_string_index_of, ctr_string_last_index_of, ctr_string_contains"]}
{"id": "C26", "title": "Text equality is byte equality", "statement": "`a = b` on texts is true exactly when a and b are the same bytes; `a ≠ b` is its complement.", "quantifier": "every pair of texts, including those containing NUL bytes", "why_tests_cant": "Differences behind a NUL byte.", "anchors": ["base.c: ctr_string_eq, ctr_string_neq"]}
{"id": "C27", "title": "Text comparison is a total order", "statement": "compare:/before/after define a total order on texts consistent with equality.", "quantifier": "every triple of texts", "why_tests_cant": "Order axioms quantify over triples; prefixes are special.", "anchors": ["base.c: ctr_string_compare, ctr_string_before, ctr_string_after, ctr_string_before_or_same, ctr_string_after_or_same"]}
{"id": "C28", "title": "Concatenation and suffix removal", "statement": "`a + b` is the bytes of a followed by those of b, append: is the same in place, and `(a + b) - b` is a; `a - b` leaves a unchanged if it does not end in b.", "quantifier": "every pair of texts", "why_tests_cant": "All lengths and suffix relations.", "anchors": ["base.c: ctr_string_concat, ctr_string_append, ctr_string_minus"]}
{"id": "C29", "title": "trim removes exactly the surrounding white space", "statement": "`t trim` is t without its longest white-space prefix and suffix, and trimming twice equals trimming once.", "quantifier": "every text", "why_tests_cant": "All-white-space texts and arbitrary bytes (char signedness).", "anchors": ["base.c: ctr_string_trim"]}
{"id": "C30", "title": "hash: is SipHash-2-4", "statement": "For every text and every key of at least 16 bytes, the reported hash is SipHash-2-4 of the text's bytes under the first 16 key bytes.", "quantifier": "every byte string and key", "why_tests_cant": "Tail handling for all lengths mod 8; 64-bit wrap-around.", "anchors": ["siphash.c: siphash24", "base.c: ctr_string_hash_with_key", "world.c: ctr_internal_index_hash"]}
{"id": "C31", "title": "Localised numbers read back", "statement": "Formatting a plain decimal number text with thousands separators and removing the separators again gives the original text.", "quantifier": "every plain decimal number text (sign, digits, optional fraction)", "why_tests_cant": "All digit counts relative to groups of three.", "anchors": ["base.c: ctr_international_number, ctr_national_number"]}
{"id": "C32", "title": "code then read-back of a text gives the same text", "statement": "For every text t, writing `t code` and lexing the result as a string literal yields t.", "quantifier": "every text, including quotes, back-slashes, control characters and the special newline/tab symbols", "why_tests_cant": "All combinations of escapes and nesting of quotes.", "anchors": ["base.c: ctr_string_to_code", "lexer.c: ctr_clex_readstr"]}
{"id": "C33", "title": "Lexing never overruns its token buffer", "statement": "For every program text, tokenising writes only inside the token buffer; over-long tokens are reported as errors.", "quantifier": "every program text", "why_tests_cant": "Exact boundary lengths and all token kinds.", "anchors": ["lexer.c: ctr_clex_tok"]}
{"id": "C34", "title": "Message precedence: unary, then binary, then keyword", "statement": "Parsing any expression groups unary messages before binary ones (left to right) and binary before keyword messages; parentheses override.", "quantifier": "every expression", "why_tests_cant": "Unbounded nesting and mixtures.", "anchors": ["parser.c: ctr_cparse_message, ctr_cparse_messages, ctr_cparse_expr"]}
{"id": "C35", "title": "A pending error silences the program until it is caught", "statement": "Once an error is raised, no message is delivered, no variable is changed and no further instruction has an effect until the error is caught by the nearest enclosing block with an exception handler; the handler receives the error.", "quantifier": "every program", "why_tests_cant": "All program shapes between raise and catch.", "anchors": ["world.c: ctr_send_message, ctr_find, ctr_assign_value", "walker.c: ctr_cwlk_run, ctr_cwlk_expr", "base.c: ctr_block_run, ctr_block_error, ctr_block_catch"]}
{"id": "C36", "title": "break and continue act on the innermost loop only", "statement": "break ends the nearest enclosing loop and execution continues after it; continue starts its next round; neither leaks out of the loop.", "quantifier": "every loop nesting and every block behaviour", "why_tests_cant": "Arbitrary nesting of loops and blocks.", "anchors": ["base.c: ctr_block_times, ctr_block_while_true, ctr_block_runIt, ctr_bool_break, ctr_bool_continue, ctr_bool_if_true", "collections.c: ctr_array_map, ctr_map_each"]}
{"id": "C37", "title": "Message dispatch picks the nearest method, and inside that method goes to the parent", "statement": "A message runs the method of the first object in the receiver's prototype chain that defines it and is not already executing (unless recursion was requested); if there is none the receiver's respond: family is used with the message and arguments. A literal is a new object of its kind, with the prototype of that kind.", "quantifier": "every prototype chain, every set of methods and every stack of running methods", "why_tests_cant": "Chains and running-method stacks of arbitrary shape.", "anchors": ["world.c: ctr_send_message"]}
{"id": "C38", "title": "Dictionary lookup is functional and invertible", "statement": "A loaded dictionary gives each word one translation, distinct words have distinct translations, and translating with the mirrored dictionary restores the original tokens.", "quantifier": "every dictionary file accepted by the loader and every token", "why_tests_cant": "All dictionaries; ambiguity checks are pairwise.", "anchors": ["translator.c: ctr_translate_load_dictionary, ctr_translate_translate"]}
{"id": "C39", "title": "Moment equality is an equivalence and moves are invertible", "statement": "Comparing moments is reflexive, symmetric and transitive, and adding then subtracting the same number of a unit restores the moment.", "quantifier": "every pair of moments, every amount and unit", "why_tests_cant": "All zone strings (prefix relations) and all amounts.", "anchors": ["system.c: ctr_clock_equals, ctr_clock_change"]}
{"id": "C40", "title": "Random numbers stay between the bounds", "statement": "`Number between: a and: b` answers a whole number within the (ordered) rounded bounds, and every such number can be answered.", "quantifier": "every pair of bounds and every random draw", "why_tests_cant": "All draws and bound orders, overflow at the extremes.", "anchors": ["base.c: ctr_number_between"]}
{"id": "C41", "title": "Division by zero is an error that changes nothing", "statement": "Dividing or taking a remainder by zero raises an error and the receiver keeps its value; with a non-zero divisor no error is raised.", "quantifier": "every receiver and argument", "why_tests_cant": "All numbers.", "anchors": ["base.c: ctr_number_divide, ctr_number_div, ctr_number_modulo"]}
{"id": "C42", "title": "The sandbox bounds execution", "statement": "In sandbox mode every program stops after at most the configured number of evaluation steps.", "quantifier": "every program", "why_tests_cant": "Termination is a statement about all programs.", "anchors": ["walker.c: ctr_cwlk_expr", "citrine.h: CTR_MAX_STEPS_LIMIT"]}
{"id": "C43", "title": "Reading an object back from text runs only harmless built-ins", "statement": "While a text is being turned back into an object, the only built-in operations that execute are those needed to build sequences, maps and literals.", "quantifier": "every text handed to `object` and every built-in", "why_tests_cant": "All texts are possible attacker input.", "anchors": ["world.c: ctr_send_message", "base.c: ctr_string_eval"]}
{"id": "C44", "title": "Conversion of nested sequences to text depends only on nesting depth", "statement": "Converting a sequence to text succeeds exactly when its nesting depth is within the limit, whatever conversions happened before.", "quantifier": "every nesting depth and every history of conversions", "why_tests_cant": "State surviving in between calls shows only after particular histories.", "anchors": ["collections.c: ctr_array_to_string, ctr_map_to_string"]}
{"id": "C45", "title": "A file read returns what was written", "statement": "After `write: t` and any number of `append:` messages, `read` answers the concatenation of the texts and `size` its number of bytes; `delete` makes `exists` false.", "quantifier": "every history of file messages on every set of paths", "why_tests_cant": "All histories and contents (including NUL bytes in contents or path).", "anchors": ["file.c: ctr_file_read, ctr_file_write, ctr_file_append, ctr_file_size, ctr_file_delete, ctr_file_exists"]}
{"id": "C46", "title": "uppercase and lowercase change exactly the ASCII letters", "statement": "`uppercase` and `lowercase` of a text change ASCII letters to their counterpart, leave every other character alone, and are defined for every text.", "quantifier": "every valid text, including the empty one", "why_tests_cant": "All texts; multi-byte characters contain bytes that must not be taken for letters.", "anchors": ["base.c: ctr_string_to_upper, ctr_string_to_lower, ctr_build_string"]}
{"id": "C47", "title": "A block of memory is at least as large as requested", "statement": "Every block the memory manager hands out, new or resized, has room for the number of bytes requested, or the program ends.", "quantifier": "every request size and every history of requests", "why_tests_cant": "The failing sizes need more memory than a test machine wants to give; all sizes and histories matter.", "anchors": ["memory.c: ctr_heap_allocate, ctr_heap_reallocate, ctr_pool_bucket"]}
{"id": "C48", "title": "odd? and even? answer the parity", "statement": "For every whole number exactly one of `odd?` and `even?` is true, the one that fits the number.", "quantifier": "every whole number, of either sign", "why_tests_cant": "All numbers; the conversion to a machine integer fails only for large ones.", "anchors": ["base.c: ctr_number_odd, ctr_number_even, ctr_build_bool"]}
{"id": "C49", "title": "Reading tokens always makes progress and ends", "statement": "Every token other than the end of the program takes at least one byte of the program, tokens are read from left to right, and the end is reported exactly when only blanks and comments are left.", "quantifier": "every program text and every usable dictionary", "why_tests_cant": "A single place where a token is empty makes the parser run for ever; such places depend on all combinations of symbols.", "anchors": ["lexer.c: ctr_clex_tok, ctr_clex_is_delimiter"]}
{"id": "C50", "title": "A token stands for the piece of program it was read from", "statement": "The value of a name is the piece of program up to the next delimiter; the value of a number is the written number without separators and with a decimal point.", "quantifier": "every program text and every place in it", "why_tests_cant": "All words, separators and neighbouring symbols.", "anchors": ["lexer.c: ctr_clex_tok"]}
{"id": "C51", "title": "Quotes nest inside text literals", "statement": "A text literal ends at the closing quote that belongs to its opening quote: quoted pieces inside it, nested to any depth, are part of the text, byte for byte.", "quantifier": "every body with properly nested quotes and everything that may follow", "why_tests_cant": "Unbounded nesting depth and all contents.", "anchors": ["lexer.c: ctr_clex_readstr"]}
{"id": "C52", "title": "The parser answers for every program text", "statement": "Parsing any text, well formed or not, ends with a tree or an error after a number of steps linear in its length; a tree is answered only after the whole text has been read.", "quantifier": "every text and every usable dictionary", "why_tests_cant": "Every possible malformed program counts; a parser that loops on one of them hangs the interpreter.", "anchors": ["parser.c: ctr_cparse_parse, ctr_cparse_program, ctr_cparse_expr, ctr_cparse_messages, ctr_cparse_message, ctr_cparse_block"]}
{"id": "C53", "title": "The parser drops no part of a program", "statement": "The tree of a program that is accepted without an error contains every word, number, text and symbol of the program, in the order written.", "quantifier": "every program text", "why_tests_cant": "A token is dropped only in particular combinations of messages and arguments.", "anchors": ["parser.c: ctr_cparse_message, ctr_cparse_expr"]}
{"id": "C54", "title": "Messages of any length are accepted or rejected", "statement": "A message of any length, with any number of parts, is either parsed completely or rejected with an error; memory outside the buffer for the message is not touched.", "quantifier": "every message, every number and length of parts", "why_tests_cant": "The failing lengths are exact boundary values of a sum over parts, and an overrun by one byte is not visible.", "anchors": ["parser.c: ctr_cparse_message"]}
{"id": "C55", "title": "Translating a number keeps its digits", "statement": "Translating the text of a number into another language replaces the decimal and thousands separators by those of the other language and changes nothing else; translating back restores the number.", "quantifier": "every number, every two languages whose separators can be told from each other and from digits", "why_tests_cant": "Separators have any length and may share bytes; numbers have any number of groups.", "anchors": ["translator.c: ctr_translate_number"]}
{"id": "C56", "title": "The parts of a moment are what a calendar shows", "statement": "The year, month, day, hour, minute and second of a moment are what a clock and a calendar in its zone show. Setting a part leads to the date with that part, the larger parts as before and the smaller parts at their beginning; setting all parts in order leads to exactly that date.", "quantifier": "every moment, every zone, every part and value", "why_tests_cant": "Leap years, ends of months and zones behind or ahead of UTC give unboundedly many combinations.", "anchors": ["system.c: ctr_clock_get_time, ctr_clock_set_time, ctr_clock_set_zone"]}
{"id": "C57", "title": "Day of the week and day of the year belong to the date of the moment", "statement": "The day of the week, the day of the year and the week of a moment are those of the date it shows in its zone, whatever was asked before.", "quantifier": "every moment, every zone, every preceding message", "why_tests_cant": "The answer depends on a process-wide setting that other messages change.", "anchors": ["system.c: ctr_clock_weekday, ctr_clock_yearday, ctr_clock_week"]}
{"id": "C58", "title": "A folder is listed completely", "statement": "`File list:` answers every entry of the folder once, in the order of the folder, with its name and its kind; no memory outside its buffers is touched.", "quantifier": "every folder name and every set of entries", "why_tests_cant": "Names of all lengths up to the limits of the system; links in all states.", "anchors": ["file.c: ctr_file_list"]}
{"id": "C59", "title": "Settings keep the value last given to them", "statement": "`Program setting: n` answers the value of the last `Program setting: n value: v`, nothing after it was set to Nil, and what the operating system says if it was never set; other settings do not matter.", "quantifier": "every initial environment and every history of settings, every name and value", "why_tests_cant": "Histories are unbounded, names and values are arbitrary bytes, and a name may be the beginning of another.", "anchors": ["system.c: ctr_program_get_env, ctr_program_set_env", "memory.c: ctr_heap_allocate_cstring"]}
{"id": "C60", "title": "Everything that is given as input is read", "statement": "`Program input` answers the whole input without its final line end, in whatever portions it arrives; `Program ask` answers one complete line and leaves what follows for the next question.", "quantifier": "every input and every way of cutting it into portions", "why_tests_cant": "The portions depend on the timing of another process; lengths at the boundaries of the buffers matter.", "anchors": ["system.c: ctr_program_input, ctr_program_waitforinput, ctr_program_waitforpassword"]}
{"id": "C61", "title": "The output of a shell command is complete", "statement": "`Program shell:` answers all bytes that the command writes.", "quantifier": "every command and every output", "why_tests_cant": "Outputs of every length, with lines of every length.", "anchors": ["system.c: ctr_program_shell"]}
{"id": "C62", "title": "Words sent to Path, Command and Slurp form one text", "statement": "After any messages, the text obtained consists of all words and arguments in order, separated by the glue of the object (a slash for Path, a space for Command); texts obtained before stay as they are.", "quantifier": "every history of messages, with any number of arguments, and of texts obtained", "why_tests_cant": "The text depends on the whole history; texts may be shared between the object and the program.", "anchors": ["system.c: ctr_slurp_respond_to, ctr_slurp_respond_to_and, ctr_slurp_obtain, ctr_slurp_to_string, ctr_path_respond_to, ctr_shellcommand_respond_to", "world.c: ctr_send_message"]}
{"id": "C63", "title": "Including a program does not change the folder", "statement": "After `Program use:` the program is in the folder in which it was, however deep the included programs include others and wherever they fail; names of included files are relative to the file that names them.", "quantifier": "all trees of files that include each other, all failures", "why_tests_cant": "Nesting is unbounded and a failure may happen at any point of it.", "anchors": ["system.c: ctr_program_include"]}
{"id": "C64", "title": "Arguments are numbered from one", "statement": "`Program argument: n` answers the n-th word of the command line for n from 1 to `Program arguments`, and nothing for every other number.", "quantifier": "every command line and every number", "why_tests_cant": "All numbers count, large and negative ones included.", "anchors": ["system.c: ctr_program_argument, ctr_program_num_of_args"]}
{"id": "C65", "title": "The command line is understood as it is meant", "statement": "Every combination of an option with its files runs, translates, exports or generates exactly the files named; an incomplete command line is answered by an explanation.", "quantifier": "every command line", "why_tests_cant": "Words of every length and number.", "anchors": ["citrine.c: ctr_cli_read_args, main"]}
{"id": "C66", "title": "Memory limits are taken as given", "statement": "`Program memory: n` with a unit, and the settings at the start, set the limit to exactly that number of bytes and the pool to the given part of it.", "quantifier": "every number, unit and share", "why_tests_cant": "The failing values are boundaries of several integer types.", "anchors": ["system.c: ctr_gc_setmemlimit", "citrine.c: main"]}
{"id": "C67", "title": "Memory for program texts is released once and not while in use", "statement": "However programs are parsed, texts evaluated and everything released, no block is freed twice or used after it was freed, evaluating a text gives back all memory it needed, what it answers can be used, and nothing is left at the end.", "quantifier": "every history of allocations, resizings and releases; every evaluated text", "why_tests_cant": "Double frees and uses after free depend on the whole history and are often invisible in a test run.", "anchors": ["memory.c: ctr_heap_allocate_tracked, ctr_heap_reallocate_tracked, ctr_heap_tracker_rewind, ctr_heap_free_rest", "base.c: ctr_string_eval, ctr_build_block, ctr_block_run"]}
{"id": "C68", "title": "Conditions follow one notion of truth", "statement": "`Nil`, `False`, zero and the empty text count as false and everything else as true, wherever a condition is needed; exactly one of `true:` and `false:` runs its code, and the logical messages follow their truth tables.", "quantifier": "every value", "why_tests_cant": "There are infinitely many numbers and texts.", "anchors": ["world.c: ctr_internal_cast2bool", "base.c: ctr_number_to_boolean, ctr_string_to_boolean, ctr_bool_if_true, ctr_bool_if_false, ctr_bool_and, ctr_bool_or, ctr_bool_nor, ctr_bool_either_or, ctr_bool_not"]}
{"id": "C69", "title": "Numbers are ordered", "statement": "`<` is a strict order under which any two different numbers can be compared, and `>`, `≤`, `≥`, `=`, `≠`, `positive?`, `negative?` agree with it.", "quantifier": "all pairs and triples of numbers", "why_tests_cant": "Laws about three arbitrary numbers.", "anchors": ["base.c: ctr_number_higherThan, ctr_number_higherEqThan, ctr_number_lowerThan, ctr_number_lowerEqThan, ctr_number_eq, ctr_number_neq, ctr_number_positive, ctr_number_negative"]}
{"id": "C70", "title": "Equality is an equality", "statement": "`=` is reflexive, symmetric and transitive for all values, and `≠` is its opposite; a text equals another value exactly when it is the text shown for it.", "quantifier": "all values of all kinds", "why_tests_cant": "Laws about three arbitrary values of arbitrary kinds.", "anchors": ["base.c: ctr_object_equals, ctr_object_unequals, ctr_bool_eq, ctr_bool_neq, ctr_number_eq, ctr_number_neq, ctr_string_eq, ctr_string_neq"]}
{"id": "C71", "title": "A map keeps what a key said when it was stored", "statement": "Whatever is done to the text of a key afterwards, and to texts obtained from the map, the entry is found under what the key said when it was stored, and under nothing else.", "quantifier": "every history of changes to texts and messages to a map", "why_tests_cant": "Texts can be changed in place at any time, and several objects may share one.", "anchors": ["collections.c: ctr_map_put, ctr_map_get, ctr_map_delete, ctr_map_keys", "world.c: ctr_internal_object_find_property, ctr_internal_object_delete_property", "base.c: ctr_string_append"]}
{"id": "C72", "title": "Messages keep their names", "statement": "An object answers a message with the code defined last for its name, whatever is done to the text of the name afterwards; `learn:means:` gives a name the code that the other has at that time, and changes nothing if that has none.", "quantifier": "every history of definitions and changes to texts", "why_tests_cant": "Depends on the order of arbitrarily many definitions and on texts shared among them.", "anchors": ["base.c: ctr_object_on_do, ctr_object_learn_meaning", "world.c: ctr_internal_object_find_property"]}
{"id": "C73", "title": "Changing a number changes that number only", "statement": "`add:`, `subtract:`, `multiply:` and naming a unit change the number for every variable that stands for it and no other number; copies and results of calculations are numbers of their own, units included.", "quantifier": "every history of assignments, copies, calculations and changes", "why_tests_cant": "Aliasing arises from arbitrary sequences of assignments and copies.", "anchors": ["base.c: ctr_number_copy, ctr_number_inc, ctr_number_dec, ctr_number_mul, ctr_number_add, ctr_number_qualify, ctr_number_qualification", "world.c: ctr_assign_value"]}
{"id": "C74", "title": "Translating a program keeps its meaning", "statement": "A program translated with a dictionary and read by an interpreter of the other language is the same program: the same statements, with every word, message, text, number and symbol replaced by its translation, each part of a message standing before its own argument, whatever the arguments contain.", "quantifier": "all programs of the grammar, all dictionaries, all regular ways to lay out the program", "why_tests_cant": "Messages nest to any depth; the translator finds the parts of a message by looking ahead over arbitrary arguments.", "anchors": ["translator.c: ctr_translate_program, ctr_translate_ref, ctr_translate_string, ctr_notebook_add, ctr_notebook_search, ctr_note_collect, ctr_note_attach", "lexer.c: ctr_clex_forward_scan, ctr_clex_backward_scan", "parser.c: ctr_cparse_parse"]}
{"id": "C75", "title": "Reading the text of a value gives the value back", "statement": "The text that `code` gives for a value, however its sequences, lists, texts, numbers, Booleans and Nil are nested, is read by `object` as an equal value that is made of new objects; nothing else changes and no error is raised.", "quantifier": "all values nested at most 99 deep, all languages, all states of a running program", "why_tests_cant": "Values are nested arbitrarily; the text passes through the conversion, the lexer, the parser and the evaluator, each of which depends on the words of the language.", "anchors": ["base.c: ctr_string_eval, ctr_string_to_code, ctr_number_to_string", "collections.c: ctr_array_to_string, ctr_array_new_and_push, ctr_array_push, ctr_map_to_string, ctr_map_new, ctr_map_put", "parser.c: ctr_cparse_expr", "walker.c: ctr_cwlk_expr, ctr_cwlk_message", "world.c: ctr_send_message", "i18n/*/dictionary.h: CTR_DICT_CODEGEN_MAP_NEW, CTR_DICT_CODEGEN_MAP_PUT, CTR_DICT_CODEGEN_MAP_PUT_AT, CTR_DICT_CODEGEN_ARRAY_NEW, CTR_DICT_CODEGEN_ARRAY_NEW_PUSH"]}
{"id": "C76", "title": "Sorting a sequence", "statement": "`sort:` with a block that compares two items puts the items of the sequence in the order of the block: no item is lost or doubled, and of two items the one that the block calls greater comes later. Anything but a block is refused with an error and changes nothing.", "quantifier": "all sequences, all blocks (whatever else they do), all sorting procedures of the C library", "why_tests_cant": "The C library may compare in any order and number; the block is arbitrary code.", "anchors": ["collections.c: ctr_array_sort, ctr_sort_cmp", "world.c: ctr_internal_cast2number"]}
{"id": "C77", "title": "Reading JSON", "statement": "Reading a JSON object gives the list that it means: the same keys, texts, numbers, Booleans, Nil, sequences and lists, however they are nested and wherever blanks stand, and no error is raised.", "quantifier": "all JSON objects, all blanks between their parts, all languages", "why_tests_cant": "JSON is nested arbitrarily; escapes, blanks and the separators of the language combine in unlimited ways.", "anchors": ["plugins/jsmn/jsmn.c: ctr_json_parse, ctr_jsmn_dump, ctr_string_unescape", "plugins/jsmn/jsmn/jsmn.c: jsmn_parse, jsmn_parse_string, jsmn_parse_primitive", "base.c: ctr_build_number_from_string"]}
{"id": "C78", "title": "A list written as JSON is read back as the same list", "statement": "The JSON text of a list is read as a list with the same values under the same keys.", "quantifier": "all lists of values nested to any depth, all languages", "why_tests_cant": "Values are nested arbitrarily and texts contain any bytes.", "anchors": ["plugins/jsmn/jsmn.c: ctr_json_jsonify, ctr_string_escape, ctr_json_parse, ctr_jsmn_dump, ctr_string_unescape", "base.c: ctr_number_to_string, ctr_build_number_from_string"]}
{"id": "C79", "title": "Reading JSON is safe for any text", "statement": "Reading any text as JSON ends, stays within its memory, and either gives a list or raises an error; texts that are not JSON raise an error.", "quantifier": "all texts", "why_tests_cant": "Errors can occur at any byte of any text.", "anchors": ["plugins/jsmn/jsmn.c: ctr_json_parse, ctr_jsmn_dump", "plugins/jsmn/jsmn/jsmn.c: jsmn_parse, jsmn_alloc_token, jsmn_fill_token, jsmn_parse_string, jsmn_parse_primitive"]}
{"id": "C80", "title": "A dictionary made from two headers", "statement": "From the word lists of two languages the program makes a dictionary that has, for every name that is in both, the word of the first language with the word of the second as its translation (and its note, and a line for texts if the name was asked for), in the order of the lists, and nothing else. The dictionary is accepted by the translator and translates each word so; the dictionary for the way back is its mirror image. Lists that do not agree are refused with an error.", "quantifier": "all pairs of word lists, all lists of names to ask for", "why_tests_cant": "Lists are of any length; what is read from one line can leak into later ones.", "anchors": ["translator.c: ctr_translate_generate_dicts, ctr_translate_load_dictionary, ctr_translate_translate", "plugins/media/dicts.sh", "mk.sh"]}
{"id": "C81", "title": "Replacing the matches of a pattern", "statement": "`process:do:` answers the text in which every match of the pattern, from left to right, is replaced by what the block answers for the match and its groups; everything else is kept, every byte is kept or handed to the block exactly once, and an error in the block ends it. `matches:` answers whether there is a match.", "quantifier": "all texts, all patterns, all blocks, all options", "why_tests_cant": "Matches can be anywhere, adjacent or empty, in texts of any length.", "anchors": ["plugins/regex/regex.c: ctr_regex_find_pattern_options_do, ctr_regex_find_pattern_do, ctr_regex_matches", "memory.c: ctr_heap_allocate_cstring"]}
{"id": "C82", "title": "Fields of a query", "statement": "A web request answers, for every name, the first value and the list of all values that were sent under it in the query (or in a post in the manner of a query), in the order in which they were sent, however their bytes were written; a post that is shorter than announced answers nothing; no query makes the program touch memory that it does not own.", "quantifier": "all lists of fields, all ways to write them, all texts as queries, all announced lengths", "why_tests_cant": "Fields, escapes and malformed texts of any length come from strangers.", "anchors": ["plugins/request/request.c: ctr_request_string, ctr_request_array", "plugins/request/ccgi-1.2/ccgi.c: CGI_decode_query, hex, CGI_get_query, CGI_get_post, CGI_add_var, CGI_lookup, CGI_lookup_all"]}
{"id": "C83", "title": "Cookies", "statement": "A web request answers, for every cookie that was sent, its value, with or without quotes around it, whatever other cookies were sent before and after it; reading cookies ends for every text.", "quantifier": "all lists of cookies, all texts", "why_tests_cant": "Cookies of any number and form come from strangers.", "anchors": ["plugins/request/request.c: ctr_request_cookie_string, ctr_request_cookie_array", "plugins/request/ccgi-1.2/ccgi.c: CGI_get_cookie, scanattr, scanspaces"]}
{"id": "C84", "title": "Forms and uploaded files", "statement": "A web request answers the values of the fields of a form; for an uploaded file it answers the name of a file that contains exactly the bytes that were sent, and the name the file had; nothing that was not uploaded is answered as an uploaded file. Reading a form ends for every input.", "quantifier": "all forms with any number of fields and files, all contents, all boundaries, all inputs", "why_tests_cant": "The bytes of a file can look like anything, in particular like the beginning of a boundary, at every position.", "anchors": ["plugins/request/request.c: ctr_request_file", "plugins/request/ccgi-1.2/ccgi.c: read_multipart, copyvalue, readline, scanheader, scanattr, CGI_get_post"]}
{"id": "C85", "title": "Packages: what was added is found", "statement": "After any files were added to a new package with Package add:, loading a picture, sound or font by the name of a file gives exactly the bytes of that file (of the first one added under the name), and for a name that was never added it gives nothing; the search ends and stays within its memory. Adding a file keeps all the package had before byte for byte; a file that cannot be read is an error and changes nothing. If the program stops while it adds a file, at any point, all files added before are still found.", "quantifier": "all lists of files with any contents, all names, all points at which adding is cut off", "why_tests_cant": "A package holds any number of files of any contents and sizes, and writing can stop after every single byte.", "anchors": ["plugins/media/media.c: ctr_package_add, ctr_internal_media_load_asset"]}
{"id": "C86", "title": "Line ends of texts shown in images", "statement": "After Image write: the answer to Image text has the same lines as the text written, whether they were ended by a line feed, a carriage return or both; all line ends are a carriage return and a line feed, each tab is one blank, everything else is kept byte for byte. Writing the answer again changes nothing. The clipboard is answered in the same form. No memory outside the text is touched.", "quantifier": "all texts, all mixtures of line ends", "why_tests_cant": "Line ends of the three kinds can be mixed and repeated in every order, at the beginning, in the middle and at the end.", "anchors": ["plugins/media/media.c: ctr_internal_media_normalize_line_endings, ctr_img_text, ctr_img_text_get, ctr_media_clipboard"]}
{"id": "C87", "title": "Writing in a text field", "statement": "Whatever a user does in an editable image - typing, Return, Tab, Backspace, Delete, arrows, Home, End, Page up and down, selecting with Shift and removing the selection, in any order and number, also when the program cuts the selection or appends text in between - the image shows the text that results from these acts, the cursor stands at the right place between two characters, and no memory outside the text is read or written.", "quantifier": "all texts of characters of any number of bytes and line ends, all histories of acts of a user", "why_tests_cant": "A history of keys can be arbitrarily long and the same key does different things at every place of a text with characters of several bytes and lines of different lengths.", "anchors": ["plugins/media/media.c: ctr_internal_media_textinsert, ctr_img_text_del, ctr_img_text_ins, ctr_internal_cursormove, ctr_internal_media_move_cursor_right, ctr_internal_media_move_cursor_left, ctr_internal_media_move_cursor_to_first_char_of_cur_line, ctr_internal_media_get_current_char_line, ctr_internal_media_keydown_left, ctr_internal_media_keydown_del, ctr_internal_img_render_cursor"]}
{"id": "C88", "title": "Timers fire once and in time", "statement": "A timer that a program sets with Media timer:after: fires when the timers are looked at for the first time after it was due, never before, and only once unless it is set again; a timer that is switched off does not fire; all this whatever else the program sets and however much time passes between two frames.", "quantifier": "all programs that set timers (also while one fires), all times of frames, all timers", "why_tests_cant": "Frames come at any time, and settings, frames and firings can be interleaved in every order.", "anchors": ["plugins/media/media.c: ctr_media_timer, ctr_internal_media_update_timers, ctr_internal_media_reset"]}
{"id": "C89", "title": "Blobs hold what they were filled with", "statement": "A blob of any size answers, for each part of it, the numbers that it was last filled with there (zero at first), and the text that it was made from; nothing outside the blob is read or written.", "quantifier": "all sizes, all histories of fillings with sequences of numbers, all parts, all texts", "why_tests_cant": "Fillings of different lengths overlap each other in any way.", "anchors": ["plugins/media/media.c: ctr_blob_new_set, ctr_blob_fill, ctr_blob_read, ctr_blob_utf8_set, ctr_blob_tostring"]}
{"id": "C90", "title": "Values in use survive the collector and are released afterwards", "statement": "Receivers, arguments and answers of messages that are still needed are never freed, whenever memory is cleaned while a program runs: a program gives the same answers and leaves the same contents in everything it can reach as if nothing were ever freed. When a message has been answered, what was kept for it is kept no longer.", "quantifier": "all programs (trees of expressions, messages, calls of blocks and built-in operations of any depth), all starting states, all choices of the statements after which memory is cleaned", "why_tests_cant": "Whether a value is lost depends on the moment of the collection relative to every step of nested evaluations; a test sees a handful of moments.", "anchors": ["walker.c: ctr_cwlk_message, ctr_cwlk_assignment, ctr_cwlk_expr, ctr_cwlk_run", "base.c: ctr_block_run, ctr_block_times, ctr_block_while_true, ctr_bool_if_true", "system.c: ctr_gc_internal_pin, ctr_gc_internal_collect", "collections.c: ctr_array_map, ctr_array_sort, ctr_sort_cmp, ctr_array_join", "world.c: ctr_open_context, ctr_close_context, ctr_find, ctr_set"]}
{"id": "C91", "title": "A number is shown as it was written", "statement": "A number that is written in a program or a text, with up to ten decimal places and separators of thousands as the language has them, is shown as the same number in normal form (grouped digits, no zeros at the end of the fraction), and reading what is shown gives the same number again.", "quantifier": "all texts of up to 40 bytes that write a number in this form, all pairs of separators of one byte", "why_tests_cant": "There are more numbers than can be tried, and whether one is shown with a wrong last digit depends on the binary expansion of each.", "anchors": ["base.c: ctr_build_number_from_string, ctr_national_number, ctr_international_number, ctr_internal_number_to_string, ctr_number_to_string"]}
{"id": "C92", "title": "Calculations with whole numbers are exact", "statement": "Calculations with whole numbers whose intermediate results do not exceed 2^53 - sums, differences, products, divisions without remainder, remainders, absolute values, and quotients that are rounded down, up or to the nearest whole number - give and show exactly the whole number that arithmetic gives, and compare as whole numbers do.", "quantifier": "all calculations of any depth whose exact intermediate results are at most 2^53", "why_tests_cant": "Calculations of any depth with numbers of any size up to 2^53; a rounding error in one of them is invisible in the others.", "anchors": ["base.c: ctr_number_add, ctr_number_minus, ctr_number_multiply, ctr_number_divide, ctr_number_modulo, ctr_number_floor, ctr_number_ceil, ctr_number_round, ctr_number_abs, ctr_number_eq, ctr_number_lowerThan, ctr_number_to_string"]}
{"id": "C93", "title": "Sums of amounts are shown exactly", "statement": "The sum or difference of amounts with decimals (prices, for example), and such sums with amounts taken a whole number of times, is shown as exactly the amount that decimal arithmetic gives, although the numbers inside are binary.", "quantifier": "all calculations of any depth with amounts of up to ten decimal places", "why_tests_cant": "Rounding errors add up; whether they become visible depends on all amounts and on their order.", "anchors": ["base.c: ctr_number_add, ctr_number_minus, ctr_number_multiply, ctr_build_number_from_string, ctr_internal_number_to_string"]}
{"id": "C94", "title": "Images, sounds and fonts are things of their own", "statement": "Every image, sound, piece of music and font that a program makes is a thing of its own: an image stays where it was put and shows what it was given, a sound plays its own contents and an image writes with its own font, whatever is made, changed, drawn or collected in between.", "quantifier": "all histories of making, changing, using, drawing and collecting images, sounds, music and fonts, of any length", "why_tests_cant": "What is kept in tables of fixed size is shared by all objects; a mistake shows only after some particular history of making and collecting.", "anchors": ["plugins/media/media.c: ctr_img_new, ctr_img_destructor, ctr_img_img, ctr_font_new, ctr_font_destructor, ctr_sound_new_set, ctr_music_new_set, ctr_img_font, ctr_internal_img_render_text, ctr_media_screen"]}
{"id": "C95", "title": "Images do not enter solid images", "statement": "When the collisions of a frame have been dealt with, an image that is neither solid nor a ghost shares no pixel with a solid image, except that one that falls may stand on its top row; and of every two images that share a pixel those are told, and only those, that want to know.", "quantifier": "all numbers, sizes, places, speeds and kinds of images", "why_tests_cant": "The places and speeds of images are fractions of pixels without bounds; whether an image is pushed out depends on all of them.", "anchors": ["plugins/media/media.c: ctr_internal_media_image_maprect, ctr_internal_media_detect_collisions, ctr_internal_media_image_resolvecollision, ctr_internal_media_image_resolvecollision1"]}
{"id": "C96", "title": "The player stays in the window", "statement": "Wherever keys, gravity, platforms and the program lead the player, after each frame it is in the window entirely (during a jump it may leave it at the top).", "quantifier": "all places, sizes, modes and windows", "why_tests_cant": "The motion of a frame depends on the time that has passed and is not bounded.", "anchors": ["plugins/media/media.c: ctr_internal_media_image_calculate_motion, ctr_media_screen"]}
{"id": "C97", "title": "The camera shows the level and the player", "statement": "The view of the camera never leaves the level; it finds a player that stands still, from wherever it is; every image of which any pixel is in view is drawn; and the images of a frame are drawn at the distances from each other that they have in the level.", "quantifier": "all levels, cameras, histories of the player and frames", "why_tests_cant": "The camera moves by one pixel at a time and depends on the whole history of the player.", "anchors": ["plugins/media/media.c: ctr_internal_media_camera, ctr_internal_media_render_image, ctr_media_screen, ctr_media_width_height"]}
{"id": "C98", "title": "The arrow keys lead the player", "statement": "The player is led in the direction of the arrow key that is held (the last one pressed, if there are several), and no longer when none is held; steering by turning goes to the side of the key that is held and always gives a direction of 0 to 359 degrees.", "quantifier": "all histories of keys, clicks, freezes and frames, all modes", "why_tests_cant": "Keys overlap in any order, and the directions depend on what was held before.", "anchors": ["plugins/media/media.c: ctr_internal_media_keydown_left, ctr_internal_media_keydown_right, ctr_internal_media_keydown_up, ctr_internal_media_keydown_down, ctr_internal_media_keyup_right, ctr_internal_media_keyup_down, ctr_media_screen"]}
{"id": "C99", "title": "A click reaches the images that are shown there", "statement": "A click is told to exactly the images that are shown at the pixel clicked on, in the order in which they were made, once each.", "quantifier": "all images at all places, all pixels", "why_tests_cant": "There are too many pixels and places between pixels.", "anchors": ["plugins/media/media.c: ctr_internal_media_mouse_down"]}
{"id": "C100", "title": "An animated image shows one of its pieces", "statement": "What is shown of a picture with several pieces beside each other is always one of these pieces, the next one each time the image has gone so many pixels or so much time has passed, and the first one when it is at rest.", "quantifier": "all widths, numbers of pieces, rates, places and times", "why_tests_cant": "A mistake shows only at some places or after a long time.", "anchors": ["plugins/media/media.c: ctr_internal_media_anim_frames, ctr_img_reel"]}
{"id": "C101", "title": "No sequence of keys and clicks ends the program", "statement": "Whatever keys are pressed and wherever the user clicks, in any order, nothing undefined happens, whether or not a text field is in use.", "quantifier": "all histories of keys and clicks", "why_tests_cant": "Histories are not bounded, and only some orders of a few events do harm.", "anchors": ["plugins/media/media.c: ctr_media_screen, ctr_internal_media_mouse_down, ctr_internal_media_getfocusimage, ctr_internal_media_infercursorpos"]}
{"id": "C102", "title": "Programs of numbers, conditions, loops and functions compute what they say", "statement": "Take a program that uses whole numbers, True and False, variables, calculations, comparisons, conditionals, loops with Break and Continue, and blocks used as functions (also recursive ones), written in any layout and with any comments. If by the meaning of its words it ends with certain values in its variables, then the interpreter accepts the text, runs it to the end without an error, and thereafter exactly these variables exist and have these values. For example Euclid's algorithm ends with the greatest common divisor, for any two numbers.", "quantifier": "all programs of this part of the language, all layouts of their texts, all dictionaries in which the words can be told apart", "why_tests_cant": "There are infinitely many programs, and a mistake in the parser, in scoping, in dispatch or in a loop shows only in combinations that no test suite contains.", "anchors": ["parser.c: ctr_cparse_parse", "walker.c: ctr_cwlk_run, ctr_cwlk_expr, ctr_cwlk_message, ctr_cwlk_assignment, ctr_cwlk_return", "world.c: ctr_send_message, ctr_find, ctr_assign_value, ctr_initialize_world, ctr_open_context, ctr_close_context", "base.c: ctr_block_run, ctr_block_run_here, ctr_block_times, ctr_block_while_true, ctr_bool_if_true, ctr_bool_if_false, ctr_bool_break, ctr_bool_continue, ctr_number_add, ctr_number_minus, ctr_number_multiply, ctr_number_modulo"]}
{"id": "C103", "title": "Programs with objects, methods, sequences, texts and errors compute what they say", "statement": "Take a program that makes objects with variables and methods of their own, objects from other objects, sequences and texts, goes through sequences, calls methods (also recursive ones), and raises and catches errors, in addition to numbers, conditions, loops and functions, written in any layout. If by the meaning of its words it ends, without an error or with a certain error, with certain values in its variables and certain contents of its objects, blocks and sequences, then the interpreter accepts the text, runs it to that end, with that error if there is one, and thereafter exactly these variables exist and have these values, every object has exactly the variables and methods it should have, is made from the object it should be made from, every sequence has the elements it should have, and no two of these things have become one.", "quantifier": "all programs of this part of the language, all layouts of their texts, all dictionaries in which the words can be told apart", "why_tests_cant": "There are infinitely many programs; which method is chosen, which variable is changed and where an error goes depends on the whole history of the run.", "anchors": ["parser.c: ctr_cparse_parse", "walker.c: ctr_cwlk_run, ctr_cwlk_expr, ctr_cwlk_message, ctr_cwlk_assignment, ctr_cwlk_return", "world.c: ctr_find, ctr_find_in_my, ctr_assign_value, ctr_assign_value_to_my, ctr_send_message, ctr_initialize_world", "base.c: ctr_object_make, ctr_object_on_do, ctr_object_recursion, ctr_block_run, ctr_block_error, ctr_block_catch, ctr_number_divide, ctr_number_modulo, ctr_string_concat, ctr_string_eq", "collections.c: ctr_array_new, ctr_array_new_and_push, ctr_array_push, ctr_array_count, ctr_array_get, ctr_array_map"]}
{"id": "C104", "title": "A translated program computes the same", "statement": "If a program is translated with a dictionary that keeps its names apart, translates the words that have a meaning (and no others) by the words of the other language with the same meaning, and translates texts so that names of methods remain names of methods, then the translation, run by the interpreter of the other language, ends as the original does (regularly, or with an error with the corresponding text), and every variable has the value of the variable of the original: the same number, the same truth value, the corresponding text, the translated block, the corresponding object or sequence. No variable appears or disappears.", "quantifier": "all programs (so far: of numbers, conditions, loops, functions, objects, methods, sequences, texts and errors, laid out regularly) that have a meaning, all dictionaries, all pairs of languages", "why_tests_cant": "Whether the translation computes the same depends on the translator, the lexer, the parser and the interpreter of both languages together, for programs and dictionaries that no test contains.", "anchors": ["translator.c: ctr_translate_program, ctr_translate_ref, ctr_translate_string, ctr_translate_load_dictionary", "parser.c: ctr_cparse_parse", "walker.c: ctr_cwlk_run", "world.c: ctr_initialize_world, ctr_send_message, ctr_find", "i18n/uk/dictionary.h", "i18n/en/dictionary.h"]}
{"id": "C105", "title": "The text and the number of a moment determine it", "statement": "The text of a moment is the date and the time of day that a clock and a calendar in its zone show, written in the form of the language; two moments of the same zone with the same text are the same point in time. The number of a moment is the number of seconds since 1970, in every language, and a new moment made from that number is at the same point in time.", "quantifier": "all points in time, all zones with a fixed offset, all languages, all states of the process zone", "why_tests_cant": "A test fixes one moment, one zone and usually the English language; a form that drops a part, or a word that means something else in another language, shows only for other moments and languages.", "anchors": ["system.c: ctr_clock_to_string, ctr_clock_to_number, ctr_clock_time, ctr_clock_new, ctr_clock_new_set, ctr_clock_get_zone, ctr_clock_init", "world.c: ctr_initialize_world", "i18n/*/msg.h: CTR_STDDATEFRMT", "i18n/da/dictionary.h: CTR_DICT_HOUR", "i18n/no/dictionary.h: CTR_DICT_HOUR"]}
{"id": "C106", "title": "The bits of numbers", "statement": "The messages &, | and ^ answer the whole number whose binary places are those where both numbers, at least one of them, exactly one of them has a 1 (negative numbers in two's complement). Fractions are dropped first. This holds for all numbers that a program can have.", "quantifier": "all pairs of numbers, all binary places", "why_tests_cant": "There are 2^64 pairs of ints and far more numbers; tests try a few small ones and never numbers beyond the range of int, where C leaves the answer undefined.", "anchors": ["base.c: ctr_number_bit_and, ctr_number_bit_or, ctr_number_bit_xor"]}
{"id": "C107", "title": "Words that maps and texts do not know", "statement": "A map that is told values with words (m name: 3) and asked for them with words (m name), in any order, answers for every question what it was told last for that word. A text that is sent a word it does not know with a value has every occurrence of the word replaced by the value and stays as it is otherwise. Messages with two or three parts that it does not know change nothing.", "quantifier": "all histories of telling and asking, all words, all values, all hash functions; all texts, words and replacements", "why_tests_cant": "The words of programs are endless, and the message is cut before it is used as a key, which goes wrong only for particular words; tests use a few ASCII names that are no messages.", "anchors": ["world.c: ctr_send_message", "collections.c: ctr_map_key_value, ctr_map_get", "base.c: ctr_string_fill_in, ctr_object_respond_and_and, ctr_object_respond_and_and_and"]}
{"id": "C108", "title": "Raw texts of numbers are the same in all languages", "statement": "The message raw answers a text of a number that does not depend on the language of the program nor on how the number was written, and reading that text as an international number, in a program of any language, gives exactly the same number.", "quantifier": "all pairs of separators of languages, all spellings of all numbers", "why_tests_cant": "The text goes through rounding to ten places, removal of zeros and a limit of forty bytes; whether it comes back as the same double depends on the number, and no sample of numbers and languages settles that.", "anchors": ["base.c: ctr_number_to_string_flat, ctr_internal_number_to_string, ctr_string_in_to_number, ctr_build_number_from_string"]}
{"id": "C109", "title": "The memory report adds up", "statement": "The message memory of Program answers the memory in use, the number of objects before the last cleaning, the permanent ones among them, the number of objects left and the number of objects removed; left and removed together are all there were. Memory is cleaned by itself after a statement exactly when the tidiness asks for it and more than four fifths of the limit are in use, or after every statement if the tidiness says that.", "quantifier": "all programs that make, link and drop objects, open and close scopes and clean memory in any order; all tidiness settings, all limits below 2^50 bytes", "why_tests_cant": "The figures are counted while objects are being unlinked and freed, and which objects go depends on the whole history of the program; the threshold is a rounded product of a limit and 0.8, whose rounding differs from limit to limit.", "anchors": ["system.c: ctr_gc_sweep, ctr_gc_internal_collect, ctr_gc_cycle, ctr_gc_collect, ctr_gc_memory"]}
{"id": "C110", "title": "Roots and squares", "statement": "The square root of the square of a whole number is the number without its sign, and the square of the square root of a whole number is shown as the number. The root of a number is shown less than one unit of the tenth place away from it, and no number with 53 binary digits is nearer to it. Negative numbers have no root.", "quantifier": "all whole numbers below 2^53, however they are written (sign, separators); roots of all positive numbers; the text of roots for whole numbers below 2^38", "why_tests_cant": "Squares beyond 2^53 and almost all roots are rounded, and whether two roundings cancel depends on the number; samples of numbers say nothing about the others.", "anchors": ["base.c: ctr_number_sqrt, ctr_number_multiply, ctr_number_to_string, ctr_build_number_from_string"]}
{"id": "C111", "title": "Asking what there is", "statement": "Program find: with a name says True exactly if the name can be used there, that is, if a statement that consists of the name does not end in an error; Program, asked for an object and a message, says True exactly if there is an object of that name and it understands the message, itself or through an object it was made from.", "quantifier": "all programs before the question, all names and messages, all scopes in which the question is asked", "why_tests_cant": "Which names exist and what objects understand depends on everything the program did before: assignments in blocks and outside, prototypes, methods added to them later.", "anchors": ["system.c: ctr_program_object_exists, ctr_program_object_message_exists", "world.c: ctr_find, ctr_internal_object_find_property, ctr_send_message"]}
{"id": "C112", "title": "Moments where clocks are put forward", "statement": "In a zone with summer time the parts of a moment are what the clocks there show at that moment. Setting a part leads to the date with that part set, the larger parts as before and the smaller ones at their beginning, whenever the clocks of the zone ever show that date, in summer or in winter. Adding an amount of time and subtracting it again restores the moment. A moment moved by days, weeks, months or years shows the same time of day as before, if the clocks show that time on the day that is reached.", "quantifier": "all zones with summer time (any offset, any amount, any periods), all moments, parts, values, amounts and units, and both choices for times that occur twice", "why_tests_cant": "Mistakes only show in zones with summer time and for moments on different sides of a change of the clocks; tests run in the zone and the season of the machine.", "anchors": ["system.c: ctr_clock_get_time, ctr_clock_set_time, ctr_clock_change, ctr_clock_add, ctr_clock_subtract"]}
{"id": "C113", "title": "The tree of a program is shown completely", "statement": "The text that is printed for the tree of a program (option -x) determines the program: if the same text is printed for two programs, they have the same statements, with the same names, messages, texts, numbers, blocks and nesting, whatever characters their texts and names contain.", "quantifier": "all pairs of programs (trees of any depth and size), all texts in them, and both forms of the parameter sign", "why_tests_cant": "Two different programs with the same printed tree would have to be guessed: texts that contain brackets, semicolons and digits can look like the tree around them.", "anchors": ["util.c: ctr_internal_export_tree", "parser.c: ctr_cparse_expr", "citrine.c: main"]}
{"id": "C114", "title": "Text fields show their text", "statement": "When a text field is drawn, exactly the bytes of the visible lines of its text appear, each in its line and in order, exactly the selected ones as selected, and the pieces of a line follow one another from the left edge on, whatever was drawn before. Every piece has the font and the colours of its field.", "quantifier": "all sequences of drawings: all texts with line ends, selections in either direction, scroll positions, numbers of visible lines, fonts and colours", "why_tests_cant": "Drawn lines are kept and used again, so what is drawn depends on the history of all fields; mistakes need a certain selection, scroll position and earlier drawing to show.", "anchors": ["plugins/media/media.c: ctr_internal_img_render_text, ctr_internal_media_get_selection, CtrMediaEdCache"]}
{"id": "C115", "title": "A click puts the cursor where it points", "statement": "A click into a text field puts the cursor into the line that was clicked, between two characters and never inside one, at the place that is nearest to the click; below the last line it puts the cursor at the end of the text. A double click selects the word at the cursor: the longest piece around it without blanks and line ends.", "quantifier": "all texts with all UTF-8 characters, scroll positions, line heights, places of clicks and widths of characters", "why_tests_cant": "Depends on the text, the font and the pixel that is clicked together; a mistake shows only at certain pixels of certain lines.", "anchors": ["plugins/media/media.c: ctr_internal_media_infercursorpos, ctr_internal_media_select_word, ctr_internal_media_move_cursor_left"]}
{"id": "C116", "title": "Programs and screens from assets arrive whole", "statement": "Using a program from the assets runs exactly the bytes of the file, in whatever pieces they arrive and however long it is, and never writes outside of the memory for it. Every picture in PNG or in JPEG form can be used as a screen, and other files are refused.", "quantifier": "all contents of files and all ways in which the reader may split them into pieces", "why_tests_cant": "The size of the pieces is decided by the system and the archive; tests see one split of a few files.", "anchors": ["plugins/media/media.c: ctr_media_include, ctr_internal_media_determine_filetype, ctr_media_screen"]}
{"id": "C117", "title": "A command runs once, in the terminal", "statement": "A command given to the system is run at most once, in the terminal of the user, which receives exactly the command as its last argument; commands that are too long are not run and damage nothing.", "quantifier": "all commands, settings of the terminal and exit states of commands", "why_tests_cant": "Depends on the characters of the command, the setting and on how the command ends; tests run harmless commands.", "anchors": ["plugins/media/media.c: ctr_media_system, ctr_internal_media_external_command"]}
{"id": "C118", "title": "Functions of other libraries get and give the right numbers", "statement": "A function of another library that was linked with the names of its types receives exactly the numbers it is called with, in its types, and the number it answers is the answer of the message. Numbers that do not suit the function (too many, too few, out of range) are an error and never damage the program.", "quantifier": "all linked signatures of up to twenty named types, all functions, all numbers of arguments and all numbers", "why_tests_cant": "Depends on the types, on the bytes of each number and on how many are given; tests call a few functions with small numbers.", "anchors": ["plugins/media/media.c: ctr_internal_media_ffi, ctr_internal_media_ffi_map_type, ctr_internal_media_ffi_convert_value, ctr_internal_media_ffi_convert_value_back, ctr_media_ffi_respond_to_and"]}
{"id": "C119", "title": "Answers from the network are delivered as they were sent", "statement": "Sending a message over the network answers exactly the text that the other side sent, however long it is and in whatever pieces it arrives, and never touches memory outside of the buffer for it.", "quantifier": "all answers, all ways to split them into pieces, all states of the memory pool", "why_tests_cant": "How an answer is split is decided by the network; a missing end mark shows only when the memory behind the buffer happens to be in use.", "anchors": ["plugins/media/media.c: ctr_curl_write_callback, ctr_network_basic_text_send", "memory.c: ctr_heap_reallocate, ctr_pool_bucket"]}
