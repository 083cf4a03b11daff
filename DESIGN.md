# Citrine: formal model and proofs

Target: the C sources of the Citrine interpreter in `/repo` (read as text; never built or run here).
Model and proofs: Lean 4.33.0, Lake project in `lean/`.

## Layout

* `lean/Verif/Basic.lean` – outcome type shared by the model (`ok` / undefined behaviour / process exit).
* `lean/Verif/Model/*.lean` – the model, function by function; every definition cites file and lines.
* `lean/Verif/Spec/*.lean` – small independent specifications (plain lists, finite maps, code points, ...).
  They do not import the model.
* `lean/Verif/Lemmas/*.lean` – helper lemmas.
* `lean/Verif/Props/*.lean` – the property theorems, each followed by an `example` showing that a
  concrete non-trivial case meets its hypotheses.

## Conventions

* Undefined behaviour in C (reads/writes outside an allocation, freeing a literal, signed overflow) is a
  separate outcome (`Out.ub`), `exit()` is a separate outcome (`Out.exit`).  A theorem that says `= .ok ..`
  therefore also says that no undefined behaviour happened.
* `size_t` arithmetic is `Nat` where no wrap-around can happen short of exhausting the address space (stated in
  the comment of the definition) and modular where wrap-around is reachable.
* Objects are abstract values (a type parameter) unless the property is about their contents.
* When the code violates the property, the negation is proved from a concrete witness
  (name ends in `_violated`), and the guard under which the property does hold is proved as `_partial`.

## Plan per property

| id | what is modelled | how it is proved |
|----|------------------|------------------|
| C01 | buffer with capacity/head/tail and optional slots; push, unshift, pop, shift, get, first, last, second_last, count | refinement to `List`, induction over op lists |
| C02 | same, out-of-buffer access is `ub` | capacity invariant by induction over op lists, all ops never `ub` |
| C03 | `ctr_array_put` | negation after shift; partial with tail = 0; exact general statement (absolute index) |
| C04 | `copy`, `add` loops over `get` | negation after shift; partial with tail = 0; exact general formula |
| C05 | `combine` loop with `map_put` | as C04 |
| C06 | `index_of` with `strncmp` model | as C04, NUL-free guard |
| C07 | `ctr_array_min`, `ctr_array_max` over any numbers with `<`, used with doubles | negation after shift; partial by a fold invariant that needs only a strict order; impossible numbers |
| C08 | `from_length`, `splice` | refinement to slice spec |
| C09 | `fill` | refinement |
| C10 | `each` loop with an arbitrary state-changing block | refinement to a spec fold over flow results |
| C11 | doubly linked property list with hashes | refinement to `Key → Option Val`, arbitrary hash function |
| C12 | `keys`, `values`, `map_copy`, `each` | list equations from the representation |
| C13 | context stack | refinement to a stack of finite maps |
| C14 | context index and table size, block_run | state machine over nested runs; negation or invariant |
| C15, C16 | heap graph with marks, mark recursion, sweep | reachability closure proof; negation for prototype links |
| C17 | allocator ledger | invariant by induction over histories |
| C18 | pool with free lists | invariant: live/free/untouched partition; arithmetic negation for tiny pools |
| C19 | byte contents | refinement to abstract block store; negation in pool mode |
| C20, C21 | utf8 helpers, string ops over byte lists | encoding of scalar-value lists; unbounded induction |
| C22, C23 | split loop, join loop | induction over the scan; negation for multi-byte delimiters |
| C24, C25 | memmem, replace loop | refinement to left-to-right scan spec |
| C26, C27 | strncmp-based comparisons | exact guards; negations |
| C28, C29 | concat, append, minus, trim | list equations |
| C30 | siphash24 over `BitVec 64`/`UInt64` | equality with spec over padded word list |
| C31 | separators insertion/removal | round trip by induction |
| C32 | to_code and readstr | round trip on a decidable class; negations outside |
| C33 | token loops with 255-byte buffer | exact bound; negation at 255 |
| C34 | parser over tokens | print/parse round trip |
| C35, C36, C37, C42 | walker, blocks, send, flow | big-step executable semantics with fuel |
| C38, C55 | `fscanf` loop of the loader with its two buffers, lookup, numbers | loading of every file of documented lines computed by induction; lookup, mirror and numbers from that; negations |
| C39, C56, C57 | moments: parts, setting, moving, comparing; `localtime`/`mktime` as Gregorian arithmetic for zones with a fixed offset | calendar facts by `omega` and finite tables; clock face specification by induction-free step laws; negations |
| C40, C41 | integer part of the arithmetic | direct; floating point is abstract |
| C43 | dispatch decision in deserialise mode | decision logic |
| C44 | the two static depth counters over object graphs | induction on the depth left; exact limit after failures; negation |
| C45, C58 | names to contents; permissions, memory, accepted bytes and folders as parameters | refinement over histories to "what was written last"; negations |
| C46 | `to_upper`, `to_lower` over bytes | list equations on encodings; negation for the empty text |
| C47 | block sizes through `int` | invariant over histories; negation at 4 GB |
| C48 | `odd`, `even` with the cast to `int` | direct with guard; negation |
| C49, C50, C51 | `ctr_clex_tok`, `ctr_clex_readstr` | progress measure; equations for words and numbers; induction over nesting |
| C52 | parser with fuel | linear fuel bound for every text (measure on the bytes left) and fuel independence |
| C53, C54 | parser | corollaries of the round trip; exact outcome for messages that are too long; negations |
| C59 | environment as the table of the C library | refinement of the history of settings; negations |
| C60, C61 | loops over `fread`, `getchar`, `fgets` | induction over the portions; safety of the growing buffer; negations |
| C62 | collecting object with texts in a store | invariant over histories; negations for shared texts |
| C63 | included programs over an abstract file system | induction over fuel, refinement to a specification without a current folder |
| C64, C65, C66 | arguments, command line, limits | direct, for all lists and numbers; negations |
| C67 | tracked blocks as a stack, evaluation as allocate-then-rewind | invariant "live blocks = tracked blocks, no repetition" over histories; negations |
| C68, C69, C70 | casts to truth, comparison of doubles as dyadic fractions, `=` of all kinds | case analysis and arithmetic of cross products; negations |
| C71, C72, C73 | text and number objects with identity in a store | refinement over histories to a specification without sharing; negations |
| C74 | translator: look-ahead, notes, loop over the tokens | simulation by induction over the tree (notes of outer messages survive inner ones), composed with the round trip of the parser; negations |
| C75 | conversion, lexer, parser, evaluator with the whitelist, put together; words of all languages | the text of a value is a regular layout of its tree (C34 gives the tree); evaluating the tree builds a copy (induction over values, frame: old objects untouched); table of languages checked by computation; negations |
| C76 | `sort:` with blocks as functions of the state; `qsort` is any decision tree that sorts | the tree is followed with the signs of the block's answers (induction over the tree); permutations of positions are permutations of items |
| C77 | the JSON plugin: both passes of the tokenizer, tokens to values, unescaping, number reading | tokens of a document as a function of the document; the tokenizer produces them (mutual induction over documents, invariant on parents), values from the tokens (mutual induction); negations |
| C78 | writing JSON: escaping, numbers, sequences, lists | the text of a value is a document that means the value (mutual induction), then C77 and C31; with the numbers of a program: C91 |
| C79 | the same, any text | invariant of the tokenizer over all texts; both passes in step; index of tokens only grows, so calls end; negations |
| C80 | `ctr_translate_generate_dicts` with `fscanf` and `strtok` modelled byte by byte | reading a rendered header gives its lines; loop by induction over both headers; composed with C38; safety over all files; negations |
| C81 | regex plugin; `regcomp`/`regexec` and the block are parameters | loop by induction on the rest of the text, against a relation that says what replacing means (shown to be unambiguous); negations |
| C82 | `CGI_decode_query` with its buffer, variable lists, `ctr_request_*`; the ways to write a field are a relation | decoder against a specification that splits at `&` and `=`; rendered fields are read back; safety for every text; negations |
| C83 | `scanattr`, `CGI_get_cookie` | rendered cookies are read back, by induction; the rest gets shorter, so the loop ends; negations |
| C84 | `read_multipart`, `copyvalue`, `scanheader`; the input is a list of bytes, `mkstemp` a parameter | `copyvalue` finds the first boundary (invariant: the matched part of the boundary plus the rest is what is left to search); parts by induction; termination for every input; negations |
| C85 | `ctr_package_add`, `ctr_internal_media_load_asset`; a package is a list of bytes | layout of the package by induction over the files added; the search by induction over the files; cut-off writes as prefixes; negations by evaluation |
| C86 | `ctr_internal_media_normalize_line_endings`, `ctr_img_text`, `ctr_img_text_get`, `ctr_media_clipboard` | the loop equals a function of the text (with the size of the memory as invariant); that function joins the lines of the specification, by induction over the lines |
| C87 | cursor, inserting, removing and keys of text fields of the media plugin | refinement: a document is two lists of symbols; each loop over bytes equals a function on symbols; a relation between memory (text, zero bytes, size of the buffer) and document is kept by every act, by induction over the history |
| C88 | `ctr_media_timer`, `ctr_internal_media_update_timers`, the reset of the array | relation between one element of the array and the time the timer is due, kept by every event; the loop over all timers is split before and behind that element; then for all timers together, by induction over the loop |
| C89 | `ctr_blob_new_set`, `ctr_blob_fill`, `ctr_blob_read`, `ctr_blob_utf8_set`, `ctr_blob_tostring` | both loops by induction, with the representation of sequences of C01; bytes and numbers are inverse on the range of a `char` |
| C90 | the walker with pins and sticky flags, `ctr_block_run`, scopes, variables, built-in operations as lists of steps on C variables | two runs, one without collector: simulation relation (same contents of everything that can be reached from scopes and C variables in use) kept by every step, by mutual induction over the run; a second induction shows that runs without collector are never undefined and which names they write, a third that pins are balanced |
| C91 | `atof` after `ctr_national_number`, `%.10f`, `ctr_international_number`; doubles as fractions with round to nearest, ties to even | the error of one rounding is at most half a unit in the 53rd binary place; below 2^19 this is less than half of 10^-10 |
| C92 | `+`, `-`, `×`, `÷`, remainder, `floor`, `ceil`, `round`, `abs` of doubles | induction over the calculation: each result is the exact whole number; a quotient of whole numbers below 2^53 is never rounded across a whole number |
| C93 | the same | induction over the calculation with an error bound in rational numbers |
| C94 | making, changing, using, drawing and collecting images, sounds, music and fonts | refinement of a world of separate things by the tables of fixed size, by induction over the history |
| C95 | boxes, `SDL_IntersectRect`, the two corrections, landing, crushing, the loop over all images; positions in units of 2^-20 pixel | the second correction separates the boxes whatever the first one did; images that do not touch do not matter |
| C96 | the limits at the end of the motion, collisions afterwards | case analysis, for every result of the motion |
| C97 | the moves of the camera, drawing of a frame | invariant of the view; a distance that gets smaller with every move |
| C98 | pressing and releasing the arrow keys, the direction of a frame | invariant over histories: every direction comes from a held key |
| C99 | the test for a click | exact description, for all places |
| C100 | which part of a picture is shown | arithmetic of the two cases |
| C101 | focus and selection with keys and clicks | invariant over histories |
| C102 | parser, lexer, walker, dispatch, scopes, blocks, and the operations of numbers, Booleans and blocks, put together from the text of a program to the variables at its end | simulation of a reference interpreter over plain values, by induction on its steps; the parser by C34, the arithmetic by C92 |
| C103 | as C102, and objects made from objects, own variables, methods, inheritance, recursive methods, errors and their blocks, texts, sequences | simulation of a reference interpreter with scopes and numbered things; the invariant relates each thing to an object of its own in the heap, so that a change of one thing changes no other |
| C104 | the translator (C74), and lexer, parser and interpreter (C102, C103) of both languages | the reference interpreters are invariant under renaming: a simulation between the runs on a tree and on the translated tree (with objects: a relation between values, texts and things); then C74 and C102, C103 for both languages |
| C105 | `ctr_clock_to_string`, `ctr_clock_to_number`, `ctr_clock_new_set`; `strftime` for the conversions that the languages use; the messages of moments in three languages | a separate relation says how a date is written; a form with all parts and one year can be read in one way (induction over the form); negation for Danish and Dutch |
| C106 | `ctr_number_bit_and`, `ctr_number_bit_or`, `ctr_number_bit_xor` on doubles converted to 32-bit two's complement | binary places of a number by division; the places of a bit vector by a lemma on two's complement; places determine the number by induction; negation |
| C107 | the part of `ctr_send_message` for words that are not understood, `ctr_map_key_value`, `ctr_map_get`, `ctr_string_fill_in` | what was told last for a word; induction over histories with the representation invariant of C11; C24 for texts; negations |
| C108 | `ctr_number_to_string_flat`, `ctr_string_in_to_number` on doubles (printing and reading of C91) | amounts without a language; texts without commas are read as in English, then C91; negations |
| C109 | `ctr_gc_sweep` with its counters, `ctr_gc_memory`, `ctr_gc_cycle` with doubles | induction along the list of objects next to C15; figures are lengths of duplicate-free lists of the objects before, after and between; the threshold by the error bound of rounding; negation |
| C110 | `ctr_number_sqrt` with doubles as dyadic numbers, `sqrt` correctly rounded | integer square root by induction over its digits; the nearest whole number and its uniqueness; error bounds of the rounded square and of the product of roots; negation |
| C111 | `ctr_program_object_exists`, `ctr_program_object_message_exists` beside the interpreter | evaluation of a name as a statement; scopes are balanced after every program (C14); induction along prototypes; negations |
| C112 | `ctr_clock_get_time`, `ctr_clock_set_time`, `ctr_clock_change` for zones with summer time; `tm_isdst` is kept or -1 as in the code | each moment behaves as one in a zone with the fixed offset of that moment (reduction to C39/C56); case split on the two candidates of `mktime`; negation |
| C113 | `ctr_internal_export_tree` over the nodes that the parser builds for a tree (`build`, `program`) | unique reading of the printed text by induction over trees with arbitrary remainders; injectivity of `build` |
| C114 | `ctr_internal_img_render_text` with the 400 kept pictures; the font library is a width function and draws what it is given | invariant of the loop over text, place and kept pictures; induction over the drawings; two negations |
| C115 | `ctr_internal_media_infercursorpos` and `ctr_internal_media_select_word` over the cursor functions of C87; widths of texts are an arbitrary monotone function | induction over lines and over the characters of the line from its end; negation |
| C116 | the reading loop of `Media use:` over a reader that splits arbitrarily, and the file types of `screen:` | induction over the reads with the invariant that memory is what was read and zeros; exact condition for screens; negation for JPEG |
| C117 | `Media sys:` with the buffer of 500 bytes; the shell reads blanks and single quotes | induction over the command and the terminal; negations |
| C118 | linking by names of types, conversion of numbers to bytes and back, calls with a sequence and with single arguments; the function is arbitrary | induction over bytes and over the parameters; table of types against the types of C; negations |
| C119 | the callback that collects pieces in a buffer over the sizes of blocks (with and without pool), and the text made of it | induction over the pieces with an invariant on the buffer; negations for all long answers |

## Trusted base

* The Lean 4.33.0 kernel (and, for re-checking, the replay done by `vcheck`).  No `sorry`, `native_decide`, `bv_decide`,
  `implemented_by`, no compiler in the proofs; `decide +kernel` evaluates closed terms inside the kernel.
* That the model says what the C code says.  The model was written by reading the sources; every definition names the
  lines it stands for.  The C semantics assumed: LP64 (`int` 32 bits, `long`/`size_t` 64 bits, `char` signed), two's
  complement; reading or writing outside an allocation, using freed memory, converting a `double` outside the range
  of the target and signed overflow are undefined behaviour (outcome `ub`).
* Parameters, i.e. not modelled and therefore not assumed to be anything in particular: floating point arithmetic
  and `printf`/`strtod` (where numbers matter they are decimal digit strings or integers), hash function inside the
  map model (any function), blocks and native methods inside the collection models (any state-changing function),
  dictionary of the language (any record satisfying the stated decidable conditions).
* `malloc`/`calloc`/`realloc` either answer fresh memory or the program ends, as the code does.
* The time functions of the C library are modelled for zones with a fixed offset, and in C112 for zones with a fixed offset in winter and one in summer (no leap seconds; a given `tm_isdst` decides about the offset in `mktime`, as in glibc).
* `Model/Float.lean` takes the arithmetic of the processor and the C library (`atof`, `%.10f`, `fmod`, `floor`, `ceil`, `round`, `fabs`) to be that of IEEE 754 doubles, correctly rounded to nearest with ties to even, as on every platform the program is built for. `Lemmas/FloatErr.lean` and `Props/Float.lean` use Mathlib (rational numbers, `linarith`, `field_simp`, `positivity`); no other file does.

### Axioms of the property theorems

No axiom is declared in this project. `#print axioms` for the theorems named in `MANIFEST.json`:

* Classical.choice, Quot.sound, propext: the 271 theorems not listed below.
* Quot.sound, propext: the 166 theorems not listed below.
* propext: the 101 theorems not listed below.
* no axiom: `Camera.C100_violated_outside`, `Keys.C101_violated_shift`, `Keys.C101_violated`, `ClockText.C105_new`, `ClockText.C105_again`, `ClockText.C105_number_violated`, `Raw.C108_number_violated`, `Assets.C117_violated_quotes`, `Assets.C117_violated_twice`, `Network.C119_violated_pool`, `File.C45_violated_name`, `Text.C46_violated`, `Clock.C57_violated`, `ClockText.C57_week_violated`, `File.C58_violated_link`, `System.C61_shell_violated`, `System.C63_folder`, `System.C66_limit_violated`, `Stage.C95_violated_back`, `Stage.C96_violated_pushed`, `Camera.C97_violated_flat`, `Camera.C97_violated_apart`, `Keys.C98_violated_turn`, `Stage.C99_violated_edge`, `Camera.C99_violated_camera`.

### Code modelled and not modelled

By function; "modelled" means that the comment of a definition under `lean/Verif/Model/` cites at least half of its lines, or names it and cites some of them (with the simplifications stated there); "partly" means that fewer lines are cited. (Up to commit 692aa09 this list also counted citations in file headers and so named some functions that no definition models.)

* `base.c` modelled: ctr_international_number, ctr_national_number, ctr_nil_to_string, ctr_nil_to_number, ctr_nil_to_boolean, ctr_object_make, ctr_object_to_code, ctr_object_to_string, ctr_object_to_number, ctr_object_to_boolean, ctr_object_equals, ctr_object_unequals, ctr_object_recursion, ctr_object_do, ctr_object_done, ctr_number_copy, ctr_object_case_do, ctr_object_message, ctr_object_on_do, ctr_object_respond, ctr_object_respond_and, ctr_object_respond_and_and, ctr_object_respond_and_and_and, ctr_object_learn_meaning, ctr_build_bool, ctr_bool_eq, ctr_bool_neq, ctr_bool_to_string, ctr_bool_break, ctr_bool_continue, ctr_bool_if_true, ctr_bool_if_false, ctr_object_if_false, ctr_object_if_true, ctr_bool_not, ctr_bool_either_or, ctr_bool_and, ctr_bool_nor, ctr_bool_or, ctr_bool_to_number, ctr_build_number_from_string, ctr_build_number_from_float, ctr_number_higherThan, ctr_number_higherEqThan, ctr_number_lowerThan, ctr_number_lowerEqThan, ctr_number_eq, ctr_number_neq, ctr_number_between, ctr_number_odd, ctr_number_even, ctr_number_add, ctr_number_inc, ctr_number_minus, ctr_number_dec, ctr_number_multiply, ctr_block_times, ctr_block_procedure, ctr_number_mul, ctr_number_divide, ctr_number_div, ctr_number_modulo, ctr_number_positive, ctr_number_negative, ctr_number_floor, ctr_number_qualify, ctr_number_qualification, ctr_number_ceil, ctr_number_round, ctr_number_abs, ctr_number_sqrt, ctr_number_bit_and, ctr_number_bit_or, ctr_number_bit_xor, ctr_internal_number_to_string, ctr_number_to_string, ctr_number_to_string_flat, ctr_number_to_boolean, ctr_build_string, ctr_build_string_from_cstring, ctr_string_eval, ctr_string_eq, ctr_string_neq, ctr_string_length, ctr_string_bytes, ctr_string_concat, ctr_string_append, ctr_string_to_code, ctr_string_from_length, ctr_string_skip, ctr_string_at, ctr_string_index_of, ctr_string_to_upper, ctr_string_to_lower, ctr_string_last_index_of, ctr_string_fill_in, ctr_string_replace_with, ctr_string_minus, ctr_string_contains, ctr_string_trim, ctr_string_to_number, ctr_string_in_to_number, ctr_string_to_boolean, ctr_string_split, ctr_string_characters, ctr_string_compare, ctr_string_before, ctr_string_before_or_same, ctr_string_after, ctr_string_after_or_same, ctr_string_hash_with_key, ctr_build_block, ctr_block_run, ctr_block_while_true, ctr_block_runIt, ctr_block_set, ctr_block_error, ctr_block_catch, ctr_block_to_string.
  Partly: ctr_object_myself.
  Not modelled: ctr_build_nil, ctr_nil_new, ctr_nil_is_nil, ctr_object_type, ctr_bool_copy, ctr_string_copy, ctr_object_is_nil, ctr_bool_new, ctr_build_number, ctr_number_new, ctr_number_pow, ctr_number_respond_to, ctr_number_sin, ctr_number_cos, ctr_number_tan, ctr_number_atan, ctr_number_log, ctr_build_empty_string, ctr_string_new.
* `citrine.c` modelled: ctr_cli_read_args, main.
  Partly: ctr_init.
  Not modelled: ctr_cli_welcome, ctr_data_blob.
* `collections.c` modelled: ctr_array_new, ctr_array_push, ctr_array_min, ctr_array_max, ctr_array_map, ctr_array_new_and_push, ctr_array_unshift, ctr_array_join, ctr_array_get, ctr_array_first, ctr_array_last, ctr_array_second_last, ctr_array_put, ctr_array_pop, ctr_array_shift, ctr_array_count, ctr_array_from_length, ctr_array_splice, ctr_array_add, ctr_array_combine, ctr_array_copy, ctr_sort_cmp, ctr_array_sort, ctr_array_to_string, ctr_array_fill, ctr_array_index_of, ctr_map_new, ctr_map_put, ctr_map_key_value, ctr_map_delete, ctr_map_keys, ctr_map_values, ctr_map_get, ctr_map_count, ctr_map_copy, ctr_map_each, ctr_map_has, ctr_map_to_string.
  Not modelled: ctr_array_type, ctr_map_type.
* `file.c` modelled: ctr_file_read, ctr_file_write, ctr_file_append, ctr_file_exists, ctr_file_delete, ctr_file_size, ctr_file_list.
  Not modelled: ctr_file_new, ctr_file_path, ctr_file_to_string.
* `lexer.c` modelled: _isspace, ctr_clex_is_delimiter, ctr_clex_load, ctr_clex_putback, ctr_clex_tok, ctr_clex_readstr, ctr_clex_forward_scan, ctr_clex_backward_scan.
  Partly: ctr_clex_tok_value, ctr_clex_tok_value_length.
  Not modelled: ctr_clex_emit_error, ctr_clex_tok_describe, ctr_clex_code_pointer, ctr_clex_set_ignore_modes, ctr_clex_move_code_pointer.
* `memory.c` modelled: ctr_heap_allocate, ctr_heap_tracker_rewind, ctr_heap_allocate_tracked, ctr_heap_reallocate_tracked, ctr_heap_free_rest, ctr_heap_free, ctr_heap_reallocate, ctr_heap_allocate_cstring, ctr_pool_init, ctr_pool_bucket, ctr_pool_alloc, ctr_pool_dealloc.
  Not modelled: ctr_heap_tracker_memoryblocknumber, ctr_heap_get_latest_tracking_id.
* `parser.c` modelled: ctr_cparse_message, ctr_cparse_messages, ctr_cparse_popen, ctr_cparse_block, ctr_cparse_ref, ctr_cparse_string, ctr_cparse_number, ctr_cparse_receiver, ctr_cparse_assignment, ctr_cparse_expr, ctr_cparse_ret, ctr_cparse_fin, ctr_cparse_statement, ctr_cparse_program, ctr_cparse_parse.
  Partly: ctr_cparse_emit_error_unexpected.
  Not modelled: ctr_cparse_create_node.
* `portability.c` modelled: nothing.
  Partly: ctr_error, ctr_internal_plugin_find.
  Not modelled: ctr_program_waitforpassword, ctr_clock_wait, putenv_old.
* `siphash.c` modelled: siphash24.
* `system.c` modelled: ctr_gc_mark, ctr_gc_sweep, ctr_gc_internal_collect, ctr_gc_cycle, ctr_gc_internal_pin, ctr_gc_collect, ctr_gc_memory, ctr_gc_setmemlimit, ctr_program_shell, ctr_program_argument, ctr_program_include, ctr_program_object_exists, ctr_program_object_message_exists, ctr_program_num_of_args, ctr_program_exit, ctr_program_get_env, ctr_program_set_env, ctr_program_waitforinput, ctr_program_input, ctr_clock_new_set, ctr_clock_get_time, ctr_clock_set_time, ctr_clock_set_zone, ctr_clock_set_year, ctr_clock_set_month, ctr_clock_set_day, ctr_clock_set_hour, ctr_clock_set_minute, ctr_clock_set_second, ctr_clock_year, ctr_clock_month, ctr_clock_day, ctr_clock_hour, ctr_clock_minute, ctr_clock_second, ctr_clock_yearday, ctr_clock_weekday, ctr_clock_time, ctr_clock_copy, ctr_clock_equals, ctr_clock_neq, ctr_clock_week, ctr_clock_to_string, ctr_clock_init, ctr_clock_change, ctr_clock_add, ctr_clock_subtract, ctr_clock_new, ctr_slurp_respond_to, ctr_slurp_glue_set, ctr_path_respond_to, ctr_path_respond_to_and, ctr_shellcommand_respond_to, ctr_shellcommand_respond_to_and, ctr_slurp_respond_to_and, ctr_slurp_obtain, ctr_slurp_to_string.
  Partly: ctr_gc_setmode, ctr_clock_get_zone, ctr_clock_to_number.
  Not modelled: ctr_program_tonumber, ctr_program_tostring, ctr_program_waitforpassword, ctr_program_flush, ctr_program_err, ctr_clock_wait, ctr_console_write, ctr_console_brk.
* `test.c` modelled: nothing.
  Not modelled: ctr_test, ctr_coretest_tokens, ctr_coretest_parser, ctr_coretest_memory, ctr_coretest, ctr_program_test.
* `translator.c` modelled: ctr_note_create, ctr_notebook_add, ctr_notebook_remove, ctr_notebook_clear_marks, ctr_note_attach, ctr_notebook_search, ctr_note_grab, ctr_note_collect, ctr_translate_generate_dicts, ctr_translate_load_dictionary, ctr_translate_translate, ctr_translate_string, ctr_translate_ref, ctr_translate_rest, ctr_translate_dot, ctr_translate_assign, ctr_translate_chain, ctr_translate_colon, ctr_translate_ret, ctr_translate_number, ctr_translate_program.
  Not modelled: ctr_translate_unload_dictionary, ctr_translate_fin.
* `utf8.c` modelled: ctr_utf8size, ctr_getutf8len, getBytesUtf8.
* `util.c` modelled: ctr_internal_export_tree, ctr_error.
  Partly: ctr_internal_plugin_find.
  Not modelled: fsize, ctr_print_error.
* `walker.c` modelled: ctr_cwlk_return, ctr_cwlk_message, ctr_cwlk_assignment, ctr_cwlk_expr, ctr_cwlk_run.
* `world.c` modelled: ctr_internal_object_find_property, ctr_internal_object_delete_property, ctr_internal_object_add_property, ctr_internal_object_set_property, ctr_internal_memmem, ctr_internal_create_object, ctr_internal_copy2number, ctr_internal_cast2number, ctr_internal_cast2string, ctr_internal_copy2string, ctr_internal_cast2bool, ctr_open_context, ctr_close_context, ctr_find, ctr_find_in_my, ctr_set, ctr_initialize_world, ctr_send_message, ctr_assign_value, ctr_assign_value_to_my, ctr_assign_value_to_local.
  Partly: ctr_internal_readf, ctr_internal_object_is_equal, ctr_internal_object_property, ctr_internal_create_func.
  Not modelled: ctr_internal_index_hash, ctr_tonum, ctr_tobool.
* `plugins/jsmn/jsmn.c` modelled: ctr_string_escape, ctr_string_unescape, ctr_jsmn_dump, ctr_json_parse, ctr_json_jsonify. Not modelled: ctr_json_new, begin.
* `plugins/jsmn/jsmn/jsmn.c` modelled: jsmn_alloc_token, jsmn_fill_token, jsmn_parse_primitive, jsmn_parse_string, jsmn_parse, jsmn_init.
* `plugins/regex/regex.c` modelled: ctr_regex_find_pattern_options_do, ctr_regex_find_pattern_do, ctr_regex_matches. Not modelled: ctr_regex_new, ctr_regex_new_set, begin.
* `plugins/request/request.c` modelled: ctr_request_string, ctr_request_array, ctr_request_file (and the six messages that call the first two). Not modelled: ctr_request_server_option, ctr_request_serve, ctr_request_serve_callback, begin, initialisation after a fork. `plugins/request/ccgi-1.2/ccgi.c` modelled: CGI_decode_query, hex, CGI_get_query, CGI_get_cookie, CGI_get_post, CGI_add_var, findvar, CGI_lookup, CGI_lookup_all, scanspaces, scanattr, scanheader, readline, copyvalue, read_multipart. Not modelled: the encoders, CGI_decode_hex/base64, crypt.c, prefork.c.
* `plugins/media/media.c` modelled: ctr_internal_media_image_maprect (images that are not turned), ctr_internal_media_detect_collisions, ctr_internal_media_image_resolvecollision, ctr_internal_media_image_resolvecollision1, the limits at the end of ctr_internal_media_image_calculate_motion, ctr_internal_media_camera, ctr_internal_media_anim_frames, ctr_internal_media_mouse_down (which images), ctr_internal_media_keydown_*/keyup_* (the player), the tables of images, sounds and fonts (ctr_img_new, ctr_img_destructor, ctr_img_img, ctr_font_new, ctr_font_destructor, ctr_sound_new_set, ctr_music_new_set, ctr_img_font), ctr_package_add, ctr_internal_media_load_asset, ctr_internal_media_normalize_line_endings, ctr_img_text, ctr_img_text_get, ctr_media_clipboard, ctr_internal_media_textinsert, ctr_img_text_del, ctr_img_text_ins, the functions that move the cursor (370-476), ctr_internal_cursormove, the keys of a text field in the loop of ctr_media_screen and in the keydown functions, the checks of ctr_internal_img_render_cursor, ctr_internal_img_render_text, ctr_internal_media_get_selection, ctr_internal_media_clear_edcache, ctr_internal_media_infercursorpos, ctr_internal_media_select_word, ctr_media_include (the reading), ctr_internal_media_determine_filetype, ctr_media_screen (whether the file is accepted), ctr_internal_media_external_command, ctr_media_system, ctr_internal_media_ffi_map_type, ctr_internal_media_ffi (the signature), ctr_internal_media_ffi_convert_value and ctr_internal_media_ffi_convert_value_back (whole numbers and double), ctr_media_ffi_respond_to, ctr_media_ffi_respond_to_and, ctr_media_ffi_respond_to_and_and, ctr_media_ffi_respond_to_and_and_and, ctr_curl_write_callback, ctr_network_basic_text_send (the answer), ctr_media_timer, ctr_internal_media_update_timers, the timers in ctr_internal_media_reset, ctr_blob_new_set, ctr_blob_fill, ctr_blob_read, ctr_blob_utf8_set, ctr_blob_tostring (without drawing and mouse). Not modelled: everything else of it.
* Not modelled at all: `plugins/*` unless listed above, `mods/*`, dictionaries in `dict/` and `i18n/` (they are parameters), `misc/`, build files.

## Disagreements between the code and the properties

The disagreements for which `MANIFEST.json` lists a theorem named `..._violated` (or one named below) are proved, with a concrete
witness. Further remarks in these paragraphs come from reading the code and are not proved. The property is kept in
`properties.jsonl` as a user would state it, and what does hold is proved as `..._partial`.

* C03–C08: after `shift`, `put:at:`, `copy`, `+`, `by:`, `find:`, `min`, `max` and `splice` use absolute positions in
  the buffer: elements get lost or positions are off by the number of shifted elements.
* C12: `each:` on a map uses freed memory if the block deletes the current entry from its third argument.
* C15: the collector does not follow prototype links, names that are objects, nor permanent objects; objects reachable
  only through them are freed while in use.
* C16: shifted-off elements of a sequence stay alive.
* C17: growing a block is not checked against the memory limit.
* C18: a pool of 300–383 bytes is accepted although its parts do not fit; released pods of a class that was once used
  up are never reused.
* C19: blocks from the pool are zeroed only if the pool was.
* C47: sizes are kept in an `int`; requests of 4 GB or more give too small blocks.
* C21: `from:length:` and `offset:` clamp in bytes but walk in characters and so read beyond texts with multi-byte
  characters.
* C23: `split:` misses a delimiter that follows a partial match (`'aab' split: 'ab'`).
* C25: the answer of `last:` goes through single precision and is wrong from position 2^24 on.
* C26, C27: comparison stops at NUL; in the order a text and a prefix of it compare as the same (not transitive).
* C46: `uppercase` of the empty text frees a literal.
* C30: zero bytes are dropped from the key of `hash:`.
* C31: showing a number of 76 digits or more overruns a buffer; reading back truncates at 40 bytes.
* C32: texts with backslashes, symbols for line break or tabulator, NUL, or quotes after byte 128 are not read back.
* C33: words and numbers of 256 bytes overrun the token buffer.
* C50: a `#` inside a word removes bytes from the word.
* C35: errors that are not texts reach the handler as `?`; an error during conversion replaces the first; a handler
  that is not a block is undefined behaviour.
* C36: `continue` in the condition of `while:` leaks into the caller, `case:do:` takes a `break` meant for the loop.
* C37: a `respond:` method on the root object can be sent for ever.
* C40, C48: conversion of large numbers to `int`.
* C42: loops over blocks without a body are not counted as steps.
* C53: a token after an argument of a keyword message that does not start another part is dropped.
* C54: a keyword part that brings the message to exactly 255 bytes is followed by a store behind the buffer.
* C38: if the last line of a dictionary gives a separator, all words are lost; the order of the lines for `:` and `:=`
  decides which byte is the parameter sign; a dictionary without `:=` makes the translator copy to address 0; notes
  (`#`) move the reading buffer permanently until translations are written behind its end.
* C39: moments at the same time in zones where one name begins with the other are equal in one direction only, and the
  other direction reads outside the text; comparing with something that is not a moment uses address 0; a month (or year)
  forward and back does not restore the end of a month.
* C57: day of the week and day of the year ignore the zone of the moment and depend on messages sent before.
* C44: every conversion to text that fails because of its depth lowers the limit for all later ones by one.
* C45: `write:` ends the name at the first NUL byte, all other messages drop NUL bytes; a full disk goes unnoticed; sizes
  of 2 GB and more are answered as negative numbers.
* C58: links without target are left out; folder and entry names that are together longer than `PATH_MAX` overrun a
  buffer (the check adds the wrong lengths).
* C59: a setting whose name has a NUL byte is stored under the name without it and looked up under the part before it; names
  with `=` are ignored when set, but found as part of other settings.
* C60: `Program ask` at the end of the input never answers: `EOF` is stored as a byte until the memory limit ends the
  program; `Program input` loops for ever if the input is closed.
* C61: a NUL byte in the output of a command loses the rest of its line; `fgets` is called on the null pointer if the command
  cannot be started.
* C62: the second word sent to `Slurp` itself (the documented example) uses the null pointer as glue; messages with two or
  three arguments are silently ignored, with more only the name is kept; `obtain` answers the object's own text, so that later
  words change texts obtained before; it does not empty the object, as its documentation says.
* C63: if the folder is renamed while an included program runs, the program stays in the folder of that program.
* C64: numbers outside the range of `int` are converted anyway.
* C65: `-x` and `-s` without a file use the null pointer; names are cut after 254 bytes; options are recognised by their first
  two bytes.
* C66: `CITRINE_MEMORY_LIMIT_MB` over 2147 overflows, a negative number for `memory:` is undefined, and the share of the pool
  may become 0.
* C67: a text evaluated to code answers code that points into the freed tree; a text that cannot be parsed keeps its memory, and
  later errors are reported without positions.
* C68: 0.5 counts as false (the number becomes an `int`), and numbers beyond `int` are undefined.
* C69: `-1 square root` is not equal to itself and is not comparable.
* C70: `1 = '1.0'` but not `'1.0' = 1`; `False = Nil` but not `Nil = False`.
* C71: the texts in `entries` are the keys of the map; a program that changes one can neither find nor delete the entry.
* C72: `on:do:` and `learn:means:` keep the text of the name; a program that changes it afterwards loses the message.
  `learn:means:` compares names only up to a NUL byte.
* C73: a number, its copies, and the program share the text of the unit.
* C74: the translator garbles programs that are written in another way than one expects: `a put: 1.5 at: 2.` loses the second
  part of the message, `x:=3.` becomes a message, parts of two statements or words in a comment are taken for one message, a
  part right after its argument is repeated, a gap before the end of a statement is dropped, texts in texts keep their marks,
  messages of 180 bytes or more end it; and a program that begins with the sign for parameters makes it read before the text.
  Not covered: a later part right after `)` or `}`.  (An earlier version of this file said that the Ukrainian dictionary has a
  message with a space in it which no program can send. That was wrong: these are thin spaces, U+2009, and the lexer takes
  them for parts of the word.)
* C75: a list that is read back has its entries in the opposite order, so its text is not the text it was read from
  (`C75_order_violated`; twice gives the first order again, `C75_twice`). The text of a number with a unit, `5 km`, is read as
  Nil without an error (`C75_unit_violated`). In five languages the words that are written are not the words that are read:
  `Elenco ← 1` in Italian, where sequences are `Serie` and lists `Elenco`; `put:` and `at:` are other words in Georgian and
  Yakut and lack a colon in Swedish; the comma is not the sign for further messages in Arabic. There sequences or lists come
  back as Nil, without an error (`C75_languages_violated`).
* C76: the answer of the block is cut to a C `int`: 0.5 and 0.25 compare as equal if the block answers their difference
  (`C76_fraction_violated`), a difference beyond `int` is undefined behaviour (`C76_large_violated`). The documentation
  (`a < b`) and the tests 211 and 293 use blocks that answer a Boolean, that is 0 or 1: whether the sequence is sorted then
  depends on the C library (`C76_boolean_violated`). The block is kept in a global variable: if it sorts another sequence, the
  rest of the outer sorting uses the inner block (`C76_nested_violated`).
* C77: `\u`, `\/` and `\f` are legal in JSON but stay as they are; `"\\n"` (a backslash and an n) makes `ctr_string_unescape`
  write beyond its memory, because overlapping pairs are counted twice when the size is calculated; in languages with a point
  between groups of digits `1.5` is read as 15
* C78: numbers are written with the separators of the language: 1000 is written `1,000` in English, which is not JSON; a unit is
  written behind the number; a sequence in a sequence is written as `{}`; in sequences backslashes are not escaped; a form
  feed is written as a backslash and a form feed, which is not JSON
* C79: `{"a"}` makes `ctr_jsmn_dump` read a token that does not exist; an error of the second pass is overlooked (a negative
  `int` is compared with a `size_t`), so `{}]` is accepted; so is `{"a":troe}` (only the first letter of a word is looked at)
* C80: `strtok` cuts the environment variable `STRINGKEYS` after its first name, so `plugins/media/dicts.sh:10` (two names)
  gets lines for texts for the first name only (`translator.c:249`). `continue` on lines for code keeps their note for the next
  word (`translator.c:230`). `fscanf` answers at least 1 even if the word is missing: an empty word or a note in the first header
  makes the loop use stale buffers and then end, with status 0. Fields of 180 bytes overflow buffers of 180 bytes.
* C81: a match of no bytes does not move `offset`, the loop never ends (`plugins/regex/regex.c:109`). `regexec` is called without
  `REG_NOTBOL` for the rest of the text. Groups are copied up to the first that took no part (`regex.c:94`). An error in the block
  does not end the loop. The length of the options is kept in 8 bits. The first argument is used without being turned into a text
  (`regex.c:82`), and `matches:` calls `regfree` after `regcomp` failed (`regex.c:186`), which POSIX leaves undefined.
* C82: values are C strings, so `%00` cuts them off (`ccgi.c:813-827`). `CONTENT_LENGTH` goes through `atoi`, and one is added
  to it for the buffer (`ccgi.c:903`): the largest `int` overflows.
* C83: a value ends at a blank, but the search for the next name does not skip to the `;` (`ccgi.c:272`), so `a=b c; d=e` gives a
  cookie named `c; d`; `x; a=b` gives a cookie named `x; a`; an unclosed quote ends the reading.
* C84: an uploaded file is kept as two values (path, name) of an ordinary field, and `ctr_request_file` only checks that there are two
  (`request.c:213`): whoever sends the field twice chooses the path the program takes for the uploaded file. `copyvalue` compares
  an `int` of `getc` with signed `char`s, so boundaries with bytes from 128 on are never found. If `mkstemp` fails the part is
  dropped silently. If the input ends within something like a boundary, these bytes are lost.
* C85: the address behind a name is written last, so a program that stops in between leaves 0 there; the search takes that for the
  end of the package (`media.c:2143`), files added later are lost, and looking for the half-written file gives `malloc` a huge
  size and reads into its null pointer (`media.c:2135-2137`). `SDL_RWFromMem` refuses size 0. The search takes the first file of a
  name. Its buffer has 500 bytes; the address of the next file is read behind the NUL of the name even if that is outside.
* C56: reading or setting a part of a moment leaves the environment variable `TZ` set to UTC if it was not set before
  (`C56_environment_violated`).
* C86: `ctr_media_clipboard` allocates `len` bytes, copies `len` bytes and passes that to `strlen` (`media.c:3214-3221`). A
  carriage return at the end of a text gets no line feed (`media.c:3086` looks at the next byte).
* C87: text fields (`media.c:370-587`): inserting and removing copy with `memcpy` between ranges that overlap
  (`C87_violated_overlap`; undefined by the C standard). Up from the second line reads before the text if the first line is
  empty (`-=3` in `439`; `C87_violated_up`). Delete removes a character of several bytes but clears one byte only (`519`),
  so that bytes come back with the next insertion (`C87_violated_delete`). Shift takes up the old end of a selection
  (`C87_violated_shift`), Home, End and Page keys keep an old selection (`C87_violated_home`), typing does not replace it
  (`C87_violated_replace`). `Image write:`, `cut` and `append:` do not adjust cursor and selection, so that memory outside
  the text is written (`C87_violated_write`, `_cut`, `_append`).
* C88: `CtrMediaTimers` has 100 elements (`media.c:192`), but the reset writes elements 1 to 100 (`277`,
  `C88_violated_begin`); timer 100 can be set and is never looked at (`1324`, `C88_violated_hundred`); the sum of ticks and
  milliseconds is stored as an `int`, so that after 2^31 milliseconds timers do not fire (`C88_violated_late`).
* C89: `Blob fill:` casts to `char` (undefined from 128 on) and `from:length:` answers bytes from 128 on as negative numbers
  (`media.c:3384`, `3497`; `C89_violated_byte`); it also stores elements that were shifted off the sequence
  (`C89_violated_shift`), and neither checks the size of the blob (`C89_violated_outside`).
* C90: the receiver of a message is pinned only if it is a literal or an answer (`walker.c:117-120`). For a variable only the
  object itself is made sticky, not what it refers to: `x get: ({ x ≔ 1. } run)` reads freed memory
  (`C90_violated_receiver`). `join:` holds the text between the elements in a C variable only while it asks the elements for
  theirs (`collections.c:213-217`, `C90_violated_glue`). `each:` never removes its pins, and the walker removes the newest ones
  only, so that a sequence stays in the scope until that is closed - the world's never is (`C90_violated_release`).
* C91: ten places are shown however large a number is, so from 524288 on the errors of the binary number become visible:
  `524288.06` is shown as `524,288.0600000001` (`C91_violated`).
* C92, C93: zero keeps a sign: `0 × -5` and `0.3 - 0.1 - 0.2` are shown as `-0` (`C92_violated`, `C93_violated`), and so is `-0`
  itself. `0.1 + 0.2` is shown as `0.3` but does not equal it.
* C94: a table of 100 images is written behind its end by the 101st image, one of 50 sounds by the 51st piece of music; the 11th font
  is Nil, and an image that is given it reads at no address; a visible image that is collected is still drawn, with a texture that
  has been destroyed; an image whose font has been collected ends the program when it writes (`C94_violated_*`).
* C95: both corrections of a collision use the box before the first one, so that an image that runs straight into a wall is moved
  back twice as far (`C95_violated_back`) and two walls may move it into a third (`C95_violated_two`); an image wider than a solid one
  is moved by the width of the solid one only and stays inside (`C95_violated_large`).
* C96: collisions come after the limits of the window, so that a platform pushes the player out of it (`C96_violated_pushed`).
* C97: the camera moves for every image that is drawn, so that images of one frame are displaced by a pixel each against each other
  (`C97_violated_apart`); the border above and below is taken from the width, so that a flat camera never finds the player
  (`C97_violated_flat`); a camera that is made larger shows what is not there (`C97_violated_larger`).
* C98: releasing any key across stops the player although the other one is held (`C98_violated_two`); in mode 2 a player with
  gravity goes up for ever (`C98_violated_stuck`); 360 degrees are passed as 0 or 359 whatever is left over (`C98_violated_turn`).
* C99: a click on the first column or row of an image is lost, hidden images are clicked on, and the camera is not taken into
  account (`C99_violated_edge`, `C99_violated_hidden`, `C99_violated_camera`).
* C100: left of the window, and after 2^31 milliseconds, the piece number is negative (`C100_violated_outside`); `reel: 0` divides by
  zero, also in C96 and C97.
* C101: a shift key begins to select also if no text field is in use; the next click reads address 0 (`C101_violated_shift`).
* C104: two names of a program that the dictionary takes to the same word (for instance because a variable already has the name of a
  translation) become one variable; the translator gives no warning, and the translated program computes something else
  (`C104_violated_clash`). Messages and texts are translated by different entries of the dictionary (`t` and `s`): if the name of a
  method has only the first, the message is translated and the method is not; the translated program does not find its own method
  (`C104_violated_method`).
- C105: `number` sends the English word `time` to the moment in every language. In Danish and Norwegian that word means hour, so the
  number of a moment is its hour; in the other languages (except English, mo, x3, xx) nobody understands it, and using a moment as a number is
  an error (`C105_number_violated`).
- C57: the week of a moment ignores its zone as well (`C57_week_violated`).
- C106: `&`, `|` and `^` convert to `int`; for 4294967296 and other numbers outside its range the behaviour is undefined (`C106_violated`).
- C107: a map takes `count: 5`, but `count` answers the number of entries (`C107_map_violated_known`); `m é 5` stores under the first byte of `é` (`C107_map_violated_character`); filling in several words of a text depends on the order if a value contains another one of the words (`C107_text_violated`).
- C108: numbers of more than 40 digits and fractions of more than ten places are not read back from their raw texts (`C108_violated`); in Dutch, `number` reads the raw text of 1,5 as 15 (`C108_number_violated`).
- C109: the figures of `memory` are those of the last collection, also when objects have been made since (`C109_violated`).
- C110: the square of the square root of `262147` is shown as `262,146.9999999999` (`C110_violated`).
- C111: `Program List: 'on:do:'` (a message every list understands) says False: only the methods of the object itself are looked at (`C111_violated`); `find:` does not see variables of blocks (`C111_violated_local`).
- C112: `ctr_clock_change` keeps `tm_isdst` of the old moment, so moving a moment over a change of the clocks shifts the time of day: noon of 30 March 2024 in Amsterdam plus one day is 13:00, and 1 July 00:30 plus six months is 31 December 23:30 (`C112_violated`). `ctr_clock_set_time` sets it to -1 and is right (`C112_set`).
- C114: kept pictures of lines are found by text and selection only, so a field is drawn with the font and colours of another field that showed the same line (`C114_violated`), until a click, `ink:` or a new screen makes the program forget them. The index into the 400 pictures is the scroll position modulo 200 plus the line, without a check; with more than 200 visible lines the program writes outside of the table (`C114_violated_bounds`).
- C115: the loop that looks for the nearest place ends at the beginning of the line without comparing, so a click on the right half of the first character of a line puts the cursor before it (`C115_violated`).
- C116: the file type compares the first 20 bytes with the two bytes of a JPEG marker by `strcmp`, which only succeeds if a zero byte follows, so no JPEG picture can be a screen (`C116_violated`).
- C117: a command with single quotes is cut into pieces by the quotes around it (`C117_violated_quotes`); a command that ends with an error in the terminal is run again without the terminal (`C117_violated_twice`).
- C118: the loop over the arguments of a linked function ends one too late (`i > nargs`), so one number too many follows a null pointer; too few numbers leave uninitialised pointers (`C118_violated_more`, `C118_violated_fewer`, both for every signature). Numbers are not checked against the type of the parameter (`C118_violated_range`).
- C119: the buffer for an answer from the network has no room for the zero byte that ends it, so the text is read beyond the end of the buffer for every answer of ten or more bytes, except 24, 56 and 120 (`C119_violated`), and with a pool for every answer of more than 120 bytes (`C119_violated_long`).
