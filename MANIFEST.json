{
 "claims": [
  {
   "property": "C01",
   "status": "proved",
   "theorems": [
    "Verif.Props.Seq.C01_deque_refinement",
    "Verif.Props.Seq.C01_always_a_list"
   ],
   "note": "All histories of sequence messages; put:at: is C03."
  },
  {
   "property": "C02",
   "status": "proved",
   "theorems": [
    "Verif.Props.Seq.C02_memory_safe",
    "Verif.Props.Seq.C02_traversals_safe"
   ],
   "note": "All histories incl. put:at:, number arguments in the range for which the C conversion is defined."
  },
  {
   "property": "C03",
   "status": "partial",
   "theorems": [
    "Verif.Props.Seq.C03_put_position_partial",
    "Verif.Props.Seq.C03_violated",
    "Verif.Props.Seq.C03_violated_loses_element",
    "Verif.Props.Seq.C03_after_shift",
    "Verif.Props.Seq.C03_bad_index"
   ],
   "note": "Code violates the full statement after a shift; negation proved, guarded version proved, exact behaviour proved."
  },
  {
   "property": "C04",
   "status": "partial",
   "theorems": [
    "Verif.Props.Seq.C04_copy_partial",
    "Verif.Props.Seq.C04_add_partial",
    "Verif.Props.Seq.C04_violated",
    "Verif.Props.Seq.C04_copy_after_shift",
    "Verif.Props.Seq.C04_add_after_shift"
   ],
   "note": "Code violates the full statement after a shift."
  },
  {
   "property": "C05",
   "status": "partial",
   "theorems": [
    "Verif.Props.Map.C05_by_partial",
    "Verif.Props.Map.C05_violated"
   ],
   "note": "Code violates the full statement after a shift of the receiver; negation proved."
  },
  {
   "property": "C06",
   "status": "partial",
   "theorems": [
    "Verif.Props.Seq.C06_find_partial",
    "Verif.Props.Seq.C06_violated",
    "Verif.Props.Seq.C06_after_shift"
   ],
   "note": "Code violates the full statement after a shift."
  },
  {
   "property": "C07",
   "status": "partial",
   "theorems": [
    "Verif.Props.Extreme.C07_min_max_partial",
    "Verif.Props.Extreme.C07_violated",
    "Verif.Props.Extreme.C07_empty",
    "Verif.Props.Extreme.C07_after_shift",
    "Verif.Props.Extreme.C07_impossible_first"
   ],
   "note": "Code violates the full statement after a shift (negation proved, exact behaviour proved); the result of an impossible calculation in first place hides all others."
  },
  {
   "property": "C08",
   "status": "partial",
   "theorems": [
    "Verif.Props.Seq.C08_from_length",
    "Verif.Props.Seq.C08_splice_partial",
    "Verif.Props.Seq.C08_splice_violated"
   ],
   "note": "from:length: in full; replace:length:with: needs an unshifted replacement."
  },
  {
   "property": "C09",
   "status": "proved",
   "theorems": [
    "Verif.Props.Seq.C09_fill"
   ],
   "note": ""
  },
  {
   "property": "C10",
   "status": "proved",
   "theorems": [
    "Verif.Props.Seq.C10_each",
    "Verif.Props.Seq.C10_each_const"
   ],
   "note": "Blocks that do not shift/prepend on the receiver while it is iterated."
  },
  {
   "property": "C100",
   "status": "partial",
   "theorems": [
    "Verif.Props.Camera.C100_moving_partial",
    "Verif.Props.Camera.C100_time_partial",
    "Verif.Props.Camera.C100_rest",
    "Verif.Props.Camera.C100_violated_outside",
    "Verif.Props.Camera.C100_violated_zero",
    "Verif.Props.Camera.C100_violated"
   ],
   "note": "Proved for places in or right of the window, and for 24 days. Negations proved: left of the window and after 24 days a part outside the picture is taken; no pieces or a rate of 0 are undefined."
  },
  {
   "property": "C101",
   "status": "partial",
   "theorems": [
    "Verif.Props.Keys.C101_safe_partial",
    "Verif.Props.Keys.C101_violated_shift",
    "Verif.Props.Keys.C101_violated"
   ],
   "note": "Proved for all histories in which no shift key is pressed before a text field has been clicked on. Negation proved: shift and a click."
  },
  {
   "property": "C102",
   "status": "proved",
   "theorems": [
    "Verif.Props.Program.C102",
    "Verif.Props.Program.C102_world",
    "Verif.Props.Program.C102_euclid"
   ],
   "note": "The meaning of programs is a reference interpreter over plain values (Verif.Spec.Program) which knows nothing of objects or a heap; at most 299 nested calls, 38 arguments, whole numbers up to 2^53. It is undefined where the program ends in an error and for the rest of the language. The collector is left out here: see C90."
  },
  {
   "property": "C103",
   "status": "proved",
   "theorems": [
    "Verif.Props.Objects.C103",
    "Verif.Props.Objects.C103_world"
   ],
   "note": "The meaning of programs is a reference interpreter over plain values, scopes and numbered things (Verif.Spec.Objects) which knows nothing of addresses, prototypes, hidden properties or a pending error; at most 299 nested calls, 300 methods at a time, 38 arguments, whole numbers up to 2^53. It is undefined for the rest of the language, for instance for messages nobody understands, fractions, conversions between types and methods of the built-in prototypes that are replaced. The collector is left out here: see C90."
  },
  {
   "property": "C104",
   "status": "partial",
   "theorems": [
    "Verif.Props.Retold.C104_partial",
    "Verif.Props.RetoldObjects.C104_objects_partial",
    "Verif.Props.Retold.C104_violated_clash",
    "Verif.Props.RetoldObjects.C104_violated_method"
   ],
   "note": "Translator (C74), parser (C34) and interpreter (C102, C103) of both languages linked: for every program of the C102 and of the C103 language that is laid out regularly and every dictionary that keeps its names apart and its names of methods together. Names that are not kept apart are merged without warning, and a method whose name is a text without translation is no longer found (negations proved). Programs with comments and with other layouts are missing."
  },
  {
   "property": "C105",
   "status": "partial",
   "theorems": [
    "Verif.Props.ClockText.C105_forms",
    "Verif.Props.ClockText.C105_text",
    "Verif.Props.ClockText.C105_languages",
    "Verif.Props.ClockText.C105_apart",
    "Verif.Props.ClockText.C105_new",
    "Verif.Props.ClockText.C105_again",
    "Verif.Props.ClockText.C105_number_partial",
    "Verif.Props.ClockText.C105_number_violated"
   ],
   "note": "The texts are right and tell moments apart in all languages of i18n/. The number is right only in languages that say \"time\"; in Danish and Norwegian it is the hour, in nearly all others no number (negation proved). strftime is modelled for the conversions in use; how years are written is a parameter."
  },
  {
   "property": "C106",
   "status": "partial",
   "theorems": [
    "Verif.Props.Bits.C106_partial",
    "Verif.Props.Bits.C106_determined",
    "Verif.Props.Bits.C106_fraction",
    "Verif.Props.Bits.C106_violated"
   ],
   "note": "For numbers whose whole part is in the range of int; outside it the behaviour is undefined (negation proved)."
  },
  {
   "property": "C107",
   "status": "partial",
   "theorems": [
    "Verif.Props.Respond.C107_map_partial",
    "Verif.Props.Respond.C107_map_violated_known",
    "Verif.Props.Respond.C107_map_violated_character",
    "Verif.Props.Respond.C107_text",
    "Verif.Props.Respond.C107_slot",
    "Verif.Props.Respond.C107_text_violated",
    "Verif.Props.Respond.C107_longer",
    "Verif.Props.Respond.C107_longest"
   ],
   "note": "Maps: for words that maps do not know with or without the sign; words they know and binary messages of several bytes violate it (negations proved). Texts: one word; several words depend on the order (negation proved). With four or more arguments the arguments are lost (C107_longest). Only the conversion of keys that are texts is modelled."
  },
  {
   "property": "C108",
   "status": "partial",
   "theorems": [
    "Verif.Props.Raw.C108_partial",
    "Verif.Props.Raw.C108_across",
    "Verif.Props.Raw.C108_violated",
    "Verif.Props.Raw.C108_number_violated"
   ],
   "note": "For amounts of at most ten places below 524288 and whole numbers up to 2^53. Numbers of more than 40 digits and fractions of more than ten places are not read back (negation proved); the message number does not read raw texts in languages where the point separates thousands (C108_number_violated)."
  },
  {
   "property": "C109",
   "status": "partial",
   "theorems": [
    "Verif.Props.Report.C109_partial",
    "Verif.Props.Report.C109_live",
    "Verif.Props.Report.C109_cycle",
    "Verif.Props.Report.C109_violated"
   ],
   "note": "For every legal program of fewer than 2^30 steps the figures are those of the last collection; without shifted-off elements the figure of what was left is the number of objects the program can get hold of. That the figures tell about the present is disproved (C109_violated): they stay until the next collection. The amount of memory in use is a parameter (C17 is about it)."
  },
  {
   "property": "C11",
   "status": "proved",
   "theorems": [
    "Verif.Props.Map.C11_map_refinement",
    "Verif.Props.Map.C11_answers_determined"
   ],
   "note": "Pointer-level model of the doubly linked property list, for every hash function."
  },
  {
   "property": "C110",
   "status": "partial",
   "theorems": [
    "Verif.Props.Root.C110_square",
    "Verif.Props.Root.C110_perfect",
    "Verif.Props.Root.C110_partial",
    "Verif.Props.Root.C110_shown",
    "Verif.Props.Root.C110_nearest",
    "Verif.Props.Root.C110_negative",
    "Verif.Props.Root.C110_violated"
   ],
   "note": "sqrt of the C library is taken to be the nearest double, as IEEE 754 demands. The root of a square is proved for all whole numbers below 2^53. The square of a root is shown as the number below 2^18; above it is disproved (262147, C110_violated). Not covered: square roots of amounts with decimals in ten places, except that they are the nearest double."
  },
  {
   "property": "C111",
   "status": "partial",
   "theorems": [
    "Verif.Props.Exists.C111_partial",
    "Verif.Props.Exists.C111_inner",
    "Verif.Props.Exists.C111_message",
    "Verif.Props.Exists.C111_answer",
    "Verif.Props.Exists.C111_understands",
    "Verif.Props.Exists.C111_violated",
    "Verif.Props.Exists.C111_violated_local"
   ],
   "note": "Proved for names asked for at the top of a program, after every program; inside blocks True is right, False is not (C111_violated_local). For messages True is right; False only tells about the methods of the object itself, not those it has from others (C111_violated). Arguments are texts; names from plugins that are loaded on demand are not covered."
  },
  {
   "property": "C112",
   "status": "partial",
   "theorems": [
    "Verif.Props.Summer.C112_read",
    "Verif.Props.Summer.C112_set",
    "Verif.Props.Summer.C112_move",
    "Verif.Props.Summer.C112_shift",
    "Verif.Props.Summer.C112_partial",
    "Verif.Props.Summer.C112_violated"
   ],
   "note": "Reading and setting are proved in full, also that adding and subtracting seconds to weeks restores the moment. The time of day stays only if the offset of the zone is the same before and after (C112_partial); otherwise it is off by the difference (C112_shift, C112_violated). The two offsets of a zone are fixed; mktime is modelled as glibc does it: a given tm_isdst decides about the offset."
  },
  {
   "property": "C113",
   "status": "proved",
   "theorems": [
    "Verif.Props.Export.C113"
   ],
   "note": "For all trees. The parts of the names of messages do not contain the parameter sign, which the lexer never puts into names (C50_partial). The nodes that the parser builds are modelled by build; lengths are unbounded."
  },
  {
   "property": "C114",
   "status": "partial",
   "theorems": [
    "Verif.Props.Render.C114_partial",
    "Verif.Props.Render.C114_violated",
    "Verif.Props.Render.C114_violated_bounds",
    "Verif.Props.Render.C114_full_false"
   ],
   "note": "Bytes, lines, selection and places hold for every history (C114_partial), fonts and colours only if all fields have the same: kept pictures are found by text and selection alone (C114_violated); they are forgotten after a click, ink: and a new screen, and then fonts and colours are right (C114_partial). If more than 200 lines are visible, the table of kept pictures is left (C114_violated_bounds). Every carriage return is followed by a line feed; texts contain no zero bytes; the library draws a text as given."
  },
  {
   "property": "C115",
   "status": "partial",
   "theorems": [
    "Verif.Props.Click.C115_partial",
    "Verif.Props.Click.C115_below",
    "Verif.Props.Click.C115_lines",
    "Verif.Props.Click.C115_word",
    "Verif.Props.Click.C115_violated",
    "Verif.Props.Click.C115_full_false"
   ],
   "note": "Line, character boundaries, double clicks and clicks below the text are proved in full. Nearest place: for clicks left of the text or beyond the first character of the line; in the first character the cursor is always put before it (C115_violated). The widths of texts are any function that does not shrink when text is added."
  },
  {
   "property": "C116",
   "status": "partial",
   "theorems": [
    "Verif.Props.Assets.C116_use",
    "Verif.Props.Assets.C116_shown",
    "Verif.Props.Assets.C116_png",
    "Verif.Props.Assets.C116_refused_partial",
    "Verif.Props.Assets.C116_violated",
    "Verif.Props.Assets.C116_full_false"
   ],
   "note": "Programs: proved in full. Screens: which files are shown is proved exactly (C116_shown); PNG always, JPEG never (C116_violated: the signature is compared as a whole text, so it only matches when a zero byte follows). Decoding the picture is left to SDL."
  },
  {
   "property": "C117",
   "status": "partial",
   "theorems": [
    "Verif.Props.Assets.C117_partial",
    "Verif.Props.Assets.C117_fits",
    "Verif.Props.Assets.C117_violated_quotes",
    "Verif.Props.Assets.C117_violated_twice",
    "Verif.Props.Assets.C117_full_false"
   ],
   "note": "Commands without single quotes that succeed: run once and received whole. No overflow for any command and terminal (C117_fits). Violated for commands with single quotes and for commands that fail, which are run again without a terminal. The shell is read for blanks and single quotes only; Windows is not modelled."
  },
  {
   "property": "C118",
   "status": "partial",
   "theorems": [
    "Verif.Props.Foreign.C118_types",
    "Verif.Props.Foreign.C118_partial",
    "Verif.Props.Foreign.C118_double",
    "Verif.Props.Foreign.C118_void",
    "Verif.Props.Foreign.C118_twenty",
    "Verif.Props.Foreign.C118_violated_more",
    "Verif.Props.Foreign.C118_violated_fewer",
    "Verif.Props.Foreign.C118_violated_large",
    "Verif.Props.Foreign.C118_violated_range",
    "Verif.Props.Foreign.C118_full_false"
   ],
   "note": "Calls with one suitable number for each parameter: proved for all signatures of whole numbers and double, all functions and numbers; whole answers up to 2^53. Violated: every call with too many (up to 20) or too few numbers is undefined behaviour, as are numbers out of range; whole answers above 2^53 are rounded. float, pointers and structures are not modelled; libffi is taken at its documentation, on Linux with 64 bits."
  },
  {
   "property": "C119",
   "status": "partial",
   "theorems": [
    "Verif.Props.Network.C119_collected",
    "Verif.Props.Network.C119_partial",
    "Verif.Props.Network.C119_violated",
    "Verif.Props.Network.C119_violated_long",
    "Verif.Props.Network.C119_violated_zero",
    "Verif.Props.Network.C119_violated_pool",
    "Verif.Props.Network.C119_full_false"
   ],
   "note": "Collecting the pieces is proved in full. Delivered as sent: answers of at most nine bytes (and of 24, 56 and 120 bytes without a pool). Violated for all other answers: the buffer is exactly as long as the answer and read up to a zero byte that is not there. The transfer itself is left to libcurl."
  },
  {
   "property": "C12",
   "status": "partial",
   "theorems": [
    "Verif.Props.Map.C12_enumeration",
    "Verif.Props.Map.C12_has",
    "Verif.Props.Map.C12_each_partial",
    "Verif.Props.Map.C12_each_violated"
   ],
   "note": "entries/values/count in full; each: for blocks that leave their third argument alone. With a block that deletes from it the code reads freed memory (negation proved)."
  },
  {
   "property": "C13",
   "status": "proved",
   "theorems": [
    "Verif.Props.Interp.C13",
    "Verif.Props.Interp.C13_entry",
    "Verif.Props.Interp.C13_statements",
    "Verif.Props.Interp.C13_properties",
    "Verif.Props.Interp.C13_balanced"
   ],
   "note": "Refinement to a stack of partial functions for every sequence of scope operations; every evaluation leaves the open scopes as they were."
  },
  {
   "property": "C14",
   "status": "proved",
   "theorems": [
    "Verif.Props.Interp.C14",
    "Verif.Props.Interp.C14_limit"
   ],
   "note": "Every program, every environment of primitives that does not itself touch the tables. Covers the table of scopes and the stack of running methods."
  },
  {
   "property": "C15",
   "status": "partial",
   "theorems": [
    "Verif.Props.GC.C15_collect_partial",
    "Verif.Props.GC.C15_program_partial",
    "Verif.Props.GC.C15_violated_link",
    "Verif.Props.GC.C15_violated_name",
    "Verif.Props.GC.C15_violated_permanent"
   ],
   "note": "Proved for every heap and every program, for what is reached through elements, properties and methods. The code violates the full statement: prototype links are not followed, the marker does not look inside objects that serve as names, and permanent objects are not roots."
  },
  {
   "property": "C16",
   "status": "partial",
   "theorems": [
    "Verif.Props.GC.C16_collect",
    "Verif.Props.GC.C16_again",
    "Verif.Props.GC.C16_program_partial",
    "Verif.Props.GC.C16_violated"
   ],
   "note": "Exact for every heap when shifted-off slots count as elements; with shift the code keeps elements the program cannot reach (witness)."
  },
  {
   "property": "C17",
   "status": "partial",
   "theorems": [
    "Verif.Props.Mem.C17_ledger",
    "Verif.Props.Mem.C17_zero",
    "Verif.Props.Mem.C17_release_all",
    "Verif.Props.Mem.C17_limit",
    "Verif.Props.Mem.C17_limit_partial",
    "Verif.Props.Mem.C17_violated"
   ],
   "note": "Ledger exact for every history of requests below 2^32-9 bytes; growing a block is not checked against the limit (negation proved)."
  },
  {
   "property": "C18",
   "status": "partial",
   "theorems": [
    "Verif.Props.Mem.C18_safe_partial",
    "Verif.Props.Mem.C18_apart_partial",
    "Verif.Props.Mem.C18_inside_partial",
    "Verif.Props.Mem.C18_served",
    "Verif.Props.Mem.C18_reuse_partial",
    "Verif.Props.Mem.C18_violated",
    "Verif.Props.Mem.C18_reuse_violated"
   ],
   "note": "Holds for pools of at least 384 bytes; accepted pools of 300-383 bytes hand out memory outside the pool (negation proved); released pods of a class that was once used up are never reused (negation proved)."
  },
  {
   "property": "C19",
   "status": "partial",
   "theorems": [
    "Verif.Props.Mem.C19_contents",
    "Verif.Props.Mem.C19_zeroed_partial",
    "Verif.Props.Mem.C19_violated"
   ],
   "note": "Contents preserved for every history; new blocks are zero only if the pool memory was zero (negation proved)."
  },
  {
   "property": "C20",
   "status": "proved",
   "theorems": [
    "Verif.Props.Text.C20_length",
    "Verif.Props.Text.C20_bytes",
    "Verif.Props.Text.C20_characters"
   ],
   "note": "For every list of Unicode scalar values, encoded by an independent arithmetic UTF-8 encoder."
  },
  {
   "property": "C21",
   "status": "partial",
   "theorems": [
    "Verif.Props.Text.C21_violated",
    "Verif.Props.Text.C21_substring_partial",
    "Verif.Props.Text.C21_ascii",
    "Verif.Props.Text.C21_exact",
    "Verif.Props.Text.C21_offset_partial",
    "Verif.Props.Text.C21_character_partial"
   ],
   "note": "Code reads outside the text when a range reaches past the end of a text with multi-byte characters (negation proved, exact extent proved)."
  },
  {
   "property": "C22",
   "status": "proved",
   "theorems": [
    "Verif.Props.Text.C22_split_join",
    "Verif.Props.Text.C22_join"
   ],
   "note": "All bytes, all delimiters."
  },
  {
   "property": "C23",
   "status": "partial",
   "theorems": [
    "Verif.Props.Text.C23_violated",
    "Verif.Props.Text.C23_split_partial",
    "Verif.Props.Text.C23_exact"
   ],
   "note": "Code misses delimiters; proved that it cuts at every delimiter iff the delimiter repeats one byte."
  },
  {
   "property": "C24",
   "status": "proved",
   "theorems": [
    "Verif.Props.Text.C24_replace",
    "Verif.Props.Text.C24_replace_characters",
    "Verif.Props.Text.C24_no_occurrence",
    "Verif.Props.Text.C24_first_occurrence"
   ],
   "note": "Includes block bounds of the growing destination buffer."
  },
  {
   "property": "C25",
   "status": "partial",
   "theorems": [
    "Verif.Props.Text.C25_find",
    "Verif.Props.Text.C25_contains",
    "Verif.Props.Text.C25_empty_pattern",
    "Verif.Props.Text.C25_last_partial",
    "Verif.Props.Text.C25_rounding",
    "Verif.Props.Text.C25_violated"
   ],
   "note": "last: computes in single precision; wrong beyond 2^24 characters (negation proved)."
  },
  {
   "property": "C26",
   "status": "partial",
   "theorems": [
    "Verif.Props.Text.C26_violated",
    "Verif.Props.Text.C26_equality_partial",
    "Verif.Props.Text.C26_always"
   ],
   "note": "strncmp stops at NUL bytes (negation proved)."
  },
  {
   "property": "C27",
   "status": "partial",
   "theorems": [
    "Verif.Props.Text.C27_violated",
    "Verif.Props.Text.C27_consistent",
    "Verif.Props.Text.C27_compare_exact",
    "Verif.Props.Text.C27_total_order_partial"
   ],
   "note": "A text and its prefix compare as the same (negation proved); exact answer proved for NUL-free texts."
  },
  {
   "property": "C28",
   "status": "proved",
   "theorems": [
    "Verif.Props.Text.C28_concat",
    "Verif.Props.Text.C28_minus",
    "Verif.Props.Text.C28_concat_characters"
   ],
   "note": "append: stores the same bytes in the receiver."
  },
  {
   "property": "C29",
   "status": "proved",
   "theorems": [
    "Verif.Props.Text.C29_trim",
    "Verif.Props.Text.C29_trim_twice"
   ],
   "note": "C locale."
  },
  {
   "property": "C30",
   "status": "partial",
   "theorems": [
    "Verif.Props.Sip.C30_function",
    "Verif.Props.Sip.C30_safe",
    "Verif.Props.Sip.C30_partial",
    "Verif.Props.Sip.C30_violated"
   ],
   "note": "The hash function equals the published SipHash-2-4 for every text and key; `hash:` drops zero bytes of the key first, so keys with a zero byte among the first 16 give another hash or an error (negation proved)."
  },
  {
   "property": "C31",
   "status": "partial",
   "theorems": [
    "Verif.Props.Num.C31_partial",
    "Verif.Props.Num.C31_number_partial",
    "Verif.Props.Num.C31_overflow",
    "Verif.Props.Num.C31_violated"
   ],
   "note": "Round trip for every plain number and every pair of one byte separators, as far as the buffers reach; from 76 digits on showing a number writes outside its buffer, from 41 bytes on reading back loses digits (negations proved)."
  },
  {
   "property": "C32",
   "status": "partial",
   "theorems": [
    "Verif.Props.Lexer.C32_partial",
    "Verif.Props.Lexer.C32_violated"
   ],
   "note": "Read back from any position in a program and for every dictionary with usable quotes. Texts with NUL, backslashes, the symbols for line break/tabulator, quotes after byte 128 or a piece of a quote at the end fail (negations proved)."
  },
  {
   "property": "C33",
   "status": "partial",
   "theorems": [
    "Verif.Props.Lexer.C33_partial",
    "Verif.Props.Lexer.C33_literals",
    "Verif.Props.Lexer.C33_violated"
   ],
   "note": "No overrun for any sequence of lexer calls on programs without 256 consecutive non-blank bytes; names and numbers of 256 bytes are written beyond the buffer (negation proved)."
  },
  {
   "property": "C34",
   "status": "proved",
   "theorems": [
    "Verif.Props.Parser.C34",
    "Verif.Props.Parser.C34_unambiguous",
    "Verif.Props.Parser.C34_ranks"
   ],
   "note": "Round trip: every tree of the grammar, written in any layout with any usable dictionary, is parsed into that tree; every accepted tree respects the ranks."
  },
  {
   "property": "C35",
   "status": "partial",
   "theorems": [
    "Verif.Props.Interp.C35_silent",
    "Verif.Props.Interp.C35_send",
    "Verif.Props.Interp.C35_handler",
    "Verif.Props.Interp.C35_nontext_violated",
    "Verif.Props.Interp.C35_conversion_violated",
    "Verif.Props.Interp.C35_handler_violated"
   ],
   "note": "Silence proved for every program; the nearest handler gets the error if the error is a text. Violated: errors that are not texts reach the handler as '?', errors during conversions are replaced, a handler that is not a block is undefined behaviour (negations proved)."
  },
  {
   "property": "C36",
   "status": "partial",
   "theorems": [
    "Verif.Props.Interp.C36_times",
    "Verif.Props.Interp.C36_each",
    "Verif.Props.Interp.C36_while_partial",
    "Verif.Props.Interp.C36_branch",
    "Verif.Props.Interp.C36_branch_not",
    "Verif.Props.Interp.C36_branch_plain",
    "Verif.Props.Interp.C36_while_violated",
    "Verif.Props.Interp.C36_case_violated"
   ],
   "note": "Refinement of times:, each: and while: to small loop specifications. A continue in the condition of while: leaks, case:do: takes a break for itself (negations proved)."
  },
  {
   "property": "C37",
   "status": "partial",
   "theorems": [
    "Verif.Props.Interp.C37_literals",
    "Verif.Props.Interp.C37_native",
    "Verif.Props.Interp.C37_method",
    "Verif.Props.Interp.C37_respond",
    "Verif.Props.Interp.C37_recursive",
    "Verif.Props.Interp.C37_recursive_once",
    "Verif.Props.Interp.C37_violated"
   ],
   "note": "Every chain, method table and stack of running methods. A respond: method on the root object that sends an unknown message with four arguments is never answered (non-termination proved)."
  },
  {
   "property": "C38",
   "status": "partial",
   "theorems": [
    "Verif.Props.Trans.C38_load",
    "Verif.Props.Trans.C38_separators",
    "Verif.Props.Trans.C38_partial",
    "Verif.Props.Trans.C38_unknown",
    "Verif.Props.Trans.C38_distinct",
    "Verif.Props.Trans.C38_mirror_partial",
    "Verif.Props.Trans.C38_lost",
    "Verif.Props.Trans.C38_violated_order",
    "Verif.Props.Trans.C38_violated_sign",
    "Verif.Props.Trans.C38_violated_assign",
    "Verif.Props.Trans.C38_violated_notes"
   ],
   "note": "Every file of lines of the documented form. Holds if the last line is a word line and the parameter signs translate each other; otherwise all words are lost, or messages cannot be translated; a missing line for := and long notes are undefined behaviour (negations proved)."
  },
  {
   "property": "C39",
   "status": "partial",
   "theorems": [
    "Verif.Props.Clock.C39_equals",
    "Verif.Props.Clock.C39_partial",
    "Verif.Props.Clock.C39_violated",
    "Verif.Props.Clock.C39_violated_other",
    "Verif.Props.Clock.C39_unknown",
    "Verif.Props.Clock.C39_move_partial",
    "Verif.Props.Clock.C39_move_violated",
    "Verif.Props.Clock.C39_months_partial"
   ],
   "note": "Fixed-offset zones. Comparing is an equivalence if no zone is a proper beginning of another, else it is asymmetric and reads outside the text; comparing with a non-moment is undefined (negations proved). Seconds to weeks always restore; months and years restore when the day exists in the month reached (negation proved otherwise)."
  },
  {
   "property": "C40",
   "status": "partial",
   "theorems": [
    "Verif.Props.Num.C40_partial",
    "Verif.Props.Num.C40_reach",
    "Verif.Props.Num.C40_violated"
   ],
   "note": "Bounds outside the range of int or more than 2147483647 apart are undefined behaviour (negation proved)."
  },
  {
   "property": "C41",
   "status": "proved",
   "theorems": [
    "Verif.Props.Num.C41"
   ],
   "note": "Floating point division itself is a parameter."
  },
  {
   "property": "C42",
   "status": "partial",
   "theorems": [
    "Verif.Props.Interp.C42_partial",
    "Verif.Props.Interp.C42_exit",
    "Verif.Props.Interp.C42_violated"
   ],
   "note": "At most 2000 expressions in every completed run; loops over blocks without a body never end because they do not count steps (non-termination proved)."
  },
  {
   "property": "C43",
   "status": "proved",
   "theorems": [
    "Verif.Props.Interp.C43"
   ],
   "note": "Every text, parser result and environment."
  },
  {
   "property": "C44",
   "status": "partial",
   "theorems": [
    "Verif.Props.Nest.C44_ends",
    "Verif.Props.Nest.C44_partial",
    "Verif.Props.Nest.C44_violated"
   ],
   "note": "Every object graph, cyclic ones included. Each failed conversion takes one level away from all later ones (negation proved, exact limit after n failures); holds while no conversion failed. Elements with own meanings for the messages are not modelled."
  },
  {
   "property": "C45",
   "status": "partial",
   "theorems": [
    "Verif.Props.File.C45_partial",
    "Verif.Props.File.C45_refused",
    "Verif.Props.File.C45_violated_name",
    "Verif.Props.File.C45_violated_full",
    "Verif.Props.File.C45_violated_size"
   ],
   "note": "Every history of messages to any files. Names with NUL bytes, full disks (no error is raised) and files of 2 GB or more violate it (negations proved). Folders used as files and other processes are not modelled."
  },
  {
   "property": "C46",
   "status": "partial",
   "theorems": [
    "Verif.Props.Text.C46_violated",
    "Verif.Props.Text.C46_case_partial"
   ],
   "note": "uppercase/lowercase of an empty text frees a non-heap pointer (negation proved)."
  },
  {
   "property": "C47",
   "status": "partial",
   "theorems": [
    "Verif.Props.Mem.C47_size_partial",
    "Verif.Props.Mem.C47_violated",
    "Verif.Props.Mem.C47_realloc_violated"
   ],
   "note": "Sizes pass through an int; requests of 4 GB yield too small blocks (negation proved)."
  },
  {
   "property": "C48",
   "status": "partial",
   "theorems": [
    "Verif.Props.Num.C48_partial",
    "Verif.Props.Num.C48_violated"
   ],
   "note": "Numbers outside the range of int are undefined behaviour (negation proved)."
  },
  {
   "property": "C49",
   "status": "proved",
   "theorems": [
    "Verif.Props.Lexer.C49_progress",
    "Verif.Props.Lexer.C49_ends"
   ],
   "note": "Every dictionary with non-empty keywords."
  },
  {
   "property": "C50",
   "status": "partial",
   "theorems": [
    "Verif.Props.Lexer.C50_partial",
    "Verif.Props.Lexer.C50_number",
    "Verif.Props.Lexer.C50_violated"
   ],
   "note": "Names with # inside lose bytes: ab#cd is the name acd (negation proved)."
  },
  {
   "property": "C51",
   "status": "proved",
   "theorems": [
    "Verif.Props.Lexer.C51"
   ],
   "note": "Bodies without backslashes and line break/tabulator symbols; every nesting depth."
  },
  {
   "property": "C52",
   "status": "proved",
   "theorems": [
    "Verif.Props.Parser.C52",
    "Verif.Props.Parser.C52_whole"
   ],
   "note": "Every text; linear bound on the recursion."
  },
  {
   "property": "C53",
   "status": "partial",
   "theorems": [
    "Verif.Props.Parser.C53_partial",
    "Verif.Props.Parser.C53_violated"
   ],
   "note": "Holds for programs written according to the grammar; a token after an argument that does not start a part of the message is dropped silently (negation proved)."
  },
  {
   "property": "C54",
   "status": "partial",
   "theorems": [
    "Verif.Props.Parser.C54_partial",
    "Verif.Props.Parser.C54_long",
    "Verif.Props.Parser.C54_violated"
   ],
   "note": "Holds for messages of up to 255 bytes; a keyword of 255 bytes writes one byte behind the buffer (negation proved)."
  },
  {
   "property": "C55",
   "status": "proved",
   "theorems": [
    "Verif.Props.Trans.C55",
    "Verif.Props.Trans.C55_back"
   ],
   "note": ""
  },
  {
   "property": "C56",
   "status": "partial",
   "theorems": [
    "Verif.Props.Clock.C56_read",
    "Verif.Props.Clock.C56_zone",
    "Verif.Props.Clock.C56_set",
    "Verif.Props.Clock.C56_build",
    "Verif.Props.Clock.C56_environment_violated"
   ],
   "note": "Reading or setting a part leaves TZ set to UTC (proved). Zones with a fixed offset here; zones with summer time are in C112 (C112_read, C112_set). Whole numbers."
  },
  {
   "property": "C57",
   "status": "partial",
   "theorems": [
    "Verif.Props.Clock.C57_partial",
    "Verif.Props.Clock.C57_zone",
    "Verif.Props.Clock.C57_violated",
    "Verif.Props.ClockText.C57_week_partial",
    "Verif.Props.ClockText.C57_week_violated"
   ],
   "note": "The zone of the moment is not used and the answer depends on earlier messages (negation proved); holds when the zone of the process has the same offset."
  },
  {
   "property": "C58",
   "status": "partial",
   "theorems": [
    "Verif.Props.File.C58_partial",
    "Verif.Props.File.C58_name",
    "Verif.Props.File.C58_violated_link",
    "Verif.Props.File.C58_violated_long"
   ],
   "note": "Links without target are left out; names that are too long together overrun a buffer (negations proved). Links are reported as what they lead to."
  },
  {
   "property": "C59",
   "status": "partial",
   "theorems": [
    "Verif.Props.System.C59_settings_partial",
    "Verif.Props.System.C59_settings_violated",
    "Verif.Props.System.C59_ignored_violated"
   ],
   "note": "Every history; names with NUL bytes are stored and looked up differently, names with = and the empty name are ignored (negations proved). The table of the C library is modelled after its specification."
  },
  {
   "property": "C60",
   "status": "partial",
   "theorems": [
    "Verif.Props.System.C60_input",
    "Verif.Props.System.C60_input_violated",
    "Verif.Props.System.C60_ask_partial",
    "Verif.Props.System.C60_ask_safe",
    "Verif.Props.System.C60_ask_violated"
   ],
   "note": "Every schedule of portions. If the input cannot be read, or ends without a line end, the program never answers (negations proved)."
  },
  {
   "property": "C61",
   "status": "partial",
   "theorems": [
    "Verif.Props.System.C61_shell_partial",
    "Verif.Props.System.C61_shell_violated"
   ],
   "note": "NUL bytes end a line early; a command that cannot be started is undefined behaviour (negations proved)."
  },
  {
   "property": "C62",
   "status": "partial",
   "theorems": [
    "Verif.Props.System.C62_words_partial",
    "Verif.Props.System.C62_words_violated",
    "Verif.Props.System.C62_obtained_violated"
   ],
   "note": "Every history. The object Slurp itself crashes at the second word, messages with two or three arguments are ignored, obtained texts change later (negations proved). Messages that all objects understand are not collected and not modelled."
  },
  {
   "property": "C63",
   "status": "partial",
   "theorems": [
    "Verif.Props.System.C63_folder",
    "Verif.Props.System.C63_reads",
    "Verif.Props.System.C63_folder_violated"
   ],
   "note": "All trees of files; for folders whose names fit into 1000 bytes and are not renamed meanwhile (negation proved otherwise)."
  },
  {
   "property": "C64",
   "status": "partial",
   "theorems": [
    "Verif.Props.System.C64_argument_partial",
    "Verif.Props.System.C64_argument_violated"
   ],
   "note": "Numbers beyond int are undefined behaviour (negation proved)."
  },
  {
   "property": "C65",
   "status": "partial",
   "theorems": [
    "Verif.Props.System.C65_line_partial",
    "Verif.Props.System.C65_line_violated"
   ],
   "note": "Missing file after -x or -s, names over 254 bytes and programs named like options violate it (negations proved)."
  },
  {
   "property": "C66",
   "status": "partial",
   "theorems": [
    "Verif.Props.System.C66_limit_partial",
    "Verif.Props.System.C66_start_partial",
    "Verif.Props.System.C66_limit_violated"
   ],
   "note": "Large, negative and zero values violate it (negations proved)."
  },
  {
   "property": "C67",
   "status": "partial",
   "theorems": [
    "Verif.Props.Track.C67_stack",
    "Verif.Props.Track.C67_end",
    "Verif.Props.Track.C67_eval_partial",
    "Verif.Props.Track.C67_eval_violated",
    "Verif.Props.Track.C67_broken_violated"
   ],
   "note": "Every history. A text whose value is code answers code in freed memory; a text that cannot be parsed keeps its memory and switches off positions in error messages (negations proved)."
  },
  {
   "property": "C68",
   "status": "partial",
   "theorems": [
    "Verif.Props.Value.C68_truth_partial",
    "Verif.Props.Value.C68_truth_violated",
    "Verif.Props.Value.C68_logic_partial"
   ],
   "note": "Numbers between -1 and 1 count as false, numbers beyond int are undefined behaviour (negations proved). Objects with own meanings for `boolean` are not modelled."
  },
  {
   "property": "C69",
   "status": "partial",
   "theorems": [
    "Verif.Props.Value.C69_order_partial",
    "Verif.Props.Value.C69_order_violated"
   ],
   "note": "All numbers but the result of an impossible calculation (negation proved)."
  },
  {
   "property": "C70",
   "status": "partial",
   "theorems": [
    "Verif.Props.Value.C70_opposite",
    "Verif.Props.Value.C70_equality_partial",
    "Verif.Props.Value.C70_words",
    "Verif.Props.Value.C70_equality_violated"
   ],
   "note": "For values of one kind; values of different kinds violate symmetry (negation proved). Built-in kinds only."
  },
  {
   "property": "C71",
   "status": "partial",
   "theorems": [
    "Verif.Props.Share.C71_keys_partial",
    "Verif.Props.Share.C71_keys_violated"
   ],
   "note": "Every history, every hash function. Texts obtained by `entries` are the keys themselves: changing one loses the entry (negation proved)."
  },
  {
   "property": "C72",
   "status": "partial",
   "theorems": [
    "Verif.Props.Share.C72_names_partial",
    "Verif.Props.Share.C72_names_violated"
   ],
   "note": "Every history. A text used as a name is kept, not copied: changing it loses the message; names with NUL bytes are confused by `learn:means:` (negations proved). Inherited methods are the subject of C37."
  },
  {
   "property": "C73",
   "status": "partial",
   "theorems": [
    "Verif.Props.Share.C73_numbers_partial",
    "Verif.Props.Share.C73_units_violated"
   ],
   "note": "Every history. The text of a unit is shared by the number, its copies and the program (negation proved)."
  },
  {
   "property": "C74",
   "status": "partial",
   "theorems": [
    "Verif.Props.TransProg.C74_partial",
    "Verif.Props.TransProg.C74_meaning_partial",
    "Verif.Props.TransProg.C74_violated_fraction",
    "Verif.Props.TransProg.C74_violated_assign",
    "Verif.Props.TransProg.C74_violated_ended",
    "Verif.Props.TransProg.C74_violated_statement",
    "Verif.Props.TransProg.C74_violated_space",
    "Verif.Props.TransProg.C74_violated_glued",
    "Verif.Props.TransProg.C74_violated_comment",
    "Verif.Props.TransProg.C74_violated_quotes",
    "Verif.Props.TransProg.C74_violated_before",
    "Verif.Props.TransProg.C74_violated_long"
   ],
   "note": "Every program of the grammar, laid out regularly (gaps and words that the look-ahead of the translator reads as the parser does), every dictionary that covers the symbols. Other layouts garble the program, read before its start, or end the translator (negations proved). Comments are not covered."
  },
  {
   "property": "C75",
   "status": "partial",
   "theorems": [
    "Verif.Props.ReadBack.C75_partial",
    "Verif.Props.ReadBack.C75_twice",
    "Verif.Props.ReadBack.C75_lookup",
    "Verif.Props.ReadBack.C75_languages",
    "Verif.Props.ReadBack.C75_order_violated",
    "Verif.Props.ReadBack.C75_unit_violated",
    "Verif.Props.ReadBack.C75_languages_violated"
   ],
   "note": "Whole numbers of at most 21 digits without a unit, texts without quotes that survive being written down (C32), 106 of the 114 languages. The entries of lists come back in the opposite order; numbers with a unit come back as Nil; so do sequences in Italian, lists in Georgian, Swedish, Yakut and Arabic (negations proved). Fractions are not covered, nor Frisian, Czech and Armenian."
  },
  {
   "property": "C76",
   "status": "partial",
   "theorems": [
    "Verif.Props.Sort.C76_partial",
    "Verif.Props.Sort.C76_items",
    "Verif.Props.Sort.C76_refused",
    "Verif.Props.Sort.C76_greater_partial",
    "Verif.Props.Sort.C76_fraction_violated",
    "Verif.Props.Sort.C76_boolean_violated",
    "Verif.Props.Sort.C76_nested_violated",
    "Verif.Props.Sort.C76_large_violated"
   ],
   "note": "Every sorting procedure of the C library. For blocks that answer whole numbers whose signs come from an order; blocks that answer Booleans (as in the documentation and the tests) are sorted by some libraries only, fractions count as equal, differences beyond int are undefined behaviour, a block that sorts another sequence spoils the sorting (negations proved)."
  },
  {
   "property": "C77",
   "status": "partial",
   "theorems": [
    "Verif.Props.Json.C77_partial",
    "Verif.Props.Json.C77_unicode_violated",
    "Verif.Props.Json.C77_escape_violated",
    "Verif.Props.Json.C77_backslash_violated",
    "Verif.Props.Json.C77_fraction_violated"
   ],
   "note": "Any nesting and blanks. Not for \\\\u, \\\\/, \\\\f, nor a backslash before a letter that looks like an escape (memory is overwritten), nor numbers in which the point separates groups (negations proved)."
  },
  {
   "property": "C78",
   "status": "partial",
   "theorems": [
    "Verif.Props.Json.C78_partial",
    "Verif.Props.JsonNumbers.C78_numbers_partial",
    "Verif.Props.Json.C78_lookup",
    "Verif.Props.Json.C78_thousand_violated",
    "Verif.Props.Json.C78_unit_violated",
    "Verif.Props.Json.C78_sequence_violated",
    "Verif.Props.Json.C78_backslash_violated",
    "Verif.Props.Json.C78_formfeed_violated",
    "Verif.Props.Json.C78_overlap_violated"
   ],
   "note": "Any nesting of lists; sequences without sequences in them. C78_partial has the premise that the C library reads what it printed; C78_numbers_partial has no such premise, for numbers of ten decimal places below 524288 and whole numbers up to 2^53. Numbers from 1000 on in English, units, sequences in sequences, backslashes in sequences, form feeds and backslashes before escape letters violate it (negations proved)."
  },
  {
   "property": "C79",
   "status": "partial",
   "theorems": [
    "Verif.Props.Json.C79_tokens_partial",
    "Verif.Props.Json.C79_room",
    "Verif.Props.Json.C79_ends",
    "Verif.Props.Json.C79_key_violated",
    "Verif.Props.Json.C79_bracket_violated",
    "Verif.Props.Json.C79_word_violated"
   ],
   "note": "The tokenizer is safe for every text and everything ends; a key without a value makes the plugin read beyond its memory, and some texts that are not JSON are accepted (negations proved). Depth of the C stack is not modelled."
  },
  {
   "property": "C80",
   "status": "partial",
   "theorems": [
    "Verif.Props.Gen.C80_partial",
    "Verif.Props.Gen.C80_mismatch",
    "Verif.Props.Gen.C80_words",
    "Verif.Props.Gen.C80_safe",
    "Verif.Props.Gen.C80_translates",
    "Verif.Props.Gen.C80_back",
    "Verif.Props.Gen.C80_names_violated",
    "Verif.Props.Gen.C80_code_note_violated",
    "Verif.Props.Gen.C80_first_note_violated",
    "Verif.Props.Gen.C80_empty_violated",
    "Verif.Props.Gen.C80_longer_violated",
    "Verif.Props.Gen.C80_long_violated"
   ],
   "note": "Headers of any length in the usual form. Of several names to ask for only the first counts after the first word; a note on a line for code moves to the next word; a note in the first header or an empty word ends the dictionary without an error; so does the end of the shorter header; a word of 180 bytes is written beyond its buffer (negations proved)."
  },
  {
   "property": "C81",
   "status": "partial",
   "theorems": [
    "Verif.Props.Rx.C81_partial",
    "Verif.Props.Rx.C81_unique",
    "Verif.Props.Rx.C81_pieces",
    "Verif.Props.Rx.C81_same",
    "Verif.Props.Rx.C81_matches",
    "Verif.Props.Rx.C81_off",
    "Verif.Props.Rx.C81_empty_violated",
    "Verif.Props.Rx.C81_anchor_violated",
    "Verif.Props.Rx.C81_group_violated",
    "Verif.Props.Rx.C81_error_violated",
    "Verif.Props.Rx.C81_options_violated",
    "Verif.Props.Rx.C81_zero_violated"
   ],
   "note": "The functions of the C library that compile and search are parameters. Patterns that match the empty text never end; ^ matches again after every match; groups behind one that took no part are lost; the block runs again after an error; 256 options count as none; zero bytes are lost (negations proved)."
  },
  {
   "property": "C82",
   "status": "partial",
   "theorems": [
    "Verif.Props.Req.C82_query_partial",
    "Verif.Props.Req.C82_any_partial",
    "Verif.Props.Req.C82_safe",
    "Verif.Props.Req.C82_none",
    "Verif.Props.Req.C82_post_partial",
    "Verif.Props.Req.C82_post_short",
    "Verif.Props.Req.C82_zero_violated",
    "Verif.Props.Req.C82_length_violated"
   ],
   "note": "Every query, every way to write it. A zero byte (%00) cuts the value; announced lengths beyond int are undefined behaviour (negations proved). Texts of 1 GB and more are left out."
  },
  {
   "property": "C83",
   "status": "partial",
   "theorems": [
    "Verif.Props.Req.C83_cookies_partial",
    "Verif.Props.Req.C83_safe",
    "Verif.Props.Req.C83_blank_violated",
    "Verif.Props.Req.C83_flag_violated",
    "Verif.Props.Req.C83_quote_violated"
   ],
   "note": "Cookies whose values have no blanks or are in quotes. A blank in a value, a cookie without = and a quote that is not closed garble or lose the cookies behind (negations proved)."
  },
  {
   "property": "C84",
   "status": "partial",
   "theorems": [
    "Verif.Props.Req.C84_form_partial",
    "Verif.Props.Req.C84_upload_partial",
    "Verif.Props.Req.C84_no_upload_partial",
    "Verif.Props.Req.C84_safe",
    "Verif.Props.Req.C84_spoof_violated",
    "Verif.Props.Req.C84_boundary_violated",
    "Verif.Props.Req.C84_zero_violated",
    "Verif.Props.Req.C84_full_violated",
    "Verif.Props.Req.C84_end_violated"
   ],
   "note": "Forms of any length, contents of any bytes. Two fields of one name are answered like an uploaded file whose path the sender chose; boundaries beyond ASCII are never found; zero bytes cut values; files that cannot be made are dropped silently; the end of a broken-off form loses bytes (negations proved)."
  },
  {
   "property": "C85",
   "status": "partial",
   "theorems": [
    "Verif.Props.Package.C85_load_partial",
    "Verif.Props.Package.C85_append",
    "Verif.Props.Package.C85_unreadable",
    "Verif.Props.Package.C85_crash",
    "Verif.Props.Package.C85_crash_last",
    "Verif.Props.Package.C85_violated_half",
    "Verif.Props.Package.C85_violated_crash",
    "Verif.Props.Package.C85_violated_empty",
    "Verif.Props.Package.C85_violated_again",
    "Verif.Props.Package.C85_violated_long",
    "Verif.Props.Package.C85_violated_damaged"
   ],
   "note": "Any files of any contents, packages below 2 GB, names of at most 491 bytes. Empty files are not found; a file added again keeps its old contents; a stored name of 492 bytes makes the search read outside its buffer; after an interrupted addition the half-written file crashes the search and all files added later are not found; a damaged package can keep the search from ending (negations proved)."
  },
  {
   "property": "C86",
   "status": "partial",
   "theorems": [
    "Verif.Props.Lines.C86_write_partial",
    "Verif.Props.Lines.C86_last_violated",
    "Verif.Props.Lines.C86_again",
    "Verif.Props.Lines.C86_clipboard_partial",
    "Verif.Props.Lines.C86_clipboard_violated"
   ],
   "note": "All texts. A carriage return at the very end stays alone; the clipboard is copied without its zero byte and then read as a C string, outside the memory unless the allocator leaves a zero byte there (negations proved)."
  },
  {
   "property": "C87",
   "status": "partial",
   "theorems": [
    "Verif.Props.Editor.C87_edit_partial",
    "Verif.Props.Editor.C87_write",
    "Verif.Props.Editor.C87_end",
    "Verif.Props.Editor.C87_violated_overlap",
    "Verif.Props.Editor.C87_violated_up",
    "Verif.Props.Editor.C87_violated_delete",
    "Verif.Props.Editor.C87_violated_shift",
    "Verif.Props.Editor.C87_violated_home",
    "Verif.Props.Editor.C87_violated_replace",
    "Verif.Props.Editor.C87_violated_write",
    "Verif.Props.Editor.C87_violated_cut",
    "Verif.Props.Editor.C87_violated_append"
   ],
   "note": "All texts and all histories of acts, if memcpy acts as memmove. Excluded, with negations proved: Delete before characters of several bytes or line ends, Up below an empty first line, keys after an empty or old selection, Image write: while the user writes. The messages cut and append: of the program are included, with and without a selection. Writing at the end needs nothing of memcpy (C87_end)."
  },
  {
   "property": "C88",
   "status": "partial",
   "theorems": [
    "Verif.Props.Timer.C88_timer_partial",
    "Verif.Props.Timer.C88_together_partial",
    "Verif.Props.Timer.C88_look_partial",
    "Verif.Props.Timer.C88_violated_begin",
    "Verif.Props.Timer.C88_violated_hundred",
    "Verif.Props.Timer.C88_violated_late"
   ],
   "note": "Timers 1 to 99, also if they set each other, times below 2^30, and the store behind the array at the beginning is taken to do no harm. Negations proved: that store, timer 100 never fires, no timer fires after 2^31 milliseconds."
  },
  {
   "property": "C89",
   "status": "partial",
   "theorems": [
    "Verif.Props.Blob.C89_blob_partial",
    "Verif.Props.Blob.C89_text",
    "Verif.Props.Blob.C89_violated_byte",
    "Verif.Props.Blob.C89_violated_shift",
    "Verif.Props.Blob.C89_violated_outside"
   ],
   "note": "Numbers from -128 to 127, sequences made by appending, everything within the blob. Negations proved for bytes from 128 on, shifted sequences and accesses outside."
  },
  {
   "property": "C90",
   "status": "partial",
   "theorems": [
    "Verif.Props.Temp.C90_calm_partial",
    "Verif.Props.Temp.C90_without_collector",
    "Verif.Props.Temp.C90_tidy_partial",
    "Verif.Props.Temp.C90_each_tidy",
    "Verif.Props.Temp.C90_sort_tidy",
    "Verif.Props.Temp.C90_times_tidy",
    "Verif.Props.Temp.C90_while_tidy",
    "Verif.Props.Temp.C90_if_tidy",
    "Verif.Props.Temp.C90_call_tidy",
    "Verif.Props.Temp.C90_released_partial",
    "Verif.Props.Temp.C90_block_released",
    "Verif.Props.Temp.C90_violated_receiver",
    "Verif.Props.Temp.C90_violated_glue",
    "Verif.Props.Temp.C90_violated_release"
   ],
   "note": "Proved for all runs in which every C variable read after a collection is pinned or can be reached, hence for all programs that follow a syntactic rule; each:, sort:, ×, while:, true:/false: and methods follow it. Negations proved: a receiver whose variable is overwritten by its arguments, the glue of join:, and pins left behind by each:. Prototypes, handlers and names as values are left out of the model."
  },
  {
   "property": "C91",
   "status": "partial",
   "theorems": [
    "Verif.Props.Float.C91_partial",
    "Verif.Props.Float.C91_violated"
   ],
   "note": "Proved below 524288 and for whole numbers up to 2^53. Negation proved: 524288.06 is shown as 524,288.0600000001."
  },
  {
   "property": "C92",
   "status": "partial",
   "theorems": [
    "Verif.Props.Float.C92_partial",
    "Verif.Props.Float.C92_compare",
    "Verif.Props.Float.C92_violated"
   ],
   "note": "Proved, except that zero may be shown as -0. Negations proved: 0 times -5 is shown as -0; beyond 2^53 results are not exact."
  },
  {
   "property": "C93",
   "status": "partial",
   "theorems": [
    "Verif.Props.Float.C93_partial",
    "Verif.Props.Float.C93_violated"
   ],
   "note": "Proved for calculations whose number of roundings times their size (as a power of two) is at most 900719, for example sums of 225 amounts below a total of 1,000, except that zero may be shown as -0. Negations proved: 0.3 - 0.1 - 0.2 is shown as -0; 0.1 + 0.2 is shown as 0.3 but does not equal 0.3."
  },
  {
   "property": "C94",
   "status": "partial",
   "theorems": [
    "Verif.Props.Slots.C94_things_partial",
    "Verif.Props.Slots.C94_stays_partial",
    "Verif.Props.Slots.C94_used_up",
    "Verif.Props.Slots.C94_violated_images",
    "Verif.Props.Slots.C94_violated_music",
    "Verif.Props.Slots.C94_violated_draw",
    "Verif.Props.Slots.C94_violated_font",
    "Verif.Props.Slots.C94_violated_write",
    "Verif.Props.Slots.C94_violated"
   ],
   "note": "Proved for every history with at most 100 images, 50 pieces of music and 10 fonts in which no visible image is lost and no image writes with a font that is lost. Negations proved for each of these."
  },
  {
   "property": "C95",
   "status": "partial",
   "theorems": [
    "Verif.Props.Stage.C95_outside_partial",
    "Verif.Props.Stage.C95_free",
    "Verif.Props.Stage.C95_told",
    "Verif.Props.Stage.C95_violated_large",
    "Verif.Props.Stage.C95_violated_two",
    "Verif.Props.Stage.C95_violated_back",
    "Verif.Props.Stage.C95_violated"
   ],
   "note": "Who is told is proved in full. That the image is outside is proved for one solid image on the grid of pixels that is at least as large and whose middle is not passed in one frame. Negations proved: larger images stay inside; with two walls the image is moved into a third; an image is moved back twice as far as needed. Images that are turned are not modelled."
  },
  {
   "property": "C96",
   "status": "partial",
   "theorems": [
    "Verif.Props.Stage.C96_window_partial",
    "Verif.Props.Stage.C96_still",
    "Verif.Props.Stage.C96_free_partial",
    "Verif.Props.Stage.C96_violated_pushed",
    "Verif.Props.Stage.C96_violated_pieces",
    "Verif.Props.Stage.C96_violated"
   ],
   "note": "Proved for every motion, before collisions are dealt with, and after them if there are no solid images at the place. Negations proved: a solid image pushes the player out; a player of no pieces is a division by zero. The motion itself (sine, cosine, logarithm) is left open: the theorems hold for every result of it."
  },
  {
   "property": "C97",
   "status": "partial",
   "theorems": [
    "Verif.Props.Camera.C97_view_partial",
    "Verif.Props.Camera.C97_total",
    "Verif.Props.Camera.C97_finds_partial",
    "Verif.Props.Camera.C97_together_partial",
    "Verif.Props.Camera.C97_shown",
    "Verif.Props.Camera.C97_drawn",
    "Verif.Props.Camera.C97_start",
    "Verif.Props.Camera.C97_violated_larger",
    "Verif.Props.Camera.C97_violated_flat",
    "Verif.Props.Camera.C97_violated_apart",
    "Verif.Props.Camera.C97_violated_pieces",
    "Verif.Props.Camera.C97_violated"
   ],
   "note": "The view stays in the level while the sizes do not change; it finds the player if the camera is at least 4 pixels wide and its height is more than three tenths of its width; images are drawn together while the camera does not move. Negations proved: a camera made larger, a flat camera, a camera that moves between two images of a frame."
  },
  {
   "property": "C98",
   "status": "partial",
   "theorems": [
    "Verif.Props.Keys.C98_sound_partial",
    "Verif.Props.Keys.C98_stops_partial",
    "Verif.Props.Keys.C98_follows_partial",
    "Verif.Props.Keys.C98_turn",
    "Verif.Props.Keys.C98_turn_side",
    "Verif.Props.Keys.C98_violated_two",
    "Verif.Props.Keys.C98_violated_stuck",
    "Verif.Props.Keys.C98_violated_turn",
    "Verif.Props.Keys.C98_violated"
   ],
   "note": "For every history the player is only led where a held key says, and not at all if none is held (except in mode 2 with gravity); exactly so if one key is held at a time. Negations proved: releasing one of two keys stops the player; in mode 2 with gravity it goes up for ever; turning left and right need not lead back."
  },
  {
   "property": "C99",
   "status": "partial",
   "theorems": [
    "Verif.Props.Stage.C99_grid_partial",
    "Verif.Props.Stage.C99_near_partial",
    "Verif.Props.Stage.C99_order",
    "Verif.Props.Stage.C99_violated_edge",
    "Verif.Props.Stage.C99_violated_hidden",
    "Verif.Props.Camera.C99_violated_camera",
    "Verif.Props.Stage.C99_violated"
   ],
   "note": "Proved but for the first column and row of pixels of an image and without a camera. Negations proved: these pixels, hidden images, and (Verif.Props.Camera.C99_violated_camera) images that the camera has moved."
  }
 ]
}
