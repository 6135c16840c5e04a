# Formal model of meownoid/melodia in Lean 4

Source: `/repo` (Python, read as text, never run). Model and proofs: `/verif/lean/Verif`.
Properties: `properties.jsonl`; what is proved about each: `MANIFEST.json`; wrong programs the theorems were tried on: `seeded/LOG.jsonl`.

How to read the log. `failed_directly` are the declarations that no longer compile with the wrong definition; `theorems_failed` are the
claims that depend on them. The second list is too short in some of the older rows (all but those with ids `P…` and `Q…`): the script
that made it skipped the failing declarations and looked for `sorryAx` among the axioms of each claim, but a proof by `kernel_rfl` that
the kernel rejects, and whose error is suppressed, stays in the environment as an axiom with its own name. So those rows may name fewer
theorems than fail, never more. The error concerned this script only: in an ordinary build the rejected proof stops the build. Rows with
`inconclusive` ended at a time limit, or the edited definition itself was refused by Lean; they count neither as caught nor as survived.
That a theorem is in `theorems_failed` shows that its proof breaks, not that its statement is false for the wrong program. 48 of the 420
theorems of the manifest have failed for no wrong program tried, so the log is no evidence about them: C06_trichotomy, C06_mirror_iff, C06_transitive_iff, C20_chords_ascending, C33_unique, C34_unambiguous, C35_multiset, C49_pairs_unique, C49_no_overlap, C49_no_overlap_time, C54_track_repr_iterates, C69_frequency_all_partial, C72_standard, C75_equal, C81_distributive, C84_serialize_test, C84_track_test, C85_member, C91_attributes, C91_texts, C92_repr, C93_attributes, C95_attributes, C100_text, C101_regenerated, C102_written, C102_single, C102_refused, C103_file, C103_refines, C103_failures, C104_imports, C104_star, C105_text, C105_supported, C105_script, C105_regenerates, C105_functions, C105_import, C106_generator, C107_cases, C108_functions, C109_hash_partial, C111_binding, C112_heads, C112_violated, C114_violated, C114_parameters_partial.

## Layout

| directory | contents |
|---|---|
| `Verif/Model/*.lean` | executable model, function by function, each definition citing file and lines |
| `Verif/Spec/*.lean`  | small specifications, independent of the functions of the model (rational value of a signature, notation grammar, MIDI variable-length quantities, file grammar, note pairing, abstract track machine, ...) |
| `Verif/Lemmas/*.lean`| helper lemmas |
| `Verif/Props/*.lean` | the property theorems (`C01_...`), each with a satisfiability `example` |
| `Verif/Python/*.lean` | the part of Python melodia uses, independent of melodia: abstract syntax, values and memory, operations of the built-in types, regular expressions by backtracking, an evaluator for expressions, statements and calls (least fixed points; no bounds), a lexer and a parser, and a test for the programs the evaluator is meant for |
| `Verif/Source/*.lean` | the abstract syntax of melodia's source files, written by `tools/translate.py` from `/repo/src` with Python's own parser, and their text, written by `tools/embed.py`; C100 proves that the one is what the parser in `Verif/Python` makes of the other |
| `Verif/Conformance/*.lean` | every assertion of the project's unit tests and of the examples in `docs/tone.rst`, evaluated on the model; evidence that the model was read off correctly, not properties |

Model files:

| file | source | remarks |
|---|---|---|
| `Py` | - | exceptions, ints, floats (`PyFloat`, `fl`), `ListSort`, `Dict` |
| `CPySort` | - | a concrete `list.sort` (CPython below 64 elements), instance of `ListSort` |
| `Signature`, `Tone`, `Note`, `Track` | `core/*.py` | complete |
| `TrackState` | `core/track.py` | `add` with the assignments that survive an exception; histories of operations |
| `TrackIter` | `core/track.py` | iterators that are alive while the track changes |
| `TrackRaw` | `core/track.py` | `add` with objects that are not notes |
| `ToneFrequency` | `core/tone.py` | `to_frequency` in floating point, relative to a contract for `2 ** x` |
| `Float64` | `core/tone.py`, `io/midi.py` | the floating-point computations with the exponent range of binary64 |
| `Stream` | `io/midi.py:197-240, 391-401, 604-661` | load and dump with file objects that deliver or take fewer bytes than asked for, or raise |
| Types in memory (Spec/TypesTrack.lean) | annotations of src/melodia/core/track.py, src/melodia/processing/track.py | the values an annotation stands for in a memory; iterables are tuples, lists and iterators of lists |
| Types (Spec/Types.lean) | annotations of src/melodia/core/{signature,tone,note}.py, src/melodia/music/chord.py | the values an annotation stands for; `int` and `bool`, `float` and `int` kept apart |
| Annotations (Spec/Annotations.lean) | the heads of all functions in src/melodia | read from the tokens of the source text, with the parser of Verif/Python |
| Calls (Spec/Calls.lean) | all calls in the functions of src/melodia | read off the syntax trees parsed from the source text; the functions a call can reach are over-approximated by the name of the method |
| Limit on digits (Model/TextLimit.lean) | `__str__`, `__repr__` of signature.py, note.py, track.py | the limit as a parameter; the order of conversions and of the sort, as far as it can be observed |
| Data model (Spec/ObjectModel.lean) | class statements of all files | assignment to public attributes, attributes assigned in methods, `hash` |
| Limit on digits (Model/ToneLimit.lean) | `from_notation`, `to_notation`, `__str__`, `__repr__` of tone.py | the limit of int/str conversions as a parameter |
| Paths (Spec/Paths.lean) | control flow of all functions | every order of execution of the statements with the variables read and written; conditions left open |
| The script (Source/GenerateChordsModule.lean, Source/GenerateChordsText.lean, Spec/GeneratorRun.lean) | `scripts/generate_chords.py` | its text and syntax, the file it leaves; `argparse` for one argument |
| Imports (Python/Imports.lean) | all files | what a module needs and binds while it is executed, and the import machinery |
| Script (Spec/Script.lean) | `README.rst:40-51` | the text of scripts of this form and running a script given as text: parsed, imports resolved in the parsed program, statements executed |
| `Generator` | `scripts/generate_chords.py` | the text written, as lines; tied to the script itself by C105 |
| `NoteDyn` | `core/note.py:13-188` | `Note` with an int, a bool, a float or another object as velocity |
| `WriterDyn` | `io/midi.py:57-251` | `MIDIWriter` with ints, bools, floats and other objects as `pulses_per_quarter`, `bpm` and `channel` |
| `ReaderObj` | `io/midi.py` class `_Reader` and the parsers | `_Reader` as a mutable object: `read`, `shift` with any ints, state after exceptions; `_read_8`, `_read_var_len`, `read_event`, `_parse_track`, `_parse_header` on it |
| `Compare` | `src/melodia/core/*.py` comparison methods, `Signature.__add__` | Python's dispatch of the six comparison operators over the four classes and foreign objects; `in` on lists, `sum`, `max`, `min` |
| `PyExpr` | `src/melodia/core/*.py` `__repr__`, `__init__` | tokens, grammar and evaluation of names, int and float literals, minus, pairs, lists and calls; the class names are bound to the constructors of the model |
| `Progression` | `README.rst:40-51` | the program of the README for any sequence of chord calls |
| `SignatureDyn` | `core/signature.py:10-34, 83-105` | `Signature` with values that are not ints |
| `TrackNested` | `core/track.py:70-113` | `add` with nested iterables, strings, tracks |
| `Text` | `__str__`, `__repr__` of all classes | float formatting by contract |
| `Chord` | `music/chord.py` | all 50 functions |
| `Processing` | `processing/track.py` | complete |
| `MidiWrite`, `MidiRead` | `io/midi.py` | complete, at byte level |

Every file under `/repo/src/melodia` is modelled; the imports of the packages (`__init__.py`) only in the executed text (`Verif/Source`), where they are resolved.

## Trusted base

* Lean 4.33 kernel; only the axioms `propext`, `Classical.choice`, `Quot.sound` (list per theorem at the end).
* The reading of the Python source that the model encodes (no extraction; the code was not run). `Verif/Conformance` checks the model against the expectations written in the project's own tests; the tests with random inputs are covered for all outcomes by C84.
* For the modules covered by C91 and following, the reading by hand is replaced by: the text, copied line by line by `tools/embed.py` into `Verif/Source/*Text.lean` (a reader can compare these with the files); the lexer and parser of `Verif/Python/Lexer.lean` and `Verif/Python/Parser.lean`, which C100 proves to give the abstract syntax in `Verif/Source` (docstrings and annotations are read and dropped, annotations being evaluated only during the import, which is the subject of C104; everything outside the grammar is refused); and the meaning of Python in `Verif/Python` (the header of `Semantics.lean` lists its simplifications). The theorems relate the execution of the text to the model and to the specification, for all values and all states of memory.
* That `Verif/Python` describes Python is not proved (there is no formal definition to compare with). It was tested: `tools/conform.py` writes random programs (none of them from melodia, and melodia is never run), executes them with CPython 3.11 and with the parser and evaluator in Lean, and compares results and exceptions. Where the description is incomplete the Lean side refuses the program or has no result; earlier runs found wrong results, which were corrected. Last run (seed 20261117, on a build that did not change meanwhile; 10 kinds of programs, 1500 each): 8292 of 15000 programs had the same result or exception in both, 646 were rejected by both, 6062 were refused or had no result only in Lean, so nothing was compared for them, and none had different results. (In the first pass eight programs with `__slots__` were reported as different because the tool did not print such objects on the CPython side; this kind was run again, with the same programs, after the tool had been corrected.) Refusals are frequent in some kinds (1273 of 1500 programs with closures, 1069 of 1500 with string literals), so those features are tested less than the totals suggest. `Verif/Python/Supported.lean` is a test for programs that cannot observe the simplifications about classes, scopes and files, and `C100_supported` proves that melodia passes it.
* Assumptions about what is *outside* the repo:
  * Python `int` = `Int` (unbounded); Python `str` = `List Char`; `bytes` = `List UInt8`; exceptions = values of `PyErr`.
  * `list.sort` is a parameter `S : ListSort` (`Model/Py.lean`) with the contract: output is a permutation; sorted for every key the
    comparison respects (even when the comparison is inconsistent among elements with equal keys); equal to the stable sort when the comparison is a strict weak order.
    All positive theorems are for every such `S`; those of C95-C99 also assume that the sort looks at elements only by comparing them (`ListSort.Natural`, proved for the concrete instance). `Model/CPySort.lean` gives a concrete instance (CPython's count_run + binary insertion, what CPython does below 64 elements) which is used for refutations and non-vacuity; `Lemmas/CPySort.lean` proves that it meets the contract.
  * `heapq.heappush` is modelled concretely (append + sift-down).
  * `dict` = association list in insertion order.
  * IEEE doubles: a finite double is the rational it denotes; one arithmetic operation = exact rational operation followed by `fl` (53-bit round to nearest even, unbounded exponent). NaN and infinities are separate constructors of `PyFloat`. `Lemmas/FloatSpec.lean` proves that `fl` is what IEEE 754 asks for: results have 53 bits, nothing with 53 bits is nearer, ties go to even, 53-bit numbers are kept.
  * `2 ** x` on floats: any function meeting the contract `PowTwo` (`Model/ToneFrequency.lean`: relative error at most 2^-52, exact on integers); `powTwo_exists` shows such functions exist. `fl` has no exponent bounds; `Model/Float64.lean` has them, and C69 shows where that can be observed (only in `to_frequency` of tones hundreds of octaves away).
  * `repr(float)`: any text meeting the contract `FloatText` (different doubles have different texts, no closing parenthesis). `f'{x:.3f}'` is modelled concretely (`fixed3`, exact decimal rounding half to even).
  * `random.gauss` = an arbitrary stream of `PyFloat`.
  * Which non-ASCII characters `\d` matches, and their digit values, is a parameter (`UnicodeDigits`).
  * Python's recursion limit: `read_event` calling itself without consuming input is `PyErr.recursionError`.
  * A binary file = the list of bytes written / left to read. File objects with short reads, short writes and OSError are in `Model/Stream.lean` only (C70, C71).
* Not modelled: bools as ints and floats for ints outside `SignatureDyn`, `WriterDyn` and `NoteDyn` (in particular tracks of notes with int velocities, which by C90 behave like those with floats), subclassing, expressions outside the subset of `PyExpr`, threads, Python's limit on digits in int/str conversion outside `ToneLimit` (4300 by default: longer octave numbers raise ValueError in Python ≥ 3.11, C107), arguments of types outside the annotated ones other than those in `TrackRaw`, `TrackNested`, `SignatureDyn` and the `other` constructors of `ToneArg`, `SigArg`; docs and packaging.

The claim statements share with the model: its data types, `fl`, `Track.run/step/items/len/length` (how a history is executed and observed) and `stripBlanks`/`splitCommas` for the names in chord docstrings. Everything else in `Spec` is defined independently.

## How the properties were approached

| id | how |
|---|---|
| C01-C04, C07, C08 | `Int` arithmetic; spec `Signature.val : ℚ`; bit trick related to powers of two |
| C05, C06, C18 | violated (`_to_common_denominator` swaps operands when `d1 < d2`): exact characterisation, refutation by witness, `_partial` theorem for `d1 >= d2` |
| C09-C13, C62 | regex matching as a greedy scanner over `List Char`, grammar as inductive predicates, induction on digits |
| C11 | violated (`re.match` is not anchored at the end): refutation and characterisation |
| C14 | over the reals, and in floating point with error bounds, monotonicity and octaves |
| C15-C17 | argument sum types |
| C19-C24, C63 | track as a state machine; induction over histories; refinement of an abstract machine without heap and sorting |
| C21, C22, C26, C27 | violated in corner cases because of the comparison bug: refutations + `_partial` theorems under explicit conditions; C63 gives `length` exactly in all cases |
| C25 | violated (`zip` truncates): refutation, exact characterisation, `_partial` for equal lengths |
| C28, C29 | arbitrary gauss stream |
| C30-C32 | all 50 functions as a table; names read by an independent grammar (`Spec/ChordNames`); C32 refuted for `minor69`, `min69`, `min7b9`, `added9`, `add9` |
| C33-C38 | writer at byte level; C38 refuted for ppq > 255 |
| C39-C41, C59-C61 | reader at byte level for all byte strings; fuel for loops with a proof that it never runs out; C40, C59, C61 refuted with exact companions |
| C42-C44, C51, C52, C57, C58 | writer and reader composed; C43, C44, C52, C58 refuted with exact companions |
| C45-C50, C53, C55 | reader on files given by their events in any encoding; C46, C55 refuted |
| C54 | text forms: parsing back / injectivity |
| C56 | iterators alive while the track changes; refuted, with the cases that are safe |
| C65 | abstract machine of C63 run on groups without positions |
| C66 | round trip without the condition of whole pulses: pairing of original and read notes (`Near`) |
| C67 | constructors by cases; note-on keys of the written file |
| C68 | the sorted list of events as a function of the multiset of notes; converse from C42 and from the unambiguity of the file grammar; refuted for two notes of one pitch and position |
| C69 | `fl64` compared with `fl`; contract `PowTwo64`; refuted for tones 1024 octaves up, outcome for every tone with subnormal results and infinity |
| C70 | case split per chunk; induction over the chunk loop for all schedules of short reads |
| C71 | the written part is a prefix, so C41; refuted for sinks with short writes |
| C64 | `add` of foreign objects: refuted for every track |
| C72 | grammar as inductive predicates (`Spec/Lenient.lean`); soundness and completeness of the list parser by strong induction; uniqueness by induction |
| C73 | sizes along the grammar; pairs of note events are disjoint |
| C74 | player as a recursive function on messages with delta times (`Spec/Playback.lean`); linear in absolute times because the tempo is constant after the first two events |
| C75 | size bound on the track data, composition of earlier theorems |
| C76 | the leaves of an argument as an inductive relation; the nested calls do the same as a loop over the leaves |
| C77 | short-circuit evaluation by cases on the kinds of values; refuted for float nominators |
| C78 | composition of C30, C65 and C75; positions in the progression are sums of whole pulses |
| C79 | tokens of the text are those of an expression; recursive descent inverts the tokens of any expression (mutual induction); evaluation calls the constructors; tracks by C27 |
| C80 | case analysis over classes and operators; induction over the list for `in` |
| C81 | induction over the list; permutation via exact value and maximal denominator; fold invariant for max and min; for the exact condition, the first descent in the sequence of denominators |
| C82 | messages without velocities depend only on (position, pitch, duration) of the notes; sorted lists agree if they agree on each time; within one time contributions of notes of equal position and pitch commute |
| C83 | simulation: every parser on objects refines the parser on values (`Ref`), by the structure of the programs; reads by induction on the list of sizes |
| C84 | the programs of the tests as functions of the outcomes; induction on the list of notes, then C75_equal |
| C85 | programs as lists of events with a pool of iterators (`iterSession`); induction on the program with an invariant on all iterators |
| C86 | messages of one track under two writers as images of each other, pushed through sorting and delta times |
| C87 | keys of the iteration under a monotone change; equality of the events of both writers |
| C88 | floor of a sum with a whole number of pulses; delta times of shifted absolute times |
| C89 | case analysis of the constructor; simulation of `Writer.dump` through values (stable sort under an embedding) |
| C90 | case analysis; the two int velocities by evaluation |
| C100 | the parser evaluated by the kernel, file by file |
| C101 | the generator evaluated by the kernel |
| C102 | lexing and parsing lemmas for the templates by induction over names, intervals and rows; then the evaluation lemmas of C94 |
| C103 | lexing and parsing of the script by induction over its lines; execution by the evaluation lemmas of C94-C99; C78 for the file and its notes |
| C104 | the steps of the files by computation from their text; the import from the empty state and from the complete one by computation, then induction over the sequence; finite checks over all functions |
| C105 | the run of the script by the rules of the evaluator: the templates split into parts by computation, invariants for the three loops over any table, the joined texts equal to the lines of the model by induction |
| C106 | a definite-assignment analysis (Lemmas/Paths.lean: flow) proved sound for all paths by induction on the path, then computed for all functions |
| C107 | the number of decimal digits of an integer related to powers of ten by induction; the reader of C10 with the digits of the octave counted |
| C110 | the number of decimal digits as in C107, carried through the texts; induction over the entries of a track |
| C111 | induction over the parameters for binding; the calls of the parsed source, each with all functions it can reach, by kernel computation |
| C112 | the annotations at every `def` of the source text by kernel computation; paths by C106 |
| C113 | the methods run on values of the annotated types, by Lemmas/Source{Signature,Tone,Note}.lean |
| C114 | all chord functions have one shape, with a table of intervals as long as the annotated tuple |
| C115 | the runs of the methods in memory (C95, C97) end with values of the annotated types, and reachability is kept |
| C108, C109 | the rules of the data model for attributes and hashes applied to the classes of the text; all names by cases, all statements by computation |
| C91-C99 | the text of the module as abstract syntax, executed by the evaluator in `Verif/Python`: `Lemmas/Source*.lean` prove that it agrees with the model, for all values, then the properties of the model are carried over |

## Findings about the code

1. `Signature` order is reversed whenever the left operand has the smaller denominator (C05, C06); from this follow: note order (C18), `Track.length` going backwards or not growing (C22, exactly: C63), iteration order depending on insertion order and on observation (C21, C26, C27), `load()` choosing a wrong time signature (C55).
2. `Tone.from_notation` ignores anything after the longest match: `'C4xyz'` is C4 (C11).
3. `Track ==` compares only as far as the shorter track goes; an empty track equals every track of its signature (C25).
4. The chord functions `minor69`, `min69`, `min7b9`, `added9`, `add9` do not have the notes of their names (C32).
5. `MIDIWriter` with more than 255 pulses per quarter is accepted and then fails with OverflowError on every `dump` (C38).
6. `load` lets RecursionError (track data starting with a data byte) and AssertionError (division 0) escape (C40).
7. Notes with velocity 0 and overlapping notes of the same pitch are lost in a round trip; velocities are quantised (C43).
8. The reader uses three of the four bytes of a chunk length: tracks of 16 MiB or more cannot be read back (C44).
9. Files with system exclusive events are rejected (C46); running status survives meta events.
10. Re-saving a loaded file can change it in the corner of zero-duration notes (C52), and load/save cycles move times back by a pulse each at resolutions whose odd part does not divide the time (C58); above 4096 pulses per quarter different times collapse (C57).
11. Adding to a track while iterating over it can loop for ever or repeat notes (C56).
12. Several files in one, or several track chunks: all but the last are lost without an error (C59, C61).
13. A failing `add` of something that is not a note leaves it in the track (C64).
14. `to_frequency` of a tone 1024 or more octaves above A4, which `Tone` accepts, raises OverflowError; from about 1015 octaves on the result is infinity without an exception (C69).
15. Two notes of one pitch at one position with different durations can be written differently depending on the order of adding (C68).
16. `dump` ignores the result of `write`: with unbuffered files or sockets a file can be cut off without an exception (C71). `load` rejects good files from such objects when they deliver less than asked for (C70).
17. `Signature(1.5, 4)` and `Signature(float('inf'), 4)` are accepted; `normalized` and `dump` then raise TypeError (C77).
18. `track.add('C4')` raises RecursionError; `track.add(other_track)` raises AttributeError and leaves a Signature among the notes (C76).
19. `==` between melodia objects and objects of other classes (even None) raises AttributeError instead of giving False, so `tone in [None, tone]` fails (C80).
20. `sum(signatures)` raises TypeError for lack of `__radd__`; `max` and `min` of signatures with different denominators return wrong elements (C81).
21. randomize_velocities can reorder note-on and note-off messages of the file for notes shorter than a pulse, even if no velocity changes (C82).
22. `MIDIWriter` accepts floats for `pulses_per_quarter` and `channel` and any object for `bpm`. With `pulses_per_quarter=96.0` or `bpm='fast'` every call of `dump` raises, with `channel=3.0` every call for a track with notes (C89).
23. The generator writes `return (Note(…))` for a row with one interval: the function is declared `Tuple[Note]` but returns a `Note`. No row of the present table is affected (C102_single).
24. `Tone`, `Signature`, `Note` and `Track` define `__eq__` without `__hash__`: their objects cannot be members of sets or keys of dictionaries (TypeError, C109).
25. C112: `MIDIWriter._format_header_chunk` (src/melodia/io/midi.py:182) has no annotation for its result, although the README says that melodia is fully typed.
26. C114: `_get_parameters` (src/melodia/music/chord.py:7-39) is annotated `Tuple[Tone, Signature, float]`, but returns a pair of ints given as `duration` as it is.

## Axioms

Axioms of the 420 claim theorems (`collectAxioms`, generated from the built project):

* none (4): C30_shape, C81_sum_violated, C83_outside, C108_classes
* `propext` (17): C06_violated, C06_negations, C11_rejects_partial, C13_order, C62_constructor, C76_string, C80_violated, C80_different_partial, C80_order, C80_tracks_unordered, C80_same_class, C81_sum_append, C81_empty, C83_again, C100_text, C105_text, C106_no_result
* `Quot.sound, propext` (25): C11_accepts_wellformed, C33_unique, C34_constructor, C34_unambiguous, C49_pairs_unique, C49_no_overlap, C77_ints_partial, C83_read, C83_consecutive, C83_after_failure, C85_independent, C85_exhausted, C104_attributes, C106_assigned, C106_generator, C106_returns, C107_from_notation, C108_inside, C108_functions, C108_constructors, C109_violated, C109_hash_partial, C111_properties, C112_heads, C112_results_partial
* `Classical.choice, Quot.sound, propext` (374): C01_constructor, C01_constructed_iff_valid, C02_normalized, C02_canonical, C02_terminates, C03_to, C04_eq, C04_equivalence, C05_violated, C05_order_partial, C05_order_reversed, C06_trichotomy, C06_mirror_iff, C06_transitive_iff, C06_total_order_partial, C07_add, C07_add_comm, C07_add_assoc, C08_mul, C08_mul_monoid, C08_abs, C09_notation_roundtrip, C10_accepts_iff, C10_meaning, C11_violated, C12_octave, C12_octave_of_notation, C12_transposed, C13_total_order, C14_frequency, C14_octaves_of_a4, C14_default, C14_accuracy, C14_increasing, C14_octave, C15_constructor, C15_failures, C15_defaults, C15_valid, C16_transposed, C16_with_duration, C16_with_velocity, C16_failures, C17_eq, C17_equivalence, C18_violated, C18_lex_partial, C18_reversed, C19_contents, C19_notes_unchanged, C20_ascending, C20_chords_ascending, C21_violated, C21_observation_partial, C21_order_partial, C22_violated, C22_step, C22_length_partial, C22_attained, C23_default_position, C24_atomic, C25_violated, C25_eq_iff, C25_refl_symm, C25_same_length_partial, C25_key_meaning, C26_violated, C26_order_partial, C26_equal_partial, C27_violated, C27_rebuild_partial, C27_equal_partial, C28_result, C28_input_unchanged, C28_sequence_consistent, C29_in_range, C29_velocities, C29_failures, C29_swapped, C30_table, C30_chord, C30_failures, C30_ascending, C31_aliases, C31_transpose, C32_violated, C32_names_partial, C32_chords_partial, C32_chords_violated, C33_encode, C33_read, C33_roundtrip, C34_wellformed, C35_notes, C35_multiset, C36_pulses, C36_note_times, C36_monotone, C36_writer, C37_atomic, C37_atomic_small, C37_valueError, C37_zeroDivision, C37_overflow, C38_violated, C38_partial, C38_fits_partial, C39_loads_terminates, C40_violated, C40_assertion_violated, C40_exceptions_partial, C40_wellheaded_partial, C41_truncated, C42_roundtrip, C42_roundtrip_noOverlap, C42_module_functions, C42_other_channel, C43_violated, C43_lost_violated, C43_exact_partial, C43_equal_partial, C44_large_violated, C44_violated, C44_small_partial, C45_unknown_chunk_skipped, C46_rejected_partial, C46_violated, C47_running_status, C48_unsupported_skipped, C49_notes_are_pairs, C49_no_overlap_time, C50_channel, C50_negative_channel, C50_all_channels, C51_byte, C51_monotone, C51_read, C51_lossless, C51_error, C52_violated, C52_resave_partial, C53_middle_c_shift, C53_roundtrip_shift, C54_tone_repr, C54_tone_str, C54_signature_str, C54_signature_repr, C54_note_repr, C54_note_str, C54_track_repr, C54_track_repr_iterates, C54_track_str, C55_winner, C55_sorted_partial, C55_single, C55_violated, C55_same_denominator_partial, C56_endless_violated, C56_repeated_violated, C56_snapshot_partial, C57_error, C57_monotone, C57_no_new_overlap, C57_distinct, C57_notes, C58_time_partial, C58_drift, C58_violated, C58_resave_partial, C59_last_wins, C59_last_of_many, C59_violated, C60_trailing_ignored, C60_missing_end, C61_accepted_partial, C61_bad_header, C61_no_header, C61_no_track, C61_violated, C63_constructor, C63_machine, C64_violated, C64_iterable_violated, C64_notes_partial, C65_sequence, C65_melody, C65_chord, C66_roundtrip, C66_sequence, C67_writer, C67_reader, C67_defaults, C67_module_defaults, C67_keys, C68_same_file_partial, C68_again, C68_injective, C68_converse, C68_violated, C69_velocity, C69_tempo, C69_read, C69_frequency_partial, C69_frequency_violated, C69_frequency_all_partial, C70_portions, C70_never_wrong, C70_whole, C71_interrupted_partial, C71_violated, C72_language, C72_channel_language, C72_music, C72_channel_music, C72_unambiguous, C72_standard, C73_size, C74_seconds, C74_playback, C74_exact, C75_roundtrip, C75_equal, C75_limit, C76_nested, C76_notes, C76_track, C77_accepts, C77_rejects, C77_violated, C78_track, C78_file, C79_tone, C79_signature, C79_note, C79_track, C80_operators, C80_member_foreign, C80_member, C81_sum, C81_sum_perm, C81_distributive, C81_max_violated, C81_max_partial, C81_min_partial, C81_max_iff, C82_file_partial, C82_violated, C83_refinement, C84_serialize_test, C84_track_test, C85_member, C86_settings, C86_success, C86_tempo, C86_channel, C87_same_file, C87_program, C88_later, C88_error, C89_accepts, C89_rejects, C89_float_ppq, C89_other_bpm, C89_other_bpm_error, C89_float_channel, C89_float_channel_empty, C89_usable_partial, C89_violated, C90_accepts, C90_same, C90_compare, C90_kept, C91_constructor, C91_attributes, C91_equality, C91_order, C91_order_wrong, C91_sum, C91_product, C91_abs, C91_normalized, C91_to, C91_texts, C92_constructor, C92_comparisons, C92_transposed, C92_from_notation, C92_to_notation, C92_repr, C92_to_frequency, C93_constructor, C93_failures, C93_attributes, C93_changed, C93_equality, C93_order, C93_texts, C94_chord, C94_defaults, C94_failures, C95_constructor, C95_add, C95_attributes, C95_iteration, C95_repr, C95_equality, C95_equality_self, C95_program, C96_constructor, C96_refines, C96_refines_file, C96_dumps, C96_dump, C96_program, C97_refines, C97_result, C97_failures, C98_constructor, C98_refines, C98_total, C98_channel, C98_negative_channel, C98_all_channels, C99_dumps, C99_dump, C99_roundtrip, C99_equal, C99_program, C100_supported, C101_regenerated, C102_written, C102_single, C102_refused, C103_file, C103_refines, C103_failures, C104_imports, C104_star, C104_names, C105_supported, C105_script, C105_regenerates, C105_functions, C105_import, C107_cases, C107_printing, C107_roundtrip, C107_unlimited, C108_outside, C108_direct, C110_signature, C110_note, C110_track_str, C110_track_repr, C110_unlimited, C110_roundtrip, C111_calls, C111_binding, C111_bound, C111_parameters, C112_parameters, C112_violated, C112_none, C113_results, C113_new, C113_defaults, C114_chords, C114_violated, C114_parameters_partial, C114_defaults, C115_methods, C115_new, C115_processing, C115_defaults
