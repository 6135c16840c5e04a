{
 "claims": [
  {
   "property": "C01",
   "status": "proved",
   "theorems": [
    "Melodia.C01_constructor",
    "Melodia.C01_constructed_iff_valid"
   ],
   "note": "Full: acceptance iff, failure is ValueError."
  },
  {
   "property": "C02",
   "status": "proved",
   "theorems": [
    "Melodia.C02_normalized",
    "Melodia.C02_canonical",
    "Melodia.C02_terminates"
   ],
   "note": "Full, including termination of the loop and canonicity."
  },
  {
   "property": "C03",
   "status": "proved",
   "theorems": [
    "Melodia.C03_to"
   ],
   "note": "Full."
  },
  {
   "property": "C04",
   "status": "proved",
   "theorems": [
    "Melodia.C04_eq",
    "Melodia.C04_equivalence"
   ],
   "note": "Full."
  },
  {
   "property": "C05",
   "status": "partial",
   "theorems": [
    "Melodia.C05_violated",
    "Melodia.C05_order_partial",
    "Melodia.C05_order_reversed"
   ],
   "note": "The code violates the property when the left denominator is smaller (refutation C05_violated). C05_order_partial proves it for the other pairs; C05_order_reversed determines the remaining ones."
  },
  {
   "property": "C06",
   "status": "partial",
   "theorems": [
    "Melodia.C06_violated",
    "Melodia.C06_negations",
    "Melodia.C06_trichotomy",
    "Melodia.C06_mirror_iff",
    "Melodia.C06_transitive_iff",
    "Melodia.C06_total_order_partial"
   ],
   "note": "a < b iff b > a and transitivity fail for mixed denominators (C06_violated); trichotomy (C06_trichotomy) and the negations (C06_negations) hold for all pairs. C06_mirror_iff and C06_transitive_iff say exactly for which pairs and denominators the rest holds; C06_total_order_partial is the full order for a common denominator."
  },
  {
   "property": "C07",
   "status": "proved",
   "theorems": [
    "Melodia.C07_add",
    "Melodia.C07_add_comm",
    "Melodia.C07_add_assoc"
   ],
   "note": "Full."
  },
  {
   "property": "C08",
   "status": "proved",
   "theorems": [
    "Melodia.C08_mul",
    "Melodia.C08_mul_monoid",
    "Melodia.C08_abs"
   ],
   "note": "Full."
  },
  {
   "property": "C09",
   "status": "proved",
   "theorems": [
    "Melodia.C09_notation_roundtrip"
   ],
   "note": "Full."
  },
  {
   "property": "C10",
   "status": "proved",
   "theorems": [
    "Melodia.C10_accepts_iff",
    "Melodia.C10_meaning"
   ],
   "note": "Full; for every assignment of digit values to non-ASCII characters."
  },
  {
   "property": "C11",
   "status": "partial",
   "theorems": [
    "Melodia.C11_violated",
    "Melodia.C11_rejects_partial",
    "Melodia.C11_accepts_wellformed"
   ],
   "note": "Violated: the regex is not anchored at the end ('C4xyz', 'C-' accepted). Proved for strings not starting with a letter, plus the converse."
  },
  {
   "property": "C12",
   "status": "proved",
   "theorems": [
    "Melodia.C12_octave",
    "Melodia.C12_octave_of_notation",
    "Melodia.C12_transposed"
   ],
   "note": "Full."
  },
  {
   "property": "C13",
   "status": "proved",
   "theorems": [
    "Melodia.C13_order",
    "Melodia.C13_total_order"
   ],
   "note": "Full."
  },
  {
   "property": "C14",
   "status": "proved",
   "theorems": [
    "Melodia.C14_frequency",
    "Melodia.C14_octaves_of_a4",
    "Melodia.C14_default",
    "Melodia.C14_accuracy",
    "Melodia.C14_increasing",
    "Melodia.C14_octave"
   ],
   "note": "Full, relative to the stated contract of the C pow function (PowTwo: exact at integers, error at most one ulp); exponent range unbounded in the model, theorems limited to 1000 octaves."
  },
  {
   "property": "C15",
   "status": "proved",
   "theorems": [
    "Melodia.C15_constructor",
    "Melodia.C15_failures",
    "Melodia.C15_defaults",
    "Melodia.C15_valid"
   ],
   "note": "Full for the modelled argument types."
  },
  {
   "property": "C16",
   "status": "proved",
   "theorems": [
    "Melodia.C16_transposed",
    "Melodia.C16_with_duration",
    "Melodia.C16_with_velocity",
    "Melodia.C16_failures"
   ],
   "note": "Full."
  },
  {
   "property": "C17",
   "status": "proved",
   "theorems": [
    "Melodia.C17_eq",
    "Melodia.C17_equivalence"
   ],
   "note": "Full."
  },
  {
   "property": "C18",
   "status": "partial",
   "theorems": [
    "Melodia.C18_violated",
    "Melodia.C18_lex_partial",
    "Melodia.C18_reversed"
   ],
   "note": "Violated when tones are equal and the left duration has a smaller denominator; exact characterisation in both cases."
  },
  {
   "property": "C19",
   "status": "proved",
   "theorems": [
    "Melodia.C19_contents",
    "Melodia.C19_notes_unchanged"
   ],
   "note": "Full for all histories of add (nested iterables, explicit/default positions), failing add, iteration and observation."
  },
  {
   "property": "C20",
   "status": "proved",
   "theorems": [
    "Melodia.C20_ascending",
    "Melodia.C20_chords_ascending"
   ],
   "note": "Full."
  },
  {
   "property": "C21",
   "status": "partial",
   "theorems": [
    "Melodia.C21_violated",
    "Melodia.C21_observation_partial",
    "Melodia.C21_order_partial"
   ],
   "note": "Violated: the order of notes at one position can depend on earlier iteration (C21_violated). Everything else an observation returns is proved unaffected; order proved when equal-pitch notes at one position have consistent durations."
  },
  {
   "property": "C22",
   "status": "partial",
   "theorems": [
    "Melodia.C22_violated",
    "Melodia.C22_step",
    "Melodia.C22_length_partial",
    "Melodia.C22_attained"
   ],
   "note": "Violated through the comparison bug (C22_violated). Exact effect of one add, attainment for all histories, and the property for histories that do not trigger the bug."
  },
  {
   "property": "C23",
   "status": "proved",
   "theorems": [
    "Melodia.C23_default_position"
   ],
   "note": "Full."
  },
  {
   "property": "C24",
   "status": "proved",
   "theorems": [
    "Melodia.C24_atomic"
   ],
   "note": "Full; stated on the stateful model."
  },
  {
   "property": "C25",
   "status": "partial",
   "theorems": [
    "Melodia.C25_violated",
    "Melodia.C25_eq_iff",
    "Melodia.C25_refl_symm",
    "Melodia.C25_same_length_partial",
    "Melodia.C25_key_meaning"
   ],
   "note": "Violated: zip truncates. Exact characterisation; reflexive and symmetric; proved for equal lengths."
  },
  {
   "property": "C26",
   "status": "partial",
   "theorems": [
    "Melodia.C26_violated",
    "Melodia.C26_order_partial",
    "Melodia.C26_equal_partial"
   ],
   "note": "Violated for equal pitch and position with different durations; contents and positions always equal; proved under ConsistentPlaced."
  },
  {
   "property": "C27",
   "status": "partial",
   "theorems": [
    "Melodia.C27_violated",
    "Melodia.C27_rebuild_partial",
    "Melodia.C27_equal_partial"
   ],
   "note": "Violated as C26; rebuilding always succeeds with same contents; equality proved under ConsistentPlaced."
  },
  {
   "property": "C28",
   "status": "proved",
   "theorems": [
    "Melodia.C28_result",
    "Melodia.C28_input_unchanged",
    "Melodia.C28_sequence_consistent"
   ],
   "note": "Full: the placed notes agree apart from velocity, for every outcome of the generator. C28_sequence_consistent adds index-wise agreement where the comparison bug (C05) cannot reorder notes."
  },
  {
   "property": "C29",
   "status": "proved",
   "theorems": [
    "Melodia.C29_in_range",
    "Melodia.C29_velocities",
    "Melodia.C29_failures",
    "Melodia.C29_swapped"
   ],
   "note": "Full; also determines which value each note gets and the behaviour for minimum > maximum."
  },
  {
   "property": "C30",
   "status": "proved",
   "theorems": [
    "Melodia.C30_table",
    "Melodia.C30_shape",
    "Melodia.C30_chord",
    "Melodia.C30_failures",
    "Melodia.C30_ascending"
   ],
   "note": "Full for all 50 functions."
  },
  {
   "property": "C31",
   "status": "proved",
   "theorems": [
    "Melodia.C31_aliases",
    "Melodia.C31_transpose"
   ],
   "note": "Full."
  },
  {
   "property": "C32",
   "status": "partial",
   "theorems": [
    "Melodia.C32_violated",
    "Melodia.C32_names_partial",
    "Melodia.C32_chords_partial",
    "Melodia.C32_chords_violated"
   ],
   "note": "Violated for minor69, min69, min7b9, added9, add9 (C32_violated, C32_chords_violated); all other functions play exactly the chord their name denotes (C32_chords_partial)."
  },
  {
   "property": "C33",
   "status": "proved",
   "theorems": [
    "Melodia.C33_encode",
    "Melodia.C33_unique",
    "Melodia.C33_read",
    "Melodia.C33_roundtrip"
   ],
   "note": "Full; reading is proved for the reader applied to any buffer and offset."
  },
  {
   "property": "C34",
   "status": "proved",
   "theorems": [
    "Melodia.C34_constructor",
    "Melodia.C34_wellformed",
    "Melodia.C34_unambiguous"
   ],
   "note": "Full: whenever dump succeeds on a reachable track. C34_unambiguous: the grammar determines the messages."
  },
  {
   "property": "C35",
   "status": "proved",
   "theorems": [
    "Melodia.C35_notes",
    "Melodia.C35_multiset"
   ],
   "note": "Full."
  },
  {
   "property": "C36",
   "status": "proved",
   "theorems": [
    "Melodia.C36_pulses",
    "Melodia.C36_note_times",
    "Melodia.C36_monotone",
    "Melodia.C36_writer"
   ],
   "note": "Full."
  },
  {
   "property": "C37",
   "status": "proved",
   "theorems": [
    "Melodia.C37_atomic",
    "Melodia.C37_atomic_small",
    "Melodia.C37_valueError",
    "Melodia.C37_zeroDivision",
    "Melodia.C37_overflow"
   ],
   "note": "Full classification of the exceptions. The statement was corrected after the proof attempt: a NaN tempo also gives ValueError, and ppq > 255 gives OverflowError (C38). For bodies of 4 GiB or more dump is not atomic: the header chunk has been written."
  },
  {
   "property": "C38",
   "status": "partial",
   "theorems": [
    "Melodia.C38_violated",
    "Melodia.C38_partial",
    "Melodia.C38_fits_partial"
   ],
   "note": "Violated for every ppq in 256..32767: the writer puts ppq into the one-byte metronome field. Proved for ppq <= 255."
  },
  {
   "property": "C39",
   "status": "proved",
   "theorems": [
    "Melodia.C39_loads_terminates"
   ],
   "note": "Full: the step budget (input length) is never exhausted, and returned tracks come from valid add calls."
  },
  {
   "property": "C40",
   "status": "partial",
   "theorems": [
    "Melodia.C40_violated",
    "Melodia.C40_assertion_violated",
    "Melodia.C40_exceptions_partial",
    "Melodia.C40_wellheaded_partial"
   ],
   "note": "Violated: a track without a first status byte gives RecursionError (for every such file), division 0 with a note gives AssertionError. C40_exceptions_partial is the exact list of exceptions for all byte strings."
  },
  {
   "property": "C41",
   "status": "proved",
   "theorems": [
    "Melodia.C41_truncated"
   ],
   "note": "Full: every strict prefix, every reader and channel, files of any size."
  },
  {
   "property": "C42",
   "status": "proved",
   "theorems": [
    "Melodia.C42_roundtrip",
    "Melodia.C42_roundtrip_noOverlap",
    "Melodia.C42_module_functions",
    "Melodia.C42_other_channel"
   ],
   "note": "Full for the amended statement (files below 16 MiB, see C44)."
  },
  {
   "property": "C43",
   "status": "partial",
   "theorems": [
    "Melodia.C43_violated",
    "Melodia.C43_lost_violated",
    "Melodia.C43_exact_partial",
    "Melodia.C43_equal_partial"
   ],
   "note": "Violated (velocities are quantised; overlapping same-pitch notes and velocity 0 are lost). Exact description of what is read for all tracks below 16 MiB, and equality under the stated conditions."
  },
  {
   "property": "C44",
   "status": "partial",
   "theorems": [
    "Melodia.C44_large_violated",
    "Melodia.C44_violated",
    "Melodia.C44_small_partial"
   ],
   "note": "Violated: the reader uses only three bytes of the chunk length, so no file with 2^24 or more bytes of track data can be read. Readable iff below."
  },
  {
   "property": "C45",
   "status": "proved",
   "theorems": [
    "Melodia.C45_unknown_chunk_skipped"
   ],
   "note": "Full: also for any bytes after the inserted chunk."
  },
  {
   "property": "C46",
   "status": "partial",
   "theorems": [
    "Melodia.C46_rejected_partial",
    "Melodia.C46_violated"
   ],
   "note": "Violated: a system exclusive event always makes the reader raise MIDIParsingError (proved for all tracks and payloads)."
  },
  {
   "property": "C47",
   "status": "proved",
   "theorems": [
    "Melodia.C47_running_status"
   ],
   "note": "Full: any two encodings of the same events, also with padded variable-length quantities."
  },
  {
   "property": "C48",
   "status": "proved",
   "theorems": [
    "Melodia.C48_unsupported_skipped"
   ],
   "note": "Full, with C47 for any encodings."
  },
  {
   "property": "C49",
   "status": "proved",
   "theorems": [
    "Melodia.C49_notes_are_pairs",
    "Melodia.C49_pairs_unique",
    "Melodia.C49_no_overlap",
    "Melodia.C49_no_overlap_time"
   ],
   "note": "Full: exact multiset of notes from a declarative pairing, with uniqueness and non-overlap."
  },
  {
   "property": "C50",
   "status": "proved",
   "theorems": [
    "Melodia.C50_channel",
    "Melodia.C50_negative_channel",
    "Melodia.C50_all_channels"
   ],
   "note": "Full for format 0 files (header and one track; C45 allows further chunks)."
  },
  {
   "property": "C51",
   "status": "proved",
   "theorems": [
    "Melodia.C51_byte",
    "Melodia.C51_monotone",
    "Melodia.C51_read",
    "Melodia.C51_lossless",
    "Melodia.C51_error"
   ],
   "note": "Full; the floating-point product can round up to the next integer, the bounds state by how much."
  },
  {
   "property": "C52",
   "status": "partial",
   "theorems": [
    "Melodia.C52_violated",
    "Melodia.C52_resave_partial"
   ],
   "note": "Violated in a corner case (zero-duration note at the position of another of the same pitch). Proved for notes of which no two of one pitch overlap or start together, and time signatures other than 0/n."
  },
  {
   "property": "C53",
   "status": "proved",
   "theorems": [
    "Melodia.C53_middle_c_shift",
    "Melodia.C53_roundtrip_shift"
   ],
   "note": "Full; the first half under the round-trip conditions of C42."
  },
  {
   "property": "C54",
   "status": "proved",
   "theorems": [
    "Melodia.C54_tone_repr",
    "Melodia.C54_tone_str",
    "Melodia.C54_signature_str",
    "Melodia.C54_signature_repr",
    "Melodia.C54_note_repr",
    "Melodia.C54_note_str",
    "Melodia.C54_track_repr",
    "Melodia.C54_track_repr_iterates",
    "Melodia.C54_track_str"
   ],
   "note": "Full; repr of floats is any text identifying doubles (contract FloatText)."
  },
  {
   "property": "C55",
   "status": "partial",
   "theorems": [
    "Melodia.C55_winner",
    "Melodia.C55_sorted_partial",
    "Melodia.C55_single",
    "Melodia.C55_violated",
    "Melodia.C55_same_denominator_partial"
   ],
   "note": "Violated: channels with 3/4 and 1/1 give 3/4. C55_winner determines the result for every accepted file; proved to be a largest signature when no denominator is smaller than one before it (C55_sorted_partial)."
  },
  {
   "property": "C56",
   "status": "partial",
   "theorems": [
    "Melodia.C56_endless_violated",
    "Melodia.C56_repeated_violated",
    "Melodia.C56_snapshot_partial"
   ],
   "note": "Violated: on every non-empty track a body adding notes on the track's own grid loops for ever (C56_endless_violated); a single addition can make the loop repeat a note (C56_repeated_violated). Holds for bodies that add nothing, and for bodies whose first addition is on a finer grid (C56_snapshot_partial)."
  },
  {
   "property": "C57",
   "status": "proved",
   "theorems": [
    "Melodia.C57_error",
    "Melodia.C57_monotone",
    "Melodia.C57_no_new_overlap",
    "Melodia.C57_distinct",
    "Melodia.C57_notes"
   ],
   "note": "Full."
  },
  {
   "property": "C58",
   "status": "partial",
   "theorems": [
    "Melodia.C58_time_partial",
    "Melodia.C58_drift",
    "Melodia.C58_violated",
    "Melodia.C58_resave_partial"
   ],
   "note": "Violated: a time that is not a multiple of the odd part of ppq moves back by one pulse in every cycle (C58_violated, C58_drift gives the position after any number of cycles). C58_resave_partial describes the re-saved file exactly."
  },
  {
   "property": "C59",
   "status": "partial",
   "theorems": [
    "Melodia.C59_last_wins",
    "Melodia.C59_last_of_many",
    "Melodia.C59_violated"
   ],
   "note": "Violated: reading gives the last file only, without an error (exactly: C59_last_wins, C59_last_of_many)."
  },
  {
   "property": "C60",
   "status": "proved",
   "theorems": [
    "Melodia.C60_trailing_ignored",
    "Melodia.C60_missing_end"
   ],
   "note": "Full."
  },
  {
   "property": "C61",
   "status": "partial",
   "theorems": [
    "Melodia.C61_accepted_partial",
    "Melodia.C61_bad_header",
    "Melodia.C61_no_header",
    "Melodia.C61_no_track",
    "Melodia.C61_violated"
   ],
   "note": "Violated in one point: several track chunks are accepted although the header announces one, and all but the last are lost (C61_violated). Everything else proved for all byte strings."
  },
  {
   "property": "C62",
   "status": "proved",
   "theorems": [
    "Melodia.C62_constructor"
   ],
   "note": "Full."
  },
  {
   "property": "C63",
   "status": "proved",
   "theorems": [
    "Melodia.C63_constructor",
    "Melodia.C63_machine"
   ],
   "note": "Full (refinement of the abstract machine in Spec/TrackMachine.lean); sharpens C19, C20 and C22 to an exact description. C63_constructor: Track(signature, content) is the empty track with the adds, or TypeError/ValueError."
  },
  {
   "property": "C64",
   "status": "partial",
   "theorems": [
    "Melodia.C64_violated",
    "Melodia.C64_iterable_violated",
    "Melodia.C64_notes_partial"
   ],
   "note": "Violated for every track: the foreign object stays in the track (C64_violated), and so do the notes before it (C64_iterable_violated). Holds for iterables of notes."
  },
  {
   "property": "C65",
   "status": "proved",
   "theorems": [
    "Melodia.C65_sequence",
    "Melodia.C65_melody",
    "Melodia.C65_chord"
   ],
   "note": "Full for the stated groups; the boundary (groups with a smaller denominator after a larger one) is an effect of C05, see C22_violated and the example."
  },
  {
   "property": "C66",
   "status": "proved",
   "theorems": [
    "Melodia.C66_roundtrip",
    "Melodia.C66_sequence"
   ],
   "note": "Full. C42 is the exact version for whole pulses."
  },
  {
   "property": "C67",
   "status": "proved",
   "theorems": [
    "Melodia.C67_writer",
    "Melodia.C67_reader",
    "Melodia.C67_defaults",
    "Melodia.C67_module_defaults",
    "Melodia.C67_keys"
   ],
   "note": "Full."
  },
  {
   "property": "C68",
   "status": "partial",
   "theorems": [
    "Melodia.C68_same_file_partial",
    "Melodia.C68_again",
    "Melodia.C68_injective",
    "Melodia.C68_converse",
    "Melodia.C68_violated"
   ],
   "note": "Violated for tracks with two notes of one pitch at one position and different durations with different denominators (C68_violated); proved for all others. Converse: C68_converse without any condition (equal bytes give equal resolution, time signature, tempo number and the same starts, keys, velocity bytes and ends in pulses); C68_injective: the same notes under the conditions of C42."
  },
  {
   "property": "C69",
   "status": "partial",
   "theorems": [
    "Melodia.C69_velocity",
    "Melodia.C69_tempo",
    "Melodia.C69_read",
    "Melodia.C69_frequency_partial",
    "Melodia.C69_frequency_violated",
    "Melodia.C69_frequency_all_partial"
   ],
   "note": "Velocities and tempos: full. to_frequency: violated by tones 1024 or more octaves above A4, which raise OverflowError (C69_frequency_violated). C69_frequency_all_partial gives the outcome for every tone, for every positive finite double as base: the frequency with an error bound, infinity if it is beyond the largest double, or OverflowError; C69_frequency_partial: no difference to unbounded exponents within 1000 octaves, for bases from 2^-20 to 2^20."
  },
  {
   "property": "C70",
   "status": "proved",
   "theorems": [
    "Melodia.C70_portions",
    "Melodia.C70_never_wrong",
    "Melodia.C70_whole"
   ],
   "note": "Full."
  },
  {
   "property": "C71",
   "status": "partial",
   "theorems": [
    "Melodia.C71_interrupted_partial",
    "Melodia.C71_violated"
   ],
   "note": "Proved for file objects that take all bytes or raise. Violated by those that take fewer bytes without raising (unbuffered files, sockets): dump ignores the result of write (C71_violated)."
  },
  {
   "property": "C72",
   "status": "proved",
   "theorems": [
    "Melodia.C72_language",
    "Melodia.C72_channel_language",
    "Melodia.C72_music",
    "Melodia.C72_channel_music",
    "Melodia.C72_unambiguous",
    "Melodia.C72_standard"
   ],
   "note": "Full. For the time signature of all channels together see C55."
  },
  {
   "property": "C73",
   "status": "proved",
   "theorems": [
    "Melodia.C73_size"
   ],
   "note": "Full."
  },
  {
   "property": "C74",
   "status": "proved",
   "theorems": [
    "Melodia.C74_seconds",
    "Melodia.C74_playback",
    "Melodia.C74_exact"
   ],
   "note": "Full, relative to the player in Spec/Playback.lean (deltas and tempo events as in the MIDI standard)."
  },
  {
   "property": "C75",
   "status": "proved",
   "theorems": [
    "Melodia.C75_roundtrip",
    "Melodia.C75_equal",
    "Melodia.C75_limit"
   ],
   "note": "Full; composes C37, C38, C42 and C44."
  },
  {
   "property": "C76",
   "status": "proved",
   "theorems": [
    "Melodia.C76_nested",
    "Melodia.C76_notes",
    "Melodia.C76_string",
    "Melodia.C76_track"
   ],
   "note": "Full, for arguments that are finite trees of notes, iterables, strings and other objects. Only calls of add count against the recursion limit."
  },
  {
   "property": "C77",
   "status": "partial",
   "theorems": [
    "Melodia.C77_accepts",
    "Melodia.C77_rejects",
    "Melodia.C77_violated",
    "Melodia.C77_ints_partial"
   ],
   "note": "Violated: floats (also infinity) are accepted as nominators, and normalized and with it dump raises TypeError on them (C77_violated). C77_accepts and C77_rejects determine the outcome for all values; on ints it is the constructor of C01 (C77_ints_partial)."
  },
  {
   "property": "C78",
   "status": "proved",
   "theorems": [
    "Melodia.C78_track",
    "Melodia.C78_file"
   ],
   "note": "Full. Uses the chord table (C30), end to end adding (C65) and the round trip (C75); the example is the program of the README itself."
  },
  {
   "property": "C79",
   "status": "proved",
   "theorems": [
    "Melodia.C79_tone",
    "Melodia.C79_signature",
    "Melodia.C79_note",
    "Melodia.C79_track"
   ],
   "note": "Full. A tokenizer, parser and evaluator for a subset of Python's expressions are part of the model; that repr of a float reads back is a contract (FloatLiteral) with an instance. The failing case of equality is C27_violated."
  },
  {
   "property": "C80",
   "status": "partial",
   "theorems": [
    "Melodia.C80_violated",
    "Melodia.C80_different_partial",
    "Melodia.C80_order",
    "Melodia.C80_tracks_unordered",
    "Melodia.C80_same_class",
    "Melodia.C80_operators",
    "Melodia.C80_member_foreign",
    "Melodia.C80_member"
   ],
   "note": "The first sentence is false: C80_violated; == and != between different classes always raise AttributeError (C80_different_partial), so a search in a mixed list depends on what comes first (C80_member, exact for tones). The rest holds in full. Foreign objects are those whose comparison methods do not know melodia's classes."
  },
  {
   "property": "C81",
   "status": "partial",
   "theorems": [
    "Melodia.C81_sum",
    "Melodia.C81_sum_perm",
    "Melodia.C81_sum_append",
    "Melodia.C81_distributive",
    "Melodia.C81_sum_violated",
    "Melodia.C81_max_violated",
    "Melodia.C81_max_partial",
    "Melodia.C81_min_partial",
    "Melodia.C81_max_iff",
    "Melodia.C81_empty"
   ],
   "note": "sum with a start value, order, grouping and distributivity hold in full. sum without a start raises TypeError (C81_sum_violated, no __radd__). max and min fail for mixed denominators (C81_max_violated, the comparison bug of C05) and hold if the denominators do not decrease along the list (C81_max_partial, C81_min_partial); C81_max_iff: for every other sequence of denominators they fail for some nominators."
  },
  {
   "property": "C82",
   "status": "partial",
   "theorems": [
    "Melodia.C82_file_partial",
    "Melodia.C82_violated"
   ],
   "note": "False in general: C82_violated, three notes of one tone at one position, two shorter than a pulse; the comparison bug of signatures reorders them and the file changes although no velocity does. Holds if every note lasts at least one pulse, or if durations of notes of equal tone at one position compare correctly (C82_file_partial); byte level and message level."
  },
  {
   "property": "C83",
   "status": "proved",
   "theorems": [
    "Melodia.C83_read",
    "Melodia.C83_consecutive",
    "Melodia.C83_after_failure",
    "Melodia.C83_again",
    "Melodia.C83_refinement",
    "Melodia.C83_outside"
   ],
   "note": "C83_outside: for readers moved before their data a read can succeed with too few bytes; the code never does that (C83_refinement)."
  },
  {
   "property": "C84",
   "status": "proved",
   "theorems": [
    "Melodia.C84_serialize_test",
    "Melodia.C84_track_test"
   ],
   "note": "C75_equal (equality of the track read back) applied to the programs of the tests; zero durations included."
  },
  {
   "property": "C85",
   "status": "proved",
   "theorems": [
    "Melodia.C85_independent",
    "Melodia.C85_exhausted",
    "Melodia.C85_member"
   ],
   "note": "Full. What an iterator misses or repeats when notes are added is the subject of C56."
  },
  {
   "property": "C86",
   "status": "proved",
   "theorems": [
    "Melodia.C86_settings",
    "Melodia.C86_success",
    "Melodia.C86_tempo",
    "Melodia.C86_channel"
   ],
   "note": "Full. Middle C given as a tone; other forms of the argument are reduced to a tone by C34."
  },
  {
   "property": "C87",
   "status": "proved",
   "theorems": [
    "Melodia.C87_same_file",
    "Melodia.C87_program"
   ],
   "note": "Full; the condition on durations is part of the property (without it the order of equal notes depends on the history, C68)."
  },
  {
   "property": "C88",
   "status": "proved",
   "theorems": [
    "Melodia.C88_later",
    "Melodia.C88_error"
   ],
   "note": "Full; condition as in C87."
  },
  {
   "property": "C89",
   "status": "partial",
   "theorems": [
    "Melodia.C89_accepts",
    "Melodia.C89_rejects",
    "Melodia.C89_float_ppq",
    "Melodia.C89_other_bpm",
    "Melodia.C89_other_bpm_error",
    "Melodia.C89_float_channel",
    "Melodia.C89_float_channel_empty",
    "Melodia.C89_usable_partial",
    "Melodia.C89_violated"
   ],
   "note": "Violated: C89_violated, C89_float_ppq, C89_other_bpm, C89_float_channel. C89_accepts and C89_rejects say exactly what the constructor does; C89_usable_partial is the part that holds (ints or bools with a numeric tempo). Overflow of a float product with a huge nominator is not modelled; it could only replace one exception by another."
  },
  {
   "property": "C90",
   "status": "proved",
   "theorems": [
    "Melodia.C90_accepts",
    "Melodia.C90_same",
    "Melodia.C90_compare",
    "Melodia.C90_kept"
   ],
   "note": "Full. Other kinds of numbers (Fraction, Decimal, numpy) are not modelled."
  },
  {
   "property": "C91",
   "status": "proved",
   "theorems": [
    "Melodia.C91_constructor",
    "Melodia.C91_attributes",
    "Melodia.C91_equality",
    "Melodia.C91_order",
    "Melodia.C91_order_wrong",
    "Melodia.C91_sum",
    "Melodia.C91_product",
    "Melodia.C91_abs",
    "Melodia.C91_normalized",
    "Melodia.C91_to",
    "Melodia.C91_texts"
   ],
   "note": "Full, for the abstract syntax in Verif/Source/SignatureModule.lean (written by tools/translate.py) and the meaning of Python in Verif/Python. C91_order states what the text does in both cases; C91_order_wrong is the violation C05 on the text itself."
  },
  {
   "property": "C92",
   "status": "proved",
   "theorems": [
    "Melodia.C92_constructor",
    "Melodia.C92_comparisons",
    "Melodia.C92_transposed",
    "Melodia.C92_from_notation",
    "Melodia.C92_to_notation",
    "Melodia.C92_repr",
    "Melodia.C92_to_frequency"
   ],
   "note": "Full, for the abstract syntax in Verif/Source/ToneModule.lean (written by tools/translate.py) and the meaning of Python in Verif/Python. to_frequency is relative to the value W.powTwo gives for 2 ** x."
  },
  {
   "property": "C93",
   "status": "proved",
   "theorems": [
    "Melodia.C93_constructor",
    "Melodia.C93_failures",
    "Melodia.C93_attributes",
    "Melodia.C93_changed",
    "Melodia.C93_equality",
    "Melodia.C93_order",
    "Melodia.C93_texts"
   ],
   "note": "Full, for the abstract syntax in Verif/Source/NoteModule.lean (written by tools/translate.py) and the meaning of Python in Verif/Python. Arguments: tones, ints, strings, None, floats, tuples and signatures as tone; signatures, tuples of ints, None, ints, floats and tones as duration; any float as velocity."
  },
  {
   "property": "C94",
   "status": "proved",
   "theorems": [
    "Melodia.C94_chord",
    "Melodia.C94_defaults",
    "Melodia.C94_failures"
   ],
   "note": "Full, for the abstract syntax in Verif/Source/ChordModule.lean (written by tools/translate.py) and the meaning of Python in Verif/Python. Arguments as in C93; a note is a base as well."
  },
  {
   "property": "C95",
   "status": "proved",
   "theorems": [
    "Melodia.C95_constructor",
    "Melodia.C95_add",
    "Melodia.C95_attributes",
    "Melodia.C95_iteration",
    "Melodia.C95_repr",
    "Melodia.C95_equality",
    "Melodia.C95_equality_self",
    "Melodia.C95_program"
   ],
   "note": "Full, for the abstract syntax in Verif/Source/TrackModule.lean (written by tools/translate.py) and the meaning of Python in Verif/Python. Arguments what: notes and nested tuples and lists of notes; iterators, generators and tracks as arguments of add are outside."
  },
  {
   "property": "C96",
   "status": "proved",
   "theorems": [
    "Melodia.C96_constructor",
    "Melodia.C96_refines",
    "Melodia.C96_refines_file",
    "Melodia.C96_dumps",
    "Melodia.C96_dump",
    "Melodia.C96_program"
   ],
   "note": "Full, for the abstract syntax in Verif/Source/MidiModule.lean (written by tools/translate.py) and the meaning of Python in Verif/Python. bpm is a float, int or bool; pulses_per_quarter and channel are ints; files are binary files positioned at their end."
  },
  {
   "property": "C97",
   "status": "proved",
   "theorems": [
    "Melodia.C97_refines",
    "Melodia.C97_result",
    "Melodia.C97_failures"
   ],
   "note": "Full, for the abstract syntax in Verif/Source/ProcessingModule.lean (written by tools/translate.py) and the meaning of Python in Verif/Python. The options are floats."
  },
  {
   "property": "C98",
   "status": "proved",
   "theorems": [
    "Melodia.C98_constructor",
    "Melodia.C98_refines",
    "Melodia.C98_total",
    "Melodia.C98_channel",
    "Melodia.C98_negative_channel",
    "Melodia.C98_all_channels"
   ],
   "note": "Full, for the abstract syntax in Verif/Source/MidiModule.lean (written by tools/translate.py) and the meaning of Python in Verif/Python. The channel is None or an int. In this meaning recursion is unlimited, so for track chunks without a first status byte the text does not end (in Python: RecursionError, C40); these files are left out of the general statement."
  },
  {
   "property": "C99",
   "status": "proved",
   "theorems": [
    "Melodia.C99_dumps",
    "Melodia.C99_dump",
    "Melodia.C99_roundtrip",
    "Melodia.C99_equal",
    "Melodia.C99_program"
   ],
   "note": "Full, as for C96 and C98. The conditions are those of C42 and C43; without them the notes are lost or changed (C43, C44, C52, C58)."
  },
  {
   "property": "C100",
   "status": "proved",
   "theorems": [
    "Melodia.C100_text",
    "Melodia.C100_supported"
   ],
   "note": "Full. The lines are copied by tools/embed.py. The abstract syntax, written by tools/translate.py from Python's own parser, has no annotations and no docstrings; the parser in Lean reads and drops them. C100_supported: the program passes the test of Python/Supported.lean, so it cannot observe the evaluator's simplifications about classes, scopes and files."
  },
  {
   "property": "C101",
   "status": "proved",
   "theorems": [
    "Melodia.C101_regenerated"
   ],
   "note": "Full, for the model of the generator in Verif/Model/Generator.lean and the lines of the file; C105 proves that the script itself writes this text."
  },
  {
   "property": "C102",
   "status": "proved",
   "theorems": [
    "Melodia.C102_written",
    "Melodia.C102_single",
    "Melodia.C102_refused"
   ],
   "note": "Full. The text is written by the model of the generator (C105 proves that the script writes it), lexed and parsed in Lean for an arbitrary table, and the functions it contains are executed by the Python semantics. They are called as functions of the present program: the names they use (Note, _get_parameters) have their present meaning, so a table with a chord named like one of these is not covered. The surprising cases are C102_single and C102_refused."
  },
  {
   "property": "C103",
   "status": "proved",
   "theorems": [
    "Melodia.C103_file",
    "Melodia.C103_refines",
    "Melodia.C103_failures"
   ],
   "note": "Full for scripts of this form. The text is lexed and parsed in Lean for arbitrary lines, its imports are resolved in the program parsed from /repo (C100), and its statements are executed by the Python semantics together with the functions of melodia they call. Base texts and file names are printable ASCII without quotation marks and backslashes. Not modelled: the name of the file on disk and closing it at the end of `with`; the claim is about the file object the script opened. C103_refines covers any signature and arguments, also beyond the limits, by the model of C78."
  },
  {
   "property": "C104",
   "status": "proved",
   "theorems": [
    "Melodia.C104_imports",
    "Melodia.C104_star",
    "Melodia.C104_names",
    "Melodia.C104_attributes"
   ],
   "note": "Full. The statements of a module with the names they need are computed in Lean from its text; the machine that executes imports (partly executed modules, packages before their modules, a complete module being bound in its package) follows the Language Reference. Names of the standard library are taken from a list (Python/Imports.lean: stdlib); values are not computed during the import, that the statements of tone.py and midi.py can be executed is part of C92 and C98. Local variables used before they are assigned are the subject of C106."
  },
  {
   "property": "C105",
   "status": "proved",
   "theorems": [
    "Melodia.C105_text",
    "Melodia.C105_supported",
    "Melodia.C105_script",
    "Melodia.C105_regenerates",
    "Melodia.C105_functions",
    "Melodia.C105_import"
   ],
   "note": "Full for the command line with one argument. The module argparse is described by two classes (Spec/GeneratorRun.lean): add_argument does nothing and parse_args returns an object with the argument. The text file keeps characters; its encoding and the line ends of the platform are left out. Functions read the variables of the script through the module name, as in an import, where the values are those of the statements before the guard. The table is given by its values: a row is the call Chord('…', '…', […]) with integer literals."
  },
  {
   "property": "C106",
   "status": "proved",
   "theorems": [
    "Melodia.C106_assigned",
    "Melodia.C106_generator",
    "Melodia.C106_returns",
    "Melodia.C106_no_result"
   ],
   "note": "Full. The paths are an inductive relation on the syntax that C100 proves to be that of the text (Spec/Paths.lean): conditions are not evaluated, so there are more paths than executions; an expression reads any of its variables in any order. That every execution by the evaluator is such a path is not proved. A nested function counts as reading the variables around it when it is defined; variables are never deleted. A name that is assigned nowhere in the function is not one of its variables; that such names are bound in the module or built in is C104_names. C106_no_result lists the functions without result, so that a dropped return is noticed."
  },
  {
   "property": "C107",
   "status": "proved",
   "theorems": [
    "Melodia.C107_from_notation",
    "Melodia.C107_cases",
    "Melodia.C107_printing",
    "Melodia.C107_roundtrip",
    "Melodia.C107_unlimited"
   ],
   "note": "Full, for the hand-written model (the source-level claims C92 and following are without the limit). The other text forms are C110."
  },
  {
   "property": "C108",
   "status": "proved",
   "theorems": [
    "Melodia.C108_outside",
    "Melodia.C108_classes",
    "Melodia.C108_inside",
    "Melodia.C108_functions",
    "Melodia.C108_constructors",
    "Melodia.C108_direct"
   ],
   "note": "Full, for the rule of the data model in Spec/ObjectModel.lean (properties without setters, slots, no __dict__) and the syntax that C100 proves to be that of the text. Names with an underscore can be assigned to, as everywhere in Python; calling __init__ again from outside is not excluded; melodia itself never does so (C108_direct), and its constructors assign only to the new object (C108_constructors). The event classes of the reader have no __slots__ and are not part of the first sentence."
  },
  {
   "property": "C109",
   "status": "partial",
   "theorems": [
    "Melodia.C109_violated",
    "Melodia.C109_hash_partial"
   ],
   "note": "Violated for all objects of these classes: they define __eq__ without __hash__, which makes hash raise TypeError (C109_violated). C109_hash_partial: the writer and the readers have a hash. The rule is that of the Language Reference 3.3.1 (Spec/ObjectModel.lean)."
  },
  {
   "property": "C110",
   "status": "proved",
   "theorems": [
    "Melodia.C110_signature",
    "Melodia.C110_note",
    "Melodia.C110_track_str",
    "Melodia.C110_track_repr",
    "Melodia.C110_unlimited",
    "Melodia.C110_roundtrip"
   ],
   "note": "Full, for the hand-written model (the source-level claims C91 and following are without the limit). The limit Python's parser applies to int literals of source text is not modelled: C110_roundtrip evaluates without it."
  },
  {
   "property": "C111",
   "status": "proved",
   "theorems": [
    "Melodia.C111_calls",
    "Melodia.C111_binding",
    "Melodia.C111_bound",
    "Melodia.C111_parameters",
    "Melodia.C111_properties"
   ],
   "note": "Full for calls with a known number of arguments; the three calls Signature(*x) are left out (C99 and C106 run them). Calls of functions outside melodia are those of C100. Names of parameters hide names of the module in the whole function. Default values are computed at each call (they are immutable)."
  },
  {
   "property": "C112",
   "status": "partial",
   "theorems": [
    "Melodia.C112_heads",
    "Melodia.C112_parameters",
    "Melodia.C112_results_partial",
    "Melodia.C112_violated",
    "Melodia.C112_none"
   ],
   "note": "Violated by one method (C112_violated); C112_results_partial: it is the only one. Parameters and None: full. The annotations are read off the source text (Spec/Annotations.lean). For _read_chunks, a generator, the statement about return does not apply."
  },
  {
   "property": "C113",
   "status": "proved",
   "theorems": [
    "Melodia.C113_results",
    "Melodia.C113_new",
    "Melodia.C113_defaults"
   ],
   "note": "Annotations as read off the source text by C112; float stands for floats only and int for ints that are not bools. Arguments by position; C111 says how the others are bound."
  },
  {
   "property": "C114",
   "status": "partial",
   "theorems": [
    "Melodia.C114_chords",
    "Melodia.C114_violated",
    "Melodia.C114_parameters_partial",
    "Melodia.C114_defaults"
   ],
   "note": "Full for the fifty chord functions (C114_chords) and for defaults. Violated by _get_parameters (C114_violated); C114_parameters_partial: it gives a Signature unless the duration is a pair, which it hands out as it is."
  },
  {
   "property": "C115",
   "status": "proved",
   "theorems": [
    "Melodia.C115_methods",
    "Melodia.C115_new",
    "Melodia.C115_processing",
    "Melodia.C115_defaults"
   ],
   "note": "Annotations as read off the source text by C112. Iterables given as arguments are tuples and lists, not iterators or generators. No argument is the private list of the track, and another track has a list of its own (`Separate`); no public operation hands out or shares that list. Arguments by position; C111 says how the others are bound."
  }
 ]
}