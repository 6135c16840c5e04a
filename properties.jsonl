{"id": "C01", "title": "Signature constructor accepts exactly the valid signatures", "statement": "Signature(n, d) succeeds, keeping n and d, exactly when n >= 0 and d is a positive power of two; in every other case it raises ValueError.", "quantifier": "all integers n, d", "why_tests_cant": "the domain is infinite; a test can only sample values and the check is a bit trick that must be right for every width", "anchors": ["src/melodia/core/signature.py:Signature.__init__"]}
{"id": "C02", "title": "normalized() is exact, lowest-terms and canonical", "statement": "For every signature, normalized() terminates, never raises, denotes the same rational number, has coprime nominator and denominator, is idempotent, and two signatures denote the same number iff their normalized forms have equal nominator and denominator.", "quantifier": "all signatures", "why_tests_cant": "the domain is infinite; a test can only sample values", "anchors": ["src/melodia/core/signature.py:Signature.normalized"]}
{"id": "C03", "title": "to(d) rescales exactly or raises ValueError", "statement": "s.to(d) succeeds iff d is a positive power of two with d >= s.denominator; then the result has denominator d and denotes the same number as s; otherwise it raises ValueError.", "quantifier": "all signatures s, all integers d", "why_tests_cant": "the domain is infinite; a test can only sample values", "anchors": ["src/melodia/core/signature.py:Signature.to"]}
{"id": "C04", "title": "Signature == is numeric equality", "statement": "a == b holds iff nominator/denominator denote the same rational number; hence == is an equivalence relation.", "quantifier": "all pairs/triples of signatures", "why_tests_cant": "the domain is infinite; a test can only sample values", "anchors": ["src/melodia/core/signature.py:Signature.__eq__", "src/melodia/core/signature.py:Signature._to_common_denominator"]}
{"id": "C05", "title": "Signature <, <=, >, >= agree with the numeric order", "statement": "a < b, a <= b, a > b, a >= b hold iff the corresponding relation holds between the rational numbers denoted.", "quantifier": "all pairs of signatures", "why_tests_cant": "the domain is infinite; a test can only sample values; existing tests only use operand orders for which the code happens to be right", "anchors": ["src/melodia/core/signature.py:Signature.__lt__", "src/melodia/core/signature.py:Signature.__le__", "src/melodia/core/signature.py:Signature.__gt__", "src/melodia/core/signature.py:Signature.__ge__", "src/melodia/core/signature.py:Signature._to_common_denominator"]}
{"id": "C06", "title": "Signature ordering is a total order consistent with ==", "statement": "Exactly one of a < b, a == b, a > b holds; a <= b iff not a > b; a < b iff b > a; < is transitive.", "quantifier": "all pairs/triples of signatures", "why_tests_cant": "the domain is infinite; a test can only sample values", "anchors": ["src/melodia/core/signature.py:Signature.__lt__", "src/melodia/core/signature.py:Signature.__gt__", "src/melodia/core/signature.py:Signature.__eq__"]}
{"id": "C07", "title": "Signature + is exact rational addition", "statement": "a + b never raises, denotes exactly the sum, is commutative and associative (with equal nominators and denominators, not merely ==), and its denominator is the larger of the two.", "quantifier": "all pairs/triples of signatures", "why_tests_cant": "the domain is infinite; a test can only sample values", "anchors": ["src/melodia/core/signature.py:Signature.__add__", "src/melodia/core/signature.py:Signature._to_common_denominator"]}
{"id": "C08", "title": "Signature * and abs are exact", "statement": "a * b never raises and denotes exactly the product; it is commutative, associative and has unit Signature(1, 1); abs(a) is a.", "quantifier": "all pairs/triples of signatures", "why_tests_cant": "the domain is infinite; a test can only sample values", "anchors": ["src/melodia/core/signature.py:Signature.__mul__", "src/melodia/core/signature.py:Signature.__abs__"]}
{"id": "C09", "title": "Tone notation round-trip", "statement": "Tone.from_notation(t.to_notation(transpose_down=b)) == t for both values of b; the notation consists of a letter A-G, at most one accidental ('#' for b=False, 'b' for b=True) and the decimal octave.", "quantifier": "all integer pitches (including negative), both spellings", "why_tests_cant": "the domain is infinite; a test can only sample values", "anchors": ["src/melodia/core/tone.py:Tone.to_notation", "src/melodia/core/tone.py:Tone.from_notation"]}
{"id": "C10", "title": "from_notation: acceptance and meaning", "statement": "from_notation accepts a string iff its first character is one of A..G, and raises ValueError otherwise; the pitch is 12*octave + letter + (#sharps - #flats), where the accidentals are the maximal run of '#'/'b' after the letter, the octave is the maximal following optionally signed run of digits (0 if absent), and everything after is ignored.", "quantifier": "all strings, including arbitrarily many accidentals, arbitrarily long octaves, arbitrary suffixes", "why_tests_cant": "the set of strings is infinite; regex greediness/backtracking must be right for every one", "anchors": ["src/melodia/core/tone.py:Tone.from_notation", "src/melodia/core/tone.py:_notation_regex"]}
{"id": "C11", "title": "from_notation rejects malformed strings", "statement": "A string that is not exactly letter + accidentals + optional integer octave (e.g. 'C4xyz', 'C-', 'Hello'[1:]) raises ValueError, as the documentation says ('Raises ValueError if notation can not be parsed').", "quantifier": "all strings", "why_tests_cant": "the set of strings is infinite", "anchors": ["src/melodia/core/tone.py:Tone.from_notation"]}
{"id": "C12", "title": "octave, pitch class and transposition", "statement": "pitch = 12*octave + pitch class with 0 <= pitch class < 12; from_notation(letter + str(k)).octave == k for each letter and every integer k; transposed(k) adds exactly k to the pitch, transposed(a).transposed(b) == transposed(a+b), transposed(0) == self, transposed(12) raises the octave by one and keeps the name.", "quantifier": "all integer pitches and transpositions", "why_tests_cant": "the domain is infinite; a test can only sample values", "anchors": ["src/melodia/core/tone.py:Tone.octave", "src/melodia/core/tone.py:Tone.transposed"]}
{"id": "C13", "title": "Tone comparisons form the linear order of pitches", "statement": "==, <, <=, >, >= on tones hold iff they hold on pitches; so they are a total order and transposition is strictly monotone.", "quantifier": "all pairs of tones", "why_tests_cant": "the domain is infinite; a test can only sample values", "anchors": ["src/melodia/core/tone.py:Tone.__eq__", "src/melodia/core/tone.py:Tone.__lt__", "src/melodia/core/tone.py:Tone.__le__", "src/melodia/core/tone.py:Tone.__gt__", "src/melodia/core/tone.py:Tone.__ge__"]}
{"id": "C14", "title": "to_frequency is equal temperament", "statement": "In exact arithmetic A4 has frequency base, each octave doubles it, twelve equal semitone steps make an octave, the frequency is strictly increasing in pitch for base > 0 and linear in base. On doubles, within 1000 octaves of A4: all octaves of A4 are exact, every frequency has a relative error of at most (|pitch-57|/12 + 4)*2^-53 against equal temperament, octaves double up to the corresponding error, scaling the base by powers of two is exact, and the frequency is still strictly increasing in pitch.", "quantifier": "all pitches, all positive bases", "why_tests_cant": "the domain is infinite; a test can only sample values and compares with a tolerance chosen by hand", "anchors": ["src/melodia/core/tone.py:Tone.to_frequency"]}
{"id": "C15", "title": "Note constructor coerces and validates", "statement": "Note(tone, duration, velocity) succeeds iff tone is a Tone, an integer or a parsable string, duration is a Signature or a pair of integers forming one, and 0 <= velocity <= 1 (NaN rejected); the resulting components are the coerced arguments (duration 1/4 and velocity 0.75 if left out); otherwise TypeError/ValueError is raised.", "quantifier": "all argument values of the modelled types", "why_tests_cant": "the domain is infinite; a test can only sample values", "anchors": ["src/melodia/core/note.py:Note.__init__"]}
{"id": "C16", "title": "Note.transposed/with_duration/with_velocity change one component only", "statement": "n.transposed(k) never raises and differs from n only in tone (shifted by k); with_duration and with_velocity raise only on invalid arguments and otherwise replace only that component; n itself is unchanged.", "quantifier": "all notes, all arguments", "why_tests_cant": "the domain is infinite; a test can only sample values", "anchors": ["src/melodia/core/note.py:Note.transposed", "src/melodia/core/note.py:Note.with_duration", "src/melodia/core/note.py:Note.with_velocity"]}
{"id": "C17", "title": "Note equality is component-wise value equality", "statement": "a == b iff pitches are equal, durations denote the same number and velocities are equal; hence an equivalence relation.", "quantifier": "all pairs/triples of notes", "why_tests_cant": "the domain is infinite; a test can only sample values", "anchors": ["src/melodia/core/note.py:Note.__eq__", "src/melodia/core/note.py:Note._as_triplet"]}
{"id": "C18", "title": "Note ordering is lexicographic on (pitch, duration, velocity)", "statement": "a < b (<=, >, >=) iff (pitch, duration value, velocity) of a is lexicographically smaller (..) than that of b.", "quantifier": "all pairs of notes", "why_tests_cant": "the domain is infinite; a test can only sample values", "anchors": ["src/melodia/core/note.py:Note.__lt__", "src/melodia/core/note.py:Note.__le__", "src/melodia/core/note.py:Note.__gt__", "src/melodia/core/note.py:Note.__ge__"]}
{"id": "C19", "title": "Track is a multiset of placed notes under any history", "statement": "After any sequence of add (single notes, nested iterables, explicit or default positions), iteration, len, length and failing add calls, iterating the track yields exactly the added notes, each at the position value it was added at and nothing else; len(track) is their number.", "quantifier": "all operation histories of any length", "why_tests_cant": "histories are unboundedly many; heap order and denominator rescaling depend on the whole history", "anchors": ["src/melodia/core/track.py:Track.add", "src/melodia/core/track.py:Track.__iter__", "src/melodia/core/track.py:Track.__len__"]}
{"id": "C20", "title": "Track iteration is in ascending position order", "statement": "After any history, the positions yielded by iteration are non-decreasing as rational numbers, and notes at equal positions are yielded in non-decreasing order of pitch.", "quantifier": "all operation histories", "why_tests_cant": "depends on the interplay of heap, rescaling, cached sorted flag and comparison operators for every history", "anchors": ["src/melodia/core/track.py:Track.__iter__", "src/melodia/core/track.py:Track.add"]}
{"id": "C21", "title": "Observing a track does not change it", "statement": "Iterating, taking len/length/str/repr or dumping a track any number of times at any points of a history does not change what later observations return.", "quantifier": "all histories and all placements of observations in them", "why_tests_cant": "the code caches a sort in place; interference could show up in any interleaving of adds and reads", "anchors": ["src/melodia/core/track.py:Track.__iter__", "src/melodia/core/track.py:Track.length", "src/melodia/core/track.py:Track.__len__", "src/melodia/io/midi.py:MIDIWriter.dump"]}
{"id": "C22", "title": "Track.length is the right-most note ending", "statement": "After any history, track.length equals max(position + duration) over the notes in the track (0 for an empty track), as a rational number.", "quantifier": "all histories", "why_tests_cant": "depends on the order and denominators of all notes added", "anchors": ["src/melodia/core/track.py:Track.length", "src/melodia/core/track.py:Track.add"]}
{"id": "C23", "title": "Default position is the end of the track", "statement": "add(what) without position places every note of what at the position equal to track.length before the call, also when what contains several notes; explicit positions are used as given.", "quantifier": "all histories, all (nested) iterables of notes", "why_tests_cant": "the domain is infinite; a test can only sample values", "anchors": ["src/melodia/core/track.py:Track.add"]}
{"id": "C24", "title": "A failing add leaves the track unchanged; a well-typed add never fails", "statement": "add raises ValueError/TypeError exactly when the position argument is not a valid signature, and then the track is unchanged; with a valid or missing position add never raises.", "quantifier": "all histories, all position arguments", "why_tests_cant": "internal rescaling could raise or half-apply for some history", "anchors": ["src/melodia/core/track.py:Track.add"]}
{"id": "C25", "title": "Track equality means same signature and same contents", "statement": "a == b iff the time signatures are equal and iteration yields equal (position, note) sequences; hence == is an equivalence relation.", "quantifier": "all pairs/triples of tracks", "why_tests_cant": "the domain is infinite; a test can only sample values", "anchors": ["src/melodia/core/track.py:Track.__eq__"]}
{"id": "C26", "title": "Track contents do not depend on insertion order", "statement": "Two tracks with the same signature to which the same (position, note) pairs were added in different orders are equal and iterate identically.", "quantifier": "all finite multisets of placed notes and all permutations of them", "why_tests_cant": "factorially many insertion orders for every multiset", "anchors": ["src/melodia/core/track.py:Track.add", "src/melodia/core/track.py:Track.__iter__", "src/melodia/core/track.py:Track.__eq__"]}
{"id": "C27", "title": "Rebuilding a track from its own contents gives an equal track", "statement": "Track(t.signature, [(note, position) for position, note in t]) == t, with the same number of notes and identical iteration.", "quantifier": "all reachable tracks", "why_tests_cant": "the domain is infinite; a test can only sample values", "anchors": ["src/melodia/core/track.py:Track.__init__", "src/melodia/core/track.py:Track.__iter__", "src/melodia/core/track.py:Track.__eq__"]}
{"id": "C28", "title": "randomize_velocities changes velocities only", "statement": "The result has the same signature and, as a collection, notes with the same positions, tones and durations as the input, yielded at the same sequence of positions; in iteration order too if notes of equal pitch and position have consistent durations (otherwise the comparison of C05 may reorder them); the input track is unchanged.", "quantifier": "all tracks, all parameters, all outcomes of the random generator", "why_tests_cant": "depends on random numbers; must hold for every outcome", "anchors": ["src/melodia/processing/track.py:randomize_velocities"]}
{"id": "C29", "title": "randomize_velocities keeps velocities in range and never fails on valid parameters", "statement": "With 0 <= minimum <= maximum <= 1, 0 <= mean <= 1, variance >= 0 every resulting velocity lies in [minimum, maximum] whatever the random generator returns and no exception is raised; parameters outside the documented ranges raise ValueError.", "quantifier": "all tracks, all parameters, all outcomes of the random generator (including non-finite ones)", "why_tests_cant": "depends on random numbers; must hold for every outcome", "anchors": ["src/melodia/processing/track.py:randomize_velocities"]}
{"id": "C30", "title": "Chords are the documented interval stacks", "statement": "Every chord function returns notes whose pitches are the base pitch plus exactly the intervals listed in the generator script, root first, strictly ascending, all with the requested duration and velocity (defaulting to those of a Note base, else 1/4 and 0.75); it raises exactly when the base, duration or velocity is invalid.", "quantifier": "all chord functions, all bases (int, str, Tone, Note), durations and velocities", "why_tests_cant": "the domain is infinite; a test can only sample values", "anchors": ["src/melodia/music/chord.py", "scripts/generate_chords.py"]}
{"id": "C31", "title": "Chord aliases agree and commute with transposition", "statement": "Functions documented as the same chord (maj/major, ...) return equal results for all arguments, and chord(base transposed by k) is chord(base) with every note transposed by k.", "quantifier": "all chord functions, arguments, transpositions", "why_tests_cant": "the domain is infinite; a test can only sample values", "anchors": ["src/melodia/music/chord.py", "scripts/generate_chords.py"]}
{"id": "C32", "title": "Chord names describe their quality", "statement": "Every chord function plays the chord its name denotes, with quality (major/maj, minor/min, dominant/dom, augmented/aug, diminished/dim, suspended/sus, added/add), extension (7, 9, 11, 69) and alterations (b5, s5, b9, _major7, _minor7, _minor9) read as in music theory; in particular chords named minor/min contain the minor third (+3) and no major third, chords named major/maj/dominant contain the major third (+4), and an added ninth is a triad plus ninth.", "quantifier": "all chord functions, all bases", "why_tests_cant": "needs all bases; and the suite has no chord tests at all", "anchors": ["src/melodia/music/chord.py", "scripts/generate_chords.py"]}
{"id": "C33", "title": "Variable-length quantities: standard encoding and round-trip", "statement": "For every n >= 0 the writer's delta-time encoding is the standard MIDI variable-length quantity (big-endian base-128, continuation bit on all but the last byte, no leading zero septet), and reading it followed by any bytes returns n and consumes exactly the encoding.", "quantifier": "all non-negative integers n, all following bytes", "why_tests_cant": "the domain is infinite; a test can only sample values", "anchors": ["src/melodia/io/midi.py:MIDIWriter._format_var_len", "src/melodia/io/midi.py:MIDIReader._read_var_len"]}
{"id": "C34", "title": "dump writes a well-formed Standard MIDI File", "statement": "Whenever dump succeeds, the bytes are a 14-byte MThd chunk (format 0, one track, the division) followed by one MTrk chunk whose length field is exact and whose body is a sequence of delta-time/event pairs: time signature, tempo, note events on the chosen channel, end of track; all data bytes of note events are < 0x80.", "quantifier": "all writers, all tracks", "why_tests_cant": "the domain is infinite; a test can only sample values", "anchors": ["src/melodia/io/midi.py:MIDIWriter.dump", "src/melodia/io/midi.py:MIDIWriter._format_chunk", "src/melodia/io/midi.py:MIDIWriter._format_header_chunk"]}
{"id": "C35", "title": "dump emits exactly one on/off pair per note at the quantised times, in time order", "statement": "The note events written are, up to order, exactly one note-on at floor(4*ppq*position) and one note-off at that time + floor(4*ppq*duration) for every note in the track; events are written in non-decreasing time and each note's off comes after its on.", "quantifier": "all writers, all tracks", "why_tests_cant": "the domain is infinite; a test can only sample values", "anchors": ["src/melodia/io/midi.py:MIDIWriter.dump", "src/melodia/io/midi.py:MIDIWriter._signature_to_pulses", "src/melodia/io/midi.py:MIDIWriter._format_note_on", "src/melodia/io/midi.py:MIDIWriter._format_note_off"]}
{"id": "C36", "title": "Quantisation error of written times is less than a pulse (two for ends)", "statement": "0 <= 4*ppq*position - on time < 1 and 0 <= 4*ppq*(position+duration) - off time < 2; times are exact iff the value is a multiple of a pulse; quantisation is monotone.", "quantifier": "all writers, all signatures", "why_tests_cant": "the domain is infinite; a test can only sample values", "anchors": ["src/melodia/io/midi.py:MIDIWriter._signature_to_pulses", "src/melodia/io/midi.py:MIDIWriter.dump"]}
{"id": "C37", "title": "dump fails atomically and only for unrepresentable data", "statement": "If dump raises, no byte has been written to the file (for track bodies under 4 GiB). It raises ValueError iff some tone is outside MIDI range 0..127 relative to middle C or the tempo is NaN (and the time signature fits), and OverflowError/ZeroDivisionError only for a time signature event (its metronome byte is filled with ppq, see C38), tempo or chunk length that does not fit the MIDI fields.", "quantifier": "all writers, tracks, files; every point where an exception can occur", "why_tests_cant": "every exception point for every input must come before the first write", "anchors": ["src/melodia/io/midi.py:MIDIWriter.dump"]}
{"id": "C38", "title": "Every accepted MIDIWriter configuration can write", "statement": "Any writer accepted by the constructor (ppq in [1, 32767], channel in [0, 15]) can write every track whose tones, signature and tempo are representable.", "quantifier": "all writer configurations and tracks", "why_tests_cant": "the constructor range has 32767 x 16 configurations; the suite uses only a handful with dump", "anchors": ["src/melodia/io/midi.py:MIDIWriter.__init__", "src/melodia/io/midi.py:MIDIWriter.dump", "src/melodia/io/midi.py:MIDIWriter._format_signature"]}
{"id": "C39", "title": "loads terminates on every byte string", "statement": "loads(data) always terminates (no byte string makes the parser loop forever), either returning a track whose notes are valid or raising an exception.", "quantifier": "all byte strings", "why_tests_cant": "infinitely many malformed inputs", "anchors": ["src/melodia/io/midi.py:MIDIReader.loads", "src/melodia/io/midi.py:MIDIReader._parse_track", "src/melodia/io/midi.py:MIDIReader._read_chunks"]}
{"id": "C40", "title": "Malformed files raise MIDIParsingError only", "statement": "For every byte string, loads(data) returns a track or raises MIDIParsingError; with a channel argument it may additionally raise ValueError for an absent channel. No other exception escapes.", "quantifier": "all byte strings, all channel arguments", "why_tests_cant": "infinitely many malformed inputs", "anchors": ["src/melodia/io/midi.py:MIDIReader.load", "src/melodia/io/midi.py:MIDIReader._parse_track", "src/melodia/io/midi.py:MIDIReader._time_to_signature"]}
{"id": "C41", "title": "Truncated files are rejected", "statement": "Every strict prefix of the bytes written by dump (a crash or short write at any point) makes load raise MIDIParsingError; it never yields a silently shortened track.", "quantifier": "all tracks, all crash points in the written byte stream", "why_tests_cant": "all truncation points of all files", "anchors": ["src/melodia/io/midi.py:MIDIReader._read_chunks", "src/melodia/io/midi.py:MIDIReader.load", "src/melodia/io/midi.py:MIDIWriter.dump"]}
{"id": "C42", "title": "MIDI round-trip", "statement": "For every track that dump accepts into a file with less than 2^24 bytes of track data (larger files: C44), whose positions and durations are whole pulses, whose velocities quantise to at least 1 and whose same-pitch notes do not overlap (each ends no later than the next in iteration order begins; in particular if no two such notes overlap or start at the same position), loads(dumps(track)) with the same middle C returns a track with an equal time signature and exactly the same notes: same position, tone and duration, velocity = k/127 as a double, k being the integer part of the floating-point product 127*v (C51). Reading with the written channel gives the same, any other channel raises ValueError.", "quantifier": "all such tracks, ppq, middle C, channel and tempo", "why_tests_cant": "unboundedly many tracks; event ordering at equal times matters", "anchors": ["src/melodia/io/midi.py:MIDIWriter.dumps", "src/melodia/io/midi.py:MIDIReader.loads"]}
{"id": "C43", "title": "MIDI round-trip without side conditions", "statement": "loads(dumps(track)) == track for every track that dump accepts.", "quantifier": "all tracks", "why_tests_cant": "the domain is infinite; a test can only sample values", "anchors": ["src/melodia/io/midi.py:MIDIWriter.dumps", "src/melodia/io/midi.py:MIDIReader.loads"]}
{"id": "C44", "title": "Large files round-trip", "statement": "The reader accepts and correctly interprets track chunks of every size the writer can produce (up to 2^32 - 1 bytes).", "quantifier": "all chunk sizes", "why_tests_cant": "tests would need multi-megabyte files of every size", "anchors": ["src/melodia/io/midi.py:MIDIReader._read_chunks", "src/melodia/io/midi.py:MIDIWriter._format_chunk"]}
{"id": "C45", "title": "Unknown chunks are skipped", "statement": "Inserting a chunk of unknown type (any 4-byte kind other than MThd/MTrk, any body below 2^24 bytes) between chunks, before or after, does not change what load returns.", "quantifier": "all byte strings consisting of chunks, all insertion points, all unknown chunks", "why_tests_cant": "the domain is infinite; a test can only sample values", "anchors": ["src/melodia/io/midi.py:MIDIReader.load", "src/melodia/io/midi.py:MIDIReader._read_chunks"]}
{"id": "C46", "title": "System exclusive events are skipped", "statement": "A track containing a system-exclusive event F0 .. F7 loads as if the event were absent.", "quantifier": "all tracks, all sysex payloads", "why_tests_cant": "the domain is infinite; a test can only sample values", "anchors": ["src/melodia/io/midi.py:MIDIReader._parse_track"]}
{"id": "C47", "title": "Running status is equivalent to explicit status", "statement": "Omitting a repeated channel-message status byte (MIDI running status) does not change what load returns.", "quantifier": "all event sequences and all choices of which repeated status bytes to omit", "why_tests_cant": "exponentially many encodings of every sequence", "anchors": ["src/melodia/io/midi.py:MIDIReader._parse_track"]}
{"id": "C48", "title": "Unsupported events are skipped", "statement": "Meta events other than time signature, channel prefix and end of track, and channel messages other than note on/off, only contribute their delta-time.", "quantifier": "all event sequences, payloads and insertion points", "why_tests_cant": "the domain is infinite; a test can only sample values", "anchors": ["src/melodia/io/midi.py:MIDIReader._parse_track"]}
{"id": "C49", "title": "Note pairing in the reader", "statement": "For every stream of note events of a channel, the notes produced are: for each pitch, a note starts at a note-on when none of that pitch is sounding and ends at the first following note-off (or note-on with velocity 0) of that pitch; other note-ons/offs are ignored; notes never closed are dropped; notes of one pitch never overlap.", "quantifier": "all event streams", "why_tests_cant": "unboundedly many interleavings of on/off events", "anchors": ["src/melodia/io/midi.py:MIDIReader._parse_track"]}
{"id": "C50", "title": "Channel selection", "statement": "For files of one track, load(channel=c) returns exactly the notes of channel c with its time signature (ValueError if the file has no note events for c; a file without any note event counts as having an empty channel 0); load() without channel returns the union of the notes of all channels.", "quantifier": "all files and channels", "why_tests_cant": "the domain is infinite; a test can only sample values", "anchors": ["src/melodia/io/midi.py:MIDIReader.load"]}
{"id": "C51", "title": "Velocity quantisation", "statement": "The written velocity byte is the integer part of the floating-point product 127*v, in 0..127, monotone in v; reading it back gives k/127 in [0, 1]; writing that again gives the same byte (re-quantisation is lossless), and the velocity error is below 1/127 up to rounding.", "quantifier": "all velocities in [0, 1]; all 128 bytes", "why_tests_cant": "all doubles in [0,1]", "anchors": ["src/melodia/io/midi.py:MIDIWriter._format_note_on", "src/melodia/io/midi.py:MIDIReader._parse_track"]}
{"id": "C52", "title": "Re-saving a loaded file is stable", "statement": "For tracks satisfying the round-trip conditions, dumps(loads(dumps(track))) with the same settings is byte-for-byte dumps(track).", "quantifier": "all such tracks and settings", "why_tests_cant": "the domain is infinite; a test can only sample values", "anchors": ["src/melodia/io/midi.py:MIDIWriter.dumps", "src/melodia/io/midi.py:MIDIReader.loads"]}
{"id": "C53", "title": "Middle C settings shift pitches uniformly", "statement": "Reading with the middle C used for writing restores tones; reading with another middle C shifts all tones by the difference and changes nothing else.", "quantifier": "all tracks and middle C values", "why_tests_cant": "the domain is infinite; a test can only sample values", "anchors": ["src/melodia/io/midi.py:MIDIWriter.__init__", "src/melodia/io/midi.py:MIDIReader.__init__", "src/melodia/io/midi.py:MIDIReader._pitch_to_tone"]}
{"id": "C54", "title": "Text forms identify the value", "statement": "repr of Tone, Signature and Note and str of Tone and Signature determine the object (equal text implies identical fields); str of a note determines tone, duration and the velocity up to 0.001; repr of a track determines its signature and its iterated contents; str of a track shows exactly signature and number of notes.", "quantifier": "all objects", "why_tests_cant": "the domain is infinite; a test can only sample values", "anchors": ["src/melodia/core/tone.py:Tone.__repr__", "src/melodia/core/signature.py:Signature.__repr__", "src/melodia/core/signature.py:Signature.__str__", "src/melodia/core/track.py:Track.__repr__", "src/melodia/core/note.py:Note.__repr__", "src/melodia/core/note.py:Note.__str__", "src/melodia/core/track.py:Track.__str__", "src/melodia/core/tone.py:Tone.__str__"]}
{"id": "C55", "title": "load() without a channel uses the largest time signature", "statement": "load() without a channel argument gives the merged track the largest of the time signatures of the channels that have notes.", "quantifier": "all files, all combinations of channel time signatures", "why_tests_cant": "The code compares signatures pairwise starting from 0/1; tests only try a few signatures, while the reversed comparison for smaller denominators shows up only for particular combinations and orders of channels.", "anchors": ["src/melodia/io/midi.py:MIDIReader.load", "src/melodia/core/signature.py:Signature.__gt__"]}
{"id": "C56", "title": "A loop over a track visits the notes the track had when the loop started", "statement": "`for position, note in track: ...` visits exactly the notes that were in the track when the loop started, once each and in ascending order, and ends, even if the loop body adds notes to the same track.", "quantifier": "all tracks, all loop bodies, any number of iterations", "why_tests_cant": "depends on the interleaving of iteration and additions, on list aliasing and on whether an addition happens to rescale the track; the failing loops do not end, so a test cannot observe them", "anchors": ["src/melodia/core/track.py:Track.__iter__", "src/melodia/core/track.py:Track.add"]}
{"id": "C57", "title": "Times read from a file are accurate", "statement": "Every position and duration read from a file of any resolution is valid and lies less than 1/16384 of a whole note before the exact time, never after it; it is exact whenever the exact time is a multiple of 1/16384; reading is monotone, never makes consecutive notes overlap, and keeps different times apart exactly when the file has at most 4096 pulses per quarter.", "quantifier": "all times and resolutions, all notes of all files", "why_tests_cant": "the rounding error depends on the divisibility of every time by the resolution; tests sample a few", "anchors": ["src/melodia/io/midi.py:MIDIReader._time_to_signature", "src/melodia/io/midi.py:MIDIReader._parse_track"]}
{"id": "C58", "title": "Loading and saving at the same resolution keeps note times", "statement": "Reading a channel of a file and writing it again with the same pulses per quarter, middle C and channel writes every note at its old pulses, however often this is repeated.", "quantifier": "all files, all resolutions, any number of load/save cycles", "why_tests_cant": "rounding in the reader and in the writer interact; drift only shows for times that are not multiples of the odd part of the resolution, and accumulates over repetitions", "anchors": ["src/melodia/io/midi.py:MIDIReader._time_to_signature", "src/melodia/io/midi.py:MIDIWriter._signature_to_pulses"]}
{"id": "C59", "title": "Music appended to a file is not lost on reading", "statement": "Writing several tracks one after the other to the same file object and reading the file gives the notes of all of them, or an error; nothing is lost silently.", "quantifier": "all readable files, any number of them", "why_tests_cant": "quantifies over all pairs (lists) of files; the outcome depends on how parser state survives from one header to the next", "anchors": ["src/melodia/io/midi.py:MIDIReader.load", "src/melodia/io/midi.py:MIDIReader._read_chunks"]}
{"id": "C60", "title": "A track ends at its end-of-track event", "statement": "Bytes after the end-of-track event of a track chunk have no influence on what is read; a track chunk whose events contain no end of track is rejected with MIDIParsingError.", "quantifier": "all event sequences and encodings, all trailing bytes, all channels", "why_tests_cant": "arbitrary trailing bytes and arbitrary event sequences before", "anchors": ["src/melodia/io/midi.py:MIDIReader._parse_track"]}
{"id": "C61", "title": "Only single-track format 0 files are accepted", "statement": "A file that is read successfully consists of whole chunks, every header in it announces format 0, one track and a division in pulses per quarter, every track chunk follows a header, and there is exactly one track chunk; files of whole chunks (below 16 MiB each) whose first header is another, with a track before any header, or without a track raise MIDIParsingError, whatever unknown chunks come before.", "quantifier": "all byte strings", "why_tests_cant": "a statement about every byte string the reader accepts", "anchors": ["src/melodia/io/midi.py:MIDIReader.load", "src/melodia/io/midi.py:MIDIReader._parse_header"]}
{"id": "C62", "title": "Tone constructor accepts exactly ints", "statement": "Tone(x) succeeds iff x is an int, and then has that pitch, however large or negative; any other argument (a notation string, a Tone) raises ValueError.", "quantifier": "all argument values", "why_tests_cant": "all integers, all other values", "anchors": ["src/melodia/core/tone.py:Tone.__init__"]}
{"id": "C63", "title": "A track behaves like an abstract machine", "statement": "For every history of operations on a track, everything it shows except the order of notes at one position (signature, length with its denominator, number of notes, placed notes, denominators of the yielded positions) is what a machine without heap, sorting and signature arithmetic computes: placed notes as a multiset, the finest position denominator so far, and the length, which a note ending later replaces (or, if the length has the finer denominator, one ending earlier).", "quantifier": "all histories of operations with all arguments", "why_tests_cant": "refinement over unbounded histories; internal heap, lazily rescaled positions and lazy sorting", "anchors": ["src/melodia/core/track.py:Track.add", "src/melodia/core/track.py:Track.__iter__", "src/melodia/core/track.py:Track.length"]}
{"id": "C64", "title": "A call of add that raises leaves the track unchanged, whatever was passed", "statement": "If track.add(what, where) raises an exception because what is not a note or contains something that is not a note, the track is as it was before the call.", "quantifier": "all tracks, all positions, all objects and iterables with objects that are not notes", "why_tests_cant": "all tracks and all iterables; the effect is in the internal heap and shows only in later uses of the track", "anchors": ["src/melodia/core/track.py:Track.add"]}
{"id": "C65", "title": "Music added without positions is laid end to end", "statement": "Adding single notes or chords one after another without positions to a track, with any observations in between, places each at the end of the one before (the first at the length of the track), and makes the track longer by the sum of the (longest) durations. Groups may contain different durations as long as no denominator is smaller than an earlier one in the group.", "quantifier": "all reachable tracks, all sequences of notes and chords, all interleaved observations", "why_tests_cant": "unbounded sequences with arbitrary durations; depends on the interplay of signature comparison, rescaling and lazy sorting", "anchors": ["src/melodia/core/track.py:Track.add", "src/melodia/core/track.py:Track.__init__"]}
{"id": "C66", "title": "Writing and reading loses no note and moves none by more than a pulse", "statement": "If dump accepts a track of audible notes of which those of one pitch neither overlap nor start at the same position, then reading the file back gives a track with an equal time signature and notes that can be paired with the original ones such that each keeps its tone, starts earlier by less than a pulse plus 1/16384 of a whole note, is shorter by less than that, and has a velocity less by at most 1/127 (up to rounding), whether or not the times are whole pulses. Melodies and chord sequences laid end to end are such tracks.", "quantifier": "all reachable tracks and writer settings, files below 16 MiB", "why_tests_cant": "all rational times and all resolutions; floor rounding twice, ordering of simultaneous events, pairing of note-on and note-off", "anchors": ["src/melodia/io/midi.py:MIDIWriter.dump", "src/melodia/io/midi.py:MIDIReader.load"]}
{"id": "C67", "title": "Which configurations MIDIWriter and MIDIReader accept and what they mean", "statement": "MIDIWriter(ppq, middle_c, bpm, channel) succeeds iff 1 <= ppq <= 32767, 0 <= channel <= 15 and middle_c denotes a tone (a Tone, a pitch number or a notation); otherwise it raises ValueError, or TypeError for a middle_c of another type. MIDIReader(middle_c) succeeds iff middle_c denotes a tone. The defaults are 96, 'C3', 120, 0. A file written has division ppq, and one note-on per note on the given channel, with key 60 for middle_c and semitones counted from there.", "quantifier": "all arguments including all strings and all floats, all reachable tracks", "why_tests_cant": "all combinations of integers, strings and floats; all tracks", "anchors": ["src/melodia/io/midi.py:MIDIWriter.__init__", "src/melodia/io/midi.py:MIDIReader.__init__", "src/melodia/io/midi.py:MIDIWriter.dump"]}
{"id": "C68", "title": "The file is determined by the music, and the music by the file", "statement": "Two tracks with the same time signature (nominator and denominator) and the same notes at the same positions are written to the same bytes (or fail alike), however they were built, whatever the spelling of positions and durations, and however often they were observed or written before. Conversely, if two tracks are written to the same bytes, by whatever writers, then resolution, time signature and tempo number are the same and the notes have the same starts, keys, velocity bytes and ends in pulses; with exactly representable times they have the same notes up to the rounding of velocities.", "quantifier": "all pairs of histories, all writer settings", "why_tests_cant": "all pairs of insertion orders and spellings; the sort key and its tie-breaking are inconsistent", "anchors": ["src/melodia/io/midi.py:MIDIWriter.dump", "src/melodia/core/track.py:Track.__iter__"]}
{"id": "C69", "title": "Frequencies, velocities and tempos are computed without overflow or underflow", "statement": "With the exponent range of binary64 taken into account, velocity bytes, tempo events and velocities read from files are the same as with unbounded exponents, for all inputs; and every tone has a frequency.", "quantifier": "all doubles as velocities and tempos, all tones, all positive finite doubles as bases", "why_tests_cant": "all doubles down to subnormal numbers; unbounded pitches", "anchors": ["src/melodia/core/tone.py:Tone.to_frequency", "src/melodia/io/midi.py:MIDIWriter._format_note_on", "src/melodia/io/midi.py:MIDIWriter.dump", "src/melodia/io/midi.py:MIDIReader.load"]}
{"id": "C70", "title": "Streams that deliver fewer bytes than asked for never give wrong music", "statement": "Whatever portions a file object delivers its bytes in, load returns or raises what loads does for these bytes, or raises MIDIParsingError, or passes on the OSError of the file object; with file objects that deliver what they are asked for it agrees with loads.", "quantifier": "all byte strings, all ways of cutting them into portions, all readers and channels", "why_tests_cant": "all schedules of short reads and failures", "anchors": ["src/melodia/io/midi.py:MIDIReader._read_chunks", "src/melodia/io/midi.py:MIDIReader.load"]}
{"id": "C71", "title": "dump writes everything or raises, and an interrupted dump is not read as music", "statement": "When dump returns, the file object has got the whole file; when it raises because of the file object, what has been written is rejected by load unless it is the whole file.", "quantifier": "all tracks built through the API, all writer settings, all points of interruption, all sinks", "why_tests_cant": "all points of interruption of all files", "anchors": ["src/melodia/io/midi.py:MIDIWriter.dump"]}
{"id": "C72", "title": "Exactly which files are read, and as what", "statement": "loads accepts a byte string if and only if it is in an explicitly given grammar of chunks and events; the grammar is unambiguous, contains the standard's single-track files, and the notes and time signatures read are those of the events it assigns to the file. With a channel, a file is accepted if and only if it also has that channel; otherwise ValueError.", "quantifier": "all byte strings, all channels, all readers", "why_tests_cant": "an equivalence over all byte strings", "anchors": ["src/melodia/io/midi.py:MIDIReader.load", "src/melodia/io/midi.py:MIDIReader._parse_track", "src/melodia/io/midi.py:MIDIReader._read_chunks"]}
{"id": "C73", "title": "A file has at most one note for every six bytes", "statement": "A track that loads returns for a file of n bytes has at most (n - 26) / 6 notes: small files cannot blow up.", "quantifier": "all byte strings, all channels", "why_tests_cant": "adversarial input of any size", "anchors": ["src/melodia/io/midi.py:MIDIReader.load"]}
{"id": "C74", "title": "A written file plays at the stated tempo", "statement": "A Standard MIDI File player (delta pulses times the tempo in force) sounds exactly the notes of the track, each starting 240\u00b7position/bpm seconds after the beginning: never later by more than position/2^26 microseconds, earlier by at most one pulse plus about one microsecond per quarter note; the same with two pulses for the ends. Exactly in time when a quarter lasts a whole number of microseconds and the notes lie on the grid. The result does not depend on the player's initial tempo.", "quantifier": "all reachable tracks, all writer configurations with positive bpm, all players' initial tempos", "why_tests_cant": "accumulated rounding over tracks of any length, all tempos", "anchors": ["src/melodia/io/midi.py:MIDIWriter._format_tempo", "src/melodia/io/midi.py:MIDIWriter._signature_to_pulses", "src/melodia/io/midi.py:MIDIWriter.dump"]}
{"id": "C75", "title": "Writing and reading back as a whole", "statement": "midi.loads(midi.dumps(track, bpm, channel)) succeeds and gives the same music (velocities in steps of 1/127), for every track of at most 1198370 notes within the first 699050 whole notes, on the grid, with representable tones, audible notes that do not overlap or start together in one pitch, and bpm >= 4: conditions on the music only. With velocities k/127 the track read back is equal to the track. A track of 2^21 notes or more never comes back.", "quantifier": "all reachable tracks, bpm, channels", "why_tests_cant": "limits of size; all tracks", "anchors": ["src/melodia/io/midi.py:dumps", "src/melodia/io/midi.py:loads"]}
{"id": "C76", "title": "Track.add goes through nested arguments from left to right", "statement": "Track.add(x) accepts notes and iterables nested to any depth below the recursion limit: all the notes reached are added at the one position (the given one, or the end the track had before the call), nothing else changes. It ends at the first object that is not a note: AttributeError for an object that is not iterable (the notes before it have been added, and so has the object), RecursionError when the nesting exceeds the limit, in particular for every non-empty string (the notes before it have been added). Adding a non-empty track to a track always raises AttributeError and leaves a Signature in it where a note should be.", "quantifier": "all reachable tracks, all nested arguments, all recursion limits, all positions", "why_tests_cant": "arbitrary nesting; strings recurse for ever", "anchors": ["src/melodia/core/track.py:Track.add"]}
{"id": "C77", "title": "Signatures hold integers", "statement": "Signature(n, d) accepts exactly integers n >= 0 over integer powers of two, bools counting as integers, and raises ValueError for other numbers and TypeError for values that are not numbers.", "quantifier": "all pairs of Python values that are ints, bools, floats (infinities and NaN included) or not comparable with ints", "why_tests_cant": "all values; evaluation order of the three tests decides the exception", "anchors": ["src/melodia/core/signature.py:Signature.__init__", "src/melodia/core/signature.py:Signature.normalized"]}
{"id": "C78", "title": "Programs of the kind shown in the README work", "statement": "A program that makes a track with a valid signature, adds the results of chord functions one after the other, and dumps the track, builds a track in which these chords follow each other end to end, as long as all of them together; and, within the limits of MIDI (tones C-2 to G8, duration denominators up to 128, velocities of at least one MIDI step, up to 199728 chords and 699050 whole notes, tempo of at least 4 bpm, channel 0 to 15), dump succeeds and load returns exactly these chords at these positions.", "quantifier": "all signatures, all sequences of calls of documented chord functions with all forms of base, duration and velocity, all tempos and channels, all sorts", "why_tests_cant": "all programs of that form, any number of calls", "anchors": ["README.rst:40-51", "src/melodia/music/chord.py", "src/melodia/core/track.py:Track.add", "src/melodia/io/midi.py:dump", "src/melodia/io/midi.py:load"]}
{"id": "C79", "title": "The repr of an object is an expression for it", "statement": "For every tone, every signature, every note whose velocity is a double, repr(x) is a Python expression that evaluates, with the names of the four classes in scope, to an object with the same fields. For every track it evaluates to a track with the same signature and the same notes at the same positions, which is equal to the old track if notes at one position with equal tone, velocity and duration value have equally written durations.", "quantifier": "all ints as pitch, all valid signatures, all valid notes with velocities that are doubles, all reachable tracks of such notes, all sorts, all texts of floats that read back", "why_tests_cant": "all values of unbounded ints and all tracks", "anchors": ["src/melodia/core/tone.py:Tone.__repr__", "src/melodia/core/signature.py:Signature.__repr__", "src/melodia/core/note.py:Note.__repr__", "src/melodia/core/track.py:Track.__repr__"]}
{"id": "C80", "title": "Objects of different classes are unequal, and only tones, signatures and notes are ordered", "statement": "Comparing a tone, signature, note or track by == with an object of another class gives False (and != gives True), so such objects can be searched for in mixed lists. Order comparisons between different classes raise an error and never give an answer. Objects of one class can always be compared for equality, != is the negation of ==, and tones, signatures and notes can be compared by all operators. Between tones the operators compare pitches, between signatures values, between notes pitch, then duration, then velocity (where signatures compare correctly, C05).", "quantifier": "all pairs of tones, signatures, notes, tracks and foreign objects, all six operators, all lists of such objects, all sorts", "why_tests_cant": "all pairs of values of unbounded ints and all lists", "anchors": ["src/melodia/core/tone.py:Tone.__eq__", "src/melodia/core/signature.py:Signature.__eq__", "src/melodia/core/note.py:Note.__eq__", "src/melodia/core/track.py:Track.__eq__"]}
{"id": "C81", "title": "Sums, maxima and minima of signatures", "statement": "The built-in sum of signatures is exact, does not depend on the order or grouping of the summands, and multiplication distributes over it; max returns an element of largest value, min one of smallest value. Of no signatures, sum is the start value and max and min raise ValueError.", "quantifier": "all lists of valid signatures, all start values", "why_tests_cant": "lists of any length over unbounded ints", "anchors": ["src/melodia/core/signature.py:Signature.__add__", "src/melodia/core/signature.py:Signature.__mul__", "src/melodia/core/signature.py:Signature.__gt__", "src/melodia/core/signature.py:Signature.__lt__"]}
{"id": "C82", "title": "randomize_velocities changes only velocity bytes of the file", "statement": "The MIDI file written from the result of randomize_velocities has the length of the file written from the original track and differs from it at most in the velocity bytes of the note-on messages, one per note; delta times, pitches, note-offs, tempo and time signature are byte for byte the same. If the original cannot be written, neither can the result, with the same error.", "quantifier": "all reachable tracks, all valid writers, all parameters and outcomes of the random generator, all sorts", "why_tests_cant": "random outcomes, unbounded tracks, and the order of simultaneous messages depends on the sort of notes whose velocities changed", "anchors": ["src/melodia/processing/track.py:randomize_velocities", "src/melodia/io/midi.py:MIDIWriter.dumps", "src/melodia/core/track.py:Track.__iter__"]}
{"id": "C83", "title": "The byte reader is a cursor that never skips or repeats a byte", "statement": "A _Reader inside its data hands out consecutive pieces: whatever sizes are asked for, the pieces read so far and the rest make up the data, and all reads succeed exactly if there are enough bytes. A read beyond the end raises MIDIParsingError, returns nothing and leaves nothing to read; afterwards only read(0) succeeds, and shift(-k) gives access to the last k bytes. Reading, shifting back and reading again gives the same bytes. The chunk parsers, run on this mutable object whose state survives exceptions, compute for every chunk body what the model of the loader (readers as values) computes.", "quantifier": "all data, all sizes and sequences of reads, all chunk bodies", "why_tests_cant": "unboundedly many data and read sequences; the refinement speaks about all chunk bodies", "anchors": ["src/melodia/io/midi.py:_Reader", "src/melodia/io/midi.py:MIDIReader._parse_track", "src/melodia/io/midi.py:MIDIReader._parse_header"]}
{"id": "C84", "title": "The project's randomized tests pass for every random outcome", "statement": "test_midi_serialize: every track random_track_without_overlaps can make (signatures 0/16 to 100/16, pitches 30 to 90, durations 0/16 to 100/16, velocity 1, positions every 200/16, here up to 55000 notes) is written, read back, equal to the track read and has as many notes. test_track_eq: every track random_track can make is equal to itself.", "quantifier": "all outcomes of the random generator, all lengths up to 55000 notes, all sorts", "why_tests_cant": "the tests draw ten of some 10^800 outcomes", "anchors": ["src/melodia/io/midi.py:dumps", "src/melodia/io/midi.py:loads", "src/melodia/core/track.py:Track.__eq__"]}
{"id": "C85", "title": "Several iterators over one track", "statement": "Iterators over a track are independent: in a program that adds nothing to the track, the j-th call of next on any iterator gives the j-th note of the track and StopIteration after the last, whatever other iterators are created or advanced and however the track is looked at in between (nested loops, zip(track, track)). An iterator that has raised StopIteration raises it for ever, whatever is added afterwards. In every program, also with additions between the calls, each note an iterator gives is in the track at that moment, at the position given.", "quantifier": "all tracks, all programs (sequences of iter, next and uses of the track), any number of iterators", "why_tests_cant": "unboundedly many interleavings; whether iterators share a list depends on when the track was last sorted or rescaled", "anchors": ["src/melodia/core/track.py:Track.__iter__", "src/melodia/core/track.py:Track.add"]}
{"id": "C86", "title": "Each writer setting shows only in its own bytes", "statement": "Two writers with the same ppq write the same messages at the same times for any track: keys moved by the difference of the middle Cs, note messages on the channel of the writer, its tempo in the tempo message, and nothing else changed. With another bpm only bytes 34 to 36 of the file change; with another channel only status bytes of note messages, and writing still succeeds; if one writer succeeds, the other succeeds exactly if its keys are within 0..127 and its tempo fits three bytes, and its file has the same length.", "quantifier": "all tracks, all pairs of middle Cs, tempi and channels, every ppq", "why_tests_cant": "all combinations of settings for all tracks; a test compares a few files", "anchors": ["src/melodia/io/midi.py:MIDIWriter.__init__", "src/melodia/io/midi.py:MIDIWriter.dump"]}
{"id": "C87", "title": "Transposing a track and moving middle C along leaves the file unchanged", "statement": "If notes of equal pitch at one position have equal durations or equal duration denominators (as in C68), the track Track(t.signature, [(n.transposed(k), p) for p, n in t]) is written with a middle C k semitones higher to the very bytes t is written to, or both fail with the same exception; with the unchanged writer the messages are those of t with all keys moved by k. The same holds for any track with the notes of t moved by k semitones.", "quantifier": "all tracks with such durations, all k, all settings", "why_tests_cant": "relation between two runs for all tracks, intervals and settings", "anchors": ["src/melodia/io/midi.py:MIDIWriter.dump", "src/melodia/core/note.py:Note.transposed"]}
{"id": "C88", "title": "Delaying a track changes one delta time", "statement": "If all notes of a track start later by the same whole number n of pulses (durations compared correctly, as in C68), the file of the later track has the same messages with the same delta times, except that the delta time of the first note message is larger by n. If the first track cannot be written, neither can the later one, with the same exception; if it can, the later one can, unless the longer delta time brings the track body to 2^32 bytes.", "quantifier": "all non-empty tracks with such durations, all delays of whole pulses, all settings", "why_tests_cant": "relation between two runs for all tracks and delays; variable-length delta times change their size at unboundedly many values", "anchors": ["src/melodia/io/midi.py:MIDIWriter.dump", "src/melodia/io/midi.py:MIDIWriter._signature_to_pulses"]}
{"id": "C89", "title": "MIDIWriter rejects unusable settings when it is made", "statement": "A MIDIWriter that could be constructed has settings it can write with: whatever objects are given as pulses_per_quarter, bpm and channel, either the constructor raises, or dump treats the settings as the integers and the number they are, so that failures of dump depend on the track, the range of the pitches and the tempo only. (As it turns out, floats are accepted for pulses_per_quarter and channel and any object for bpm; with a float number of pulses or a tempo that is no number no track can be written, and with a float channel no track with notes.)", "quantifier": "all ints, bools, floats (infinities and NaN included) and objects that are no numbers as settings, all tracks, all files", "why_tests_cant": "the settings range over all values of several types, and that no track at all can be written is a statement over all tracks", "anchors": ["src/melodia/io/midi.py:MIDIWriter.__init__", "src/melodia/io/midi.py:MIDIWriter.dump"]}
{"id": "C90", "title": "A velocity given as an int or bool behaves like the equal float", "statement": "Note accepts as velocity exactly the numbers from 0 to 1 (ints, bools, floats), raises ValueError for other numbers, infinities and NaN and TypeError for objects that are no numbers, and keeps the object it was given. The note has the tone, the duration, the velocity byte and all comparisons of the note made with the equal float, and transposed, with_duration and with_velocity keep or set the velocity object.", "quantifier": "all tones, durations and velocities of the types named, all pairs of notes", "why_tests_cant": "all values of several types and all pairs of notes", "anchors": ["src/melodia/core/note.py:Note.__init__", "src/melodia/core/note.py:Note._as_triplet", "src/melodia/io/midi.py:MIDIWriter._format_note_on"]}
{"id": "C91", "title": "The text of signature.py computes with fractions", "statement": "Executing the source text of signature.py by the meaning of Python: Signature(n, d) succeeds exactly for n not negative and d a power of two and raises ValueError otherwise; == and != compare the fractions; +, *, abs, normalized and to end and give the sum, the product, the same fraction, the fraction in lowest terms and the fraction with the given denominator (ValueError if there is none); str and repr give the documented texts; memory is left unchanged. The four order operators compare the fractions unless the right denominator is the larger one, and then they compare with the operands swapped.", "quantifier": "all ints, all valid signatures and pairs of signatures, all states of the memory", "why_tests_cant": "all ints and all pairs of signatures; and the statement is about the text of the module itself, so no reading of the text by hand comes between", "anchors": ["src/melodia/core/signature.py:Signature"]}
{"id": "C92", "title": "The text of tone.py reads and writes the notation of tones", "statement": "Executing the source text of tone.py by the meaning of Python, with its module tables and its regular expression matched by backtracking: Tone(p), pitch, octave, transposed and the six comparison operators are those of the pitch; Tone.from_notation gives the tone denoted by the longest prefix of the string that is a notation and raises ValueError exactly if the string does not begin with one of A to G; to_notation and str give a letter, at most one accidental and the octave, and reading that text gives the tone back; to_frequency is the rounded product of the base (440 by default) and the power of two of the rounded quotient (pitch - 57) / 12; memory is left unchanged.", "quantifier": "all ints, strings, tones, pairs of tones and bases, all states of the memory, any set of digits outside ASCII", "why_tests_cant": "all strings and all tones; and the statement is about the text of the module itself, so no reading of the text by hand comes between", "anchors": ["src/melodia/core/tone.py:Tone", "src/melodia/core/tone.py:_notation_regex", "src/melodia/core/tone.py:_tone_mapping"]}
{"id": "C93", "title": "The text of note.py builds, changes, compares and writes notes", "statement": "Executing the source text of note.py by the meaning of Python: Note(t, d, x), by position or by name, is the note with the tone, duration and velocity the arguments denote (defaults 1/4 and 0.75) and raises TypeError or ValueError, whichever belongs to the first wrong argument; transposed, with_duration and with_velocity replace one component; == and != compare pitch, value of the duration and velocity; the order operators are lexicographic, except that for equal pitches and different durations of which the right one has the larger denominator the operands are swapped; str and repr give the documented texts; memory is left unchanged.", "quantifier": "all tones, ints, strings, tuples of ints, signatures and floats as arguments, all pairs of valid notes, all states of the memory, any set of digits outside ASCII", "why_tests_cant": "all arguments and all pairs of notes; and the statement is about the text of the module itself, so no reading of the text by hand comes between", "anchors": ["src/melodia/core/note.py:Note"]}
{"id": "C94", "title": "The text of chord.py contains every documented chord", "statement": "Executing the source text of chord.py by the meaning of Python: every name of the generator's table is a function of the module; for a base that denotes a pitch, with the duration and velocity given, or those of a note given as base, or 1/4 and 0.75, it returns the tuple of the notes at the documented intervals, in order; otherwise it raises TypeError or ValueError, and ValueError for a base of the wrong type; leaving out an argument is passing None; memory is left unchanged.", "quantifier": "all 50 functions, all ints, strings, tones, notes and other values as base, all durations and velocities, all states of the memory", "why_tests_cant": "all functions with all arguments; and the statement is about the text of the module itself, so no reading of the text by hand comes between", "anchors": ["src/melodia/music/chord.py:_get_parameters", "src/melodia/music/chord.py:major", "src/melodia/music/chord.py:dom11"]}
{"id": "C95", "title": "The text of track.py keeps exactly the notes it was given", "statement": "Executing the source text of track.py by the meaning of Python, with tracks as objects in memory: Track(s, content), by position or by name, makes a new track with the given signature and content or raises TypeError or ValueError; add, in all its call forms, adds the notes of its argument (notes, tuples and lists, nested) at the denoted position or at the length of the track, and raises without any change otherwise; iterating yields the placed notes in ascending order; length, signature, len, str and repr give the documented values; == and != compare signatures and entries as far as the shorter track goes. After any sequence of operations, including failing ones, the track contains exactly the notes added; objects other than the track are never changed.", "quantifier": "all states of the memory, all arguments of the documented types, all sequences of operations, any list.sort that sorts stably and looks at elements only by comparing them", "why_tests_cant": "all histories with all arguments on all states of the memory; and the statement is about the text of the module itself, so no reading of the text by hand comes between", "anchors": ["src/melodia/core/track.py:Track"]}
{"id": "C96", "title": "The text of the MIDI writer writes exactly the notes of the track", "statement": "Executing the source text of MIDIWriter in io/midi.py by the meaning of Python: MIDIWriter(...), with any of its options by keyword or all by position and the tempo a float, an int or a bool, succeeds exactly when pulses_per_quarter is in 1..32767, channel in 0..15 and middle_c denotes a tone, and raises ValueError or TypeError otherwise. w.dumps(t), for any track in memory, returns a Standard MIDI File whose messages are the time signature, the tempo, one note-on and one note-off per note at its times in ascending order, and the end of track, if all of these fit their bytes; otherwise it raises ValueError, ZeroDivisionError or OverflowError under the stated conditions. w.dump(t, f) appends exactly these bytes to the file, or raises the same exception and leaves the file unchanged unless the track is too long for the format. The notes, the signature and the length of the track stay, and no other object is changed. A whole program that makes a track, adds to it in any way, makes a writer and dumps yields the file with exactly the notes added.", "quantifier": "all settings, all states of the memory, all tracks in it, all sequences of operations before, any list.sort that sorts stably and looks at elements only by comparing them", "why_tests_cant": "all tracks, settings and histories; and the statement is about the text of the module itself, so no reading of the text by hand comes between", "anchors": ["src/melodia/io/midi.py:MIDIWriter"]}
{"id": "C97", "title": "The text of randomize_velocities changes velocities only, within the limits, on a new track", "statement": "Executing the source text of processing/track.py by the meaning of Python: randomize_velocities(track, ...), with any of its options by keyword or all by position, returns a new track exactly when minimum, maximum and mean are numbers in [0, 1] and the variance is not negative; otherwise it raises ValueError, draws no random number and leaves the memory as it was. The new track has the signature of the given one and the same notes at the same positions except for velocities. If minimum <= maximum all velocities are between them, and if the generator yields numbers between them these are the velocities in the order of iteration. The generator is asked once per note. The given track keeps signature, length and notes, and no other object is changed.", "quantifier": "all states of the memory, all tracks in it, all floats including NaN and infinities as options, all outcomes of the random generator, all ways of passing the options", "why_tests_cant": "random outcomes, all floats and all tracks; and the statement is about the text of the module itself, so no reading of the text by hand comes between", "anchors": ["src/melodia/processing/track.py:randomize_velocities"]}
{"id": "C98", "title": "The text of the MIDI reader reads exactly the notes of the file", "statement": "Executing the source text of MIDIReader in io/midi.py by the meaning of Python: MIDIReader(...) succeeds exactly when middle_c denotes a tone, and raises ValueError or TypeError otherwise. Reading - r.loads(data), r.load(f) from any position of a file, and loads and load of the module, with the channel by position, by keyword or omitted - ends for all bytes whose track chunks begin with a status, and either returns a new track with valid positions and notes or raises MIDIParsingError, ValueError (only if a channel is asked for) or AssertionError (only if a header has division 0). From a MIDI file with one track it returns the signature and exactly one note per pair of a note-on and the note-off ending it on the channel, ValueError if the channel has none, and without a channel the notes of all channels. Nothing but the position of the file is changed.", "quantifier": "all byte strings, all settings, all channels, all states of the memory, all ways of passing the arguments, any list.sort that sorts stably and looks at elements only by comparing them", "why_tests_cant": "all byte strings, tracks and settings; and the statement is about the text of the module itself, so no reading of the text by hand comes between", "anchors": ["src/melodia/io/midi.py:MIDIReader", "src/melodia/io/midi.py:load", "src/melodia/io/midi.py:loads"]}
{"id": "C99", "title": "The text of midi.py reads back what it wrote", "statement": "Executing the source text of io/midi.py by the meaning of Python: dump and dumps of the module, however their options are passed, do what a writer with 96 pulses per quarter and C3 as middle C does, and raise ValueError for a channel outside 0..15. If a writer and a reader have the same middle C, the track fits the format, everything is on whole pulses, velocities are not written as 0 and notes of one tone neither overlap nor start together, then reading the bytes written, in any form and at any later time, gives a new track with the same signature and the same notes, the velocities rounded to their bytes; any other channel is a ValueError, any proper prefix of the bytes a MIDIParsingError, as is a file of more than 2^24 + 21 bytes. If the velocities are multiples of 1/127, loads(dumps(t)) == t is true. A whole program that makes a track, adds to it in any way, dumps and loads yields exactly the notes added.", "quantifier": "all settings, all tracks meeting the conditions, all states of the memory, all sequences of operations before, any list.sort that sorts stably and looks at elements only by comparing them", "why_tests_cant": "all byte strings, tracks and settings; and the statement is about the text of the module itself, so no reading of the text by hand comes between", "anchors": ["src/melodia/io/midi.py:MIDIWriter", "src/melodia/io/midi.py:MIDIReader", "src/melodia/io/midi.py:dump", "src/melodia/io/midi.py:dumps", "src/melodia/io/midi.py:load", "src/melodia/io/midi.py:loads"]}
{"id": "C100", "title": "The text of the files is the program the theorems are about", "statement": "A lexer and parser for the part of Python's grammar that melodia uses, written and checked in Lean (indentation, line joining in brackets, string and number literals, f-strings, operator precedence, comparison chains, statements, functions, classes, imports), applied to the lines of all twelve source files under src/melodia as they are in the repository, gives exactly the abstract syntax whose execution the theorems C91-C99 are about. This program uses classes, nested functions, local variables and files only in ways that the evaluator of these theorems describes.", "quantifier": "all lines of the twelve files; the meaning of each is then quantified over all inputs by C91-C99", "why_tests_cant": "tests exercise the compiled program; they cannot tell whether what a proof is about is the text in the repository", "anchors": ["src/melodia/core/signature.py", "src/melodia/core/tone.py", "src/melodia/core/note.py", "src/melodia/core/track.py", "src/melodia/core/__init__.py", "src/melodia/music/chord.py", "src/melodia/processing/track.py", "src/melodia/io/midi.py", "src/melodia/__init__.py", "src/melodia/io/__init__.py", "src/melodia/music/__init__.py", "src/melodia/processing/__init__.py"]}
{"id": "C101", "title": "The generated chord module is up to date", "statement": "Running scripts/generate_chords.py with its table writes the lines of src/melodia/music/chord.py exactly as they are in the repository, so the file has neither been edited by hand nor left behind by a change of the table or of the templates.", "quantifier": "all lines of the generated file", "why_tests_cant": "no test runs the generator or compares its output with the file", "anchors": ["scripts/generate_chords.py:main", "scripts/generate_chords.py:chords", "src/melodia/music/chord.py"]}
{"id": "C102", "title": "The chord generator is right for every table", "statement": "For every table whose rows have identifiers as names, a printable full name without quotation marks or backslashes, and at least one interval, the text written by scripts/generate_chords.py is a Python module with the imports and the helper of the present one followed by exactly one function for each name, in the order of the table; called with a base, a duration and a velocity, each function returns exactly the notes at the intervals of its row above the base with that duration and velocity, and raises TypeError or ValueError where the arguments denote none. A row with one interval gives a function that returns a bare note although its written type is a tuple, and rows outside the conditions give text that is not Python.", "quantifier": "all tables: any number of rows, any names, full names and intervals (negative and arbitrarily large too), and all arguments of the functions written", "why_tests_cant": "the generator is never run by a test, and a table with other rows needs the text it would write to be parsed and executed", "anchors": ["scripts/generate_chords.py:main", "scripts/generate_chords.py:function_template", "scripts/generate_chords.py:file_template"]}
{"id": "C103", "title": "The README script, given as text, writes the chords it names", "statement": "A script like the one in the README (imports, `track = Track(signature=(n, d))`, any number of lines `track.add(chord.<name>('<base>', (n, d)))` with or without a duration, `with open('<file>', 'wb') as f:` and `midi.dump(track, f)`), given as text and run as Python with melodia installed, ends normally for every signature that fits a MIDI file and every choice of documented chords within the limits of C78, changes no object that existed before, and leaves in the file it opened bytes from which `midi.loads` makes a track with this signature and exactly these chords laid end to end. If the denominator of the signature is no power of two, or if the first wrong line has a base that names no tone or a duration that is no signature, the script ends with a ValueError.", "quantifier": "all signatures, all numbers of lines, all documented chord names, all printable base texts and durations, all printable file names, all memories the script starts in", "why_tests_cant": "the README script is in no test, and the property is about every script of this form, from its text to the bytes of its file", "anchors": ["README.rst:40-51", "src/melodia/core/track.py:Track.add", "src/melodia/music/chord.py:_get_parameters", "src/melodia/io/midi.py:dump"]}
{"id": "C104", "title": "Importing melodia works in every order", "statement": "Every sequence of imports of modules of melodia, beginning with any of the twelve, in any order and with repetitions, succeeds: no name is needed by an annotation, a default value, a decorator, a base class or a statement before it is bound, and no cycle of imports meets a module that is not complete enough. After the first import every module has been executed exactly once and nothing changes any more; every name melodia offers can be imported at any point and stands for the same class, function or module; the `__all__` of each package lists exactly the names it offers. Every name used in a function is a parameter, bound in the function, bound in its module after any import, or built in; attributes taken from modules and classes exist there, and attributes a method takes from its object are slots, fields or methods of its class.", "quantifier": "all finite sequences of imports of the twelve modules, all offered names, all functions and methods of all files", "why_tests_cant": "a test process imports the package once, in one order, and runs only some of the lines in which a name could be missing", "anchors": ["src/melodia/__init__.py:1-13", "src/melodia/core/__init__.py:1-8", "src/melodia/io/__init__.py:1-5", "src/melodia/music/__init__.py:1-7", "src/melodia/processing/__init__.py:1-7", "src/melodia/io/midi.py:1-10", "src/melodia/core/track.py:1-5"]}
{"id": "C105", "title": "The generator script writes the chord module", "statement": "scripts/generate_chords.py, executed statement by statement from its text as `python generate_chords.py out`, ends normally for every name of an output file and for every table in place of its own whose names have no other white space than blanks, and leaves exactly one file, of that name, whose text is the lines described by C101 and C102. With its own table the file is src/melodia/music/chord.py character by character; with any table that meets the conditions of C102 the file is a module with one function for each name, which plays the intervals of its row. Importing the script writes no file.", "quantifier": "all tables (any number of rows, names, full names and intervals) and all names of output files", "why_tests_cant": "no test runs the script, and its templates, loops and joins are followed for all tables, not for one", "anchors": ["scripts/generate_chords.py:main", "scripts/generate_chords.py:file_template", "scripts/generate_chords.py:function_template", "scripts/generate_chords.py:chords"]}
{"id": "C106", "title": "No function reads an unassigned variable or forgets to return", "statement": "On every path through a function or method of melodia (and through the function nested in the reader, and those of the chord generator), whatever its conditions, the lengths of its iterables and the calls in it give, and wherever an exception ends it, each variable of the function is read only after it has been assigned, so that UnboundLocalError cannot occur. A function that returns a value on one path returns a value on every path that does not end with an exception; it never falls through to an implicit None.", "quantifier": "all functions of the program and all paths through them, with any number of iterations of every loop", "why_tests_cant": "the paths are infinitely many; tests execute the few that their inputs reach, and most of the branches of the reader are reached by no test", "anchors": ["src/melodia/io/midi.py:MIDIReader._parse_track", "src/melodia/io/midi.py:MIDIReader.load", "src/melodia/io/midi.py:MIDIWriter.dump", "src/melodia/core/track.py:Track", "src/melodia/core/signature.py:Signature", "src/melodia/core/tone.py:Tone"]}
{"id": "C107", "title": "Tone notation under Python's limit on digits", "statement": "Python limits the digits in conversions between int and str (4300 by default). With a limit of l >= 1 digits: from_notation accepts a string iff it starts with a letter A..G and the run of digits read as the octave has at most l characters (leading zeros counted, the sign not), gives the same tone as without a limit, and raises ValueError otherwise; to_notation and str give the same text as without a limit for exactly the pitches from 12*(1 - 10**l) to 12*10**l - 1 and raise ValueError for all others, repr for exactly the pitches between -10**l and 10**l; a tone that is printed is read back as the same tone, whatever the limit.", "quantifier": "all limits, all strings, all integer pitches, both spellings", "why_tests_cant": "the limit is a setting of the interpreter and the boundary lies at texts of thousands of digits; the claim is for every limit and every text", "anchors": ["src/melodia/core/tone.py:Tone.from_notation", "src/melodia/core/tone.py:Tone.to_notation", "src/melodia/core/tone.py:Tone.__repr__"]}
{"id": "C108", "title": "Objects do not change behind the back of their users", "statement": "For every class of melodia with __slots__ (Signature, Tone, Note, Track, MIDIWriter, MIDIReader and the byte reader), assigning to or deleting any attribute whose name does not begin with an underscore raises AttributeError. After the constructor no method of a signature, tone, note, writer or reader assigns to an attribute of any object, no function outside of the classes does, and the methods of a track never assign to its signature; constructors assign only to the object they make, and no function reaches attributes in another way (setattr, __dict__, a second __init__); so a note that has been added to a track, or shared between tracks, stays what it is.", "quantifier": "all classes of the program, all attribute names, all statements of all methods, nested functions included", "why_tests_cant": "tests can try some names; that no statement anywhere assigns, and that every other name is refused, is about all of the text and all names", "anchors": ["src/melodia/core/signature.py:Signature", "src/melodia/core/tone.py:Tone", "src/melodia/core/note.py:Note", "src/melodia/core/track.py:Track", "src/melodia/io/midi.py:MIDIWriter", "src/melodia/io/midi.py:MIDIReader"]}
{"id": "C109", "title": "Equal objects can be used as members of sets and keys of dictionaries", "statement": "Tones, signatures, notes and tracks have a hash that agrees with ==, so that they can be members of sets and keys of dictionaries.", "quantifier": "all classes of melodia", "why_tests_cant": "it is a consequence of which special methods each class defines, for all of its objects", "anchors": ["src/melodia/core/tone.py:Tone.__eq__", "src/melodia/core/signature.py:Signature.__eq__", "src/melodia/core/note.py:Note.__eq__", "src/melodia/core/track.py:Track.__eq__"]}
{"id": "C110", "title": "Texts of signatures, notes and tracks under Python's limit on digits", "statement": "With a limit of l >= 1 digits in conversions from int to str: str and repr of a signature, note or track give the text they give without a limit if all numbers to be written (nominators and denominators of signature, durations and positions as stored, the pitch in repr, the octave in str of a note, the number of notes in str of a track) have at most l digits, and raise ValueError otherwise. repr of a track that raises leaves the track as it was if its signature is too long, and otherwise as after an iteration. A text that repr has given evaluates to the object as in C79.", "quantifier": "all limits, all valid signatures and notes, all reachable tracks, all sorts", "why_tests_cant": "the boundary lies at numbers of thousands of digits, for every limit the interpreter may be given", "anchors": ["src/melodia/core/signature.py:Signature.__str__", "src/melodia/core/note.py:Note.__repr__", "src/melodia/core/track.py:Track.__repr__"]}
{"id": "C111", "title": "Calls inside melodia fit the functions they call", "statement": "Every call in melodia's source whose number of arguments is written in it (all but the three with *) fits every function, method or class of melodia it can reach: not too many arguments, every keyword names a parameter not yet given by position, no parameter without a default value is missing; a method call on an object is checked against every class with a method of that name. Binding its arguments therefore succeeds for all values of the arguments, and gives each parameter its argument by position, by keyword, or its default value. For all parameters and arguments (also of calls by users) binding succeeds if the arguments fit and raises TypeError otherwise. No property is called like a method.", "quantifier": "all calls in all functions of the source, all values of arguments; all parameter lists and arguments", "why_tests_cant": "a call that does not fit raises TypeError only when the line is executed, which needs a test that reaches it", "anchors": ["src/melodia/core/track.py:Track.add", "src/melodia/io/midi.py:MIDIWriter.dumps", "src/melodia/io/midi.py:MIDIReader._parse_track", "src/melodia/core/note.py:Note.with_duration"]}
{"id": "C112", "title": "Melodia is fully typed", "statement": "As README.rst says, melodia is fully typed: every parameter of every function (but self and cls) and every result (but those of constructors) is annotated, in nested functions too; a function annotated with None never returns a value, and a function annotated with another type returns one on every path that does not end with an exception. (As it turns out, one method, MIDIWriter._format_header_chunk, has no annotation for its result.)", "quantifier": "all functions of the source text, all paths through them", "why_tests_cant": "annotations are not looked at when the code runs, and a path without return is noticed only by a test that takes it", "anchors": ["README.rst:20", "src/melodia/io/midi.py:MIDIWriter._format_header_chunk", "src/melodia/core/track.py:Track.add"]}
{"id": "C113", "title": "Results of Signature, Tone and Note are of the annotated types", "statement": "Every method of Signature, Tone and Note, applied to arguments of the types in its annotations, ends with a value of the annotated type (for Signature and Note one that satisfies the conditions of the constructor) or with an exception, never with anything else or without end, and changes no object. The same holds for the constructors, and the parameters that can be left out have values of the annotated types.", "quantifier": "all methods of the three classes, all arguments of the annotated types, all heaps, all worlds", "why_tests_cant": "annotations are not checked when the code runs and a type checker trusts them across calls; tests look at a few results", "anchors": ["README.rst:20", "src/melodia/core/signature.py:Signature", "src/melodia/core/tone.py:Tone", "src/melodia/core/note.py:Note"]}
{"id": "C114", "title": "Results of the chord functions are of the annotated types", "statement": "Every function of melodia.music.chord, applied to arguments of the types in its annotations, ends with a value of the annotated type or with an exception: the functions for chords give a tuple of exactly as many valid notes as they are annotated with, and _get_parameters a tuple of a Tone, a Signature and a float. The parameters that can be left out have values of the annotated types. (As it turns out, _get_parameters gives the pair of ints it is given as duration where a Signature is announced.)", "quantifier": "all functions of the module, all arguments of the annotated types, all heaps, all worlds", "why_tests_cant": "annotations are not checked when the code runs; tests look at a few results of a few of the fifty-one functions", "anchors": ["README.rst:20", "src/melodia/music/chord.py:_get_parameters", "src/melodia/music/chord.py:add9"]}
{"id": "C115", "title": "Results of Track and randomize_velocities are of the annotated types", "statement": "Every method of Track, applied to a track in memory and arguments of the types in its annotations, ends with a value of the annotated type: __iter__ with an iterable whose elements are pairs of a valid Signature and a valid Note, add with None, and so on. Only add may end with an exception instead. Whatever happens, also after an exception, the object still is a track. Track(...) gives a track or an exception; randomize_velocities gives a track or an exception and leaves the given track a track. The parameters that can be left out have values of the annotated types.", "quantifier": "all methods of the class and all functions of melodia.processing.track, all memories, all tracks reachable by any history, all arguments of the annotated types that do not share the list of the track, all worlds", "why_tests_cant": "annotations are not checked when the code runs; whether a value is a track or an iterable of notes depends on the memory, and tests look at a few memories", "anchors": ["README.rst:20", "src/melodia/core/track.py:Track", "src/melodia/processing/track.py:randomize_velocities"]}
