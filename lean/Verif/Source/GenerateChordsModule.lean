/-
Abstract syntax of scripts/generate_chords.py, written by tools/translate.py.
-/
import Verif.Python.Syntax

set_option autoImplicit false

namespace Melodia.Source

open Melodia.Python

/-- Class `Chord` (scripts/generate_chords.py:75-79). -/
def Chord.classDef : ClassDef where
  name := "Chord"
  mod := "generate_chords"
  fields := ["name", "full_name", "notation"]

/-- `main` (scripts/generate_chords.py:115-152). -/
def generateChords.main : FunDef where
  name := "main"
  mod := "generate_chords"
  params := []
  body := [
    .assign (.name "parser") (.call (.attr (.name "argparse") "ArgumentParser") [] []),
    .expr (.call (.attr (.name "parser") "add_argument") [.str "output", .str "output file", .name "str"] ["help", "type"]),
    .assign (.name "args") (.call (.attr (.name "parser") "parse_args") [] []),
    .assign (.name "functions") (.list []),
    .for (.name "chord") (.name "chords") [
      .assign (.name "return_type") (.fstr [.str "Tuple[", .field (.call (.attr (.str ", ") "join") [.bin .mul (.list [.str "Note"]) (.call (.name "len") [.attr (.name "chord") "notation"] [])] []) "", .str "]"]),
      .assign (.name "note_statements") (.list []),
      .for (.name "n") (.attr (.name "chord") "notation") [
        .ite (.cmp (.name "n") [.eq] [.int 0]) [
          .assign (.name "statement") (.str "Note(base_tone, base_duration, base_velocity)")] [
          .ite (.cmp (.name "n") [.gt] [.int 0]) [
            .assign (.name "statement") (.fstr [.str "Note(base_tone.transposed(+", .field (.call (.name "abs") [.name "n"] []) "", .str "), base_duration, base_velocity)"])] [
            .assign (.name "statement") (.fstr [.str "Note(base_tone.transposed(-", .field (.call (.name "abs") [.name "n"] []) "", .str "), base_duration, base_velocity)"])]],
        .expr (.call (.attr (.name "note_statements") "append") [.name "statement"] [])],
      .assign (.name "return_statement") (.bin .add (.bin .add (.fstr [.str "(\n", .field (.name "indent") "", .field (.name "indent") ""]) (.call (.attr (.fstr [.str ",\n", .field (.name "indent") "", .field (.name "indent") ""]) "join") [.name "note_statements"] [])) (.fstr [.str "\n", .field (.name "indent") "", .str ")"])),
      .for (.name "name") (.call (.attr (.attr (.name "chord") "name") "split") [.str ","] []) [
        .expr (.call (.attr (.name "functions") "append") [.call (.attr (.call (.attr (.name "function_template") "strip") [] []) "format") [.call (.attr (.name "name") "strip") [] [], .attr (.name "chord") "full_name", .call (.name "len") [.attr (.name "chord") "notation"] [], .name "return_type", .name "return_statement"] ["name", "full_name", "number", "return_type", "return_statement"]] [])]],
    .assign (.name "functions_formatted") (.call (.attr (.str "\n\n\n") "join") [.name "functions"] []),
    .withAs (.call (.name "open") [.attr (.name "args") "output", .str "w"] []) "f" [
      .expr (.call (.attr (.name "f") "write") [.bin .add (.call (.attr (.call (.attr (.name "file_template") "strip") [] []) "format") [.name "functions_formatted"] ["functions"]) (.str "\n")] [])]]

/-- Module `generate_chords` (scripts/generate_chords.py). -/
def generateChordsModule : Module where
  name := "generate_chords"
  names := [("argparse", .module "argparse"),
    ("dataclass", .imported "dataclasses" "dataclass"),
    ("List", .imported "typing" "List"),
    ("Chord", .cls "Chord"),
    ("main", .func generateChords.main)]
  init := [
    .assign (.name "indent") (.bin .mul (.str " ") (.int 4)),
    .assign (.name "file_template") (.str "\n# DO NOT EDIT! This file is auto generated by scripts/generate_chords.py.\nfrom typing import Union, Tuple, Optional\n\nfrom melodia.core import Tone, Note, Signature\n\n\ndef _get_parameters(\n        base: Union[int, str, Tone, Note],\n        duration: Union[Tuple[int, int], Signature, None] = None,\n        velocity: Optional[float] = None\n) -> Tuple[Tone, Signature, float]:\n    if isinstance(base, int):\n        base_tone = Tone(base)\n    elif isinstance(base, str):\n        base_tone = Tone.from_notation(base)\n    elif isinstance(base, Tone):\n        base_tone = base\n    elif isinstance(base, Note):\n        base_tone = base.tone\n    else:\n        raise ValueError('base must be int, str, Tone or Note')\n\n    if duration is None:\n        if isinstance(base, Note):\n            base_duration = base.duration\n        else:\n            base_duration = Signature(1, 4)\n    else:\n        base_duration = duration\n\n    if velocity is None:\n        if isinstance(base, Note):\n            base_velocity = base.velocity\n        else:\n            base_velocity = 0.75\n    else:\n        base_velocity = velocity\n\n    return base_tone, base_duration, base_velocity\n\n\n{functions}\n"),
    .assign (.name "function_template") (.str "\ndef {name}(\n        base: Union[int, str, Tone, Note],\n        duration: Union[Tuple[int, int], Signature, None] = None,\n        velocity: Optional[float] = None\n) -> {return_type}:\n    \"\"\"\n    Generates {full_name} chord. If note is provided as the first argument, duration and \n    velocity of this note will be used as default values for chord duration and velocity.\n    Otherwise :class:`~melodia.core.note.Note` defaults will be used.\n\n    :param base: base tone\n    (can be integer, string, :class:`~melodia.core.tone.Tone` or :class:`~melodia.core.note.Note`)\n    :param duration: duration of the chord (default: None)\n    :param velocity: velocity of the chord (default: None)\n    :return: tuple of {number} notes\n    \"\"\"\n    base_tone, base_duration, base_velocity = _get_parameters(base, duration, velocity)\n\n    return {return_statement}\n"),
    .assign (.name "chords") (.list [.call (.name "Chord") [.str "major,maj", .str "Major Triad", .list [.int 0, .int 4, .int 7]] [], .call (.name "Chord") [.str "minor,min", .str "Minor Triad", .list [.int 0, .int 3, .int 7]] [], .call (.name "Chord") [.str "augmented,aug", .str "Augmented Triad", .list [.int 0, .int 4, .int 8]] [], .call (.name "Chord") [.str "diminished,dim", .str "Diminished Triad", .list [.int 0, .int 3, .int 6]] [], .call (.name "Chord") [.str "suspended4,sus4", .str "Suspended Fourth", .list [.int 0, .int 5, .int 7]] [], .call (.name "Chord") [.str "suspended2,sus2", .str "Suspended Second", .list [.int 0, .int 2, .int 7]] [], .call (.name "Chord") [.str "major7,maj7", .str "Major Seventh", .list [.int 0, .int 4, .int 7, .int 11]] [], .call (.name "Chord") [.str "minor7,min7", .str "Minor Seventh", .list [.int 0, .int 3, .int 7, .int 10]] [], .call (.name "Chord") [.str "dominant7,dom7", .str "Dominant Seventh", .list [.int 0, .int 4, .int 7, .int 10]] [], .call (.name "Chord") [.str "dominant7b5,dom7b5", .str "Dominant Seventh Flat Five", .list [.int 0, .int 4, .int 6, .int 10]] [], .call (.name "Chord") [.str "diminished7,dim7", .str "Diminished Seventh", .list [.int 0, .int 3, .int 6, .int 9]] [], .call (.name "Chord") [.str "minor7b5,min7b5", .str "Half Diminished Seventh", .list [.int 0, .int 3, .int 6, .int 10]] [], .call (.name "Chord") [.str "diminished_major7", .str "Diminished Major Seventh", .list [.int 0, .int 3, .int 6, .int 11]] [], .call (.name "Chord") [.str "minor_major7", .str "Minor Major Seventh", .list [.int 0, .int 3, .int 7, .int 11]] [], .call (.name "Chord") [.str "augmented_major7,major7s5,maj7s5", .str "Augmented Major Seventh", .list [.int 0, .int 4, .int 8, .int 11]] [], .call (.name "Chord") [.str "augmented_minor7,augmented7,aug7", .str "Augmented Minor Seventh", .list [.int 0, .int 4, .int 8, .int 10]] [], .call (.name "Chord") [.str "major9,maj9", .str "Major Ninth", .list [.int 0, .int 4, .int 7, .int 11, .int 14]] [], .call (.name "Chord") [.str "minor9,min9", .str "Minor Ninth", .list [.int 0, .int 3, .int 7, .int 10, .int 14]] [], .call (.name "Chord") [.str "dominant9,dom9", .str "Dominant Ninth", .list [.int 0, .int 4, .int 7, .int 10, .int 14]] [], .call (.name "Chord") [.str "dominant_minor9,min7b9", .str "Dominant Minor Ninth", .list [.int 0, .int 4, .int 7, .int 10, .int 13]] [], .call (.name "Chord") [.str "minor69,min69", .str "6/9", .list [.int 0, .int 4, .int 7, .int 9, .int 14]] [], .call (.name "Chord") [.str "added9,add9", .str "Added Ninth", .list [.int 0, .int 4, .int 14]] [], .call (.name "Chord") [.str "major11,maj11", .str "Major Eleventh", .list [.int 0, .int 4, .int 7, .int 11, .int 14, .int 17]] [], .call (.name "Chord") [.str "minor11,min11", .str "Minor Eleventh", .list [.int 0, .int 3, .int 7, .int 10, .int 14, .int 17]] [], .call (.name "Chord") [.str "dominant11,dom11", .str "Dominant Eleventh", .list [.int 0, .int 4, .int 7, .int 10, .int 14, .int 17]] []]),
    .ite (.cmp (.name "__name__") [.eq] [.str "__main__"]) [
      .expr (.call (.name "main") [] [])] []]

end Melodia.Source
