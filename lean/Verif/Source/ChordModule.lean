/-
Abstract syntax of src/melodia/music/chord.py, written by tools/translate.py.
-/
import Verif.Python.Syntax

set_option autoImplicit false

namespace Melodia.Source

open Melodia.Python

/-- `_get_parameters` (src/melodia/music/chord.py:7-39). -/
def chord._get_parameters : FunDef where
  name := "_get_parameters"
  mod := "melodia.music.chord"
  params := [("base", .none), ("duration", some .none), ("velocity", some .none)]
  body := [
    .ite (.call (.name "isinstance") [.name "base", .name "int"] []) [
      .assign (.name "base_tone") (.call (.name "Tone") [.name "base"] [])] [
      .ite (.call (.name "isinstance") [.name "base", .name "str"] []) [
        .assign (.name "base_tone") (.call (.attr (.name "Tone") "from_notation") [.name "base"] [])] [
        .ite (.call (.name "isinstance") [.name "base", .name "Tone"] []) [
          .assign (.name "base_tone") (.name "base")] [
          .ite (.call (.name "isinstance") [.name "base", .name "Note"] []) [
            .assign (.name "base_tone") (.attr (.name "base") "tone")] [
            .raise (.call (.name "ValueError") [.str "base must be int, str, Tone or Note"] [])]]]],
    .ite (.cmp (.name "duration") [.is] [.none]) [
      .ite (.call (.name "isinstance") [.name "base", .name "Note"] []) [
        .assign (.name "base_duration") (.attr (.name "base") "duration")] [
        .assign (.name "base_duration") (.call (.name "Signature") [.int 1, .int 4] [])]] [
      .assign (.name "base_duration") (.name "duration")],
    .ite (.cmp (.name "velocity") [.is] [.none]) [
      .ite (.call (.name "isinstance") [.name "base", .name "Note"] []) [
        .assign (.name "base_velocity") (.attr (.name "base") "velocity")] [
        .assign (.name "base_velocity") (.float 3 4)]] [
      .assign (.name "base_velocity") (.name "velocity")],
    .ret (.tuple [.name "base_tone", .name "base_duration", .name "base_velocity"])]

/-- `major` (src/melodia/music/chord.py:42-64). -/
def chord.major : FunDef where
  name := "major"
  mod := "melodia.music.chord"
  params := [("base", .none), ("duration", some .none), ("velocity", some .none)]
  body := [
    .assign (.tuple ["base_tone", "base_duration", "base_velocity"]) (.call (.name "_get_parameters") [.name "base", .name "duration", .name "velocity"] []),
    .ret (.tuple [.call (.name "Note") [.name "base_tone", .name "base_duration", .name "base_velocity"] [], .call (.name "Note") [.call (.attr (.name "base_tone") "transposed") [.un .pos (.int 4)] [], .name "base_duration", .name "base_velocity"] [], .call (.name "Note") [.call (.attr (.name "base_tone") "transposed") [.un .pos (.int 7)] [], .name "base_duration", .name "base_velocity"] []])]

/-- `maj` (src/melodia/music/chord.py:67-89). -/
def chord.maj : FunDef where
  name := "maj"
  mod := "melodia.music.chord"
  params := [("base", .none), ("duration", some .none), ("velocity", some .none)]
  body := [
    .assign (.tuple ["base_tone", "base_duration", "base_velocity"]) (.call (.name "_get_parameters") [.name "base", .name "duration", .name "velocity"] []),
    .ret (.tuple [.call (.name "Note") [.name "base_tone", .name "base_duration", .name "base_velocity"] [], .call (.name "Note") [.call (.attr (.name "base_tone") "transposed") [.un .pos (.int 4)] [], .name "base_duration", .name "base_velocity"] [], .call (.name "Note") [.call (.attr (.name "base_tone") "transposed") [.un .pos (.int 7)] [], .name "base_duration", .name "base_velocity"] []])]

/-- `minor` (src/melodia/music/chord.py:92-114). -/
def chord.minor : FunDef where
  name := "minor"
  mod := "melodia.music.chord"
  params := [("base", .none), ("duration", some .none), ("velocity", some .none)]
  body := [
    .assign (.tuple ["base_tone", "base_duration", "base_velocity"]) (.call (.name "_get_parameters") [.name "base", .name "duration", .name "velocity"] []),
    .ret (.tuple [.call (.name "Note") [.name "base_tone", .name "base_duration", .name "base_velocity"] [], .call (.name "Note") [.call (.attr (.name "base_tone") "transposed") [.un .pos (.int 3)] [], .name "base_duration", .name "base_velocity"] [], .call (.name "Note") [.call (.attr (.name "base_tone") "transposed") [.un .pos (.int 7)] [], .name "base_duration", .name "base_velocity"] []])]

/-- `min` (src/melodia/music/chord.py:117-139). -/
def chord.min : FunDef where
  name := "min"
  mod := "melodia.music.chord"
  params := [("base", .none), ("duration", some .none), ("velocity", some .none)]
  body := [
    .assign (.tuple ["base_tone", "base_duration", "base_velocity"]) (.call (.name "_get_parameters") [.name "base", .name "duration", .name "velocity"] []),
    .ret (.tuple [.call (.name "Note") [.name "base_tone", .name "base_duration", .name "base_velocity"] [], .call (.name "Note") [.call (.attr (.name "base_tone") "transposed") [.un .pos (.int 3)] [], .name "base_duration", .name "base_velocity"] [], .call (.name "Note") [.call (.attr (.name "base_tone") "transposed") [.un .pos (.int 7)] [], .name "base_duration", .name "base_velocity"] []])]

/-- `augmented` (src/melodia/music/chord.py:142-164). -/
def chord.augmented : FunDef where
  name := "augmented"
  mod := "melodia.music.chord"
  params := [("base", .none), ("duration", some .none), ("velocity", some .none)]
  body := [
    .assign (.tuple ["base_tone", "base_duration", "base_velocity"]) (.call (.name "_get_parameters") [.name "base", .name "duration", .name "velocity"] []),
    .ret (.tuple [.call (.name "Note") [.name "base_tone", .name "base_duration", .name "base_velocity"] [], .call (.name "Note") [.call (.attr (.name "base_tone") "transposed") [.un .pos (.int 4)] [], .name "base_duration", .name "base_velocity"] [], .call (.name "Note") [.call (.attr (.name "base_tone") "transposed") [.un .pos (.int 8)] [], .name "base_duration", .name "base_velocity"] []])]

/-- `aug` (src/melodia/music/chord.py:167-189). -/
def chord.aug : FunDef where
  name := "aug"
  mod := "melodia.music.chord"
  params := [("base", .none), ("duration", some .none), ("velocity", some .none)]
  body := [
    .assign (.tuple ["base_tone", "base_duration", "base_velocity"]) (.call (.name "_get_parameters") [.name "base", .name "duration", .name "velocity"] []),
    .ret (.tuple [.call (.name "Note") [.name "base_tone", .name "base_duration", .name "base_velocity"] [], .call (.name "Note") [.call (.attr (.name "base_tone") "transposed") [.un .pos (.int 4)] [], .name "base_duration", .name "base_velocity"] [], .call (.name "Note") [.call (.attr (.name "base_tone") "transposed") [.un .pos (.int 8)] [], .name "base_duration", .name "base_velocity"] []])]

/-- `diminished` (src/melodia/music/chord.py:192-214). -/
def chord.diminished : FunDef where
  name := "diminished"
  mod := "melodia.music.chord"
  params := [("base", .none), ("duration", some .none), ("velocity", some .none)]
  body := [
    .assign (.tuple ["base_tone", "base_duration", "base_velocity"]) (.call (.name "_get_parameters") [.name "base", .name "duration", .name "velocity"] []),
    .ret (.tuple [.call (.name "Note") [.name "base_tone", .name "base_duration", .name "base_velocity"] [], .call (.name "Note") [.call (.attr (.name "base_tone") "transposed") [.un .pos (.int 3)] [], .name "base_duration", .name "base_velocity"] [], .call (.name "Note") [.call (.attr (.name "base_tone") "transposed") [.un .pos (.int 6)] [], .name "base_duration", .name "base_velocity"] []])]

/-- `dim` (src/melodia/music/chord.py:217-239). -/
def chord.dim : FunDef where
  name := "dim"
  mod := "melodia.music.chord"
  params := [("base", .none), ("duration", some .none), ("velocity", some .none)]
  body := [
    .assign (.tuple ["base_tone", "base_duration", "base_velocity"]) (.call (.name "_get_parameters") [.name "base", .name "duration", .name "velocity"] []),
    .ret (.tuple [.call (.name "Note") [.name "base_tone", .name "base_duration", .name "base_velocity"] [], .call (.name "Note") [.call (.attr (.name "base_tone") "transposed") [.un .pos (.int 3)] [], .name "base_duration", .name "base_velocity"] [], .call (.name "Note") [.call (.attr (.name "base_tone") "transposed") [.un .pos (.int 6)] [], .name "base_duration", .name "base_velocity"] []])]

/-- `suspended4` (src/melodia/music/chord.py:242-264). -/
def chord.suspended4 : FunDef where
  name := "suspended4"
  mod := "melodia.music.chord"
  params := [("base", .none), ("duration", some .none), ("velocity", some .none)]
  body := [
    .assign (.tuple ["base_tone", "base_duration", "base_velocity"]) (.call (.name "_get_parameters") [.name "base", .name "duration", .name "velocity"] []),
    .ret (.tuple [.call (.name "Note") [.name "base_tone", .name "base_duration", .name "base_velocity"] [], .call (.name "Note") [.call (.attr (.name "base_tone") "transposed") [.un .pos (.int 5)] [], .name "base_duration", .name "base_velocity"] [], .call (.name "Note") [.call (.attr (.name "base_tone") "transposed") [.un .pos (.int 7)] [], .name "base_duration", .name "base_velocity"] []])]

/-- `sus4` (src/melodia/music/chord.py:267-289). -/
def chord.sus4 : FunDef where
  name := "sus4"
  mod := "melodia.music.chord"
  params := [("base", .none), ("duration", some .none), ("velocity", some .none)]
  body := [
    .assign (.tuple ["base_tone", "base_duration", "base_velocity"]) (.call (.name "_get_parameters") [.name "base", .name "duration", .name "velocity"] []),
    .ret (.tuple [.call (.name "Note") [.name "base_tone", .name "base_duration", .name "base_velocity"] [], .call (.name "Note") [.call (.attr (.name "base_tone") "transposed") [.un .pos (.int 5)] [], .name "base_duration", .name "base_velocity"] [], .call (.name "Note") [.call (.attr (.name "base_tone") "transposed") [.un .pos (.int 7)] [], .name "base_duration", .name "base_velocity"] []])]

/-- `suspended2` (src/melodia/music/chord.py:292-314). -/
def chord.suspended2 : FunDef where
  name := "suspended2"
  mod := "melodia.music.chord"
  params := [("base", .none), ("duration", some .none), ("velocity", some .none)]
  body := [
    .assign (.tuple ["base_tone", "base_duration", "base_velocity"]) (.call (.name "_get_parameters") [.name "base", .name "duration", .name "velocity"] []),
    .ret (.tuple [.call (.name "Note") [.name "base_tone", .name "base_duration", .name "base_velocity"] [], .call (.name "Note") [.call (.attr (.name "base_tone") "transposed") [.un .pos (.int 2)] [], .name "base_duration", .name "base_velocity"] [], .call (.name "Note") [.call (.attr (.name "base_tone") "transposed") [.un .pos (.int 7)] [], .name "base_duration", .name "base_velocity"] []])]

/-- `sus2` (src/melodia/music/chord.py:317-339). -/
def chord.sus2 : FunDef where
  name := "sus2"
  mod := "melodia.music.chord"
  params := [("base", .none), ("duration", some .none), ("velocity", some .none)]
  body := [
    .assign (.tuple ["base_tone", "base_duration", "base_velocity"]) (.call (.name "_get_parameters") [.name "base", .name "duration", .name "velocity"] []),
    .ret (.tuple [.call (.name "Note") [.name "base_tone", .name "base_duration", .name "base_velocity"] [], .call (.name "Note") [.call (.attr (.name "base_tone") "transposed") [.un .pos (.int 2)] [], .name "base_duration", .name "base_velocity"] [], .call (.name "Note") [.call (.attr (.name "base_tone") "transposed") [.un .pos (.int 7)] [], .name "base_duration", .name "base_velocity"] []])]

/-- `major7` (src/melodia/music/chord.py:342-365). -/
def chord.major7 : FunDef where
  name := "major7"
  mod := "melodia.music.chord"
  params := [("base", .none), ("duration", some .none), ("velocity", some .none)]
  body := [
    .assign (.tuple ["base_tone", "base_duration", "base_velocity"]) (.call (.name "_get_parameters") [.name "base", .name "duration", .name "velocity"] []),
    .ret (.tuple [.call (.name "Note") [.name "base_tone", .name "base_duration", .name "base_velocity"] [], .call (.name "Note") [.call (.attr (.name "base_tone") "transposed") [.un .pos (.int 4)] [], .name "base_duration", .name "base_velocity"] [], .call (.name "Note") [.call (.attr (.name "base_tone") "transposed") [.un .pos (.int 7)] [], .name "base_duration", .name "base_velocity"] [], .call (.name "Note") [.call (.attr (.name "base_tone") "transposed") [.un .pos (.int 11)] [], .name "base_duration", .name "base_velocity"] []])]

/-- `maj7` (src/melodia/music/chord.py:368-391). -/
def chord.maj7 : FunDef where
  name := "maj7"
  mod := "melodia.music.chord"
  params := [("base", .none), ("duration", some .none), ("velocity", some .none)]
  body := [
    .assign (.tuple ["base_tone", "base_duration", "base_velocity"]) (.call (.name "_get_parameters") [.name "base", .name "duration", .name "velocity"] []),
    .ret (.tuple [.call (.name "Note") [.name "base_tone", .name "base_duration", .name "base_velocity"] [], .call (.name "Note") [.call (.attr (.name "base_tone") "transposed") [.un .pos (.int 4)] [], .name "base_duration", .name "base_velocity"] [], .call (.name "Note") [.call (.attr (.name "base_tone") "transposed") [.un .pos (.int 7)] [], .name "base_duration", .name "base_velocity"] [], .call (.name "Note") [.call (.attr (.name "base_tone") "transposed") [.un .pos (.int 11)] [], .name "base_duration", .name "base_velocity"] []])]

/-- `minor7` (src/melodia/music/chord.py:394-417). -/
def chord.minor7 : FunDef where
  name := "minor7"
  mod := "melodia.music.chord"
  params := [("base", .none), ("duration", some .none), ("velocity", some .none)]
  body := [
    .assign (.tuple ["base_tone", "base_duration", "base_velocity"]) (.call (.name "_get_parameters") [.name "base", .name "duration", .name "velocity"] []),
    .ret (.tuple [.call (.name "Note") [.name "base_tone", .name "base_duration", .name "base_velocity"] [], .call (.name "Note") [.call (.attr (.name "base_tone") "transposed") [.un .pos (.int 3)] [], .name "base_duration", .name "base_velocity"] [], .call (.name "Note") [.call (.attr (.name "base_tone") "transposed") [.un .pos (.int 7)] [], .name "base_duration", .name "base_velocity"] [], .call (.name "Note") [.call (.attr (.name "base_tone") "transposed") [.un .pos (.int 10)] [], .name "base_duration", .name "base_velocity"] []])]

/-- `min7` (src/melodia/music/chord.py:420-443). -/
def chord.min7 : FunDef where
  name := "min7"
  mod := "melodia.music.chord"
  params := [("base", .none), ("duration", some .none), ("velocity", some .none)]
  body := [
    .assign (.tuple ["base_tone", "base_duration", "base_velocity"]) (.call (.name "_get_parameters") [.name "base", .name "duration", .name "velocity"] []),
    .ret (.tuple [.call (.name "Note") [.name "base_tone", .name "base_duration", .name "base_velocity"] [], .call (.name "Note") [.call (.attr (.name "base_tone") "transposed") [.un .pos (.int 3)] [], .name "base_duration", .name "base_velocity"] [], .call (.name "Note") [.call (.attr (.name "base_tone") "transposed") [.un .pos (.int 7)] [], .name "base_duration", .name "base_velocity"] [], .call (.name "Note") [.call (.attr (.name "base_tone") "transposed") [.un .pos (.int 10)] [], .name "base_duration", .name "base_velocity"] []])]

/-- `dominant7` (src/melodia/music/chord.py:446-469). -/
def chord.dominant7 : FunDef where
  name := "dominant7"
  mod := "melodia.music.chord"
  params := [("base", .none), ("duration", some .none), ("velocity", some .none)]
  body := [
    .assign (.tuple ["base_tone", "base_duration", "base_velocity"]) (.call (.name "_get_parameters") [.name "base", .name "duration", .name "velocity"] []),
    .ret (.tuple [.call (.name "Note") [.name "base_tone", .name "base_duration", .name "base_velocity"] [], .call (.name "Note") [.call (.attr (.name "base_tone") "transposed") [.un .pos (.int 4)] [], .name "base_duration", .name "base_velocity"] [], .call (.name "Note") [.call (.attr (.name "base_tone") "transposed") [.un .pos (.int 7)] [], .name "base_duration", .name "base_velocity"] [], .call (.name "Note") [.call (.attr (.name "base_tone") "transposed") [.un .pos (.int 10)] [], .name "base_duration", .name "base_velocity"] []])]

/-- `dom7` (src/melodia/music/chord.py:472-495). -/
def chord.dom7 : FunDef where
  name := "dom7"
  mod := "melodia.music.chord"
  params := [("base", .none), ("duration", some .none), ("velocity", some .none)]
  body := [
    .assign (.tuple ["base_tone", "base_duration", "base_velocity"]) (.call (.name "_get_parameters") [.name "base", .name "duration", .name "velocity"] []),
    .ret (.tuple [.call (.name "Note") [.name "base_tone", .name "base_duration", .name "base_velocity"] [], .call (.name "Note") [.call (.attr (.name "base_tone") "transposed") [.un .pos (.int 4)] [], .name "base_duration", .name "base_velocity"] [], .call (.name "Note") [.call (.attr (.name "base_tone") "transposed") [.un .pos (.int 7)] [], .name "base_duration", .name "base_velocity"] [], .call (.name "Note") [.call (.attr (.name "base_tone") "transposed") [.un .pos (.int 10)] [], .name "base_duration", .name "base_velocity"] []])]

/-- `dominant7b5` (src/melodia/music/chord.py:498-521). -/
def chord.dominant7b5 : FunDef where
  name := "dominant7b5"
  mod := "melodia.music.chord"
  params := [("base", .none), ("duration", some .none), ("velocity", some .none)]
  body := [
    .assign (.tuple ["base_tone", "base_duration", "base_velocity"]) (.call (.name "_get_parameters") [.name "base", .name "duration", .name "velocity"] []),
    .ret (.tuple [.call (.name "Note") [.name "base_tone", .name "base_duration", .name "base_velocity"] [], .call (.name "Note") [.call (.attr (.name "base_tone") "transposed") [.un .pos (.int 4)] [], .name "base_duration", .name "base_velocity"] [], .call (.name "Note") [.call (.attr (.name "base_tone") "transposed") [.un .pos (.int 6)] [], .name "base_duration", .name "base_velocity"] [], .call (.name "Note") [.call (.attr (.name "base_tone") "transposed") [.un .pos (.int 10)] [], .name "base_duration", .name "base_velocity"] []])]

/-- `dom7b5` (src/melodia/music/chord.py:524-547). -/
def chord.dom7b5 : FunDef where
  name := "dom7b5"
  mod := "melodia.music.chord"
  params := [("base", .none), ("duration", some .none), ("velocity", some .none)]
  body := [
    .assign (.tuple ["base_tone", "base_duration", "base_velocity"]) (.call (.name "_get_parameters") [.name "base", .name "duration", .name "velocity"] []),
    .ret (.tuple [.call (.name "Note") [.name "base_tone", .name "base_duration", .name "base_velocity"] [], .call (.name "Note") [.call (.attr (.name "base_tone") "transposed") [.un .pos (.int 4)] [], .name "base_duration", .name "base_velocity"] [], .call (.name "Note") [.call (.attr (.name "base_tone") "transposed") [.un .pos (.int 6)] [], .name "base_duration", .name "base_velocity"] [], .call (.name "Note") [.call (.attr (.name "base_tone") "transposed") [.un .pos (.int 10)] [], .name "base_duration", .name "base_velocity"] []])]

/-- `diminished7` (src/melodia/music/chord.py:550-573). -/
def chord.diminished7 : FunDef where
  name := "diminished7"
  mod := "melodia.music.chord"
  params := [("base", .none), ("duration", some .none), ("velocity", some .none)]
  body := [
    .assign (.tuple ["base_tone", "base_duration", "base_velocity"]) (.call (.name "_get_parameters") [.name "base", .name "duration", .name "velocity"] []),
    .ret (.tuple [.call (.name "Note") [.name "base_tone", .name "base_duration", .name "base_velocity"] [], .call (.name "Note") [.call (.attr (.name "base_tone") "transposed") [.un .pos (.int 3)] [], .name "base_duration", .name "base_velocity"] [], .call (.name "Note") [.call (.attr (.name "base_tone") "transposed") [.un .pos (.int 6)] [], .name "base_duration", .name "base_velocity"] [], .call (.name "Note") [.call (.attr (.name "base_tone") "transposed") [.un .pos (.int 9)] [], .name "base_duration", .name "base_velocity"] []])]

/-- `dim7` (src/melodia/music/chord.py:576-599). -/
def chord.dim7 : FunDef where
  name := "dim7"
  mod := "melodia.music.chord"
  params := [("base", .none), ("duration", some .none), ("velocity", some .none)]
  body := [
    .assign (.tuple ["base_tone", "base_duration", "base_velocity"]) (.call (.name "_get_parameters") [.name "base", .name "duration", .name "velocity"] []),
    .ret (.tuple [.call (.name "Note") [.name "base_tone", .name "base_duration", .name "base_velocity"] [], .call (.name "Note") [.call (.attr (.name "base_tone") "transposed") [.un .pos (.int 3)] [], .name "base_duration", .name "base_velocity"] [], .call (.name "Note") [.call (.attr (.name "base_tone") "transposed") [.un .pos (.int 6)] [], .name "base_duration", .name "base_velocity"] [], .call (.name "Note") [.call (.attr (.name "base_tone") "transposed") [.un .pos (.int 9)] [], .name "base_duration", .name "base_velocity"] []])]

/-- `minor7b5` (src/melodia/music/chord.py:602-625). -/
def chord.minor7b5 : FunDef where
  name := "minor7b5"
  mod := "melodia.music.chord"
  params := [("base", .none), ("duration", some .none), ("velocity", some .none)]
  body := [
    .assign (.tuple ["base_tone", "base_duration", "base_velocity"]) (.call (.name "_get_parameters") [.name "base", .name "duration", .name "velocity"] []),
    .ret (.tuple [.call (.name "Note") [.name "base_tone", .name "base_duration", .name "base_velocity"] [], .call (.name "Note") [.call (.attr (.name "base_tone") "transposed") [.un .pos (.int 3)] [], .name "base_duration", .name "base_velocity"] [], .call (.name "Note") [.call (.attr (.name "base_tone") "transposed") [.un .pos (.int 6)] [], .name "base_duration", .name "base_velocity"] [], .call (.name "Note") [.call (.attr (.name "base_tone") "transposed") [.un .pos (.int 10)] [], .name "base_duration", .name "base_velocity"] []])]

/-- `min7b5` (src/melodia/music/chord.py:628-651). -/
def chord.min7b5 : FunDef where
  name := "min7b5"
  mod := "melodia.music.chord"
  params := [("base", .none), ("duration", some .none), ("velocity", some .none)]
  body := [
    .assign (.tuple ["base_tone", "base_duration", "base_velocity"]) (.call (.name "_get_parameters") [.name "base", .name "duration", .name "velocity"] []),
    .ret (.tuple [.call (.name "Note") [.name "base_tone", .name "base_duration", .name "base_velocity"] [], .call (.name "Note") [.call (.attr (.name "base_tone") "transposed") [.un .pos (.int 3)] [], .name "base_duration", .name "base_velocity"] [], .call (.name "Note") [.call (.attr (.name "base_tone") "transposed") [.un .pos (.int 6)] [], .name "base_duration", .name "base_velocity"] [], .call (.name "Note") [.call (.attr (.name "base_tone") "transposed") [.un .pos (.int 10)] [], .name "base_duration", .name "base_velocity"] []])]

/-- `diminished_major7` (src/melodia/music/chord.py:654-677). -/
def chord.diminished_major7 : FunDef where
  name := "diminished_major7"
  mod := "melodia.music.chord"
  params := [("base", .none), ("duration", some .none), ("velocity", some .none)]
  body := [
    .assign (.tuple ["base_tone", "base_duration", "base_velocity"]) (.call (.name "_get_parameters") [.name "base", .name "duration", .name "velocity"] []),
    .ret (.tuple [.call (.name "Note") [.name "base_tone", .name "base_duration", .name "base_velocity"] [], .call (.name "Note") [.call (.attr (.name "base_tone") "transposed") [.un .pos (.int 3)] [], .name "base_duration", .name "base_velocity"] [], .call (.name "Note") [.call (.attr (.name "base_tone") "transposed") [.un .pos (.int 6)] [], .name "base_duration", .name "base_velocity"] [], .call (.name "Note") [.call (.attr (.name "base_tone") "transposed") [.un .pos (.int 11)] [], .name "base_duration", .name "base_velocity"] []])]

/-- `minor_major7` (src/melodia/music/chord.py:680-703). -/
def chord.minor_major7 : FunDef where
  name := "minor_major7"
  mod := "melodia.music.chord"
  params := [("base", .none), ("duration", some .none), ("velocity", some .none)]
  body := [
    .assign (.tuple ["base_tone", "base_duration", "base_velocity"]) (.call (.name "_get_parameters") [.name "base", .name "duration", .name "velocity"] []),
    .ret (.tuple [.call (.name "Note") [.name "base_tone", .name "base_duration", .name "base_velocity"] [], .call (.name "Note") [.call (.attr (.name "base_tone") "transposed") [.un .pos (.int 3)] [], .name "base_duration", .name "base_velocity"] [], .call (.name "Note") [.call (.attr (.name "base_tone") "transposed") [.un .pos (.int 7)] [], .name "base_duration", .name "base_velocity"] [], .call (.name "Note") [.call (.attr (.name "base_tone") "transposed") [.un .pos (.int 11)] [], .name "base_duration", .name "base_velocity"] []])]

/-- `augmented_major7` (src/melodia/music/chord.py:706-729). -/
def chord.augmented_major7 : FunDef where
  name := "augmented_major7"
  mod := "melodia.music.chord"
  params := [("base", .none), ("duration", some .none), ("velocity", some .none)]
  body := [
    .assign (.tuple ["base_tone", "base_duration", "base_velocity"]) (.call (.name "_get_parameters") [.name "base", .name "duration", .name "velocity"] []),
    .ret (.tuple [.call (.name "Note") [.name "base_tone", .name "base_duration", .name "base_velocity"] [], .call (.name "Note") [.call (.attr (.name "base_tone") "transposed") [.un .pos (.int 4)] [], .name "base_duration", .name "base_velocity"] [], .call (.name "Note") [.call (.attr (.name "base_tone") "transposed") [.un .pos (.int 8)] [], .name "base_duration", .name "base_velocity"] [], .call (.name "Note") [.call (.attr (.name "base_tone") "transposed") [.un .pos (.int 11)] [], .name "base_duration", .name "base_velocity"] []])]

/-- `major7s5` (src/melodia/music/chord.py:732-755). -/
def chord.major7s5 : FunDef where
  name := "major7s5"
  mod := "melodia.music.chord"
  params := [("base", .none), ("duration", some .none), ("velocity", some .none)]
  body := [
    .assign (.tuple ["base_tone", "base_duration", "base_velocity"]) (.call (.name "_get_parameters") [.name "base", .name "duration", .name "velocity"] []),
    .ret (.tuple [.call (.name "Note") [.name "base_tone", .name "base_duration", .name "base_velocity"] [], .call (.name "Note") [.call (.attr (.name "base_tone") "transposed") [.un .pos (.int 4)] [], .name "base_duration", .name "base_velocity"] [], .call (.name "Note") [.call (.attr (.name "base_tone") "transposed") [.un .pos (.int 8)] [], .name "base_duration", .name "base_velocity"] [], .call (.name "Note") [.call (.attr (.name "base_tone") "transposed") [.un .pos (.int 11)] [], .name "base_duration", .name "base_velocity"] []])]

/-- `maj7s5` (src/melodia/music/chord.py:758-781). -/
def chord.maj7s5 : FunDef where
  name := "maj7s5"
  mod := "melodia.music.chord"
  params := [("base", .none), ("duration", some .none), ("velocity", some .none)]
  body := [
    .assign (.tuple ["base_tone", "base_duration", "base_velocity"]) (.call (.name "_get_parameters") [.name "base", .name "duration", .name "velocity"] []),
    .ret (.tuple [.call (.name "Note") [.name "base_tone", .name "base_duration", .name "base_velocity"] [], .call (.name "Note") [.call (.attr (.name "base_tone") "transposed") [.un .pos (.int 4)] [], .name "base_duration", .name "base_velocity"] [], .call (.name "Note") [.call (.attr (.name "base_tone") "transposed") [.un .pos (.int 8)] [], .name "base_duration", .name "base_velocity"] [], .call (.name "Note") [.call (.attr (.name "base_tone") "transposed") [.un .pos (.int 11)] [], .name "base_duration", .name "base_velocity"] []])]

/-- `augmented_minor7` (src/melodia/music/chord.py:784-807). -/
def chord.augmented_minor7 : FunDef where
  name := "augmented_minor7"
  mod := "melodia.music.chord"
  params := [("base", .none), ("duration", some .none), ("velocity", some .none)]
  body := [
    .assign (.tuple ["base_tone", "base_duration", "base_velocity"]) (.call (.name "_get_parameters") [.name "base", .name "duration", .name "velocity"] []),
    .ret (.tuple [.call (.name "Note") [.name "base_tone", .name "base_duration", .name "base_velocity"] [], .call (.name "Note") [.call (.attr (.name "base_tone") "transposed") [.un .pos (.int 4)] [], .name "base_duration", .name "base_velocity"] [], .call (.name "Note") [.call (.attr (.name "base_tone") "transposed") [.un .pos (.int 8)] [], .name "base_duration", .name "base_velocity"] [], .call (.name "Note") [.call (.attr (.name "base_tone") "transposed") [.un .pos (.int 10)] [], .name "base_duration", .name "base_velocity"] []])]

/-- `augmented7` (src/melodia/music/chord.py:810-833). -/
def chord.augmented7 : FunDef where
  name := "augmented7"
  mod := "melodia.music.chord"
  params := [("base", .none), ("duration", some .none), ("velocity", some .none)]
  body := [
    .assign (.tuple ["base_tone", "base_duration", "base_velocity"]) (.call (.name "_get_parameters") [.name "base", .name "duration", .name "velocity"] []),
    .ret (.tuple [.call (.name "Note") [.name "base_tone", .name "base_duration", .name "base_velocity"] [], .call (.name "Note") [.call (.attr (.name "base_tone") "transposed") [.un .pos (.int 4)] [], .name "base_duration", .name "base_velocity"] [], .call (.name "Note") [.call (.attr (.name "base_tone") "transposed") [.un .pos (.int 8)] [], .name "base_duration", .name "base_velocity"] [], .call (.name "Note") [.call (.attr (.name "base_tone") "transposed") [.un .pos (.int 10)] [], .name "base_duration", .name "base_velocity"] []])]

/-- `aug7` (src/melodia/music/chord.py:836-859). -/
def chord.aug7 : FunDef where
  name := "aug7"
  mod := "melodia.music.chord"
  params := [("base", .none), ("duration", some .none), ("velocity", some .none)]
  body := [
    .assign (.tuple ["base_tone", "base_duration", "base_velocity"]) (.call (.name "_get_parameters") [.name "base", .name "duration", .name "velocity"] []),
    .ret (.tuple [.call (.name "Note") [.name "base_tone", .name "base_duration", .name "base_velocity"] [], .call (.name "Note") [.call (.attr (.name "base_tone") "transposed") [.un .pos (.int 4)] [], .name "base_duration", .name "base_velocity"] [], .call (.name "Note") [.call (.attr (.name "base_tone") "transposed") [.un .pos (.int 8)] [], .name "base_duration", .name "base_velocity"] [], .call (.name "Note") [.call (.attr (.name "base_tone") "transposed") [.un .pos (.int 10)] [], .name "base_duration", .name "base_velocity"] []])]

/-- `major9` (src/melodia/music/chord.py:862-886). -/
def chord.major9 : FunDef where
  name := "major9"
  mod := "melodia.music.chord"
  params := [("base", .none), ("duration", some .none), ("velocity", some .none)]
  body := [
    .assign (.tuple ["base_tone", "base_duration", "base_velocity"]) (.call (.name "_get_parameters") [.name "base", .name "duration", .name "velocity"] []),
    .ret (.tuple [.call (.name "Note") [.name "base_tone", .name "base_duration", .name "base_velocity"] [], .call (.name "Note") [.call (.attr (.name "base_tone") "transposed") [.un .pos (.int 4)] [], .name "base_duration", .name "base_velocity"] [], .call (.name "Note") [.call (.attr (.name "base_tone") "transposed") [.un .pos (.int 7)] [], .name "base_duration", .name "base_velocity"] [], .call (.name "Note") [.call (.attr (.name "base_tone") "transposed") [.un .pos (.int 11)] [], .name "base_duration", .name "base_velocity"] [], .call (.name "Note") [.call (.attr (.name "base_tone") "transposed") [.un .pos (.int 14)] [], .name "base_duration", .name "base_velocity"] []])]

/-- `maj9` (src/melodia/music/chord.py:889-913). -/
def chord.maj9 : FunDef where
  name := "maj9"
  mod := "melodia.music.chord"
  params := [("base", .none), ("duration", some .none), ("velocity", some .none)]
  body := [
    .assign (.tuple ["base_tone", "base_duration", "base_velocity"]) (.call (.name "_get_parameters") [.name "base", .name "duration", .name "velocity"] []),
    .ret (.tuple [.call (.name "Note") [.name "base_tone", .name "base_duration", .name "base_velocity"] [], .call (.name "Note") [.call (.attr (.name "base_tone") "transposed") [.un .pos (.int 4)] [], .name "base_duration", .name "base_velocity"] [], .call (.name "Note") [.call (.attr (.name "base_tone") "transposed") [.un .pos (.int 7)] [], .name "base_duration", .name "base_velocity"] [], .call (.name "Note") [.call (.attr (.name "base_tone") "transposed") [.un .pos (.int 11)] [], .name "base_duration", .name "base_velocity"] [], .call (.name "Note") [.call (.attr (.name "base_tone") "transposed") [.un .pos (.int 14)] [], .name "base_duration", .name "base_velocity"] []])]

/-- `minor9` (src/melodia/music/chord.py:916-940). -/
def chord.minor9 : FunDef where
  name := "minor9"
  mod := "melodia.music.chord"
  params := [("base", .none), ("duration", some .none), ("velocity", some .none)]
  body := [
    .assign (.tuple ["base_tone", "base_duration", "base_velocity"]) (.call (.name "_get_parameters") [.name "base", .name "duration", .name "velocity"] []),
    .ret (.tuple [.call (.name "Note") [.name "base_tone", .name "base_duration", .name "base_velocity"] [], .call (.name "Note") [.call (.attr (.name "base_tone") "transposed") [.un .pos (.int 3)] [], .name "base_duration", .name "base_velocity"] [], .call (.name "Note") [.call (.attr (.name "base_tone") "transposed") [.un .pos (.int 7)] [], .name "base_duration", .name "base_velocity"] [], .call (.name "Note") [.call (.attr (.name "base_tone") "transposed") [.un .pos (.int 10)] [], .name "base_duration", .name "base_velocity"] [], .call (.name "Note") [.call (.attr (.name "base_tone") "transposed") [.un .pos (.int 14)] [], .name "base_duration", .name "base_velocity"] []])]

/-- `min9` (src/melodia/music/chord.py:943-967). -/
def chord.min9 : FunDef where
  name := "min9"
  mod := "melodia.music.chord"
  params := [("base", .none), ("duration", some .none), ("velocity", some .none)]
  body := [
    .assign (.tuple ["base_tone", "base_duration", "base_velocity"]) (.call (.name "_get_parameters") [.name "base", .name "duration", .name "velocity"] []),
    .ret (.tuple [.call (.name "Note") [.name "base_tone", .name "base_duration", .name "base_velocity"] [], .call (.name "Note") [.call (.attr (.name "base_tone") "transposed") [.un .pos (.int 3)] [], .name "base_duration", .name "base_velocity"] [], .call (.name "Note") [.call (.attr (.name "base_tone") "transposed") [.un .pos (.int 7)] [], .name "base_duration", .name "base_velocity"] [], .call (.name "Note") [.call (.attr (.name "base_tone") "transposed") [.un .pos (.int 10)] [], .name "base_duration", .name "base_velocity"] [], .call (.name "Note") [.call (.attr (.name "base_tone") "transposed") [.un .pos (.int 14)] [], .name "base_duration", .name "base_velocity"] []])]

/-- `dominant9` (src/melodia/music/chord.py:970-994). -/
def chord.dominant9 : FunDef where
  name := "dominant9"
  mod := "melodia.music.chord"
  params := [("base", .none), ("duration", some .none), ("velocity", some .none)]
  body := [
    .assign (.tuple ["base_tone", "base_duration", "base_velocity"]) (.call (.name "_get_parameters") [.name "base", .name "duration", .name "velocity"] []),
    .ret (.tuple [.call (.name "Note") [.name "base_tone", .name "base_duration", .name "base_velocity"] [], .call (.name "Note") [.call (.attr (.name "base_tone") "transposed") [.un .pos (.int 4)] [], .name "base_duration", .name "base_velocity"] [], .call (.name "Note") [.call (.attr (.name "base_tone") "transposed") [.un .pos (.int 7)] [], .name "base_duration", .name "base_velocity"] [], .call (.name "Note") [.call (.attr (.name "base_tone") "transposed") [.un .pos (.int 10)] [], .name "base_duration", .name "base_velocity"] [], .call (.name "Note") [.call (.attr (.name "base_tone") "transposed") [.un .pos (.int 14)] [], .name "base_duration", .name "base_velocity"] []])]

/-- `dom9` (src/melodia/music/chord.py:997-1021). -/
def chord.dom9 : FunDef where
  name := "dom9"
  mod := "melodia.music.chord"
  params := [("base", .none), ("duration", some .none), ("velocity", some .none)]
  body := [
    .assign (.tuple ["base_tone", "base_duration", "base_velocity"]) (.call (.name "_get_parameters") [.name "base", .name "duration", .name "velocity"] []),
    .ret (.tuple [.call (.name "Note") [.name "base_tone", .name "base_duration", .name "base_velocity"] [], .call (.name "Note") [.call (.attr (.name "base_tone") "transposed") [.un .pos (.int 4)] [], .name "base_duration", .name "base_velocity"] [], .call (.name "Note") [.call (.attr (.name "base_tone") "transposed") [.un .pos (.int 7)] [], .name "base_duration", .name "base_velocity"] [], .call (.name "Note") [.call (.attr (.name "base_tone") "transposed") [.un .pos (.int 10)] [], .name "base_duration", .name "base_velocity"] [], .call (.name "Note") [.call (.attr (.name "base_tone") "transposed") [.un .pos (.int 14)] [], .name "base_duration", .name "base_velocity"] []])]

/-- `dominant_minor9` (src/melodia/music/chord.py:1024-1048). -/
def chord.dominant_minor9 : FunDef where
  name := "dominant_minor9"
  mod := "melodia.music.chord"
  params := [("base", .none), ("duration", some .none), ("velocity", some .none)]
  body := [
    .assign (.tuple ["base_tone", "base_duration", "base_velocity"]) (.call (.name "_get_parameters") [.name "base", .name "duration", .name "velocity"] []),
    .ret (.tuple [.call (.name "Note") [.name "base_tone", .name "base_duration", .name "base_velocity"] [], .call (.name "Note") [.call (.attr (.name "base_tone") "transposed") [.un .pos (.int 4)] [], .name "base_duration", .name "base_velocity"] [], .call (.name "Note") [.call (.attr (.name "base_tone") "transposed") [.un .pos (.int 7)] [], .name "base_duration", .name "base_velocity"] [], .call (.name "Note") [.call (.attr (.name "base_tone") "transposed") [.un .pos (.int 10)] [], .name "base_duration", .name "base_velocity"] [], .call (.name "Note") [.call (.attr (.name "base_tone") "transposed") [.un .pos (.int 13)] [], .name "base_duration", .name "base_velocity"] []])]

/-- `min7b9` (src/melodia/music/chord.py:1051-1075). -/
def chord.min7b9 : FunDef where
  name := "min7b9"
  mod := "melodia.music.chord"
  params := [("base", .none), ("duration", some .none), ("velocity", some .none)]
  body := [
    .assign (.tuple ["base_tone", "base_duration", "base_velocity"]) (.call (.name "_get_parameters") [.name "base", .name "duration", .name "velocity"] []),
    .ret (.tuple [.call (.name "Note") [.name "base_tone", .name "base_duration", .name "base_velocity"] [], .call (.name "Note") [.call (.attr (.name "base_tone") "transposed") [.un .pos (.int 4)] [], .name "base_duration", .name "base_velocity"] [], .call (.name "Note") [.call (.attr (.name "base_tone") "transposed") [.un .pos (.int 7)] [], .name "base_duration", .name "base_velocity"] [], .call (.name "Note") [.call (.attr (.name "base_tone") "transposed") [.un .pos (.int 10)] [], .name "base_duration", .name "base_velocity"] [], .call (.name "Note") [.call (.attr (.name "base_tone") "transposed") [.un .pos (.int 13)] [], .name "base_duration", .name "base_velocity"] []])]

/-- `minor69` (src/melodia/music/chord.py:1078-1102). -/
def chord.minor69 : FunDef where
  name := "minor69"
  mod := "melodia.music.chord"
  params := [("base", .none), ("duration", some .none), ("velocity", some .none)]
  body := [
    .assign (.tuple ["base_tone", "base_duration", "base_velocity"]) (.call (.name "_get_parameters") [.name "base", .name "duration", .name "velocity"] []),
    .ret (.tuple [.call (.name "Note") [.name "base_tone", .name "base_duration", .name "base_velocity"] [], .call (.name "Note") [.call (.attr (.name "base_tone") "transposed") [.un .pos (.int 4)] [], .name "base_duration", .name "base_velocity"] [], .call (.name "Note") [.call (.attr (.name "base_tone") "transposed") [.un .pos (.int 7)] [], .name "base_duration", .name "base_velocity"] [], .call (.name "Note") [.call (.attr (.name "base_tone") "transposed") [.un .pos (.int 9)] [], .name "base_duration", .name "base_velocity"] [], .call (.name "Note") [.call (.attr (.name "base_tone") "transposed") [.un .pos (.int 14)] [], .name "base_duration", .name "base_velocity"] []])]

/-- `min69` (src/melodia/music/chord.py:1105-1129). -/
def chord.min69 : FunDef where
  name := "min69"
  mod := "melodia.music.chord"
  params := [("base", .none), ("duration", some .none), ("velocity", some .none)]
  body := [
    .assign (.tuple ["base_tone", "base_duration", "base_velocity"]) (.call (.name "_get_parameters") [.name "base", .name "duration", .name "velocity"] []),
    .ret (.tuple [.call (.name "Note") [.name "base_tone", .name "base_duration", .name "base_velocity"] [], .call (.name "Note") [.call (.attr (.name "base_tone") "transposed") [.un .pos (.int 4)] [], .name "base_duration", .name "base_velocity"] [], .call (.name "Note") [.call (.attr (.name "base_tone") "transposed") [.un .pos (.int 7)] [], .name "base_duration", .name "base_velocity"] [], .call (.name "Note") [.call (.attr (.name "base_tone") "transposed") [.un .pos (.int 9)] [], .name "base_duration", .name "base_velocity"] [], .call (.name "Note") [.call (.attr (.name "base_tone") "transposed") [.un .pos (.int 14)] [], .name "base_duration", .name "base_velocity"] []])]

/-- `added9` (src/melodia/music/chord.py:1132-1154). -/
def chord.added9 : FunDef where
  name := "added9"
  mod := "melodia.music.chord"
  params := [("base", .none), ("duration", some .none), ("velocity", some .none)]
  body := [
    .assign (.tuple ["base_tone", "base_duration", "base_velocity"]) (.call (.name "_get_parameters") [.name "base", .name "duration", .name "velocity"] []),
    .ret (.tuple [.call (.name "Note") [.name "base_tone", .name "base_duration", .name "base_velocity"] [], .call (.name "Note") [.call (.attr (.name "base_tone") "transposed") [.un .pos (.int 4)] [], .name "base_duration", .name "base_velocity"] [], .call (.name "Note") [.call (.attr (.name "base_tone") "transposed") [.un .pos (.int 14)] [], .name "base_duration", .name "base_velocity"] []])]

/-- `add9` (src/melodia/music/chord.py:1157-1179). -/
def chord.add9 : FunDef where
  name := "add9"
  mod := "melodia.music.chord"
  params := [("base", .none), ("duration", some .none), ("velocity", some .none)]
  body := [
    .assign (.tuple ["base_tone", "base_duration", "base_velocity"]) (.call (.name "_get_parameters") [.name "base", .name "duration", .name "velocity"] []),
    .ret (.tuple [.call (.name "Note") [.name "base_tone", .name "base_duration", .name "base_velocity"] [], .call (.name "Note") [.call (.attr (.name "base_tone") "transposed") [.un .pos (.int 4)] [], .name "base_duration", .name "base_velocity"] [], .call (.name "Note") [.call (.attr (.name "base_tone") "transposed") [.un .pos (.int 14)] [], .name "base_duration", .name "base_velocity"] []])]

/-- `major11` (src/melodia/music/chord.py:1182-1207). -/
def chord.major11 : FunDef where
  name := "major11"
  mod := "melodia.music.chord"
  params := [("base", .none), ("duration", some .none), ("velocity", some .none)]
  body := [
    .assign (.tuple ["base_tone", "base_duration", "base_velocity"]) (.call (.name "_get_parameters") [.name "base", .name "duration", .name "velocity"] []),
    .ret (.tuple [.call (.name "Note") [.name "base_tone", .name "base_duration", .name "base_velocity"] [], .call (.name "Note") [.call (.attr (.name "base_tone") "transposed") [.un .pos (.int 4)] [], .name "base_duration", .name "base_velocity"] [], .call (.name "Note") [.call (.attr (.name "base_tone") "transposed") [.un .pos (.int 7)] [], .name "base_duration", .name "base_velocity"] [], .call (.name "Note") [.call (.attr (.name "base_tone") "transposed") [.un .pos (.int 11)] [], .name "base_duration", .name "base_velocity"] [], .call (.name "Note") [.call (.attr (.name "base_tone") "transposed") [.un .pos (.int 14)] [], .name "base_duration", .name "base_velocity"] [], .call (.name "Note") [.call (.attr (.name "base_tone") "transposed") [.un .pos (.int 17)] [], .name "base_duration", .name "base_velocity"] []])]

/-- `maj11` (src/melodia/music/chord.py:1210-1235). -/
def chord.maj11 : FunDef where
  name := "maj11"
  mod := "melodia.music.chord"
  params := [("base", .none), ("duration", some .none), ("velocity", some .none)]
  body := [
    .assign (.tuple ["base_tone", "base_duration", "base_velocity"]) (.call (.name "_get_parameters") [.name "base", .name "duration", .name "velocity"] []),
    .ret (.tuple [.call (.name "Note") [.name "base_tone", .name "base_duration", .name "base_velocity"] [], .call (.name "Note") [.call (.attr (.name "base_tone") "transposed") [.un .pos (.int 4)] [], .name "base_duration", .name "base_velocity"] [], .call (.name "Note") [.call (.attr (.name "base_tone") "transposed") [.un .pos (.int 7)] [], .name "base_duration", .name "base_velocity"] [], .call (.name "Note") [.call (.attr (.name "base_tone") "transposed") [.un .pos (.int 11)] [], .name "base_duration", .name "base_velocity"] [], .call (.name "Note") [.call (.attr (.name "base_tone") "transposed") [.un .pos (.int 14)] [], .name "base_duration", .name "base_velocity"] [], .call (.name "Note") [.call (.attr (.name "base_tone") "transposed") [.un .pos (.int 17)] [], .name "base_duration", .name "base_velocity"] []])]

/-- `minor11` (src/melodia/music/chord.py:1238-1263). -/
def chord.minor11 : FunDef where
  name := "minor11"
  mod := "melodia.music.chord"
  params := [("base", .none), ("duration", some .none), ("velocity", some .none)]
  body := [
    .assign (.tuple ["base_tone", "base_duration", "base_velocity"]) (.call (.name "_get_parameters") [.name "base", .name "duration", .name "velocity"] []),
    .ret (.tuple [.call (.name "Note") [.name "base_tone", .name "base_duration", .name "base_velocity"] [], .call (.name "Note") [.call (.attr (.name "base_tone") "transposed") [.un .pos (.int 3)] [], .name "base_duration", .name "base_velocity"] [], .call (.name "Note") [.call (.attr (.name "base_tone") "transposed") [.un .pos (.int 7)] [], .name "base_duration", .name "base_velocity"] [], .call (.name "Note") [.call (.attr (.name "base_tone") "transposed") [.un .pos (.int 10)] [], .name "base_duration", .name "base_velocity"] [], .call (.name "Note") [.call (.attr (.name "base_tone") "transposed") [.un .pos (.int 14)] [], .name "base_duration", .name "base_velocity"] [], .call (.name "Note") [.call (.attr (.name "base_tone") "transposed") [.un .pos (.int 17)] [], .name "base_duration", .name "base_velocity"] []])]

/-- `min11` (src/melodia/music/chord.py:1266-1291). -/
def chord.min11 : FunDef where
  name := "min11"
  mod := "melodia.music.chord"
  params := [("base", .none), ("duration", some .none), ("velocity", some .none)]
  body := [
    .assign (.tuple ["base_tone", "base_duration", "base_velocity"]) (.call (.name "_get_parameters") [.name "base", .name "duration", .name "velocity"] []),
    .ret (.tuple [.call (.name "Note") [.name "base_tone", .name "base_duration", .name "base_velocity"] [], .call (.name "Note") [.call (.attr (.name "base_tone") "transposed") [.un .pos (.int 3)] [], .name "base_duration", .name "base_velocity"] [], .call (.name "Note") [.call (.attr (.name "base_tone") "transposed") [.un .pos (.int 7)] [], .name "base_duration", .name "base_velocity"] [], .call (.name "Note") [.call (.attr (.name "base_tone") "transposed") [.un .pos (.int 10)] [], .name "base_duration", .name "base_velocity"] [], .call (.name "Note") [.call (.attr (.name "base_tone") "transposed") [.un .pos (.int 14)] [], .name "base_duration", .name "base_velocity"] [], .call (.name "Note") [.call (.attr (.name "base_tone") "transposed") [.un .pos (.int 17)] [], .name "base_duration", .name "base_velocity"] []])]

/-- `dominant11` (src/melodia/music/chord.py:1294-1319). -/
def chord.dominant11 : FunDef where
  name := "dominant11"
  mod := "melodia.music.chord"
  params := [("base", .none), ("duration", some .none), ("velocity", some .none)]
  body := [
    .assign (.tuple ["base_tone", "base_duration", "base_velocity"]) (.call (.name "_get_parameters") [.name "base", .name "duration", .name "velocity"] []),
    .ret (.tuple [.call (.name "Note") [.name "base_tone", .name "base_duration", .name "base_velocity"] [], .call (.name "Note") [.call (.attr (.name "base_tone") "transposed") [.un .pos (.int 4)] [], .name "base_duration", .name "base_velocity"] [], .call (.name "Note") [.call (.attr (.name "base_tone") "transposed") [.un .pos (.int 7)] [], .name "base_duration", .name "base_velocity"] [], .call (.name "Note") [.call (.attr (.name "base_tone") "transposed") [.un .pos (.int 10)] [], .name "base_duration", .name "base_velocity"] [], .call (.name "Note") [.call (.attr (.name "base_tone") "transposed") [.un .pos (.int 14)] [], .name "base_duration", .name "base_velocity"] [], .call (.name "Note") [.call (.attr (.name "base_tone") "transposed") [.un .pos (.int 17)] [], .name "base_duration", .name "base_velocity"] []])]

/-- `dom11` (src/melodia/music/chord.py:1322-1347). -/
def chord.dom11 : FunDef where
  name := "dom11"
  mod := "melodia.music.chord"
  params := [("base", .none), ("duration", some .none), ("velocity", some .none)]
  body := [
    .assign (.tuple ["base_tone", "base_duration", "base_velocity"]) (.call (.name "_get_parameters") [.name "base", .name "duration", .name "velocity"] []),
    .ret (.tuple [.call (.name "Note") [.name "base_tone", .name "base_duration", .name "base_velocity"] [], .call (.name "Note") [.call (.attr (.name "base_tone") "transposed") [.un .pos (.int 4)] [], .name "base_duration", .name "base_velocity"] [], .call (.name "Note") [.call (.attr (.name "base_tone") "transposed") [.un .pos (.int 7)] [], .name "base_duration", .name "base_velocity"] [], .call (.name "Note") [.call (.attr (.name "base_tone") "transposed") [.un .pos (.int 10)] [], .name "base_duration", .name "base_velocity"] [], .call (.name "Note") [.call (.attr (.name "base_tone") "transposed") [.un .pos (.int 14)] [], .name "base_duration", .name "base_velocity"] [], .call (.name "Note") [.call (.attr (.name "base_tone") "transposed") [.un .pos (.int 17)] [], .name "base_duration", .name "base_velocity"] []])]

/-- Module `melodia.music.chord` (src/melodia/music/chord.py). -/
def chordModule : Module where
  name := "melodia.music.chord"
  names := [("Union", .imported "typing" "Union"),
    ("Tuple", .imported "typing" "Tuple"),
    ("Optional", .imported "typing" "Optional"),
    ("Tone", .imported "melodia.core" "Tone"),
    ("Note", .imported "melodia.core" "Note"),
    ("Signature", .imported "melodia.core" "Signature"),
    ("_get_parameters", .func chord._get_parameters),
    ("major", .func chord.major),
    ("maj", .func chord.maj),
    ("minor", .func chord.minor),
    ("min", .func chord.min),
    ("augmented", .func chord.augmented),
    ("aug", .func chord.aug),
    ("diminished", .func chord.diminished),
    ("dim", .func chord.dim),
    ("suspended4", .func chord.suspended4),
    ("sus4", .func chord.sus4),
    ("suspended2", .func chord.suspended2),
    ("sus2", .func chord.sus2),
    ("major7", .func chord.major7),
    ("maj7", .func chord.maj7),
    ("minor7", .func chord.minor7),
    ("min7", .func chord.min7),
    ("dominant7", .func chord.dominant7),
    ("dom7", .func chord.dom7),
    ("dominant7b5", .func chord.dominant7b5),
    ("dom7b5", .func chord.dom7b5),
    ("diminished7", .func chord.diminished7),
    ("dim7", .func chord.dim7),
    ("minor7b5", .func chord.minor7b5),
    ("min7b5", .func chord.min7b5),
    ("diminished_major7", .func chord.diminished_major7),
    ("minor_major7", .func chord.minor_major7),
    ("augmented_major7", .func chord.augmented_major7),
    ("major7s5", .func chord.major7s5),
    ("maj7s5", .func chord.maj7s5),
    ("augmented_minor7", .func chord.augmented_minor7),
    ("augmented7", .func chord.augmented7),
    ("aug7", .func chord.aug7),
    ("major9", .func chord.major9),
    ("maj9", .func chord.maj9),
    ("minor9", .func chord.minor9),
    ("min9", .func chord.min9),
    ("dominant9", .func chord.dominant9),
    ("dom9", .func chord.dom9),
    ("dominant_minor9", .func chord.dominant_minor9),
    ("min7b9", .func chord.min7b9),
    ("minor69", .func chord.minor69),
    ("min69", .func chord.min69),
    ("added9", .func chord.added9),
    ("add9", .func chord.add9),
    ("major11", .func chord.major11),
    ("maj11", .func chord.maj11),
    ("minor11", .func chord.minor11),
    ("min11", .func chord.min11),
    ("dominant11", .func chord.dominant11),
    ("dom11", .func chord.dom11)]

end Melodia.Source
