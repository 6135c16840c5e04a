/-
What scripts/generate_chords.py makes of its templates, as text (model: Verif/Model/Generator.lean, as lines).
-/
import Verif.Python.KernelRfl
import Verif.Spec.GeneratorRun

set_option autoImplicit false

namespace Melodia

open Melodia.Python

open Lean in
/-- The list of the characters of a string. -/
macro:max "ch!" s:str : term => do
  let cs := s.getString.toList.toArray.map fun c => Syntax.mkCharLit c
  `([$cs,*])

namespace Source

theorem toList_literal {s : String} {l : List Char} (h : s = String.ofList l) : s.toList = l := by
  rw [h, String.toList_ofList]

/-- The string a statement assigns. -/
def assigned : Stmt → String
  | .assign _ (.str s) => s
  | _ => ""

/-- `file_template` (scripts/generate_chords.py:7-50). -/
def fileTemplate : String := assigned (generateChordsModule.init.getD 1 .pass)

/-- `function_template` (scripts/generate_chords.py:52-72). -/
def functionTemplate : String := assigned (generateChordsModule.init.getD 2 .pass)

theorem functionTemplate_chars : functionTemplate.toList = ch!"\ndef {name}(\n        base: Union[int, str, Tone, Note],\n        duration: Union[Tuple[int, int], Signature, None] = None,\n        velocity: Optional[float] = None\n) -> {return_type}:\n    \"\"\"\n    Generates {full_name} chord. If note is provided as the first argument, duration and \n    velocity of this note will be used as default values for chord duration and velocity.\n    Otherwise :class:`~melodia.core.note.Note` defaults will be used.\n\n    :param base: base tone\n    (can be integer, string, :class:`~melodia.core.tone.Tone` or :class:`~melodia.core.note.Note`)\n    :param duration: duration of the chord (default: None)\n    :param velocity: velocity of the chord (default: None)\n    :return: tuple of {number} notes\n    \"\"\"\n    base_tone, base_duration, base_velocity = _get_parameters(base, duration, velocity)\n\n    return {return_statement}\n" := toList_literal (by kernel_rfl)

theorem fileTemplate_chars : fileTemplate.toList = ch!"\n# DO NOT EDIT! This file is auto generated by scripts/generate_chords.py.\nfrom typing import Union, Tuple, Optional\n\nfrom melodia.core import Tone, Note, Signature\n\n\ndef _get_parameters(\n        base: Union[int, str, Tone, Note],\n        duration: Union[Tuple[int, int], Signature, None] = None,\n        velocity: Optional[float] = None\n) -> Tuple[Tone, Signature, float]:\n    if isinstance(base, int):\n        base_tone = Tone(base)\n    elif isinstance(base, str):\n        base_tone = Tone.from_notation(base)\n    elif isinstance(base, Tone):\n        base_tone = base\n    elif isinstance(base, Note):\n        base_tone = base.tone\n    else:\n        raise ValueError('base must be int, str, Tone or Note')\n\n    if duration is None:\n        if isinstance(base, Note):\n            base_duration = base.duration\n        else:\n            base_duration = Signature(1, 4)\n    else:\n        base_duration = duration\n\n    if velocity is None:\n        if isinstance(base, Note):\n            base_velocity = base.velocity\n        else:\n            base_velocity = 0.75\n    else:\n        base_velocity = velocity\n\n    return base_tone, base_duration, base_velocity\n\n\n{functions}\n" := toList_literal (by kernel_rfl)

/-- The parts of a text. -/
def texts (s : List Char) : List TemplatePart := s.map fun c => .text [c]

/-! ### The templates, from field to field -/

def functionPart1 : List Char := ch!"(\n        base: Union[int, str, Tone, Note],\n        duration: Union[Tuple[int, int], Signature, None] = None,\n        velocity: Optional[float] = None\n) -> "

def functionPart2 : List Char := ch!":\n    \"\"\"\n    Generates "

def functionPart3 : List Char := ch!" chord. If note is provided as the first argument, duration and \n    velocity of this note will be used as default values for chord duration and velocity.\n    Otherwise :class:`~melodia.core.note.Note` defaults will be used.\n\n    :param base: base tone\n    (can be integer, string, :class:`~melodia.core.tone.Tone` or :class:`~melodia.core.note.Note`)\n    :param duration: duration of the chord (default: None)\n    :param velocity: velocity of the chord (default: None)\n    :return: tuple of "

def functionPart4 : List Char := ch!" notes\n    \"\"\"\n    base_tone, base_duration, base_velocity = _get_parameters(base, duration, velocity)\n\n    return "

def filePart : List Char := ch!"# DO NOT EDIT! This file is auto generated by scripts/generate_chords.py.\nfrom typing import Union, Tuple, Optional\n\nfrom melodia.core import Tone, Note, Signature\n\n\ndef _get_parameters(\n        base: Union[int, str, Tone, Note],\n        duration: Union[Tuple[int, int], Signature, None] = None,\n        velocity: Optional[float] = None\n) -> Tuple[Tone, Signature, float]:\n    if isinstance(base, int):\n        base_tone = Tone(base)\n    elif isinstance(base, str):\n        base_tone = Tone.from_notation(base)\n    elif isinstance(base, Tone):\n        base_tone = base\n    elif isinstance(base, Note):\n        base_tone = base.tone\n    else:\n        raise ValueError('base must be int, str, Tone or Note')\n\n    if duration is None:\n        if isinstance(base, Note):\n            base_duration = base.duration\n        else:\n            base_duration = Signature(1, 4)\n    else:\n        base_duration = duration\n\n    if velocity is None:\n        if isinstance(base, Note):\n            base_velocity = base.velocity\n        else:\n            base_velocity = 0.75\n    else:\n        base_velocity = velocity\n\n    return base_tone, base_duration, base_velocity\n\n\n"

def functionParts : List TemplatePart :=
  texts ch!"def " ++ .field ch!"name" :: (texts functionPart1 ++ .field ch!"return_type" :: (texts functionPart2 ++
    .field ch!"full_name" :: (texts functionPart3 ++ .field ch!"number" :: (texts functionPart4 ++
      [.field ch!"return_statement"]))))

theorem function_template_parts : templateParts ((stripSpace functionTemplate.toList).length + 1) (stripSpace functionTemplate.toList) =
    some functionParts := by
  rw [functionTemplate_chars]
  kernel_rfl

theorem file_template_parts : templateParts ((stripSpace fileTemplate.toList).length + 1) (stripSpace fileTemplate.toList) =
    some (texts filePart ++ [.field ch!"functions"]) := by
  rw [fileTemplate_chars]
  kernel_rfl

theorem functionPart1_eq : functionPart1 = "(".toList ++ ['\n'] ++ "        base: Union[int, str, Tone, Note],".toList ++ ['\n'] ++ "        duration: Union[Tuple[int, int], Signature, None] = None,".toList ++ ['\n'] ++ "        velocity: Optional[float] = None".toList ++ ['\n'] ++ ") -> ".toList := by
  rw [toList_literal (s := "(") (l := ch!"(") (by kernel_rfl), toList_literal (s := "        base: Union[int, str, Tone, Note],") (l := ch!"        base: Union[int, str, Tone, Note],") (by kernel_rfl), toList_literal (s := "        duration: Union[Tuple[int, int], Signature, None] = None,") (l := ch!"        duration: Union[Tuple[int, int], Signature, None] = None,") (by kernel_rfl), toList_literal (s := "        velocity: Optional[float] = None") (l := ch!"        velocity: Optional[float] = None") (by kernel_rfl), toList_literal (s := ") -> ") (l := ch!") -> ") (by kernel_rfl)]
  kernel_rfl

theorem functionPart2_eq : functionPart2 = ":".toList ++ ['\n'] ++ "    \"\"\"".toList ++ ['\n'] ++ "    Generates ".toList := by
  rw [toList_literal (s := ":") (l := ch!":") (by kernel_rfl), toList_literal (s := "    \"\"\"") (l := ch!"    \"\"\"") (by kernel_rfl), toList_literal (s := "    Generates ") (l := ch!"    Generates ") (by kernel_rfl)]
  kernel_rfl

theorem functionPart3_eq : functionPart3 = " chord. If note is provided as the first argument, duration and ".toList ++ ['\n'] ++ "    velocity of this note will be used as default values for chord duration and velocity.".toList ++ ['\n'] ++ "    Otherwise :class:`~melodia.core.note.Note` defaults will be used.".toList ++ ['\n'] ++ "".toList ++ ['\n'] ++ "    :param base: base tone".toList ++ ['\n'] ++ "    (can be integer, string, :class:`~melodia.core.tone.Tone` or :class:`~melodia.core.note.Note`)".toList ++ ['\n'] ++ "    :param duration: duration of the chord (default: None)".toList ++ ['\n'] ++ "    :param velocity: velocity of the chord (default: None)".toList ++ ['\n'] ++ "    :return: tuple of ".toList := by
  rw [toList_literal (s := " chord. If note is provided as the first argument, duration and ") (l := ch!" chord. If note is provided as the first argument, duration and ") (by kernel_rfl), toList_literal (s := "    velocity of this note will be used as default values for chord duration and velocity.") (l := ch!"    velocity of this note will be used as default values for chord duration and velocity.") (by kernel_rfl), toList_literal (s := "    Otherwise :class:`~melodia.core.note.Note` defaults will be used.") (l := ch!"    Otherwise :class:`~melodia.core.note.Note` defaults will be used.") (by kernel_rfl), toList_literal (s := "    :param base: base tone") (l := ch!"    :param base: base tone") (by kernel_rfl), toList_literal (s := "    (can be integer, string, :class:`~melodia.core.tone.Tone` or :class:`~melodia.core.note.Note`)") (l := ch!"    (can be integer, string, :class:`~melodia.core.tone.Tone` or :class:`~melodia.core.note.Note`)") (by kernel_rfl), toList_literal (s := "    :param duration: duration of the chord (default: None)") (l := ch!"    :param duration: duration of the chord (default: None)") (by kernel_rfl), toList_literal (s := "    :param velocity: velocity of the chord (default: None)") (l := ch!"    :param velocity: velocity of the chord (default: None)") (by kernel_rfl), toList_literal (s := "    :return: tuple of ") (l := ch!"    :return: tuple of ") (by kernel_rfl)]
  kernel_rfl

theorem functionPart4_eq : functionPart4 = " notes".toList ++ ['\n'] ++ "    \"\"\"".toList ++ ['\n'] ++ "    base_tone, base_duration, base_velocity = _get_parameters(base, duration, velocity)".toList ++ ['\n'] ++ "".toList ++ ['\n'] ++ "    return ".toList := by
  rw [toList_literal (s := " notes") (l := ch!" notes") (by kernel_rfl), toList_literal (s := "    \"\"\"") (l := ch!"    \"\"\"") (by kernel_rfl), toList_literal (s := "    base_tone, base_duration, base_velocity = _get_parameters(base, duration, velocity)") (l := ch!"    base_tone, base_duration, base_velocity = _get_parameters(base, duration, velocity)") (by kernel_rfl), toList_literal (s := "    return ") (l := ch!"    return ") (by kernel_rfl)]
  kernel_rfl

/-! ### Texts joined -/

/-- `sep.join(l)`. -/
def joinChars (sep : List Char) : List (List Char) → List Char
  | [] => []
  | [s] => s
  | s :: l => s ++ sep ++ joinChars sep l

theorem joinStr_map (sep : List Char) (l : List (List Char)) : joinStr sep (l.map Val.str) = .ok (joinChars sep l) := by
  induction l with
  | nil => rfl
  | cons s l ih =>
    cases l with
    | nil => rfl
    | cons t l =>
      rw [List.map_cons, joinStr, ih]
      · rfl
      · simp

theorem joinChars_cons (sep s : List Char) {l : List (List Char)} (hl : l ≠ []) :
    joinChars sep (s :: l) = s ++ (sep ++ joinChars sep l) := by
  cases l with
  | nil => exact absurd rfl hl
  | cons t l => simp [joinChars]

theorem joinChars_append (sep : List Char) {a b : List (List Char)} (ha : a ≠ []) (hb : b ≠ []) :
    joinChars sep (a ++ b) = joinChars sep a ++ (sep ++ joinChars sep b) := by
  induction a with
  | nil => exact absurd rfl ha
  | cons s a ih =>
    cases a with
    | nil => rw [List.singleton_append, joinChars_cons sep s hb]; rfl
    | cons t a =>
      rw [List.cons_append, joinChars_cons sep s (by simp), ih (by simp), joinChars_cons sep s (by simp)]
      simp

/-- The text of lines. -/
def linesText (ls : List String) : List Char := joinChars ['\n'] (ls.map String.toList)

theorem textOf_eq {ls : List String} (h : ls ≠ []) : textOf ls = linesText ls ++ ['\n'] := by
  induction ls with
  | nil => exact absurd rfl h
  | cons s ls ih =>
    cases ls with
    | nil => simp [textOf, linesText, joinChars]
    | cons t ls =>
      have := ih (by simp)
      unfold linesText at *
      rw [List.map_cons, joinChars_cons _ _ (by simp)]
      rw [textOf, List.flatMap_cons]
      change _ ++ textOf (t :: ls) = _
      rw [this]
      simp

theorem textOf_append (a b : List String) : textOf (a ++ b) = textOf a ++ textOf b := by simp [textOf]

/-- `indent` (scripts/generate_chords.py:5). -/
def indentChars : List Char := "    ".toList

/-- The text of the notes of a chord (scripts/generate_chords.py:136). -/
def returnStatement (l : List Int) : List Char :=
  "(\n".toList ++ (indentChars ++ indentChars) ++
    joinChars (",\n".toList ++ (indentChars ++ indentChars)) (l.map fun n => (noteStatement n).toList) ++
    ("\n".toList ++ (indentChars ++ ")".toList))

theorem noteLines_text (l : List Int) : linesText (noteLines l) =
    "        ".toList ++ joinChars ",\n        ".toList (l.map fun n => (noteStatement n).toList) := by
  induction l with
  | nil => rfl
  | cons n l ih =>
    cases l with
    | nil => simp [noteLines, linesText, joinChars]
    | cons m l =>
      have hne : (noteLines (m :: l)).map String.toList ≠ [] := by cases l <;> simp [noteLines]
      unfold linesText at *
      rw [noteLines, List.map_cons, joinChars_cons _ _ hne, ih, List.map_cons (a := n),
        joinChars_cons _ (noteStatement n).toList (by simp), String.toList_append, String.toList_append]
      · simp only [List.append_assoc]
        rfl
      · simp

theorem returnType_text (l : List Int) : (returnType l).toList =
    "Tuple[".toList ++ (joinChars ", ".toList (List.replicate l.length "Note".toList) ++ "]".toList) := by
  have : ∀ l, (noteTypes l).toList = joinChars ", ".toList (List.replicate l.length "Note".toList) := by
    intro l
    induction l with
    | nil => rfl
    | cons n l ih =>
      cases l with
      | nil => rfl
      | cons m l =>
        rw [noteTypes, String.toList_append, ih, List.length_cons (a := n), List.replicate_succ,
          joinChars_cons _ "Note".toList (by simp)]
        · rfl
        · simp
  rw [returnType, String.toList_append, String.toList_append, this]
  simp

/-- `function_template.strip().format(…)` (scripts/generate_chords.py:140-147). -/
def functionText (name : List Char) (g : GenChord) : List Char :=
  "def ".toList ++ (name ++ (functionPart1 ++ ((returnType g.notation').toList ++ (functionPart2 ++ (g.fullName.toList ++
    (functionPart3 ++ ((Nat.repr g.notation'.length).toList ++ (functionPart4 ++ returnStatement g.notation'))))))))

theorem functionText_eq (name : List Char) (g : GenChord) :
    functionText name g = linesText (functionLines (String.ofList name) g) := by
  have hne : (noteLines g.notation').map String.toList ≠ [] := by
    rcases g.notation' with _ | ⟨_, _ | _⟩ <;> simp [noteLines]
  have hl := noteLines_text g.notation'
  unfold linesText at *
  unfold functionLines
  rw [List.map_append, List.map_append, joinChars_append _ (by simp) (by simp), joinChars_append _ (by simp) hne, hl]
  simp only [functionText, functionPart1_eq, functionPart2_eq, functionPart3_eq, functionPart4_eq, returnStatement,
    List.map_cons, List.map_nil, joinChars, String.toList_append, String.toList_ofList, List.append_assoc]
  rfl

end Source

end Melodia
