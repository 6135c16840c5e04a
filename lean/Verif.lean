import Verif.Conformance.Core
import Verif.Conformance.Midi
import Verif.Lemmas.Annotations
import Verif.Lemmas.AnnotationsChord
import Verif.Lemmas.AnnotationsCore
import Verif.Lemmas.AnnotationsMidi
import Verif.Lemmas.Approx
import Verif.Lemmas.Bytes
import Verif.Lemmas.CPySort
import Verif.Lemmas.CPySortNatural
import Verif.Lemmas.CallSites
import Verif.Lemmas.Calls
import Verif.Lemmas.Chord
import Verif.Lemmas.ChordNames
import Verif.Lemmas.Dict
import Verif.Lemmas.EventParse
import Verif.Lemmas.Extremes
import Verif.Lemmas.FileChange
import Verif.Lemmas.Float
import Verif.Lemmas.FloatMore
import Verif.Lemmas.FloatSpec
import Verif.Lemmas.GeneratorFile
import Verif.Lemmas.GeneratorLex
import Verif.Lemmas.GeneratorParse
import Verif.Lemmas.GeneratorRun
import Verif.Lemmas.GeneratorTable
import Verif.Lemmas.GeneratorText
import Verif.Lemmas.Imports
import Verif.Lemmas.Iterators
import Verif.Lemmas.Lenient
import Verif.Lemmas.LenientFile
import Verif.Lemmas.LenientUnique
import Verif.Lemmas.LexText
import Verif.Lemmas.Merge
import Verif.Lemmas.MidiChunks
import Verif.Lemmas.MidiFile
import Verif.Lemmas.MidiLoad
import Verif.Lemmas.MidiRead
import Verif.Lemmas.MidiWrite
import Verif.Lemmas.Nested
import Verif.Lemmas.Note
import Verif.Lemmas.Pairing
import Verif.Lemmas.ParseChord
import Verif.Lemmas.ParseCore
import Verif.Lemmas.ParseMidi
import Verif.Lemmas.ParseNote
import Verif.Lemmas.ParseProcessing
import Verif.Lemmas.ParseSignature
import Verif.Lemmas.ParseTone
import Verif.Lemmas.ParseTrack
import Verif.Lemmas.ParserLaws
import Verif.Lemmas.Paths
import Verif.Lemmas.Playback
import Verif.Lemmas.Processing
import Verif.Lemmas.PyBasic
import Verif.Lemmas.PyExpr
import Verif.Lemmas.PyHeap
import Verif.Lemmas.PyLoops
import Verif.Lemmas.PyRegex
import Verif.Lemmas.PyRuns
import Verif.Lemmas.PyStep
import Verif.Lemmas.ReaderList
import Verif.Lemmas.ReaderObj
import Verif.Lemmas.RoundTrip
import Verif.Lemmas.ScriptLex
import Verif.Lemmas.ScriptParse
import Verif.Lemmas.ScriptRun
import Verif.Lemmas.Sequence
import Verif.Lemmas.Signature
import Verif.Lemmas.SignatureDyn
import Verif.Lemmas.SmfUnique
import Verif.Lemmas.SourceChord
import Verif.Lemmas.SourceChunks
import Verif.Lemmas.SourceDump
import Verif.Lemmas.SourceEvent
import Verif.Lemmas.SourceLoad
import Verif.Lemmas.SourceMerge
import Verif.Lemmas.SourceNote
import Verif.Lemmas.SourceParseBuild
import Verif.Lemmas.SourceParseChannel
import Verif.Lemmas.SourceParseHeap
import Verif.Lemmas.SourceParseLoop
import Verif.Lemmas.SourceParseTrack
import Verif.Lemmas.SourceProcessing
import Verif.Lemmas.SourceReader
import Verif.Lemmas.SourceReaderCalls
import Verif.Lemmas.SourceReaderUser
import Verif.Lemmas.SourceSignature
import Verif.Lemmas.SourceTable
import Verif.Lemmas.SourceTone
import Verif.Lemmas.SourceTrack
import Verif.Lemmas.SourceTrackMore
import Verif.Lemmas.SourceTrackUser
import Verif.Lemmas.SourceWriter
import Verif.Lemmas.SourceWriterUser
import Verif.Lemmas.StableSort
import Verif.Lemmas.Text
import Verif.Lemmas.Tone
import Verif.Lemmas.ToneLimit
import Verif.Lemmas.ToneMore
import Verif.Lemmas.Track
import Verif.Lemmas.TrackMachine
import Verif.Lemmas.TrackMore
import Verif.Lemmas.TrackRaw
import Verif.Lemmas.Types
import Verif.Lemmas.TypesChord
import Verif.Lemmas.TypesCore
import Verif.Lemmas.TypesTrack
import Verif.Lemmas.Velocities
import Verif.Lemmas.WriterDyn
import Verif.Model.CPySort
import Verif.Model.Chord
import Verif.Model.Compare
import Verif.Model.Float64
import Verif.Model.Generator
import Verif.Model.MidiRead
import Verif.Model.MidiWrite
import Verif.Model.Note
import Verif.Model.NoteDyn
import Verif.Model.Processing
import Verif.Model.Progression
import Verif.Model.Py
import Verif.Model.PyExpr
import Verif.Model.ReaderObj
import Verif.Model.Signature
import Verif.Model.SignatureDyn
import Verif.Model.Stream
import Verif.Model.Text
import Verif.Model.TextLimit
import Verif.Model.Tone
import Verif.Model.ToneFrequency
import Verif.Model.ToneLimit
import Verif.Model.Track
import Verif.Model.TrackIter
import Verif.Model.TrackNested
import Verif.Model.TrackRaw
import Verif.Model.TrackState
import Verif.Model.WriterDyn
import Verif.Props.Annotations
import Verif.Props.Approx
import Verif.Props.Calls
import Verif.Props.Capacity
import Verif.Props.Chord
import Verif.Props.Compare
import Verif.Props.Eval
import Verif.Props.FileChange
import Verif.Props.Float64
import Verif.Props.FrequencyAll
import Verif.Props.Generator
import Verif.Props.GeneratorRun
import Verif.Props.Imports
import Verif.Props.Iterators
import Verif.Props.Language
import Verif.Props.Merge
import Verif.Props.MidiChunks
import Verif.Props.MidiConfig
import Verif.Props.MidiRead
import Verif.Props.MidiWrite
import Verif.Props.Nested
import Verif.Props.Note
import Verif.Props.NoteDyn
import Verif.Props.ObjectModel
import Verif.Props.Paths
import Verif.Props.Playback
import Verif.Props.Processing
import Verif.Props.Progression
import Verif.Props.RandomTests
import Verif.Props.RandomizedFile
import Verif.Props.ReaderObj
import Verif.Props.RoundTrip
import Verif.Props.SameFile
import Verif.Props.Script
import Verif.Props.Sequence
import Verif.Props.Signature
import Verif.Props.SignatureDyn
import Verif.Props.SourceChord
import Verif.Props.SourceNote
import Verif.Props.SourceProcessing
import Verif.Props.SourceReader
import Verif.Props.SourceRoundTrip
import Verif.Props.SourceSignature
import Verif.Props.SourceText
import Verif.Props.SourceTone
import Verif.Props.SourceTrack
import Verif.Props.SourceWriter
import Verif.Props.Stream
import Verif.Props.Text
import Verif.Props.TextLimit
import Verif.Props.Times
import Verif.Props.Tone
import Verif.Props.ToneFrequency
import Verif.Props.ToneLimit
import Verif.Props.Track
import Verif.Props.TrackIter
import Verif.Props.TrackMachine
import Verif.Props.TrackRaw
import Verif.Props.Types
import Verif.Props.TypesChord
import Verif.Props.TypesTrack
import Verif.Props.WriterDyn
import Verif.Python.Attr
import Verif.Python.Imports
import Verif.Python.KernelRfl
import Verif.Python.Lexer
import Verif.Python.Parser
import Verif.Python.Regex
import Verif.Python.RunAttr
import Verif.Python.Semantics
import Verif.Python.Supported
import Verif.Python.Syntax
import Verif.Python.Values
import Verif.Source.ChordModule
import Verif.Source.ChordText
import Verif.Source.CoreModule
import Verif.Source.CoreText
import Verif.Source.GenerateChordsModule
import Verif.Source.GenerateChordsText
import Verif.Source.IoPackageModule
import Verif.Source.IoPackageText
import Verif.Source.MelodiaPackageModule
import Verif.Source.MelodiaPackageText
import Verif.Source.MidiModule
import Verif.Source.MidiText
import Verif.Source.MusicPackageModule
import Verif.Source.MusicPackageText
import Verif.Source.NoteModule
import Verif.Source.NoteText
import Verif.Source.ProcessingModule
import Verif.Source.ProcessingPackageModule
import Verif.Source.ProcessingPackageText
import Verif.Source.ProcessingText
import Verif.Source.Program
import Verif.Source.SignatureModule
import Verif.Source.SignatureText
import Verif.Source.Texts
import Verif.Source.ToneModule
import Verif.Source.ToneText
import Verif.Source.TrackModule
import Verif.Source.TrackText
import Verif.Spec.Annotations
import Verif.Spec.Calls
import Verif.Spec.Chord
import Verif.Spec.ChordNames
import Verif.Spec.ChunkKinds
import Verif.Spec.FileChange
import Verif.Spec.Generator
import Verif.Spec.GeneratorRun
import Verif.Spec.Imports
import Verif.Spec.Iterators
import Verif.Spec.Lenient
import Verif.Spec.Merge
import Verif.Spec.Midi
import Verif.Spec.MidiRead
import Verif.Spec.Nested
import Verif.Spec.Note
import Verif.Spec.ObjectModel
import Verif.Spec.Paths
import Verif.Spec.Playback
import Verif.Spec.Progression
import Verif.Spec.RoundTrip
import Verif.Spec.Script
import Verif.Spec.Sequence
import Verif.Spec.Signature
import Verif.Spec.SignatureDyn
import Verif.Spec.Source
import Verif.Spec.SourceProcessing
import Verif.Spec.SourceReader
import Verif.Spec.SourceTrack
import Verif.Spec.SourceWriter
import Verif.Spec.TextLimit
import Verif.Spec.Tone
import Verif.Spec.Track
import Verif.Spec.TrackMachine
import Verif.Spec.Types
import Verif.Spec.TypesTrack
import Verif.Spec.Vlq
import Verif.Spec.WriterDyn
