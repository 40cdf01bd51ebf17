import Verif.Model.Basic
import Verif.Model.StringToken
import Verif.Model.Partition
import Verif.Model.Tree
import Verif.Model.Parser
import Verif.Model.Generator
import Verif.Model.Lookup
import Verif.Spec.CharSet
import Verif.Spec.Regex
import Verif.Proofs.StringToken
import Verif.Proofs.Split
import Verif.Proofs.Partition
import Verif.Props.Charsets
import Verif.Proofs.Alphabet
import Verif.Proofs.Tree
import Verif.Proofs.Heap
import Verif.Proofs.Copy
import Verif.Props.Alphabet
import Verif.Proofs.Parser
import Verif.Proofs.Ops
import Verif.Proofs.Act
import Verif.Proofs.Equiv
import Verif.Proofs.Dfa
import Verif.Proofs.Rule
import Verif.Proofs.Forest
import Verif.Proofs.Machine
import Verif.Proofs.Build
import Verif.Proofs.EolWide
import Verif.Proofs.EolLow
import Verif.Proofs.Adds
import Verif.Proofs.Scan
import Verif.Spec.Lex
import Verif.Spec.Lexer
import Verif.Proofs.Lex
import Verif.Props.Example
import Verif.Props.Lexing
import Verif.Proofs.Grammar
import Verif.Proofs.Suppress
import Verif.Props.Build
import Verif.Proofs.Sound
import Verif.Spec.Syntax
import Verif.Spec.Tree
import Verif.Proofs.Whole
import Verif.Proofs.Shape
import Verif.Props.Syntax
import Verif.Proofs.Table
import Verif.Spec.Calls
import Verif.Proofs.Calls
import Verif.Model.Iterator
import Verif.Props.Calls
import Verif.Proofs.Steps
import Verif.Props.States
import Verif.Proofs.ScanFuel
import Verif.Proofs.Sim
import Verif.Model.Minimise
import Verif.Spec.Table
import Verif.Proofs.Minimise
import Verif.Proofs.Ends
import Verif.Proofs.WellFormed
import Verif.Proofs.Safe
import Verif.Proofs.MinSafe
import Verif.Props.Tables
import Verif.Model.Tokeniser
import Verif.Model.Rules
import Verif.Spec.Text
import Verif.Spec.Rules
import Verif.Proofs.Tokeniser
import Verif.Proofs.Next
import Verif.Proofs.Tokenise
import Verif.Proofs.Prune
import Verif.Proofs.Anchors
import Verif.Proofs.MacroExt
import Verif.Proofs.RulesObj
import Verif.Proofs.RulesInv
import Verif.Proofs.RulesSet
import Verif.Props.Rules
import Verif.Model.Utf
import Verif.Spec.Utf
import Verif.Proofs.Utf
import Verif.Proofs.UtfIter
import Verif.Props.Utf
import Verif.Model.Serialise
import Verif.Spec.Serialise
import Verif.Proofs.Serialise
import Verif.Props.Serialise
import Verif.Model.Replace
import Verif.Spec.Replace
import Verif.Proofs.Replace
import Verif.Props.Replace
import Verif.Model.Stream
import Verif.Spec.Stream
import Verif.Proofs.Stream
import Verif.Proofs.StreamStep
import Verif.Props.Stream
import Verif.Props.Csm
import Verif.Spec.Wide
import Verif.Proofs.Slices
import Verif.Proofs.Wide
import Verif.Props.Wide
import Verif.Spec.Reads
import Verif.Spec.Takes
import Verif.Model.FoldTables
import Verif.Proofs.Chars
import Verif.Proofs.Brackets
import Verif.Proofs.Sets
import Verif.Proofs.Noise
import Verif.Proofs.Lexemes
import Verif.Proofs.Reads
import Verif.Proofs.Means
import Verif.Proofs.Program
import Verif.Proofs.Texts
import Verif.Props.Regexes
import Verif.Proofs.SuppressG
import Verif.Props.Eol
import Verif.Spec.Line
import Verif.Proofs.EolTree
import Verif.Proofs.ScanG
import Verif.Proofs.LexG
import Verif.Spec.Build
import Verif.Proofs.Terminate
import Verif.Proofs.Null
import Verif.Props.BuildAny
import Verif.Proofs.UtfExact
import Verif.Model.GenCpp
import Verif.Spec.Features
import Verif.Proofs.Flags
import Verif.Proofs.GenSim
import Verif.Props.Generated
import Verif.Model.UnicodeTables
import Verif.Spec.Unicode
import Verif.Proofs.UnicodeData
import Verif.Proofs.Unicode
import Verif.Proofs.UnicodeSets
import Verif.Props.Unicode
import Verif.Proofs.FeatLeaves
import Verif.Proofs.FeatRows
import Verif.Proofs.FeatBuild
import Verif.Proofs.FeatOnly
import Verif.Props.Features
import Verif.Spec.Enclosed
import Verif.Proofs.EncTree
import Verif.Proofs.Enclosed
import Verif.Proofs.EncPos
import Verif.Proofs.EncScan
import Verif.Spec.Eager
import Verif.Proofs.EagerTree
import Verif.Proofs.EagerPos
import Verif.Proofs.EagerScan
import Verif.Props.Eager
import Verif.Props.Comments
import Verif.Model.MemoryFile
import Verif.Spec.MemoryFile
import Verif.Proofs.MemoryFile
import Verif.Props.MemoryFile
import Verif.Model.Debug
import Verif.Spec.Dump
import Verif.Proofs.Dump
import Verif.Proofs.DumpMachine
import Verif.Props.Dump
import Verif.Spec.Lazy
import Verif.Proofs.Lazy
import Verif.Proofs.LazyPrune
import Verif.Proofs.LazyProgram
import Verif.Props.Lazy
import Verif.Proofs.AnchorProgram
import Verif.Props.Texts
import Verif.Spec.StateProgram
import Verif.Proofs.StateProgram
import Verif.Props.StateTexts
import Verif.Props.Findings
import Verif.Model.CsmBuild
import Verif.Model.Nfa
import Verif.Proofs.CsmBuild
import Verif.Proofs.ReadRules
import Verif.Props.CsmBuild
import Verif.Model.GenText
import Verif.Spec.CText
import Verif.Proofs.GenText
import Verif.Props.GenText
import Verif.Model.Dot
import Verif.Spec.Dot
import Verif.Proofs.Dot
import Verif.Props.Dot
import Verif.Model.Wc
import Verif.Spec.Wc
import Verif.Proofs.Wc
import Verif.Props.Wc
import Verif.Model.Calc
import Verif.Spec.Calc
import Verif.Proofs.CalcEval
import Verif.Proofs.CalcGrammar
import Verif.Proofs.CalcLex
import Verif.Proofs.CalcLoop
import Verif.Proofs.CalcUnique
import Verif.Props.Calc
import Verif.Spec.LazyStates
import Verif.Proofs.LazyStates
import Verif.Props.LazyStates
import Verif.Model.Json
import Verif.Spec.Json
import Verif.Proofs.JsonRules
import Verif.Proofs.JsonLex
import Verif.Proofs.JsonMachine
import Verif.Proofs.JsonSteps
import Verif.Proofs.JsonGrammar
import Verif.Proofs.Slim
import Verif.Proofs.JsonBuild
import Verif.Props.Json
import Verif.Props.StateNames
import Verif.Props.Nested
import Verif.Props.Ocaml
import Verif.Props.Resume
import Verif.Props.RuleOrder
import Verif.Props.Lookahead
import Verif.Spec.Cut
import Verif.Props.Cut
import Verif.Spec.Classes
import Verif.Props.Classes
import Verif.Props.AllCalls
import Verif.Props.AnyCase
import Verif.Props.AnyRules
import Verif.Props.CutStates
import Verif.Props.Rename
import Verif.Props.AnyCalls
import Verif.Props.AnyLookahead
import Verif.Audit
