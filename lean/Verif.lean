import Verif.Conformance
import Verif.Lemmas.Accepts
import Verif.Lemmas.Algebra
import Verif.Lemmas.Alike
import Verif.Lemmas.Arrange
import Verif.Lemmas.ArrangeDb
import Verif.Lemmas.ArrangeXml
import Verif.Lemmas.Arrays
import Verif.Lemmas.Brackets
import Verif.Lemmas.Build
import Verif.Lemmas.CacheProg
import Verif.Lemmas.Convert
import Verif.Lemmas.ConvertErr
import Verif.Lemmas.DbCheck
import Verif.Lemmas.DecStr
import Verif.Lemmas.Declares
import Verif.Lemmas.Dict
import Verif.Lemmas.DictText
import Verif.Lemmas.Dims
import Verif.Lemmas.Equality
import Verif.Lemmas.Errors
import Verif.Lemmas.ExpandTable
import Verif.Lemmas.Expanded
import Verif.Lemmas.Expander
import Verif.Lemmas.ExpanderRound
import Verif.Lemmas.ExpanderShift
import Verif.Lemmas.Fast
import Verif.Lemmas.Float
import Verif.Lemmas.FloatCheck
import Verif.Lemmas.FloatConvert
import Verif.Lemmas.Frames
import Verif.Lemmas.FramesDeep
import Verif.Lemmas.FramesShipped
import Verif.Lemmas.FramesUnit
import Verif.Lemmas.GenAlts
import Verif.Lemmas.GenEqs
import Verif.Lemmas.GenMain
import Verif.Lemmas.GenRules
import Verif.Lemmas.GenShift
import Verif.Lemmas.GenSim
import Verif.Lemmas.GenStates
import Verif.Lemmas.GenTime
import Verif.Lemmas.GenUnits
import Verif.Lemmas.Grammar
import Verif.Lemmas.Inline
import Verif.Lemmas.InlineUnits
import Verif.Lemmas.IntArrays
import Verif.Lemmas.Lexer
import Verif.Lemmas.LexerCheck
import Verif.Lemmas.LexerSim
import Verif.Lemmas.LexerTable
import Verif.Lemmas.Lexing
import Verif.Lemmas.Limits
import Verif.Lemmas.LimitsUnit
import Verif.Lemmas.Live
import Verif.Lemmas.LiveBuild
import Verif.Lemmas.LiveCheck
import Verif.Lemmas.LiveLook
import Verif.Lemmas.LivePool
import Verif.Lemmas.LiveSeen
import Verif.Lemmas.Load
import Verif.Lemmas.Lookup
import Verif.Lemmas.Magnitude
import Verif.Lemmas.Mono
import Verif.Lemmas.Monotone
import Verif.Lemmas.Names
import Verif.Lemmas.Numbers
import Verif.Lemmas.Objects
import Verif.Lemmas.ObjectsMore
import Verif.Lemmas.Order
import Verif.Lemmas.ParseAlone
import Verif.Lemmas.ParseThreads
import Verif.Lemmas.Parser
import Verif.Lemmas.ParserBound
import Verif.Lemmas.ParserClosure
import Verif.Lemmas.ParserCover
import Verif.Lemmas.ParserCtx
import Verif.Lemmas.ParserDepth
import Verif.Lemmas.ParserFirst
import Verif.Lemmas.ParserGood
import Verif.Lemmas.ParserLimit
import Verif.Lemmas.ParserLoop
import Verif.Lemmas.ParserReach
import Verif.Lemmas.ParserShift
import Verif.Lemmas.ParserTable
import Verif.Lemmas.Prediction
import Verif.Lemmas.Print
import Verif.Lemmas.PrintParse
import Verif.Lemmas.Readings
import Verif.Lemmas.ReadingsCheck
import Verif.Lemmas.Rebase
import Verif.Lemmas.RebaseDims
import Verif.Lemmas.RebaseEq
import Verif.Lemmas.Registry
import Verif.Lemmas.Renaming
import Verif.Lemmas.RenamingEq
import Verif.Lemmas.Rows
import Verif.Lemmas.Same
import Verif.Lemmas.ShippedCheck
import Verif.Lemmas.ShippedWhole
import Verif.Lemmas.Size
import Verif.Lemmas.Strict
import Verif.Lemmas.Super
import Verif.Lemmas.SymbolOrder
import Verif.Lemmas.Symbolic
import Verif.Lemmas.Texts
import Verif.Lemmas.Threads
import Verif.Lemmas.Tokens
import Verif.Lemmas.Understood
import Verif.Lemmas.Units
import Verif.Lemmas.Words
import Verif.Lemmas.Xml
import Verif.Model.Arrays
import Verif.Model.Atn
import Verif.Model.AtnData
import Verif.Model.CacheProg
import Verif.Model.Cli
import Verif.Model.Convert
import Verif.Model.Database
import Verif.Model.DateTime
import Verif.Model.Declarations
import Verif.Model.Expander
import Verif.Model.Float
import Verif.Model.Frames
import Verif.Model.GeneratedParser
import Verif.Model.Graph
import Verif.Model.IntArrays
import Verif.Model.Lexer
import Verif.Model.LexerSim
import Verif.Model.Limits
import Verif.Model.Names
import Verif.Model.Objects
import Verif.Model.ParseThreads
import Verif.Model.Parser
import Verif.Model.ParserDepth
import Verif.Model.ParserSim
import Verif.Model.Sympy
import Verif.Model.System
import Verif.Model.Threads
import Verif.Model.Unit
import Verif.Model.Xml
import Verif.Props.Algebra
import Verif.Props.Arrange
import Verif.Props.Arrays
import Verif.Props.Brackets
import Verif.Props.Build
import Verif.Props.Cli
import Verif.Props.Convert
import Verif.Props.Database
import Verif.Props.DateTime
import Verif.Props.Demo
import Verif.Props.Dims
import Verif.Props.Expanded
import Verif.Props.Expander
import Verif.Props.Float
import Verif.Props.Frames
import Verif.Props.Generated
import Verif.Props.GeneratedParser
import Verif.Props.Inline
import Verif.Props.IntArrays
import Verif.Props.Limits
import Verif.Props.Live
import Verif.Props.Lookup
import Verif.Props.Monotone
import Verif.Props.Names
import Verif.Props.Objects
import Verif.Props.ParseThreads
import Verif.Props.Parser
import Verif.Props.ParserDepth
import Verif.Props.Prefix
import Verif.Props.Print
import Verif.Props.Rebase
import Verif.Props.Registry
import Verif.Props.Resolve
import Verif.Props.Shipped
import Verif.Props.ShippedFloat
import Verif.Props.ShippedInline
import Verif.Props.ShippedIntArrays
import Verif.Props.ShippedLimits
import Verif.Props.ShippedOffsets
import Verif.Props.ShippedTexts
import Verif.Props.ShippedThreads
import Verif.Props.ShippedUnits
import Verif.Props.Size
import Verif.Props.Super
import Verif.Props.Threads
import Verif.Props.Understood
import Verif.Props.Units
import Verif.Props.Xml
import Verif.Py
import Verif.Spec.Algebra
import Verif.Spec.Arrange
import Verif.Spec.Automaton
import Verif.Spec.Build
import Verif.Spec.Convert
import Verif.Spec.Depth
import Verif.Spec.DictText
import Verif.Spec.Dims
import Verif.Spec.Expand
import Verif.Spec.Expanded
import Verif.Spec.Float
import Verif.Spec.Frames
import Verif.Spec.Generated
import Verif.Spec.Grammar
import Verif.Spec.Inline
import Verif.Spec.IntArrays
import Verif.Spec.Lexer
import Verif.Spec.Limits
import Verif.Spec.Live
import Verif.Spec.Lookup
import Verif.Spec.Monotone
import Verif.Spec.Numbers
import Verif.Spec.Objects
import Verif.Spec.ParserHistory
import Verif.Spec.Print
import Verif.Spec.Readings
import Verif.Spec.Rebase
import Verif.Spec.Registry
import Verif.Spec.Renaming
import Verif.Spec.Resolve
import Verif.Spec.Same
import Verif.Spec.ShippedTable
import Verif.Spec.ShippedTexts
import Verif.Spec.ShippedUnits
import Verif.Spec.Size
import Verif.Spec.Super
import Verif.Spec.Threads
import Verif.Spec.Understood
import Verif.Spec.Units
import Verif.Spec.WholeSpellings
import Verif.Spec.Xml
