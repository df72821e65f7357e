import Verif.Base
import Verif.MacroMap
import Verif.Calc
import Verif.Num
import Verif.Macro
import Verif.CalcProofs
import Verif.ExprProofs
import Verif.MacroProofs
import Verif.LangProofs
import Verif.NumProofs
import Verif.Props.Macro
import Verif.Renumber
import Verif.RenumberProofs
import Verif.Props.Renumber
import Verif.UnitConv
import Verif.UnitConvProofs
import Verif.Props.UnitConv
import Verif.Rotator
import Verif.RotatorProofs
import Verif.Props.Rotator
import Verif.Splitter
import Verif.Spec.Split
import Verif.SplitterProofs
import Verif.Props.Splitter
import Verif.Enums
import Verif.Props.Enums
import Verif.Removal
import Verif.Props.Removal
import Verif.Message
import Verif.Props.Message
import Verif.Verifiers
import Verif.Spec.Verify
import Verif.VerifierProofs
import Verif.Props.Verifiers
import Verif.Wrapper
import Verif.WrapperProofs
import Verif.Props.Wrapper
import Verif.Framing
import Verif.Spec.Framing
import Verif.FramingProofs
import Verif.Props.Framing
import Verif.Lines
import Verif.Spec.Lines
import Verif.LinesProofs
import Verif.Props.Lines
import Verif.Extension
import Verif.Props.Extension
import Verif.Json
import Verif.Server
import Verif.Spec.Server
import Verif.ServerProofs
import Verif.TokenProofs
import Verif.Props.Server
import Verif.Props.Hover
import Verif.Demo
import Verif.Props.Serving
import Verif.DescProofs
import Verif.Props.Config
import Verif.Spec.Json
import Verif.JsonProofs
import Verif.Props.Json
import Verif.PathCalc
import Verif.Spec.Geometry
import Verif.GeometryProofs
import Verif.Props.Geometry
import Verif.Spec.Drill
import Verif.Props.Drill
import Verif.Props.ArcModes
import Verif.AttrPath
import Verif.AttrPathProofs
import Verif.Spec.Sim
import Verif.SimDemo
import Verif.Props.Sim
import Verif.Props.SimTotals
import Verif.Props.SimMono
import Verif.Props.SimReset
import Verif.Props.SimCases
import Verif.Props.SimLength
import Verif.Props.SimTools
import Verif.Props.SimOrder
import Verif.Spec.Modal
import Verif.SimModal
import Verif.Props.SimModal
import Verif.Props.SimTurn
import Verif.Props.DrillQ
import Verif.Props.SimDrill
import Verif.Props.SimHelix
import Verif.Props.SimTool
import Verif.Props.SimDefined
import Verif.Spec.Source
import Verif.Spec.Lens
import Verif.Props.Lens
import Verif.Props.Describe
import Verif.Grammar
import Verif.GrammarProofs
import Verif.GrammarDemo
import Verif.GrammarBack
import Verif.Spec.Words
import Verif.Props.Grammar
import Verif.Props.Verdict
import Verif.Spec.Tables
import Verif.GrammarRound
import Verif.Props.RoundTrip
import Verif.Pipeline
import Verif.GrammarQuiet
import Verif.Spec.Units
import Verif.PipelineProofs
import Verif.PipeDemo
import Verif.Props.Pipeline
import Verif.SimAlt
import Verif.Spec.Idle
import Verif.Props.SimDwell
import Verif.Settings
import Verif.Spec.Settings
import Verif.SettingsProofs
import Verif.Props.Settings
import Verif.Spec.Tables2
import Verif.Props.Tables2
import Verif.Spec.Survive
import Verif.Survive
import Verif.Props.Survive
import Verif.Spec.Check
import Verif.CheckProofs
import Verif.Props.Check
import Verif.Spec.Proper
import Verif.GrammarAccept
import Verif.Props.Written
import Verif.Whole
import Verif.Told
import Verif.Refused
import Verif.Spec.Document
import Verif.Props.Document
import Verif.Props.Endure
import Verif.Spec.Lost
import Verif.GrammarText
import Verif.Props.Lost
import Verif.Vars
import Verif.Props.Below
import Verif.Spec.Variables
import Verif.Effect
import Verif.Props.Variables
import Verif.Spec.Alike
import Verif.Props.Alike
import Verif.Transform
import Verif.Spec.Rewrite
import Verif.Props.Transform
import Verif.Heidenhain
import Verif.Spec.Heidenhain
import Verif.HeidenhainProofs
import Verif.HeidenhainBack
import Verif.HeidenhainWrite
import Verif.Props.Heidenhain
import Verif.Props.SimCancel
import Verif.Spec.Assign
import Verif.AssignLex
import Verif.AssignRead
import Verif.AssignStage
import Verif.Props.Assign
import Verif.Spec.Filled
import Verif.FillText
import Verif.GrammarTight
import Verif.FillProofs
import Verif.Props.Filled
import Verif.Props.DocVars
import Verif.OrderAttr
import Verif.Spec.Wanted
import Verif.Props.Wanted
import Verif.Agreement.Numbers
import Verif.Agreement.Path
import Verif.Agreement.Parts
import Verif.Agreement.Lines
import Verif.Agreement.HeidenhainLines
import Verif.Spec.Similar
import Verif.SimSimilar
import Verif.Props.Similar
import Verif.Shipped
import Verif.Props.Shipped
import Verif.Props.ShippedDesc
import Verif.SplitFile
import Verif.Spec.SplitFile
import Verif.SplitFileProofs
import Verif.Props.SplitFile
import Verif.Props.Shown
import Verif.Form
import Verif.Spec.Form
import Verif.FormProofs
import Verif.Props.InForce
import Verif.Props.Form
import Verif.Props.FormDemo
import Verif.Net
import Verif.Spec.Net
import Verif.NetProofs
import Verif.Props.Net
import Verif.Hand
import Verif.Spec.Hand
import Verif.HandProofs
import Verif.Props.Hand
import Verif.Blocks
import Verif.Spec.Blocks
import Verif.BlocksProofs
import Verif.Props.Blocks
import Verif.NetFiles
import Verif.Props.Same
import Verif.JsonFile
import Verif.Spec.JsonText
import Verif.JsonFileProofs
import Verif.JsonSame
import Verif.JsonWrite
import Verif.JsonWriteProofs
import Verif.ShippedText
import Verif.Props.JsonText
import Verif.Launch
import Verif.Spec.Launch
import Verif.Props.Launch
import Verif.Status
import Verif.Spec.Status
import Verif.Props.Status
import Verif.CodeText
import Verif.Props.CodeText
import Verif.Spec.Moved
import Verif.SimMoved
import Verif.SimMovedRun
import Verif.Props.Moved
import Verif.Spec.Coords
import Verif.SimCoords
import Verif.Props.Coords
import Verif.Spec.Repeat
import Verif.SimRepeat
import Verif.Props.Repeat
import Verif.Spec.Rates
import Verif.SimRates
import Verif.SimBooks
import Verif.Props.Rates
import Verif.Props.Rounds
import Verif.Props.Detour
import Verif.Props.Chord
import Verif.Props.Sense
import Verif.Props.Back
import Verif.Props.Columns
import Verif.Props.Editor
import Verif.Props.Rpc
import Verif.Props.Pace
import Verif.Props.Listed
import Verif.Props.Colour
import Verif.Props.ShippedColour
import Verif.Props.HalfTurn
import Verif.Props.TurnedArcs
import Verif.Spec.Scaled
import Verif.Props.ScaledArcs
import Verif.Spec.Parted
import Verif.Props.PartedArcs
import Verif.Props.OneFeed
import Verif.Props.ByRadius
import Verif.Props.RealRuns
import Verif.Props.Chords
import Verif.Props.SizedTime
import Verif.Props.ChordTime
import Verif.Props.TurnedTime
import Verif.Spec.Pieces
import Verif.SimPieces
import Verif.Props.Pieces
import Verif.Spec.Mirror
import Verif.SimMirror
import Verif.SimMirrorRun
import Verif.Props.Mirror
import Verif.Spec.CodeText
