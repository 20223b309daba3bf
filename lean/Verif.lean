import Verif.Model.Sat
import Verif.Spec.Bits
import Verif.Model.Util
import Verif.Model.Cardinality
import Verif.Lemmas.Sat
import Verif.Lemmas.Numbers
import Verif.Lemmas.Sums
import Verif.Lemmas.Constants
import Verif.Lemmas.Invert
import Verif.Lemmas.Cardinality
import Verif.Props.Numbers
import Verif.Model.Tile
import Verif.Spec.Layout
import Verif.Lemmas.Tile
import Verif.Props.Transform
import Verif.Model.Template
import Verif.Spec.Template
import Verif.Lemmas.Template
import Verif.Props.Template
import Verif.Model.Solver
import Verif.Spec.Cell
import Verif.Spec.Rules
import Verif.Lemmas.Cell
import Verif.Lemmas.Grid
import Verif.Lemmas.Solver
import Verif.Lemmas.Rules
import Verif.Lemmas.Complete
import Verif.Lemmas.Free
import Verif.Props.Solver
import Verif.Model.Search
import Verif.Spec.Search
import Verif.Lemmas.Search
import Verif.Props.Search
import Verif.Model.Dict
import Verif.Model.Network
import Verif.Spec.Network
import Verif.Lemmas.Dict
import Verif.Lemmas.Network
import Verif.Lemmas.Benes
import Verif.Lemmas.NetworkText
import Verif.Lemmas.NetworkNorm
import Verif.Props.Network
import Verif.Model.Json
import Verif.Spec.Json
import Verif.Lemmas.Json
import Verif.Lemmas.JsonPrefix
import Verif.Model.Optimal
import Verif.Spec.Optimal
import Verif.Lemmas.Optimal
import Verif.Lemmas.Objective
import Verif.Props.Optimal
import Verif.Model.Crosstable
import Verif.Lemmas.Crosstable
import Verif.Props.Crosstable
import Verif.Model.Blueprint
import Verif.Spec.Blueprint
import Verif.Lemmas.Blueprint
import Verif.Props.Blueprint
import Verif.Model.Stringifier
import Verif.Spec.Stringifier
import Verif.Lemmas.Stringifier
import Verif.Props.Stringifier
import Verif.Model.Optimisations
import Verif.Spec.Optimise
import Verif.Lemmas.Optimisations
import Verif.Lemmas.OptimiseClauses
import Verif.Lemmas.OptimiseLines
import Verif.Lemmas.OptimiseSpans
import Verif.Lemmas.FillSpan
import Verif.Props.Samples
import Verif.Props.Spans
import Verif.Props.Optimisations
import Verif.Model.Library
import Verif.Spec.Library
import Verif.Lemmas.Library
import Verif.Lemmas.GridLits
import Verif.Model.BeltBalancer
import Verif.Spec.Balancer
import Verif.Lemmas.Balancer
import Verif.Lemmas.Labels
import Verif.Props.Balancer
import Verif.Model.BalancerEnds
import Verif.Spec.Ends
import Verif.Lemmas.Ends
import Verif.Props.Ends
import Verif.Model.Interchange
import Verif.Props.Interchange
import Verif.Model.NetFree
import Verif.Spec.LayoutFlow
import Verif.Lemmas.Energy
import Verif.Lemmas.LayoutFlow
import Verif.Lemmas.NetFree
import Verif.Props.NetFree
import Verif.Lemmas.NetFreeMix
import Verif.Lemmas.Reverse
import Verif.Lemmas.FlowCheck
import Verif.Model.NetFreeMain
import Verif.Props.NetFreeMix
import Verif.Props.NetFreeGame
import Verif.Props.NetFreeMain
import Verif.Model.PowerOfTwo
import Verif.Spec.Mixing
import Verif.Lemmas.PowerOfTwo
import Verif.Lemmas.PowerMix
import Verif.Props.PowerOfTwo
import Verif.Props.PowerOfTwoCase
import Verif.Lemmas.CheckClauses
import Verif.Model.MakeBlock
import Verif.Spec.Loop
import Verif.Lemmas.Loop
import Verif.Lemmas.MakeBlock
import Verif.Lemmas.MakeBlockLoop
import Verif.Lemmas.MakeBlockFull
import Verif.Lemmas.MakeBlockMain
import Verif.Props.MakeBlock
import Verif.Model.ParseNetwork
import Verif.Spec.Parse
import Verif.Lemmas.ParseTrace
import Verif.Lemmas.ParseStep
import Verif.Lemmas.ParseScan
import Verif.Lemmas.ParseEnds
import Verif.Lemmas.ParseMain
import Verif.Lemmas.ParseSound
import Verif.Props.ParseNetwork
import Verif.Spec.Mirror
import Verif.Lemmas.Mirror
import Verif.Lemmas.MirrorBreak
import Verif.Props.Mirror
import Verif.Spec.NetworkFlow
import Verif.Lemmas.NetworkFlow
import Verif.Props.NetworkFlow
import Verif.Props.BalancerBuilds
import Verif.Props.NetworkFlowCase
import Verif.Model.BalancerOptions
import Verif.Model.BalancerMain
import Verif.Spec.BalancerMain
import Verif.Lemmas.BalancerMain
import Verif.Lemmas.BalancerMainParts
import Verif.Props.BalancerMain
import Verif.Model.InterchangeMain
import Verif.Spec.Interchange
import Verif.Lemmas.Conserve
import Verif.Lemmas.Transport
import Verif.Lemmas.InterchangeParts
import Verif.Lemmas.InterchangeMain
import Verif.Lemmas.InterchangeRoutes
import Verif.Props.InterchangeMain
import Verif.Spec.NetFree
import Verif.Lemmas.NetFreeFill
import Verif.Lemmas.NetFreeExact
import Verif.Lemmas.NetFreeTidy
import Verif.Lemmas.IdleSplitters
import Verif.Props.NetFreeExact
import Verif.Props.NetFreeMissed
import Verif.Lemmas.Render
import Verif.Lemmas.RenderColours
import Verif.Lemmas.RenderLoop
import Verif.Lemmas.RenderRounds
import Verif.Lemmas.RenderText
import Verif.Lemmas.RenderTiles
import Verif.Model.Render
import Verif.Model.RenderLoop
import Verif.Model.RenderText
import Verif.Props.Render
import Verif.Props.RenderLoop
import Verif.Props.RenderText
import Verif.Spec.Render
import Verif.Spec.RenderLoop
import Verif.Spec.RenderText
import Verif.Spec.Power
import Verif.Lemmas.PowerExact
import Verif.Props.PowerExact
import Verif.Spec.NetFreeMix
import Verif.Lemmas.NetFreeMixExact
import Verif.Lemmas.NetFreeMixFill
import Verif.Lemmas.NetFreeMixComplete
import Verif.Props.NetFreeMixExact
import Verif.Model.FreePrograms
import Verif.Lemmas.Enumerate
import Verif.Props.FreePrograms
import Verif.Props.FreeProgramsTwice
import Verif.Spec.DividesEvenly
import Verif.Model.ShippedNetworks
import Verif.Lemmas.NetworkCheck
import Verif.Lemmas.NetworkTotal
import Verif.Lemmas.ShippedCertificates
import Verif.Lemmas.ShippedChecked
import Verif.Props.ShippedNetworks
import Verif.Model.LibSolver
import Verif.Spec.LibSolver
import Verif.Lemmas.LibSolver
import Verif.Props.LibSolver
import Verif.Model.NetworkMain
import Verif.Spec.Reverse
import Verif.Lemmas.ReverseFlow
import Verif.Props.ReverseFlow
import Verif.Model.Commands
import Verif.Spec.Commands
import Verif.Lemmas.JsonText
import Verif.Lemmas.Commands
import Verif.Props.Commands
import Verif.Model.SolveBalancer
import Verif.Spec.SolveBalancer
import Verif.Lemmas.SolveBalancer
import Verif.Lemmas.SearchRuns
import Verif.Props.SolveBalancer
import Verif.Spec.ParseFlow
import Verif.Lemmas.ParseFlow
import Verif.Props.ParseFlow
import Verif.Model.Plot
import Verif.Spec.Plot
import Verif.Props.Plot
import Verif.Model.NetworkFiles
import Verif.Props.NetworkFiles
import Verif.Model.OldFormats
import Verif.Spec.OldFormats
import Verif.Props.OldFormats
import Verif.Model.PartialText
import Verif.Props.PartialText
import Verif.Props.Pasted
import Verif.Lemmas.ParseBack
import Verif.Props.ParseBack
import Verif.Props.ParsePrinted
import Verif.Model.PrintSolution
import Verif.Spec.PrintSolution
import Verif.Lemmas.PrintSolution
import Verif.Props.PrintSolution
import Verif.Props.PrintBalancer
import Verif.Props.PrintPasted
import Verif.Model.PrintPrograms
import Verif.Spec.PrintPrograms
import Verif.Lemmas.PrintPrograms
import Verif.Props.PrintPrograms
import Verif.Model.Recolour
import Verif.Spec.Recolour
import Verif.Lemmas.Recolour
import Verif.Lemmas.RecolourClauses
import Verif.Lemmas.RecolourProblem
import Verif.Props.Recolour
import Verif.Model.EndsOffsets
import Verif.Spec.TurnAround
import Verif.Props.Horizontal
import Verif.Props.EndsOffsets
import Verif.Spec.ReadBack
import Verif.Props.ProgramPasted
import Verif.Model.Simplify
import Verif.Spec.Simplify
import Verif.Lemmas.Simplify
import Verif.Lemmas.SimplifyFlow
import Verif.Props.Simplify
import Verif.Model.Query
import Verif.Spec.Query
import Verif.Lemmas.Query
import Verif.Props.Query
import Verif.Spec.Reported
import Verif.Lemmas.Reported
import Verif.Lemmas.ShippedUsed
import Verif.Props.Reported
import Verif.Props.NetworkSize
import Verif.Props.BalancesUsed
import Verif.Lemmas.TurnedFlow
import Verif.Lemmas.TurnedRules
import Verif.Props.TurnedFlow
import Verif.Spec.Crosstable
import Verif.Props.Table
import Verif.Lemmas.RenameFlow
import Verif.Props.ParseFile
import Verif.Spec.TurnedPasted
import Verif.Props.TurnedPrograms
import Verif.Lemmas.BeltEnds
import Verif.Props.ParseFree
import Verif.Props.TurnedParse
