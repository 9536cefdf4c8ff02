import Verif.Model.Bound
import Verif.Model.RawInterval
import Verif.Model.Tine
import Verif.Model.TineTree
import Verif.Model.Normalize
import Verif.Model.Interval
import Verif.Model.Selection
import Verif.Spec
import Verif.Lemmas.Raw
import Verif.Props.Raw
import Verif.Lemmas.Norm
import Verif.Lemmas.Interval
import Verif.Props.Normalize
import Verif.Props.Interval
import Verif.Lemmas.TreeBase
import Verif.Lemmas.TreeOps
import Verif.Lemmas.TreeCov
import Verif.Lemmas.TreeMinus
import Verif.Lemmas.TreeMore
import Verif.Lemmas.TreeDiff
import Verif.Lemmas.TreeEnc
import Verif.Props.Tree
import Verif.Lemmas.SelBase
import Verif.Lemmas.SelOps
import Verif.Lemmas.SelIter
import Verif.Lemmas.SelMore
import Verif.Props.Selection
import Verif.Props.SelectionMore
import Verif.Model.Parse
import Verif.SpecText
import Verif.Lemmas.Text
import Verif.Props.Parse
import Verif.SpecMore
import Verif.Lemmas.More
import Verif.Props.More
import Verif.Lemmas.Exact
import Verif.Lemmas.Isect
import Verif.Props.Exact
import Verif.Lemmas.Refine
import Verif.Lemmas.Programs
import Verif.Props.Programs
import Verif.Lemmas.Canon
import Verif.Props.Canon
import Verif.Lemmas.Strong
import Verif.Props.Strong
import Verif.Lemmas.Back
import Verif.Props.Back
import Verif.Props.Contract
import Verif.Props.Sharp
import Verif.Lemmas.Ends
import Verif.Props.SharpSel
import Verif.Model.Owned
import Verif.Props.Owned
import Verif.Model.Serde
import Verif.SpecSerde
import Verif.Props.Serde
import Verif.Props.SerdePanic
import Verif.Tests.RawInterval
import Verif.Tests.TineTree
import Verif.Tests.Docs
import Verif.SpecWalk
import Verif.Lemmas.Walk
import Verif.Props.Walk
import Verif.Lemmas.Minus
import Verif.Lemmas.Frame
import Verif.Lemmas.Cut
import Verif.Props.Minus
import Verif.Props.Cut
import Verif.Props.UnionAll
import Verif.Props.Bounds
import Verif.Props.ContractMore
import Verif.Lemmas.Runs
import Verif.Props.Runs
import Verif.Model.BoundPartial
import Verif.SpecPartial
import Verif.Props.BoundPartial
import Verif.Model.Release
import Verif.Props.Release
import Verif.Lemmas.Pinhole
import Verif.Props.Pinhole
import Verif.Lemmas.Neat
import Verif.Lemmas.Whole
import Verif.Props.Histories
import Verif.Lemmas.Count
import Verif.Props.Count
import Verif.Model.Unwind
import Verif.Lemmas.Unwind
import Verif.Lemmas.UnwindNeat
import Verif.Lemmas.IsectAll
import Verif.Props.Unwind
import Verif.Props.CutEvery
import Verif.Props.WalkAny
import Verif.Props.Laws
import Verif.Props.MinusEvery
import Verif.Props.ClosureAny
import Verif.Props.OrderAny
import Verif.Props.FusedAny
import Verif.Props.CutPanics
import Verif.Props.Steps
import Verif.Props.Collect
import Verif.Props.Tally
import Verif.Model.Hash
import Verif.SpecHash
import Verif.Props.Hash
import Verif.Props.Agree
import Verif.SpecLoop
import Verif.Props.Stops
import Verif.SpecBool
import Verif.Props.Algebra
import Verif.SpecMap
import Verif.Lemmas.Natural
import Verif.Lemmas.NaturalTree
import Verif.Lemmas.NaturalSel
import Verif.Props.Natural
import Verif.SpecMirror
import Verif.Lemmas.Mirror
import Verif.Lemmas.MirrorTree
import Verif.Lemmas.MirrorOps
import Verif.Lemmas.MirrorSel
import Verif.Props.Mirror
import Verif.SpecLattice
import Verif.Lemmas.Lattice
import Verif.Lemmas.LatticeInterval
import Verif.Props.Lattice
import Verif.Lemmas.Twice
import Verif.Lemmas.Piecewise
import Verif.Props.Twice
import Verif.Props.Piecewise
import Verif.Props.PiecewiseSel
import Verif.SpecGaps
import Verif.Lemmas.Gaps
import Verif.Props.Gaps
import Verif.SpecAny
import Verif.Props.Sound
import Verif.Props.Undo
import Verif.SpecEdit
import Verif.Props.Local
import Verif.Props.Order
import Verif.Lemmas.Swap
import Verif.Props.Swap
import Verif.Lemmas.Crisp
import Verif.Props.Edited
import Verif.SpecPool
import Verif.Props.Pool
import Verif.SpecContext
import Verif.Lemmas.Context
import Verif.Props.Context
import Verif.SpecNet
import Verif.Props.Net
import Verif.SpecSpot
import Verif.Props.Spot
import Verif.Props.SpotTree
import Verif.Props.HashExact
import Verif.SpecCalendar
import Verif.Props.Calendar
import Verif.Props.SpotRuns
import Verif.SpecWithin
import Verif.Props.Within
import Verif.SpecApart
import Verif.Props.Apart
import Verif.SpecClip
import Verif.Props.Clip
import Verif.SpecPatch
import Verif.Props.Patch
import Verif.SpecHeap
import Verif.Props.Heap
import Verif.SpecStream
import Verif.Props.Stream
import Verif.Props.StreamExact
import Verif.SpecBackward
import Verif.Lemmas.Backward
import Verif.Lemmas.BackwardAny
import Verif.Props.Backward
import Verif.Lemmas.BackPoints
import Verif.Props.BackPoints
import Verif.SpecToggle
import Verif.Props.Toggle
import Verif.Props.BackTurns
import Verif.Props.Kth
import Verif.SpecDense
import Verif.Props.Dense
import Verif.SpecSort
import Verif.Props.Sort
import Verif.SpecNext
import Verif.Props.Next
import Verif.Props.NextExact
import Verif.SpecFile
import Verif.Props.File
import Verif.SpecNumeral
import Verif.Props.Numeral
import Verif.SpecLongest
import Verif.Props.Longest
import Verif.SpecLevels
import Verif.Props.Levels
import Verif.Props.Mixed
import Verif.SpecRunFilter
import Verif.Props.RunFilter
import Verif.Props.RunFilterAny
import Verif.SpecPad
import Verif.Props.Pad
import Verif.SpecTable
import Verif.Props.Table
import Verif.SpecSplit
import Verif.Props.Split
import Verif.Props.SplitAny
import Verif.SpecRank
import Verif.Props.Rank
import Verif.SpecBlocks
import Verif.Props.Blocks
import Verif.SpecLookup
import Verif.Props.Lookup
import Verif.Props.RankAny
import Verif.Props.PadAny
import Verif.SpecMerge
import Verif.Props.Merge
import Verif.Props.MergeAny
import Verif.SpecTypes
import Verif.Props.Types
import Verif.SpecParts
import Verif.Props.Parts
import Verif.SpecStrip
import Verif.Lemmas.Strip
import Verif.Props.Strip
import Verif.SpecLayers
import Verif.Props.Layers
import Verif.Props.StripEvery
import Verif.Props.StripMinus
import Verif.Props.StripSame
import Verif.Props.StripTwice
import Verif.Props.StripBook
import Verif.Props.StripAsk
import Verif.Props.StripUndo
import Verif.Props.StripSwap
import Verif.Props.StripPlain
import Verif.Props.StripOrder
import Verif.Props.StripRuns
import Verif.Props.StripPatch
import Verif.Props.StripCuts
import Verif.Props.StripPool
import Verif.Props.StripWedge
import Verif.SpecWindow
import Verif.Props.StripWindow
import Verif.SpecSparse
import Verif.Props.StripSparse
import Verif.SpecDiary
import Verif.Props.StripDiary
import Verif.Props.StripFilled
import Verif.SpecFree
import Verif.Props.StripFree
import Verif.SpecHeapCalls
import Verif.Props.StripHeap
import Verif.SpecClicks
import Verif.Props.StripClicks
import Verif.SpecHeapPages
import Verif.Props.StripPages
