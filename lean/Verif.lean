import Verif.Props.Interval
import Verif.Props.IntervalText
import Verif.Props.Polynomial
import Verif.Props.PolytopeOps
import Verif.Props.PolytopeLP
import Verif.Props.PolytopeHull
import Verif.Props.PolytopeUnion
import Verif.Props.PolytopeContracts
import Verif.Props.PolytopeMinkowski
import Verif.Props.Region
import Verif.Props.RegionSimplify
import Verif.Props.RegionDisjoint
import Verif.Props.UnionThin
import Verif.Props.RegionThin
import Verif.Props.Affine
import Verif.Props.Beta
import Verif.Props.Hypotheses
import Verif.Props.ExponentPair
import Verif.Props.ExponentPairProof
import Verif.Props.Cache
import Verif.Props.Mu
import Verif.Props.MuPiecewise
import Verif.Props.BetaPairs
import Verif.Props.Affine2
import Verif.Props.Rational
import Verif.Props.RationalOps
import Verif.Props.LargeValues
import Verif.Props.Bib
import Verif.Props.RegionMore
import Verif.Props.Project
import Verif.Props.SupRatio
import Verif.Props.Printing
import Verif.Props.PiecewiseMore
import Verif.Props.LargeValueRegion
import Verif.Props.ZeroDensity
import Verif.Props.EnergyRegion
import Verif.Props.LiteratureLV
import Verif.Props.LiteratureEnergy
import Verif.Props.LiteratureBeta
import Verif.Props.LiteratureZD
import Verif.Props.LiteratureZDTable
import Verif.Model.BourgainZD
import Verif.Props.PairZD
import Verif.Props.BourgainZD
import Verif.Model.DerivedZD
import Verif.Props.DerivedZD
import Verif.Props.DerivedZDCases
import Verif.Model.LiteraturePairs
import Verif.Props.LiteraturePairs
import Verif.Props.Prune
import Verif.Model.LiteratureMu
import Verif.Props.LiteratureMu
import Verif.Model.DerivedEnergy
import Verif.Props.DerivedEnergy
import Verif.Props.DerivedEnergyValue
import Verif.Props.DerivedEnergyForms
import Verif.Props.DerivedEnergyCase2
import Verif.Props.DerivedEnergyCase3
import Verif.Props.DerivedEnergyCase4
import Verif.Props.DerivedEnergyCase5
import Verif.Props.DerivedEnergyCase6
import Verif.Props.DerivedEnergyCase8
import Verif.Props.DerivedEnergyCase9
import Verif.Props.DerivedEnergyCase10
import Verif.Props.DerivedEnergyTable
import Verif.Model.PrimeGap
import Verif.Props.PrimeGap
import Verif.Props.PrimeGapInput
import Verif.Props.PrimeGapCode
import Verif.Props.PrimeGapRun
import Verif.Props.PrimeGapBest
import Verif.Model.DerivedZD2
import Verif.Props.DerivedZD2
import Verif.Props.DerivedZD2Cases
import Verif.Model.DerivedLV
import Verif.Props.RegionMixed
import Verif.Props.DerivedLV
import Verif.Props.DerivedLVMain
import Verif.Props.BetaOrder
import Verif.Props.BetaPairsOrder
import Verif.Model.DerivedPairs
import Verif.Props.DerivedPairs
import Verif.Props.DerivedPairsNew
import Verif.Props.RegionOneThin
import Verif.Model.DerivedMu
import Verif.Props.DerivedMu
import Verif.Props.DerivedMu2
import Verif.Model.DerivedBeta
import Verif.Props.DerivedBeta
import Verif.Model.Lookup
import Verif.Props.Lookup
import Verif.Model.HBPairs
import Verif.Props.HBPairs
import Verif.Model.Plots
import Verif.Props.Plots
import Verif.Model.EnergyTrivial
import Verif.Props.EnergyTrivial
import Verif.Props.RegionUnb
import Verif.Props.ZeroDensityUnb
import Verif.Props.BourgainRegion
import Verif.Model.DerivedBourgain
import Verif.Props.ZeroDensitySets
import Verif.Props.DerivedBourgain
import Verif.Props.EnergyUnb
import Verif.Props.EnergySolid
import Verif.Props.EnergyBourgain
import Verif.Props.DerivedEnergyCase7
import Verif.Model.BourgainOpt
import Verif.Props.BourgainOpt
import Verif.Props.DerivedIds
import Verif.Props.LookupNodes
import Verif.Model.Constraint
import Verif.Props.Constraint
import Verif.Model.Helpers
import Verif.Props.Helpers
import Verif.Model.EnergyPlot
import Verif.Props.EnergyPlot
import Verif.Props.EnergyGap
import Verif.Model.DensityPlot
import Verif.Props.DensityPlot
import Verif.Model.IvicRanges
import Verif.Props.IvicRanges
import Verif.Model.BetaPlot
import Verif.Props.BetaPlot
import Verif.Model.FunctionText
import Verif.Props.FunctionText
import Verif.Model.BestProof
import Verif.Props.BestProof
import Verif.Model.MuExamples
import Verif.Props.MuExamples
import Verif.Model.ZetaExamples
import Verif.Props.ZetaExamples
import Verif.Props.BestProofWatt
import Verif.Model.ExpPairExamples
import Verif.Props.ExpPairExamples
import Verif.Props.ExponentPairDeep
import Verif.Model.ProveAll
import Verif.Props.ProveAll
import Verif.Model.EnergyLabels
import Verif.Props.EnergyLabels
import Verif.Props.EnergyPower
import Verif.Model.ZDOutput
import Verif.Props.ZDOutput
import Verif.Model.Dependency
import Verif.Props.Dependency
