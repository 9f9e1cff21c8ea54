import Verif.Props.Convert
import Verif.Props.PlottingPositions
import Verif.Props.Nonparametric4
import Verif.Props.Xlsx
import Verif.Props.MCF
import Verif.Props.LinReg
import Verif.Props.Repairable
import Verif.Props.Testing2
import Verif.Props.Distributions
import Verif.Props.Combined
import Verif.Props.DSZI
import Verif.Props.Likelihood
import Verif.Props.FitEverything
import Verif.Props.MLE
import Verif.Props.Arrays
import Verif.Props.InputCheck
import Verif.Props.ALTCheck
import Verif.Props.Transforms
import Verif.Props.GenX
import Verif.Props.ALTData
import Verif.Props.StressStrength
import Verif.Props.ALT
import Verif.Props.FitEverythingALT
import Verif.Props.PoF
import Verif.Props.Creep
import Verif.Props.Crack
import Verif.Props.CrackInit
import Verif.Props.Moments
import Verif.Props.ClopperPearson
import Verif.Props.FunctionCI
import Verif.Props.ExpoCI
import Verif.Props.DistInputs
import Verif.Props.RankRegression
import Verif.Props.Units
import Verif.Props.UnitsMLE
import Verif.Props.AndersonDarling
import Verif.Props.MCFParametric
import Verif.Props.StressStrain
import Verif.Props.StrainLife
import Verif.Props.SNDiagram
import Verif.Props.ALTLeastSquares
import Verif.Props.SimilarDistributions
import Verif.Props.FitGlue
import Verif.Props.FitGlueExamples
import Verif.Props.FitGlue2
import Verif.Props.FitGlue3
import Verif.Props.FitQuantiles
import Verif.Props.FitGlueReturns
import Verif.Props.FitGlueExamples2
import Verif.Props.FitSpecialReturns
import Verif.Props.FitGrouped
import Verif.Props.ALTGlue
import Verif.Props.ALTGlueReturns
import Verif.Props.ALTGlueExamples
import Verif.Props.MaxLikelihood
import Verif.Props.MaxLikelihoodSpecial
import Verif.Props.MaxLikelihoodALT
import Verif.Props.MaxLikelihoodClosed
import Verif.Props.ProbPlots
import Verif.Props.ProbPlotsSemi
import Verif.Props.PPPlots
import Verif.Props.PlotPoints
import Verif.Props.ProbPaperLimits
import Verif.Props.ProbPaper
import Verif.Props.ProbPaperPlots
import Verif.Props.CombinedInit
import Verif.Props.CombinedMRL
import Verif.Props.FitEverythingFull
import Verif.Props.FitEverythingReturns
import Verif.Props.LikelihoodPlot
import Verif.Props.LikelihoodPlotExample
import Verif.Props.FitEverythingALTFull
import Verif.Props.FitOutcome
import Verif.Props.Histogram
import Verif.Props.RoundString
import Verif.Props.FitPlots
import Verif.Props.AxesLimits
import Verif.Props.Ticks
import Verif.Props.ChiTest
import Verif.Props.Downsample
import Verif.Props.WriteXlsx
import Verif.Props.Frames
import Verif.Props.ALTPlots
import Verif.Props.ALTPlotsExample
import Verif.Props.LifeStressPlot
import Verif.Props.LifeStressFit
import Verif.Props.Explorer
import Verif.Props.RandomSamples
import Verif.Props.DistPlot
import Verif.Props.Crosshairs
import Verif.Props.CIPlot
import Verif.Props.MethodPlot
import Verif.Props.CompositePlot
import Verif.Props.DsziPlot
import Verif.Props.NonparamPlot
import Verif.Props.MCFPlot
import Verif.Props.GrowthPlot
import Verif.Props.ReplacementPlot
import Verif.Props.ReplacementCost
import Verif.Props.RocofPlot
import Verif.Props.StrainLifePlot
import Verif.Props.SNPlot
import Verif.Props.StressStrainPlot
import Verif.Props.ParamsPlot
import Verif.Props.CreepPlot
import Verif.Props.CrackPlot
import Verif.Props.FitProbPlots
import Verif.Props.FitProbPlotsALT
import Verif.Props.FitterPlots
import Verif.Props.ProbBand
import Verif.Props.ColorPrint
import Verif.Props.UniqueFit
import Verif.Props.UniqueFit2
import Verif.Props.UniqueALT
import Verif.Props.ExistALT
import Verif.Props.UnitsReport
import Verif.Props.UnitsEverything
import Verif.Props.UnitsAD
import Verif.Props.UnitsALT
import Verif.Props.NonparametricOrder
import Verif.Props.UnitsRepairable
import Verif.Props.UnitsTesting
import Verif.Props.Titles
import Verif.Props.DataOrder
import Verif.Props.DataOrderGrouped
import Verif.Props.DataOrderSpecial
import Verif.Props.DataOrderEverything
import Verif.Props.DataOrderALT
import Verif.Props.DataOrderTests
import Verif.Props.Replicated
import Verif.Props.ReplicatedALT
import Verif.Props.ReplicatedKM
