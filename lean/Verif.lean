import Verif.Model.Base
import Verif.Model.MathTables
import Verif.Model.Math
import Verif.Model.RealInst
import Verif.Model.SReal
import Verif.Model.FloatInst
import Verif.Model.Ideal
import Verif.Model.Fjc
import Verif.Model.Efjc
import Verif.Model.Swfjc
import Verif.Model.LennardJones
import Verif.Model.LogSquared
import Verif.Model.Morse
import Verif.Model.Wlc
import Verif.Model.MonteCarlo
import Verif.Model.Constitutive
import Verif.Spec.Newton
import Verif.Spec.Ensembles
import Verif.Spec.Api
import Verif.Lemmas.Lits
import Verif.Lemmas.Quadrature
import Verif.Lemmas.Scaling
import Verif.Props.Quadrature
import Verif.Props.Newton
import Verif.Props.ScalingIdeal
import Verif.Props.ScalingFjc
import Verif.Props.ScalingEfjc
import Verif.Props.ScalingSwfjc
import Verif.Props.ScalingLennardJones
import Verif.Props.ScalingLogSquared
import Verif.Props.ScalingMorse
import Verif.Props.ScalingWlc
import Verif.Lemmas.Langevin
import Verif.Lemmas.Gradient
import Verif.Props.Ideal
import Verif.Props.FjcIsotensional
import Verif.Props.MethodsIdeal
import Verif.Props.MethodsFjc
import Verif.Props.MethodsEfjc
import Verif.Props.MethodsSwfjc
import Verif.Props.MethodsLennardJones
import Verif.Props.MethodsLogSquared
import Verif.Props.MethodsMorse
import Verif.Props.MethodsWlc
import Verif.Props.Methods
import Verif.Lemmas.ApiCore
import Verif.Lemmas.Links
import Verif.Props.LegendreIsotensional
import Verif.Props.Efjc
import Verif.Spec.Links
import Verif.Props.Swfjc
import Verif.Props.Morse
import Verif.Props.LambertW
import Verif.Props.LogSquared
import Verif.Props.LennardJones
import Verif.Spec.History
import Verif.Spec.Chains
import Verif.Props.Constitutive
import Verif.Props.Network
import Verif.Props.Histogram
import Verif.Props.MonteCarlo
import Verif.Spec.Legendre
import Verif.Spec.Domain
import Verif.Lemmas.IrwinHall
import Verif.Lemmas.Treloar
import Verif.Props.LegendreIsometric
import Verif.Props.FjcIsometric
import Verif.Lemmas.IrwinHallNorm
import Verif.Lemmas.Failure
import Verif.Props.TreloarFailure
import Verif.Props.Normalization
import Verif.Spec.Partition
import Verif.Lemmas.Partition
import Verif.Lemmas.LinkPartition
import Verif.Props.UfjcIsotensional
import Verif.Spec.ApiPotential
import Verif.Props.ScalingPotential
import Verif.Props.FjcPotential
import Verif.Props.FjcAsymptoticPotential
import Verif.Lemmas.Bessel
import Verif.Props.Bessel
import Verif.Spec.Special
import Verif.Spec.Distribution
import Verif.Props.BesselAccuracy
import Verif.Lemmas.Distribution
import Verif.Lemmas.Wlc
import Verif.Props.Wlc
import Verif.Lemmas.InverseLangevin
import Verif.Props.InverseLangevin
import Verif.Spec.RoundTrip
import Verif.Lemmas.RoundTrip
import Verif.Lemmas.SwfjcNewton
import Verif.Props.FjcLegendre
import Verif.Props.SwfjcLegendre
import Verif.Lemmas.EfjcNewton
import Verif.Props.EfjcLegendre
import Verif.Spec.WlcSearch
import Verif.Lemmas.WlcIsotensional
import Verif.Lemmas.WlcRoot
import Verif.Lemmas.Live
import Verif.Props.WlcIsotensional
import Verif.Props.WlcSearch
import Verif.Spec.Defined
import Verif.Spec.ApiDefined
import Verif.Lemmas.Defined
import Verif.Props.DefinedIdeal
import Verif.Props.DefinedEfjc
import Verif.Props.DefinedSwfjc
import Verif.Props.DefinedLambert
import Verif.Props.DefinedMorse
import Verif.Props.DefinedPotential
import Verif.Props.DefinedQuadrature
import Verif.Props.DefinedFjc
import Verif.Props.DefinedBessel
import Verif.Props.DefinedWlc
import Verif.Props.DefinedEfjcExact
import Verif.Props.EfjcStiff
import Verif.Props.DefinedEfjcIsometric
import Verif.Props.ErrorFunction
import Verif.Props.ErfcRelative
import Verif.Props.EfjcExact
import Verif.Props.DefinedWlcIsotensional
import Verif.Props.DefinedEfjcAlternative
import Verif.Lemmas.EfjcAsymptotic
import Verif.Props.EfjcAsymptotic
import Verif.Props.DefinedEfjcAsymptotic
import Verif.Lemmas.MorseNewton
import Verif.Props.MorseLegendre
import Verif.Props.LogSquaredLegendre
import Verif.Props.LennardJonesLegendre
import Verif.Props.DefinedMorseIsometric
import Verif.Lemmas.LambertSlope
import Verif.Lemmas.StretchNewton
import Verif.Lemmas.LogSquaredNewton
import Verif.Lemmas.LogSquaredGain
import Verif.Lemmas.LogSquaredRun
import Verif.Props.DefinedLogSquaredIsometric
import Verif.Lemmas.LennardJonesNewton
import Verif.Lemmas.LennardJonesRun
import Verif.Props.DefinedLennardJonesIsometric
import Verif.Model.CIdeal
import Verif.Model.CFjc
import Verif.Model.CEfjc
import Verif.Model.CSwfjc
import Verif.Model.CLennardJones
import Verif.Model.CLogSquared
import Verif.Model.CMorse
import Verif.Model.CWlc
import Verif.Model.PythonIdeal
import Verif.Model.PythonFjc
import Verif.Model.PythonEfjc
import Verif.Model.PythonSwfjc
import Verif.Model.PythonLennardJones
import Verif.Model.PythonLogSquared
import Verif.Model.PythonMorse
import Verif.Model.PythonWlc
import Verif.Model.JuliaBase
import Verif.Model.JuliaIdeal
import Verif.Model.JuliaFjc
import Verif.Model.JuliaEfjc
import Verif.Model.JuliaSwfjc
import Verif.Model.JuliaLennardJones
import Verif.Model.JuliaLogSquared
import Verif.Model.JuliaMorse
import Verif.Model.JuliaWlc
import Verif.Model.BindingsConstitutive
import Verif.Lemmas.Julia
import Verif.Props.CIdeal
import Verif.Props.CFjc
import Verif.Props.CEfjc
import Verif.Props.CSwfjc
import Verif.Props.CLennardJones
import Verif.Props.CLogSquared
import Verif.Props.CMorse
import Verif.Props.CWlc
import Verif.Props.PythonIdeal
import Verif.Props.PythonFjc
import Verif.Props.PythonEfjc
import Verif.Props.PythonSwfjc
import Verif.Props.PythonLennardJones
import Verif.Props.PythonLogSquared
import Verif.Props.PythonMorse
import Verif.Props.PythonWlc
import Verif.Props.JuliaIdeal
import Verif.Props.JuliaFjc
import Verif.Props.JuliaEfjc
import Verif.Props.JuliaSwfjc
import Verif.Props.JuliaLennardJones
import Verif.Props.JuliaLogSquared
import Verif.Props.JuliaMorse
import Verif.Props.JuliaWlc
import Verif.Props.Bindings
import Verif.Props.BindingsConstitutive
import Verif.Lemmas.Laplace
import Verif.Lemmas.SplineTransform
import Verif.Lemmas.ParamIntegral
import Verif.Spec.Ensemble
import Verif.Props.PotentialLimits
import Verif.Props.EnsembleTransform
import Verif.Props.StrongPotential
import Verif.Props.WeakPotential
import Verif.Props.PotentialQuadrature
import Verif.Lemmas.SplineSign
import Verif.Props.FjcStretch
import Verif.Props.LinearResponse
import Verif.Spec.LinkStatistics
import Verif.Lemmas.LinkStatistics
import Verif.Props.LinkStatistics
import Verif.Lemmas.StiffLink
import Verif.Lemmas.StiffGibbs
import Verif.Props.StiffLinks
import Verif.Props.StiffQuadrature
import Verif.Model.Ieee
import Verif.Spec.Ieee
import Verif.Lemmas.Ieee
import Verif.Spec.ApiIeee
import Verif.Props.IeeeFjc
import Verif.Props.IeeeOverflow
import Verif.Props.IeeeInverseLangevin
import Verif.Props.IeeeInverseLangevinGlobal
import Verif.Lemmas.SwfjcShape
import Verif.Lemmas.SwfjcMixture
import Verif.Lemmas.SwfjcSolve
import Verif.Lemmas.SwfjcNarrow
import Verif.Props.SwfjcNarrow
import Verif.Props.DefinedSwfjcIsometric
import Verif.Spec.Increase
import Verif.Props.Increase
import Verif.Lemmas.LambertAccuracy
import Verif.Props.LambertAccuracy
import Verif.Lemmas.NetworkNodes
import Verif.Props.DefinedNetwork
import Verif.Props.Prestress
import Verif.Props.NetworkLimits
import Verif.Lemmas.LatticeCount
import Verif.Props.IntactFraction
import Verif.Props.TailBound
import Verif.Spec.Temperature
import Verif.Props.Temperature
import Verif.Spec.Softer
import Verif.Props.Softer
import Verif.Spec.RandomDraws
import Verif.Lemmas.SphereAverage
import Verif.Lemmas.RadialUniqueness
import Verif.Props.MonteCarloLaw
import Verif.Props.MonteCarloMean
import Verif.Props.MonteCarloCutoff
import Verif.Props.MonteCarloError
import Verif.Props.MonteCarloRotating
import Verif.Lemmas.LongWalk
import Verif.Props.MonteCarloLong
import Verif.Lemmas.IeeeProduct
import Verif.Props.IeeeIdeal
import Verif.Lemmas.IeeeScale
import Verif.Props.IeeeFjcForce
import Verif.Lemmas.IeeeTreloar
import Verif.Lemmas.IeeeSized
import Verif.Props.IeeeTreloar
import Verif.Props.IeeeTreloarEnergy
import Verif.Props.IeeeEfjc
import Verif.Props.IeeeEfjcEnergy
import Verif.Props.IeeeSwfjc
import Verif.Props.IeeeSwfjcLength
import Verif.Props.IeeeSwfjcEnergy
import Verif.Props.IeeeSwfjcNarrow
import Verif.Props.IeeeSwfjcLegendre
import Verif.Props.IeeeSwfjcLegendreNarrow
import Verif.Props.IeeeEfjcAlternative
import Verif.Props.IeeeEfjcAlternativeEnergy
import Verif.Props.IeeeEfjcAlternativeLegendre
import Verif.Props.IeeeMorse
import Verif.Props.IeeeMorseAbove
import Verif.Props.IeeeMorseEnergy
import Verif.Props.IeeeMorseEnergyAbove
import Verif.Props.IeeeMorseLegendre
import Verif.Props.IeeeMorseLegendreAbove
import Verif.Props.IeeeEfjcAsymptotic
import Verif.Props.IeeeEfjcAsymptoticEnergy
import Verif.Props.IeeeEfjcAsymptoticLegendre
import Verif.Props.IeeeMorseAsymptoticAbove
import Verif.Props.Cases
