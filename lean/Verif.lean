import Verif.Model.Admom
import Verif.Model.AdmomGuess
import Verif.Model.Basic
import Verif.Model.Bounded
import Verif.Model.EM
import Verif.Model.FastExp
import Verif.Model.FitModel
import Verif.Model.Fitter
import Verif.Model.Fl
import Verif.Model.Flags
import Verif.Model.Format
import Verif.Model.GMix
import Verif.Model.GMixGalsim
import Verif.Model.GMixHeap
import Verif.Model.GMixMore
import Verif.Model.GMixND
import Verif.Model.GMixNDObj
import Verif.Model.GPrior
import Verif.Model.GalsimCache
import Verif.Model.GalsimFit
import Verif.Model.GalsimFlux
import Verif.Model.Gauss
import Verif.Model.Guessers
import Verif.Model.Jacobian
import Verif.Model.JointDraw
import Verif.Model.JointPrior
import Verif.Model.KObs
import Verif.Model.Leastsq
import Verif.Model.Meds
import Verif.Model.Metacal
import Verif.Model.MetacalConv
import Verif.Model.MetacalNew
import Verif.Model.MomResult
import Verif.Model.Moments
import Verif.Model.ObsList
import Verif.Model.Observation
import Verif.Model.PSFFlux
import Verif.Model.Pixels
import Verif.Model.PreClasses
import Verif.Model.PrePSF
import Verif.Model.PriorArrays
import Verif.Model.PriorFit
import Verif.Model.Priors
import Verif.Model.PsfTarget
import Verif.Model.Random
import Verif.Model.Runners
import Verif.Model.SampleDraw
import Verif.Model.Shape
import Verif.Model.Simobs
import Verif.Model.WSums
import Verif.Proof.Admom
import Verif.Proof.AdmomAxes
import Verif.Proof.EM
import Verif.Proof.EMLike
import Verif.Proof.EMUnit
import Verif.Proof.Ellip
import Verif.Proof.ExceptLemmas
import Verif.Proof.FitEval
import Verif.Proof.FitInit
import Verif.Proof.FitModel
import Verif.Proof.FitUnit
import Verif.Proof.FitUnitPrior
import Verif.Proof.Fitter
import Verif.Proof.FlScale
import Verif.Proof.Format
import Verif.Proof.GalsimFit
import Verif.Proof.GaussOrder
import Verif.Proof.Guessers
import Verif.Proof.JointDensity
import Verif.Proof.JointPrior
import Verif.Proof.JointSample
import Verif.Proof.Leastsq
import Verif.Proof.MomResult
import Verif.Proof.ObsInv
import Verif.Proof.ObsSteps
import Verif.Proof.ObsSync
import Verif.Proof.Observation
import Verif.Proof.PSFFlux
import Verif.Proof.Pixels
import Verif.Proof.SampleDensity
import Verif.Proof.SampleLaw
import Verif.Proof.SampleLaws1
import Verif.Proof.SampleLaws2
import Verif.Proof.SampleLaws3
import Verif.Proof.SampleLaws4
import Verif.Proof.Shape
import Verif.Proof.Weights
import Verif.Props.Admom
import Verif.Props.AdmomAxes
import Verif.Props.AdmomGuess
import Verif.Props.Bands
import Verif.Props.Bounded
import Verif.Props.BruteLaw
import Verif.Props.Combine
import Verif.Props.Composite
import Verif.Props.Coords
import Verif.Props.Density
import Verif.Props.EM
import Verif.Props.EMLike
import Verif.Props.EMUnit
import Verif.Props.Ellip
import Verif.Props.FastExp
import Verif.Props.FitImage
import Verif.Props.FitModel
import Verif.Props.FitParts
import Verif.Props.FitSetup
import Verif.Props.FitUnit
import Verif.Props.Fitter
import Verif.Props.FitterPrior
import Verif.Props.Flags
import Verif.Props.FluxLinear
import Verif.Props.Format
import Verif.Props.GMix
import Verif.Props.GMixCopy
import Verif.Props.GMixGalsim
import Verif.Props.GMixHeap
import Verif.Props.GMixMore
import Verif.Props.GMixND
import Verif.Props.GMixNDObj
import Verif.Props.GPrior
import Verif.Props.GalsimCache
import Verif.Props.GalsimFit
import Verif.Props.GalsimFlux
import Verif.Props.GalsimGo
import Verif.Props.GaussMom
import Verif.Props.GaussOrder
import Verif.Props.GaussTurn
import Verif.Props.GaussUnit
import Verif.Props.Gaussap
import Verif.Props.GaussapComposite
import Verif.Props.GuessFlux
import Verif.Props.GuessPars
import Verif.Props.GuessShape
import Verif.Props.Guessers
import Verif.Props.HigherMom
import Verif.Props.Jacobian
import Verif.Props.JointArrays
import Verif.Props.JointPrior
import Verif.Props.JointSample
import Verif.Props.KObs
import Verif.Props.Layout
import Verif.Props.Leastsq
import Verif.Props.Likelihood
import Verif.Props.Masked
import Verif.Props.Meds
import Verif.Props.Metacal
import Verif.Props.MetacalConv
import Verif.Props.MetacalNew
import Verif.Props.ModelOps
import Verif.Props.Models
import Verif.Props.MomResult
import Verif.Props.MomUnit
import Verif.Props.Moments
import Verif.Props.NDAffine
import Verif.Props.Norms
import Verif.Props.ObsList
import Verif.Props.Observation
import Verif.Props.Order
import Verif.Props.PSFFlux
import Verif.Props.Parts
import Verif.Props.Pixels
import Verif.Props.PreClasses
import Verif.Props.PreLayout
import Verif.Props.PrePSF
import Verif.Props.PrePSFGo
import Verif.Props.PrePSFNoise
import Verif.Props.PrePSFPad
import Verif.Props.PrePSFRun
import Verif.Props.PreSmooth
import Verif.Props.PreTurn
import Verif.Props.PriorArrays
import Verif.Props.PriorFit
import Verif.Props.Priors
import Verif.Props.Profile
import Verif.Props.PsfGuess
import Verif.Props.PsfTarget
import Verif.Props.Random
import Verif.Props.Recover
import Verif.Props.Round
import Verif.Props.Runners
import Verif.Props.SampleLaw
import Verif.Props.Samplers
import Verif.Props.Shape
import Verif.Props.Simobs
import Verif.Props.SumsCase
import Verif.Props.Superpose
import Verif.Props.WSums
import Verif.Props.Weights
import Verif.Spec.Admom
import Verif.Spec.AdmomAxes
import Verif.Spec.Bands
import Verif.Spec.Combine
import Verif.Spec.Coords
import Verif.Spec.EM
import Verif.Spec.EMLike
import Verif.Spec.EMUnit
import Verif.Spec.FitModel
import Verif.Spec.FitParts
import Verif.Spec.FitSetup
import Verif.Spec.FitUnit
import Verif.Spec.FluxLinear
import Verif.Spec.GMix
import Verif.Spec.GMixGalsim
import Verif.Spec.GMixHeap
import Verif.Spec.GMixND
import Verif.Spec.GMixNDObj
import Verif.Spec.GalsimFit
import Verif.Spec.GalsimFlux
import Verif.Spec.GaussOrder
import Verif.Spec.GaussTurn
import Verif.Spec.GaussUnit
import Verif.Spec.Guessers
import Verif.Spec.HigherMom
import Verif.Spec.JointPrior
import Verif.Spec.JointSample
import Verif.Spec.KObs
import Verif.Spec.Layout
import Verif.Spec.Masked
import Verif.Spec.Metacal
import Verif.Spec.MetacalConv
import Verif.Spec.MetacalNew
import Verif.Spec.MomUnit
import Verif.Spec.Moments
import Verif.Spec.NDAffine
import Verif.Spec.ObsList
import Verif.Spec.Observation
import Verif.Spec.Order
import Verif.Spec.PSFFlux
import Verif.Spec.Parts
import Verif.Spec.Pixels
import Verif.Spec.PrePSF
import Verif.Spec.PreSmooth
import Verif.Spec.PreTurn
import Verif.Spec.PriorArrays
import Verif.Spec.Profile
import Verif.Spec.PsfGuess
import Verif.Spec.PsfTarget
import Verif.Spec.Recover
import Verif.Spec.Round
import Verif.Spec.Runners
import Verif.Spec.SampleLaw
import Verif.Spec.Shape
import Verif.Spec.Simobs
import Verif.Spec.Superpose
import Verif.Spec.WSums
import Verif.Spec.Weights
