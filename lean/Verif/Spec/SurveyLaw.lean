import Verif.Spec.Law
import Verif.Model.SimVar
import Mathlib.Probability.Distributions.Gaussian.Real
import Mathlib.Probability.Distributions.Poisson.Basic

/-!
# The law of a survey

An object has a distance, a position on the sky, a luminosity and a measurement error of
its flux; all of these are real numbers.  It is detected with a probability that depends
on its observed flux.
-/

set_option autoImplicit false

open MeasureTheory Filter
open scoped NNReal ENNReal

namespace Popsynth
namespace Spec

/-- An object: distance, polar angle and azimuth, luminosity, measurement error. -/
structure SkySource where
  distance : ℝ
  theta : ℝ
  phi : ℝ
  luminosity : ℝ
  noise : ℝ

/-- A source as a tuple. -/
def SkySource.ofTuple (p : ℝ × (ℝ × ℝ) × ℝ × ℝ) : SkySource := ⟨p.1, p.2.1.1, p.2.1.2, p.2.2.1, p.2.2.2⟩

instance : MeasurableSpace SkySource := MeasurableSpace.map SkySource.ofTuple inferInstance

/-- The law of a measurement error: normal with the given standard deviation, no error if
there is none. -/
noncomputable def noiseLaw : Option ℝ → Measure ℝ
  | none => Measure.dirac 0
  | some sigma => ProbabilityTheory.gaussianReal 0 ⟨sigma ^ 2, sq_nonneg sigma⟩

/-- The law of a source: distance with law `μd`, isotropic position, luminosity with law
`μL`, error with standard deviation `sigma`, all independent. -/
noncomputable def sourceLaw (μd μL : Measure ℝ) (sigma : Option ℝ) : Measure SkySource :=
  (μd.prod (((densityLaw Real.sin Real.pi).prod (uniformLaw (2 * Real.pi))).prod
    (μL.prod (noiseLaw sigma)))).map SkySource.ofTuple

/-- Sources with a flag that is set with probability `p`. -/
noncomputable def flagged {α : Type} [MeasurableSpace α] (μ : Measure α) (p : α → ℝ≥0∞) :
    Measure (α × Bool) :=
  (μ.withDensity p).map (fun x => (x, true)) +
    (μ.withDensity fun x => 1 - p x).map fun x => (x, false)

/-- A set of lists is measurable if for every length its members of that length, as
tuples, form a measurable set. -/
instance {α : Type} [MeasurableSpace α] : MeasurableSpace (List α) :=
  ⨅ n : ℕ, MeasurableSpace.map (fun v : Fin n → α => List.ofFn v) inferInstance

/-- A Poisson number (mean `r`) of independent values with law `μ`. -/
noncomputable def poissonSample {α : Type} [MeasurableSpace α] (r : ℝ≥0) (μ : Measure α) :
    Measure (List α) :=
  (ProbabilityTheory.poissonMeasure r).bind fun n => (iid n μ).map List.ofFn

/-- The Poisson process with intensity `κ`: the number of points is Poisson with mean
`κ univ`, and `n` points have density `κ(dx₁)⋯κ(dxₙ)`, up to normalisation. -/
noncomputable def poissonProcess {α : Type} [MeasurableSpace α] (κ : Measure α) :
    Measure (List α) :=
  Measure.sum fun n : ℕ => (ENNReal.ofReal (Real.exp (-κ.real Set.univ) / n.factorial)) •
    (iid n κ).map List.ofFn

/-- A survey reads and draws with the methods of the base class for the density of `c`; the
loops may turn at most `k` times, and seeding puts the generator into state `g`. -/
def surveyEnv {F G : Type} [OfNat F 0] [OfNat F 1] (e : SurveyEnv F G) (env : DistEnv F G)
    (code : DensityCode F) (showProgress : Bool)
    (transform : List F → List F → Except Err (List F)) (galB : List F → List F → List F)
    (k : ℕ) (g : G) : SurveyEnv F G :=
  { e with spatial := SpatialCode.base { env with budget := k } code showProgress transform galB
           seed := fun _ _ => .ok g }

/-- The standard deviation of the errors in a survey: there are no errors if everything is
selected. -/
def sigmaUsed {G : Type} (kind : SelKind ℝ G) (a : SurveyArgs ℝ) : Option ℝ :=
  if kind.isUnity then none else a.fluxSigma

/-- The observed flux of a source with flux `f` and error `x`. -/
def observed {G : Type} (e : SurveyEnv ℝ G) (sigma : Option ℝ) (log10Draw : Bool) (f x : ℝ) : ℝ :=
  match sigma with
  | none => f
  | some _ => if log10Draw then e.pow10 (e.add (e.log10 f) x) else e.exp (e.add (e.ln f) x)

/-- The observed flux can be computed. -/
def observable {G : Type} (e : SurveyEnv ℝ G) (sigma : Option ℝ) (log10Draw : Bool) (f x : ℝ) :
    Prop :=
  sigma.isSome → e.isFinite (if log10Draw then e.add (e.log10 f) x else e.add (e.ln f) x) = true

/-- The selector detects an object with a probability `p` that depends on its flux, for all
objects independently. -/
def Detects {G : Type} [MeasurableSpace G] (P : Measure G) (w : World ℝ G) (sel : Selector ℝ G)
    (p : ℝ → ℝ≥0∞) : Prop :=
  ∃ (ν : Measure ℝ) (D : Set (ℝ × ℝ)) (_ : DecidablePred (· ∈ D)), IsProbabilityMeasure ν ∧
    MeasurableSet D ∧ (∀ x, ν {u | (x, u) ∈ D} = p x) ∧
    ∀ n, Samples P (iid n ν) fun _ g u g' => ∀ fs : Fin n → ℝ, ∃ sel',
      selDraw w.sel w.half w.ninety w.showProgress n
        { sel := { sel with data := { sel.data with flux := some (List.ofFn fs) } }, rng := g } =
        .ok () { sel := sel', rng := g' } ∧
      sel'.selection = some (List.ofFn fun i => decide ((fs i, u i) ∈ D))

/-- `Q` is the population of the given sources; the flag says which ones are detected. -/
structure Holds (Q : Population ℝ) (flux : ℝ → ℝ → ℝ) (obs : ℝ → ℝ → ℝ)
    (l : List (SkySource × Bool)) : Prop where
  selection : Q.selection = l.map fun x => x.2
  distances : Q.distances = { obs := l.map fun x => x.1.distance
                              latent := l.map fun x => x.1.distance, selection := Q.selection }
  theta : Q.theta = { obs := l.map fun x => x.1.theta, latent := l.map fun x => x.1.theta
                      selection := Q.selection }
  phi : Q.phi = { obs := l.map fun x => x.1.phi, latent := l.map fun x => x.1.phi
                  selection := Q.selection }
  luminosities : Q.luminosities = { obs := l.map fun x => x.1.luminosity
                                    latent := l.map fun x => x.1.luminosity, selection := Q.selection }
  fluxes : Q.fluxes = { obs := l.map fun x => obs (flux x.1.luminosity x.1.distance) x.1.noise
                        latent := l.map fun x => flux x.1.luminosity x.1.distance
                        selection := Q.selection }
  counts : Q.nDetections = (l.map fun x => x.2).count true ∧
    Q.nNonDetections = (l.map fun x => x.2).count false

/-- The selected and the non-selected part of a variable of a population: observed and latent
values. -/
structure Parts (x : SimVar ℝ) (selObs selLatent hidObs hidLatent : List ℝ) : Prop where
  selected : ∃ v, (x.toSVar .float).selected = .ok v ∧ v.obs = selObs ∧ v.latent = selLatent
  hidden : ∃ v, (x.toSVar .float).nonSelected = .ok v ∧ v.obs = hidObs ∧ v.latent = hidLatent

/-- `Q` is a population with the detected sources `d` and the undetected sources `u`. -/
structure Splits (Q : Population ℝ) (flux : ℝ → ℝ → ℝ) (obs : ℝ → ℝ → ℝ) (d u : List SkySource) :
    Prop where
  distances : Parts Q.distances (d.map SkySource.distance) (d.map SkySource.distance)
    (u.map SkySource.distance) (u.map SkySource.distance)
  theta : Parts Q.theta (d.map SkySource.theta) (d.map SkySource.theta) (u.map SkySource.theta)
    (u.map SkySource.theta)
  phi : Parts Q.phi (d.map SkySource.phi) (d.map SkySource.phi) (u.map SkySource.phi) (u.map SkySource.phi)
  luminosities : Parts Q.luminosities (d.map SkySource.luminosity) (d.map SkySource.luminosity)
    (u.map SkySource.luminosity) (u.map SkySource.luminosity)
  fluxes : Parts Q.fluxes (d.map fun x => obs (flux x.luminosity x.distance) x.noise)
    (d.map fun x => flux x.luminosity x.distance)
    (u.map fun x => obs (flux x.luminosity x.distance) x.noise)
    (u.map fun x => flux x.luminosity x.distance)
  counts : Q.nDetections = d.length ∧ Q.nNonDetections = u.length

end Spec
end Popsynth
