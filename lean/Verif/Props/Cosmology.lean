import Verif.Lemmas.Cosmology
import Mathlib.Topology.Order.IntermediateValue

/-!
# Cosmological distances and fluxes (C53, C54)
-/

set_option autoImplicit false
set_option linter.unusedSectionVars false

namespace Popsynth

open Set

noncomputable section

namespace Spec

/-- A flat cosmology with matter and dark energy. -/
structure FlatCosmology (c : Cosmo) : Prop where
  matter : 0 < c.Om
  hubble : 0 < c.h0
  radiation : 0 ≤ c.radiation
  darkEnergy : 0 < 1 - c.Om - c.radiation

end Spec

open Spec

variable {c : Cosmo}

/-- The constant in front of the distance. -/
def Cosmo.scale (c : Cosmo) : ℝ := 2 * (speedOfLight * 1.0e-3 / c.h0) / √c.Om * 3.086e24

/-- The ratio of dark energy to matter. -/
def Cosmo.ratio (c : Cosmo) : ℝ := (1 - c.Om) / c.Om

/-- The comoving distance in units of `scale`. -/
def Cosmo.shape (c : Cosmo) (z : ℝ) : ℝ := hFun c.ratio 1 - hFun c.ratio (1 / √(1 + z))

namespace Spec.FlatCosmology

theorem scale_pos (h : FlatCosmology c) : 0 < c.scale := by
  have := h.hubble
  have := Real.sqrt_pos.2 h.matter
  unfold Cosmo.scale speedOfLight
  positivity

theorem ratio_nonneg (h : FlatCosmology c) : 0 ≤ c.ratio := by
  have h1 := h.matter
  have h2 := h.radiation
  have h3 := h.darkEnergy
  exact div_nonneg (by linarith) h1.le

theorem luminosityDistance_eq (h : FlatCosmology c) {z : ℝ} (hz : -1 < z) :
    c.luminosityDistance z = some (c.scale * (1 + z) * c.shape z) := by
  have hk := h.ratio_nonneg
  have hz1 : 0 < 1 + z := by linarith
  have hs : 0 < √(1 + z) := Real.sqrt_pos.2 hz1
  have hr : c.omReduced = some c.ratio := npDiv_ne h.matter.ne'
  have hxx : ∀ y : ℝ, 0 < 1 + y → c.xx y = some (c.ratio / (1 + y) ^ 3) := by
    intro y hy
    unfold Cosmo.xx
    rw [hr]
    simp only [Option.bind_eq_bind, Option.bind_some]
    exact npDiv_ne (pow_pos hy 3).ne'
  have hdh : c.dh = some (speedOfLight * 1.0e-3 / c.h0) := npDiv_ne h.hubble.ne'
  have hos : c.omSqrt = some (√c.Om) := npSqrt_nonneg h.matter.le
  have e0 : c.ratio / (1 + 0) ^ 3 = c.ratio * 1 ^ 6 := by norm_num
  have ez : c.ratio / (1 + z) ^ 3 = c.ratio * (1 / √(1 + z)) ^ 6 := by
    rw [div_pow, one_pow, show √(1 + z) ^ 6 = (√(1 + z) ^ 2) ^ 3 by ring, Real.sq_sqrt hz1.le]
    ring
  have hp0 : 0 ≤ c.ratio * 1 ^ 6 := by positivity
  have hpz : 0 ≤ c.ratio * (1 / √(1 + z)) ^ 6 := by positivity
  unfold Cosmo.luminosityDistance
  simp only [hxx z hz1, hxx 0 (by norm_num), hdh, hos, Option.bind_eq_bind, Option.bind_some,
    npDiv_ne (Real.sqrt_pos.2 h.matter).ne', e0, ez, cosmoPhi_eq hp0, cosmoPhi_eq hpz,
    npSqrt_nonneg hz1.le, npDiv_ne hs.ne', Option.pure_def, Option.some.injEq]
  unfold Cosmo.scale Cosmo.shape hFun
  ring

theorem shape_zero (c : Cosmo) : c.shape 0 = 0 := by
  unfold Cosmo.shape
  simp

theorem shape_strictMonoOn (h : FlatCosmology c) : StrictMonoOn c.shape (Ioi (-1)) := by
  intro y hy z hz hyz
  have hy1 : 0 < 1 + y := by have := mem_Ioi.1 hy; linarith
  unfold Cosmo.shape
  have : 1 / √(1 + z) < 1 / √(1 + y) :=
    one_div_lt_one_div_of_lt (Real.sqrt_pos.2 hy1) (Real.sqrt_lt_sqrt hy1.le (by linarith))
  have := hFun_strictMono h.ratio_nonneg this
  linarith

theorem shape_pos (h : FlatCosmology c) {z : ℝ} (hz : 0 < z) : 0 < c.shape z := by
  have := h.shape_strictMonoOn (mem_Ioi.2 (by norm_num : (-1 : ℝ) < 0))
    (mem_Ioi.2 (by linarith)) hz
  rwa [shape_zero] at this

theorem shape_nonneg (h : FlatCosmology c) {z : ℝ} (hz : 0 ≤ z) : 0 ≤ c.shape z := by
  rcases eq_or_lt_of_le hz with e | e
  · rw [← e, shape_zero]
  · exact (h.shape_pos e).le

theorem dist_strictMonoOn (h : FlatCosmology c) :
    StrictMonoOn (fun z => c.scale * (1 + z) * c.shape z) (Ici 0) := by
  intro y hy z hz hyz
  have hy0 : 0 ≤ y := hy
  have h1 := h.shape_strictMonoOn (mem_Ioi.2 (by linarith)) (mem_Ioi.2 (by linarith)) hyz
  have h2 := h.shape_nonneg hy0
  have hs := h.scale_pos
  have h3 : (1 + y) * c.shape y ≤ (1 + z) * c.shape y := by nlinarith
  have h4 : (1 + z) * c.shape y < (1 + z) * c.shape z := by nlinarith
  simp only [mul_assoc]
  exact mul_lt_mul_of_pos_left (h3.trans_lt h4) hs

theorem shape_continuousOn (h : FlatCosmology c) : ContinuousOn c.shape (Ioi (-1)) := by
  unfold Cosmo.shape
  refine continuousOn_const.sub ((hFun_continuous h.ratio_nonneg).comp_continuousOn ?_)
  refine continuousOn_const.div ?_ fun z hz => ?_
  · exact (Real.continuous_sqrt.comp (continuous_const.add continuous_id)).continuousOn
  · have := mem_Ioi.1 hz
    exact (Real.sqrt_pos.2 (by linarith)).ne'

end Spec.FlatCosmology

/-! ### C53 -/

/-- **C53**: at redshift zero the luminosity distance is zero, and for non-negative redshifts it
is a number that increases strictly with the redshift and is positive for positive ones. -/
theorem C53_luminosity_distance (h : FlatCosmology c) :
    ∃ d : ℝ → ℝ, (∀ z ≥ 0, c.luminosityDistance z = some (d z)) ∧ d 0 = 0 ∧
      StrictMonoOn d (Ici 0) ∧ ∀ z > 0, 0 < d z := by
  refine ⟨fun z => c.scale * (1 + z) * c.shape z,
    fun z hz => h.luminosityDistance_eq (by linarith), ?_, h.dist_strictMonoOn, fun z hz => ?_⟩
  · simp only [FlatCosmology.shape_zero, mul_zero]
  · exact mul_pos (mul_pos h.scale_pos (by linarith)) (h.shape_pos hz)

/-- **C53**: the comoving distance times one plus the redshift is the luminosity distance; it
increases strictly too and is bounded. -/
theorem C53_comoving_distance (h : FlatCosmology c) :
    ∃ t : ℝ → ℝ, (∀ z ≥ 0, c.comovingTransverseDistance z = some (t z) ∧
        c.luminosityDistance z = some (t z * (1 + z))) ∧
      StrictMonoOn t (Ici 0) ∧ t 0 = 0 ∧ ∃ b, ∀ z ≥ 0, t z < b := by
  have hs := h.scale_pos
  refine ⟨fun z => c.scale * c.shape z, fun z hz => ?_, ?_, ?_, c.scale * hFun c.ratio 1, ?_⟩
  · have hz1 : 1 + z ≠ 0 := by linarith
    have e := h.luminosityDistance_eq (z := z) (by linarith)
    refine ⟨?_, ?_⟩
    · unfold Cosmo.comovingTransverseDistance
      rw [e]
      simp only [Option.bind_eq_bind, Option.bind_some, npDiv_ne hz1, Option.some.injEq]
      field_simp
    · rw [e]; congr 1; ring
  · intro y hy z hz hyz
    have h1 := h.shape_strictMonoOn (mem_Ioi.2 (by linarith [mem_Ici.1 hy]))
      (mem_Ioi.2 (by linarith [mem_Ici.1 hz])) hyz
    exact mul_lt_mul_of_pos_left h1 hs
  · simp only [FlatCosmology.shape_zero, mul_zero]
  · intro z hz
    refine mul_lt_mul_of_pos_left ?_ hs
    unfold Cosmo.shape
    have hp : 0 < 1 / √(1 + z) := one_div_pos.2 (Real.sqrt_pos.2 (by linarith))
    have := hFun_strictMono h.ratio_nonneg hp
    have e0 : hFun c.ratio 0 = 0 := by unfold hFun; simp
    linarith

/-- **C53**: the differential comoving volume is a number for every redshift of at least zero,
zero at zero and positive above. -/
theorem C53_volume (h : FlatCosmology c) :
    ∃ v : ℝ → ℝ, (∀ z ≥ 0, c.differentialComovingVolume z = some (v z)) ∧ v 0 = 0 ∧
      (∀ z ≥ 0, 0 ≤ v z) ∧ ∀ z > 0, 0 < v z := by
  obtain ⟨t, ht, hm, h0, _⟩ := C53_comoving_distance h
  have ha : ∀ z ≥ 0, c.a z = some (√((1 + z) ^ 3 * c.Om + c.ode)) ∧
      0 < √((1 + z) ^ 3 * c.Om + c.ode) := by
    intro z hz
    have hpos : 0 < (1 + z) ^ 3 * c.Om + c.ode := by
      have h1 := h.matter
      have h2 : 0 < c.ode := h.darkEnergy
      have : 0 < (1 + z) ^ 3 := pow_pos (by linarith) 3
      positivity
    exact ⟨npSqrt_nonneg hpos.le, Real.sqrt_pos.2 hpos⟩
  have hdh : c.dh = some (speedOfLight * 1.0e-3 / c.h0) := npDiv_ne h.hubble.ne'
  have hdp : 0 < speedOfLight * 1.0e-3 / c.h0 := by
    have := h.hubble; unfold speedOfLight; positivity
  refine ⟨fun z => speedOfLight * 1.0e-3 / c.h0 * (t z / 3.086e24) * (t z / 3.086e24) /
    √((1 + z) ^ 3 * c.Om + c.ode) * 1e-9, fun z hz => ?_, ?_, fun z hz => ?_, fun z hz => ?_⟩
  · unfold Cosmo.differentialComovingVolume
    simp only [(ht z hz).1, hdh, (ha z hz).1, Option.bind_eq_bind, Option.bind_some,
      npDiv_ne (ha z hz).2.ne', Option.pure_def]
  · simp only [h0, zero_div, mul_zero, zero_mul]
  · have := (ha z hz).2
    have hsq : speedOfLight * 1.0e-3 / c.h0 * (t z / 3.086e24) * (t z / 3.086e24) =
        speedOfLight * 1.0e-3 / c.h0 * (t z / 3.086e24) ^ 2 := by ring
    simp only [hsq]
    positivity
  · have := (ha z hz.le).2
    have htz : 0 < t z := by
      have := hm (mem_Ici.2 (le_refl 0)) (mem_Ici.2 hz.le) hz
      rwa [h0] at this
    simp only
    positivity

/-- **C53** is not about cosmologies without matter: there is no distance at all. -/
theorem C53_no_matter (h0 r z : ℝ) : (Cosmo.mk 0 h0 r).luminosityDistance z = none := by
  unfold Cosmo.luminosityDistance Cosmo.xx Cosmo.omReduced npDiv
  simp

/-- The default configuration of the package is such a cosmology (Om = 0.307, h0 = 67.7, and
any small radiation). -/
example : FlatCosmology ⟨0.307, 67.7, 0.0001⟩ := by constructor <;> norm_num

/-! ### C54 -/

namespace Spec

/-- A luminosity-to-flux transform on a set of distances: linear in the luminosity, positive for
positive luminosities, and for those strictly decreasing with distance. -/
structure FallsWithDistance (flux : ℝ → ℝ → Option ℝ) (s : Set ℝ) : Prop where
  linear : ∀ r ∈ s, ∃ k, ∀ L, flux L r = some (k * L)
  positive : ∀ L > 0, ∀ r ∈ s, ∃ v > 0, flux L r = some v
  falls : ∀ L > 0, ∀ r ∈ s, ∀ r' ∈ s, r < r' → ∃ v v', flux L r = some v ∧
    flux L r' = some v' ∧ v' < v

/-- Every luminosity and flux limit has a horizon: the fluxes above the limit are those of the
distances up to the horizon. -/
def HasHorizon (flux : ℝ → ℝ → Option ℝ) (s : Set ℝ) : Prop :=
  ∀ L > 0, ∀ limit > 0, ∃ horizon, ∀ r ∈ s, ∃ v, flux L r = some v ∧ (limit ≤ v ↔ r ≤ horizon)

end Spec

theorem sphericalFlux_eq {L r : ℝ} (hr : 0 ≤ r) :
    sphericalFlux L r = some (L / (4 * Real.pi * (r + 1) ^ 2)) := by
  have hpi := Real.pi_pos
  unfold sphericalFlux
  simp only
  rw [npDiv_ne (by positivity)]
  congr 2; ring

/-- **C54**, spherical distributions: for all distances of at least zero. -/
theorem C54_spherical : FallsWithDistance sphericalFlux (Ici 0) ∧ HasHorizon sphericalFlux (Ici 0) := by
  have hpi := Real.pi_pos
  refine ⟨⟨fun r hr => ⟨1 / (4 * Real.pi * (r + 1) ^ 2), fun L => ?_⟩, fun L hL r hr => ?_,
    fun L hL r hr r' hr' hlt => ?_⟩, fun L hL limit hl => ?_⟩
  · rw [sphericalFlux_eq hr]; congr 1; ring
  · have hr0 : 0 ≤ r := hr
    exact ⟨_, by positivity, sphericalFlux_eq hr⟩
  · have hr0 : 0 ≤ r := hr
    refine ⟨_, _, sphericalFlux_eq hr, sphericalFlux_eq hr', ?_⟩
    apply div_lt_div_of_pos_left hL (by positivity)
    have : (r + 1) ^ 2 < (r' + 1) ^ 2 := by nlinarith
    nlinarith
  · refine ⟨√(L / (4 * Real.pi * limit)) - 1, fun r hr => ⟨_, sphericalFlux_eq hr, ?_⟩⟩
    have hr0 : 0 ≤ r := hr
    rw [le_div_iff₀ (by positivity), le_sub_iff_add_le,
      Real.le_sqrt' (by linarith), le_div_iff₀ (by positivity)]
    constructor <;> intro h <;> nlinarith

/-- **C54**, cosmological distributions: for all positive redshifts.  Missing: redshift zero, see
`C54_violated_zero`. -/
theorem C54_cosmological_partial (h : FlatCosmology c) :
    FallsWithDistance (cosmologicalFlux c) (Ioi 0) ∧ HasHorizon (cosmologicalFlux c) (Ioi 0) := by
  have hpi := Real.pi_pos
  set d := fun z => c.scale * (1 + z) * c.shape z with hdef
  have hd : ∀ z > 0, 0 < d z := fun z hz =>
    mul_pos (mul_pos h.scale_pos (by linarith)) (h.shape_pos hz)
  have hm : StrictMonoOn d (Ici 0) := h.dist_strictMonoOn
  have e : ∀ L, ∀ z > 0, cosmologicalFlux c L z = some (L / (4 * Real.pi * d z ^ 2)) := by
    intro L z hz
    unfold cosmologicalFlux
    rw [h.luminosityDistance_eq (by linarith)]
    simp only [Option.bind_eq_bind, Option.bind_some]
    exact npDiv_ne (by have := hd z hz; positivity)
  refine ⟨⟨fun z hz => ⟨1 / (4 * Real.pi * d z ^ 2), fun L => ?_⟩, fun L hL z hz => ?_,
    fun L hL z hz z' hz' hlt => ?_⟩, fun L hL limit hl => ?_⟩
  · rw [e L z hz]; congr 1; ring
  · have := hd z hz
    exact ⟨_, by positivity, e L z hz⟩
  · have h1 := hd z hz
    refine ⟨_, _, e L z hz, e L z' hz', ?_⟩
    apply div_lt_div_of_pos_left hL (by positivity)
    have h2 := hm (mem_Ici.2 (le_of_lt hz)) (mem_Ici.2 (le_of_lt hz')) hlt
    have : d z ^ 2 < d z' ^ 2 := by nlinarith
    nlinarith
  · -- the distance of the horizon, and the redshift at that distance
    set D := √(L / (4 * Real.pi * limit)) with hD
    have hD0 : 0 < D := Real.sqrt_pos.2 (by positivity)
    obtain ⟨zh, hzh, hzd⟩ : ∃ zh ≥ 0, d zh = D := by
      have hs1 : 0 < c.scale * c.shape 1 := mul_pos h.scale_pos (h.shape_pos one_pos)
      set Z := max 1 (D / (c.scale * c.shape 1)) with hZ
      have hZ1 : 1 ≤ Z := le_max_left _ _
      have hbig : D ≤ d Z := by
        have h1 : D ≤ Z * (c.scale * c.shape 1) := by
          rw [← div_le_iff₀ hs1]; exact le_max_right _ _
        have h2 : c.shape 1 ≤ c.shape Z := by
          rcases eq_or_lt_of_le hZ1 with e | e
          · rw [← e]
          · exact (h.shape_strictMonoOn (mem_Ioi.2 (by norm_num)) (mem_Ioi.2 (by linarith)) e).le
        have h3 := h.scale_pos
        have h4 := h.shape_pos (z := 1) one_pos
        have h5 : Z * c.shape 1 ≤ (1 + Z) * c.shape Z := by nlinarith
        have h6 : c.scale * (Z * c.shape 1) ≤ c.scale * ((1 + Z) * c.shape Z) :=
          mul_le_mul_of_nonneg_left h5 h3.le
        calc D ≤ Z * (c.scale * c.shape 1) := h1
          _ = c.scale * (Z * c.shape 1) := by ring
          _ ≤ c.scale * ((1 + Z) * c.shape Z) := h6
          _ = d Z := by rw [hdef]; ring
      have hcont : ContinuousOn d (Icc 0 Z) := by
        refine ((continuousOn_const.mul (continuousOn_const.add continuousOn_id)).mul
          (h.shape_continuousOn.mono fun z hz => ?_))
        have := hz.1
        exact mem_Ioi.2 (by linarith)
      have h0 : d 0 = 0 := by simp only [hdef, FlatCosmology.shape_zero, mul_zero]
      obtain ⟨zh, hz, e⟩ := intermediate_value_Icc (by linarith : (0 : ℝ) ≤ Z) hcont
        ⟨by rw [h0]; exact hD0.le, hbig⟩
      exact ⟨zh, hz.1, e⟩
    refine ⟨zh, fun z hz => ⟨_, e L z hz, ?_⟩⟩
    have h1 := hd z hz
    rw [← hm.le_iff_le (mem_Ici.2 (le_of_lt hz)) (mem_Ici.2 hzh), hzd, hD,
      Real.le_sqrt' h1, le_div_iff₀ (by positivity), le_div_iff₀ (by positivity)]
    constructor <;> intro h <;> nlinarith

/-- **C54 is violated** at redshift zero: the flux is not a finite number, whatever the
luminosity. -/
theorem C54_violated_zero (h : FlatCosmology c) (L : ℝ) : cosmologicalFlux c L 0 = none := by
  unfold cosmologicalFlux
  rw [h.luminosityDistance_eq (by norm_num), FlatCosmology.shape_zero]
  simp [npDiv]

/-- **C54 is violated** by the flat land: the flux is the luminosity at every distance. -/
theorem C54_violated_flatland (s : Set ℝ) (r r' : ℝ) (hr : r ∈ s) (hr' : r' ∈ s) (h : r < r') :
    (∀ L x, flatlandFlux L x = some L) ∧ ¬ FallsWithDistance flatlandFlux s := by
  refine ⟨fun _ _ => rfl, fun hf => ?_⟩
  obtain ⟨v, v', e, e', hlt⟩ := hf.falls 1 one_pos r hr r' hr' h
  cases e; cases e'
  exact absurd hlt (lt_irrefl _)

/-- Concrete fluxes: four times the flux at half the shifted distance. -/
example : sphericalFlux (4 * Real.pi) 0 = some 1 ∧ sphericalFlux (4 * Real.pi) 1 = some (1 / 4) := by
  have hpi := Real.pi_pos
  constructor <;> rw [sphericalFlux_eq (by norm_num)] <;> congr 1 <;> field_simp <;> norm_num

end

end Popsynth
