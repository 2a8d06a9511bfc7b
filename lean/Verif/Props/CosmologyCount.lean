import Verif.Props.CosmologyExact
import Verif.Props.ExpectedCount

/-!
# Expected numbers of objects in a flat universe (C90)
-/

set_option autoImplicit false
set_option linter.unusedSectionVars false

namespace Popsynth

open Set MeasureTheory

noncomputable section

open Spec FlatCosmology

variable {G : Type} {c : Cosmo}

theorem volume_continuousOn (h : FlatCosmology c) {dv : ℝ → ℝ}
    (hdv : ∀ z ≥ 0, c.differentialComovingVolume z = some (dv z)) : ContinuousOn dv (Ici 0) := by
  obtain ⟨d, v, hv⟩ := C66_volume h
  have hd : ∀ z ≥ (0 : ℝ), d z = c.scale * c.shape z / 3.086e24 := by
    intro z hz
    have hz1 : 0 < 1 + z := by linarith
    have e := (hv z hz).1
    unfold Cosmo.comovingTransverseDistance at e
    rw [h.luminosityDistance_eq (by linarith)] at e
    simp only [Option.bind_eq_bind, Option.bind_some, npDiv_ne hz1.ne', Option.some.injEq] at e
    have e2 : c.scale * c.shape z = 3.086e24 * d z := by
      rw [← e]; field_simp
    rw [e2]; norm_num
  have hsub : Ici (0 : ℝ) ⊆ Ioi (-1) := fun z hz => by
    have : (0 : ℝ) ≤ z := hz
    exact mem_Ioi.2 (by linarith)
  have hs : ContinuousOn c.shape (Ici 0) := h.shape_continuousOn.mono hsub
  refine ContinuousOn.congr (f := fun z => (299792.458 / c.h0) * (c.scale * c.shape z / 3.086e24) ^ 2 /
    √((1 + z) ^ 3 * c.Om + (1 - c.Om - c.radiation)) * 1e-9) ?_ fun z hz => ?_
  · refine ContinuousOn.mul (ContinuousOn.div ?_ ?_ fun z hz => ?_) continuousOn_const
    · exact continuousOn_const.mul (((continuousOn_const.mul hs).div_const _).pow 2)
    · fun_prop
    · have : (0 : ℝ) ≤ z := hz
      have h1 := h.matter
      have h2 := h.darkEnergy
      exact (Real.sqrt_pos.2 (by positivity)).ne'
  · obtain ⟨-, h2, h3⟩ := hv z hz
    have : dv z = v z := by rw [hdv z hz] at h2; exact Option.some.inj h2
    rw [this, h3, hd z hz]

theorem volumeElement_continuousOn (h : FlatCosmology c) :
    ContinuousOn (volumeElement c.Om c.h0) (Ici 0) := by
  unfold volumeElement comovingDistance
  refine ContinuousOn.mul (ContinuousOn.div ?_ ?_ fun z hz => ?_) continuousOn_const
  · refine continuousOn_const.mul ((continuousOn_const.mul fun z hz => ?_).pow 2)
    exact (h.integral_deriv hz).continuousAt.continuousWithinAt
  · unfold expansion; fun_prop
  · have : (0 : ℝ) ≤ z := hz
    exact (h.expansion_pos (by linarith)).ne'

/-- **C90** (numbers of objects): with at least 30% matter the number of objects a cosmological
distribution puts into a steradian is that in a flat universe with the documented density of
objects to 0.53%, but for the radiation. -/
theorem C90_count (env : DistEnv ℝ G) (hten : env.ten = 10) {cl : SpClass ℝ}
    (hc : FlatCosmology c) (ho : 3 / 10 ≤ c.Om) {dv : ℝ → ℝ}
    (hdv : ∀ z ≥ 0, c.differentialComovingVolume z = some (dv z))
    {isRate : Bool} {V : String → ℝ} {ρ : ℝ → ℝ}
    (hcl : ComovingDensity dv isRate V cl ρ) (o : Obj ℝ) (h : ValuesOf cl o V)
    (hR : 0 ≤ V "r_max") (hρ : ContinuousOn ρ (Icc 0 (V "r_max"))) (hρ0 : ∀ z ∈ Icc 0 (V "r_max"), 0 ≤ ρ z)
    (hq : ExactFor (env.quad (V "r_max")) (cl.dens (cl.reads.map V)) (V "r_max")) :
    ∃ N o', expectedCount env cl.code false o = .ok N o' ∧
      (1 - 0.0053) * (∫ z in (0 : ℝ)..V "r_max",
        ρ z * volumeElement c.Om c.h0 z / (if isRate then 1 + z else 1)) ≤ N ∧
      N ≤ (1 + 0.0053) / √(1 - c.radiation) * (∫ z in (0 : ℝ)..V "r_max",
        ρ z * volumeElement c.Om c.h0 z / (if isRate then 1 + z else 1)) := by
  obtain ⟨o', e⟩ := C66_cosmological env hten hcl o h hq
  refine ⟨_, o', e, ?_⟩
  have hsub : Icc 0 (V "r_max") ⊆ Ici (0 : ℝ) := fun z hz => hz.1
  have hw : ContinuousOn (fun z : ℝ => if isRate then 1 + z else 1) (Icc 0 (V "r_max")) := by
    cases isRate
    · simpa using continuousOn_const
    · simp only [if_true]; fun_prop
  have hw0 : ∀ z ∈ Icc 0 (V "r_max"), 0 < (if isRate then 1 + z else 1 : ℝ) := by
    intro z hz
    split
    · linarith [hz.1]
    · norm_num
  have i1 : ContinuousOn (fun z => ρ z * dv z / (if isRate then 1 + z else 1)) (Icc 0 (V "r_max")) :=
    (hρ.mul ((volume_continuousOn hc hdv).mono hsub)).div hw fun z hz => (hw0 z hz).ne'
  have i2 : ContinuousOn (fun z => ρ z * volumeElement c.Om c.h0 z / (if isRate then 1 + z else 1))
      (Icc 0 (V "r_max")) :=
    (hρ.mul ((volumeElement_continuousOn hc).mono hsub)).div hw fun z hz => (hw0 z hz).ne'
  rw [← uIcc_of_le hR] at i1 i2
  have j1 := i1.intervalIntegrable (μ := volume)
  have j2 := i2.intervalIntegrable (μ := volume)
  have hv : ∀ z ∈ Icc 0 (V "r_max"), (1 - 0.0053) * volumeElement c.Om c.h0 z ≤ dv z ∧
      dv z ≤ (1 + 0.0053) / √(1 - c.radiation) * volumeElement c.Om c.h0 z := by
    intro z hz
    obtain ⟨v, e1, e2, e3⟩ := C90_volume hc ho hz.1
    rw [hdv z hz.1, Option.some.injEq] at e1
    subst e1
    refine ⟨e2, e3.trans (le_of_eq ?_)⟩
    ring
  have scaled : ∀ a x y w : ℝ, a * (x * y / w) = x * (a * y) / w := fun a x y w => by ring
  constructor
  · rw [← intervalIntegral.integral_const_mul]
    refine intervalIntegral.integral_mono_on hR (j2.const_mul _) j1 fun z hz => ?_
    rw [scaled]
    exact div_le_div_of_nonneg_right (mul_le_mul_of_nonneg_left (hv z hz).1 (hρ0 z hz)) (hw0 z hz).le
  · rw [← intervalIntegral.integral_const_mul]
    refine intervalIntegral.integral_mono_on hR j1 (j2.const_mul _) fun z hz => ?_
    rw [scaled]
    exact div_le_div_of_nonneg_right (mul_le_mul_of_nonneg_left (hv z hz).2 (hρ0 z hz)) (hw0 z hz).le

namespace CosmologyCountExample

/-- Five objects per Gpc^3 up to redshift three. -/
def values (n : String) : ℝ := if n = "r_max" then 3 else if n = "delta" then 0 else 5

/-- A quadrature that is exact for `f`. -/
def env (f : ℝ → ℝ) : DistEnv ℝ Unit :=
  { ExpectedCountExample.env with
    quad := fun b => QuadStrat.weighted 0 [(b, (∫ z in (0 : ℝ)..b, f z) / f b)] }

example : ∃ (dv : ℝ → ℝ) (N : ℝ) (o' : Obj ℝ),
    expectedCount (env ((zpowerCosmo dv false).dens [5, 0])) (zpowerCosmo dv false).code false
      { storage := [("Lambda", some 5), ("delta", some 0), ("r_max", some 3)], norm := some "Lambda" } = .ok N o' ∧
    (1 - 0.0053) * (∫ z in (0 : ℝ)..3, 5 * volumeElement 0.307 67.7 z) ≤ N := by
  have hc : FlatCosmology ⟨0.307, 67.7, 0.0001⟩ := by constructor <;> norm_num
  obtain ⟨dv, hdv, -, -, hpos⟩ := C53_volume hc
  have h3 : values "r_max" = 3 := by simp [values]
  have hl : values "Lambda" = 5 := by simp [values]
  have hd : values "delta" = 0 := by simp [values]
  have hr : (zpowerCosmo dv false).reads.map values = [5, 0] := by
    show [values "Lambda", values "delta"] = _
    rw [hl, hd]
  obtain ⟨N, o', e, h1, -⟩ := C90_count (env ((zpowerCosmo dv false).dens [5, 0])) rfl hc (by norm_num)
    hdv (ComovingDensity.zpower (isRate := false) (V := values))
    { storage := [("Lambda", some 5), ("delta", some 0), ("r_max", some 3)], norm := some "Lambda" }
    ⟨fun n hn => by
      rcases List.mem_cons.1 (show n ∈ ["Lambda", "delta"] from hn) with rfl | hn
      · rw [hl]; rfl
      · rcases List.mem_singleton.1 hn with rfl
        rw [hd]; rfl, by rw [h3]; rfl⟩ (by rw [h3]; norm_num) (by simp only [hl, hd, Real.rpow_zero]; exact continuousOn_const)
    (fun z _ => by simp [hl, hd]) (by
      rw [hr, h3]
      show 0 + _ / _ * _ = _
      rw [zero_add, div_mul_cancel₀]
      have := hpos 3 (by norm_num)
      simp only [zpowerCosmo, Real.rpow_zero, timeAdjustment]
      simp
      exact this.ne')
  refine ⟨dv, N, o', e, ?_⟩
  simpa [h3, hl, hd] using h1

end CosmologyCountExample

end

end Popsynth
