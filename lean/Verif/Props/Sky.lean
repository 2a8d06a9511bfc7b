import Verif.Model.Sky
import Verif.Lemmas.Luminosity
import Mathlib.Analysis.SpecialFunctions.Integrals.Basic
import Mathlib.Analysis.Real.Pi.Bounds
import Mathlib.MeasureTheory.Measure.Lebesgue.Basic

/-!
# Sky positions and angles are in range and isotropic (C52)
-/

set_option autoImplicit false
set_option linter.unusedSectionVars false

namespace Popsynth

open MeasureTheory Set intervalIntegral Spec

noncomputable section

theorem npArccos_eq {x : ℝ} (h : x ∈ Icc (-1 : ℝ) 1) : npArccos x = some (Real.arccos x) := by
  unfold npArccos; rw [if_pos ⟨h.1, h.2⟩]

theorem sampleThetaPhi_eq {u : ℝ} (hu : u ∈ Ico (0 : ℝ) 1) (v : ℝ) :
    sampleThetaPhi u v = some (Real.arccos (1 - 2 * u), 2 * Real.pi * v) := by
  unfold sampleThetaPhi npUniform
  have e : 1 - 2 * (0 + (1 - 0) * u) = 1 - 2 * u := by ring
  rw [e, npArccos_eq ⟨by linarith [hu.2], by linarith [hu.1]⟩]
  simp only [Option.bind_eq_bind, Option.bind_some, Option.pure_def, zero_add, sub_zero]

/-- **C52**: drawn positions exist, with theta in [0, pi] and phi in [0, 2 pi); so the declination
is in [-90, 90] and the right ascension in [0, 360). -/
theorem C52_range {u v : ℝ} (hu : u ∈ Ico (0 : ℝ) 1) (hv : v ∈ Ico (0 : ℝ) 1) :
    ∃ theta phi, sampleThetaPhi u v = some (theta, phi) ∧ theta ∈ Icc 0 Real.pi ∧
      phi ∈ Ico 0 (2 * Real.pi) ∧ decOf theta ∈ Icc (-90 : ℝ) 90 ∧ raOf phi ∈ Ico (0 : ℝ) 360 := by
  have hpi := Real.pi_pos
  have hd : ∀ x : ℝ, 0 ≤ x → 0 ≤ x * (180 / Real.pi) := fun x hx => by positivity
  refine ⟨_, _, sampleThetaPhi_eq hu v, ⟨Real.arccos_nonneg _, Real.arccos_le_pi _⟩,
    ⟨mul_nonneg (by positivity) hv.1, ?_⟩, ⟨?_, ?_⟩, ⟨?_, ?_⟩⟩
  · nlinarith [hv.2]
  · unfold decOf rad2deg
    have h1 : Real.arccos (1 - 2 * u) * (180 / Real.pi) ≤ Real.pi * (180 / Real.pi) :=
      mul_le_mul_of_nonneg_right (Real.arccos_le_pi _) (by positivity)
    rw [mul_div_cancel₀ _ hpi.ne'] at h1
    linarith
  · unfold decOf rad2deg
    linarith [hd _ (Real.arccos_nonneg (1 - 2 * u))]
  · exact hd _ (mul_nonneg (by positivity) hv.1)
  · unfold raOf rad2deg
    rw [show 2 * Real.pi * v * (180 / Real.pi) = 360 * v by field_simp; ring]
    linarith [hv.2]

/-- **C52**: positions are isotropic: for independent uniform numbers the probability that
cos(theta) is at least `t` and phi at most `s` is the part of the sphere where that is so, namely
`(1 - t) / 2` times `s / (2 pi)`. -/
theorem C52_isotropic {t s : ℝ} (ht : t ∈ Icc (-1 : ℝ) 1) (hs : s ∈ Icc 0 (2 * Real.pi)) :
    volume {p : ℝ × ℝ | p.1 ∈ Ico (0 : ℝ) 1 ∧ p.2 ∈ Ico (0 : ℝ) 1 ∧
      ∃ theta phi, sampleThetaPhi p.1 p.2 = some (theta, phi) ∧ t ≤ Real.cos theta ∧ phi ≤ s} =
    ENNReal.ofReal ((1 - t) / 2) * ENNReal.ofReal (s / (2 * Real.pi)) := by
  have hpi : 0 < 2 * Real.pi := by positivity
  have hset : {p : ℝ × ℝ | p.1 ∈ Ico (0 : ℝ) 1 ∧ p.2 ∈ Ico (0 : ℝ) 1 ∧
      ∃ theta phi, sampleThetaPhi p.1 p.2 = some (theta, phi) ∧ t ≤ Real.cos theta ∧ phi ≤ s} =
      {u : ℝ | u ∈ Ico (0 : ℝ) 1 ∧ u ≤ (1 - t) / 2} ×ˢ
        {v : ℝ | v ∈ Ico (0 : ℝ) 1 ∧ v ≤ s / (2 * Real.pi)} := by
    ext ⟨u, v⟩
    simp only [mem_ofPred_eq, mem_prod]
    constructor
    · rintro ⟨hu, hv, theta, phi, e, h1, h2⟩
      rw [sampleThetaPhi_eq hu] at e
      cases e
      rw [Real.cos_arccos (by linarith [hu.2]) (by linarith [hu.1])] at h1
      refine ⟨⟨hu, by linarith⟩, hv, ?_⟩
      rw [le_div_iff₀ hpi, mul_comm]; exact h2
    · rintro ⟨⟨hu, h1⟩, hv, h2⟩
      refine ⟨hu, hv, _, _, sampleThetaPhi_eq hu v, ?_, ?_⟩
      · rw [Real.cos_arccos (by linarith [hu.2]) (by linarith [hu.1])]; linarith
      · rw [le_div_iff₀ hpi, mul_comm] at h2; exact h2
  rw [hset, Measure.volume_eq_prod, Measure.prod_prod,
    volume_uniform_le (by linarith [ht.2]) (by linarith [ht.1]),
    volume_uniform_le (div_nonneg hs.1 hpi.le) ((div_le_one hpi).2 hs.2)]

/-- **C52**: the cartesian conversion keeps the radius, and the angles of drawn positions can be
recovered. -/
theorem C52_xyz (r theta phi : ℝ) :
    (xyz r theta phi).1 ^ 2 + (xyz r theta phi).2.1 ^ 2 + (xyz r theta phi).2.2 ^ 2 = r ^ 2 ∧
    (0 < r → theta ∈ Icc 0 Real.pi → Real.arccos ((xyz r theta phi).2.2 / r) = theta) ∧
    (∀ r' theta' phi', 0 < r → 0 < r' → theta ∈ Ioo 0 Real.pi → theta' ∈ Ioo 0 Real.pi →
      phi ∈ Ico 0 (2 * Real.pi) → phi' ∈ Ico 0 (2 * Real.pi) →
      xyz r theta phi = xyz r' theta' phi' → r = r' ∧ theta = theta' ∧ phi = phi') := by
  have norm : ∀ r theta phi, (xyz r theta phi).1 ^ 2 + (xyz r theta phi).2.1 ^ 2 +
      (xyz r theta phi).2.2 ^ 2 = r ^ 2 := by
    intro r theta phi
    unfold xyz
    have h1 := Real.sin_sq_add_cos_sq theta
    have h2 := Real.sin_sq_add_cos_sq phi
    calc _ = r ^ 2 * (Real.sin theta ^ 2 * (Real.sin phi ^ 2 + Real.cos phi ^ 2) +
          Real.cos theta ^ 2) := by ring
      _ = r ^ 2 := by rw [h2, mul_one, h1, mul_one]
  have back : ∀ r theta phi, 0 < r → theta ∈ Icc 0 Real.pi →
      Real.arccos ((xyz r theta phi).2.2 / r) = theta := by
    intro r theta phi hr ht
    unfold xyz
    simp only
    rw [mul_div_cancel_left₀ _ hr.ne', Real.arccos_cos ht.1 ht.2]
  refine ⟨norm r theta phi, back r theta phi, ?_⟩
  intro r' theta' phi' hr hr' ht ht' hp hp' e
  have er : r = r' := by
    have h1 := norm r theta phi
    rw [e, norm r' theta' phi'] at h1
    nlinarith
  subst er
  have et : theta = theta' := by
    rw [← back r theta phi hr ⟨ht.1.le, ht.2.le⟩, e, back r theta' phi' hr ⟨ht'.1.le, ht'.2.le⟩]
  subst et
  refine ⟨rfl, rfl, ?_⟩
  have hs : 0 < r * Real.sin theta := mul_pos hr (Real.sin_pos_of_pos_of_lt_pi ht.1 ht.2)
  unfold xyz at e
  simp only [Prod.mk.injEq] at e
  have hc : Real.cos phi = Real.cos phi' := mul_left_cancel₀ hs.ne' e.1
  have hsn : Real.sin phi = Real.sin phi' := mul_left_cancel₀ hs.ne' e.2.1
  have : Real.cos (phi - phi') = 1 := by
    rw [Real.cos_sub, hc, hsn]
    have := Real.sin_sq_add_cos_sq phi'
    nlinarith
  have hlt : -(2 * Real.pi) < phi - phi' := by linarith [hp.1, hp'.2]
  have hlt' : phi - phi' < 2 * Real.pi := by linarith [hp.2, hp'.1]
  have := (Real.cos_eq_one_iff_of_lt_of_lt hlt hlt').1 this
  linarith

/-! ### Viewing angles -/

theorem cosMax_lt {m : ℝ} (hm : m ∈ Ioc (0 : ℝ) 180) :
    deg2rad m ∈ Ioc 0 Real.pi ∧ Real.cos (deg2rad m) < 1 := by
  have hpi := Real.pi_pos
  have h0 : 0 < deg2rad m := by
    unfold deg2rad; have := hm.1; positivity
  have h1 : deg2rad m ≤ Real.pi := by
    unfold deg2rad
    rw [mul_div_assoc', div_le_iff₀ (by norm_num)]
    nlinarith [hm.2]
  refine ⟨⟨h0, h1⟩, ?_⟩
  have := Real.strictAntiOn_cos (a := 0) (b := deg2rad m) ⟨le_refl _, hpi.le⟩ ⟨h0.le, h1⟩ h0
  rwa [Real.cos_zero] at this

theorem viewingAngle_eq {m u : ℝ} (hm : m ∈ Ioc (0 : ℝ) 180) (hu : u ∈ Ico (0 : ℝ) 1) :
    viewingAngle m u = some (Real.arccos (1 - (1 - Real.cos (deg2rad m)) * u)) := by
  obtain ⟨_, h1⟩ := cosMax_lt hm
  have h2 := Real.neg_one_le_cos (deg2rad m)
  unfold viewingAngle npUniform
  rw [show 1 - (0 + (1 - Real.cos (deg2rad m) - 0) * u) = 1 - (1 - Real.cos (deg2rad m)) * u by ring,
    npArccos_eq]
  constructor <;> nlinarith [hu.1, hu.2]

/-- **C52**: for a positive maximum, viewing angles lie between zero and the maximum; their
probability is a density there that integrates to one, and drawn angles follow it. -/
theorem C52_viewing_partial {m : ℝ} (hm : m ∈ Ioc (0 : ℝ) 180) :
    (∀ u ∈ Ico (0 : ℝ) 1, ∃ t ∈ Icc 0 (deg2rad m), viewingAngle m u = some t ∧
      ∃ p ≥ 0, viewingProb m t = some p) ∧
    (∫ t in (0 : ℝ)..deg2rad m, (viewingProb m t).getD 0 = 1) ∧
    ∀ t ∈ Icc 0 (deg2rad m),
      volume {u : ℝ | u ∈ Ico (0 : ℝ) 1 ∧ ∃ x, viewingAngle m u = some x ∧ x ≤ t} =
        ENNReal.ofReal (∫ x in (0 : ℝ)..t, (viewingProb m x).getD 0) := by
  obtain ⟨⟨h0, hpi⟩, h1⟩ := cosMax_lt hm
  have hd : 0 < 1 - Real.cos (deg2rad m) := by linarith
  have hint : ∀ t, ∫ x in (0 : ℝ)..t, (viewingProb m x).getD 0 =
      (1 - Real.cos t) / (1 - Real.cos (deg2rad m)) := by
    intro t
    unfold viewingProb
    simp only [npDiv_ne hd.ne', Option.getD_some]
    rw [intervalIntegral.integral_div, integral_sin, Real.cos_zero]
  have hcos : ∀ u ∈ Ico (0 : ℝ) 1, 1 - (1 - Real.cos (deg2rad m)) * u ∈ Icc (-1 : ℝ) 1 := by
    intro u hu
    have := Real.neg_one_le_cos (deg2rad m)
    constructor <;> nlinarith [hu.1, hu.2]
  refine ⟨fun u hu => ?_, ?_, fun t ht => ?_⟩
  · have hle : Real.arccos (1 - (1 - Real.cos (deg2rad m)) * u) ≤ deg2rad m := by
      rw [← Real.arccos_cos h0.le hpi]
      apply Real.arccos_le_arccos
      rw [Real.arccos_cos h0.le hpi]
      nlinarith [hu.1, hu.2]
    refine ⟨_, ⟨Real.arccos_nonneg _, hle⟩, viewingAngle_eq hm hu,
      Real.sin (Real.arccos (1 - (1 - Real.cos (deg2rad m)) * u)) / (1 - Real.cos (deg2rad m)),
      ?_, ?_⟩
    · exact div_nonneg (Real.sin_nonneg_of_nonneg_of_le_pi (Real.arccos_nonneg _)
        (Real.arccos_le_pi _)) hd.le
    · unfold viewingProb
      exact npDiv_ne hd.ne'
  · rw [hint, div_self hd.ne']
  · rw [hint]
    have htp : t ≤ Real.pi := ht.2.trans hpi
    have hct := Real.cos_le_one t
    have hcm : Real.cos (deg2rad m) ≤ Real.cos t :=
      Real.cos_le_cos_of_nonneg_of_le_pi ht.1 hpi ht.2
    rw [← volume_uniform_le (div_nonneg (by linarith) hd.le) ((div_le_one hd).2 (by linarith))]
    congr 1
    ext u
    simp only [mem_ofPred_eq]
    refine and_congr_right fun hu => ?_
    rw [viewingAngle_eq hm hu, le_div_iff₀ hd]
    simp only [Option.some.injEq, exists_eq_left']
    have hx := hcos u hu
    rw [← Real.strictAntiOn_cos.le_iff_ge (a := t) ⟨ht.1, htp⟩
      ⟨Real.arccos_nonneg _, Real.arccos_le_pi _⟩, Real.cos_arccos hx.1 hx.2]
    constructor <;> intro h <;> linarith

/-- **C52 is violated** by a maximum angle of zero, which the parameter accepts: the probability
is not a number. -/
theorem C52_violated_viewing_zero (u : ℝ) :
    viewingAngle 0 u = some 0 ∧ ∀ t, viewingProb 0 t = none := by
  have e : 1 - Real.cos (deg2rad 0) = 0 := by unfold deg2rad; simp
  constructor
  · unfold viewingAngle npUniform
    rw [e]
    simp only [sub_zero, zero_mul, add_zero]
    rw [npArccos_eq ⟨by norm_num, le_refl _⟩, Real.arccos_one]
  · intro t
    unfold viewingProb npDiv
    rw [if_pos e]

/-! ### The sky samplers -/

/-- **C52**: the auxiliary sampler of the right ascension draws uniformly from [0, 2 pi). -/
theorem C52_ra_sampler :
    (∀ u ∈ Ico (0 : ℝ) 1, raSample u ∈ Ico 0 (2 * Real.pi)) ∧
    ∀ s ∈ Icc 0 (2 * Real.pi), volume {u : ℝ | u ∈ Ico (0 : ℝ) 1 ∧ raSample u ≤ s} =
      ENNReal.ofReal (s / (2 * Real.pi)) := by
  have hpi : 0 < 2 * Real.pi := by positivity
  have e : ∀ u, raSample u = 2 * Real.pi * u := fun u => by unfold raSample npUniform; ring
  refine ⟨fun u hu => ?_, fun s hs => ?_⟩
  · rw [e]; exact ⟨mul_nonneg hpi.le hu.1, by nlinarith [hu.2]⟩
  · rw [← volume_uniform_le (div_nonneg hs.1 hpi.le) ((div_le_one hpi).2 hs.2)]
    congr 1
    ext u
    simp only [mem_ofPred_eq, e]
    rw [le_div_iff₀ hpi, mul_comm]

/-- **C52 is violated** by the auxiliary sampler of the declination: it returns the polar angle,
in [0, pi] instead of [-pi/2, pi/2], so that half of its values are no declinations at all and
none is negative. -/
theorem C52_violated_dec_sampler :
    (∀ u ∈ Ico (0 : ℝ) 1, ∃ d, decSample u = some d ∧ 0 ≤ d) ∧
    volume {u : ℝ | u ∈ Ico (0 : ℝ) 1 ∧ ∃ d, decSample u = some d ∧
      d ∉ Icc (-(Real.pi / 2)) (Real.pi / 2)} = ENNReal.ofReal (1 / 2) := by
  have hpi := Real.pi_pos
  have e : ∀ u ∈ Ico (0 : ℝ) 1, decSample u = some (Real.arccos (1 - 2 * u)) := by
    intro u hu
    unfold decSample npUniform
    rw [show 1 - 2 * (0 + (1 - 0) * u) = 1 - 2 * u by ring,
      npArccos_eq ⟨by linarith [hu.2], by linarith [hu.1]⟩]
  refine ⟨fun u hu => ⟨_, e u hu, Real.arccos_nonneg _⟩, ?_⟩
  have hset : {u : ℝ | u ∈ Ico (0 : ℝ) 1 ∧ ∃ d, decSample u = some d ∧
      d ∉ Icc (-(Real.pi / 2)) (Real.pi / 2)} = Ioo (1 / 2) 1 := by
    ext u
    simp only [mem_ofPred_eq, mem_Ioo]
    constructor
    · rintro ⟨hu, d, hd, hn⟩
      rw [e u hu] at hd
      cases hd
      refine ⟨?_, hu.2⟩
      by_contra hle
      apply hn
      refine ⟨by linarith [Real.arccos_nonneg (1 - 2 * u)], Real.arccos_le_pi_div_two.2 ?_⟩
      linarith [not_lt.1 hle]
    · rintro ⟨h1, h2⟩
      have hu : u ∈ Ico (0 : ℝ) 1 := ⟨by linarith, h2⟩
      refine ⟨hu, _, e u hu, fun hn => ?_⟩
      have := Real.arccos_le_pi_div_two.1 hn.2
      linarith
  rw [hset, Real.volume_Ioo]
  norm_num

/-! ### The spiral galaxy -/

/-- **C52**, spiral galaxy: phi is in [0, pi].  Missing: theta, see `C52_violated_spiral`. -/
theorem C52_spiral_partial {distance u zpos normal : ℝ} {arm : Fin 4} {d theta phi : ℝ}
    (h : spiralSky distance arm u zpos normal = some (d, theta, phi)) :
    0 < distance ∧ phi ∈ Icc 0 Real.pi ∧ raOf phi ∈ Icc (0 : ℝ) 180 := by
  have hpi := Real.pi_pos
  have key : 0 < distance ∧ ∃ c, phi = Real.arccos c := by
    unfold spiralSky at h
    have hr : (spiralArm arm).2.1 > 0 := by
      fin_cases arm <;> norm_num [spiralArm]
    revert h
    generalize spiralArm arm = q at hr ⊢
    obtain ⟨k, r0, theta0⟩ := q
    simp only at hr ⊢
    intro h
    simp only [npDiv_ne hr.ne', Option.bind_eq_bind, Option.bind_some] at h
    split at h
    · cases h
    · rename_i hq
      obtain ⟨c, hc, h⟩ := Option.bind_eq_some_iff.1 h
      obtain ⟨p, hp, h⟩ := Option.bind_eq_some_iff.1 h
      simp only [Option.pure_def, Option.some.injEq, Prod.mk.injEq] at h
      obtain ⟨-, -, rfl⟩ := h
      refine ⟨by_contra fun hn => hq (div_nonpos_of_nonpos_of_nonneg (not_lt.1 hn) hr.le), c, ?_⟩
      unfold npArccos at hp
      split at hp
      · cases hp; rfl
      · cases hp
  obtain ⟨hd, c, rfl⟩ := key
  have h1 := Real.arccos_nonneg c
  have h2 := Real.arccos_le_pi c
  refine ⟨hd, ⟨h1, h2⟩, ?_⟩
  unfold raOf rad2deg
  refine ⟨by positivity, ?_⟩
  rw [mul_div_assoc', div_le_iff₀ hpi]
  nlinarith

/-- **C52 is violated** by the spiral galaxy: theta is the angle along the arm and unbounded, so
there are declinations outside [-90, 90]; and the distance is changed after it was drawn, beyond
the maximum. -/
theorem C52_violated_spiral :
    (∀ zpos normal : ℝ, zpos ≠ 0 → ∃ d theta phi,
      spiralSky 1 0 0 zpos normal = some (d, theta, phi) ∧ theta < 0 ∧ 90 < decOf theta) ∧
    ∀ distance > 0, ∃ d theta phi, spiralSky distance 0 0 0 1 = some (d, theta, phi) ∧
      distance < d := by
  have hpi := Real.pi_pos
  have hc : ∀ d z : ℝ, 0 < d ^ 2 + z ^ 2 → z / √(d ^ 2 + z ^ 2) ∈ Icc (-1 : ℝ) 1 := by
    intro d z h
    have hs := Real.sqrt_pos.2 h
    have hle : |z| ≤ √(d ^ 2 + z ^ 2) := by
      rw [← Real.sqrt_sq_eq_abs]
      exact Real.sqrt_le_sqrt (by nlinarith [sq_nonneg d])
    have := abs_le.1 hle
    exact ⟨by rw [le_div_iff₀ hs]; linarith, by rw [div_le_iff₀ hs]; linarith⟩
  have run : ∀ distance zpos normal : ℝ, 0 < distance →
      0 < (distance + 0.07 * |distance| * normal) ^ 2 + zpos ^ 2 →
      ∃ phi, spiralSky distance 0 0 zpos normal =
        some (distance + 0.07 * |distance| * normal,
          4.25 * Real.log (distance / 3.48) + 0 +
            npUniform 0 (2 * Real.pi) 0 * Real.exp (-0.35 * distance), phi) := by
    intro distance zpos normal hd hpos
    unfold spiralSky spiralArm
    have h3 : (3.48 : ℝ) ≠ 0 := by norm_num
    have hq : ¬ distance / 3.48 ≤ 0 := not_le.2 (by positivity)
    simp only [npDiv_ne h3, Option.bind_eq_bind, Option.bind_some, if_neg hq,
      npDiv_ne (Real.sqrt_pos.2 hpos).ne', npArccos_eq (hc _ _ hpos), Option.pure_def]
    exact ⟨_, rfl⟩
  constructor
  · intro zpos normal hz
    obtain ⟨phi, e⟩ := run 1 zpos normal one_pos (by positivity)
    refine ⟨_, _, _, e, ?_⟩
    have hlog : Real.log (1 / 3.48) < 0 := Real.log_neg (by norm_num) (by norm_num)
    have hneg : 4.25 * Real.log (1 / 3.48) + 0 +
        npUniform 0 (2 * Real.pi) 0 * Real.exp (-0.35 * 1) < 0 := by
      unfold npUniform; simp only [mul_zero, add_zero, zero_mul]; nlinarith
    refine ⟨hneg, ?_⟩
    unfold decOf rad2deg
    have := mul_neg_of_neg_of_pos hneg (show 0 < 180 / Real.pi by positivity)
    linarith
  · intro distance hd
    have hlt : distance < distance + 0.07 * |distance| * 1 := by
      rw [abs_of_pos hd]; linarith
    obtain ⟨phi, e⟩ := run distance 0 1 hd (by have := hd.trans hlt; positivity)
    exact ⟨_, _, _, e, hlt⟩

/-- Concrete positions: the uniform numbers 1/2 and 1/2 give a point on the equator at 180
degrees. -/
example : sampleThetaPhi (1 / 2) (1 / 2) = some (Real.pi / 2, Real.pi) ∧
    decOf (Real.pi / 2) = 0 ∧ raOf Real.pi = 180 := by
  have hpi := Real.pi_pos
  refine ⟨?_, ?_, ?_⟩
  · rw [sampleThetaPhi_eq ⟨by norm_num, by norm_num⟩, show (1 - 2 * (1 / 2) : ℝ) = 0 by norm_num,
      Real.arccos_zero]
    congr 2; ring
  · unfold decOf rad2deg; field_simp; norm_num
  · unfold raOf rad2deg; field_simp

/-- A maximum of 60 degrees. -/
example : viewingProb 60 (Real.pi / 6) = some 1 := by
  unfold viewingProb deg2rad
  rw [show (60 : ℝ) * (Real.pi / 180) = Real.pi / 3 by ring, Real.cos_pi_div_three,
    Real.sin_pi_div_six, npDiv_ne (by norm_num)]
  norm_num

end

end Popsynth
