import Verif.Lemmas.Cosmology

/-!
# The slope of the approximate comoving distance

`phiSlope y / phiBottom y ^ 2` is the derivative of `s ↦ s * Phi (k * s ^ 6)` at `y = k * s ^ 6`.
In an exact computation it would be `1 / √(1 + y)`.
-/

set_option autoImplicit false
set_option linter.unusedSectionVars false

namespace Popsynth

noncomputable section

/-- Numerator of the slope. -/
def phiSlope (y : ℝ) : ℝ := 1.0 + 2.28 * y + 1.93734 * y ^ 2 + 0.751404 * y ^ 3 + 0.13379706 * y ^ 4 + 0.008244432 * y ^ 5 + 0.0010475264 * y ^ 6

theorem phiSlope_rat (y : ℝ) : phiSlope y = 1 + 57 / 25 * y + 96867 / 50000 * y ^ 2 + 187851 / 250000 * y ^ 3 + 6689853 / 50000000 * y ^ 4 + 515277 / 62500000 * y ^ 5 + 40919 / 39062500 * y ^ 6 := by
  unfold phiSlope; norm_num

theorem phiBottom_rat (y : ℝ) : phiBottom y = 1 + 174 / 125 * y + 5121 / 10000 * y ^ 2 + 493 / 12500 * y ^ 3 := by
  unfold phiBottom; norm_num; ring

theorem slope_upper {x : ℝ} (h0 : 0 ≤ x) (h1 : x ≤ 7 / 3) :
    0 ≤ (5013 / 5000) ^ 2 * phiBottom x ^ 4 - (1 + x) * phiSlope x ^ 2 := by
  obtain ⟨s, rfl⟩ : ∃ s, x = 0 + s := ⟨x - 0, by ring⟩
  obtain ⟨u, hu⟩ : ∃ u, u = 7 / 3 - s := ⟨_, rfl⟩
  have hs : 0 ≤ s := by linarith
  have hu0 : 0 ≤ u := by linarith
  have e : (5013 / 5000) ^ 2 * phiBottom (0 + s) ^ 4 - (1 + (0 + s)) * phiSlope (0 + s) ^ 2 =
      207531430587 / 2422225260175000000 * u ^ 13 +
      767271792977163 / 302778157521875000000 * s ^ 1 * u ^ 12 +
      5117775851682486243 / 151389078760937500000000 * s ^ 2 * u ^ 11 +
      5095835356172286860847 / 18923634845117187500000000 * s ^ 3 * u ^ 10 +
      108151291995645704327359281 / 75694539380468750000000000000 * s ^ 4 * u ^ 9 +
      2017749947295713589271096209 / 378472696902343750000000000000 * s ^ 5 * u ^ 8 +
      217847776958596485501424389099 / 15138907876093750000000000000000 * s ^ 6 * u ^ 7 +
      430437221638795482209367984027 / 15138907876093750000000000000000 * s ^ 7 * u ^ 6 +
      994273128559852568773807207812507 / 24222252601750000000000000000000000 * s ^ 8 * u ^ 5 +
      1030421548684308999216888363053943 / 24222252601750000000000000000000000 * s ^ 9 * u ^ 4 +
      9199683422517750977081134183011327 / 302778157521875000000000000000000000 * s ^ 10 * u ^ 3 +
      20873476752714248509519836374502603 / 1513890787609375000000000000000000000 * s ^ 11 * u ^ 2 +
      50641140995089938189832985089907127 / 15138907876093750000000000000000000000 * s ^ 12 * u ^ 1 +
      4010028526575577127072536581549947 / 15138907876093750000000000000000000000 * s ^ 13 := by
    rw [hu]
    simp only [phiBottom_rat, phiSlope_rat]
    ring
  rw [e]
  positivity

theorem slope_lower_left {x : ℝ} (h0 : 0 ≤ x) (h1 : x ≤ 7 / 6) :
    0 ≤ (1 + x) * phiSlope x ^ 2 - (4987 / 5000) ^ 2 * phiBottom x ^ 4 := by
  obtain ⟨s, rfl⟩ : ∃ s, x = 0 + s := ⟨x - 0, by ring⟩
  obtain ⟨u, hu⟩ : ∃ u, u = 7 / 6 - s := ⟨_, rfl⟩
  have hs : 0 ≤ s := by linarith
  have hu0 : 0 ≤ u := by linarith
  have e : (1 + (0 + s)) * phiSlope (0 + s) ^ 2 - (4987 / 5000) ^ 2 * phiBottom (0 + s) ^ 4 =
      26495046324864 / 37847269690234375 * u ^ 13 +
      58616288693693568 / 4730908711279296875 * s ^ 1 * u ^ 12 +
      58857244561257046056 / 591363588909912109375 * s ^ 2 * u ^ 11 +
      35448976981785783740112 / 73920448613739013671875 * s ^ 3 * u ^ 10 +
      228056750719233249259000719 / 147840897227478027343750000 * s ^ 4 * u ^ 9 +
      2577436348343425954236548073 / 739204486137390136718750000 * s ^ 5 * u ^ 8 +
      670810357618671280139401660821 / 118272717781982421875000000000 * s ^ 6 * u ^ 7 +
      7897737646570262285868528087 / 1182727177819824218750000000 * s ^ 7 * u ^ 6 +
      4263894136785021519784180073605893 / 756945393804687500000000000000000 * s ^ 8 * u ^ 5 +
      2505791928119472847338911750785761 / 756945393804687500000000000000000 * s ^ 9 * u ^ 4 +
      12163133816315571666992739775127037 / 9461817422558593750000000000000000 * s ^ 10 * u ^ 3 +
      14267333870730927439156412748525249 / 47309087112792968750000000000000000 * s ^ 11 * u ^ 2 +
      17838618171307486372647145592304993 / 473090871127929687500000000000000000 * s ^ 12 * u ^ 1 +
      1186983207427975535859097589986853 / 473090871127929687500000000000000000 * s ^ 13 := by
    rw [hu]
    simp only [phiBottom_rat, phiSlope_rat]
    ring
  rw [e]
  positivity

theorem slope_lower_right {x : ℝ} (h0 : 7 / 6 ≤ x) (h1 : x ≤ 7 / 3) :
    0 ≤ (1 + x) * phiSlope x ^ 2 - (4987 / 5000) ^ 2 * phiBottom x ^ 4 := by
  obtain ⟨s, rfl⟩ : ∃ s, x = 7 / 6 + s := ⟨x - 7 / 6, by ring⟩
  obtain ⟨u, hu⟩ : ∃ u, u = 7 / 6 - s := ⟨_, rfl⟩
  have hs : 0 ≤ s := by linarith
  have hu0 : 0 ≤ u := by linarith
  have e : (1 + (7 / 6 + s)) * phiSlope (7 / 6 + s) ^ 2 - (4987 / 5000) ^ 2 * phiBottom (7 / 6 + s) ^ 4 =
      1186983207427975535859097589986853 / 473090871127929687500000000000000000 * u ^ 13 +
      2604589044363975511937878349470637 / 94618174225585937500000000000000000 * s ^ 1 * u ^ 12 +
      42442631656728984318035540672915397 / 236545435563964843750000000000000000 * s ^ 2 * u ^ 11 +
      268539571057528538465771332720302221 / 236545435563964843750000000000000000 * s ^ 3 * u ^ 10 +
      594848113168400668621457660572484413 / 94618174225585937500000000000000000 * s ^ 4 * u ^ 9 +
      11988688600619980674083317009689091317 / 473090871127929687500000000000000000 * s ^ 5 * u ^ 8 +
      26393388478069551070808615481901041 / 369602243068695068359375000000000 * s ^ 6 * u ^ 7 +
      4199639456255662630961107815064870491 / 29568179445495605468750000000000000 * s ^ 7 * u ^ 6 +
      2977556809226827887251501684571330849 / 14784089722747802734375000000000000 * s ^ 8 * u ^ 5 +
      600654531661683506527719908415921043 / 2956817944549560546875000000000000 * s ^ 9 * u ^ 4 +
      65979292676125617458267414631536003 / 462002803835868835449218750000000 * s ^ 10 * u ^ 3 +
      24642037630630380568697765122099629 / 369602243068695068359375000000000 * s ^ 11 * u ^ 2 +
      34394226864470239671384175672231781 / 1848011215343475341796875000000000 * s ^ 12 * u ^ 1 +
      4350902481296070271379059356830053 / 1848011215343475341796875000000000 * s ^ 13 := by
    rw [hu]
    simp only [phiBottom_rat, phiSlope_rat]
    ring
  rw [e]
  positivity

theorem slope_upper_wide {x : ℝ} (h0 : 0 ≤ x) (h1 : x ≤ 4) :
    0 ≤ (51 / 50) ^ 2 * phiBottom x ^ 4 - (1 + x) * phiSlope x ^ 2 := by
  obtain ⟨s, rfl⟩ : ∃ s, x = 0 + s := ⟨x - 0, by ring⟩
  obtain ⟨u, hu⟩ : ∃ u, u = 4 - s := ⟨_, rfl⟩
  have hs : 0 ≤ s := by linarith
  have hu0 : 0 ≤ u := by linarith
  have e : (51 / 50) ^ 2 * phiBottom (0 + s) ^ 4 - (1 + (0 + s)) * phiSlope (0 + s) ^ 2 =
      101 / 167772160000 * u ^ 13 +
      455309 / 20971520000000 * s ^ 1 * u ^ 12 +
      465481473 / 1310720000000000 * s ^ 2 * u ^ 11 +
      570737483297 / 163840000000000000 * s ^ 3 * u ^ 10 +
      934920176915581 / 40960000000000000000 * s ^ 4 * u ^ 9 +
      21571713467565669 / 204800000000000000000 * s ^ 5 * u ^ 8 +
      45009134028557671 / 128000000000000000000 * s ^ 6 * u ^ 7 +
      27462246990934487 / 32000000000000000000 * s ^ 7 * u ^ 6 +
      9762077732275629249 / 6400000000000000000000 * s ^ 8 * u ^ 5 +
      12360207033445102941 / 6400000000000000000000 * s ^ 9 * u ^ 4 +
      66186371530535988267 / 40000000000000000000000 * s ^ 10 * u ^ 3 +
      10750944528924836913 / 12500000000000000000000 * s ^ 11 * u ^ 2 +
      103425073401249923013 / 500000000000000000000000 * s ^ 12 * u ^ 1 +
      540646674522336009 / 250000000000000000000000 * s ^ 13 := by
    rw [hu]
    simp only [phiBottom_rat, phiSlope_rat]
    ring
  rw [e]
  positivity

theorem slope_lower_wide {x : ℝ} (h0 : 0 ≤ x) (h1 : x ≤ 4) :
    0 ≤ (1 + x) * phiSlope x ^ 2 - (49 / 50) ^ 2 * phiBottom x ^ 4 := by
  obtain ⟨s, rfl⟩ : ∃ s, x = 0 + s := ⟨x - 0, by ring⟩
  obtain ⟨u, hu⟩ : ∃ u, u = 4 - s := ⟨_, rfl⟩
  have hs : 0 ≤ s := by linarith
  have hu0 : 0 ≤ u := by linarith
  have e : (1 + (0 + s)) * phiSlope (0 + s) ^ 2 - (49 / 50) ^ 2 * phiBottom (0 + s) ^ 4 =
      99 / 167772160000 * u ^ 13 +
      426491 / 20971520000000 * s ^ 1 * u ^ 12 +
      415853127 / 1310720000000000 * s ^ 2 * u ^ 11 +
      486038736103 / 163840000000000000 * s ^ 3 * u ^ 10 +
      759889841080619 / 40960000000000000000 * s ^ 4 * u ^ 9 +
      16790831910688131 / 204800000000000000000 * s ^ 5 * u ^ 8 +
      33743402681056529 / 128000000000000000000 * s ^ 6 * u ^ 7 +
      20013840063972913 / 32000000000000000000 * s ^ 7 * u ^ 6 +
      7039323672993865551 / 6400000000000000000000 * s ^ 8 * u ^ 5 +
      9176958709834490259 / 6400000000000000000000 * s ^ 9 * u ^ 4 +
      55282652841408950133 / 40000000000000000000000 * s ^ 10 * u ^ 3 +
      6040602460991041281 / 6250000000000000000000 * s ^ 11 * u ^ 2 +
      224760656359513857087 / 500000000000000000000000 * s ^ 12 * u ^ 1 +
      26066850444114592041 / 250000000000000000000000 * s ^ 13 := by
    rw [hu]
    simp only [phiBottom_rat, phiSlope_rat]
    ring
  rw [e]
  positivity

theorem slope_far {x : ℝ} (h : 8 ≤ x) : 0 ≤ (1 + x) * phiSlope x ^ 2 - (57 / 50) ^ 2 * phiBottom x ^ 4 := by
  obtain ⟨s, rfl⟩ : ∃ s, x = 8 + s := ⟨x - 8, by ring⟩
  have hs : 0 ≤ s := by linarith
  have e : (1 + (8 + s)) * phiSlope (8 + s) ^ 2 - (57 / 50) ^ 2 * phiBottom (8 + s) ^ 4 =
      70112714625281481470451 / 238418579101562500 +
      126481285178295243020406 / 59604644775390625 * s ^ 1 +
      2091135594521606673196881 / 953674316406250000 * s ^ 2 +
      209676071402777856530583 / 190734863281250000 * s ^ 3 +
      2070399233701405834045827 / 6103515625000000000 * s ^ 4 +
      542870326079539308496233 / 7629394531250000000 * s ^ 5 +
      2604038827122029637862239 / 244140625000000000000 * s ^ 6 +
      286013379283991508054949 / 244140625000000000000 * s ^ 7 +
      297185091096835098994659 / 3125000000000000000000 * s ^ 8 +
      138519919753029848061 / 24414062500000000000 * s ^ 9 +
      118795830269999110057 / 488281250000000000000 * s ^ 10 +
      108972836904023589 / 15258789062500000000 * s ^ 11 +
      7894634553863151 / 61035156250000000000 * s ^ 12 +
      1674364561 / 1525878906250000 * s ^ 13 := by
    simp only [phiBottom_rat, phiSlope_rat]
    ring
  rw [e]
  positivity

end

end Popsynth
