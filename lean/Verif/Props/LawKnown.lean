import Verif.Props.LawThinning
import Verif.Props.LawAttachedChoice
import Verif.Lemmas.Marks

/-!
# The known distances of a survey (C88)

A survey with a `BernoulliSelection` as distance selection flips a coin for every detected
object: its distance is known or not.
-/

set_option autoImplicit false
set_option linter.unusedSectionVars false

open MeasureTheory Filter
open scoped NNReal ENNReal

namespace Popsynth

variable {G : Type} [MeasurableSpace G] {P : Measure G} [IsProbabilityMeasure P]
  {e : SurveyEnv ℝ G} {env : DistEnv ℝ G} {c : SpClass ℝ}
  {tr : List ℝ → List ℝ → Except Err (List ℝ)} {y : Synth ℝ} {a : SurveyArgs ℝ} {s : SurvSt ℝ G}
  {flux : ℝ → ℝ → ℝ} {rm m : ℝ} {vs : List ℝ} {Λ : ℝ≥0} {μL : Measure ℝ} {p : ℝ → ℝ≥0∞}

/-- The same survey with another distance selection. -/
def Spec.withDistSel (y : Synth ℝ) (s : SurvSt ℝ G) (coin : Selector ℝ G) : SurvSt ℝ G :=
  { s with heap := s.heap.modSelector y.distSel fun _ => coin }

/-- A fresh `BernoulliSelection` with probability `q`. -/
structure Spec.FreshCoin (w : World ℝ G) (coin : Selector ℝ G) (q : ℝ) : Prop where
  kind : coin.kind = .bernoulli
  stored : Spec.Stored coin "probability" q
  fresh : coin.isSampled = false
  valid : w.sel.validProb q = true
  range : 0 ≤ q ∧ q ≤ 1

/-- `Q` is a population with the detected sources `d` and the undetected sources `u`; the flag
of a detected source says whether its distance is known. -/
structure Spec.ShowsKnown (Q : Population ℝ) (flux obs : ℝ → ℝ → ℝ)
    (d : List (Spec.SkySource × Bool)) (u : List Spec.SkySource) : Prop where
  splits : Spec.Splits Q flux obs (d.map fun x => x.1) u
  known : Q.knownDistances = (d.filter fun x => x.2).map fun x => x.1.distance
  knownIdx : Q.knownIdx.Pairwise (· < ·) ∧
    ∀ i, i ∈ Q.knownIdx ↔ ∃ x, d[i]? = some x ∧ x.2 = true
  unknownIdx : Q.unknownIdx.Pairwise (· < ·) ∧
    ∀ i, i ∈ Q.unknownIdx ↔ ∃ x, d[i]? = some x ∧ x.2 = false

/-! ### Lists -/

theorem pick_split (f : Spec.SkySource → ℝ) : ∀ l : List (Spec.SkySource × Bool),
    pick (l.map fun x => f x.1) (l.map fun x => x.2) = (split l).1.map f
  | [] => rfl
  | (x, b) :: l => by
    have h := pick_split f l
    cases b
    · rw [split_false]; simp [pick, h]
    · rw [split_true]; simp [pick, h]

theorem pick_zip (f : Spec.SkySource → ℝ) : ∀ (d : List Spec.SkySource) (b : List Bool),
    pick (d.map f) b = ((d.zip b).filter fun x => x.2).map fun x => f x.1
  | [], _ => by simp [pick]
  | _ :: _, [] => by simp [pick]
  | x :: d, b :: bs => by
    have h := pick_zip f d bs
    cases b <;> simp [pick, h]

theorem zip_flag {d : List Spec.SkySource} {b : List Bool} (hl : b.length = d.length) (i : ℕ) (v : Bool) :
    b[i]? = some v ↔ ∃ x, (d.zip b)[i]? = some x ∧ x.2 = v := by
  constructor
  · intro h
    obtain ⟨h1, h2⟩ := List.getElem?_eq_some_iff.1 h
    exact ⟨(d[i]'(by omega), b[i]), by simp [List.getElem?_eq_getElem, hl ▸ h1, h1], h2⟩
  · rintro ⟨x, h1, rfl⟩
    rw [List.getElem?_zip_eq_some] at h1
    exact h1.2

theorem count_zip : ∀ (d : List Spec.SkySource) (b : List Bool), b.length = d.length →
    (countTrue b = 0 ↔ ∀ x ∈ d.zip b, x.2 = false)
  | [], [], _ => by simp [countTrue]
  | _ :: d, b :: bs, h => by
    have ih := count_zip d bs (by simpa using h)
    rw [countTrue_eq] at ih ⊢
    cases b
    · simp [ih]
    · simp

/-! ### The stages of a survey -/

/-- What the stages of a survey do, for a Poisson number of sources. -/
theorem catalogue_stages (h : Spec.Lawful P e env c tr y a s flux rm m vs μL p)
    (hc : Spec.Counted P e env c a rm vs Λ)
    (showProgress : Bool) (galB : List ℝ → List ℝ → List ℝ) {t : SurvSt ℝ G} (hsp : t.sp = s.sp)
    (hlum : t.lum = s.lum) (hfl : t.heap.selectors y.fluxSel = s.heap.selectors y.fluxSel) :
    Spec.Samples P (Spec.poissonSample Λ (Spec.catalogueLaw e c y a s flux rm m vs μL p))
      fun k g v g' => Nonempty (Stages (Spec.surveyEnv e env c.code showProgress tr galB k g) y a t
        v.length g' (v.map fun x => x.1.distance) (v.map fun x => x.1.theta)
        (v.map fun x => x.1.phi) (v.map fun x => x.1.luminosity)
        (v.map fun x => flux x.1.luminosity x.1.distance)
        (v.map fun x => Spec.observed e
          (Spec.sigmaUsed (s.heap.selectors y.fluxSel).kind a) a.log10Draw
          (flux x.1.luminosity x.1.distance) x.1.noise)
        (v.map fun x => x.2)) := by
  have := h.catalogue_prob
  have hr : rd c.decl "r_max" s.sp.params = some rm := rd_of_outcome h.radius.1
  have hvs : rdAll c.decl c.reads s.sp.params = .ok vs := by rw [← readAll_outcome]; exact h.values
  obtain ⟨o1, c1, c2, c3⟩ := expectedCount_returns env c h.declared hr hvs
  have hi : ∀ n, IsProbabilityMeasure ((Spec.iid n (Spec.catalogueLaw e c y a s flux rm m vs μL p)).map
      List.ofFn) := fun n =>
    Measure.isProbabilityMeasure_map (measurable_ofFn n).aemeasurable
  refine Samples.bindNat hc.poisson (fun n => Samples.map
    (survey_stages h showProgress galB ⟨c2, c3⟩ hsp hlum hfl n)
    (measurable_ofFn n) (Q := fun k g1 v g6 => v.length = n ∧
      ∀ g0, countObjects (Spec.surveyEnv e env c.code showProgress tr galB k g0) a.nSamples a.normalize
        { t with heap := { t.heap with rng := g0 } } =
          .ok n { t with sp := { t.sp with params := o1 }, heap := { t.heap with rng := g1 } } →
      Nonempty (Stages (Spec.surveyEnv e env c.code showProgress tr galB k g0) y a t
        n g6 (v.map fun x => x.1.distance) (v.map fun x => x.1.theta)
        (v.map fun x => x.1.phi) (v.map fun x => x.1.luminosity)
        (v.map fun x => flux x.1.luminosity x.1.distance)
        (v.map fun x => Spec.observed e
          (Spec.sigmaUsed (s.heap.selectors y.fluxSel).kind a) a.log10Draw
          (flux x.1.luminosity x.1.distance) x.1.noise)
        (v.map fun x => x.2)))
    (fun k g1 v g6 hv => ⟨List.length_ofFn, by simp only [List.map_ofFn]; exact hv⟩)) ?_
  rintro k g n g1 v g2 hp ⟨rfl, hv⟩
  refine hv g ?_
  rw [hc.drawn, h.plainCount]
  show (onSpatial (onParams ((Spec.surveyEnv e env c.code showProgress tr galB k g).spatial.count false)) >>=
    fun N => onRng ((Spec.surveyEnv e env c.code showProgress tr galB k g).poisson N)) _ = _
  have e1 : onSpatial (onParams ((Spec.surveyEnv e env c.code showProgress tr galB k g).spatial.count false))
      { t with heap := { t.heap with rng := g } } = .ok (Λ : ℝ)
        { t with sp := { t.sp with params := o1 }, heap := { t.heap with rng := g } } := by
    refine onSpatial_of_ok (t := { sp := { t.sp with params := o1 }, rng := g }) ?_
    unfold onParams
    have : (Spec.surveyEnv e env c.code showProgress tr galB k g).spatial.count false t.sp.params =
      .ok (Λ : ℝ) o1 := by rw [hc.mean, hsp]; exact c1
    simp only [this]
  rw [bind_of_ok e1]
  exact onRng_of_ok hp

/-- Coins. -/
theorem coins_samples {w : World ℝ G} (hfair : Spec.FairBern P w.sel) {q : ℝ}
    (hv : w.sel.validProb q = true) (h0 : 0 ≤ q) (h1 : q ≤ 1) (n : ℕ) :
    Spec.Samples P (points n (Spec.coinLaw q)) fun _ g b g' =>
      bernMany w.sel (List.replicate n q) g = (b, g') := by
  obtain ⟨ν, E, _, hν, hE, hq, hs⟩ := hfair
  have hb : Measurable fun u : ℝ => decide ((q, u) ∈ E) := by
    refine measurable_to_bool ?_
    have : MeasurableSet {u : ℝ | (q, u) ∈ E} := measurable_prodMk_left hE
    convert this using 1
    ext u; simp
  have hprob := coinLaw_prob h0 h1
  have hc : MeasurePreserving (fun u : ℝ => decide ((q, u) ∈ E)) ν (Spec.coinLaw q) := by
    refine ⟨hb, ?_⟩
    have i1 : IsProbabilityMeasure (ν.map fun u : ℝ => decide ((q, u) ∈ E)) :=
      Measure.isProbabilityMeasure_map hb.aemeasurable
    have ht : (ν.map fun u : ℝ => decide ((q, u) ∈ E)) {true} = Spec.coinLaw q {true} := by
      rw [Measure.map_apply hb (measurableSet_singleton _)]
      have : (fun u : ℝ => decide ((q, u) ∈ E)) ⁻¹' {true} = {u | (q, u) ∈ E} := by ext u; simp
      rw [this, hq q hv]
      simp [Spec.coinLaw]
    have hcompl : ({false} : Set Bool) = {true}ᶜ := by ext b; cases b <;> simp
    refine Measure.ext_of_singleton fun b => ?_
    cases b
    · rw [hcompl, prob_compl_eq_one_sub (measurableSet_singleton _),
        prob_compl_eq_one_sub (measurableSet_singleton _), ht]
    · exact ht
  have hiid : MeasurePreserving (fun (u : Fin n → ℝ) i => decide ((q, u i) ∈ E)) (Spec.iid n ν)
      (Spec.iid n (Spec.coinLaw q)) := measurePreserving_pi _ _ fun _ => hc
  refine Samples.mapTo (Samples.repeat hs n) (f := fun u => List.ofFn fun i => decide ((q, u i) ∈ E))
    ⟨(measurable_ofFn n).comp hiid.measurable, ?_⟩ ?_
  · unfold points
    rw [← hiid.map_eq]
    exact (Measure.map_map (measurable_ofFn n) hiid.measurable).symm
  · intro k g u g' hr
    have := bernMany_repeats k (List.ofFn u) (List.replicate n q) g g' (by simp)
      (fun x hx => by rw [List.eq_of_mem_replicate hx]; exact hv) hr
    rw [this]
    congr 1
    refine List.ext_getElem (by simp) fun i h1 h2 => by simp

/-- The catalogue as two processes. -/
theorem catalogue_processes (h : Spec.Lawful P e env c tr y a s flux rm m vs μL p) :
    (Spec.poissonSample Λ (Spec.catalogueLaw e c y a s flux rm m vs μL p)).map split =
      (Spec.poissonProcess ((Spec.intensity y a s c rm m vs Λ μL).withDensity
          (Spec.detection e y a s flux p))).prod
        (Spec.poissonProcess ((Spec.intensity y a s c rm m vs Λ μL).withDensity
          fun x => 1 - Spec.detection e y a s flux p x)) := by
  have i1 := h.catalogue_prob
  have i2 := h.intensity_finite (Λ := Λ)
  have i3 := finite_withDensity (Spec.intensity y a s c rm m vs Λ μL)
    (f := Spec.detection e y a s flux p) (fun x => h.le_one _)
  have i4 := finite_withDensity (Spec.intensity y a s c rm m vs Λ μL)
    (f := fun x => 1 - Spec.detection e y a s flux p x) (fun x => tsub_le_self)
  rw [← process_split]
  congr 1
  rw [sample_process]
  congr 1
  unfold Spec.catalogueLaw Spec.flagged mixed Spec.intensity
  have en : ∀ {α : Type} [MeasurableSpace α] (μ : Measure α), Λ • μ = (Λ : ℝ≥0∞) • μ := fun _ => rfl
  rw [en, en, smul_add, withDensity_smul_measure, withDensity_smul_measure, Measure.map_smul, Measure.map_smul]
  rfl

/-- **C88** (which distances are known): the detected sources, each with a coin that shows
whether its distance is known, and the undetected sources are independent Poisson processes.  The
survey raises `ValueError` if something is detected and no distance is known; otherwise it
returns the population of these sources, and its known distances are those of the sources whose
coins show it. -/
theorem C88_marks (h : Spec.Lawful P e env c tr y a s flux rm m vs μL p)
    (hc : Spec.Counted P e env c a rm vs Λ) (hfair : Spec.FairBern P e.world.sel)
    {coin : Selector ℝ G} {q : ℝ} (hq : Spec.FreshCoin e.world coin q)
    (showProgress : Bool) (galB : List ℝ → List ℝ → List ℝ) :
    Spec.Samples P
      ((Spec.poissonProcess (((Spec.intensity y a s c rm m vs Λ μL).withDensity
          (Spec.detection e y a s flux p)).prod (Spec.coinLaw q))).prod
        (Spec.poissonProcess ((Spec.intensity y a s c rm m vs Λ μL).withDensity
          fun x => 1 - Spec.detection e y a s flux p x)))
      fun k g v g' =>
        ((v.1 ≠ [] ∧ ∀ x ∈ v.1, x.2 = false) → ∃ s',
          drawSurvey (Spec.surveyEnv e env c.code showProgress tr galB k g) y a
            (Spec.withDistSel y s coin) = .error .value s' ∧ s'.heap.rng = g') ∧
        (¬ (v.1 ≠ [] ∧ ∀ x ∈ v.1, x.2 = false) → ∃ Q s',
          drawSurvey (Spec.surveyEnv e env c.code showProgress tr galB k g) y a
            (Spec.withDistSel y s coin) = .ok Q s' ∧ s'.heap.rng = g' ∧
          Spec.ShowsKnown Q flux (Spec.observed e
            (Spec.sigmaUsed (s.heap.selectors y.fluxSel).kind a) a.log10Draw) v.1 v.2) := by
  have i2 := h.intensity_finite (Λ := Λ)
  have i3 := finite_withDensity (Spec.intensity y a s c rm m vs Λ μL)
    (f := Spec.detection e y a s flux p) (fun x => h.le_one _)
  have i4 := finite_withDensity (Spec.intensity y a s c rm m vs Λ μL)
    (f := fun x => 1 - Spec.detection e y a s flux p x) (fun x => tsub_le_self)
  have i5 := coinLaw_prob hq.range.1 hq.range.2
  have i1 := h.catalogue_prob
  have i6 : SFinite (Spec.poissonSample Λ (Spec.catalogueLaw e c y a s flux rm m vs μL p)) := by
    rw [sample_process]; infer_instance
  have hfl : (Spec.withDistSel y s coin).heap.selectors y.fluxSel = s.heap.selectors y.fluxSel := by
    simp [Spec.withDistSel, Heap.modSelector, h.plain.apart.symm]
  have hds : (Spec.withDistSel y s coin).heap.selectors y.distSel = coin := by
    simp [Spec.withDistSel, Heap.modSelector]
  have S := Samples.mapTo (catalogue_stages h hc showProgress galB
      (t := Spec.withDistSel y s coin) rfl rfl hfl) ⟨measurable_split, catalogue_processes h⟩
    (Q := fun k g w g' => ∃ v, split v = w ∧
      Nonempty (Stages (Spec.surveyEnv e env c.code showProgress tr galB k g) y a
        (Spec.withDistSel y s coin)
        v.length g' (v.map fun x => x.1.distance) (v.map fun x => x.1.theta)
        (v.map fun x => x.1.phi) (v.map fun x => x.1.luminosity)
        (v.map fun x => flux x.1.luminosity x.1.distance)
        (v.map fun x => Spec.observed e
          (Spec.sigmaUsed (s.heap.selectors y.fluxSel).kind a) a.log10Draw
          (flux x.1.luminosity x.1.distance) x.1.noise)
        (v.map fun x => x.2))) (fun k g v g' hv => ⟨v, rfl, hv⟩)
  refine Samples.marks S (coins_samples hfair hq.valid hq.range.1 hq.range.2) ?_
  rintro k g d u g1 b g2 ⟨v, hs, ⟨st⟩⟩ hb
  have hlen : b.length = d.length := by
    have := length_bernMany e.world.sel (List.replicate d.length q) g1
    rw [hb] at this
    simpa using this
  have hct : countTrue (v.map fun x => x.2) = d.length := by
    rw [countTrue_eq, (split_length v).1, hs]
  have pb : Spec.Based (Spec.surveyEnv e env c.code showProgress tr galB k g) y
      (Spec.withDistSel y s coin) :=
    ⟨h.plain.derived, h.plain.lum, h.plain.spat, h.plain.apart, by rw [hfl]; exact h.plain.fresh.1,
      h.plain.spaces, h.plain.dict⟩
  have hdraw := draw_coin (w := e.world) (n := d.length) (g := g1) hq.kind hq.stored hq.valid
  rw [hb] at hdraw
  obtain ⟨r1, r2⟩ := st.known pb h.plain.aux (by rw [hds]; exact hq.fresh)
    (by rw [hds, hct]; exact hdraw) rfl (by rw [hct]; exact hlen)
  have hz : (0 < countTrue (v.map fun x => x.2) ∧ countTrue b = 0) ↔
      (d.zip b ≠ [] ∧ ∀ x ∈ d.zip b, x.2 = false) := by
    rw [hct, count_zip d b hlen]
    refine and_congr_left fun _ => ?_
    rw [← List.length_pos_iff, List.length_zip, hlen, Nat.min_self]
  refine ⟨fun hx => r1 (hz.2 hx), fun hx => ?_⟩
  obtain ⟨Q, s', q1, q2, q3, q4, q5, q6, q7, q8, q9, q10, q11, q12, q13⟩ := r2 (fun hh => hx (hz.1 hh))
  refine ⟨Q, s', q1, q2, ?_⟩
  have hholds : Spec.Holds Q flux (Spec.observed e
      (Spec.sigmaUsed (s.heap.selectors y.fluxSel).kind a) a.log10Draw) v := by
    refine ⟨q8, by rw [q3, q8], by rw [q4, q8], by rw [q5, q8], by rw [q6, q8], by rw [q7, q8], ?_, ?_⟩
    · rw [q9, countTrue_eq]
    · rw [q10, countTrue_eq]
      have := List.count_true_add_count_false (v.map fun x => x.2)
      rw [List.length_map] at this
      exact (Nat.eq_sub_of_add_eq' this).symm
  have hsp := holds_splits hholds
  rw [hs] at hsp
  obtain ⟨j1, j2, j3, j4, -⟩ := C09_index_partition b
  refine ⟨?_, ?_, ⟨by rw [q12]; exact j1, fun i => ?_⟩, ⟨by rw [q13]; exact j2, fun i => ?_⟩⟩
  · have : (d.zip b).map (fun x => x.1) = d := List.map_fst_zip (by omega)
    rw [this]; exact hsp
  · rw [q11, pick_split Spec.SkySource.distance, hs, pick_zip]
  · rw [q12, j3, zip_flag hlen]
  · rw [q13, j4, zip_flag hlen]

theorem coin_true (q : ℝ) : Spec.coinLaw q {true} = ENNReal.ofReal q := by simp [Spec.coinLaw]

theorem coin_false (q : ℝ) : Spec.coinLaw q {false} = ENNReal.ofReal (1 - q) := by
  simp [Spec.coinLaw]

theorem filter_split (l : List (Spec.SkySource × Bool)) (f : Spec.SkySource → ℝ) :
    ((l.filter fun x => x.2).map fun x => f x.1) = (split l).1.map f := by
  simp [split]

theorem all_split : ∀ l : List (Spec.SkySource × Bool),
    (l ≠ [] ∧ ∀ x ∈ l, x.2 = false) ↔ ((split l).1 = [] ∧ (split l).2 ≠ [])
  | [] => by simp [split]
  | (x, true) :: l => by rw [split_true]; simp
  | (x, false) :: l => by
    rw [split_false]
    simp [split, List.filter_eq_nil_iff]

/-- **C88** (known, unknown and undetected): the detected sources with known distance, those with
unknown distance and the undetected sources are three independent Poisson processes; the
intensity of detected sources is shared in the ratio `q` to `1 - q`.  The survey raises
`ValueError` if the first is empty and the second is not; otherwise the known distances of its
population are those of the first. -/
theorem C88_processes (h : Spec.Lawful P e env c tr y a s flux rm m vs μL p)
    (hc : Spec.Counted P e env c a rm vs Λ) (hfair : Spec.FairBern P e.world.sel)
    {coin : Selector ℝ G} {q : ℝ} (hq : Spec.FreshCoin e.world coin q)
    (showProgress : Bool) (galB : List ℝ → List ℝ → List ℝ) :
    Spec.Samples P
      (((Spec.poissonProcess (ENNReal.ofReal q • (Spec.intensity y a s c rm m vs Λ μL).withDensity
          (Spec.detection e y a s flux p))).prod
        (Spec.poissonProcess (ENNReal.ofReal (1 - q) • (Spec.intensity y a s c rm m vs Λ μL).withDensity
          (Spec.detection e y a s flux p)))).prod
        (Spec.poissonProcess ((Spec.intensity y a s c rm m vs Λ μL).withDensity
          fun x => 1 - Spec.detection e y a s flux p x)))
      fun k g v g' =>
        ((v.1.1 = [] ∧ v.1.2 ≠ []) → ∃ s',
          drawSurvey (Spec.surveyEnv e env c.code showProgress tr galB k g) y a
            (Spec.withDistSel y s coin) = .error .value s' ∧ s'.heap.rng = g') ∧
        (¬ (v.1.1 = [] ∧ v.1.2 ≠ []) → ∃ Q s',
          drawSurvey (Spec.surveyEnv e env c.code showProgress tr galB k g) y a
            (Spec.withDistSel y s coin) = .ok Q s' ∧ s'.heap.rng = g' ∧
          Q.knownDistances = v.1.1.map Spec.SkySource.distance ∧
          Q.nDetections = v.1.1.length + v.1.2.length ∧ Q.nNonDetections = v.2.length) := by
  have i2 := h.intensity_finite (Λ := Λ)
  have i3 := finite_withDensity (Spec.intensity y a s c rm m vs Λ μL)
    (f := Spec.detection e y a s flux p) (fun x => h.le_one _)
  have i4 := finite_withDensity (Spec.intensity y a s c rm m vs Λ μL)
    (f := fun x => 1 - Spec.detection e y a s flux p x) (fun x => tsub_le_self)
  have i5 := coinLaw_prob hq.range.1 hq.range.2
  have i6 : ∀ r : ℝ, IsFiniteMeasure (ENNReal.ofReal r • (Spec.intensity y a s c rm m vs Λ μL).withDensity
      (Spec.detection e y a s flux p)) := fun r => Measure.smul_finite _ ENNReal.ofReal_ne_top
  have i7 := i6 q
  have i8 := i6 (1 - q)
  refine Samples.mapTo (C88_marks h hc hfair hq showProgress galB) (f := Prod.map split id)
    ⟨measurable_split.prodMap measurable_id, ?_⟩ ?_
  · rw [prod_coin, coin_true, coin_false, ← Measure.map_prod_map _ _ measurable_split measurable_id,
      Measure.map_id, process_split]
  · rintro k g v g' ⟨h1, h2⟩
    refine ⟨fun hx => h1 ((all_split v.1).2 hx), fun hx => ?_⟩
    obtain ⟨Q, s', q1, q2, q3⟩ := h2 fun hh => hx ((all_split v.1).1 hh)
    refine ⟨Q, s', q1, q2, ?_, ?_, q3.splits.counts.2⟩
    · rw [q3.known]; exact filter_split v.1 _
    · rw [q3.splits.counts.1, List.length_map]
      simp only [Prod.map_fst, split, List.length_map]
      exact (List.length_eq_length_filter_add fun x : Spec.SkySource × Bool => x.2)

/-- **C88** (numbers): the numbers of known distances, of detected sources without known distance
and of undetected sources are independent Poisson numbers; with `D` the mean number of
detections, the first two have the means `q D` and `(1 - q) D`. -/
theorem C88_counts (h : Spec.Lawful P e env c tr y a s flux rm m vs μL p)
    (hc : Spec.Counted P e env c a rm vs Λ) (hfair : Spec.FairBern P e.world.sel)
    {coin : Selector ℝ G} {q : ℝ} (hq : Spec.FreshCoin e.world coin q)
    (showProgress : Bool) (galB : List ℝ → List ℝ → List ℝ) :
    Spec.Samples P
      (((ProbabilityTheory.poissonMeasure (ENNReal.ofReal q * ∫⁻ x, Spec.detection e y a s flux p x
          ∂(Spec.intensity y a s c rm m vs Λ μL)).toNNReal).prod
        (ProbabilityTheory.poissonMeasure (ENNReal.ofReal (1 - q) * ∫⁻ x, Spec.detection e y a s flux p x
          ∂(Spec.intensity y a s c rm m vs Λ μL)).toNNReal)).prod
        (ProbabilityTheory.poissonMeasure (∫⁻ x, 1 - Spec.detection e y a s flux p x
          ∂(Spec.intensity y a s c rm m vs Λ μL)).toNNReal))
      fun k g v g' =>
        ((v.1.1 = 0 ∧ v.1.2 ≠ 0) → ∃ s',
          drawSurvey (Spec.surveyEnv e env c.code showProgress tr galB k g) y a
            (Spec.withDistSel y s coin) = .error .value s' ∧ s'.heap.rng = g') ∧
        (¬ (v.1.1 = 0 ∧ v.1.2 ≠ 0) → ∃ Q s',
          drawSurvey (Spec.surveyEnv e env c.code showProgress tr galB k g) y a
            (Spec.withDistSel y s coin) = .ok Q s' ∧ s'.heap.rng = g' ∧
          Q.knownDistances.length = v.1.1 ∧ Q.nDetections = v.1.1 + v.1.2 ∧
          Q.nNonDetections = v.2) := by
  have i2 := h.intensity_finite (Λ := Λ)
  have i3 := finite_withDensity (Spec.intensity y a s c rm m vs Λ μL)
    (f := Spec.detection e y a s flux p) (fun x => h.le_one _)
  have i4 := finite_withDensity (Spec.intensity y a s c rm m vs Λ μL)
    (f := fun x => 1 - Spec.detection e y a s flux p x) (fun x => tsub_le_self)
  have i6 : ∀ r : ℝ, IsFiniteMeasure (ENNReal.ofReal r • (Spec.intensity y a s c rm m vs Λ μL).withDensity
      (Spec.detection e y a s flux p)) := fun r => Measure.smul_finite _ ENNReal.ofReal_ne_top
  have i7 := i6 q
  have i8 := i6 (1 - q)
  refine Samples.mapTo (C88_processes h hc hfair hq showProgress galB)
    (f := Prod.map (Prod.map List.length List.length) List.length)
    ⟨(measurable_length.prodMap measurable_length).prodMap measurable_length, ?_⟩ ?_
  · rw [← Measure.map_prod_map _ _ (measurable_length.prodMap measurable_length) measurable_length,
      ← Measure.map_prod_map _ _ measurable_length measurable_length, process_length, process_length,
      process_length, Measure.smul_apply, Measure.smul_apply,
      withDensity_apply _ MeasurableSet.univ, withDensity_apply _ MeasurableSet.univ,
      Measure.restrict_univ]
    rfl
  · rintro k g v g' ⟨h1, h2⟩
    have hz : (v.1.1.length = 0 ∧ v.1.2.length ≠ 0) ↔ (v.1.1 = [] ∧ v.1.2 ≠ []) := by simp
    refine ⟨fun hx => h1 (hz.1 hx), fun hx => ?_⟩
    obtain ⟨Q, s', q1, q2, q3, q4, q5⟩ := h2 fun hh => hx (hz.2 hh)
    exact ⟨Q, s', q1, q2, by rw [q3, List.length_map]; rfl, q4, q5⟩

/-- **C88** (failing surveys): the probability that `draw_survey` raises `ValueError` is
`exp (-q D) (1 - exp (-(1 - q) D))`, `D` the mean number of detections. -/
theorem C88_fails (h : Spec.Lawful P e env c tr y a s flux rm m vs μL p)
    (hc : Spec.Counted P e env c a rm vs Λ) (hfair : Spec.FairBern P e.world.sel)
    {coin : Selector ℝ G} {q D : ℝ} (hq : Spec.FreshCoin e.world coin q)
    (hD : D = (∫⁻ x, Spec.detection e y a s flux p x ∂(Spec.intensity y a s c rm m vs Λ μL)).toReal)
    (showProgress : Bool) (galB : List ℝ → List ℝ → List ℝ) :
    ∃ E : Set G, MeasurableSet E ∧
      P E = ENNReal.ofReal (Real.exp (-(q * D)) * (1 - Real.exp (-((1 - q) * D)))) ∧
      ∀ᵐ g ∂P, ∀ᶠ k in atTop,
        (g ∈ E → ∃ s', drawSurvey (Spec.surveyEnv e env c.code showProgress tr galB k g) y a
            (Spec.withDistSel y s coin) = .error .value s') ∧
        (g ∉ E → ∃ Q s', drawSurvey (Spec.surveyEnv e env c.code showProgress tr galB k g) y a
            (Spec.withDistSel y s coin) = .ok Q s') := by
  obtain ⟨T, hT, hR⟩ := C88_counts h hc hfair hq showProgress galB
  have hm : MeasurableSet (({0} : Set ℕ) ×ˢ ({0} : Set ℕ)ᶜ) :=
    (measurableSet_singleton 0).prod (measurableSet_singleton 0).compl
  have h1 := measurePreserving_fst.comp (measurePreserving_fst.comp hT)
  refine ⟨(fun g => (T g).1.1) ⁻¹' (({0} : Set ℕ) ×ˢ ({0} : Set ℕ)ᶜ), h1.measurable hm, ?_, ?_⟩
  · have h2 := h1.measure_preimage hm.nullMeasurableSet
    refine h2.trans ?_
    rw [Measure.prod_prod, prob_compl_eq_one_sub (measurableSet_singleton 0),
      ProbabilityTheory.poissonMeasure_singleton, ProbabilityTheory.poissonMeasure_singleton]
    simp only [pow_zero, mul_one, Nat.factorial_zero, Nat.cast_one, div_one, ENNReal.coe_toNNReal_eq_toReal,
      ENNReal.toReal_mul, ← hD, ENNReal.toReal_ofReal hq.range.1,
      ENNReal.toReal_ofReal (sub_nonneg.2 hq.range.2)]
    rw [ENNReal.ofReal_mul (Real.exp_nonneg _), ENNReal.ofReal_sub _ (Real.exp_nonneg _), ENNReal.ofReal_one]
  · filter_upwards [hR] with g hg
    filter_upwards [hg] with k hk
    refine ⟨fun hx => ?_, fun hx => ?_⟩
    · obtain ⟨s', r1, -⟩ := hk.1 hx
      exact ⟨s', r1⟩
    · obtain ⟨Q, s', r1, -⟩ := hk.2 hx
      exact ⟨Q, s', r1⟩

/-- **C88** (violated): if the coin can show either side and something can be detected, surveys
fail with positive probability. -/
theorem C88_violated_coin (h : Spec.Lawful P e env c tr y a s flux rm m vs μL p)
    (hc : Spec.Counted P e env c a rm vs Λ) (hfair : Spec.FairBern P e.world.sel)
    {coin : Selector ℝ G} {q : ℝ} (hq : Spec.FreshCoin e.world coin q) (hq1 : q < 1)
    (hD : 0 < (∫⁻ x, Spec.detection e y a s flux p x ∂(Spec.intensity y a s c rm m vs Λ μL)).toReal)
    (showProgress : Bool) (galB : List ℝ → List ℝ → List ℝ) :
    ∃ E : Set G, MeasurableSet E ∧ 0 < P E ∧ ∀ᵐ g ∂P, ∀ᶠ k in atTop, g ∈ E →
      ∃ s', drawSurvey (Spec.surveyEnv e env c.code showProgress tr galB k g) y a
        (Spec.withDistSel y s coin) = .error .value s' := by
  obtain ⟨E, h1, h2, h3⟩ := C88_fails h hc hfair hq rfl showProgress galB
  refine ⟨E, h1, ?_, ?_⟩
  · rw [h2, ENNReal.ofReal_pos]
    refine mul_pos (Real.exp_pos _) (sub_pos.2 ?_)
    rw [Real.exp_lt_one_iff]
    have : 0 < 1 - q := by linarith
    have := mul_pos this hD
    linarith
  · filter_upwards [h3] with g hg
    filter_upwards [hg] with k hk
    exact hk.1

end Popsynth
