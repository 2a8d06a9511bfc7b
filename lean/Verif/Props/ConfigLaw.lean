import Verif.Model.BuiltinClasses
import Verif.Props.Rebuild
import Verif.Props.Builtins
import Verif.Props.LawEuclid
import Verif.Props.LawLum

/-!
# The law of surveys drawn from a configuration (C87)

From the numbers written in a configuration dictionary to the law of the numbers of detected and
undetected objects: reading (`from_dict`), the objects it makes, and `draw_survey` together.
-/

set_option autoImplicit false
set_option linter.unusedSectionVars false

open MeasureTheory
open scoped NNReal ENNReal

namespace Popsynth
variable {G : Type} [MeasurableSpace G] {P : Measure G} [IsProbabilityMeasure P]

namespace Spec

/-- The section `key` of the configuration names the class `cls` and lists the parameters `ps`. -/
def AsksFor (d : Dict (PVal ℝ)) (key cls : String) (ps : Dict (PVal ℝ)) : Prop :=
  ∃ rest, Dict.get? d key = some (.dict ((cls, .dict ps) :: rest))

/-- The parameter has the value `x`: it is listed with that value, or it is not listed and `x` is
the default. -/
def Says (C : Conv ℝ) (ps : Dict (PVal ℝ)) (n : String) (default : Option ℝ) (x : ℝ) : Prop :=
  (∃ v, Dict.get? ps n = some v ∧ IsNumber C v x) ∨ (Dict.get? ps n = none ∧ default = some x)

/-- The entry `is_rate` of the spatial distribution. -/
def SaysRate (d : Dict (PVal ℝ)) (rate : Bool) : Prop :=
  ∃ s q, Dict.get? d "spatial distribution" = some (.dict s) ∧ Dict.get? s "is_rate" = some q ∧
    (q = .bool rate ∨ (q = .none ∧ rate = false))

/-- The population that the section of the spatial distribution describes: the mean number of
objects per unit of distance, the flux of an object and the largest distance.  `dV` is the
comoving volume element and `cosmoFlux` the flux at a redshift. -/
inductive Space (C : Conv ℝ) (dV : ℝ → ℝ) (cosmoFlux : ℝ → ℝ → ℝ) (d : Dict (PVal ℝ)) :
    (ℝ → ℝ) → (ℝ → ℝ → ℝ) → ℝ → Prop
  | constantSphere (ps : Dict (PVal ℝ)) (lambda rm : ℝ) :
      AsksFor d "spatial distribution" "ConstantSphericalDistribution" ps →
      Says C ps "Lambda" (some 1) lambda → Says C ps "r_max" (some 10) rm →
      Space C dV cosmoFlux d (fun r => lambda * (4 * Real.pi * r ^ 2))
        (fun l r => l / (4 * Real.pi * (r + 1) ^ 2)) rm
  | powerSphere (ps : Dict (PVal ℝ)) (lambda delta rm : ℝ) :
      AsksFor d "spatial distribution" "ZPowerSphericalDistribution" ps →
      Says C ps "Lambda" (some 1) lambda → Says C ps "delta" (some 1) delta →
      Says C ps "r_max" (some 10) rm →
      Space C dV cosmoFlux d (fun r => lambda * (1 + r) ^ delta * (4 * Real.pi * r ^ 2))
        (fun l r => l / (4 * Real.pi * (r + 1) ^ 2)) rm
  | flatland (ps : Dict (PVal ℝ)) (lambda rm : ℝ) :
      AsksFor d "spatial distribution" "FlatlandDistribution" ps →
      Says C ps "Lambda" (some 1) lambda → Says C ps "r_max" (some 10) rm →
      Space C dV cosmoFlux d (fun _ => lambda) (fun l _ => l) rm
  | starFormation (ps : Dict (PVal ℝ)) (r0 a rise decay peak rm : ℝ) (rate : Bool) :
      AsksFor d "spatial distribution" "SFRDistribution" ps →
      Says C ps "r0" none r0 → Says C ps "a" none a → Says C ps "rise" none rise →
      Says C ps "decay" none decay → Says C ps "peak" none peak →
      Says C ps "r_max" (some 10) rm → SaysRate d rate →
      Space C dV cosmoFlux d
        (fun z => r0 * (a + rise * z) / (1 + (z / peak) ^ decay) * dV z / if rate then 1 + z else 1)
        cosmoFlux rm
  | powerCosmo (ps : Dict (PVal ℝ)) (lambda delta rm : ℝ) (rate : Bool) :
      AsksFor d "spatial distribution" "ZPowerCosmoDistribution" ps →
      Says C ps "Lambda" (some 1) lambda → Says C ps "delta" none delta →
      Says C ps "r_max" (some 10) rm → SaysRate d rate →
      Space C dV cosmoFlux d (fun z => lambda * (1 + z) ^ delta * dV z / if rate then 1 + z else 1)
        cosmoFlux rm
  | uniformCosmo (ps : Dict (PVal ℝ)) (r0 zmin zmax rm : ℝ) (rate : Bool) :
      AsksFor d "spatial distribution" "UniformCosmoDistribution" ps →
      Says C ps "r0" none r0 → Says C ps "zmin" none zmin → Says C ps "zmax" none zmax →
      Says C ps "r_max" (some 10) rm → SaysRate d rate →
      Space C dV cosmoFlux d (fun z => r0 / (zmax - zmin) * dV z / if rate then 1 + z else 1)
        cosmoFlux rm

/-- The luminosity function that the section of the luminosity distribution describes. -/
inductive Luminosities (C : Conv ℝ) (d : Dict (PVal ℝ)) : Measure ℝ → Prop
  | pareto (ps : Dict (PVal ℝ)) (lmin alpha : ℝ) :
      AsksFor d "luminosity distribution" "ParetoDistribution" ps →
      Says C ps "Lmin" (some 1) lmin → Says C ps "alpha" (some 1) alpha → 0 < lmin → 0 < alpha →
      Luminosities C d (lumLaw (paretoDensity lmin alpha) (Set.Ici lmin))
  | schechter (ps : Dict (PVal ℝ)) (lmin alpha : ℝ) :
      AsksFor d "luminosity distribution" "SchechterDistribution" ps →
      Says C ps "Lmin" (some 1) lmin → Says C ps "alpha" (some 1) alpha → 0 < lmin → -1 < alpha →
      Luminosities C d (lumLaw (schechterDensity lmin alpha) (Set.Ioi 0))
  | logNormal (ps : Dict (PVal ℝ)) (mu tau : ℝ) :
      AsksFor d "luminosity distribution" "LogNormalDistribution" ps →
      Says C ps "mu" none mu → Says C ps "tau" none tau → 0 < tau →
      Luminosities C d (lumLaw (logNormalDensity mu tau) (Set.Ioi 0))
  | log10Normal (ps : Dict (PVal ℝ)) (mu tau : ℝ) :
      AsksFor d "luminosity distribution" "Log10NormalDistribution" ps →
      Says C ps "mu" none mu → Says C ps "tau" none tau → 0 < tau →
      Luminosities C d (lumLaw (log10NormalDensity mu tau) (Set.Ioi 0))
  | logUniform (ps : Dict (PVal ℝ)) (lmin lmax : ℝ) :
      AsksFor d "luminosity distribution" "LogUniLuminiosityDistribution" ps →
      Says C ps "Lmin" none lmin → Says C ps "Lmax" none lmax → 0 < lmin → lmin < lmax →
      Luminosities C d (lumLaw (logUniDensity lmin lmax) (Set.Icc lmin lmax))
  | delta (ps : Dict (PVal ℝ)) (lp : ℝ) :
      AsksFor d "luminosity distribution" "DeltaDistribution" ps →
      Says C ps "Lp" (some 0) lp → Luminosities C d (Measure.dirac lp)
  | brokenPowerLaw (ps : Dict (PVal ℝ)) (lmin lbreak lmax alpha beta : ℝ) (p : ℝ → ℝ) :
      AsksFor d "luminosity distribution" "BPLDistribution" ps →
      Says C ps "Lmin" none lmin → Says C ps "Lbreak" none lbreak → Says C ps "Lmax" none lmax →
      Says C ps "alpha" none alpha → Says C ps "beta" none beta →
      BplParams lmin lbreak lmax alpha beta → IsDensity p →
      IsBrokenPowerLaw p lmin lbreak lmax alpha beta → ContinuousAt p lbreak →
      Luminosities C d (lumLaw p Set.univ)

/-- The probability with which the section of the flux selection detects an object of a given
flux; `logistic` is the function of the soft selections. -/
inductive Detection (C : Conv ℝ) (logistic : ℝ → ℝ → ℝ → ℝ) (d : Dict (PVal ℝ)) :
    (ℝ → ℝ≥0∞) → Prop
  | missing : Dict.get? d "flux selection" = none → Detection C logistic d 1
  | nothing : Dict.get? d "flux selection" = some .none → Detection C logistic d 1
  | unity (ps : Dict (PVal ℝ)) : AsksFor d "flux selection" "UnitySelection" ps →
      Detection C logistic d 1
  | atLeast (cls : String) (ps : Dict (PVal ℝ)) (b : ℝ) :
      cls = "HardFluxSelection" ∨ cls = "LowerBound" → AsksFor d "flux selection" cls ps →
      Says C ps "boundary" none b → Detection C logistic d ((Set.Ici b).indicator 1)
  | atMost (ps : Dict (PVal ℝ)) (b : ℝ) : AsksFor d "flux selection" "UpperBound" ps →
      Says C ps "boundary" none b → Detection C logistic d ((Set.Iic b).indicator 1)
  | between (ps : Dict (PVal ℝ)) (lo hi : ℝ) : AsksFor d "flux selection" "BoxSelection" ps →
      Says C ps "vmin" none lo → Says C ps "vmax" none hi →
      Detection C logistic d ((Set.Icc lo hi).indicator 1)
  | soft (cls : String) (ps : Dict (PVal ℝ)) (b k : ℝ) :
      cls = "SoftFluxSelection" ∨ cls = "SoftSelection" → AsksFor d "flux selection" cls ps →
      Says C ps "boundary" none b → Says C ps "strength" none k →
      Detection C logistic d fun x => ENNReal.ofReal (logistic k b x)
  | coin (ps : Dict (PVal ℝ)) (q : ℝ) : AsksFor d "flux selection" "BernoulliSelection" ps →
      Says C ps "probability" none q → Detection C logistic d fun _ => ENNReal.ofReal q

/-- The flux of an object at a redshift. -/
noncomputable def _root_.Popsynth.Machine.cosmoFlux (M : Machine G) (l z : ℝ) : ℝ :=
  (cosmologicalFlux M.cosmo l z).getD 0

/-- What is assumed of NumPy and SciPy. -/
structure FairMachine (P : Measure G) (M : Machine G) (base : SurveyEnv ℝ G) : Prop where
  uniform : FairUniform P M.dist.uniform
  lt : ∀ a b, M.dist.lt a b = true ↔ a < b
  thetaOf : ∀ u, M.dist.thetaOf u = Real.arccos (1 - 2 * u)
  twoPi : M.dist.twoPi = 2 * Real.pi
  ten : M.dist.ten = 10
  numbers : FairNumbers P M.lum (ProbabilityTheory.gaussianReal 0 1)
  gamma : IsGammaincinv M.lum.gammaincinv
  trial : FairBern P base.world.sel
  valid : ∀ q, 0 ≤ q → q ≤ 1 → base.world.sel.validProb q = true
  logistic : ∀ k b, Measurable (base.world.sel.softLog k b) ∧
    ∀ x, 0 ≤ base.world.sel.softLog k b x ∧ base.world.sel.softLog k b x ≤ 1

/-- What is assumed of NumPy if the fluxes are measured with normal errors of their decimal or
natural logarithm: `sigma` is accepted, the errors have their law, and logarithms and powers are
exact.  Nothing is said of logarithms of fluxes that are not positive, except that they depend
measurably on the flux. -/
structure FairNoise (P : Measure G) (base : SurveyEnv ℝ G) (sigma : ℝ) (decimal : Bool) : Prop where
  valid : base.validScale sigma = true
  normal : Samples P (ProbabilityTheory.gaussianReal 0 ⟨sigma ^ 2, sq_nonneg sigma⟩)
    fun _ g x g' => base.normal sigma g = (x, g')
  add : ∀ a b, base.add a b = a + b
  finite : ∀ f x, 0 < f → base.isFinite ((if decimal then base.log10 f else base.ln f) + x) = true
  measurable : Measurable fun f => if decimal then base.log10 f else base.ln f
  log : ∀ f, 0 < f → (if decimal then base.log10 f else base.ln f) =
    if decimal then Real.logb 10 f else Real.log f
  power : ∀ x, (if decimal then base.pow10 x else base.exp x) = if decimal then 10 ^ x else Real.exp x

end Spec

open Spec

/-! ### The cosmology -/

/-- A calculation that may fail: where it fails and what it returns otherwise. -/
structure MeasOpt {α : Type} [MeasurableSpace α] (f : α → Option ℝ) : Prop where
  fails : MeasurableSet {x | f x = none}
  value : Measurable fun x => (f x).getD 0

section measOpt
variable {α : Type} [MeasurableSpace α] {f g : α → ℝ}

theorem MeasOpt.ret (hf : Measurable f) : MeasOpt fun x => some (f x) :=
  ⟨by simp, hf⟩

theorem MeasOpt.const (o : Option ℝ) : MeasOpt fun _ : α => o :=
  ⟨by simp, measurable_const⟩

theorem MeasOpt.div (hf : Measurable f) (hg : Measurable g) : MeasOpt fun x => npDiv (f x) (g x) := by
  have h0 : MeasurableSet {x | g x = 0} := hg (measurableSet_singleton 0)
  refine ⟨?_, ?_⟩
  · have : {x | npDiv (f x) (g x) = none} = {x | g x = 0} := by
      ext x; simp [npDiv]
    rw [this]; exact h0
  · have : (fun x => (npDiv (f x) (g x)).getD 0) = fun x => f x / g x := by
      funext x
      unfold npDiv
      split
      · rename_i h; simp [h]
      · rfl
    rw [this]; exact hf.div hg

theorem MeasOpt.sqrt (hf : Measurable f) : MeasOpt fun x => npSqrt (f x) := by
  refine ⟨?_, ?_⟩
  · have : {x | npSqrt (f x) = none} = {x | f x < 0} := by
      ext x; simp [npSqrt]
    rw [this]; exact measurableSet_lt hf measurable_const
  · have : (fun x => (npSqrt (f x)).getD 0) = fun x => √(f x) := by
      funext x
      unfold npSqrt
      split
      · rfl
      · rename_i h; simp [Real.sqrt_eq_zero_of_nonpos (le_of_not_ge h)]
    rw [this]; exact hf.sqrt

theorem MeasOpt.bind {o : α → Option ℝ} {k : α → ℝ → Option ℝ} (ho : MeasOpt o)
    (hk : MeasOpt fun q : α × ℝ => k q.1 q.2) : MeasOpt fun x => o x >>= k x := by
  have hm : Measurable fun x => (x, (o x).getD 0) := measurable_id.prodMk ho.value
  refine ⟨?_, ?_⟩
  · have : {x | (o x >>= k x) = none} =
        {x | o x = none} ∪ {x | k x ((o x).getD 0) = none} ∩ {x | o x = none}ᶜ := by
      ext x
      cases h : o x <;> simp [h]
    rw [this]
    exact ho.fails.union ((hm hk.fails).inter ho.fails.compl)
  · classical
    have : (fun x => (o x >>= k x).getD 0) = fun x => if o x = none then 0
        else (k x ((o x).getD 0)).getD 0 := by
      funext x
      cases h : o x <;> simp
    rw [this]
    exact Measurable.ite ho.fails measurable_const (hk.value.comp hm)

theorem MeasOpt.comp {β : Type} [MeasurableSpace β] {o : β → Option ℝ} (ho : MeasOpt o) {e : α → β}
    (he : Measurable e) : MeasOpt fun x => o (e x) := ⟨he ho.fails, ho.value.comp he⟩

end measOpt

theorem measOpt_phi : MeasOpt cosmoPhi := by
  unfold cosmoPhi
  exact .div (by fun_prop) (by fun_prop)

theorem measOpt_xx (c : Cosmo) : MeasOpt c.xx := by
  unfold Cosmo.xx
  exact (MeasOpt.const _).bind (.div (by fun_prop) (by fun_prop))

theorem measOpt_distance (c : Cosmo) : MeasOpt c.luminosityDistance := by
  unfold Cosmo.luminosityDistance
  refine (measOpt_xx c).bind ?_
  refine (MeasOpt.const _).bind ?_
  refine (MeasOpt.const _).bind ?_
  refine (MeasOpt.div (by fun_prop) (by fun_prop)).bind ?_
  refine (MeasOpt.const _).bind ?_
  refine (measOpt_phi.comp (by fun_prop)).bind ?_
  refine (MeasOpt.sqrt (by fun_prop)).bind ?_
  refine (MeasOpt.div (by fun_prop) (by fun_prop)).bind ?_
  refine (measOpt_phi.comp (by fun_prop)).bind ?_
  exact .ret (by fun_prop)

theorem volume_measurable (M : Machine G) : Measurable M.volume := by
  have : MeasOpt M.cosmo.differentialComovingVolume := by
    unfold Cosmo.differentialComovingVolume Cosmo.comovingTransverseDistance Cosmo.a
    refine MeasOpt.bind ((measOpt_distance _).bind (.div (by fun_prop) (by fun_prop))) ?_
    refine (MeasOpt.const _).bind ?_
    refine (MeasOpt.sqrt (by fun_prop)).bind ?_
    refine (MeasOpt.div (by fun_prop) (by fun_prop)).bind ?_
    exact .ret (by fun_prop)
  exact this.value

theorem flux_measurable (M : Machine G) : Measurable fun q : ℝ × ℝ => M.cosmoFlux q.1 q.2 := by
  have : MeasOpt fun q : ℝ × ℝ => cosmologicalFlux M.cosmo q.1 q.2 := by
    unfold cosmologicalFlux
    exact ((measOpt_distance _).comp measurable_snd).bind (.div (by fun_prop) (by fun_prop))
  exact this.value

/-! ### Parameters -/

section params
variable {C : Conv ℝ} {decl : String → Option (ParamDecl ℝ)} {ps : Dict (PVal ℝ)} {o : Obj ℝ}

theorem number_unique {v : PVal ℝ} {x x' : ℝ} (h : IsNumber C v x) (h' : IsNumber C v x') :
    x = x' := by
  have h1 := (float_iff C v x).2 h
  rw [(float_iff C v x').2 h'] at h1
  exact (Except.ok.inj h1).symm

/-- What has been stored for a parameter. -/
theorem read_stored (h : ParamsRead C decl ps o) {n : String} (hn : decl n ≠ none)
    {dflt : Option ℝ} {x : ℝ} (hs : Says C ps n dflt x) :
    (Dict.get? o.storage n).join.or dflt = some x ∧
      (dflt = none → Dict.get? o.storage n = some (some x)) := by
  obtain ⟨dc, hdc⟩ := Option.ne_none_iff_exists'.1 hn
  rcases hs with ⟨v, h1, h2⟩ | ⟨h1, h2⟩
  · obtain ⟨x', a1, -, a3⟩ := h.given n v dc h1 hdc
    rw [a3, number_unique h2 a1]
    exact ⟨rfl, fun _ => rfl⟩
  · rw [h.unset n (Or.inl h1), h2]
    exact ⟨rfl, fun e => by cases e⟩

theorem get_assigned (cls : String) (l : Dict ℝ) (n : String) :
    Dict.get? (assignedNew cls l).storage n = (Dict.get? l n).map some := by
  show Dict.get? (l.map fun p => (p.1, some p.2)) n = _
  induction l with
  | nil => rfl
  | cons p l ih =>
    simp only [List.map_cons, Dict.get?]
    split
    · rfl
    · exact ih

/-- A parameter of the object made from what was read. -/
theorem assigned_has (h : ParamsRead C decl ps o) {n : String} (hn : decl n ≠ none)
    {dflt : Option ℝ} {x : ℝ} (hs : Says C ps n dflt x) (cls : String) :
    (Dict.get? (assignedNew cls (truthOf o)).storage n).join.or dflt = some x ∧
      (dflt = none → Dict.get? (assignedNew cls (truthOf o)).storage n = some (some x)) := by
  obtain ⟨h1, h2⟩ := read_stored h hn hs
  rw [get_assigned, truthOf_get? o h.once]
  refine ⟨?_, fun e => by rw [h2 e]; rfl⟩
  rw [← h1]
  cases (Dict.get? o.storage n).join <;> rfl

theorem assigned_inForce (h : ParamsRead C decl ps o) {n : String} (hn : decl n ≠ none)
    {dc : ParamDecl ℝ} {x : ℝ} (hs : Says C ps n dc.default x) (cls : String) :
    inForce dc n (assignedNew cls (truthOf o)) = some x := by
  rw [inForce_eq]
  exact (assigned_has h hn hs cls).1

theorem assigned_get (h : ParamsRead C decl ps o) {n : String} (hn : decl n ≠ none)
    {dc : ParamDecl ℝ} {x : ℝ} (hs : Says C ps n dc.default x) (cls : String) :
    outcome (paramGet dc n (assignedNew cls (truthOf o))) = .ok x := by
  rw [outcome_get, assigned_inForce h hn hs cls]; rfl

theorem assigned_rd (h : ParamsRead C decl ps o) {n : String} (hn : decl n ≠ none)
    {decl' : String → ParamDecl ℝ} {x : ℝ} (hs : Says C ps n (decl' n).default x) (cls : String) :
    rd decl' n (assignedNew cls (truthOf o)) = some x :=
  (assigned_has h hn hs cls).1

end params

/-- A documented parameter is declared. -/
theorem doc_declared {half : ℝ} {cls : String} {K : DistCls ℝ}
    (h : Dict.get? (builtins half).dists cls = some K) {doc : Doc ℝ} (hd : ∀ doc', (cls, doc') ∈ distDoc → doc' = doc)
    {n : String} (hn : n ∈ Dict.keys doc) : Dict.get? K.params n ≠ none := by
  obtain ⟨doc', h1, h2⟩ := (C64_parameters half cls).1 K h
  obtain rfl := hd doc' h1
  rw [Ne, Dict.get?_eq_none_iff, not_not]
  exact (h2.1 n).2 hn

theorem doc_declared_sel {half : ℝ} {cls : String} {K : SelCls ℝ}
    (h : Dict.get? (builtins half).sels cls = some K) {doc : Doc ℝ} (hd : ∀ doc', (cls, doc') ∈ selDoc half → doc' = doc)
    {n : String} (hn : n ∈ Dict.keys doc) : Dict.get? K.params n ≠ none := by
  obtain ⟨doc', h1, h2⟩ := (C64_parameters half cls).2.1 K h
  obtain rfl := hd doc' h1
  rw [Ne, Dict.get?_eq_none_iff, not_not]
  exact (h2.1 n).2 hn

theorem assigned_norm {cls : String} {l : Dict ℝ} {n : String} (h : (assignedNew cls l).norm = some n) :
    Dict.get? normParam cls = some n ∧ (Dict.get? (assignedNew cls l).storage n).isSome := by
  obtain ⟨m, h1, h2⟩ := Option.bind_eq_some_iff.1 h
  split at h2
  · next hm =>
    cases h2
    refine ⟨h1, ?_⟩
    rw [get_assigned, Option.isSome_map, Option.isSome_iff_ne_none, Ne, Dict.get?_eq_none_iff, not_not]
    exact hm
  · cases h2

/-! ### The spatial distribution -/

/-- The same machine with a bound on the number of turns of a loop. -/
def Machine.bounded (M : Machine G) (k : ℕ) : Machine G := { M with dist := { M.dist with budget := k } }

/-- What the object made from the section of the spatial distribution is. -/
structure SpaceFacts (M : Machine G) (cd : CDist ℝ) (c : SpClass ℝ) (vs : List ℝ) (dens : ℝ → ℝ)
    (flux : ℝ → ℝ → ℝ) (rm : ℝ) : Prop where
  code : ∀ k, (M.bounded k).spatial cd.cls cd.isRate = SpatialCode.base { M.dist with budget := k }
    c.code M.showProgress (M.transform cd.cls) M.galB
  density : c.dens vs = dens
  measurable : Measurable dens
  fluxes : Measurable fun q : ℝ × ℝ => flux q.1 q.2
  transforms : ∀ ls ds, M.transform cd.cls ls ds = .ok (List.zipWith flux ls ds)
  declared : c.decl "r_max" = { default := some 10, vmin := some 0 }
  unique : ∀ a b, (c.decl a).isNorm = true → (c.decl b).isNorm = true → a = b
  norm : ∀ n, (assignedNew cd.cls (truthOf cd.obj)).norm = some n → (c.decl n).isNorm = true
  radius : outcome (paramGet (c.decl "r_max") "r_max" (assignedNew cd.cls (truthOf cd.obj))) = .ok rm
  values : outcome (readAll c.decl c.reads (assignedNew cd.cls (truthOf cd.obj))) = .ok vs

theorem sphericalFluxes_formula (l r : ℝ) :
    sphericalFluxes l r = l / (4 * Real.pi * (r + 1) ^ 2) := by
  unfold sphericalFluxes sphericalFlux npDiv
  dsimp only
  rw [show 4 * Real.pi * (r + 1) ^ 2 = 4 * Real.pi * (r + 1) * (r + 1) by ring]
  split
  · next h => rw [h, div_zero]; rfl
  · rfl

variable {M : Machine G} {base : SurveyEnv ℝ G} {half : ℝ} {C : Conv ℝ} {d e : Dict (PVal ℝ)} {y : CSynth ℝ}

theorem space_section {cls : String} {ps : Dict (PVal ℝ)}
    (hy : Describes (builtins half) C d y) (hn : AsksFor d "spatial distribution" cls ps) :
    ∃ K, y.spatial.cls = cls ∧ Dict.get? (builtins half).dists cls = some K ∧
      ParamsRead C (Dict.get? K.params) ps y.spatial.obj ∧
      (K.cosmo = true → ∃ q, Dict.get? d "spatial distribution" = some (.dict q) ∧
        Dict.get? q "is_rate" = some y.spatial.isRate) := by
  obtain ⟨rest, hn⟩ := hn
  obtain ⟨v, K, h1, ⟨ps', rest', h2, h3, h4, h5⟩, h6, h7, h8⟩ := hy.spatial
  rw [hn] at h1
  cases h1
  cases h2
  refine ⟨K, rfl, h3, h5, fun hk => ?_⟩
  obtain ⟨q, h9, h10⟩ := h7 hk
  exact ⟨q, by rw [hn, h9], h10⟩

theorem space_rate {rate : Bool} (h : SaysRate d rate) {q : Dict (PVal ℝ)} {v : PVal ℝ}
    (h1 : Dict.get? d "spatial distribution" = some (.dict q)) (h2 : Dict.get? q "is_rate" = some v) :
    pyTruth v = rate := by
  obtain ⟨s, w, a1, a2, a3⟩ := h
  rw [h1] at a1
  cases a1
  rw [h2] at a2
  cases a2
  rcases a3 with rfl | ⟨rfl, rfl⟩ <;> rfl

theorem declTable_unique {t : List (String × ParamDecl ℝ)} {m : String}
    (h : ∀ p ∈ t, p.2.isNorm = true → p.1 = m) :
    ∀ a b, (declTable t a).isNorm = true → (declTable t b).isNorm = true → a = b := by
  have key : ∀ a, (declTable t a).isNorm = true → a = m := by
    intro a ha
    unfold declTable at ha
    split at ha
    · cases ha
    · cases e : Dict.get? t a with
      | none => rw [e] at ha; cases ha
      | some dc => rw [e] at ha; exact h _ (Dict.mem_of_get? e) ha
  exact fun a b ha hb => (key a ha).trans (key b hb).symm

theorem space_facts (hM : FairMachine P M base) (hy : Describes (builtins half) C d y)
    {dens : ℝ → ℝ} {flux : ℝ → ℝ → ℝ} {rm : ℝ} (h : Space C M.volume M.cosmoFlux d dens flux rm) :
    ∃ c vs, SpaceFacts M y.spatial c vs dens flux rm := by
  have hV := volume_measurable M
  cases h with
  | constantSphere ps lambda rm hn h1 h2 =>
    obtain ⟨K, e1, e2, e3, -⟩ := space_section hy hn
    have hk : ∀ n ∈ ["r_max", "Lambda"], Dict.get? K.params n ≠ none := fun n hn =>
      doc_declared e2 (fun doc' h => by simpa [distDoc] using h) (by simpa [Dict.keys] using hn)
    refine ⟨constantSpherical, [lambda], fun k => by rw [e1]; rfl, ?_, by fun_prop, by fun_prop, ?_, rfl,
      declTable_unique (m := "Lambda") (by simp), fun n hn => ?_, ?_, ?_⟩
    · funext r
      simp only [constantSpherical, sphereVolume]; ring_nf
    · intro ls ds
      rw [e1]
      refine congrArg (fun f => Except.ok (List.zipWith f ls ds)) ?_
      funext l r
      exact sphericalFluxes_formula l r
    · rw [e1] at hn
      cases (assigned_norm hn).1
      rfl
    · exact assigned_get e3 (hk _ (by simp)) h2 _
    · rw [readAll_outcome]
      have r0 := assigned_rd (decl' := constantSpherical.decl) e3 (hk "Lambda" (by simp)) h1 y.spatial.cls
      show rdAll _ ["Lambda"] _ = _
      simp only [rdAll, r0]
  | powerSphere ps lambda delta rm hn h1 h2 h3 =>
    obtain ⟨K, e1, e2, e3, -⟩ := space_section hy hn
    have hk : ∀ n ∈ ["r_max", "Lambda", "delta"], Dict.get? K.params n ≠ none := fun n hn =>
      doc_declared e2 (fun doc' h => by simpa [distDoc] using h) (by simpa [Dict.keys] using hn)
    refine ⟨zpowerSpherical, [lambda, delta], fun k => by rw [e1]; rfl, ?_, by fun_prop, by fun_prop, ?_, rfl,
      declTable_unique (m := "Lambda") (by simp), fun n hn => ?_, ?_, ?_⟩
    · funext r
      simp only [zpowerSpherical, sphereVolume]; ring_nf
    · intro ls ds
      rw [e1]
      refine congrArg (fun f => Except.ok (List.zipWith f ls ds)) ?_
      funext l r
      exact sphericalFluxes_formula l r
    · rw [e1] at hn
      cases (assigned_norm hn).1
      rfl
    · exact assigned_get e3 (hk _ (by simp)) h3 _
    · rw [readAll_outcome]
      have r0 := assigned_rd (decl' := zpowerSpherical.decl) e3 (hk "Lambda" (by simp)) h1 y.spatial.cls
      have r1 := assigned_rd (decl' := zpowerSpherical.decl) e3 (hk "delta" (by simp)) h2 y.spatial.cls
      show rdAll _ ["Lambda", "delta"] _ = _
      simp only [rdAll, r0, r1]
  | flatland ps lambda rm hn h1 h2 =>
    obtain ⟨K, e1, e2, e3, -⟩ := space_section hy hn
    have hk : ∀ n ∈ ["r_max", "Lambda"], Dict.get? K.params n ≠ none := fun n hn =>
      doc_declared e2 (fun doc' h => by simpa [distDoc] using h) (by simpa [Dict.keys] using hn)
    refine ⟨flatland, [lambda], fun k => by rw [e1]; rfl, ?_, by fun_prop, by fun_prop, ?_, rfl,
      declTable_unique (m := "x") (by simp), fun n hn => ?_, ?_, ?_⟩
    · funext r
      simp only [flatland]; ring_nf
    · intro ls ds
      rw [e1]
      refine congrArg (fun f => Except.ok (List.zipWith f ls ds)) ?_
      funext l r
      rfl
    · rw [e1] at hn
      cases (assigned_norm hn).1
    · exact assigned_get e3 (hk _ (by simp)) h2 _
    · rw [readAll_outcome]
      have r0 := assigned_rd (decl' := flatland.decl) e3 (hk "Lambda" (by simp)) h1 y.spatial.cls
      show rdAll _ ["Lambda"] _ = _
      simp only [rdAll, r0]
  | starFormation ps r0 a rise decay peak rm rate hn h1 h2 h3 h4 h5 h6 h7 =>
    obtain ⟨K, e1, e2, e3, e4⟩ := space_section hy hn
    have hk : ∀ n ∈ ["r_max", "r0", "a", "rise", "decay", "peak"], Dict.get? K.params n ≠ none := fun n hn =>
      doc_declared e2 (fun doc' h => by simpa [distDoc] using h) (by simpa [Dict.keys] using hn)
    have hc : K.cosmo = true := (((C64_distributions half).2.2 _ K e2).2.2.2).2 (by simp [cosmoNames])
    obtain ⟨q, q1, q2⟩ := e4 hc
    have hr := space_rate h7 q1 q2
    refine ⟨sfr M.volume rate, [r0, a, rise, decay, peak], fun k => by rw [e1]; rw [Machine.spatial, hr]; rfl, ?_, ?_, flux_measurable M, ?_, rfl,
      declTable_unique (m := "r0") (by simp), fun n hn => ?_, ?_, ?_⟩
    · funext r
      simp only [sfr, timeAdjustment]
    · cases rate <;> simp <;> fun_prop
    · intro ls ds
      rw [e1]
      refine congrArg (fun f => Except.ok (List.zipWith f ls ds)) ?_
      funext l r
      rfl
    · rw [e1] at hn
      cases (assigned_norm hn).1
      rfl
    · exact assigned_get e3 (hk _ (by simp)) h6 _
    · rw [readAll_outcome]
      have r0 := assigned_rd (decl' := (sfr M.volume rate).decl) e3 (hk "r0" (by simp)) h1 y.spatial.cls
      have r1 := assigned_rd (decl' := (sfr M.volume rate).decl) e3 (hk "a" (by simp)) h2 y.spatial.cls
      have r2 := assigned_rd (decl' := (sfr M.volume rate).decl) e3 (hk "rise" (by simp)) h3 y.spatial.cls
      have r3 := assigned_rd (decl' := (sfr M.volume rate).decl) e3 (hk "decay" (by simp)) h4 y.spatial.cls
      have r4 := assigned_rd (decl' := (sfr M.volume rate).decl) e3 (hk "peak" (by simp)) h5 y.spatial.cls
      show rdAll _ ["r0", "a", "rise", "decay", "peak"] _ = _
      simp only [rdAll, r0, r1, r2, r3, r4]
  | powerCosmo ps lambda delta rm rate hn h1 h2 h3 h4 =>
    obtain ⟨K, e1, e2, e3, e4⟩ := space_section hy hn
    have hk : ∀ n ∈ ["r_max", "Lambda", "delta"], Dict.get? K.params n ≠ none := fun n hn =>
      doc_declared e2 (fun doc' h => by simpa [distDoc] using h) (by simpa [Dict.keys] using hn)
    have hc : K.cosmo = true := (((C64_distributions half).2.2 _ K e2).2.2.2).2 (by simp [cosmoNames])
    obtain ⟨q, q1, q2⟩ := e4 hc
    have hr := space_rate h4 q1 q2
    refine ⟨zpowerCosmo M.volume rate, [lambda, delta], fun k => by rw [e1]; rw [Machine.spatial, hr]; rfl, ?_, ?_, flux_measurable M, ?_, rfl,
      declTable_unique (m := "Lambda") (by simp), fun n hn => ?_, ?_, ?_⟩
    · funext r
      simp only [zpowerCosmo, timeAdjustment]; ring_nf
    · cases rate <;> simp <;> fun_prop
    · intro ls ds
      rw [e1]
      refine congrArg (fun f => Except.ok (List.zipWith f ls ds)) ?_
      funext l r
      rfl
    · rw [e1] at hn
      cases (assigned_norm hn).1
      rfl
    · exact assigned_get e3 (hk _ (by simp)) h3 _
    · rw [readAll_outcome]
      have r0 := assigned_rd (decl' := (zpowerCosmo M.volume rate).decl) e3 (hk "Lambda" (by simp)) h1 y.spatial.cls
      have r1 := assigned_rd (decl' := (zpowerCosmo M.volume rate).decl) e3 (hk "delta" (by simp)) h2 y.spatial.cls
      show rdAll _ ["Lambda", "delta"] _ = _
      simp only [rdAll, r0, r1]
  | uniformCosmo ps r0 zmin zmax rm rate hn h1 h2 h3 h4 h5 =>
    obtain ⟨K, e1, e2, e3, e4⟩ := space_section hy hn
    have hk : ∀ n ∈ ["r_max", "r0", "zmin", "zmax"], Dict.get? K.params n ≠ none := fun n hn =>
      doc_declared e2 (fun doc' h => by simpa [distDoc] using h) (by simpa [Dict.keys] using hn)
    have hc : K.cosmo = true := (((C64_distributions half).2.2 _ K e2).2.2.2).2 (by simp [cosmoNames])
    obtain ⟨q, q1, q2⟩ := e4 hc
    have hr := space_rate h5 q1 q2
    refine ⟨uniformCosmo M.volume rate, [r0, zmax, zmin], fun k => by rw [e1]; rw [Machine.spatial, hr]; rfl, ?_, ?_, flux_measurable M, ?_, rfl,
      declTable_unique (m := "r0") (by simp), fun n hn => ?_, ?_, ?_⟩
    · funext r
      simp only [uniformCosmo, timeAdjustment]
    · cases rate <;> simp <;> fun_prop
    · intro ls ds
      rw [e1]
      refine congrArg (fun f => Except.ok (List.zipWith f ls ds)) ?_
      funext l r
      rfl
    · rw [e1] at hn
      cases (assigned_norm hn).1
      rfl
    · exact assigned_get e3 (hk _ (by simp)) h4 _
    · rw [readAll_outcome]
      have r0 := assigned_rd (decl' := (uniformCosmo M.volume rate).decl) e3 (hk "r0" (by simp)) h1 y.spatial.cls
      have r1 := assigned_rd (decl' := (uniformCosmo M.volume rate).decl) e3 (hk "zmax" (by simp)) h3 y.spatial.cls
      have r2 := assigned_rd (decl' := (uniformCosmo M.volume rate).decl) e3 (hk "zmin" (by simp)) h2 y.spatial.cls
      show rdAll _ ["r0", "zmax", "zmin"] _ = _
      simp only [rdAll, r0, r1, r2]

/-! ### The luminosity distribution -/

theorem lum_section {cls : String} {ps : Dict (PVal ℝ)}
    (hy : Describes (builtins half) C d y) (hn : AsksFor d "luminosity distribution" cls ps) :
    ∃ c K, y.lum = some c ∧ c.cls = cls ∧ Dict.get? (builtins half).dists cls = some K ∧
      ParamsRead C (Dict.get? K.params) ps c.obj := by
  obtain ⟨rest, hn⟩ := hn
  rcases hy.lum with ⟨h1, -⟩ | ⟨v, c, K, h1, h2, ⟨ps', rest', h3, h4, h5, h6⟩, -⟩
  · rw [hn] at h1; cases h1
  · rw [hn] at h1
    cases h1
    cases h3
    exact ⟨c, K, h2, rfl, h4, h6⟩

/-- There is only one continuous density of this kind. -/
theorem broken_unique {x0 x1 x2 a1 a2 : ℝ} (h : BplParams x0 x1 x2 a1 a2) {p p' : ℝ → ℝ}
    (hp : IsDensity p) (hp' : IsDensity p') (hb : IsBrokenPowerLaw p x0 x1 x2 a1 a2)
    (hb' : IsBrokenPowerLaw p' x0 x1 x2 a1 a2) (hc : ContinuousAt p x1) (hc' : ContinuousAt p' x1) :
    p = p' := by
  have key : ∀ p : ℝ → ℝ, IsBrokenPowerLaw p x0 x1 x2 a1 a2 → ContinuousAt p x1 → ∀ x, p x = p x1 *
      (if x ≤ x0 ∨ x2 ≤ x then 0 else if x < x1 then (x / x1) ^ a1 else (x / x1) ^ a2) := by
    intro p hb hc x
    have hx1 : 0 < x1 := h.pos.trans h.lower
    obtain ⟨k1, -, b1⟩ := hb.below
    obtain ⟨k2, -, b2⟩ := hb.above
    have l1 : p x1 = k1 * x1 ^ a1 := by
      have t1 : Filter.Tendsto p (nhdsWithin x1 (Set.Iio x1)) (nhds (p x1)) :=
        hc.tendsto.mono_left nhdsWithin_le_nhds
      have t2 : Filter.Tendsto (fun x => k1 * x ^ a1) (nhdsWithin x1 (Set.Iio x1))
          (nhds (k1 * x1 ^ a1)) :=
        ((Real.continuousAt_rpow_const x1 a1 (Or.inl hx1.ne')).tendsto.const_mul k1).mono_left
          nhdsWithin_le_nhds
      refine tendsto_nhds_unique (t1.congr' ?_) t2
      filter_upwards [Ioo_mem_nhdsLT h.lower] with x hx using b1 x hx
    have l2 : p x1 = k2 * x1 ^ a2 := by
      have t1 : Filter.Tendsto p (nhdsWithin x1 (Set.Ioi x1)) (nhds (p x1)) :=
        hc.tendsto.mono_left nhdsWithin_le_nhds
      have t2 : Filter.Tendsto (fun x => k2 * x ^ a2) (nhdsWithin x1 (Set.Ioi x1))
          (nhds (k2 * x1 ^ a2)) :=
        ((Real.continuousAt_rpow_const x1 a2 (Or.inl hx1.ne')).tendsto.const_mul k2).mono_left
          nhdsWithin_le_nhds
      refine tendsto_nhds_unique (t1.congr' ?_) t2
      filter_upwards [Ioo_mem_nhdsGT h.upper] with x hx using b2 x hx
    split_ifs with i1 i2
    · rw [hb.outside x i1, mul_zero]
    · rw [not_or, not_le, not_le] at i1
      have hx : 0 ≤ x := (h.pos.trans i1.1).le
      rw [b1 x ⟨i1.1, i2⟩, l1, Real.div_rpow hx hx1.le]
      field_simp
    · rw [not_or, not_le, not_le] at i1
      have hx : 0 ≤ x := (h.pos.trans i1.1).le
      rcases (not_lt.1 i2).eq_or_lt with rfl | i3
      · rw [div_self hx1.ne', Real.one_rpow, mul_one]
      · rw [b2 x ⟨i3, i1.2⟩, l2, Real.div_rpow hx hx1.le]
        field_simp
  have o := hp.one
  have o' := hp'.one
  rw [funext (key p hb hc), integral_const_mul] at o
  rw [funext (key p' hb' hc'), integral_const_mul] at o'
  have : p x1 = p' x1 := by
    rw [← o'] at o
    refine mul_right_cancel₀ (fun h0 => ?_) o
    rw [h0, mul_zero] at o'
    exact zero_ne_one o'
  funext x
  rw [key p hb hc x, key p' hb' hc' x, this]

/-- The object made from the section of the luminosity distribution draws from the law described. -/
theorem lum_facts (hM : FairMachine P M base) (hy : Describes (builtins half) C d y)
    {μ : Measure ℝ} (h : Luminosities C d μ) :
    ∃ c f, y.lum = some c ∧ Luminous P (M.classes.lum c.cls)
      { params := assignedNew c.cls (truthOf c.obj) } μ f := by
  cases h with
  | pareto ps lmin alpha hn h1 h2 g1 g2 =>
    obtain ⟨c, K, e1, e2, e3, e4⟩ := lum_section hy hn
    have hk : ∀ n ∈ ["Lmin", "alpha"], Dict.get? K.params n ≠ none := fun n hn =>
      doc_declared e3 (fun doc' h => by simpa [distDoc] using h) (by simpa [Dict.keys] using hn)
    refine ⟨c, paretoDensity lmin alpha, e1, ?_⟩
    rw [e2]
    exact C76_pareto hM.numbers ⟨_, rfl, assigned_inForce e4 (hk _ (by simp)) h1 _⟩
      ⟨_, rfl, assigned_inForce e4 (hk _ (by simp)) h2 _⟩ g1 g2
  | schechter ps lmin alpha hn h1 h2 g1 g2 =>
    obtain ⟨c, K, e1, e2, e3, e4⟩ := lum_section hy hn
    have hk : ∀ n ∈ ["Lmin", "alpha"], Dict.get? K.params n ≠ none := fun n hn =>
      doc_declared e3 (fun doc' h => by simpa [distDoc] using h) (by simpa [Dict.keys] using hn)
    refine ⟨c, schechterDensity lmin alpha, e1, ?_⟩
    rw [e2]
    exact C76_schechter hM.numbers hM.gamma ⟨_, rfl, assigned_inForce e4 (hk _ (by simp)) h1 _⟩
      ⟨_, rfl, assigned_inForce e4 (hk _ (by simp)) h2 _⟩ g1 g2
  | logNormal ps mu tau hn h1 h2 g1 =>
    obtain ⟨c, K, e1, e2, e3, e4⟩ := lum_section hy hn
    have hk : ∀ n ∈ ["mu", "tau"], Dict.get? K.params n ≠ none := fun n hn =>
      doc_declared e3 (fun doc' h => by simpa [distDoc] using h) (by simpa [Dict.keys] using hn)
    refine ⟨c, logNormalDensity mu tau, e1, ?_⟩
    rw [e2]
    exact C76_logNormal hM.numbers ⟨_, rfl, assigned_inForce e4 (hk _ (by simp)) h1 _⟩
      ⟨_, rfl, assigned_inForce e4 (hk _ (by simp)) h2 _⟩ g1
  | log10Normal ps mu tau hn h1 h2 g1 =>
    obtain ⟨c, K, e1, e2, e3, e4⟩ := lum_section hy hn
    have hk : ∀ n ∈ ["mu", "tau"], Dict.get? K.params n ≠ none := fun n hn =>
      doc_declared e3 (fun doc' h => by simpa [distDoc] using h) (by simpa [Dict.keys] using hn)
    refine ⟨c, fun x => Real.log 10 * log10NormalDensity mu tau x, e1, ?_⟩
    rw [e2]
    exact C76_log10Normal_partial hM.numbers ⟨_, rfl, assigned_inForce e4 (hk _ (by simp)) h1 _⟩
      ⟨_, rfl, assigned_inForce e4 (hk _ (by simp)) h2 _⟩ g1
  | logUniform ps lmin lmax hn h1 h2 g1 g2 =>
    obtain ⟨c, K, e1, e2, e3, e4⟩ := lum_section hy hn
    have hk : ∀ n ∈ ["Lmin", "Lmax"], Dict.get? K.params n ≠ none := fun n hn =>
      doc_declared e3 (fun doc' h => by simpa [distDoc] using h) (by simpa [Dict.keys] using hn)
    refine ⟨c, logUniDensity lmin lmax, e1, ?_⟩
    rw [e2]
    exact C76_logUniform hM.numbers ⟨_, rfl, assigned_inForce e4 (hk _ (by simp)) h1 _⟩
      ⟨_, rfl, assigned_inForce e4 (hk _ (by simp)) h2 _⟩ g1 g2
  | delta ps lp hn h1 =>
    obtain ⟨c, K, e1, e2, e3, e4⟩ := lum_section hy hn
    have hk : ∀ n ∈ ["Lp"], Dict.get? K.params n ≠ none := fun n hn =>
      doc_declared e3 (fun doc' h => by simpa [distDoc] using h) (by simpa [Dict.keys] using hn)
    refine ⟨c, fun x => deltaPhi lp x, e1, ?_⟩
    rw [e2]
    exact (C76_delta ⟨_, rfl, assigned_inForce e4 (hk _ (by simp)) h1 _⟩).1
  | brokenPowerLaw ps lmin lbreak lmax alpha beta p hn h1 h2 h3 h4 h5 g1 g2 g3 g4 =>
    obtain ⟨c, K, e1, e2, e3, e4⟩ := lum_section hy hn
    have hk : ∀ n ∈ ["Lmin", "Lbreak", "Lmax", "alpha", "beta"], Dict.get? K.params n ≠ none :=
      fun n hn => doc_declared e3 (fun doc' h => by simpa [distDoc] using h)
        (by simpa [Dict.keys] using hn)
    obtain ⟨p', q1, q2, q4, q3⟩ := C76_bpl hM.numbers
      (lum := { params := assignedNew c.cls (truthOf c.obj) })
      ⟨_, rfl, assigned_inForce e4 (hk _ (by simp)) h1 _⟩
      ⟨_, rfl, assigned_inForce e4 (hk _ (by simp)) h2 _⟩
      ⟨_, rfl, assigned_inForce e4 (hk _ (by simp)) h3 _⟩
      ⟨_, rfl, assigned_inForce e4 (hk _ (by simp)) h4 _⟩
      ⟨_, rfl, assigned_inForce e4 (hk _ (by simp)) h5 _⟩ g1
    obtain rfl : p = p' := broken_unique g1 g2 q1 g3 q2 g4 q4
    refine ⟨c, p, e1, ?_⟩
    have : M.classes.lum c.cls = bplLum M.lum := by rw [e2]; rfl
    rw [this]
    exact q3

/-! ### The flux selection -/

theorem sel_section {cls : String} {ps : Dict (PVal ℝ)}
    (hy : Describes (builtins half) C d y) (hn : AsksFor d "flux selection" cls ps) :
    ∃ s K, y.fluxSel = some s ∧ s.cls = cls ∧ Dict.get? (builtins half).sels cls = some K ∧
      s.flags.flux = true ∧ ParamsRead C (Dict.get? K.params) ps s.obj := by
  obtain ⟨rest, hn⟩ := hn
  rcases hy.flux with ⟨h1, -⟩ | ⟨v, s, h1, h2, p, ps', rest', K, h3, h4, h5, h6, h7, h8⟩
  · rw [hn] at h1; rcases h1 with h1 | h1 <;> cases h1
  · rw [hn] at h1
    cases h1
    cases h3
    rcases h4 with h4 | ⟨h4, -⟩
    · cases h4
      exact ⟨s, K, h2, rfl, h5, by rw [h7], by simpa using h8⟩
    · cases h4

/-- The object made from the section of the flux selection detects with the probability
described. -/
theorem flux_facts (hM : FairMachine P M base) (hy : Describes (builtins half) C d y)
    {p : ℝ → ℝ≥0∞} (h : Detection C base.world.sel.softLog d p) (w : World ℝ G)
    (hw : w.sel = base.world.sel) :
    Detects P w (M.classes.selector (y.fluxSel.getD unitySel)) p := by
  have hw' : FairBern P w.sel := by rw [hw]; exact hM.trial
  have hnone : y.fluxSel = none → Detects P w (M.classes.selector (y.fluxSel.getD unitySel)) 1 := by
    intro h
    rw [h]
    exact C74_detects_all w rfl
  have hsel : ∀ {s : CSel ℝ} {K : SelCls ℝ} {ps : Dict (PVal ℝ)} {n : String} {x : ℝ},
      ParamsRead C (Dict.get? K.params) ps s.obj → Dict.get? K.params n ≠ none →
      Says C ps n none x → Stored (M.classes.selector s) n x :=
    fun h1 h2 h3 => (assigned_has h1 h2 h3 _).2 rfl
  cases h with
  | missing h =>
    refine hnone ?_
    rcases hy.flux with ⟨-, h1⟩ | ⟨v, s, h1, -⟩
    · exact h1
    · rw [h] at h1; cases h1
  | nothing h =>
    refine hnone ?_
    rcases hy.flux with ⟨-, h1⟩ | ⟨v, s, h1, h2, p, ps', rest', K, h3, -⟩
    · exact h1
    · rw [h] at h1; cases h1; cases h3
  | unity ps hn =>
    obtain ⟨s, K, e1, e2, e3, e4, e5⟩ := sel_section hy hn
    rw [e1]
    have hk : M.classes.kind s.cls = .unity := by rw [e2]; rfl
    exact C74_detects_all w hk
  | atLeast cls ps b hc hn h1 =>
    obtain ⟨s, K, e1, e2, e3, e4, e5⟩ := sel_section hy hn
    rw [e1]
    have hk : M.classes.kind s.cls = .lower := by rw [e2]; rcases hc with rfl | rfl <;> rfl
    have hp : Dict.get? K.params "boundary" ≠ none := by
      rcases hc with rfl | rfl <;>
        exact doc_declared_sel e3 (fun doc' h => by simpa [selDoc] using h) (by simp [Dict.keys])
    exact C74_detects_hard w hk e4 (hsel e5 hp h1)
  | atMost ps b hn h1 =>
    obtain ⟨s, K, e1, e2, e3, e4, e5⟩ := sel_section hy hn
    rw [e1]
    have hk : M.classes.kind s.cls = .upper := by rw [e2]; rfl
    have hp : Dict.get? K.params "boundary" ≠ none :=
      doc_declared_sel e3 (fun doc' h => by simpa [selDoc] using h) (by simp [Dict.keys])
    exact C74_detects_upper w hk e4 (hsel e5 hp h1)
  | between ps lo hi hn h1 h2 =>
    obtain ⟨s, K, e1, e2, e3, e4, e5⟩ := sel_section hy hn
    rw [e1]
    have hk : M.classes.kind s.cls = .box := by rw [e2]; rfl
    have hp : ∀ n ∈ ["vmin", "vmax"], Dict.get? K.params n ≠ none := fun n hn =>
      doc_declared_sel e3 (fun doc' h => by simpa [selDoc] using h) (by simpa [Dict.keys] using hn)
    exact C74_detects_box w hk e4 (hsel e5 (hp _ (by simp)) h1) (hsel e5 (hp _ (by simp)) h2)
  | soft cls ps b k hc hn h1 h2 =>
    obtain ⟨s, K, e1, e2, e3, e4, e5⟩ := sel_section hy hn
    rw [e1]
    have hk : M.classes.kind s.cls = .soft := by rw [e2]; rcases hc with rfl | rfl <;> rfl
    have hp : ∀ n ∈ ["boundary", "strength"], Dict.get? K.params n ≠ none := fun n hm => by
      rcases hc with rfl | rfl <;>
        exact doc_declared_sel e3 (fun doc' h => by simpa [selDoc] using h) (by simpa [Dict.keys] using hm)
    have := C74_detects_soft w hw' (sel := M.classes.selector s) hk e4
      (hsel e5 (hp _ (by simp)) h2) (hsel e5 (hp _ (by simp)) h1) (by rw [hw]; exact (hM.logistic k b).1)
      (by rw [hw]; intro x; exact hM.valid _ ((hM.logistic k b).2 x).1 ((hM.logistic k b).2 x).2)
    rw [hw] at this
    exact this
  | coin ps q hn h1 =>
    obtain ⟨s, K, e1, e2, e3, e4, e5⟩ := sel_section hy hn
    rw [e1]
    have hk : M.classes.kind s.cls = .bernoulli := by rw [e2]; rfl
    have hp : Dict.get? K.params "probability" ≠ none :=
      doc_declared_sel e3 (fun doc' h => by simpa [selDoc] using h) (by simp [Dict.keys])
    refine C74_detects_coin w hw' (sel := M.classes.selector s) hk (hsel e5 hp h1) ?_
    obtain ⟨doc, q1, q2⟩ := (C64_parameters half _).2.1 K e3
    obtain rfl : doc = [("probability", .probability, some half)] := by simpa [selDoc] using q1
    obtain ⟨dc, r1, -, r2⟩ := q2.2 ("probability", .probability, some half) (by simp)
    rcases h1 with ⟨v, s1, s2⟩ | ⟨-, s2⟩
    · obtain ⟨x, t1, t2, -⟩ := e5.given _ v dc s1 r1
      rw [← number_unique s2 t1] at t2
      have := (r2 q).1 t2
      rw [hw]
      exact hM.valid q this.1 this.2
    · cases s2

/-! ### The survey -/

/-- There is no distance selection, no spatial selection, and no auxiliary sampler. -/
structure Spec.NothingElse (d : Dict (PVal ℝ)) : Prop where
  dist : Dict.get? d "distance selection" = none ∨ Dict.get? d "distance selection" = some .none
  spat : Dict.get? d "spatial selection" = none ∨ Dict.get? d "spatial selection" = some .none
  aux : Dict.get? d "auxiliary samplers" = none ∨ Dict.get? d "auxiliary samplers" = some (.dict [])

theorem selRead_none {R : Registry ℝ} {names : SelCls ℝ → String → Bool}
    {look : SelFlags → SelFlags} {v : Option (PVal ℝ)} {s : Option (CSel ℝ)}
    (h : SelRead R C names look v s) (hv : v = none ∨ v = some .none) : s = none := by
  rcases h with ⟨-, h1⟩ | ⟨v', s', h1, h2, p, ps', rest', K, h3, -⟩
  · exact h1
  · rcases hv with rfl | rfl
    · cases h1
    · cases h1; cases h3

theorem aux_none (hy : Describes (builtins half) C d y) (hn : NothingElse d) :
    y.aux = [] ∧ y.derived = none := by
  rcases hy.samplers with ⟨-, -, h2, h3⟩ | ⟨E, sec, h1, h2⟩
  · exact ⟨h2, h3⟩
  · rcases hn.aux with h | h
    · rw [h] at h1; cases h1
    · rw [h] at h1
      cases h1
      exact ⟨h2.attached, h2.derived⟩

/-- The environment of a survey drawn with the objects of the configuration; loops may turn at most
`k` times, and seeding puts the generator into state `g`. -/
noncomputable def Spec.drawnEnv (M : Machine G) (half : ℝ) (fuel : ℕ) (base : SurveyEnv ℝ G)
    (code : ℕ → SamplerCode ℝ G) (y : CSynth ℝ) (k : ℕ) (g : G) : SurveyEnv ℝ G :=
  { (M.bounded k).classes.env (builtins half) fuel base code y with seed := fun _ _ => .ok g }

variable {fuel : ℕ} {at' : String → ℕ} {sel : Role → ℕ} {code : ℕ → SamplerCode ℝ G} {s : SurvSt ℝ G}
  {dens : ℝ → ℝ} {flux : ℝ → ℝ → ℝ} {rm : ℝ} {μL : Measure ℝ} {p : ℝ → ℝ≥0∞} {Λ : ℝ≥0}

/-- Sources shine if almost all luminosities do so at all distances. -/
theorem source_shines {f : ℝ → ℝ} (sigma : Option ℝ)
    (hf : Measurable fun q : ℝ × ℝ => flux q.1 q.2) (h0 : ∫⁻ r in Set.Icc 0 rm, ENNReal.ofReal (f r) ≠ 0)
    (h1 : ∫⁻ r in Set.Icc 0 rm, ENNReal.ofReal (f r) ≠ ⊤) [IsProbabilityMeasure μL]
    (hpos : ∀ᵐ l ∂μL, ∀ r ∈ Set.Ioc 0 rm, 0 < flux l r) :
    ∀ᵐ x ∂(sourceLaw (densityLaw f rm) μL sigma), 0 < flux x.luminosity x.distance := by
  have i1 : IsProbabilityMeasure (densityLaw f rm) := densityLaw_prob h0 h1
  have hd : ∀ᵐ r ∂(densityLaw f rm), r ∈ Set.Ioc 0 rm := by
    have : ∀ᵐ r ∂(volume.restrict (Set.Icc 0 rm)), r ∈ Set.Ioc 0 rm := by
      rw [← restrict_Ioc_eq_restrict_Icc]
      exact ae_restrict_mem measurableSet_Ioc
    exact Measure.ae_smul_measure (withDensity_absolutelyContinuous _ _ this) _
  have hm : Measurable fun q : ℝ × ℝ × ℝ => flux q.2.1 q.1 :=
    hf.comp (measurable_snd.fst.prodMk measurable_fst)
  have hs : MeasurableSet {q : ℝ × ℝ × ℝ | flux q.2.1 q.1 ≤ 0} := measurableSet_le hm measurable_const
  have key := sourceLaw_lintegral (densityLaw f rm) μL sigma
    (f := fun r l z => {q : ℝ × ℝ × ℝ | flux q.2.1 q.1 ≤ 0}.indicator 1 (r, l, z))
    (measurable_one.indicator hs)
  have hz : ∫⁻ r, ∫⁻ l, ∫⁻ z, {q : ℝ × ℝ × ℝ | flux q.2.1 q.1 ≤ 0}.indicator 1 (r, l, z)
      ∂(noiseLaw sigma) ∂μL ∂(densityLaw f rm) = (0 : ℝ≥0∞) := by
    refine (lintegral_congr_ae ?_).trans lintegral_zero
    filter_upwards [hd] with r hr
    refine (lintegral_congr_ae ?_).trans lintegral_zero
    filter_upwards [hpos] with l hl
    refine (lintegral_congr fun z => ?_).trans lintegral_zero
    exact Set.indicator_of_notMem (by simpa using hl r hr) _
  rw [hz] at key
  have hm' : Measurable fun x : SkySource => flux x.luminosity x.distance :=
    hf.comp (SkySource.measurable_luminosity.prodMk SkySource.measurable_distance)
  have hs' : MeasurableSet {x : SkySource | flux x.luminosity x.distance ≤ 0} :=
    measurableSet_le hm' measurable_const
  have e : (∫⁻ x : SkySource, {q : ℝ × ℝ × ℝ | flux q.2.1 q.1 ≤ 0}.indicator 1
      (x.distance, x.luminosity, x.noise) ∂(sourceLaw (densityLaw f rm) μL sigma) : ℝ≥0∞) =
      sourceLaw (densityLaw f rm) μL sigma {x | flux x.luminosity x.distance ≤ 0} := by
    rw [← lintegral_indicator_one hs']
    rfl
  rw [e] at key
  rw [ae_iff]
  simpa only [not_lt] using key

theorem config_lawful {a : SurveyArgs ℝ} (ha : a.normalize = false)
    (hnoise : ∀ sigma, a.fluxSigma = some sigma → FairNoise P base sigma a.log10Draw)
    (hpos : a.fluxSigma ≠ none → ∀ᵐ l ∂μL, ∀ r ∈ Set.Ioc 0 rm, 0 < flux l r)
    (hM : FairMachine P M base) (hy : Describes (builtins half) C d y)
    (hs : Space C M.volume M.cosmoFlux d dens flux rm) (hl : Luminosities C d μL)
    (hf : Detection C base.world.sel.softLog d p) (hn : NothingElse d)
    (hm : InMemory M.classes y at' sel code s) (hrm : 0 < rm)
    (hmax : ∀ r ∈ Set.Icc 0 rm, dens r ≤ M.dist.npMax ((M.dist.grid rm).map dens))
    (hmass : ∫⁻ r in Set.Icc 0 rm, ENNReal.ofReal (dens r) ≠ 0) :
    ∃ c vs, SpaceFacts M y.spatial c vs dens flux rm ∧
      Lawful P (M.classes.env (builtins half) fuel base code y) M.dist c (M.transform y.spatial.cls)
        (M.classes.synth at' sel y) a s flux rm (M.dist.npMax ((M.dist.grid rm).map dens)) vs μL p := by
  obtain ⟨c, vs, f⟩ := space_facts hM hy hs
  obtain ⟨l, phi, l1, l2⟩ := lum_facts hM hy hl
  obtain ⟨a1, a2⟩ := aux_none hy hn
  have hdist := selRead_none hy.dist hn.dist
  have hspat := selRead_none hy.spat hn.spat
  have hsp : s.sp.params = assignedNew y.spatial.cls (truthOf y.spatial.obj) := by rw [hm.sp]; rfl
  have hlum : s.lum = { params := assignedNew l.cls (truthOf l.obj) } := by rw [hm.lum, l1]; rfl
  have hfx : s.heap.selectors (M.classes.synth at' sel y).fluxSel =
      M.classes.selector (y.fluxSel.getD unitySel) := hm.flux
  have hds : s.heap.selectors (M.classes.synth at' sel y).distSel = M.classes.selector unitySel := by
    have := hm.dist
    rw [hdist] at this
    exact this
  have hsig : ∀ (kind : SelKind ℝ G) (sigma : ℝ), sigmaUsed kind a = some sigma →
      a.fluxSigma = some sigma := fun kind sigma h => by
    unfold sigmaUsed at h; split at h
    · cases h
    · exact h
  have hcut : ∀ r ∈ Set.Icc 0 rm, min (dens r) (M.dist.npMax ((M.dist.grid rm).map dens)) = dens r :=
    fun r hr => min_eq_left (hmax r hr)
  refine ⟨c, vs, f, ?_⟩
  refine
    { plain := ⟨?_, ?_, ?_, ?_, ?_, ?_, ?_, ?_, ?_⟩
      uniform := hM.uniform
      lt := hM.lt
      thetaOf := hM.thetaOf
      twoPi := hM.twoPi
      plainCount := ha
      declared := ?_
      unique := f.unique
      norm := ?_
      radius := ?_
      values := ?_
      highest := ?_
      density := ?_
      somewhere := ?_
      fluxes := f.fluxes
      transforms := fun ls ds _ => f.transforms ls ds
      lumProb := l2.1
      luminosity := ?_
      noise := fun sigma hsg =>
        ⟨(hnoise sigma (hsig _ _ hsg)).valid, (hnoise sigma (hsig _ _ hsg)).normal⟩
      observed := ?_
      finite := ?_
      detects := ?_ }
  · show y.derived.map at' = none
    rw [a2]; rfl
  · show y.lum.map _ ≠ none
    rw [l1]; simp
  · show y.aux.map _ = []
    rw [a1]; rfl
  · show y.spatSel.map _ = none
    rw [hspat]; rfl
  · exact fun h => by cases hm.selApart _ _ .dist .flux h
  · rw [hfx, hds]; exact ⟨rfl, rfl⟩
  · rw [hds]; rfl
  · intro q hq; cases hq
  · intro t
    have e : auxDictAt fuel t.heap (M.classes.synth at' sel y) = .ok [] := by
      unfold auxDictAt
      have b1 : (M.classes.synth at' sel y).aux = [] := by
        show y.aux.map _ = []
        rw [a1]; rfl
      have b2 : (M.classes.synth at' sel y).derived = none := by
        show y.derived.map at' = none
        rw [a2]; rfl
      rw [b1, b2]
      rfl
    show ∃ v, heapDict _ _ _ fuel (M.classes.synth at' sel y) t = .ok v
    unfold heapDict
    rw [e]
    exact ⟨_, rfl⟩
  · rw [f.declared]; simp [declRMax, hM.ten]
  · intro n hn
    rw [hsp] at hn ⊢
    exact ⟨f.norm n hn, (assigned_norm hn).2⟩
  · rw [hsp]; exact ⟨f.radius, hrm⟩
  · rw [hsp]; exact f.values
  · rw [f.density]
    refine ⟨rfl, ?_⟩
    by_contra h0
    refine hmass ((setLIntegral_congr_fun measurableSet_Icc fun r hr => ?_).trans lintegral_zero)
    exact ENNReal.ofReal_of_nonpos ((hmax r hr).trans (not_lt.1 h0))
  · rw [f.density]; exact f.measurable
  · rw [f.density, setLIntegral_congr_fun measurableSet_Icc fun r hr =>
      congrArg ENNReal.ofReal (hcut r hr)]
    exact hmass
  · intro n
    have := (C76_survey l2 n).2
    rw [hlum]
    have e : (M.classes.env (builtins half) fuel base code y).lum = M.classes.lum l.cls := by
      show (y.lum.map _).getD _ = _
      rw [l1]; rfl
    rw [e]
    exact this
  · cases hsg : sigmaUsed (s.heap.selectors (M.classes.synth at' sel y).fluxSel).kind a with
    | none => exact measurable_fst
    | some sigma =>
      have hN := hnoise sigma (hsig _ _ hsg)
      have e : (fun q : ℝ × ℝ => observed (M.classes.env (builtins half) fuel base code y) (some sigma)
          a.log10Draw q.1 q.2) = fun q => if a.log10Draw then
            (10 : ℝ) ^ ((if a.log10Draw then base.log10 q.1 else base.ln q.1) + q.2)
          else Real.exp ((if a.log10Draw then base.log10 q.1 else base.ln q.1) + q.2) := by
        funext q
        have := hN.power
        show (if a.log10Draw then base.pow10 (base.add (base.log10 q.1) q.2)
          else base.exp (base.add (base.ln q.1) q.2)) = _
        cases hd : a.log10Draw <;> simp only [hd, hN.add] at this ⊢ <;> exact this _
      rw [e]
      have hm := hN.measurable
      cases hd : a.log10Draw <;> simp only [hd] at hm ⊢ <;> simp only [if_true, Bool.false_eq_true, if_false] at hm ⊢
      · exact Real.measurable_exp.comp ((hm.comp measurable_fst).add measurable_snd)
      · exact measurable_const.pow ((hm.comp measurable_fst).add measurable_snd)
  · cases hsg : sigmaUsed (s.heap.selectors (M.classes.synth at' sel y).fluxSel).kind a with
    | none => exact Filter.Eventually.of_forall fun x h => by cases h
    | some sigma =>
      have hsg' := hsig _ _ hsg
      have hN := hnoise sigma hsg'
      have hp := hpos (by rw [hsg']; simp)
      have i2 := l2.1
      rw [f.density]
      have hcut' : (∫⁻ r in Set.Icc 0 rm, ENNReal.ofReal
          (min (dens r) (M.dist.npMax ((M.dist.grid rm).map dens)))) =
          ∫⁻ r in Set.Icc 0 rm, ENNReal.ofReal (dens r) :=
        setLIntegral_congr_fun measurableSet_Icc fun r hr => congrArg ENNReal.ofReal (hcut r hr)
      filter_upwards [source_shines (some sigma) f.fluxes (by rw [hcut']; exact hmass)
        (cut_mass_finite _ _ _) hp] with x hx
      intro _
      have := hN.finite _ x.noise hx
      show base.isFinite (if a.log10Draw then base.add (base.log10 _) _ else base.add (base.ln _) _) = _
      cases hd : a.log10Draw <;> simp only [hd, hN.add] at this ⊢ <;> exact this
  · rw [hfx]
    exact flux_facts hM hy hf _ rfl

/-- The objects a configuration describes can be made. -/
theorem memory_exists (K : Classes ℝ G) (g : G) (hy : Describes (builtins half) C d y)
    (hn : NothingElse d) : ∃ at' sel code s, InMemory K y at' sel code s := by
  obtain ⟨a1, a2⟩ := aux_none hy hn
  have hu : ∀ i, ¬ Used y i := by
    intro i h
    induction h with
    | root h =>
      rcases h with h | h
      all_goals simp_all
    | sec _ _ _ ih => exact ih
  let at' : String → Nat := fun _ => 0
  let sel : Role → Nat := fun
    | .flux => 0
    | .dist => 1
    | .spat => 2
    | .of _ => 3
  let sels : Nat → Selector ℝ G := fun
    | 0 => K.selector (y.fluxSel.getD unitySel)
    | 1 => K.selector (y.distSel.getD unitySel)
    | _ => K.selector (y.spatSel.getD unitySel)
  let s : SurvSt ℝ G := ⟨⟨fun _ => { name := "", obsName := "" }, sels, g, []⟩,
    { params := K.assigned y.spatial.cls (truthOf y.spatial.obj) },
    { params := (y.lum.map fun l => K.assigned l.cls (truthOf l.obj)).getD {} },
    ({} : Graph).addNode (K.distName y.spatial.cls) none⟩
  refine ⟨at', sel, K.smp "" |> fun c _ => c, s, ?_⟩
  refine ⟨fun i c h => (hu i h).elim, fun i c h => (hu i h).elim, fun i c h => (hu i h).elim, rfl, rfl,
    fun q hq => ?_, fun i j h => (hu i h).elim, ?_, rfl, rfl, rfl⟩
  · show K.selector (y.spatSel.getD unitySel) = _
    rw [hq]; rfl
  · intro a b ha hb h
    cases ha <;> cases hb <;> first | rfl | (cases h; done) | (rename_i h1; exact (hu _ h1).elim) |
      (rename_i h1 _ _; exact (hu _ h1).elim) | (rename_i h1 _; exact (hu _ h1).elim)

/-- The mean number of detected objects: at the distance `r` there are `dens r` objects per unit of
distance, and an object of luminosity `l` there is detected with probability `p (flux l r)`. -/
noncomputable def Spec.meanDetected (dens : ℝ → ℝ) (rm : ℝ) (flux : ℝ → ℝ → ℝ) (μL : Measure ℝ)
    (p : ℝ → ℝ≥0∞) : ℝ≥0∞ :=
  ∫⁻ r in Set.Icc 0 rm, ENNReal.ofReal (dens r) * ∫⁻ l, p (flux l r) ∂μL

theorem expected_exact (dens : ℝ → ℝ) (rm : ℝ) (flux : ℝ → ℝ → ℝ) (μL : Measure ℝ) (p : ℝ → ℝ≥0∞)
    (obs : ℝ → ℝ → ℝ) (ho : ∀ f x, obs f x = f) :
    expected dens rm flux μL none obs p = meanDetected dens rm flux μL p := by
  unfold expected meanDetected
  simp only [ho, noiseLaw, lintegral_dirac]

/-- **C87 (detections and non-detections).**  A configuration is read, objects are made as it says,
and a survey is drawn with them.  The numbers of detected and of undetected objects are
independent Poisson numbers; their means are those of the population that the configuration
describes. -/
theorem C87_counts (hM : FairMachine P M base) (hd : Proper (.dict d))
    (hread : fromDict (builtins half) C d = .ok y e)
    (hs : Space C M.volume M.cosmoFlux d dens flux rm) (hl : Luminosities C d μL)
    (hf : Detection C base.world.sel.softLog d p) (hn : NothingElse d)
    (hm : InMemory M.classes y at' sel code s) (hrm : 0 < rm)
    (hmax : ∀ r ∈ Set.Icc 0 rm, dens r ≤ M.dist.npMax ((M.dist.grid rm).map dens))
    (hΛ : (Λ : ℝ≥0∞) = ∫⁻ r in Set.Icc 0 rm, ENNReal.ofReal (dens r)) (h0 : Λ ≠ 0)
    (hquad : (M.dist.quad rm).eval dens = Λ)
    (hpois : Samples P (ProbabilityTheory.poissonMeasure Λ)
      fun _ g n g' => base.poisson (Λ : ℝ) g = (.ok n, g')) :
    Samples P
      ((ProbabilityTheory.poissonMeasure
          (meanDetected dens rm flux μL p).toNNReal).prod
        (ProbabilityTheory.poissonMeasure
          (meanDetected dens rm flux μL fun x => 1 - p x).toNNReal))
      fun k g v g' => ∃ Q s', drawSurvey (drawnEnv M half fuel base code y k g)
          (M.classes.synth at' sel y) {} s = .ok Q s' ∧
        s'.heap.rng = g' ∧ Q.nDetections = v.1 ∧ Q.nNonDetections = v.2 := by
  have hy := C63_reads _ _ _ _ _ hd hread
  obtain ⟨c, vs, f, hlaw⟩ := config_lawful (fuel := fuel) (a := {}) rfl
    (fun _ h => by cases h) (fun h => (h rfl).elim) hM hy hs hl hf hn hm hrm hmax (by
    rw [← hΛ]; exact_mod_cast h0)
  have hsig : ∀ kind : SelKind ℝ G, sigmaUsed kind ({} : SurveyArgs ℝ) = none := fun kind => by
    unfold sigmaUsed; split <;> rfl
  have h1 := C77_counts hlaw (Λ := Λ) ⟨rfl, hpois, by rw [f.density, hquad]⟩
    (by rw [f.density]; exact hmax) (by rw [f.density]; exact hΛ) M.showProgress M.galB
  rw [f.density, hsig, expected_exact _ _ _ _ _
      (observed (M.classes.env (builtins half) fuel base code y) none _) fun _ _ => rfl,
    expected_exact _ _ _ _ _
      (observed (M.classes.env (builtins half) fuel base code y) none _) fun _ _ => rfl] at h1
  refine Samples.mono h1 ?_
  intro k g v g' ⟨Q, s', q1, q2⟩
  refine ⟨Q, s', ?_, q2⟩
  have e : drawnEnv M half fuel base code y k g = surveyEnv (M.classes.env (builtins half) fuel base code y)
      M.dist c.code M.showProgress (M.transform y.spatial.cls) M.galB k g := by
    unfold surveyEnv
    rw [← f.code k]
    rfl
  rw [e]
  exact q1

/-- **C87 (a flux-limited survey of a sphere).**  If the configuration names
`ConstantSphericalDistribution` and `HardFluxSelection`, and no object can be seen beyond the
largest distance, then the number of detections is a Poisson number, and its mean is the density
times the mean volume in which an object is brighter than the boundary. -/
theorem C87_sphere {ps qs : Dict (PVal ℝ)} {lambda F : ℝ} (hM : FairMachine P M base)
    (hd : Proper (.dict d)) (hread : fromDict (builtins half) C d = .ok y e)
    (hs : AsksFor d "spatial distribution" "ConstantSphericalDistribution" ps)
    (hs1 : Says C ps "Lambda" (some 1) lambda) (hs2 : Says C ps "r_max" (some 10) rm)
    (hl : Luminosities C d μL) (hf : AsksFor d "flux selection" "HardFluxSelection" qs)
    (hf1 : Says C qs "boundary" none F) (hn : NothingElse d)
    (hm : InMemory M.classes y at' sel code s) (hrm : 0 < rm) (hlambda : 0 < lambda) (hF : 0 < F)
    (hin : ∀ᵐ L ∂μL, √(L / (4 * Real.pi * F)) - 1 ≤ rm)
    (hg : GridMax M.dist)
    (hquad : (M.dist.quad rm).eval (fun r => lambda * (4 * Real.pi * r ^ 2)) =
      ∫ r in (0)..rm, lambda * (4 * Real.pi * r ^ 2))
    (hΛ : (Λ : ℝ) = lambda * (4 / 3 * Real.pi * rm ^ 3))
    (hpois : Samples P (ProbabilityTheory.poissonMeasure Λ)
      fun _ g n g' => base.poisson (Λ : ℝ) g = (.ok n, g')) :
    Samples P (ProbabilityTheory.poissonMeasure
        (ballCounts lambda (fun L => √(L / (4 * Real.pi * F)) - 1) μL).toNNReal)
      fun k g n g' => ∃ Q s', drawSurvey (drawnEnv M half fuel base code y k g)
          (M.classes.synth at' sel y) {} s = .ok Q s' ∧ s'.heap.rng = g' ∧ Q.nDetections = n := by
  have hp := Real.pi_pos
  have hmono : ∀ r t, 0 ≤ r → r ≤ t → t ≤ rm →
      lambda * (4 * Real.pi * r ^ 2) ≤ lambda * (4 * Real.pi * t ^ 2) := by
    intro r t h0 h1 _
    have : r ^ 2 ≤ t ^ 2 := pow_le_pow_left₀ h0 h1 2
    gcongr
  have hmax : ∀ r ∈ Set.Icc 0 rm, lambda * (4 * Real.pi * r ^ 2) ≤
      M.dist.npMax ((M.dist.grid rm).map fun r => lambda * (4 * Real.pi * r ^ 2)) := by
    intro r hr
    rw [hg.end hrm hmono]
    exact hmono r rm hr.1 hr.2 le_rfl
  have hden : constantSpherical.dens [lambda] = fun r => lambda * (4 * Real.pi * r ^ 2) := by
    funext r
    simp only [constantSpherical, sphereVolume]; ring
  have hint := sphere_integral (lambda := lambda) hlambda.le hrm.le
  rw [hden] at hint
  have hpos : 0 < lambda * (4 / 3 * Real.pi * rm ^ 3) := by positivity
  have h1 := C87_counts (fuel := fuel) (at' := at') (sel := sel) (code := code) (s := s)
    (Λ := Λ) hM hd hread
    (.constantSphere ps lambda rm hs hs1 hs2) hl (.atLeast _ qs F (Or.inl rfl) hf hf1) hn hm hrm hmax
    (by rw [hint, ← hΛ, ENNReal.ofReal_coe_nnreal])
    (fun h => hpos.ne' (by rw [← hΛ, h]; rfl))
    (by
      rw [hquad, hΛ]
      rw [show (fun r : ℝ => lambda * (4 * Real.pi * r ^ 2)) = fun r => lambda * (4 * Real.pi) * r ^ 2 by
        funext r; ring, intervalIntegral.integral_const_mul, integral_pow]
      field_simp
      ring) hpois
  have i1 : IsProbabilityMeasure μL := by
    obtain ⟨l, phi, l1, l2⟩ := lum_facts hM (C63_reads _ _ _ _ _ hd hread) hl
    exact l2.1
  have h2 := C78_counts (μL := μL) hlambda.le hF hin (fun f _ => f) fun _ => rfl
  rw [expected_exact _ _ _ _ _ _ fun _ _ => rfl, hden,
    show sphericalFluxes = fun l r => l / (4 * Real.pi * (r + 1) ^ 2) from
      funext fun l => funext fun r => sphericalFluxes_formula l r] at h2
  rw [h2] at h1
  exact Samples.mapTo h1 measurePreserving_fst fun k g v g' ⟨Q, s', q1, q2, q3, _⟩ => ⟨Q, s', q1, q2, q3⟩

end Popsynth
