import Verif.Props.PopulationFile
import Verif.Spec.FileFormat
import Mathlib.Tactic.FinCases

/-!
# Damaged population files (C85)
-/

set_option autoImplicit false
set_option linter.unusedSectionVars false

namespace Popsynth

variable {F : Type} {decode : List UInt8 → Option String} {f f' : H5File F} {L : Loaded F} {k : String}

theorem exc_error {α β : Type} {x : Except Err α} {e : Err} {g : α → Except Err β}
    (h : x = .error e) : (x >>= g) = .error e := by rw [h]; rfl

theorem exc_inv {α β : Type} {x : Except Err α} {g : α → Except Err β} {z : β}
    (h : (x >>= g) = .ok z) : ∃ y, x = .ok y ∧ g y = .ok z := by
  cases x with
  | error e => cases h
  | ok y => exact ⟨y, rfl, h⟩

/-- What reading a file reads before the constructor is called. -/
structure Readings (decode : List UInt8 → Option String) (f : H5File F) where
  c : Tree F
  sp : Dict (Option F)
  lf : Option (Dict (Option F)) × Option String
  sigma : F
  nModel : Int
  rMax : F
  seed : Int
  name : String
  form : String
  lum : List F
  dist : List F
  theta : List F
  phi : List F
  known : Option (List F × List Nat × List Nat)
  prob : Option (List F)
  fluxes : List F
  fluxObs : List F
  sel : List Bool
  ms : Tree F
  spaces : Dict (List F)
  aux : Tree F
  stor : Storage F
  truth : List (String × PVal F)
  gd : List (String × PVal F)
  ps : List (String × PVal F)
  c_eq : (item f.tree "spatial_params" >>= asGroup) = .ok c
  sp_eq : readParams c = .ok sp
  lf_eq : readLf f = .ok lf
  sigma_eq : (attr f.attrs "flux_sigma" >>= attrNum) = .ok sigma
  nModel_eq : (attr f.attrs "n_model" >>= attrInt) = .ok nModel
  rMax_eq : (attr f.attrs "r_max" >>= attrNum) = .ok rMax
  seed_eq : (attr f.attrs "seed" >>= attrInt) = .ok seed
  name_eq : (attr f.attrs "name" >>= attrBytes) = .ok name
  form_eq : (attr f.attrs "spatial_form" >>= attrStr) = .ok form
  lum_eq : readArr f.tree "luminosities" = .ok lum
  dist_eq : readArr f.tree "distances" = .ok dist
  theta_eq : readArr f.tree "theta" = .ok theta
  phi_eq : readArr f.tree "phi" = .ok phi
  known_eq : readKnown f.tree = .ok known
  prob_eq : readProb f.tree = .ok prob
  fluxes_eq : readArr f.tree "fluxes" = .ok fluxes
  fluxObs_eq : readArr f.tree "flux_obs" = .ok fluxObs
  sel_eq : (item f.tree "selection" >>= asMask) = .ok sel
  ms_eq : (item f.tree "model_spaces" >>= asGroup) = .ok ms
  spaces_eq : readSpaces ms = .ok spaces
  aux_eq : (item f.tree "auxiliary_quantities" >>= asGroup) = .ok aux
  stor_eq : readAux aux = .ok stor
  truth_eq : loadAt decode f.tree ["truth"] = .ok truth
  gd_eq : loadAt decode f.tree ["graph"] = .ok gd
  ps_eq : loadAt decode f.tree ["popsynth"] = .ok ps

/-- The call of the constructor. -/
def Readings.build (R : Readings decode f) : Except Err (Population F) :=
  match R.known with
  | none => mkUnknown R.lum R.dist R.theta R.phi R.sel
  | some (kd, ki, ui) => mkPopulation {
    luminosities := R.lum, distances := R.dist, knownDistances := kd, knownIdx := ki, unknownIdx := ui
    fluxes := R.fluxes, fluxObs := R.fluxObs, selection := R.sel, fluxSigma := R.sigma, rMax := R.rMax
    nModel := R.nModel.toNat, lfParams := R.lf.1.map .own, spatialParams := some (.own R.sp)
    spacesNow := R.spaces, modelSpaces := some (.own R.spaces), seed := R.seed, name := "", aux := some R.stor
    truth := [], graph := none, theta := R.theta, phi := R.phi, popSynth := some (.dict R.ps)
    probability := R.prob, spatialForm := some R.form, lfForm := R.lf.2 }

/-- The result. -/
def Readings.result (R : Readings decode f) : Except Err (Loaded F) := do
  let pop ← R.build
  .ok { pop, nameBytes := R.name, graph := fromDicts (cleanItems R.gd), truth := R.truth }

theorem loadPop_go (R : Readings decode f) : loadPop decode f = R.result := by
  unfold loadPop
  rw [exc_bind R.c_eq, exc_bind R.sp_eq, exc_bind R.lf_eq]
  simp only
  rw [exc_bind R.sigma_eq, exc_bind R.nModel_eq, exc_bind R.rMax_eq, exc_bind R.seed_eq, exc_bind R.name_eq, exc_bind R.form_eq, exc_bind R.lum_eq, exc_bind R.dist_eq, exc_bind R.theta_eq,
    exc_bind R.phi_eq, exc_bind R.known_eq, exc_bind R.prob_eq, exc_bind R.fluxes_eq, exc_bind R.fluxObs_eq, exc_bind R.sel_eq, exc_bind R.ms_eq, exc_bind R.spaces_eq,
    exc_bind R.aux_eq, exc_bind R.stor_eq, exc_bind R.truth_eq, exc_bind R.gd_eq, exc_bind R.ps_eq]
  unfold Readings.result Readings.build
  generalize R.known = kn
  rcases kn with _ | ⟨_, _, _⟩ <;> rfl

theorem loadPop_inv (h : loadPop decode f = .ok L) : ∃ R : Readings decode f, R.result = .ok L := by
  have h' := h
  unfold loadPop at h
  obtain ⟨c, c_eq, h⟩ := exc_inv h
  obtain ⟨sp, sp_eq, h⟩ := exc_inv h
  obtain ⟨lf, lf_eq, h⟩ := exc_inv h
  simp only at h
  obtain ⟨sigma, sigma_eq, h⟩ := exc_inv h
  obtain ⟨nModel, nModel_eq, h⟩ := exc_inv h
  obtain ⟨rMax, rMax_eq, h⟩ := exc_inv h
  obtain ⟨seed, seed_eq, h⟩ := exc_inv h
  obtain ⟨name, name_eq, h⟩ := exc_inv h
  obtain ⟨form, form_eq, h⟩ := exc_inv h
  obtain ⟨lum, lum_eq, h⟩ := exc_inv h
  obtain ⟨dist, dist_eq, h⟩ := exc_inv h
  obtain ⟨theta, theta_eq, h⟩ := exc_inv h
  obtain ⟨phi, phi_eq, h⟩ := exc_inv h
  obtain ⟨known, known_eq, h⟩ := exc_inv h
  obtain ⟨prob, prob_eq, h⟩ := exc_inv h
  obtain ⟨fluxes, fluxes_eq, h⟩ := exc_inv h
  obtain ⟨fluxObs, fluxObs_eq, h⟩ := exc_inv h
  obtain ⟨sel, sel_eq, h⟩ := exc_inv h
  obtain ⟨ms, ms_eq, h⟩ := exc_inv h
  obtain ⟨spaces, spaces_eq, h⟩ := exc_inv h
  obtain ⟨aux, aux_eq, h⟩ := exc_inv h
  obtain ⟨stor, stor_eq, h⟩ := exc_inv h
  obtain ⟨truth, truth_eq, h⟩ := exc_inv h
  obtain ⟨gd, gd_eq, h⟩ := exc_inv h
  obtain ⟨ps, ps_eq, h⟩ := exc_inv h
  refine ⟨{ c := c, sp, lf, sigma, nModel, rMax, seed, name, form, lum, dist, theta, phi, known, prob, fluxes, fluxObs, sel, ms, spaces, aux, stor, truth, gd, ps, c_eq, sp_eq, lf_eq, sigma_eq, nModel_eq, rMax_eq, seed_eq, name_eq, form_eq, lum_eq, dist_eq, theta_eq, phi_eq, known_eq, prob_eq, fluxes_eq, fluxObs_eq, sel_eq, ms_eq, spaces_eq, aux_eq, stor_eq, truth_eq, gd_eq, ps_eq }, ?_⟩
  exact (loadPop_go _).symm.trans h'

/-- If each reading of `f'` gives what it gives for `f` or fails with `e`, so does the whole. -/
theorem loadPop_either {e : Err} (R : Readings decode f)
    (h_c : (item f'.tree "spatial_params" >>= asGroup) = .ok R.c ∨ (item f'.tree "spatial_params" >>= asGroup) = .error e)
    (h_lf : readLf f' = .ok R.lf ∨ readLf f' = .error e)
    (h_sigma : (attr f'.attrs "flux_sigma" >>= attrNum) = .ok R.sigma ∨ (attr f'.attrs "flux_sigma" >>= attrNum) = .error e)
    (h_nModel : (attr f'.attrs "n_model" >>= attrInt) = .ok R.nModel ∨ (attr f'.attrs "n_model" >>= attrInt) = .error e)
    (h_rMax : (attr f'.attrs "r_max" >>= attrNum) = .ok R.rMax ∨ (attr f'.attrs "r_max" >>= attrNum) = .error e)
    (h_seed : (attr f'.attrs "seed" >>= attrInt) = .ok R.seed ∨ (attr f'.attrs "seed" >>= attrInt) = .error e)
    (h_name : (attr f'.attrs "name" >>= attrBytes) = .ok R.name ∨ (attr f'.attrs "name" >>= attrBytes) = .error e)
    (h_form : (attr f'.attrs "spatial_form" >>= attrStr) = .ok R.form ∨ (attr f'.attrs "spatial_form" >>= attrStr) = .error e)
    (h_lum : readArr f'.tree "luminosities" = .ok R.lum ∨ readArr f'.tree "luminosities" = .error e)
    (h_dist : readArr f'.tree "distances" = .ok R.dist ∨ readArr f'.tree "distances" = .error e)
    (h_theta : readArr f'.tree "theta" = .ok R.theta ∨ readArr f'.tree "theta" = .error e)
    (h_phi : readArr f'.tree "phi" = .ok R.phi ∨ readArr f'.tree "phi" = .error e)
    (h_known : readKnown f'.tree = .ok R.known ∨ readKnown f'.tree = .error e)
    (h_prob : readProb f'.tree = .ok R.prob ∨ readProb f'.tree = .error e)
    (h_fluxes : readArr f'.tree "fluxes" = .ok R.fluxes ∨ readArr f'.tree "fluxes" = .error e)
    (h_fluxObs : readArr f'.tree "flux_obs" = .ok R.fluxObs ∨ readArr f'.tree "flux_obs" = .error e)
    (h_sel : (item f'.tree "selection" >>= asMask) = .ok R.sel ∨ (item f'.tree "selection" >>= asMask) = .error e)
    (h_ms : (item f'.tree "model_spaces" >>= asGroup) = .ok R.ms ∨ (item f'.tree "model_spaces" >>= asGroup) = .error e)
    (h_aux : (item f'.tree "auxiliary_quantities" >>= asGroup) = .ok R.aux ∨ (item f'.tree "auxiliary_quantities" >>= asGroup) = .error e)
    (h_truth : loadAt decode f'.tree ["truth"] = .ok R.truth ∨ loadAt decode f'.tree ["truth"] = .error e)
    (h_gd : loadAt decode f'.tree ["graph"] = .ok R.gd ∨ loadAt decode f'.tree ["graph"] = .error e)
    (h_ps : loadAt decode f'.tree ["popsynth"] = .ok R.ps ∨ loadAt decode f'.tree ["popsynth"] = .error e) :
    loadPop decode f' = .error e ∨ ∃ R' : Readings decode f', R'.result = R.result := by
  rcases h_c.symm with h_c | c_eq
  · left; unfold loadPop
    rw [exc_error h_c]
  rcases h_lf.symm with h_lf | lf_eq
  · left; unfold loadPop
    rw [exc_bind c_eq, exc_bind R.sp_eq, exc_error h_lf]
  rcases h_sigma.symm with h_sigma | sigma_eq
  · left; unfold loadPop
    rw [exc_bind c_eq, exc_bind R.sp_eq, exc_bind lf_eq]
    simp only
    rw [exc_error h_sigma]
  rcases h_nModel.symm with h_nModel | nModel_eq
  · left; unfold loadPop
    rw [exc_bind c_eq, exc_bind R.sp_eq, exc_bind lf_eq]
    simp only
    rw [exc_bind sigma_eq, exc_error h_nModel]
  rcases h_rMax.symm with h_rMax | rMax_eq
  · left; unfold loadPop
    rw [exc_bind c_eq, exc_bind R.sp_eq, exc_bind lf_eq]
    simp only
    rw [exc_bind sigma_eq, exc_bind nModel_eq, exc_error h_rMax]
  rcases h_seed.symm with h_seed | seed_eq
  · left; unfold loadPop
    rw [exc_bind c_eq, exc_bind R.sp_eq, exc_bind lf_eq]
    simp only
    rw [exc_bind sigma_eq, exc_bind nModel_eq, exc_bind rMax_eq, exc_error h_seed]
  rcases h_name.symm with h_name | name_eq
  · left; unfold loadPop
    rw [exc_bind c_eq, exc_bind R.sp_eq, exc_bind lf_eq]
    simp only
    rw [exc_bind sigma_eq, exc_bind nModel_eq, exc_bind rMax_eq, exc_bind seed_eq, exc_error h_name]
  rcases h_form.symm with h_form | form_eq
  · left; unfold loadPop
    rw [exc_bind c_eq, exc_bind R.sp_eq, exc_bind lf_eq]
    simp only
    rw [exc_bind sigma_eq, exc_bind nModel_eq, exc_bind rMax_eq, exc_bind seed_eq, exc_bind name_eq, exc_error h_form]
  rcases h_lum.symm with h_lum | lum_eq
  · left; unfold loadPop
    rw [exc_bind c_eq, exc_bind R.sp_eq, exc_bind lf_eq]
    simp only
    rw [exc_bind sigma_eq, exc_bind nModel_eq, exc_bind rMax_eq, exc_bind seed_eq, exc_bind name_eq, exc_bind form_eq, exc_error h_lum]
  rcases h_dist.symm with h_dist | dist_eq
  · left; unfold loadPop
    rw [exc_bind c_eq, exc_bind R.sp_eq, exc_bind lf_eq]
    simp only
    rw [exc_bind sigma_eq, exc_bind nModel_eq, exc_bind rMax_eq, exc_bind seed_eq, exc_bind name_eq, exc_bind form_eq, exc_bind lum_eq, exc_error h_dist]
  rcases h_theta.symm with h_theta | theta_eq
  · left; unfold loadPop
    rw [exc_bind c_eq, exc_bind R.sp_eq, exc_bind lf_eq]
    simp only
    rw [exc_bind sigma_eq, exc_bind nModel_eq, exc_bind rMax_eq, exc_bind seed_eq, exc_bind name_eq, exc_bind form_eq, exc_bind lum_eq, exc_bind dist_eq, exc_error h_theta]
  rcases h_phi.symm with h_phi | phi_eq
  · left; unfold loadPop
    rw [exc_bind c_eq, exc_bind R.sp_eq, exc_bind lf_eq]
    simp only
    rw [exc_bind sigma_eq, exc_bind nModel_eq, exc_bind rMax_eq, exc_bind seed_eq, exc_bind name_eq, exc_bind form_eq, exc_bind lum_eq, exc_bind dist_eq, exc_bind theta_eq, exc_error h_phi]
  rcases h_known.symm with h_known | known_eq
  · left; unfold loadPop
    rw [exc_bind c_eq, exc_bind R.sp_eq, exc_bind lf_eq]
    simp only
    rw [exc_bind sigma_eq, exc_bind nModel_eq, exc_bind rMax_eq, exc_bind seed_eq, exc_bind name_eq, exc_bind form_eq, exc_bind lum_eq, exc_bind dist_eq, exc_bind theta_eq, exc_bind phi_eq, exc_error h_known]
  rcases h_prob.symm with h_prob | prob_eq
  · left; unfold loadPop
    rw [exc_bind c_eq, exc_bind R.sp_eq, exc_bind lf_eq]
    simp only
    rw [exc_bind sigma_eq, exc_bind nModel_eq, exc_bind rMax_eq, exc_bind seed_eq, exc_bind name_eq, exc_bind form_eq, exc_bind lum_eq, exc_bind dist_eq, exc_bind theta_eq, exc_bind phi_eq, exc_bind known_eq, exc_error h_prob]
  rcases h_fluxes.symm with h_fluxes | fluxes_eq
  · left; unfold loadPop
    rw [exc_bind c_eq, exc_bind R.sp_eq, exc_bind lf_eq]
    simp only
    rw [exc_bind sigma_eq, exc_bind nModel_eq, exc_bind rMax_eq, exc_bind seed_eq, exc_bind name_eq, exc_bind form_eq, exc_bind lum_eq, exc_bind dist_eq, exc_bind theta_eq, exc_bind phi_eq, exc_bind known_eq, exc_bind prob_eq, exc_error h_fluxes]
  rcases h_fluxObs.symm with h_fluxObs | fluxObs_eq
  · left; unfold loadPop
    rw [exc_bind c_eq, exc_bind R.sp_eq, exc_bind lf_eq]
    simp only
    rw [exc_bind sigma_eq, exc_bind nModel_eq, exc_bind rMax_eq, exc_bind seed_eq, exc_bind name_eq, exc_bind form_eq, exc_bind lum_eq, exc_bind dist_eq, exc_bind theta_eq, exc_bind phi_eq, exc_bind known_eq, exc_bind prob_eq, exc_bind fluxes_eq, exc_error h_fluxObs]
  rcases h_sel.symm with h_sel | sel_eq
  · left; unfold loadPop
    rw [exc_bind c_eq, exc_bind R.sp_eq, exc_bind lf_eq]
    simp only
    rw [exc_bind sigma_eq, exc_bind nModel_eq, exc_bind rMax_eq, exc_bind seed_eq, exc_bind name_eq, exc_bind form_eq, exc_bind lum_eq, exc_bind dist_eq, exc_bind theta_eq, exc_bind phi_eq, exc_bind known_eq, exc_bind prob_eq, exc_bind fluxes_eq, exc_bind fluxObs_eq, exc_error h_sel]
  rcases h_ms.symm with h_ms | ms_eq
  · left; unfold loadPop
    rw [exc_bind c_eq, exc_bind R.sp_eq, exc_bind lf_eq]
    simp only
    rw [exc_bind sigma_eq, exc_bind nModel_eq, exc_bind rMax_eq, exc_bind seed_eq, exc_bind name_eq, exc_bind form_eq, exc_bind lum_eq, exc_bind dist_eq, exc_bind theta_eq, exc_bind phi_eq, exc_bind known_eq, exc_bind prob_eq, exc_bind fluxes_eq, exc_bind fluxObs_eq, exc_bind sel_eq, exc_error h_ms]
  rcases h_aux.symm with h_aux | aux_eq
  · left; unfold loadPop
    rw [exc_bind c_eq, exc_bind R.sp_eq, exc_bind lf_eq]
    simp only
    rw [exc_bind sigma_eq, exc_bind nModel_eq, exc_bind rMax_eq, exc_bind seed_eq, exc_bind name_eq, exc_bind form_eq, exc_bind lum_eq, exc_bind dist_eq, exc_bind theta_eq, exc_bind phi_eq, exc_bind known_eq, exc_bind prob_eq, exc_bind fluxes_eq, exc_bind fluxObs_eq, exc_bind sel_eq, exc_bind ms_eq, exc_bind R.spaces_eq, exc_error h_aux]
  rcases h_truth.symm with h_truth | truth_eq
  · left; unfold loadPop
    rw [exc_bind c_eq, exc_bind R.sp_eq, exc_bind lf_eq]
    simp only
    rw [exc_bind sigma_eq, exc_bind nModel_eq, exc_bind rMax_eq, exc_bind seed_eq, exc_bind name_eq, exc_bind form_eq, exc_bind lum_eq, exc_bind dist_eq, exc_bind theta_eq, exc_bind phi_eq, exc_bind known_eq, exc_bind prob_eq, exc_bind fluxes_eq, exc_bind fluxObs_eq, exc_bind sel_eq, exc_bind ms_eq, exc_bind R.spaces_eq, exc_bind aux_eq, exc_bind R.stor_eq, exc_error h_truth]
  rcases h_gd.symm with h_gd | gd_eq
  · left; unfold loadPop
    rw [exc_bind c_eq, exc_bind R.sp_eq, exc_bind lf_eq]
    simp only
    rw [exc_bind sigma_eq, exc_bind nModel_eq, exc_bind rMax_eq, exc_bind seed_eq, exc_bind name_eq, exc_bind form_eq, exc_bind lum_eq, exc_bind dist_eq, exc_bind theta_eq, exc_bind phi_eq, exc_bind known_eq, exc_bind prob_eq, exc_bind fluxes_eq, exc_bind fluxObs_eq, exc_bind sel_eq, exc_bind ms_eq, exc_bind R.spaces_eq, exc_bind aux_eq, exc_bind R.stor_eq, exc_bind truth_eq, exc_error h_gd]
  rcases h_ps.symm with h_ps | ps_eq
  · left; unfold loadPop
    rw [exc_bind c_eq, exc_bind R.sp_eq, exc_bind lf_eq]
    simp only
    rw [exc_bind sigma_eq, exc_bind nModel_eq, exc_bind rMax_eq, exc_bind seed_eq, exc_bind name_eq, exc_bind form_eq, exc_bind lum_eq, exc_bind dist_eq, exc_bind theta_eq, exc_bind phi_eq, exc_bind known_eq, exc_bind prob_eq, exc_bind fluxes_eq, exc_bind fluxObs_eq, exc_bind sel_eq, exc_bind ms_eq, exc_bind R.spaces_eq, exc_bind aux_eq, exc_bind R.stor_eq, exc_bind truth_eq, exc_bind gd_eq, exc_error h_ps]
  exact .inr ⟨{ R with c_eq, lf_eq, sigma_eq, nModel_eq, rMax_eq, seed_eq, name_eq, form_eq, lum_eq, dist_eq, theta_eq, phi_eq, known_eq, prob_eq, fluxes_eq, fluxObs_eq, sel_eq, ms_eq, aux_eq, truth_eq, gd_eq, ps_eq }, rfl⟩

/-! ### Links and attributes -/

theorem item_congr {g g' : Tree F} {j : String} (h : Dict.get? g' j = Dict.get? g j) : item g' j = item g j := by
  unfold item; rw [h]

theorem readArr_congr {g g' : Tree F} {j : String} (h : Dict.get? g' j = Dict.get? g j) :
    readArr g' j = readArr g j := by
  unfold readArr; rw [item_congr h]

theorem attr_congr {a a' : Dict (Attr F)} {j : String} (h : Dict.get? a' j = Dict.get? a j) :
    attr a' j = attr a j := by
  unfold attr; rw [h]

theorem loadAt_congr {g g' : Tree F} {j : String} (h : Dict.get? g' j = Dict.get? g j) :
    loadAt decode g' [j] = loadAt decode g [j] := by
  unfold loadAt openGroup; rw [h]

theorem readProb_congr {g g' : Tree F} (h : Dict.get? g' "probability" = Dict.get? g "probability") :
    readProb g' = readProb g := by
  unfold readProb; rw [h]

theorem readKnown_congr {g g' : Tree F} (h : ∀ j ∈ Spec.knownLinks, Dict.get? g' j = Dict.get? g j) :
    readKnown g' = readKnown g := by
  unfold readKnown
  rw [readArr_congr (h _ (by simp [Spec.knownLinks])), item_congr (h "known_distance_idx" (by simp [Spec.knownLinks])),
    item_congr (h "unknown_distance_idx" (by simp [Spec.knownLinks]))]

theorem readLf_congr (h : Dict.get? f'.tree "lf_params" = Dict.get? f.tree "lf_params")
    (h1 : Dict.get? f'.attrs "has_lf" = Dict.get? f.attrs "has_lf")
    (h2 : Dict.get? f'.attrs "lf_form" = Dict.get? f.attrs "lf_form") : readLf f' = readLf f := by
  have : readLfBody f' = readLfBody f := by
    unfold readLfBody
    rw [item_congr h, attr_congr h1, attr_congr h2]
  unfold readLf
  rw [this]

theorem item_none {g : Tree F} {j : String} (h : Dict.get? g j = none) : item g j = .error .key := by
  unfold item; rw [h]

theorem attr_none {a : Dict (Attr F)} {j : String} (h : Dict.get? a j = none) : attr a j = .error .key := by
  unfold attr; rw [h]

theorem item_some {g : Tree F} {j : String} {x : H5 F} (h : Dict.get? g j = some x) : item g j = .ok x := by
  unfold item; rw [h]

theorem readArr_bad {g : Tree F} {j : String} {e : Err} (h : (item g j >>= asArr) = .error e) :
    readArr g j = .error e := h

/-- A link of the file is replaced, and what replaces it cannot be read. -/
theorem loadPop_badLink {x : Option (H5 F)} {e : Err} (h : loadPop decode f = .ok L)
    (hc : Spec.LinkChanged f f' k x)
    (hk : k ∈ Spec.arrayLinks ∨ k ∈ Spec.groupLinks ∨ k = "selection")
    (ha : k ∈ Spec.arrayLinks → (item f'.tree k >>= asArr) = .error e)
    (hg : k ∈ Spec.groupLinks → (item f'.tree k >>= asGroup) = .error e ∧ openGroup f'.tree [k] = .error e)
    (hs : k = "selection" → (item f'.tree k >>= asMask) = .error e) :
    loadPop decode f' = .error e := by
  obtain ⟨R, hR⟩ := loadPop_inv h
  have hkn : ∀ j, j ≠ k → Dict.get? f'.tree j = Dict.get? f.tree j := hc.links
  have no : ∀ j, j ∉ Spec.arrayLinks → j ∉ Spec.groupLinks → j ≠ "selection" → j ≠ k := by
    rintro j h1 h2 h3 rfl
    rcases hk with hk | hk | hk
    · exact h1 hk
    · exact h2 hk
    · exact h3 hk
  have arr : ∀ j ∈ Spec.arrayLinks, readArr f'.tree j = readArr f.tree j ∨ readArr f'.tree j = .error e := by
    intro j hj
    by_cases hjk : j = k
    · subst hjk; exact .inr (ha hj)
    · exact .inl (readArr_congr (hkn j hjk))
  have grp : ∀ j ∈ Spec.groupLinks, (item f'.tree j >>= asGroup) = (item f.tree j >>= asGroup) ∨
      (item f'.tree j >>= asGroup) = .error e := by
    intro j hj
    by_cases hjk : j = k
    · subst hjk; exact .inr (hg hj).1
    · exact .inl (by rw [item_congr (hkn j hjk)])
  have lod : ∀ j ∈ Spec.groupLinks, loadAt decode f'.tree [j] = loadAt decode f.tree [j] ∨
      loadAt decode f'.tree [j] = .error e := by
    intro j hj
    by_cases hjk : j = k
    · subst hjk; exact .inr (by unfold loadAt; rw [exc_error (hg hj).2])
    · exact .inl (loadAt_congr (hkn j hjk))
  have at' : ∀ j, attr f'.attrs j = attr f.attrs j := fun j => attr_congr (hc.attrs j)
  have A : ∀ j ∈ Spec.arrayLinks, ∀ v, readArr f.tree j = .ok v →
      readArr f'.tree j = .ok v ∨ readArr f'.tree j = .error e := fun j hj v hv => hv ▸ arr j hj
  have G : ∀ j ∈ Spec.groupLinks, ∀ v, (item f.tree j >>= asGroup) = .ok v →
      (item f'.tree j >>= asGroup) = .ok v ∨ (item f'.tree j >>= asGroup) = .error e :=
    fun j hj v hv => hv ▸ grp j hj
  have D : ∀ j ∈ Spec.groupLinks, ∀ v, loadAt decode f.tree [j] = .ok v →
      loadAt decode f'.tree [j] = .ok v ∨ loadAt decode f'.tree [j] = .error e :=
    fun j hj v hv => hv ▸ lod j hj
  have S : (item f'.tree "selection" >>= asMask) = .ok R.sel ∨ (item f'.tree "selection" >>= asMask) = .error e := by
    by_cases hjk : "selection" = k
    · subst hjk; exact .inr (hs rfl)
    · exact .inl (by rw [item_congr (hkn _ hjk)]; exact R.sel_eq)
  have lf : readLf f' = readLf f := readLf_congr (hkn _ (no _ (by decide) (by decide) (by decide))) (hc.attrs _) (hc.attrs _)
  have kn : readKnown f'.tree = readKnown f.tree := readKnown_congr fun j hj => hkn j (no j
    (by revert j; decide) (by revert j; decide) (by revert j; decide))
  have pr : readProb f'.tree = readProb f.tree := readProb_congr (hkn _ (no _ (by decide) (by decide) (by decide)))
  rcases loadPop_either (f' := f') (e := e) R (G _ (by decide) _ R.c_eq) (.inl (lf.trans R.lf_eq))
    (.inl (by rw [at']; exact R.sigma_eq)) (.inl (by rw [at']; exact R.nModel_eq)) (.inl (by rw [at']; exact R.rMax_eq))
    (.inl (by rw [at']; exact R.seed_eq)) (.inl (by rw [at']; exact R.name_eq)) (.inl (by rw [at']; exact R.form_eq))
    (A _ (by decide) _ R.lum_eq) (A _ (by decide) _ R.dist_eq) (A _ (by decide) _ R.theta_eq) (A _ (by decide) _ R.phi_eq)
    (.inl (kn.trans R.known_eq)) (.inl (pr.trans R.prob_eq)) (A _ (by decide) _ R.fluxes_eq) (A _ (by decide) _ R.fluxObs_eq)
    S (G _ (by decide) _ R.ms_eq) (G _ (by decide) _ R.aux_eq) (D _ (by decide) _ R.truth_eq) (D _ (by decide) _ R.gd_eq)
    (D _ (by decide) _ R.ps_eq) with h | ⟨R', -⟩
  · exact h
  · exfalso
    rcases hk with hk | hk | hk
    · have b := ha hk
      fin_cases hk
      · exact absurd (R'.lum_eq.symm.trans b) (by simp)
      · exact absurd (R'.dist_eq.symm.trans b) (by simp)
      · exact absurd (R'.theta_eq.symm.trans b) (by simp)
      · exact absurd (R'.phi_eq.symm.trans b) (by simp)
      · exact absurd (R'.fluxes_eq.symm.trans b) (by simp)
      · exact absurd (R'.fluxObs_eq.symm.trans b) (by simp)
    · obtain ⟨b1, b2⟩ := hg hk
      have b3 : loadAt decode f'.tree [k] = .error e := by unfold loadAt; rw [exc_error b2]
      fin_cases hk
      · exact absurd (R'.c_eq.symm.trans b1) (by simp)
      · exact absurd (R'.ms_eq.symm.trans b1) (by simp)
      · exact absurd (R'.aux_eq.symm.trans b1) (by simp)
      · exact absurd (R'.truth_eq.symm.trans b3) (by simp)
      · exact absurd (R'.gd_eq.symm.trans b3) (by simp)
      · exact absurd (R'.ps_eq.symm.trans b3) (by simp)
    · subst hk
      exact absurd (R'.sel_eq.symm.trans (hs rfl)) (by simp)

/-- **C85** (missing): a file that lacks one of the arrays, the selection or one of the groups is
refused with a `KeyError`. -/
theorem C85_missing_link (h : loadPop decode f = .ok L) (hc : Spec.LinkChanged f f' k none)
    (hk : k ∈ Spec.arrayLinks ∨ k ∈ Spec.groupLinks ∨ k = "selection") :
    loadPop decode f' = .error .key := by
  have b := item_none hc.here
  refine loadPop_badLink h hc hk (fun _ => exc_error b) (fun _ => ⟨exc_error b, ?_⟩) (fun _ => exc_error b)
  unfold openGroup
  rw [hc.here]

/-- **C85** (array instead of group): an `AttributeError`. -/
theorem C85_array_for_group {v : Leaf F} (h : loadPop decode f = .ok L)
    (hc : Spec.LinkChanged f f' k (some (.data v))) (hk : k ∈ Spec.groupLinks) :
    loadPop decode f' = .error .attribute := by
  have b := item_some hc.here
  refine loadPop_badLink h hc (.inr (.inl hk)) (fun ha => ?_) (fun _ => ⟨by rw [exc_bind b]; rfl, ?_⟩) (fun hs => ?_)
  · fin_cases hk <;> exact absurd ha (by decide)
  · unfold openGroup
    rw [hc.here]
  · fin_cases hk <;> exact absurd hs (by decide)

/-- **C85** (group instead of array): a `TypeError`. -/
theorem C85_group_for_array {t : Tree F} (h : loadPop decode f = .ok L)
    (hc : Spec.LinkChanged f f' k (some (.group t))) (hk : k ∈ Spec.arrayLinks ∨ k = "selection") :
    loadPop decode f' = .error .type := by
  have b := item_some hc.here
  refine loadPop_badLink h hc (hk.imp_right .inr) (fun _ => by rw [exc_bind b]; rfl) (fun hg => ?_)
    (fun _ => by rw [exc_bind b]; rfl)
  rcases hk with hk | rfl
  · fin_cases hk <;> exact absurd hg (by decide)
  · exact absurd hg (by decide)

/-! ### The optional parts -/

/-- Files that agree in the arrays, groups, selection and attributes. -/
def Readings.move (R : Readings decode f)
    (hl : ∀ j, j ∈ Spec.arrayLinks ∨ j ∈ Spec.groupLinks ∨ j = "selection" → Dict.get? f'.tree j = Dict.get? f.tree j)
    (hat : ∀ j ∈ Spec.fileAttrs, Dict.get? f'.attrs j = Dict.get? f.attrs j)
    {lf : Option (Dict (Option F)) × Option String} {known : Option (List F × List Nat × List Nat)}
    {prob : Option (List F)} (h1 : readLf f' = .ok lf) (h2 : readKnown f'.tree = .ok known)
    (h3 : readProb f'.tree = .ok prob) : Readings decode f' :=
  have A : ∀ j ∈ Spec.arrayLinks, readArr f'.tree j = readArr f.tree j := fun j hj => readArr_congr (hl j (.inl hj))
  have G : ∀ j ∈ Spec.groupLinks, item f'.tree j = item f.tree j := fun j hj => item_congr (hl j (.inr (.inl hj)))
  have D : ∀ j ∈ Spec.groupLinks, loadAt decode f'.tree [j] = loadAt decode f.tree [j] :=
    fun j hj => loadAt_congr (hl j (.inr (.inl hj)))
  have T : ∀ j ∈ Spec.fileAttrs, attr f'.attrs j = attr f.attrs j := fun j hj => attr_congr (hat j hj)
  { R with
    lf := lf, known := known, prob := prob, lf_eq := h1, known_eq := h2, prob_eq := h3
    c_eq := by rw [G _ (by decide)]; exact R.c_eq
    sigma_eq := by rw [T _ (by decide)]; exact R.sigma_eq
    nModel_eq := by rw [T _ (by decide)]; exact R.nModel_eq
    rMax_eq := by rw [T _ (by decide)]; exact R.rMax_eq
    seed_eq := by rw [T _ (by decide)]; exact R.seed_eq
    name_eq := by rw [T _ (by decide)]; exact R.name_eq
    form_eq := by rw [T _ (by decide)]; exact R.form_eq
    lum_eq := (A _ (by decide)).trans R.lum_eq
    dist_eq := (A _ (by decide)).trans R.dist_eq
    theta_eq := (A _ (by decide)).trans R.theta_eq
    phi_eq := (A _ (by decide)).trans R.phi_eq
    fluxes_eq := (A _ (by decide)).trans R.fluxes_eq
    fluxObs_eq := (A _ (by decide)).trans R.fluxObs_eq
    sel_eq := by rw [item_congr (hl _ (.inr (.inr rfl)))]; exact R.sel_eq
    ms_eq := by rw [G _ (by decide)]; exact R.ms_eq
    aux_eq := by rw [G _ (by decide)]; exact R.aux_eq
    truth_eq := (D _ (by decide)).trans R.truth_eq
    gd_eq := (D _ (by decide)).trans R.gd_eq
    ps_eq := (D _ (by decide)).trans R.ps_eq }

/-- **C85** (other names): links and attributes that do not belong to the format are ignored. -/
theorem C85_extra (hl : ∀ j ∈ Spec.formatLinks, Dict.get? f'.tree j = Dict.get? f.tree j)
    (ha : ∀ j ∈ Spec.formatAttrs, Dict.get? f'.attrs j = Dict.get? f.attrs j) :
    loadPop decode f' = loadPop decode f := by
  have A : ∀ j ∈ Spec.arrayLinks, readArr f'.tree j = readArr f.tree j :=
    fun j hj => readArr_congr (hl j (by simp [Spec.formatLinks, hj]))
  have G : ∀ j ∈ Spec.groupLinks, item f'.tree j = item f.tree j :=
    fun j hj => item_congr (hl j (by simp [Spec.formatLinks, hj]))
  have D : ∀ j ∈ Spec.groupLinks, loadAt decode f'.tree [j] = loadAt decode f.tree [j] :=
    fun j hj => loadAt_congr (hl j (by simp [Spec.formatLinks, hj]))
  have T : ∀ j ∈ Spec.formatAttrs, attr f'.attrs j = attr f.attrs j := fun j hj => attr_congr (ha j hj)
  unfold loadPop
  rw [G "spatial_params" (by decide), readLf_congr (hl _ (by decide)) (ha _ (by decide)) (ha _ (by decide)),
    T "flux_sigma" (by decide), T "n_model" (by decide), T "r_max" (by decide), T "seed" (by decide),
    T "name" (by decide), T "spatial_form" (by decide), A "luminosities" (by decide), A "distances" (by decide),
    A "theta" (by decide), A "phi" (by decide), readKnown_congr fun j hj => hl j (by simp [Spec.formatLinks, hj]),
    readProb_congr (hl _ (by decide)), A "fluxes" (by decide), A "flux_obs" (by decide),
    item_congr (hl "selection" (by decide)), G "model_spaces" (by decide), G "auxiliary_quantities" (by decide),
    D "truth" (by decide), D "graph" (by decide), D "popsynth" (by decide)]

theorem linkChanged_core {x : Option (H5 F)} (hc : Spec.LinkChanged f f' k x)
    (h1 : k ∉ Spec.arrayLinks) (h2 : k ∉ Spec.groupLinks) (h3 : k ≠ "selection") (j : String)
    (hj : j ∈ Spec.arrayLinks ∨ j ∈ Spec.groupLinks ∨ j = "selection") :
    Dict.get? f'.tree j = Dict.get? f.tree j := by
  refine hc.links j ?_
  rintro rfl
  rcases hj with hj | hj | hj
  · exact h1 hj
  · exact h2 hj
  · exact h3 hj

theorem readKnown_missing {g : Tree F} (hk : k ∈ Spec.knownLinks) (hn : Dict.get? g k = none)
    {known : Option (List F × List Nat × List Nat)} {g₀ : Tree F} (h : readKnown g₀ = .ok known)
    (hl : ∀ j, j ≠ k → Dict.get? g j = Dict.get? g₀ j) (hs : known.isSome = true) : readKnown g = .ok none := by
  have b := item_none hn
  have hb : ∀ x, known = some x →
      ∃ a i u, readArr g₀ "known_distances" = .ok a ∧ (item g₀ "known_distance_idx" >>= asIdx) = .ok i ∧
      (item g₀ "unknown_distance_idx" >>= asIdx) = .ok u := by
    intro x hx
    subst hx
    unfold readKnown at h
    cases h1 : readArr g₀ "known_distances" with
    | error e => rw [exc_error h1] at h; cases e <;> cases h
    | ok a =>
      rw [exc_bind h1] at h
      cases h2 : (item g₀ "known_distance_idx" >>= asIdx) with
      | error e => rw [exc_error h2] at h; cases e <;> cases h
      | ok i =>
        rw [exc_bind h2] at h
        cases h3 : (item g₀ "unknown_distance_idx" >>= asIdx) with
        | error e => rw [exc_error h3] at h; cases e <;> cases h
        | ok u => exact ⟨a, i, u, rfl, rfl, rfl⟩
  obtain ⟨x, hx⟩ := Option.isSome_iff_exists.1 hs
  obtain ⟨a, i, u, h1, h2, h3⟩ := hb x hx
  unfold readKnown
  fin_cases hk
  · rw [exc_error (x := readArr g "known_distances") (exc_error b)]
  · rw [exc_bind ((readArr_congr (hl _ (by decide))).trans h1),
      exc_error (x := (item g "known_distance_idx" >>= asIdx)) (exc_error b)]
  · have h2' : (item g "known_distance_idx" >>= asIdx) = .ok i := by rw [item_congr (hl _ (by decide))]; exact h2
    rw [exc_bind ((readArr_congr (hl _ (by decide))).trans h1), exc_bind h2',
      exc_error (x := (item g "unknown_distance_idx" >>= asIdx)) (exc_error b)]

theorem mkUnknown_never {l d t p : List F} {m : List Bool} {P : Population F} (h : mkUnknown l d t p m = .ok P) : False := by
  unfold mkUnknown at h
  obtain ⟨_, -, h⟩ := exc_inv h
  obtain ⟨_, -, h⟩ := exc_inv h
  obtain ⟨_, -, h⟩ := exc_inv h
  obtain ⟨_, -, h⟩ := exc_inv h
  cases h

/-- What the constructor was called with. -/
theorem Readings.built {R : Readings decode f} (h : R.result = .ok L) :
    ∃ kd ki ui, R.known = some (kd, ki, ui) ∧ R.build = .ok L.pop ∧
      L = { pop := L.pop, nameBytes := R.name, graph := fromDicts (cleanItems R.gd), truth := R.truth } := by
  obtain ⟨P, h1, h2⟩ := exc_inv h
  cases h2
  rcases hk : R.known with _ | ⟨kd, ki, ui⟩
  · unfold Readings.build at h1
    rw [hk] at h1
    exact (mkUnknown_never h1).elim
  · exact ⟨kd, ki, ui, rfl, h1, rfl⟩

theorem mkSimVar_fits {l : List F} {m : List Bool} (h : l.length = m.length) :
    mkSimVar l l m = .ok { obs := l, latent := l, selection := m } := by
  simp [mkSimVar, h]

/-- **C85** (known distances): the file is refused with a `TypeError`, although the code means to
accept old files without them. -/
theorem C85_violated_known (h : loadPop decode f = .ok L) (hc : Spec.LinkChanged f f' k none)
    (hk : k ∈ Spec.knownLinks) : loadPop decode f' = .error .type := by
  obtain ⟨R, hR⟩ := loadPop_inv h
  obtain ⟨kd, ki, ui, hkn, hb, -⟩ := Readings.built hR
  have n1 : k ∉ Spec.arrayLinks := (by decide : ∀ k ∈ Spec.knownLinks, k ∉ Spec.arrayLinks) k hk
  have n2 : k ∉ Spec.groupLinks := (by decide : ∀ k ∈ Spec.knownLinks, k ∉ Spec.groupLinks) k hk
  have n3 : k ≠ "selection" := (by decide : ∀ k ∈ Spec.knownLinks, k ≠ "selection") k hk
  have n4 : "lf_params" ≠ k := (by decide : ∀ k ∈ Spec.knownLinks, "lf_params" ≠ k) k hk
  have n5 : "probability" ≠ k := (by decide : ∀ k ∈ Spec.knownLinks, "probability" ≠ k) k hk
  have e1 := (readLf_congr (hc.links _ n4) (hc.attrs _) (hc.attrs _)).trans R.lf_eq
  have e2 := readKnown_missing hk hc.here R.known_eq hc.links (by rw [hkn]; rfl)
  have e3 := (readProb_congr (hc.links _ n5)).trans R.prob_eq
  have hm := loadPop_go (R.move (linkChanged_core hc n1 n2 n3) (fun j _ => hc.attrs j) e1 e2 e3)
  rw [hm]
  unfold Readings.build at hb
  rw [hkn] at hb
  have ok := mkPopulation_ok hb
  show (mkUnknown R.lum R.dist R.theta R.phi R.sel >>= _) = _
  refine exc_error ?_
  unfold mkUnknown
  rw [exc_bind (mkSimVar_fits ok.lenLum), exc_bind (mkSimVar_fits ok.lenDist), exc_bind (mkSimVar_fits ok.lenTheta),
    exc_bind (mkSimVar_fits ok.lenPhi)]

theorem readKnown_group {g : Tree F} {t : Tree F} (hk : k ∈ Spec.knownLinks) (hn : Dict.get? g k = some (.group t))
    {known : List F × List Nat × List Nat} {g₀ : Tree F} (h : readKnown g₀ = .ok (some known))
    (hl : ∀ j, j ≠ k → Dict.get? g j = Dict.get? g₀ j) : readKnown g = .error .type := by
  have b := item_some hn
  obtain ⟨a, i, u, h1, h2, h3⟩ : ∃ a i u, readArr g₀ "known_distances" = .ok a ∧
      (item g₀ "known_distance_idx" >>= asIdx) = .ok i ∧ (item g₀ "unknown_distance_idx" >>= asIdx) = .ok u := by
    unfold readKnown at h
    cases h1 : readArr g₀ "known_distances" with
    | error e => rw [exc_error h1] at h; cases e <;> cases h
    | ok a =>
      rw [exc_bind h1] at h
      cases h2 : (item g₀ "known_distance_idx" >>= asIdx) with
      | error e => rw [exc_error h2] at h; cases e <;> cases h
      | ok i =>
        rw [exc_bind h2] at h
        cases h3 : (item g₀ "unknown_distance_idx" >>= asIdx) with
        | error e => rw [exc_error h3] at h; cases e <;> cases h
        | ok u => exact ⟨a, i, u, rfl, rfl, rfl⟩
  unfold readKnown
  fin_cases hk
  · rw [exc_error (x := readArr g "known_distances") (e := .type) (by unfold readArr; rw [exc_bind b]; rfl)]
  · rw [exc_bind ((readArr_congr (hl _ (by decide))).trans h1),
      exc_error (x := (item g "known_distance_idx" >>= asIdx)) (e := .type) (by rw [exc_bind b]; rfl)]
  · have h2' : (item g "known_distance_idx" >>= asIdx) = .ok i := by rw [item_congr (hl _ (by decide))]; exact h2
    rw [exc_bind ((readArr_congr (hl _ (by decide))).trans h1), exc_bind h2',
      exc_error (x := (item g "unknown_distance_idx" >>= asIdx)) (e := .type) (by rw [exc_bind b]; rfl)]

/-- **C85** (group instead of an optional array): a `TypeError` too; the code excuses only names
that are missing. -/
theorem C85_group_for_optional {t : Tree F} (h : loadPop decode f = .ok L)
    (hc : Spec.LinkChanged f f' k (some (.group t))) (hk : k ∈ Spec.knownLinks ∨ k = "probability") :
    loadPop decode f' = .error .type := by
  obtain ⟨R, hR⟩ := loadPop_inv h
  obtain ⟨kd, ki, ui, hkn, -, -⟩ := Readings.built hR
  have n1 : k ∉ Spec.arrayLinks := by
    rcases hk with hk | rfl
    · exact (by decide : ∀ k ∈ Spec.knownLinks, k ∉ Spec.arrayLinks) k hk
    · decide
  have n2 : k ∉ Spec.groupLinks := by
    rcases hk with hk | rfl
    · exact (by decide : ∀ k ∈ Spec.knownLinks, k ∉ Spec.groupLinks) k hk
    · decide
  have n3 : k ≠ "selection" := by
    rcases hk with hk | rfl
    · exact (by decide : ∀ k ∈ Spec.knownLinks, k ≠ "selection") k hk
    · decide
  have n4 : "lf_params" ≠ k := by
    rcases hk with hk | rfl
    · exact (by decide : ∀ k ∈ Spec.knownLinks, "lf_params" ≠ k) k hk
    · decide
  have core := linkChanged_core hc n1 n2 n3
  have A : ∀ j ∈ Spec.arrayLinks, readArr f'.tree j = readArr f.tree j := fun j hj => readArr_congr (core j (.inl hj))
  have G : ∀ j ∈ Spec.groupLinks, item f'.tree j = item f.tree j := fun j hj => item_congr (core j (.inr (.inl hj)))
  have D : ∀ j ∈ Spec.groupLinks, loadAt decode f'.tree [j] = loadAt decode f.tree [j] :=
    fun j hj => loadAt_congr (core j (.inr (.inl hj)))
  have T : ∀ j, attr f'.attrs j = attr f.attrs j := fun j => attr_congr (hc.attrs j)
  have e1 := (readLf_congr (hc.links _ n4) (hc.attrs _) (hc.attrs _)).trans R.lf_eq
  have either : (readKnown f'.tree = .error .type) ∨
      (readKnown f'.tree = .ok R.known ∧ readProb f'.tree = .error .type) := by
    rcases hk with hk | rfl
    · exact .inl (readKnown_group hk hc.here (by rw [R.known_eq, hkn]) hc.links)
    · refine .inr ⟨(readKnown_congr fun j hj => hc.links j ?_).trans R.known_eq, ?_⟩
      · exact (by decide : ∀ j ∈ Spec.knownLinks, j ≠ "probability") j hj
      · unfold readProb
        rw [hc.here]
        rfl
  have kn : readKnown f'.tree = .ok R.known ∨ readKnown f'.tree = .error .type :=
    either.symm.imp (fun h => h.1) id
  have pr : readProb f'.tree = .ok R.prob ∨ readProb f'.tree = .error .type := by
    rcases hk with hk | rfl
    · exact .inl ((readProb_congr (hc.links _
        ((by decide : ∀ k ∈ Spec.knownLinks, "probability" ≠ k) k hk))).trans R.prob_eq)
    · right
      unfold readProb
      rw [hc.here]
      rfl
  rcases loadPop_either (f' := f') (e := .type) R (.inl (by rw [G _ (by decide)]; exact R.c_eq)) (.inl e1)
    (.inl (by rw [T]; exact R.sigma_eq)) (.inl (by rw [T]; exact R.nModel_eq)) (.inl (by rw [T]; exact R.rMax_eq))
    (.inl (by rw [T]; exact R.seed_eq)) (.inl (by rw [T]; exact R.name_eq)) (.inl (by rw [T]; exact R.form_eq))
    (.inl ((A _ (by decide)).trans R.lum_eq)) (.inl ((A _ (by decide)).trans R.dist_eq))
    (.inl ((A _ (by decide)).trans R.theta_eq)) (.inl ((A _ (by decide)).trans R.phi_eq)) kn pr
    (.inl ((A _ (by decide)).trans R.fluxes_eq)) (.inl ((A _ (by decide)).trans R.fluxObs_eq))
    (.inl (by rw [item_congr (core _ (.inr (.inr rfl)))]; exact R.sel_eq))
    (.inl (by rw [G _ (by decide)]; exact R.ms_eq)) (.inl (by rw [G _ (by decide)]; exact R.aux_eq))
    (.inl ((D _ (by decide)).trans R.truth_eq)) (.inl ((D _ (by decide)).trans R.gd_eq))
    (.inl ((D _ (by decide)).trans R.ps_eq)) with h | ⟨R', -⟩
  · exact h
  · rcases either with b | ⟨-, b⟩
    · exact absurd (R'.known_eq.symm.trans b) (by simp)
    · exact absurd (R'.prob_eq.symm.trans b) (by simp)

theorem mkPopulation_noProb {a : PopArgs F} {P : Population F} (h : mkPopulation a = .ok P) :
    mkPopulation { a with probability := none } = .ok { P with probability := none } := by
  unfold mkPopulation at h ⊢
  obtain ⟨l, h1, h⟩ := exc_inv h
  obtain ⟨d, h2, h⟩ := exc_inv h
  obtain ⟨t, h3, h⟩ := exc_inv h
  obtain ⟨p, h4, h⟩ := exc_inv h
  obtain ⟨_, h5, h⟩ := exc_inv h
  obtain ⟨fx, h6, h⟩ := exc_inv h
  obtain ⟨pr, h7, h⟩ := exc_inv h
  obtain ⟨⟨at', prot⟩, h8, h⟩ := exc_inv h
  obtain ⟨_, h9, h⟩ := exc_inv h
  have hp := Except.ok.inj h
  subst hp
  exact (exc_bind h1).trans ((exc_bind h2).trans ((exc_bind h3).trans ((exc_bind h4).trans ((exc_bind h5).trans
    ((exc_bind h6).trans ((exc_bind (show optSimVar (F := F) none _ = .ok none from rfl)).trans ((exc_bind h8).trans ((exc_bind h9).trans rfl))))))))

theorem mkPopulation_noLf {a : PopArgs F} {P : Population F} (h : mkPopulation a = .ok P) :
    mkPopulation { a with lfParams := none, lfForm := none } = .ok { P with lfParams := none, lfForm := none } := by
  unfold mkPopulation at h ⊢
  obtain ⟨l, h1, h⟩ := exc_inv h
  obtain ⟨d, h2, h⟩ := exc_inv h
  obtain ⟨t, h3, h⟩ := exc_inv h
  obtain ⟨p, h4, h⟩ := exc_inv h
  obtain ⟨_, h5, h⟩ := exc_inv h
  obtain ⟨fx, h6, h⟩ := exc_inv h
  obtain ⟨pr, h7, h⟩ := exc_inv h
  obtain ⟨⟨at', prot⟩, h8, h⟩ := exc_inv h
  obtain ⟨_, h9, h⟩ := exc_inv h
  have hp := Except.ok.inj h
  subst hp
  exact (exc_bind h1).trans ((exc_bind h2).trans ((exc_bind h3).trans ((exc_bind h4).trans ((exc_bind h5).trans
    ((exc_bind h6).trans ((exc_bind h7).trans ((exc_bind h8).trans ((exc_bind h9).trans rfl))))))))

/-- **C85** (probability): a file without probabilities is read as the same population without
probabilities. -/
theorem C85_missing_probability (h : loadPop decode f = .ok L)
    (hc : Spec.LinkChanged f f' "probability" none) :
    loadPop decode f' = .ok { L with pop := { L.pop with probability := none } } := by
  obtain ⟨R, hR⟩ := loadPop_inv h
  obtain ⟨kd, ki, ui, hkn, hb, hL⟩ := Readings.built hR
  have e1 := (readLf_congr (hc.links _ (by decide)) (hc.attrs _) (hc.attrs _)).trans R.lf_eq
  have e2 := (readKnown_congr fun j hj => hc.links j ((by decide : ∀ k ∈ Spec.knownLinks, k ≠ "probability") j hj)).trans R.known_eq
  have e3 : readProb f'.tree = .ok none := by unfold readProb; rw [hc.here]
  have hm := loadPop_go (R.move (linkChanged_core hc (by decide) (by decide) (by decide)) (fun j _ => hc.attrs j) e1 e2 e3)
  rw [hm]
  unfold Readings.build at hb
  rw [hkn] at hb
  unfold Readings.result Readings.build
  simp only [Readings.move, hkn]
  rw [exc_bind (mkPopulation_noProb hb), hL]

/-- **C85** (luminosity function): a file that should have a luminosity function but has no
parameters for it is refused with a `KeyError`. -/
theorem C85_missing_lf (h : loadPop decode f = .ok L) (ht : Dict.get? f.attrs "has_lf" = some (.bool true))
    (hc : Spec.LinkChanged f f' "lf_params" none) : loadPop decode f' = .error .key := by
  obtain ⟨R, hR⟩ := loadPop_inv h
  have T : ∀ j, attr f'.attrs j = attr f.attrs j := fun j => attr_congr (hc.attrs j)
  have hlf : readLf f' = .error .key := by
    have : readLfBody f' = .error .key := by
      unfold readLfBody
      have a1 : attr f'.attrs "has_lf" = .ok (.bool true) := by unfold attr; rw [hc.attrs, ht]
      rw [exc_bind a1, exc_bind (show attrBool (Attr.bool (F := F) true) = .ok true from rfl), if_pos rfl,
        exc_error (item_none hc.here)]
    unfold readLf; rw [this]
  have G : (item f'.tree "spatial_params" >>= asGroup) = .ok R.c := by
    rw [item_congr (hc.links _ (by decide))]; exact R.c_eq
  unfold loadPop
  rw [exc_bind G, exc_bind R.sp_eq, exc_error hlf]

/-- **C85** (luminosity function, violated): if the parameters of the luminosity function are not a
group, the damage is not noticed: the population loses its luminosity function. -/
theorem C85_violated_lf {v : Leaf F} (h : loadPop decode f = .ok L)
    (hc : Spec.LinkChanged f f' "lf_params" (some (.data v))) (ht : Dict.get? f.attrs "has_lf" = some (.bool true)) :
    loadPop decode f' = .ok { L with pop := { L.pop with lfParams := none, lfForm := none } } := by
  obtain ⟨R, hR⟩ := loadPop_inv h
  obtain ⟨kd, ki, ui, hkn, hb, hL⟩ := Readings.built hR
  have e1 : readLf f' = .ok (none, none) := by
    have : readLfBody f' = .error .attribute := by
      unfold readLfBody
      have a1 : attr f'.attrs "has_lf" = .ok (.bool true) := by unfold attr; rw [hc.attrs, ht]
      rw [exc_bind a1, exc_bind (show attrBool (Attr.bool (F := F) true) = .ok true from rfl), if_pos rfl,
        exc_bind (item_some hc.here)]
      rfl
    unfold readLf; rw [this]
  have e2 := (readKnown_congr fun j hj => hc.links j ((by decide : ∀ k ∈ Spec.knownLinks, k ≠ "lf_params") j hj)).trans R.known_eq
  have e3 := (readProb_congr (hc.links _ (by decide))).trans R.prob_eq
  have hm := loadPop_go (R.move (linkChanged_core hc (by decide) (by decide) (by decide)) (fun j _ => hc.attrs j) e1 e2 e3)
  rw [hm]
  unfold Readings.build at hb
  rw [hkn] at hb
  unfold Readings.result Readings.build
  simp only [Readings.move, hkn]
  refine (exc_bind (mkPopulation_noLf hb)).trans ?_
  rw [hL]

/-- **C85** (attributes): a file that lacks an attribute is refused with a `KeyError`. -/
theorem C85_missing_attribute (h : loadPop decode f = .ok L) (hc : Spec.AttrGone f f' k) (hk : k ∈ Spec.fileAttrs) :
    loadPop decode f' = .error .key := by
  obtain ⟨R, hR⟩ := loadPop_inv h
  have b := attr_none hc.here
  have T : ∀ {α : Type} (g : Attr F → Except Err α) j v, (attr f.attrs j >>= g) = .ok v →
      (attr f'.attrs j >>= g) = .ok v ∨ (attr f'.attrs j >>= g) = .error .key := by
    intro α g j v hv
    by_cases hjk : j = k
    · subst hjk; exact .inr (exc_error b)
    · exact .inl (by rw [attr_congr (hc.attrs j hjk)]; exact hv)
  have lf : readLf f' = .ok R.lf ∨ readLf f' = .error .key := by
    by_cases hjk : "has_lf" = k
    · right
      have : readLfBody f' = .error .key := by
        unfold readLfBody; subst hjk; rw [exc_error b]
      unfold readLf; rw [this]
    · left
      refine (readLf_congr (hc.links _) (hc.attrs _ hjk) (hc.attrs _ ?_)).trans R.lf_eq
      exact (by decide : ∀ k ∈ Spec.fileAttrs, "lf_form" ≠ k) k hk
  have A : ∀ j, readArr f'.tree j = readArr f.tree j := fun j => readArr_congr (hc.links j)
  have G : ∀ j, item f'.tree j = item f.tree j := fun j => item_congr (hc.links j)
  have D : ∀ j, loadAt decode f'.tree [j] = loadAt decode f.tree [j] := fun j => loadAt_congr (hc.links j)
  rcases loadPop_either (f' := f') (e := .key) R (.inl (by rw [G]; exact R.c_eq)) lf
    (T _ _ _ R.sigma_eq) (T _ _ _ R.nModel_eq) (T _ _ _ R.rMax_eq) (T _ _ _ R.seed_eq) (T _ _ _ R.name_eq) (T _ _ _ R.form_eq)
    (.inl ((A _).trans R.lum_eq)) (.inl ((A _).trans R.dist_eq)) (.inl ((A _).trans R.theta_eq)) (.inl ((A _).trans R.phi_eq))
    (.inl ((readKnown_congr fun j _ => hc.links j).trans R.known_eq)) (.inl ((readProb_congr (hc.links _)).trans R.prob_eq))
    (.inl ((A _).trans R.fluxes_eq)) (.inl ((A _).trans R.fluxObs_eq)) (.inl (by rw [G]; exact R.sel_eq))
    (.inl (by rw [G]; exact R.ms_eq)) (.inl (by rw [G]; exact R.aux_eq)) (.inl ((D _).trans R.truth_eq))
    (.inl ((D _).trans R.gd_eq)) (.inl ((D _).trans R.ps_eq)) with h | ⟨R', -⟩
  · exact h
  · exfalso
    fin_cases hk
    · have : readLfBody f' = .error .key := by unfold readLfBody; rw [exc_error b]
      have e := R'.lf_eq
      unfold readLf at e
      rw [this] at e
      cases e
    · exact absurd (R'.sigma_eq.symm.trans (exc_error b)) (by simp)
    · exact absurd (R'.nModel_eq.symm.trans (exc_error b)) (by simp)
    · exact absurd (R'.rMax_eq.symm.trans (exc_error b)) (by simp)
    · exact absurd (R'.seed_eq.symm.trans (exc_error b)) (by simp)
    · exact absurd (R'.name_eq.symm.trans (exc_error b)) (by simp)
    · exact absurd (R'.form_eq.symm.trans (exc_error b)) (by simp)

/-! ### The constructor -/

theorem mkSimVar_either (o l : List F) (m : List Bool) :
    (∃ v, mkSimVar o l m = .ok v) ∨ mkSimVar o l m = .error .assertion := by
  unfold mkSimVar
  split_ifs
  · exact .inr rfl
  · exact .inr rfl
  · exact .inl ⟨_, rfl⟩

theorem excAssert_either (b : Bool) : excAssert b = .ok () ∨ excAssert b = .error .assertion := by
  cases b
  · exact .inr rfl
  · exact .inl rfl

/-- **C85** (constructor): arrays of wrong lengths, a wrong number of distances and model spaces
of wrong lengths are refused with an `AssertionError`. -/
theorem C85_constructor (a : PopArgs F) (ha : ∀ q, a.aux = some q → Spec.GoodAux a.selection.length [] q)
    (hbad : ¬ Spec.GoodArgs a) : mkPopulation a = .error .assertion := by
  rcases hr : mkPopulation a with e | P
  swap
  · exact absurd ((C30_construction a).1 ⟨P, hr⟩) hbad
  rw [← hr]
  have haux : ∃ x, auxAttrs a.selection a.aux = .ok x := by
    unfold auxAttrs
    rcases hq : a.aux with _ | q
    · exact ⟨_, rfl⟩
    · exact ⟨(_, _), (addAttrs_ok_iff _ _ _ _ _ _).2 ⟨ha q hq, rfl, rfl⟩⟩
  obtain ⟨⟨at', prot⟩, hx⟩ := haux
  have hp : (∃ v, optSimVar a.probability a.selection = .ok v) ∨
      optSimVar a.probability a.selection = .error .assertion := by
    unfold optSimVar
    rcases a.probability with _ | p
    · exact .inl ⟨_, rfl⟩
    · rcases mkSimVar_either p p a.selection with ⟨v, h⟩ | h
      · exact .inl ⟨some v, by simp only; rw [exc_bind h]; rfl⟩
      · exact .inr (by simp only; rw [exc_error h])
  have hok : ∀ P, mkPopulation a ≠ .ok P := fun P h => by rw [hr] at h; cases h
  unfold mkPopulation at hok ⊢
  rcases mkSimVar_either a.luminosities a.luminosities a.selection with ⟨_, h1⟩ | h1
  swap
  · exact exc_error h1
  rcases mkSimVar_either a.distances a.distances a.selection with ⟨_, h2⟩ | h2
  swap
  · rw [exc_bind h1]; exact exc_error h2
  rcases mkSimVar_either a.theta a.theta a.selection with ⟨_, h3⟩ | h3
  swap
  · rw [exc_bind h1, exc_bind h2]; exact exc_error h3
  rcases mkSimVar_either a.phi a.phi a.selection with ⟨_, h4⟩ | h4
  swap
  · rw [exc_bind h1, exc_bind h2, exc_bind h3]; exact exc_error h4
  rcases excAssert_either (a.knownDistances.length + a.unknownIdx.length == countTrue a.selection) with h5 | h5
  swap
  · rw [exc_bind h1, exc_bind h2, exc_bind h3, exc_bind h4]; exact exc_error h5
  rcases mkSimVar_either a.fluxObs a.fluxes a.selection with ⟨_, h6⟩ | h6
  swap
  · rw [exc_bind h1, exc_bind h2, exc_bind h3, exc_bind h4, exc_bind h5]; exact exc_error h6
  rcases hp with ⟨_, h7⟩ | h7
  swap
  · rw [exc_bind h1, exc_bind h2, exc_bind h3, exc_bind h4, exc_bind h5, exc_bind h6]; exact exc_error h7
  rcases excAssert_either (!(a.modelSpaces.isSome && a.spacesNow.any (fun p => p.2.length != a.nModel))) with h9 | h9
  swap
  · rw [exc_bind h1, exc_bind h2, exc_bind h3, exc_bind h4, exc_bind h5, exc_bind h6]
    simp only
    rw [exc_bind h7, exc_bind hx]; exact exc_error h9
  · exfalso
    apply hok
    · rw [exc_bind h1, exc_bind h2, exc_bind h3, exc_bind h4, exc_bind h5, exc_bind h6]
      simp only
      rw [exc_bind h7, exc_bind hx, exc_bind h9]
      rfl

/-- **C85** (lengths): an array with another number of objects than the selection is refused with an
`AssertionError`. -/
theorem C85_length {l : List F} (h : loadPop decode f = .ok L)
    (hc : Spec.LinkChanged f f' k (some (.data (.arr l)))) (hk : k ∈ Spec.arrayLinks)
    (hl : l.length ≠ L.pop.selection.length) : loadPop decode f' = .error .assertion := by
  obtain ⟨R, hR⟩ := loadPop_inv h
  obtain ⟨kd, ki, ui, hkn, hb, -⟩ := Readings.built hR
  unfold Readings.build at hb
  rw [hkn] at hb
  have ok := mkPopulation_ok hb
  have hsel : L.pop.selection = R.sel := ok.rest.2.2.2.1
  rw [hsel] at hl
  have hgood := (C30_construction _).1 ⟨_, hb⟩
  have n4 : ∀ j, j ∈ Spec.groupLinks ++ Spec.knownLinks ++ ["selection", "lf_params", "probability"] → j ≠ k := by
    intro j hj
    exact (by decide : ∀ k ∈ Spec.arrayLinks, ∀ j ∈ Spec.groupLinks ++ Spec.knownLinks ++
      ["selection", "lf_params", "probability"], j ≠ k) k hk j hj
  have G : ∀ j ∈ Spec.groupLinks, item f'.tree j = item f.tree j :=
    fun j hj => item_congr (hc.links j (n4 j (by simp [hj])))
  have D : ∀ j ∈ Spec.groupLinks, loadAt decode f'.tree [j] = loadAt decode f.tree [j] :=
    fun j hj => loadAt_congr (hc.links j (n4 j (by simp [hj])))
  have T : ∀ j, attr f'.attrs j = attr f.attrs j := fun j => attr_congr (hc.attrs j)
  have A : ∀ j v, readArr f.tree j = .ok v → ∃ v', readArr f'.tree j = .ok v' ∧ (j = k → v' = l) := by
    intro j v hv
    by_cases hjk : j = k
    · subst hjk
      refine ⟨l, ?_, fun _ => rfl⟩
      unfold readArr
      rw [exc_bind (item_some hc.here)]
      rfl
    · exact ⟨v, (readArr_congr (hc.links j hjk)).trans hv, fun h => absurd h hjk⟩
  obtain ⟨v1, a1, w1⟩ := A _ _ R.lum_eq
  obtain ⟨v2, a2, w2⟩ := A _ _ R.dist_eq
  obtain ⟨v3, a3, w3⟩ := A _ _ R.theta_eq
  obtain ⟨v4, a4, w4⟩ := A _ _ R.phi_eq
  obtain ⟨v5, a5, w5⟩ := A _ _ R.fluxes_eq
  obtain ⟨v6, a6, w6⟩ := A _ _ R.fluxObs_eq
  let R' : Readings decode f' :=
    { R with
      lum := v1, dist := v2, theta := v3, phi := v4, fluxes := v5, fluxObs := v6
      lum_eq := a1, dist_eq := a2, theta_eq := a3, phi_eq := a4, fluxes_eq := a5, fluxObs_eq := a6
      c_eq := by rw [G _ (by decide)]; exact R.c_eq
      lf_eq := (readLf_congr (hc.links _ (n4 _ (by decide))) (hc.attrs _) (hc.attrs _)).trans R.lf_eq
      sigma_eq := by rw [T]; exact R.sigma_eq
      nModel_eq := by rw [T]; exact R.nModel_eq
      rMax_eq := by rw [T]; exact R.rMax_eq
      seed_eq := by rw [T]; exact R.seed_eq
      name_eq := by rw [T]; exact R.name_eq
      form_eq := by rw [T]; exact R.form_eq
      known_eq := (readKnown_congr fun j hj => hc.links j (n4 j (by simp [hj]))).trans R.known_eq
      prob_eq := (readProb_congr (hc.links _ (n4 _ (by decide)))).trans R.prob_eq
      sel_eq := by rw [item_congr (hc.links _ (n4 _ (by decide)))]; exact R.sel_eq
      ms_eq := by rw [G _ (by decide)]; exact R.ms_eq
      aux_eq := by rw [G _ (by decide)]; exact R.aux_eq
      truth_eq := (D _ (by decide)).trans R.truth_eq
      gd_eq := (D _ (by decide)).trans R.gd_eq
      ps_eq := (D _ (by decide)).trans R.ps_eq }
  rw [loadPop_go R']
  refine exc_error ?_
  have hk' : R'.known = some (kd, ki, ui) := hkn
  unfold Readings.build
  rw [hk']
  refine C85_constructor _ hgood.2.2.2.1 fun hg => hl ?_
  have hm := hg.1
  have sel' : R'.sel = R.sel := rfl
  simp only [List.mem_cons, List.not_mem_nil, or_false, forall_eq_or_imp, forall_eq] at hm
  obtain ⟨m1, m2, m3, m4, m5, m6⟩ := hm
  fin_cases hk
  · exact w1 rfl ▸ m1
  · exact w2 rfl ▸ m2
  · exact w3 rfl ▸ m3
  · exact w4 rfl ▸ m4
  · exact w5 rfl ▸ m5
  · exact w6 rfl ▸ m6

/-! ### Populations that cannot be written -/

/-- **C85** (writing): a population without parameters of the positions, auxiliary quantities, model spaces,
graph or configuration, as the constructor accepts it, cannot be written: `AttributeError`. -/
theorem C85_write {chk : Leaf F → Except Err Unit} {now : Shared F} {P : Population F}
    (h : writePop chk now P = .ok f) :
    writePop chk now { P with spatialParams := none } = .error .attribute ∧
    writePop chk now { P with auxiliary := none } = .error .attribute ∧
    writePop chk now { P with modelSpaces := none } = .error .attribute ∧
    writePop chk now { P with graph := none } = .error .attribute ∧
    writePop chk now { P with popSynth := none } = .error .attribute := by
  unfold writePop at h
  obtain ⟨g0, h0, h⟩ := exc_inv h
  obtain ⟨sp, h1, h⟩ := exc_inv h
  obtain ⟨g1, h2, h⟩ := exc_inv h
  obtain ⟨f1, h3, h⟩ := exc_inv h
  obtain ⟨g2, h4, h⟩ := exc_inv h
  obtain ⟨g3, h5, h⟩ := exc_inv h
  obtain ⟨g4, h6, h⟩ := exc_inv h
  obtain ⟨aux, h7, h⟩ := exc_inv h
  obtain ⟨g5, h8, h⟩ := exc_inv h
  obtain ⟨g6, h9, h⟩ := exc_inv h
  obtain ⟨ms, h10, h⟩ := exc_inv h
  obtain ⟨g7, h11, h⟩ := exc_inv h
  obtain ⟨g8, h12, h⟩ := exc_inv h
  obtain ⟨gr, h13, h⟩ := exc_inv h
  obtain ⟨g9, h14, h⟩ := exc_inv h
  refine ⟨?_, ?_, ?_, ?_, ?_⟩
  · exact (exc_bind h0).trans (exc_error rfl)
  · exact (exc_bind h0).trans <| (exc_bind h1).trans <| (exc_bind h2).trans <| (exc_bind h3).trans <|
      (exc_bind h4).trans <| (exc_bind h5).trans <| (exc_bind h6).trans <| exc_error rfl
  · exact (exc_bind h0).trans <| (exc_bind h1).trans <| (exc_bind h2).trans <| (exc_bind h3).trans <|
      (exc_bind h4).trans <| (exc_bind h5).trans <| (exc_bind h6).trans <| (exc_bind h7).trans <|
      (exc_bind h8).trans <| (exc_bind h9).trans <| exc_error rfl
  · exact (exc_bind h0).trans <| (exc_bind h1).trans <| (exc_bind h2).trans <| (exc_bind h3).trans <|
      (exc_bind h4).trans <| (exc_bind h5).trans <| (exc_bind h6).trans <| (exc_bind h7).trans <|
      (exc_bind h8).trans <| (exc_bind h9).trans <| (exc_bind h10).trans <| (exc_bind h11).trans <|
      (exc_bind h12).trans <| exc_error rfl
  · exact (exc_bind h0).trans <| (exc_bind h1).trans <| (exc_bind h2).trans <| (exc_bind h3).trans <|
      (exc_bind h4).trans <| (exc_bind h5).trans <| (exc_bind h6).trans <| (exc_bind h7).trans <|
      (exc_bind h8).trans <| (exc_bind h9).trans <| (exc_bind h10).trans <| (exc_bind h11).trans <|
      (exc_bind h12).trans <| (exc_bind h13).trans <| (exc_bind h14).trans <| exc_error rfl

/-- **C85** (Stan): nor are such populations turned into data for Stan. -/
theorem C85_stan {log10 : F → F} [OfNat F 0] {now : Shared F} {P : Population F} {r : Dict (StanVal F)}
    (h : toStan log10 now P = .ok r) :
    toStan log10 now { P with modelSpaces := none } = .error .attribute ∧
    toStan log10 now { P with auxiliary := none } = .error .attribute := by
  unfold toStan at h
  obtain ⟨z, h0, h⟩ := exc_inv h
  obtain ⟨fl, h1, h⟩ := exc_inv h
  obtain ⟨ms, h2, h⟩ := exc_inv h
  exact ⟨(exc_bind h0).trans <| (exc_bind h1).trans <| exc_error rfl,
    (exc_bind h0).trans <| (exc_bind h1).trans <| (exc_bind h2).trans <| exc_error rfl⟩

/-! ### Example -/

namespace FileErrorExample

/-- A file without the link `k`, or with another value there. -/
def without (f : H5File F) (k : String) : H5File F := { f with tree := f.tree.filter fun p => p.1 ≠ k }
def withLink (f : H5File F) (k : String) (x : H5 F) : H5File F := { f with tree := Dict.set f.tree k x }
def noAttr (f : H5File F) (k : String) : H5File F := { f with attrs := f.attrs.filter fun p => p.1 ≠ k }

theorem get?_drop {α : Type} (d : Dict α) (k j : String) :
    Dict.get? (d.filter fun p => p.1 ≠ k) j = if j = k then none else Dict.get? d j := by
  induction d with
  | nil => simp [Dict.get?]
  | cons p d ih =>
    obtain ⟨a, v⟩ := p
    by_cases e : a = k
    · subst e
      simp only [ne_eq, not_true_eq_false, decide_false, List.filter_cons, Bool.false_eq_true, if_false] at ih ⊢
      rw [ih]
      by_cases e : j = a
      · simp [e]
      · simp [e, Dict.get?, Ne.symm e]
    · simp only [ne_eq, e, not_false_eq_true, decide_true, List.filter_cons, if_true, Dict.get?] at ih ⊢
      rw [ih]
      by_cases e' : a = j
      · subst e'; simp [e]
      · simp [e']

theorem without_changed (f : H5File F) (k : String) : Spec.LinkChanged f (without f k) k none :=
  ⟨(get?_drop f.tree k k).trans (if_pos rfl), fun j hj => (get?_drop f.tree k j).trans (if_neg hj), fun _ => rfl⟩

theorem withLink_changed (f : H5File F) (k : String) (x : H5 F) :
    Spec.LinkChanged f (withLink f k x) k (some x) :=
  ⟨by simp [withLink], fun j hj => by simp only [withLink]; rw [Dict.get?_set_ne _ _ (Ne.symm hj)], fun _ => rfl⟩

theorem noAttr_gone (f : H5File F) (k : String) : Spec.AttrGone f (noAttr f k) k :=
  ⟨(get?_drop f.attrs k k).trans (if_pos rfl), fun j hj => (get?_drop f.attrs k j).trans (if_neg hj), fun _ => rfl⟩

/-- A survey of two objects is written; what happens when its file is damaged. -/
example (decode : List UInt8 → Option String) : ∃ (f : H5File Nat) (L : Loaded Nat), loadPop decode f = .ok L ∧
    L.pop.selection.length = 2 ∧
    loadPop decode (without f "theta") = .error .key ∧
    loadPop decode (without f "graph") = .error .key ∧
    loadPop decode (withLink f "truth" (.data (.arr [1, 2]))) = .error .attribute ∧
    loadPop decode (withLink f "phi" (.group [])) = .error .type ∧
    loadPop decode (withLink f "phi" (.data (.arr [1, 2, 3]))) = .error .assertion ∧
    loadPop decode (without f "known_distances") = .error .type ∧
    loadPop decode (withLink f "known_distance_idx" (.group [])) = .error .type ∧
    loadPop decode (withLink f "probability" (.group [])) = .error .type ∧
    loadPop decode (noAttr f "seed") = .error .key ∧
    loadPop decode (withLink f "notes" (.group [])) = .ok L ∧
    loadPop decode (without f "probability") = .ok { L with pop := { L.pop with probability := none } } := by
  obtain ⟨P, hP⟩ := FileExample.built
  obtain ⟨f, L, h1, h2, h3⟩ := C40_roundtrip_partial chkAll (fun _ => rfl) decode FileExample.now
    FileExample.args P hP _ _ _ _ _ (FileExample.writable decode P hP)
  have hsel : L.pop.selection.length = 2 := by
    have e : L.pop.selection = P.selection := h3.selection
    rw [e, (mkPopulation_ok hP).rest.2.2.2.1]
    rfl
  refine ⟨f, L, h2, hsel, C85_missing_link h2 (without_changed f _) (by decide),
    C85_missing_link h2 (without_changed f _) (by decide),
    C85_array_for_group h2 (withLink_changed f _ _) (by decide),
    C85_group_for_array h2 (withLink_changed f _ _) (by decide),
    C85_length h2 (withLink_changed f _ _) (by decide) (by rw [hsel]; decide),
    C85_violated_known h2 (without_changed f _) (by decide),
    C85_group_for_optional h2 (withLink_changed f _ _) (by decide),
    C85_group_for_optional h2 (withLink_changed f _ _) (by decide),
    C85_missing_attribute h2 (noAttr_gone f _) (by decide), ?_, C85_missing_probability h2 (without_changed f _)⟩
  refine (C85_extra (fun j hj => (withLink_changed f _ _).links j ?_) fun j _ => rfl).trans h2
  exact (by decide : ∀ j ∈ Spec.formatLinks, j ≠ "notes") j hj

example (decode : List UInt8 → Option String) : ∃ P, mkPopulation FileExample.args = .ok P ∧
    writePop chkAll FileExample.now { P with graph := none } = .error .attribute := by
  obtain ⟨P, hP⟩ := FileExample.built
  obtain ⟨f, L, h1, h2, h3⟩ := C40_roundtrip_partial chkAll (fun _ => rfl) decode FileExample.now
    FileExample.args P hP _ _ _ _ _ (FileExample.writable decode P hP)
  exact ⟨P, hP, (C85_write h1).2.2.2.1⟩

end FileErrorExample

end Popsynth
