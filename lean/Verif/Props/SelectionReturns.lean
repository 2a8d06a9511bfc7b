import Verif.Props.Selection
import Verif.Props.Sampler

/-!
# C12: the selections that come with popsynth can be drawn once their parameters are set

This discharges the hypothesis on selectors of `C12_draw_returns` and `C24_iff`.
-/

set_option autoImplicit false
set_option linter.unusedSectionVars false

namespace Popsynth
open Spec
variable {F G : Type} [LE F] [DecidableLE F] [OfNat F 0] [OfNat F 1]

/-- Parameter `n` of the selector was set to `v`. -/
def Spec.Stored (c : Selector F G) (n : String) (v : F) : Prop :=
  c.params.storage.get? n = some (some v)

/-- The selection selects on values (and not on positions, or on nothing at all). -/
def Spec.Valued (k : SelKind F G) : Prop := k = .box ∨ k = .lower ∨ k = .upper ∨ k = .soft

/-- All parameters of a selection of one of the classes that come with popsynth are set, and the
probabilities they lead to are probabilities. -/
def Spec.ParamsSet (w : World F G) (c : Selector F G) : Prop :=
  match c.kind with
  | .unity => True
  | .bernoulli => ∃ p, Stored c "probability" p ∧ w.sel.validProb p = true
  | .box => ∃ lo hi, Stored c "vmin" lo ∧ Stored c "vmax" hi
  | .lower => ∃ b, Stored c "boundary" b
  | .upper => ∃ b, Stored c "boundary" b
  | .soft => ∃ k b, Stored c "strength" k ∧ Stored c "boundary" b ∧
      ∀ x, w.sel.validProb (w.sel.softLog k b x) = true
  | .distance => ∃ lo hi, Stored c "min_distance" lo ∧ Stored c "max_distance" hi
  | .galactic => ∃ l, Stored c "b_limit" l
  | .dummy => False
  | .custom _ => False

/-- The data the selection selects on has `n` entries. -/
structure Spec.DataSet (n : Nat) (c : Selector F G) : Prop where
  values : Valued c.kind → ∃ vs, source c.data = some (some vs) ∧ vs.length = n
  spatial : c.kind.isSpatial = true → ∃ sp, c.data.spatial = some sp ∧ sp.distances.length = n ∧
    sp.galB.length = n

theorem selParam_stored {d : ParamDecl F} {n : String} {s : SelSt F G} {v : F}
    (hd : d.isNorm = false) (h : Stored s.sel n v) : selParam d n s = .ok v s := by
  unfold Stored at h
  unfold selParam paramGet
  simp [bind_apply, touchNorm, hd, h]

/-- A selection whose parameters and data are set draws one entry per object and keeps
everything else. -/
theorem selDraw_returns (w : World F G) (n : Nat) (s : SelSt F G) (hp : ParamsSet w s.sel)
    (hd : DataSet n s.sel) :
    ∃ m g, selDraw w.sel w.half w.ninety w.showProgress n s =
      .ok () { sel := { s.sel with selection := some m }, rng := g } ∧ m.length = n := by
  unfold ParamsSet at hp
  have hv : Valued s.sel.kind → ∃ vs, chosenValues s.sel.data = .ok (some vs) ∧ vs.length = n := by
    intro h
    obtain ⟨vs, h1, h2⟩ := hd.values h
    refine ⟨vs, ?_, h2⟩
    rw [C06_source, h1]
  cases hk : s.sel.kind with
  | unity =>
    exact ⟨_, s.rng, by simp [selDraw, bind_apply, hk, setMask]; rfl, by simp⟩
  | bernoulli =>
    simp only [hk] at hp
    obtain ⟨p, h1, h2⟩ := hp
    have k1 := selParam_stored (d := declProb w.half) rfl h1
    cases hpb : w.showProgress with
    | false =>
      refine ⟨(bernMany w.sel (List.replicate n p) s.rng).1, (bernMany w.sel (List.replicate n p) s.rng).2,
        ?_, by rw [length_bernMany]; simp⟩
      simp [selDraw, bind_apply, hk, k1, h2, setMask]
    | true =>
      by_cases hn : n = 0
      · subst hn
        exact ⟨[], s.rng, by simp [selDraw, bind_apply, hk, setMask], rfl⟩
      · have k2 := selParam_stored (d := declProb w.half)
          (s := { s with sel := { s.sel with selection := some (List.replicate n false) } }) rfl h1
        have hloop := bernLoop_eq w.sel p n 0 [] s.rng rfl
        simp only [List.nil_append, Nat.zero_add, List.map_id_fun', id_eq] at hloop
        simp only [hk] at k2
        refine ⟨(bernMany w.sel (List.replicate n p) s.rng).1, (bernMany w.sel (List.replicate n p) s.rng).2,
          ?_, by rw [length_bernMany]; simp⟩
        simp [selDraw, bind_apply, hk, hn, k2, h2, setMask, hloop]
  | box =>
    simp only [hk] at hp
    obtain ⟨lo, hi, h1, h2⟩ := hp
    obtain ⟨vs, h3, h4⟩ := hv (by simp [Valued, hk])
    have k1 := selParam_stored (d := declBox) rfl h1
    have k2 := selParam_stored (d := declBox) rfl h2
    refine ⟨andMask (geMask vs lo) (leMask vs hi), s.rng, ?_, by simp [andMask, geMask, leMask, h4]⟩
    simp [selDraw, bind_apply, hk, h3, k1, k2, setMask, liftE, needArray]
  | lower =>
    simp only [hk] at hp
    obtain ⟨b, h1⟩ := hp
    obtain ⟨vs, h3, h4⟩ := hv (by simp [Valued, hk])
    have k1 := selParam_stored (d := declBoundary) rfl h1
    refine ⟨geMask vs b, s.rng, ?_, by simp [geMask, h4]⟩
    simp [selDraw, bind_apply, hk, h3, k1, setMask, liftE, needArray]
  | upper =>
    simp only [hk] at hp
    obtain ⟨b, h1⟩ := hp
    obtain ⟨vs, h3, h4⟩ := hv (by simp [Valued, hk])
    have k1 := selParam_stored (d := declBoundary) rfl h1
    refine ⟨leMask vs b, s.rng, ?_, by simp [leMask, h4]⟩
    simp [selDraw, bind_apply, hk, h3, k1, setMask, liftE, needArray]
  | soft =>
    simp only [hk] at hp
    obtain ⟨k, b, h1, h2, h5⟩ := hp
    obtain ⟨vs, h3, h4⟩ := hv (by simp [Valued, hk])
    have k1 := selParam_stored (d := declStrength) rfl h1
    have k2 := selParam_stored (d := declBoundary) rfl h2
    refine ⟨(bernMany w.sel (vs.map (w.sel.softLog k b)) s.rng).1,
      (bernMany w.sel (vs.map (w.sel.softLog k b)) s.rng).2, ?_, by rw [length_bernMany]; simp [h4]⟩
    simp [selDraw, bind_apply, hk, h3, k1, k2, setMask, liftE, needArray, h5]
  | dummy => simp only [hk] at hp
  | distance =>
    simp only [hk] at hp
    obtain ⟨lo, hi, h1, h2⟩ := hp
    obtain ⟨sp, h3, h4, -⟩ := hd.spatial (by simp [hk, SelKind.isSpatial])
    have k1 := selParam_stored (d := declDistance) rfl h1
    have k2 := selParam_stored (d := declDistance) rfl h2
    refine ⟨andMask (geMask sp.distances lo) (leMask sp.distances hi), s.rng, ?_,
      by simp [andMask, geMask, leMask, h4]⟩
    simp [selDraw, bind_apply, hk, h3, k1, k2, setMask]
  | galactic =>
    simp only [hk] at hp
    obtain ⟨l, h1⟩ := hp
    obtain ⟨sp, h3, -, h4⟩ := hd.spatial (by simp [hk, SelKind.isSpatial])
    have k1 := selParam_stored (d := declBLimit w.ninety) rfl h1
    refine ⟨orMask (geMask sp.galB l) (leMask sp.galB (w.sel.neg l)), s.rng, ?_,
      by simp [orMask, geMask, leMask, h4]⟩
    simp [selDraw, bind_apply, hk, h3, k1, setMask]
  | custom f => simp only [hk] at hp

/-- A selector for a sampler: parameters set, selects on the observed values if on any, and not
on positions. -/
structure Spec.ForSampler (w : World F G) (c : Selector F G) : Prop where
  params : ParamsSet w c
  notSpatial : c.kind.isSpatial = false
  obs : Valued c.kind → c.data.useObs = true ∧ c.data.useLuminosity = false ∧ c.data.useFlux = false

/-- **C12** (built-in selections): selections of the classes that come with popsynth, with their
parameters set, can be drawn by a sampler and give one entry per object. -/
theorem C12_builtin_selectable (w : World F G) (n : Nat) :
    Selectable w n (ForSampler w) (fun o => ∃ m, o = some m ∧ m.length = n) where
  draws := by
    intro st o hc ho
    obtain ⟨m, g, k1, k2⟩ := selDraw_returns w n
      { st with sel := { st.sel with data := { st.sel.data with obsValue := some o } } }
      hc.params ⟨by
        intro hv
        obtain ⟨h1, h2, h3⟩ := hc.obs hv
        exact ⟨o, by simp [source, h1, h2, h3], ho⟩, by
        intro hs
        rw [show SelKind.isSpatial st.sel.kind = false from hc.notSpatial] at hs; cases hs⟩
    exact ⟨_, k1, ⟨hc.params, hc.notSpatial, hc.obs⟩, m, rfl, k2⟩
  dist := fun c d hc => ⟨hc.params, hc.notSpatial, hc.obs⟩
  lum := fun c l hc => ⟨hc.params, hc.notSpatial, hc.obs⟩

/-- A selector with an unset boundary is not covered, and cannot be drawn. -/
example (n : Nat) : ¬ ParamsSet SamplerExample.w ({ kind := .lower } : Selector Nat Nat) ∧
    ForSampler SamplerExample.w
      (⟨.lower, "", "", { storage := [("boundary", some 3)] }, { useObs := true }, none, false⟩ :
        Selector Nat Nat) := by
  refine ⟨?_, ⟨3, rfl⟩, rfl, fun _ => ⟨rfl, rfl, rfl⟩⟩
  rintro ⟨b, h⟩
  cases h

end Popsynth
